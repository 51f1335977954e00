import Verif.Spec.Async
import Verif.Spec.Draws
import Verif.Proofs.Aliasing
import Verif.Proofs.SplitPTerm
import Mathlib.Logic.Hydra

/-! # Invariant of a program that makes calls at any time

The calls in progress are a `World` whose calls are numbered `some 0`, `some 1`, ...; numbers of calls that have returned or
have not been made stand for an idle call.  `none` is the program itself: it is an idle call that may read everything the
program knows, so that the invariant says that calls do not own known memory and do not change it. -/

namespace Verif.Proofs.Own
open Verif Outcome Galois Shamir Spec Pool Csprng Verif.Heap

section change
variable {ι : Type} [DecidableEq ι]

/-- Calls that are not affected keep everything; about the others (`N`) everything has to be known. -/
theorem ainv_change {arch : Arch} {h0 h0' : ι → HeapF} {R R' : ι → Set Loc} {jobs jobs' : ι → Job}
    {g g' : ι → Option (List Arr)} {W W' : ι ⊕ ι × Nat → Set Loc} {s s' : World ι} (I : AInv arch h0 R jobs g W s)
    (N : ι → Prop)
    (hpool : pooled s'.shared = pooled s.shared) (hnext : s.shared.next ≤ s'.shared.next) (hW : ∀ t, W' t ⊆ W t)
    (hdR : ∀ t i, Disjoint (W' t) (R' i)) (hpR : ∀ a ∈ pooled s.shared, ∀ i, Fresh (R' i) a)
    (hnR : ∀ a, s'.shared.next ≤ a → ∀ i, Fresh (R' i) a)
    (kept : ∀ i, ¬ N i → R' i = R i ∧ h0' i = h0 i ∧ jobs' i = jobs i ∧ g' i = g i ∧ s'.proc i = s.proc i ∧
      (∀ t, callOf t = i → W' t = W t ∧ Agree (W t ∪ R i) s.shared.heap s'.shared.heap))
    (new : ∀ i, N i → PhaseOk (jobs' i) (s'.proc i) (g' i) ∧ Agree (R' i) (h0' i) s'.shared.heap ∧
      wp (R' i) (s'.proc i).main.prog (mainPost arch (h0' i) (jobs' i) (g' i)) (W' (.inl i)) s'.shared.heap
        (s'.proc i).main.drawn ∧
      ∀ j, wp (R' i) (((s'.proc i).workers[j]?).getD (pending (jobs' i) (g' i) j)).prog (workerPost (h0' i) (jobs' i) (g' i) j)
        (W' (.inr (i, j))) s'.shared.heap (((s'.proc i).workers[j]?).getD (pending (jobs' i) (g' i) j)).drawn) :
    AInv arch h0' R' jobs' g' W' s' where
  phase i := by
    by_cases hi : N i
    · exact (new i hi).1
    · obtain ⟨-, -, e3, e4, e5, -⟩ := kept i hi
      rw [e3, e4, e5]; exact I.phase i
  agree i := by
    by_cases hi : N i
    · exact (new i hi).2.1
    · obtain ⟨e1, e2, -, -, -, e6⟩ := kept i hi
      rw [e1, e2]
      intro a q hm
      exact (I.agree i a q hm).trans ((e6 (.inl i) rfl).2 a q (.inr hm))
  inv := {
    disjW := fun t u htu => (I.inv.disjW t u htu).mono (hW t) (hW u)
    disjR := fun t u => hdR t _
    poolNodup := by
      show (pooled s'.shared).Nodup
      rw [hpool]; exact I.inv.poolNodup
    poolLt := fun a ha => by
      have ha : a ∈ pooled s'.shared := ha
      rw [hpool] at ha
      exact lt_of_lt_of_le (I.inv.poolLt a ha) hnext
    poolFreshW := fun a ha t => by
      have ha : a ∈ pooled s'.shared := ha
      rw [hpool] at ha
      exact (I.inv.poolFreshW a ha t).mono (hW t)
    poolFreshR := fun a ha t => by
      have ha : a ∈ pooled s'.shared := ha
      rw [hpool] at ha
      exact hpR a ha _
    newW := fun a ha t => (I.inv.newW a (hnext.trans ha) t).mono (hW t)
    newR := fun a ha t => hnR a ha _
    run := fun t => by
      match t with
      | .inl i =>
        by_cases hi : N i
        · exact (new i hi).2.2.1
        · obtain ⟨e1, e2, e3, e4, e5, e6⟩ := kept i hi
          obtain ⟨e7, e8⟩ := e6 (.inl i) rfl
          have := I.inv.run (.inl i)
          have := wp_stable (posts_stable arch h0 jobs g (.inl i)) _ _ _ _ _ e8 this
          show wp (R' i) (s'.proc i).main.prog (mainPost arch (h0' i) (jobs' i) (g' i)) (W' (.inl i)) _ (s'.proc i).main.drawn
          rw [e1, e2, e3, e4, e5, e7]
          exact this
      | .inr (i, j) =>
        by_cases hi : N i
        · exact (new i hi).2.2.2 j
        · obtain ⟨e1, e2, e3, e4, e5, e6⟩ := kept i hi
          obtain ⟨e7, e8⟩ := e6 (.inr (i, j)) rfl
          have := I.inv.run (.inr (i, j))
          have := wp_stable (posts_stable arch h0 jobs g (.inr (i, j))) _ _ _ _ _ e8 this
          show wp (R' i) (((s'.proc i).workers[j]?).getD (pending (jobs' i) (g' i) j)).prog (workerPost (h0' i) (jobs' i) (g' i) j)
            (W' (.inr (i, j))) s'.shared.heap (((s'.proc i).workers[j]?).getD (pending (jobs' i) (g' i) j)).drawn
          rw [e1, e2, e3, e4, e5, e7]
          exact this }

end change

/-! ## The program as a world -/

/-- A call that has nothing to do. -/
def idleJob : Job := .seq (.combine [])

def idleResult : Outcome (List Slice) := (fun _ => []) <$> combine []

def idleProc : Proc := ⟨.done idleResult, ⟨.ret idleResult, []⟩, []⟩

/-- Call `i`, if it has not returned. -/
def active (s : Program) (i : Nat) : Option CallState := (s.calls[i]?).filter fun c => c.returned.isNone

def jobOf (s : Program) : Option Nat → Job
  | none => idleJob
  | some i => ((active s i).map (·.job)).getD idleJob

def procOf (s : Program) : Option Nat → Proc
  | none => idleProc
  | some i => ((active s i).map (·.proc)).getD idleProc

def worldOf (s : Program) : World (Option Nat) := ⟨s.shared, procOf s⟩

/-- The bytes of the arguments. -/
def cellsOf (job : Job) : Set Loc := {l | ∃ sl ∈ job.inputs, sl.arr = l.1 ∧ sl.off ≤ l.2 ∧ l.2 < sl.off + sl.len}

def readable (s : Program) : Option Nat → Set Loc
  | none => {l | l.1 ∈ s.known}
  | some i => cellsOf (jobOf s (some i))

/-- The invariant. -/
structure PInv (arch : Arch) (s : Program) : Prop where
  ex : ∃ h0 g W, AInv arch h0 (readable s) (jobOf s) g W (worldOf s) ∧ Ready h0 (readable s) (jobOf s) ∧
    ∀ i c, active s i = some c → c.ins = c.job.inputs.map (contents (h0 (some i)))
  correct : ∀ c ∈ s.calls, ∀ o, c.returned = some o → JobCorrect arch c.job c.ins c.proc.main.drawn (workerDraws c.proc) o
  adm : ∀ c ∈ s.calls, JobAdmissible c.job
  draws : ∀ c ∈ s.calls, ∀ o, c.returned = some o → ∀ call, c.job = .seq call → Consumes call c.ins o c.proc.main.drawn
  lens : ∀ c ∈ s.calls, c.ins.map List.length = c.job.inputs.map (·.len) ∧ ∀ sl ∈ c.job.inputs, sl.len ≤ sl.cap

theorem idle_main (arch : Arch) (h h' : HeapF) (W : Set Loc) (R : Set Loc) :
    wp R idleProc.main.prog (mainPost arch h idleJob none) W h' idleProc.main.drawn := by
  show (CallPost arch (.combine []) [] idleResult W h' [] ∧ Consumes (.combine []) [] idleResult [])
  refine ⟨⟨?_, ?_⟩, rfl⟩
  · rfl
  · intro slices h; cases h

theorem idle_worker (h h' : HeapF) (W : Set Loc) (R : Set Loc) (j : Nat) :
    wp R ((idleProc.workers[j]?).getD (pending idleJob none j)).prog (workerPost h idleJob none j) W h'
      ((idleProc.workers[j]?).getD (pending idleJob none j)).drawn := trivial

theorem idle_phase : PhaseOk idleJob idleProc none := ⟨rfl, .inl ⟨rfl, rfl, .inl ⟨_, rfl⟩⟩⟩

theorem phase_idle_none {g : Option (List Arr)} (h : PhaseOk idleJob idleProc g) : g = none := by
  obtain ⟨-, ⟨h, -⟩ | ⟨_, _, _, _, _, h, -⟩⟩ := h
  · exact h
  · cases h

theorem active_some {s : Program} {i : Nat} {c : CallState} :
    active s i = some c ↔ s.calls[i]? = some c ∧ c.returned = none := by
  unfold active
  rw [Option.filter_eq_some_iff]
  simp

theorem active_set {s : Program} {i : Nat} {c c' : CallState} (hc : s.calls[i]? = some c) (σ' : Shared) (known : Set Arr)
    (k : Nat) : active ⟨σ', known, s.calls.set i c'⟩ k =
      if k = i then (if c'.returned.isNone then some c' else none) else active s k := by
  have hlt := (List.getElem?_eq_some_iff.1 hc).1
  unfold active
  split
  · rename_i h; subst h
    simp only [List.getElem?_set_self hlt]
    rw [Option.filter_some]
  · rename_i h
    simp only [List.getElem?_set_ne (Ne.symm h)]

theorem readable_disjoint_known {arch : Arch} {s : Program} {h0 : Option Nat → HeapF} {g : Option Nat → Option (List Arr)}
    {W : Option Nat ⊕ Option Nat × Nat → Set Loc} (I : AInv arch h0 (readable s) (jobOf s) g W (worldOf s)) {a : Arr}
    (ha : a ∈ s.known) (t : Option Nat ⊕ Option Nat × Nat) : Fresh (W t) a := fun k hk =>
  Set.disjoint_left.1 (I.inv.disjR t (.inl none)) hk ha

/-- The memory a returned slice lies in belongs to the call. -/
theorem aowned {ι : Type} [DecidableEq ι] {arch : Arch} {h0 : ι → HeapF} {R : ι → Set Loc} {jobs : ι → Job}
    (hst : Ready h0 R jobs)
    {g : ι → Option (List Arr)} {W : ι ⊕ ι × Nat → Set Loc} {s : World ι} (I : AInv arch h0 R jobs g W s) {i : ι}
    {outs : List Slice} (hd : (s.proc i).phase = .done (ok outs)) {sl : Slice} (hsl : sl ∈ outs) (q : Nat) :
    (sl.arr, q) ∈ W (.inl i) ∨ ∃ j, (sl.arr, q) ∈ W (.inr (i, j)) := by
  cases hj : jobs i with
  | seq c =>
    have hw := I.inv.run (.inl i)
    have hw : wp _ (s.proc i).main.prog (mainPost arch (h0 i) (jobs i) (g i)) (W (.inl i)) s.shared.heap (s.proc i).main.drawn := hw
    have h1 : (s.proc i).main.prog = .ret (ok outs) := (done_ret (I.phase i) hd).1
    rw [h1, hj] at hw
    exact .inl (((hw.1.2 outs rfl).2 sl hsl).1 rfl)
  | splitP secret parts threshold perm =>
    rcases adone_splitP hst I hj hd with ⟨e, h1, -⟩ | ⟨arrs, h1, -, -, -, -, -, -, -, -, hown⟩
    · cases h1
    cases h1
    obtain ⟨a, ha, rfl⟩ := List.mem_map.1 hsl
    exact hown a ha q

/-- What a call that is done returns. -/
theorem adone_correct {ι : Type} [DecidableEq ι] {arch : Arch} {h0 : ι → HeapF} {R : ι → Set Loc} {jobs : ι → Job}
    (hst : Ready h0 R jobs)
    {g : ι → Option (List Arr)} {W : ι ⊕ ι × Nat → Set Loc} {s : World ι} (I : AInv arch h0 R jobs g W s) {i : ι}
    {r : Outcome (List Slice)} (hd : (s.proc i).phase = .done r) :
    JobCorrect arch (jobs i) ((jobs i).inputs.map (contents (h0 i))) (s.proc i).main.drawn (workerDraws (s.proc i))
      ((fun outs => outs.map (contents s.shared.heap)) <$> r) ∧
    ∀ c, jobs i = .seq c → Consumes c (c.inputs.map (contents (h0 i))) ((fun outs => outs.map (contents s.shared.heap)) <$> r)
      (s.proc i).main.drawn := by
  cases hj : jobs i with
  | seq c =>
    have hw := I.inv.run (.inl i)
    have hw : wp _ (s.proc i).main.prog (mainPost arch (h0 i) (jobs i) (g i)) (W (.inl i)) s.shared.heap (s.proc i).main.drawn := hw
    have h1 : (s.proc i).main.prog = .ret r := (done_ret (I.phase i) hd).1
    rw [h1, hj] at hw
    refine ⟨hw.1.1, ?_⟩
    rintro _ ⟨⟩
    have h2 := hw.2
    revert h2
    generalize (s.proc i).main.drawn = l
    unfold Consumes
    cases c <;> cases r <;> exact fun h => h
  | splitP secret parts threshold perm =>
    refine ⟨?_, fun c hc => by cases hc⟩
    have hbl : (contents (h0 i) secret).length = secret.len := by
      have := hst.bounds i secret (by rw [hj]; simp [Job.inputs])
      unfold InBounds at this
      simp [contents]; omega
    unfold JobCorrect
    simp only [Job.inputs, List.map_cons, List.map_nil, List.headD_cons]
    rcases adone_splitP hst I hj hd with ⟨e, h1, h2⟩ | ⟨arrs, h1, -, -, -, hv, -, h3, h2, -⟩
    · rw [h1, h2]; rfl
    · rw [argError_none.2 hv, hbl]
      exact ⟨by simp only [h1, map_ok, h2], h3⟩

theorem jobOf_some {s : Program} {i : Nat} {c : CallState} (h : active s i = some c) : jobOf s (some i) = c.job := by
  simp [jobOf, h]

theorem procOf_some {s : Program} {i : Nat} {c : CallState} (h : active s i = some c) : procOf s (some i) = c.proc := by
  simp [procOf, h]

/-- A step of a call. -/
theorem pinv_step {arch : Arch} {s : Program} (I : PInv arch s) {i : Nat} {c : CallState} {σ' : Shared} {p' : Proc}
    (hc : s.calls[i]? = some c) (hn : c.returned = none) (h : ProcStep c.job s.shared c.proc σ' p') :
    PInv arch ⟨σ', s.known, s.calls.set i { c with proc := p' }⟩ ∧ ∀ a ∈ s.known, σ'.heap a = s.shared.heap a := by
  obtain ⟨⟨h0, g, W, A, hrdy, hins⟩, hcor, hadm, hdr, hlens⟩ := I
  have hact : active s i = some c := active_some.2 ⟨hc, hn⟩
  have hstep : WorldStep (jobOf s) (worldOf s) ⟨σ', Function.update (procOf s) (some i) p'⟩ :=
    WorldStep.mk (worldOf s) (some i) σ' p' (by
      show ProcStep _ s.shared (procOf s (some i)) σ' p'
      rw [jobOf_some hact, procOf_some hact]; exact h)
  obtain ⟨g', W', A', -⟩ := ainv_step hrdy A hstep
  have hset := fun k => active_set (c' := { c with proc := p' }) hc σ' s.known k
  have hjob : jobOf ⟨σ', s.known, s.calls.set i { c with proc := p' }⟩ = jobOf s := by
    funext k
    cases k with
    | none => rfl
    | some k =>
      simp only [jobOf, hset]
      split
      · rename_i e; subst e
        simp [hn, hact]
      · rfl
  have hproc : procOf ⟨σ', s.known, s.calls.set i { c with proc := p' }⟩ = Function.update (procOf s) (some i) p' := by
    funext k
    cases k with
    | none => rfl
    | some k =>
      simp only [procOf, hset]
      split
      · rename_i e; subst e
        simp [hn]
      · rename_i e
        rw [Function.update_of_ne (by simpa using e)]
        rfl
  have hread : readable ⟨σ', s.known, s.calls.set i { c with proc := p' }⟩ = readable s := by
    funext k
    cases k with
    | none => rfl
    | some k => simp only [readable, hjob]
  have hworld : worldOf ⟨σ', s.known, s.calls.set i { c with proc := p' }⟩ = ⟨σ', Function.update (procOf s) (some i) p'⟩ := by
    unfold worldOf; rw [hproc]
  have hmem : ∀ d ∈ s.calls.set i { c with proc := p' }, d ∈ s.calls ∨ d = { c with proc := p' } := fun d hd =>
    List.mem_or_eq_of_mem_set hd
  refine ⟨⟨⟨h0, g', W', by rw [hjob, hread, hworld]; exact A', by rw [hjob, hread]; exact hrdy, ?_⟩, ?_, ?_, ?_, ?_⟩, ?_⟩
  · intro k d hd
    rw [hset] at hd
    split at hd
    · rename_i e; subst e
      simp only [hn, Option.isNone_none, if_true, Option.some.injEq] at hd
      subst hd
      exact hins k c hact
    · exact hins k d hd
  · intro d hd o ho
    rcases hmem d hd with hd | rfl
    · exact hcor d hd o ho
    · simp [hn] at ho
  · intro d hd
    rcases hmem d hd with hd | rfl
    · exact hadm d hd
    · exact hadm c (List.mem_of_getElem? hc)
  · intro d hd o ho
    rcases hmem d hd with hd | rfl
    · exact hdr d hd o ho
    · simp [hn] at ho
  · intro d hd
    rcases hmem d hd with hd | rfl
    · exact hlens d hd
    · exact hlens c (List.mem_of_getElem? hc)
  · intro a ha
    apply List.ext_getElem?
    intro q
    have h1 := A.agree none a q ha
    have h2 := A'.agree none a q ha
    exact h2.symm.trans h1

/-- The program changes memory or gets to know memory, without touching what calls use. -/
theorem pinv_memory {arch : Arch} {s : Program} (I : PInv arch s) {σ' : Shared} {known' : Set Arr}
    (hpool : σ'.pool = s.shared.pool) (hnext : s.shared.next ≤ σ'.next)
    (hkn : ∀ a ∈ known', a ∈ s.known ∨ (s.shared.next ≤ a ∧ a < σ'.next))
    (hheap : ∀ (a : Arr) (q : Nat), a ∉ s.known → a < s.shared.next → (σ'.heap a)[q]? = (s.shared.heap a)[q]?)
    (hin : ∀ c ∈ s.calls, c.returned = none → ∀ (a : Arr) (q : Nat), (a, q) ∈ cellsOf c.job → (σ'.heap a)[q]? = (s.shared.heap a)[q]?) :
    PInv arch ⟨σ', known', s.calls⟩ := by
  obtain ⟨⟨h0, g, W, A, hrdy, hins⟩, hcor, hadm, hdr, hlens⟩ := I
  have hpooled : pooled σ' = pooled s.shared := by unfold pooled; rw [hpool]
  have hjob : jobOf ⟨σ', known', s.calls⟩ = jobOf s := by
    funext k; cases k <;> rfl
  have hproc : procOf ⟨σ', known', s.calls⟩ = procOf s := by
    funext k; cases k <;> rfl
  have hread : ∀ i, readable ⟨σ', known', s.calls⟩ (some i) = readable s (some i) := fun i => rfl
  have hrun : ∀ i, Agree (readable s (some i)) s.shared.heap σ'.heap := by
    intro i a q hm
    cases hact : active s i with
    | none =>
      have hm : (a, q) ∈ cellsOf (jobOf s (some i)) := hm
      rw [show jobOf s (some i) = idleJob by simp [jobOf, hact]] at hm
      obtain ⟨sl, hsl, -⟩ := hm
      simp [idleJob, Job.inputs, Call.inputs] at hsl
    | some c =>
      have hm : (a, q) ∈ cellsOf (jobOf s (some i)) := hm
      rw [jobOf_some hact] at hm
      obtain ⟨h1, h2⟩ := active_some.1 hact
      exact (hin c (List.mem_of_getElem? h1) h2 a q hm).symm
  have hWa : ∀ t, Agree (W t) s.shared.heap σ'.heap := by
    intro t a q hm
    refine (hheap a q (fun hk => readable_disjoint_known A hk t q hm) ?_).symm
    by_contra hc
    exact A.inv.newW a (Nat.le_of_not_lt hc) t q hm
  have hgn : g none = none := phase_idle_none (A.phase none)
  refine ⟨⟨fun i => if i = none then σ'.heap else h0 i, g, W, ?_, ?_, ?_⟩, hcor, hadm, hdr, hlens⟩
  · rw [hjob]
    refine ainv_change A (fun i => i = none) hpooled hnext (fun _ _ h => h) ?_ ?_ ?_ ?_ ?_
    · intro t i
      cases i with
      | none =>
        rw [Set.disjoint_left]
        rintro ⟨a, q⟩ hw hr
        rcases hkn a hr with hk | ⟨hk, -⟩
        · exact readable_disjoint_known A hk t q hw
        · exact A.inv.newW a hk t q hw
      | some i => exact A.inv.disjR t (.inl (some i))
    · intro a ha i
      cases i with
      | none =>
        intro q hr
        rcases hkn a hr with hk | ⟨hk, -⟩
        · exact A.inv.poolFreshR a ha (.inl none) q hk
        · exact Nat.lt_irrefl _ (lt_of_lt_of_le (A.inv.poolLt a ha) hk)
      | some i => exact A.inv.poolFreshR a ha (.inl (some i))
    · intro a ha i
      cases i with
      | none =>
        intro q hr
        rcases hkn a hr with hk | ⟨-, hk⟩
        · exact A.inv.newR a (hnext.trans ha) (.inl none) q hk
        · exact Nat.lt_irrefl _ (lt_of_lt_of_le hk ha)
      | some i => exact A.inv.newR a (hnext.trans ha) (.inl (some i))
    · intro i hi
      cases i with
      | none => exact absurd rfl hi
      | some i =>
        refine ⟨rfl, by simp, rfl, rfl, rfl, fun t ht => ⟨rfl, ?_⟩⟩
        rintro a q (hm | hm)
        · exact hWa t a q hm
        · exact hrun i a q hm
    · rintro _ rfl
      rw [hgn]
      exact ⟨idle_phase, by intro a q _; simp [worldOf], idle_main arch _ _ _ _, fun j => idle_worker _ _ _ _ j⟩
  · rw [hjob]
    constructor
    · intro i sl hsl
      cases i with
      | none => simp [jobOf, idleJob, Job.inputs, Call.inputs] at hsl
      | some i => simpa using hrdy.bounds (some i) sl hsl
    · exact hrdy.cap
    · intro i sl hsl
      cases i with
      | none => simp [jobOf, idleJob, Job.inputs, Call.inputs] at hsl
      | some i => exact hrdy.cells (some i) sl hsl
    · exact hrdy.adm
  · intro i c hc
    simpa using hins i c hc

/-- Ownership when call `i` has none (any more). -/
def dropCall (i : Option Nat) (W : Option Nat ⊕ Option Nat × Nat → Set Loc) : Option Nat ⊕ Option Nat × Nat → Set Loc :=
  fun t => if callOf t = i then ∅ else W t

theorem dropCall_sub (i : Option Nat) (W : Option Nat ⊕ Option Nat × Nat → Set Loc) (t : Option Nat ⊕ Option Nat × Nat) :
    dropCall i W t ⊆ W t := by
  unfold dropCall
  split
  · exact Set.empty_subset _
  · exact fun _ h => h

/-- The program makes a call. -/
theorem pinv_call {arch : Arch} {s : Program} (I : PInv arch s) {job : Job} (hja : JobAdmissible job)
    (hin : ∀ sl ∈ job.inputs, sl.arr ∈ s.known ∧ InBounds s.shared.heap sl ∧ sl.len ≤ sl.cap) :
    PInv arch ⟨s.shared, s.known,
      s.calls ++ [⟨job, job.inputs.map (contents s.shared.heap), ⟨.sequential, ⟨job.prog arch, []⟩, []⟩, none⟩]⟩ := by
  obtain ⟨⟨h0, g, W, A, hrdy, hins⟩, hcor, hadm, hdr, hlens⟩ := I
  generalize hcn : (⟨job, job.inputs.map (contents s.shared.heap), ⟨.sequential, ⟨job.prog arch, []⟩, []⟩, none⟩ : CallState) = cn
  have hcj : cn.job = job := by rw [← hcn]
  have hcr : cn.returned = none := by rw [← hcn]
  have hcp : cn.proc = ⟨.sequential, ⟨job.prog arch, []⟩, []⟩ := by rw [← hcn]
  have hci : cn.ins = job.inputs.map (contents s.shared.heap) := by rw [← hcn]
  clear hcn
  have hact : ∀ k, active ⟨s.shared, s.known, s.calls ++ [cn]⟩ k = if k = s.calls.length then some cn else active s k := by
    intro k
    unfold active
    split
    · rename_i h; subst h
      simp [hcr]
    · rename_i h
      rcases Nat.lt_or_gt_of_ne h with h | h
      · simp only [List.getElem?_append_left h]
      · simp only [List.getElem?_eq_none (show s.calls.length ≤ k by omega),
          List.getElem?_eq_none (show (s.calls ++ [cn]).length ≤ k by simp; omega)]
  have hjn : jobOf ⟨s.shared, s.known, s.calls ++ [cn]⟩ (some s.calls.length) = job := by simp [jobOf, hact, hcj]
  have hjo : ∀ k, k ≠ some s.calls.length → jobOf ⟨s.shared, s.known, s.calls ++ [cn]⟩ k = jobOf s k := by
    intro k hk
    cases k with
    | none => rfl
    | some k => simp only [jobOf, hact, if_neg (show k ≠ s.calls.length by simpa using hk)]
  have hpn : procOf ⟨s.shared, s.known, s.calls ++ [cn]⟩ (some s.calls.length) = cn.proc := by simp [procOf, hact]
  have hpo : ∀ k, k ≠ some s.calls.length → procOf ⟨s.shared, s.known, s.calls ++ [cn]⟩ k = procOf s k := by
    intro k hk
    cases k with
    | none => rfl
    | some k => simp only [procOf, hact, if_neg (show k ≠ s.calls.length by simpa using hk)]
  have hro : ∀ k, k ≠ some s.calls.length → readable ⟨s.shared, s.known, s.calls ++ [cn]⟩ k = readable s k := by
    intro k hk
    cases k with
    | none => rfl
    | some k => simp only [readable, hjo _ hk]
  have hrn : readable ⟨s.shared, s.known, s.calls ++ [cn]⟩ (some s.calls.length) = cellsOf job := by
    simp only [readable, hjn]
  have hsubn : cellsOf job ⊆ readable s none := by
    rintro ⟨a, q⟩ ⟨sl, hsl, rfl, -⟩
    exact (hin sl hsl).1
  have hcell : ∀ sl ∈ job.inputs, ∀ k < sl.len, (sl.arr, sl.off + k) ∈ cellsOf job := fun sl hsl k hk =>
    ⟨sl, hsl, rfl, Nat.le_add_right _ _, Nat.add_lt_add_left hk _⟩
  refine ⟨⟨Function.update h0 (some s.calls.length) s.shared.heap, Function.update g (some s.calls.length) none,
    dropCall (some s.calls.length) W, ?_, ?_, ?_⟩, ?_, ?_, ?_, ?_⟩
  · refine ainv_change A (fun i => i = some s.calls.length) rfl le_rfl (dropCall_sub _ _) ?_ ?_ ?_ ?_ ?_
    · intro t i
      refine Set.disjoint_of_subset_left (dropCall_sub _ _ t) ?_
      by_cases hi : i = some s.calls.length
      · subst hi
        rw [hrn]
        exact Set.disjoint_of_subset_right hsubn (A.inv.disjR t (.inl none))
      · rw [hro i hi]; exact A.inv.disjR t (.inl i)
    · intro a ha i
      by_cases hi : i = some s.calls.length
      · subst hi
        rw [hrn]
        exact (A.inv.poolFreshR a ha (.inl none)).mono hsubn
      · rw [hro i hi]; exact A.inv.poolFreshR a ha (.inl i)
    · intro a ha i
      by_cases hi : i = some s.calls.length
      · subst hi
        rw [hrn]
        exact (A.inv.newR a ha (.inl none)).mono hsubn
      · rw [hro i hi]; exact A.inv.newR a ha (.inl i)
    · intro i hi
      refine ⟨hro i hi, Function.update_of_ne hi _ _, hjo i hi, Function.update_of_ne hi _ _, hpo i hi, fun t ht => ⟨?_, Agree.refl _ _⟩⟩
      unfold dropCall
      rw [if_neg (by rw [ht]; exact hi)]
    · rintro _ rfl
      rw [hjn, Function.update_self, Function.update_self]
      have hpn' : (worldOf ⟨s.shared, s.known, s.calls ++ [cn]⟩).proc (some s.calls.length) = cn.proc := hpn
      rw [hpn', hcp, hrn]
      refine ⟨⟨rfl, rfl⟩, Agree.refl _ _, ?_, fun j => ?_⟩
      · show wp _ (job.prog arch) (mainPost arch s.shared.heap job none) _ _ _
        cases job with
        | seq c =>
          exact wp_call_consumes arch hja hcell (fun s h => (hin s h).2.1) (fun s h => (hin s h).2.2)
        | splitP secret parts threshold perm =>
          refine wp_splitPSetup hja ?_
          have := (hin secret (by simp [Job.inputs])).2.1
          unfold InBounds at this
          show (contents s.shared.heap secret).length = _
          simp [contents]; omega
      · show wp _ (pending job none j).prog (workerPost s.shared.heap job none j) _ _ _
        cases job <;> trivial
  · constructor
    · intro i sl hsl
      by_cases hi : i = some s.calls.length
      · subst hi
        rw [Function.update_self]
        rw [hjn] at hsl
        exact (hin sl hsl).2.1
      · rw [Function.update_of_ne hi]
        rw [hjo i hi] at hsl
        exact hrdy.bounds i sl hsl
    · intro i sl hsl
      by_cases hi : i = some s.calls.length
      · subst hi
        rw [hjn] at hsl
        exact (hin sl hsl).2.2
      · rw [hjo i hi] at hsl
        exact hrdy.cap i sl hsl
    · intro i sl hsl
      by_cases hi : i = some s.calls.length
      · subst hi
        rw [hjn] at hsl
        rw [hrn]
        exact hcell sl hsl
      · rw [hjo i hi] at hsl
        rw [hro i hi]
        exact hrdy.cells i sl hsl
    · intro i
      by_cases hi : i = some s.calls.length
      · subst hi
        rw [hjn]; exact hja
      · rw [hjo i hi]; exact hrdy.adm i
  · intro k c hc
    rw [hact] at hc
    split at hc
    · rename_i h; subst h
      cases hc
      rw [Function.update_self, hci, hcj]
    · rename_i h
      rw [Function.update_of_ne (by simpa using h)]
      exact hins k c hc
  · intro c hc o ho
    rcases List.mem_append.1 hc with hc | hc
    · exact hcor c hc o ho
    · cases List.mem_singleton.1 hc
      rw [hcr] at ho; cases ho
  · intro c hc
    rcases List.mem_append.1 hc with hc | hc
    · exact hadm c hc
    · cases List.mem_singleton.1 hc
      rw [hcj]; exact hja
  · intro c hc o ho
    rcases List.mem_append.1 hc with hc | hc
    · exact hdr c hc o ho
    · cases List.mem_singleton.1 hc
      rw [hcr] at ho; cases ho
  · intro c hc
    rcases List.mem_append.1 hc with hc | hc
    · exact hlens c hc
    · cases List.mem_singleton.1 hc
      rw [hcj, hci, List.map_map]
      refine ⟨List.map_congr_left fun sl hsl => ?_, fun sl hsl => (hin sl hsl).2.2⟩
      have := (hin sl hsl).2.1
      unfold InBounds at this
      simp [contents]; omega

/-- The program gets the result of a call. -/
theorem pinv_ret {arch : Arch} {s : Program} (I : PInv arch s) {i : Nat} {c : CallState} {r : Outcome (List Slice)}
    (hc : s.calls[i]? = some c) (hn : c.returned = none) (hd : c.proc.phase = .done r) :
    PInv arch ⟨s.shared, s.known ∪ {a | ∃ outs, r = ok outs ∧ ∃ sl ∈ outs, a = sl.arr},
        s.calls.set i { c with returned := some ((fun outs => outs.map (contents s.shared.heap)) <$> r) }⟩ ∧
    ∀ outs, r = ok outs → ∀ sl ∈ outs, sl.arr ∉ s.known ∧ sl.off + sl.cap ≤ (s.shared.heap sl.arr).length ∧ sl.len ≤ sl.cap := by
  obtain ⟨⟨h0, g, W, A, hrdy, hins⟩, hcor, hadm, hdr, hlens⟩ := I
  have hact : active s i = some c := active_some.2 ⟨hc, hn⟩
  have hdw : ((worldOf s).proc (some i)).phase = .done r := by
    show (procOf s (some i)).phase = _
    rw [procOf_some hact]; exact hd
  have hown : ∀ outs, r = ok outs → ∀ sl ∈ outs, ∀ q, ∃ t, callOf t = some i ∧ (sl.arr, q) ∈ W t := by
    intro outs ho sl hsl q
    rcases aowned hrdy A (by rw [hdw, ho]) hsl q with h | ⟨j, h⟩
    · exact ⟨.inl (some i), rfl, h⟩
    · exact ⟨.inr (some i, j), rfl, h⟩
  have hcr := adone_correct hrdy A hdw
  have hproc : (worldOf s).proc (some i) = c.proc := procOf_some hact
  rw [jobOf_some hact, hproc, ← hins i c hact] at hcr
  generalize hcn : ({ c with returned := some ((fun outs => outs.map (contents s.shared.heap)) <$> r) } : CallState) = cn
  generalize hkn : s.known ∪ {a | ∃ outs, r = ok outs ∧ ∃ sl ∈ outs, a = sl.arr} = known'
  have hset := fun k => active_set (c' := cn) hc s.shared known' k
  have hcnr : cn.returned.isNone = false := by rw [← hcn]; rfl
  simp only [hcnr, Bool.false_eq_true, if_false] at hset
  have hjn : jobOf ⟨s.shared, known', s.calls.set i cn⟩ (some i) = idleJob := by simp [jobOf, hset]
  have hpn : procOf ⟨s.shared, known', s.calls.set i cn⟩ (some i) = idleProc := by simp [procOf, hset]
  have hjo : ∀ k, k ≠ some i → jobOf ⟨s.shared, known', s.calls.set i cn⟩ k = jobOf s k := by
    intro k hk
    cases k with
    | none => rfl
    | some k => simp only [jobOf, hset, if_neg (show k ≠ i by simpa using hk)]
  have hpo : ∀ k, k ≠ some i → procOf ⟨s.shared, known', s.calls.set i cn⟩ k = procOf s k := by
    intro k hk
    cases k with
    | none => rfl
    | some k => simp only [procOf, hset, if_neg (show k ≠ i by simpa using hk)]
  have hrn : readable ⟨s.shared, known', s.calls.set i cn⟩ (some i) = ∅ := by
    simp only [readable, hjn]
    apply Set.eq_empty_of_forall_notMem
    rintro ⟨a, q⟩ ⟨sl, hsl, -⟩
    simp [idleJob, Job.inputs, Call.inputs] at hsl
  have hro : ∀ k, some k ≠ some i → readable ⟨s.shared, known', s.calls.set i cn⟩ (some k) = readable s (some k) := by
    intro k hk
    simp only [readable, hjo _ hk]
  have hgn : g none = none := phase_idle_none (A.phase none)
  have hkmem : ∀ a ∈ known', a ∈ s.known ∨ ∀ q, ∃ t, callOf t = some i ∧ (a, q) ∈ W t := by
    intro a ha
    rw [← hkn] at ha
    rcases ha with ha | ⟨outs, ho, sl, hsl, rfl⟩
    · exact .inl ha
    · exact .inr (hown outs ho sl hsl)
  refine ⟨⟨⟨fun k => if k = none then s.shared.heap else h0 k, fun k => if k = some i then none else g k, dropCall (some i) W,
    ?_, ?_, ?_⟩, ?_, ?_, ?_, ?_⟩, ?_⟩
  · refine ainv_change A (fun k => k = none ∨ k = some i) rfl le_rfl (dropCall_sub _ _) ?_ ?_ ?_ ?_ ?_
    · intro t k
      cases k with
      | none =>
        rw [Set.disjoint_left]
        rintro ⟨a, q⟩ hw hr
        rcases hkmem a hr with hk | hk
        · exact readable_disjoint_known A hk t q (dropCall_sub _ _ t hw)
        · obtain ⟨u, hu, hm⟩ := hk q
          by_cases htu : t = u
          · unfold dropCall at hw
            rw [htu, if_pos hu] at hw
            exact hw
          · exact Set.disjoint_left.1 (A.inv.disjW t u htu) (dropCall_sub _ _ t hw) hm
      | some k =>
        by_cases hk : some k = some i
        · rw [hk, hrn]; exact Set.disjoint_empty _
        · rw [hro k hk]
          exact Set.disjoint_of_subset_left (dropCall_sub _ _ t) (A.inv.disjR t (.inl (some k)))
    · intro a ha k
      cases k with
      | none =>
        intro q hr
        rcases hkmem a hr with hk | hk
        · exact A.inv.poolFreshR a ha (.inl none) q hk
        · obtain ⟨u, hu, hm⟩ := hk q
          exact A.inv.poolFreshW a ha u q hm
      | some k =>
        by_cases hk : some k = some i
        · rw [hk, hrn]; exact fun _ h => h
        · rw [hro k hk]; exact A.inv.poolFreshR a ha (.inl (some k))
    · intro a ha k
      cases k with
      | none =>
        intro q hr
        rcases hkmem a hr with hk | hk
        · exact A.inv.newR a ha (.inl none) q hk
        · obtain ⟨u, hu, hm⟩ := hk q
          exact A.inv.newW a ha u q hm
      | some k =>
        by_cases hk : some k = some i
        · rw [hk, hrn]; exact fun _ h => h
        · rw [hro k hk]; exact A.inv.newR a ha (.inl (some k))
    · intro k hk
      push Not at hk
      cases k with
      | none => exact absurd rfl hk.1
      | some k =>
        refine ⟨hro k hk.2, by simp, hjo _ hk.2, if_neg hk.2, hpo _ hk.2, fun t ht => ⟨?_, Agree.refl _ _⟩⟩
        unfold dropCall
        rw [if_neg (by rw [ht]; exact hk.2)]
    · rintro k (rfl | rfl)
      · simp only [if_true, show (none : Option Nat) ≠ some i by simp, if_false, hgn]
        exact ⟨idle_phase, Agree.refl _ _, idle_main arch _ _ _ _, fun j => idle_worker _ _ _ _ j⟩
      · rw [hjn]
        have hpn' : (worldOf ⟨s.shared, known', s.calls.set i cn⟩).proc (some i) = idleProc := hpn
        rw [hpn', if_pos rfl, hrn]
        exact ⟨idle_phase, fun a q h => h.elim, idle_main arch _ _ _ _, fun j => idle_worker _ _ _ _ j⟩
  · constructor
    · intro k sl hsl
      by_cases hk : k = some i
      · rw [hk, hjn] at hsl
        simp [idleJob, Job.inputs, Call.inputs] at hsl
      · rw [hjo k hk] at hsl
        cases k with
        | none => simp [jobOf, idleJob, Job.inputs, Call.inputs] at hsl
        | some k => simpa using hrdy.bounds (some k) sl hsl
    · intro k sl hsl
      by_cases hk : k = some i
      · rw [hk, hjn] at hsl
        simp [idleJob, Job.inputs, Call.inputs] at hsl
      · rw [hjo k hk] at hsl
        exact hrdy.cap k sl hsl
    · intro k sl hsl
      by_cases hk : k = some i
      · rw [hk, hjn] at hsl
        simp [idleJob, Job.inputs, Call.inputs] at hsl
      · rw [hjo k hk] at hsl
        cases k with
        | none => simp [jobOf, idleJob, Job.inputs, Call.inputs] at hsl
        | some k => rw [hro k hk]; exact hrdy.cells (some k) sl hsl
    · intro k
      by_cases hk : k = some i
      · rw [hk, hjn]; trivial
      · rw [hjo k hk]; exact hrdy.adm k
  · intro k d hd'
    rw [hset] at hd'
    split at hd'
    · cases hd'
    · simpa using hins k d hd'
  · intro d hd' o ho
    rcases List.mem_or_eq_of_mem_set hd' with hd' | rfl
    · exact hcor d hd' o ho
    · rw [← hcn] at ho ⊢
      cases ho
      exact hcr.1
  · intro d hd'
    rcases List.mem_or_eq_of_mem_set hd' with hd' | rfl
    · exact hadm d hd'
    · rw [← hcn]
      exact hadm c (List.mem_of_getElem? hc)
  · intro d hd' o ho call hcall
    rcases List.mem_or_eq_of_mem_set hd' with hd' | rfl
    · exact hdr d hd' o ho call hcall
    · rw [← hcn] at ho hcall ⊢
      cases ho
      have h2 := hcr.2 call hcall
      have e : call.inputs = c.job.inputs := by
        have hcall : c.job = .seq call := hcall
        rw [hcall]; rfl
      rw [e, ← hins i c hact] at h2
      exact h2
  · intro d hd'
    rcases List.mem_or_eq_of_mem_set hd' with hd' | rfl
    · exact hlens d hd'
    · rw [← hcn]
      exact hlens c (List.mem_of_getElem? hc)
  · intro outs ho sl hsl
    refine ⟨fun hk => ?_, (aplaced hrdy A (by rw [hdw, ho])).1.inArray sl hsl⟩
    obtain ⟨t, -, hm⟩ := hown outs ho sl hsl 0
    exact readable_disjoint_known A hk t 0 hm

theorem pinv_start (arch : Arch) {σ : Shared} (hn : (σ.pool .bPool ++ σ.pool .polyPool).Nodup)
    (hlt : ∀ p, ∀ a ∈ σ.pool p, a < σ.next) : PInv arch (Program.start σ) := by
  have hj : ∀ i, jobOf (Program.start σ) i = idleJob := by intro i; cases i <;> rfl
  have hp : ∀ i, procOf (Program.start σ) i = idleProc := by intro i; cases i <;> rfl
  have hr : ∀ i, readable (Program.start σ) i ⊆ preexisting σ := by
    intro i
    cases i with
    | none => exact fun _ h => h
    | some i =>
      rintro ⟨a, q⟩ ⟨sl, hsl, -⟩
      rw [hj] at hsl
      simp [idleJob, Job.inputs, Call.inputs] at hsl
  refine ⟨⟨fun _ => σ.heap, fun _ => none, fun _ => ∅, ⟨?_, ?_, fun _ => Agree.refl _ _⟩, ⟨?_, ?_, ?_, ?_⟩, ?_⟩, ?_, ?_, ?_, ?_⟩
  · exact {
      disjW := fun _ _ _ => Set.disjoint_empty _
      disjR := fun _ _ => Set.empty_disjoint _
      poolNodup := hn
      poolLt := fun a h => by
        obtain ⟨p, h⟩ := mem_pooled.1 h
        exact hlt p a h
      poolFreshW := fun a _ i k hm => hm
      poolFreshR := fun a h i k hm => by
        obtain ⟨p, h⟩ := mem_pooled.1 h
        exact (hr _ hm).2 p h
      newW := fun a _ i k hm => hm
      newR := fun a h i k hm => absurd (hr _ hm).1 (Nat.not_lt_of_le h)
      run := fun t => by
        match t with
        | .inl i =>
          show wp _ (procOf _ i).main.prog (mainPost arch _ (jobOf _ i) none) _ _ (procOf _ i).main.drawn
          rw [hp, hj]
          exact idle_main arch _ _ _ _
        | .inr (i, j) =>
          show wp _ (((procOf _ i).workers[j]?).getD (pending (jobOf _ i) none j)).prog (workerPost _ (jobOf _ i) none j) _ _
            (((procOf _ i).workers[j]?).getD (pending (jobOf _ i) none j)).drawn
          rw [hp, hj]
          exact idle_worker _ _ _ _ j }
  · intro i
    show PhaseOk (jobOf _ i) (procOf _ i) none
    rw [hj, hp]
    exact idle_phase
  · intro i sl hsl
    rw [hj] at hsl; simp [idleJob, Job.inputs, Call.inputs] at hsl
  · intro i sl hsl
    rw [hj] at hsl; simp [idleJob, Job.inputs, Call.inputs] at hsl
  · intro i sl hsl
    rw [hj] at hsl; simp [idleJob, Job.inputs, Call.inputs] at hsl
  · intro i
    rw [hj]; trivial
  · intro i c h
    simp [active, Program.start] at h
  · intro c h; simp [Program.start] at h
  · intro c h; simp [Program.start] at h
  · intro c h; simp [Program.start] at h
  · intro c h; simp [Program.start] at h

/-- Every step keeps the invariant. -/
theorem pinv_pstep {arch : Arch} {s s' : Program} {e : Event} (I : PInv arch s) (h : PStep arch s e s') : PInv arch s' := by
  cases h with
  | alloc bytes =>
    refine pinv_memory I rfl (Nat.le_succ _) ?_ ?_ ?_
    · rintro a (rfl | ha)
      · exact .inr ⟨le_rfl, Nat.lt_succ_self _⟩
      · exact .inl ha
    · intro a q _ ha
      show (Function.update s.shared.heap s.shared.next bytes a)[q]? = _
      rw [Function.update_of_ne ha.ne]
    · rintro c hc hn a q hm
      show (Function.update s.shared.heap s.shared.next bytes a)[q]? = _
      rw [Function.update_of_ne]
      rintro rfl
      obtain ⟨⟨h0, g, W, A, -, -⟩, -⟩ := I
      obtain ⟨i, hi, e⟩ := List.getElem_of_mem hc
      have hact : active s i = some c := active_some.2 ⟨by rw [List.getElem?_eq_getElem hi, e], hn⟩
      refine A.inv.newR s.shared.next le_rfl (.inl (some i)) q ?_
      show _ ∈ cellsOf (jobOf s (some i))
      rw [jobOf_some hact]; exact hm
  | store a k v hk hl hfree =>
    refine pinv_memory I rfl le_rfl (fun a ha => .inl ha) ?_ ?_
    · intro b q hb _
      show (Function.update s.shared.heap a _ b)[q]? = _
      rw [Function.update_of_ne]
      rintro rfl
      exact hb hk
    · rintro c hc hn b q ⟨sl, hsl, h1, h2, h3⟩
      show (Function.update s.shared.heap a _ b)[q]? = _
      by_cases hba : b = a
      · subst hba
        have hne : k ≠ q := by
          rcases hfree c hc hn sl hsl h1 with h | h <;> simp only at h2 h3 <;> omega
        rw [Function.update_self, List.getElem?_set_ne hne]
      · rw [Function.update_of_ne hba]
  | call job hja hin => exact pinv_call I hja hin
  | step i c σ' p' hc hn h => exact (pinv_step I hc hn h).1
  | ret i c r hc hn hd => exact (pinv_ret I hc hn hd).1

theorem pinv_runs {arch : Arch} {s s' : Program} (I : PInv arch s) (h : Runs arch s s') : PInv arch s' := by
  induction h with
  | refl => exact I
  | tail _ hs ih => obtain ⟨e, hs⟩ := hs; exact pinv_pstep ih hs

/-! ## Termination -/

/-- What a call still has to do. -/
noncomputable def callRank (c : CallState) : Lex (Nat × Lex (Ordinal.{0} × (ℕ →₀ Ordinal.{0}))) :=
  toLex (if c.returned.isNone then 1 else 0, toLex (phaseRank c.proc, workersRank c.proc))

theorem set_cutExpand {α : Type*} {r : α → α → Prop} {l : List α} {i : Nat} {a b : α} (h : l[i]? = some a) (hr : r b a) :
    Relation.CutExpand r (l.set i b : Multiset α) (l : Multiset α) := by
  have key : ∀ (l : List α) (i : Nat), l[i]? = some a → ((l.set i b : List α) : Multiset α) + {a} = (l : Multiset α) + {b} := by
    intro l
    induction l with
    | nil => intro i h; simp at h
    | cons x l ih =>
      intro i h
      cases i with
      | zero =>
        simp only [List.getElem?_cons_zero, Option.some.injEq] at h
        subst h
        simp only [List.set_cons_zero, ← Multiset.cons_coe, ← Multiset.singleton_add]
        abel
      | succ i =>
        have := ih i (by simpa using h)
        simp only [List.set_cons_succ, ← Multiset.cons_coe, ← Multiset.singleton_add]
        rw [add_assoc, this, ← add_assoc]
  exact ⟨{b}, a, by simpa using hr, key l i h⟩

/-- Calls cannot run for ever. -/
theorem finish_wf (arch : Arch) :
    WellFounded (fun s' s : Program => ∃ i, PStep arch s (.step i) s' ∨ PStep arch s (.ret i) s') := by
  have : WellFoundedLT (ℕ →₀ Ordinal.{0}) := Finsupp.wellFoundedLT (fun n => not_lt_of_ge (zero_le))
  have hwf : WellFounded ((· < ·) : Lex (Nat × Lex (Ordinal.{0} × (ℕ →₀ Ordinal.{0}))) → _ → Prop) := wellFounded_lt
  refine Subrelation.wf ?_ (InvImage.wf (fun s : Program => ((s.calls.map callRank : List _) : Multiset _)) hwf.cutExpand)
  rintro s' s ⟨i, h | h⟩
  · cases h with
    | step _ c σ' p' hc hn h =>
      show Relation.CutExpand _ (Multiset.ofList ((s.calls.set i _).map callRank)) (Multiset.ofList (s.calls.map callRank))
      rw [List.map_set]
      have hg : (s.calls.map callRank)[i]? = some (callRank c) := by rw [List.getElem?_map, hc]; rfl
      refine set_cutExpand hg ?_
      unfold callRank
      rw [Prod.Lex.toLex_lt_toLex]
      exact .inr ⟨by simp, procStep_rank h⟩
  · cases h with
    | ret _ c r hc hn hd =>
      show Relation.CutExpand _ (Multiset.ofList ((s.calls.set i _).map callRank)) (Multiset.ofList (s.calls.map callRank))
      rw [List.map_set]
      have hg : (s.calls.map callRank)[i]? = some (callRank c) := by rw [List.getElem?_map, hc]; rfl
      refine set_cutExpand hg ?_
      unfold callRank
      rw [Prod.Lex.toLex_lt_toLex]
      exact .inl (by simp [hn])

/-- A call that has not returned: it is done, has panicked, or can go on. -/
theorem pinv_progress {arch : Arch} {s : Program} (I : PInv arch s) {i : Nat} {c : CallState} (hc : s.calls[i]? = some c)
    (hn : c.returned = none) : (∃ r, c.proc.phase = .done r) ∨ c.proc.phase = .panicked ∨
      ∃ σ' p', ProcStep c.job s.shared c.proc σ' p' := by
  obtain ⟨⟨h0, g, W, A, -⟩, -⟩ := I
  have hact : active s i = some c := active_some.2 ⟨hc, hn⟩
  by_cases h1 : ∃ r, c.proc.phase = .done r
  · exact .inl h1
  · by_cases h2 : c.proc.phase = .panicked
    · exact .inr (.inl h2)
    · refine .inr (.inr ?_)
      have hp : (worldOf s).proc (some i) = c.proc := procOf_some hact
      have := aproc_progress A (some i) (fun r hr => h1 ⟨r, by rw [← hp]; exact hr⟩) (by rw [hp]; exact h2)
      rw [hp, jobOf_some hact] at this
      exact this

/-- All calls can be run to their end. -/
theorem pinv_finish {arch : Arch} (s : Program) (I : PInv arch s) :
    ∃ s', Finishes arch s s' ∧ ∀ c ∈ s'.calls, c.returned.isSome ∨ c.proc.phase = .panicked := by
  induction s using (finish_wf arch).induction with
  | _ s ih =>
    by_cases h : ∀ c ∈ s.calls, c.returned.isSome ∨ c.proc.phase = .panicked
    · exact ⟨s, .refl, h⟩
    · push Not at h
      obtain ⟨c, hc, h1, h2⟩ := h
      obtain ⟨i, hi, e⟩ := List.getElem_of_mem hc
      have hget : s.calls[i]? = some c := by rw [List.getElem?_eq_getElem hi, e]
      have hn : c.returned = none := by simpa using h1
      have key : ∃ s', ∃ i, PStep arch s (.step i) s' ∨ PStep arch s (.ret i) s' := by
        rcases pinv_progress I hget hn with ⟨r, hr⟩ | hr | ⟨σ', p', hr⟩
        · exact ⟨_, i, .inr (.ret s i c r hget hn hr)⟩
        · exact absurd hr h2
        · exact ⟨_, i, .inl (.step s i c σ' p' hget hn hr)⟩
      obtain ⟨s', k, hs⟩ := key
      have I' : PInv arch s' := by
        rcases hs with hs | hs <;> exact pinv_pstep I hs
      obtain ⟨s'', hr, hd⟩ := ih s' ⟨k, hs⟩ I'
      exact ⟨s'', Relation.ReflTransGen.head ⟨k, hs⟩ hr, hd⟩

theorem pinv_panicked {arch : Arch} {s : Program} (I : PInv arch s) {c : CallState} (hc : c ∈ s.calls)
    (hn : c.returned = none) (hp : c.proc.phase = .panicked) :
    ∃ secret parts threshold perm, c.job = .splitP secret parts threshold perm ∧ 2 ^ 32 - 1024 < secret.len % 2 ^ 32 := by
  obtain ⟨⟨h0, g, W, A, -⟩, -⟩ := I
  obtain ⟨i, hi, e⟩ := List.getElem_of_mem hc
  have hact : active s i = some c := active_some.2 ⟨by rw [List.getElem?_eq_getElem hi, e], hn⟩
  have hph := A.phase (some i)
  rw [show (worldOf s).proc (some i) = c.proc from procOf_some hact, jobOf_some hact] at hph
  unfold PhaseOk at hph
  rw [hp] at hph
  obtain ⟨secret, parts, threshold, perm, arrs, h1, -, -, h2⟩ := hph
  exact ⟨secret, parts, threshold, perm, h1, by rwa [mOf_eq] at h2⟩

/-! ## Accesses -/

/-- Goroutine `w` of call `i` as a thread. -/
def codeOf (i : Nat) : Option Nat → Option Nat ⊕ Option Nat × Nat
  | none => .inl (some i)
  | some j => .inr (some i, j)

theorem codeOf_ne {i i' : Nat} {w w' : Option Nat} (h : (i, w) ≠ (i', w')) : codeOf i w ≠ codeOf i' w' := by
  intro e
  apply h
  cases w <;> cases w' <;> simp_all [codeOf]

theorem goes_run {arch : Arch} {s : Program} {h0 : Option Nat → HeapF} {g : Option Nat → Option (List Arr)}
    {W : Option Nat ⊕ Option Nat × Nat → Set Loc} (A : AInv arch h0 (readable s) (jobOf s) g W (worldOf s))
    {i : Nat} {w : Option Nat} {t : Goroutine} (ht : s.Goes i w t) :
    ∃ Q, wp (readable s (some i)) t.prog Q (W (codeOf i w)) s.shared.heap t.drawn := by
  obtain ⟨c, hc, hn, hw⟩ := ht
  have hact : active s i = some c := active_some.2 ⟨hc, hn⟩
  have hp : (worldOf s).proc (some i) = c.proc := procOf_some hact
  cases w with
  | none =>
    have h1 := A.inv.run (.inl (some i))
    have h1 : wp (readable s (some i)) ((worldOf s).proc (some i)).main.prog _ _ _ ((worldOf s).proc (some i)).main.drawn := h1
    rw [hp, show c.proc.main = t from hw] at h1
    exact ⟨_, h1⟩
  | some j =>
    have h1 := A.inv.run (.inr (some i, j))
    have h1 : wp (readable s (some i)) ((((worldOf s).proc (some i)).workers[j]?).getD (pending (jobOf s (some i)) (g (some i)) j)).prog _ _ _
      ((((worldOf s).proc (some i)).workers[j]?).getD (pending (jobOf s (some i)) (g (some i)) j)).drawn := h1
    rw [hp, show c.proc.workers[j]? = some t from hw, Option.getD_some] at h1
    exact ⟨_, h1⟩

theorem goes_access {arch : Arch} {s : Program} {h0 : Option Nat → HeapF} {g : Option Nat → Option (List Arr)}
    {W : Option Nat ⊕ Option Nat × Nat → Set Loc} (A : AInv arch h0 (readable s) (jobOf s) g W (worldOf s))
    {i : Nat} {w : Option Nat} {t : Goroutine} (ht : s.Goes i w t) {a : Arr} {k : Nat} {st : Bool}
    (h : nextAccess t.prog = some (a, k, st)) :
    (a, k) ∈ W (codeOf i w) ∪ readable s (some i) ∧ (st = true → (a, k) ∈ W (codeOf i w)) := by
  obtain ⟨Q, hw⟩ := goes_run A ht
  cases hp : t.prog <;> rw [hp] at h hw <;> simp only [nextAccess, Option.some.injEq, Prod.mk.injEq, reduceCtorEq] at h
  · obtain ⟨rfl, rfl, rfl⟩ := h
    exact ⟨hw.1, fun c => by cases c⟩
  · obtain ⟨rfl, rfl, rfl⟩ := h
    exact ⟨Or.inl hw.1, fun _ => hw.1⟩

end Verif.Proofs.Own
