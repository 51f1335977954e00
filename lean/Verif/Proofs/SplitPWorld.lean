import Verif.Proofs.SplitPWorker
import Verif.Proofs.HeapConsumes

/-! # Invariant of concurrent calls including SplitP

The goroutines of all calls are the threads of one system (`flat`): `Sum.inl i` is the goroutine that makes call `i`,
`Sum.inr (i, j)` the goroutine for chunk `j` of call `i`.  When `SplitP` has allocated its outputs, the cells of each
chunk are handed over to the goroutine of the chunk. -/

namespace Verif.Proofs.Own
open Verif Outcome Galois Shamir Spec Pool Csprng Verif.Heap

variable {ι : Type} [DecidableEq ι]

/-- Number of bytes `SplitP` processes. -/
def mOf (secret : Slice) : Nat := (secretLen secret).toNat

theorem mOf_eq (secret : Slice) : mOf secret = secret.len % 2 ^ 32 := by simp [mOf, secretLen]

theorem mOf_le (secret : Slice) : mOf secret ≤ secret.len := by rw [mOf_eq]; exact Nat.mod_le _ _

theorem mOf_lt (secret : Slice) : mOf secret < 2 ^ 32 := (secretLen secret).isLt

/-- End of chunk `j`. -/
def stopOf (secret : Slice) (j : Nat) : Nat := min (1024 * (j + 1)) (mOf secret)

/-- The program of the goroutine for chunk `j`. -/
def chunkProg (secret : Slice) (parts threshold : Int) (perm : List Nat) (arrs : List Arr) (j : Nat) :
    Prog (Outcome (List Slice)) :=
  if 1024 * j < mOf secret then
    workerP secret parts threshold perm (outSlices arrs secret.len) (BitVec.ofNat 32 (1024 * j))
      (BitVec.ofNat 32 (stopOf secret j))
  else .ret (ok [])

/-- The goroutine for chunk `j` before it is started. -/
def pending : Job → Option (List Arr) → Nat → Goroutine
  | .splitP secret parts threshold perm, some arrs, j => ⟨chunkProg secret parts threshold perm arrs j, []⟩
  | _, _, _ => ⟨.ret (ok []), []⟩

/-- All goroutines of all calls. -/
def flat (jobs : ι → Job) (g : ι → Option (List Arr)) (s : World ι) : Config (ι ⊕ ι × Nat) (Outcome (List Slice)) :=
  ⟨s.shared, fun t => match t with
    | .inl i => (s.proc i).main
    | .inr (i, j) => ((s.proc i).workers[j]?).getD (pending (jobs i) (g i) j)⟩

/-- Cells of chunk `j`. -/
def region (secret : Slice) (arrs : List Arr) (j : Nat) : Set Loc :=
  {l | l.1 ∈ arrs ∧ 1024 * j ≤ l.2 ∧ l.2 < stopOf secret j}

/-- What the calling goroutine still guarantees once the chunks are handed over. -/
def RestPost (secret : Slice) (bs : List Byte) (parts threshold : Int) (perm : List Nat) (arrs : List Arr) :
    Post (Outcome (List Slice)) := fun r W h _ =>
  r = ok (outSlices arrs secret.len) ∧ ValidArgs bs parts threshold ∧ arrs.Nodup ∧ arrs.length = parts.toNat ∧
  ∀ k a, arrs[k]? = some a → ∀ q, mOf secret ≤ q →
    (a, q) ∈ W ∧ (h a)[q]? = (List.replicate secret.len (0 : Byte) ++ [xTag perm k])[q]?

/-- What the goroutine of chunk `j` guarantees at its end. -/
def ChunkPost (secret : Slice) (bs : List Byte) (threshold : Int) (perm : List Nat) (arrs : List Arr) (j : Nat) :
    Post (Outcome (List Slice)) := fun _ W h log =>
  1024 * j < mOf secret → region secret arrs j ⊆ W ∧
    Achieved bs threshold.toNat perm arrs (1024 * j) (stopOf secret j - 1024 * j) h log

/-- Postconditions of the calling goroutines. -/
def mainPost (arch : Arch) (h0 : HeapF) : Job → Option (List Arr) → Post (Outcome (List Slice))
  | .seq c, _ => fun r W h log => CallPost arch c (c.inputs.map (contents h0)) r W h log ∧
      Consumes c (c.inputs.map (contents h0)) r log
  | .splitP secret parts threshold perm, none => SetupPost secret (contents h0 secret) parts threshold perm
  | .splitP secret parts threshold perm, some arrs => RestPost secret (contents h0 secret) parts threshold perm arrs

/-- Postconditions of the goroutines started by calls. -/
def workerPost (h0 : HeapF) : Job → Option (List Arr) → Nat → Post (Outcome (List Slice))
  | .splitP secret _ threshold perm, some arrs, j => ChunkPost secret (contents h0 secret) threshold perm arrs j
  | _, _, _ => fun _ _ _ _ => True

/-- Postconditions of all goroutines. -/
def posts (arch : Arch) (h0 : ι → HeapF) (jobs : ι → Job) (g : ι → Option (List Arr)) :
    ι ⊕ ι × Nat → Post (Outcome (List Slice))
  | .inl i => mainPost arch (h0 i) (jobs i) (g i)
  | .inr (i, j) => workerPost (h0 i) (jobs i) (g i) j

/-- The call a goroutine belongs to. -/
def callOf : ι ⊕ ι × Nat → ι
  | .inl i => i
  | .inr (i, _) => i

theorem posts_stable {R : Set Loc} (arch : Arch) (h0 : ι → HeapF) (jobs : ι → Job) (g : ι → Option (List Arr)) (t : ι ⊕ ι × Nat) :
    Stable R (posts arch h0 jobs g t) := by
  match t with
  | .inl i =>
    show Stable R (mainPost arch (h0 i) (jobs i) (g i))
    match jobs i, g i with
    | .seq c, _ => exact consumes_stable arch c _
    | .splitP .., none => exact setupPost_stable
    | .splitP .., some arrs =>
      rintro r W h h' log hag ⟨h1, h2, h3, h4, h5⟩
      refine ⟨h1, h2, h3, h4, fun k a hk q hq => ?_⟩
      obtain ⟨h6, h7⟩ := h5 k a hk q hq
      exact ⟨h6, by rw [← hag a q (Or.inl h6)]; exact h7⟩
  | .inr (i, j) =>
    show Stable R (workerPost (h0 i) (jobs i) (g i) j)
    match jobs i, g i with
    | .seq c, _ => exact fun _ _ _ _ _ _ h => h
    | .splitP .., none => exact fun _ _ _ _ _ _ h => h
    | .splitP .., some arrs =>
      rintro r W h h' log hag hp hj
      obtain ⟨h1, h2, h3⟩ := hp hj
      refine ⟨h1, h2, fun q hq k a hk => ?_⟩
      rw [← hag a _ (Or.inl (h1 ⟨List.mem_of_getElem? hk, by simp, by simp only; omega⟩))]
      exact h3 q hq k a hk

/-- Where a call is, and what that means. -/
def PhaseOk (job : Job) (p : Proc) (g : Option (List Arr)) : Prop :=
  match p.phase with
  | .sequential => g = none ∧ p.workers = []
  | .loop outs idx => ∃ secret parts threshold perm arrs, job = .splitP secret parts threshold perm ∧ g = some arrs ∧
      outs = outSlices arrs secret.len ∧ p.main.prog = .ret (ok outs) ∧ idx.toNat = min (1024 * p.workers.length) (mOf secret) ∧
      (mOf secret ≤ 2 ^ 32 - 1024 ∨ 1024 * p.workers.length ≤ 2 ^ 32 - 1024)
  | .waiting outs => ∃ secret parts threshold perm arrs, job = .splitP secret parts threshold perm ∧ g = some arrs ∧
      outs = outSlices arrs secret.len ∧ p.main.prog = .ret (ok outs) ∧ mOf secret ≤ 1024 * p.workers.length ∧
      mOf secret ≤ 2 ^ 32 - 1024
  | .done r => p.main.prog = .ret r ∧
      ((g = none ∧ p.workers = [] ∧ ((∃ c, job = .seq c) ∨ ∃ secret parts threshold perm e,
        job = .splitP secret parts threshold perm ∧ r = err e)) ∨
      ∃ secret parts threshold perm arrs, job = .splitP secret parts threshold perm ∧ g = some arrs ∧
        r = ok (outSlices arrs secret.len) ∧ mOf secret ≤ 1024 * p.workers.length ∧ mOf secret ≤ 2 ^ 32 - 1024 ∧
        ∀ w ∈ p.workers, ∃ r, w.prog = .ret r)
  | .panicked => ∃ secret parts threshold perm arrs, job = .splitP secret parts threshold perm ∧ g = some arrs ∧
      p.main.prog = .ret (ok (outSlices arrs secret.len)) ∧ 2 ^ 32 - 1024 < mOf secret

/-- The invariant, for calls that may have been made at different times: `h0 i` is the memory when call `i` was made,
`R i` are cells that stay the same while it runs, among them the bytes of its arguments. -/
structure AInv (arch : Arch) (h0 : ι → HeapF) (R : ι → Set Loc) (jobs : ι → Job) (g : ι → Option (List Arr))
    (W : ι ⊕ ι × Nat → Set Loc) (s : World ι) : Prop where
  inv : Inv (fun t => R (callOf t)) (posts arch h0 jobs g) W (flat jobs g s)
  phase : ∀ i, PhaseOk (jobs i) (s.proc i) (g i)
  agree : ∀ i, Agree (R i) (h0 i) s.shared.heap

/-- The arguments of the calls are in order. -/
structure Ready (h0 : ι → HeapF) (R : ι → Set Loc) (jobs : ι → Job) : Prop where
  bounds : ∀ i, ∀ s ∈ (jobs i).inputs, InBounds (h0 i) s
  cap : ∀ i, ∀ s ∈ (jobs i).inputs, s.len ≤ s.cap
  cells : ∀ i, ∀ s ∈ (jobs i).inputs, ∀ k < s.len, (s.arr, s.off + k) ∈ R i
  adm : ∀ i, JobAdmissible (jobs i)

/-- The invariant of calls made at the same time. -/
structure WInv (arch : Arch) (σ : Shared) (jobs : ι → Job) (g : ι → Option (List Arr)) (W : ι ⊕ ι × Nat → Set Loc)
    (s : World ι) : Prop where
  inv : Inv (fun _ => preexisting σ) (posts arch (fun _ => σ.heap) jobs g) W (flat jobs g s)
  phase : ∀ i, PhaseOk (jobs i) (s.proc i) (g i)
  agree : Agree (preexisting σ) σ.heap s.shared.heap

omit [DecidableEq ι] in
theorem WInv.toA {arch : Arch} {σ : Shared} {jobs : ι → Job} {g : ι → Option (List Arr)} {W : ι ⊕ ι × Nat → Set Loc}
    {s : World ι} (I : WInv arch σ jobs g W s) : AInv arch (fun _ => σ.heap) (fun _ => preexisting σ) jobs g W s :=
  ⟨I.inv, I.phase, fun _ => I.agree⟩

omit [DecidableEq ι] in
theorem AInv.toW {arch : Arch} {σ : Shared} {jobs : ι → Job} {g : ι → Option (List Arr)} {W : ι ⊕ ι × Nat → Set Loc}
    {s : World ι} (i : ι) (I : AInv arch (fun _ => σ.heap) (fun _ => preexisting σ) jobs g W s) : WInv arch σ jobs g W s :=
  ⟨I.inv, I.phase, I.agree i⟩

theorem WStart.start {σ : Shared} {jobs : ι → Job} (hs : WStart σ jobs) {i : ι} {s : Slice} (h : s ∈ (jobs i).inputs) :
    own s.arr ⊆ preexisting σ := by
  rintro ⟨a, k⟩ rfl
  exact ⟨(hs.inputs i s h).2.2.1, (hs.inputs i s h).2.2.2⟩

theorem WStart.ready {σ : Shared} {jobs : ι → Job} (hs : WStart σ jobs) (ha : ∀ i, JobAdmissible (jobs i)) :
    Ready (fun _ => σ.heap) (fun _ => preexisting σ) jobs where
  bounds i s h := (hs.inputs i s h).1
  cap i s h := (hs.inputs i s h).2.1
  cells _ _ h _ _ := WStart.start hs h rfl
  adm := ha

theorem winv_initial (arch : Arch) {σ : Shared} {jobs : ι → Job} (hs : WStart σ jobs) (ha : ∀ i, JobAdmissible (jobs i)) :
    WInv arch σ jobs (fun _ => none) (fun _ => ∅) (winitial arch σ jobs) where
  phase i := ⟨rfl, rfl⟩
  agree := Agree.refl _ _
  inv := {
    disjW := fun _ _ _ => Set.disjoint_empty _
    disjR := fun _ _ => Set.empty_disjoint _
    poolNodup := hs.poolNodup
    poolLt := fun a h => by
      obtain ⟨p, h⟩ := mem_pooled.1 h
      exact hs.poolLt p a h
    poolFreshW := fun a _ i k hm => hm
    poolFreshR := fun a h i k hm => by
      obtain ⟨p, h⟩ := mem_pooled.1 h
      exact hm.2 p h
    newW := fun a _ i k hm => hm
    newR := fun a h i k hm => absurd hm.1 (Nat.not_lt_of_le h)
    run := fun t => by
      match t with
      | .inl i =>
        have hin := fun s h => hs.inputs i s h
        have hsub := fun s h => WStart.start hs (i := i) (s := s) h
        have hai := ha i
        show wp _ ((jobs i).prog arch) (mainPost arch σ.heap (jobs i) none) _ _ _
        cases hj : jobs i with
        | seq c =>
          rw [hj] at hin hsub hai
          exact wp_call_consumes arch hai (fun s h k _ => hsub s h rfl) (fun s h => (hin s h).1) (fun s h => (hin s h).2.1)
        | splitP secret parts threshold perm =>
          rw [hj] at hin hsub hai
          refine wp_splitPSetup hai ?_
          have := (hin secret (by simp [Job.inputs])).1
          unfold InBounds at this
          show (contents σ.heap secret).length = _
          simp [contents]; omega
      | .inr (i, j) =>
        show wp _ (pending (jobs i) none j).prog (workerPost σ.heap (jobs i) none j) _ _ _
        cases jobs i <;> trivial }

/-! ## Arithmetic of the loop over the chunks -/

theorem toNat_add_1024 (idx : BitVec 32) : (idx + 1024).toNat = (idx.toNat + 1024) % 2 ^ 32 := by
  rw [BitVec.toNat_add]; rfl

/-- The next chunk, or a panic. -/
theorem chunk_cases {secret : Slice} {idx : BitVec 32} {L : Nat} (h : idx.toNat = min (1024 * L) (mOf secret))
    (hlt : idx < secretLen secret) :
    idx = BitVec.ofNat 32 (1024 * L) ∧ 1024 * L < mOf secret ∧
    ((mOf secret ≤ 2 ^ 32 - 1024 ∨ 1024 * (L + 1) ≤ 2 ^ 32 - 1024) ∧
      chunkEnd (secretLen secret) idx = BitVec.ofNat 32 (stopOf secret L) ∧ idx ≤ chunkEnd (secretLen secret) idx ∨
     (2 ^ 32 - 1024 < mOf secret ∧ ¬ idx ≤ chunkEnd (secretLen secret) idx)) := by
  have hm := mOf_lt secret
  have hlt' : idx.toNat < mOf secret := hlt
  have e1 : idx.toNat = 1024 * L := by omega
  refine ⟨BitVec.eq_of_toNat_eq (by rw [e1, BitVec.toNat_ofNat]; omega), by omega, ?_⟩
  have e2 := toNat_add_1024 idx
  rw [e1] at e2
  unfold chunkEnd
  by_cases hw : 1024 * L + 1024 < 2 ^ 32
  · left
    rw [Nat.mod_eq_of_lt hw] at e2
    refine ⟨by omega, ?_, ?_⟩
    · split
      · rename_i hgt
        have hgt : mOf secret < (idx + 1024).toNat := hgt
        apply BitVec.eq_of_toNat_eq
        rw [BitVec.toNat_ofNat]
        unfold stopOf
        show mOf secret = _
        omega
      · rename_i hgt
        have hgt : ¬ mOf secret < (idx + 1024).toNat := hgt
        apply BitVec.eq_of_toNat_eq
        rw [BitVec.toNat_ofNat]
        unfold stopOf
        omega
    · split
      · show idx.toNat ≤ mOf secret
        exact hlt'.le
      · show idx.toNat ≤ (idx + 1024).toNat
        omega
  · right
    have h0 : (idx + 1024).toNat = 0 := by omega
    refine ⟨by omega, ?_⟩
    split
    · rename_i hgt
      have hgt : mOf secret < (idx + 1024).toNat := hgt
      omega
    · intro hle
      have hle : idx.toNat ≤ (idx + 1024).toNat := hle
      omega

theorem chunkEnd_le (secret : Slice) (idx : BitVec 32) : (chunkEnd (secretLen secret) idx).toNat ≤ mOf secret := by
  unfold chunkEnd
  split
  · exact le_rfl
  · rename_i hgt
    have hgt : ¬ mOf secret < (idx + 1024).toNat := hgt
    exact Nat.le_of_not_lt hgt

/-! ## Preservation -/

theorem flat_main (jobs : ι → Job) (g : ι → Option (List Arr)) (s : World ι) (i : ι) (σ' : Shared) (t : Goroutine) :
    flat jobs g ⟨σ', Function.update s.proc i { s.proc i with main := t }⟩ =
      ⟨σ', Function.update (flat jobs g s).thread (.inl i) t⟩ := by
  unfold flat
  simp only [Config.mk.injEq, true_and]
  funext u
  match u with
  | .inl k =>
    by_cases hk : k = i
    · subst hk; simp
    · rw [Function.update_of_ne (by simpa using hk)]
      simp only [Function.update_of_ne hk]
  | .inr (k, j) =>
    rw [Function.update_of_ne (by simp)]
    by_cases hk : k = i
    · subst hk; simp
    · simp only [Function.update_of_ne hk]

theorem flat_worker (jobs : ι → Job) (g : ι → Option (List Arr)) (s : World ι) (i : ι) (j : Nat) (w : Goroutine)
    (hw : (s.proc i).workers[j]? = some w) (σ' : Shared) (t : Goroutine) :
    flat jobs g ⟨σ', Function.update s.proc i { s.proc i with workers := (s.proc i).workers.set j t }⟩ =
      ⟨σ', Function.update (flat jobs g s).thread (.inr (i, j)) t⟩ := by
  unfold flat
  simp only [Config.mk.injEq, true_and]
  have hlt := (List.getElem?_eq_some_iff.1 hw).1
  funext u
  match u with
  | .inl k =>
    rw [Function.update_of_ne (by simp)]
    by_cases hk : k = i
    · subst hk; simp
    · simp only [Function.update_of_ne hk]
  | .inr (k, l) =>
    by_cases hk : k = i
    · subst hk
      by_cases hl : l = j
      · subst hl; simp [hlt]
      · rw [Function.update_of_ne (by simpa using hl)]
        simp [List.getElem?_set_ne (Ne.symm hl)]
    · rw [Function.update_of_ne (by simp [hk])]
      simp only [Function.update_of_ne hk]

theorem flat_phase (jobs : ι → Job) (g : ι → Option (List Arr)) (s : World ι) (i : ι) (ph : Phase) :
    flat jobs g ⟨s.shared, Function.update s.proc i { s.proc i with phase := ph }⟩ = flat jobs g s := by
  unfold flat
  simp only [Config.mk.injEq, true_and]
  funext u
  match u with
  | .inl k =>
    by_cases hk : k = i
    · subst hk; simp
    · simp only [Function.update_of_ne hk]
  | .inr (k, j) =>
    by_cases hk : k = i
    · subst hk; simp
    · simp only [Function.update_of_ne hk]

/-- Starting the goroutine of the next chunk. -/
theorem flat_spawn (jobs : ι → Job) (g : ι → Option (List Arr)) (s : World ι) (i : ι) (ph : Phase) (t : Goroutine)
    (ht : t = pending (jobs i) (g i) (s.proc i).workers.length) :
    flat jobs g ⟨s.shared, Function.update s.proc i
      { s.proc i with phase := ph, workers := (s.proc i).workers ++ [t] }⟩ = flat jobs g s := by
  unfold flat
  simp only [Config.mk.injEq, true_and]
  funext u
  match u with
  | .inl k =>
    by_cases hk : k = i
    · subst hk; simp
    · simp only [Function.update_of_ne hk]
  | .inr (k, j) =>
    by_cases hk : k = i
    · subst hk
      simp only [Function.update_self]
      rcases Nat.lt_trichotomy j (s.proc k).workers.length with hj | rfl | hj
      · rw [List.getElem?_append_left hj]
      · simp [ht]
      · rw [List.getElem?_eq_none (by simp; omega), List.getElem?_eq_none (by omega)]
    · simp only [Function.update_of_ne hk]

/-- A goroutine that has been started never waits at an un-started place: threads of a finished call are finished. -/
theorem done_no_step {job : Job} {σ σ' : Shared} {p p' : Proc} {g : Option (List Arr)} (hp : PhaseOk job p g)
    {r : Outcome (List Slice)} (hd : p.phase = .done r) (h : ProcStep job σ p σ' p') : False := by
  unfold PhaseOk at hp
  rw [hd] at hp
  cases h with
  | worker =>
    rename_i j w prog' bs hw hstep
    rcases hp.2 with ⟨-, h1, -⟩ | ⟨_, _, _, _, _, -, -, -, -, -, h1⟩
    · rw [h1] at hw; cases hw
    · obtain ⟨r', hr⟩ := h1 w (List.mem_of_getElem? hw)
      rw [hr] at hstep
      cases hstep
  | _ => simp_all

/-- All goroutines of a call that has returned are finished. -/
theorem done_ret {jobs : ι → Job} {g : ι → Option (List Arr)} {s : World ι} {i : ι} {r : Outcome (List Slice)}
    (hp : PhaseOk (jobs i) (s.proc i) (g i)) (hd : (s.proc i).phase = .done r) :
    ((flat jobs g s).thread (.inl i)).prog = .ret r ∧ ∀ j, ∃ r', ((flat jobs g s).thread (.inr (i, j))).prog = .ret r' := by
  unfold PhaseOk at hp
  rw [hd] at hp
  refine ⟨hp.1, fun j => ?_⟩
  show ∃ r', (((s.proc i).workers[j]?).getD (pending (jobs i) (g i) j)).prog = .ret r'
  rcases hp.2 with ⟨h0, h1, -⟩ | ⟨secret, parts, threshold, perm, arrs, h0, h0', -, hm, -, h1⟩
  · rw [h0, h1]
    refine ⟨ok [], ?_⟩
    cases jobs i <;> rfl
  · by_cases hj : j < (s.proc i).workers.length
    · rw [List.getElem?_eq_getElem hj]
      exact h1 _ (List.getElem_mem hj)
    · rw [List.getElem?_eq_none (Nat.le_of_not_lt hj), h0, h0']
      refine ⟨ok [], ?_⟩
      show chunkProg secret parts threshold perm arrs j = _
      unfold chunkProg
      rw [if_neg (by omega)]

/-- What a step leaves alone: calls that have returned, and their memory. -/
def WKept (g g' : ι → Option (List Arr)) (W W' : ι ⊕ ι × Nat → Set Loc) (s s' : World ι) : Prop :=
  ∀ i r, (s.proc i).phase = .done r → s'.proc i = s.proc i ∧ g' i = g i ∧ W' (.inl i) = W (.inl i) ∧
    (∀ j, W' (.inr (i, j)) = W (.inr (i, j))) ∧ Agree (W (.inl i)) s.shared.heap s'.shared.heap ∧
    ∀ j, Agree (W (.inr (i, j))) s.shared.heap s'.shared.heap

/-- A step that changes the phase of call `i` and none of the goroutines. -/
theorem ainv_phase {arch : Arch} {h0 : ι → HeapF} {R : ι → Set Loc} {jobs : ι → Job} {g : ι → Option (List Arr)} {W : ι ⊕ ι × Nat → Set Loc}
    {s : World ι} (I : AInv arch h0 R jobs g W s) (i : ι) (p' : Proc)
    (hf : flat jobs g ⟨s.shared, Function.update s.proc i p'⟩ = flat jobs g s) (hp : PhaseOk (jobs i) p' (g i))
    (hd : ∀ r, (s.proc i).phase ≠ .done r) :
    ∃ g' W', AInv arch h0 R jobs g' W' ⟨s.shared, Function.update s.proc i p'⟩ ∧
      WKept g g' W W' s ⟨s.shared, Function.update s.proc i p'⟩ := by
  refine ⟨g, W, ⟨by rw [hf]; exact I.inv, fun k => ?_, I.agree⟩, fun k r hk => ?_⟩
  · by_cases hk : k = i
    · subst hk; simp only [Function.update_self]; exact hp
    · simp only [Function.update_of_ne hk]; exact I.phase k
  · have hki : k ≠ i := by rintro rfl; exact hd r hk
    exact ⟨by simp only [Function.update_of_ne hki], rfl, rfl, fun _ => rfl, Agree.refl _ _, fun _ => Agree.refl _ _⟩

/-- A step of one of the goroutines of call `i`. -/
theorem ainv_thread {arch : Arch} {h0 : ι → HeapF} {R : ι → Set Loc} {jobs : ι → Job} {g : ι → Option (List Arr)} {W : ι ⊕ ι × Nat → Set Loc}
    {s : World ι} (I : AInv arch h0 R jobs g W s) (i : ι) (t : ι ⊕ ι × Nat) (σ' : Shared) (prog' : Prog (Outcome (List Slice)))
    (bs : List Byte) (p' : Proc) (hstep : Step s.shared ((flat jobs g s).thread t).prog σ' prog' bs)
    (hf : flat jobs g ⟨σ', Function.update s.proc i p'⟩ =
      ⟨σ', Function.update (flat jobs g s).thread t ⟨prog', ((flat jobs g s).thread t).drawn ++ bs⟩⟩)
    (hp : PhaseOk (jobs i) p' (g i)) (hd : ∀ r, (s.proc i).phase ≠ .done r) :
    ∃ g' W', AInv arch h0 R jobs g' W' ⟨σ', Function.update s.proc i p'⟩ ∧
      WKept g g' W W' s ⟨σ', Function.update s.proc i p'⟩ := by
  have hs : SysStep (flat jobs g s) ⟨σ', Function.update (flat jobs g s).thread t ⟨prog', ((flat jobs g s).thread t).drawn ++ bs⟩⟩ :=
    SysStep.mk (flat jobs g s) t σ' prog' bs hstep
  obtain ⟨W', I', k1, k2⟩ := inv_step (fun t => posts_stable arch h0 jobs g t) I.inv hs
  refine ⟨g, W', ⟨by rw [hf]; exact I', fun k => ?_, ?_⟩, fun k r hk => ?_⟩
  · by_cases hk : k = i
    · subst hk; simp only [Function.update_self]; exact hp
    · simp only [Function.update_of_ne hk]; exact I.phase k
  · intro k a q hm
    exact (I.agree k a q hm).trans (k1 (.inl k) a q hm)
  · have hki : k ≠ i := by rintro rfl; exact hd r hk
    obtain ⟨h1, h2⟩ := done_ret (I.phase k) hk
    obtain ⟨e1, -, e3⟩ := k2 _ _ h1
    refine ⟨by simp only [Function.update_of_ne hki], rfl, e1, fun j => ?_, e3, fun j => ?_⟩
    · obtain ⟨r', h⟩ := h2 j
      exact (k2 _ _ h).1
    · obtain ⟨r', h⟩ := h2 j
      exact (k2 _ _ h).2.2

/-- Where the ownership of a thread comes from when call `i` hands over its chunks. -/
def srcOf (i : ι) : ι ⊕ ι × Nat → ι ⊕ ι × Nat
  | .inl k => .inl k
  | .inr (k, j) => if k = i then .inl i else .inr (k, j)

/-- Ownership after the chunks were handed over. -/
def handOver (secret : Slice) (arrs : List Arr) (i : ι) (W : ι ⊕ ι × Nat → Set Loc) : ι ⊕ ι × Nat → Set Loc
  | .inl k => if k = i then W (.inl i) \ {l | l.1 ∈ arrs ∧ l.2 < mOf secret} else W (.inl k)
  | .inr (k, j) => if k = i then region secret arrs j else W (.inr (k, j))

theorem region_lt {secret : Slice} {arrs : List Arr} {j : Nat} {l : Loc} (h : l ∈ region secret arrs j) :
    l.1 ∈ arrs ∧ l.2 < mOf secret := ⟨h.1, lt_of_lt_of_le h.2.2 (Nat.min_le_right _ _)⟩

/-- The bytes of a slice whose cells have not changed. -/
theorem shows_agree {h h' : HeapF} {sl : Slice} (hb : InBounds h sl) (hpos : 0 < sl.len)
    (hc : ∀ k < sl.len, (h sl.arr)[sl.off + k]? = (h' sl.arr)[sl.off + k]?) : Shows sl (contents h sl) h' := by
  unfold InBounds at hb
  constructor
  · have h1 := hc (sl.len - 1) (by omega)
    rw [List.getElem?_eq_getElem (by omega)] at h1
    have := (List.getElem?_eq_some_iff.1 h1.symm).1
    omega
  · apply List.ext_getElem?
    intro k
    simp only [contents, List.getElem?_take, List.getElem?_drop]
    split
    · exact (hc k (by assumption)).symm
    · rfl

/-- `SplitP` enters the loop. -/
theorem ainv_enter {arch : Arch} {h0 : ι → HeapF} {R : ι → Set Loc} {jobs : ι → Job} (hst : Ready h0 R jobs)
    {g : ι → Option (List Arr)} {W : ι ⊕ ι × Nat → Set Loc}
    {s : World ι} (I : AInv arch h0 R jobs g W s) (i : ι) {secret : Slice} {parts threshold : Int} {perm : List Nat}
    (hj : jobs i = .splitP secret parts threshold perm) {outs : List Slice}
    (hph : (s.proc i).phase = .sequential) (hm : (s.proc i).main.prog = .ret (ok outs)) :
    ∃ g' W', AInv arch h0 R jobs g' W' ⟨s.shared, Function.update s.proc i { s.proc i with phase := .loop outs 0 }⟩ ∧
      WKept g g' W W' s ⟨s.shared, Function.update s.proc i { s.proc i with phase := .loop outs 0 }⟩ := by
  have hp := I.phase i
  unfold PhaseOk at hp
  rw [hph] at hp
  obtain ⟨hg, hw⟩ := hp
  have hrun := I.inv.run (.inl i)
  have hrun : wp _ (s.proc i).main.prog (mainPost arch (h0 i) (jobs i) (g i)) (W (.inl i)) s.shared.heap (s.proc i).main.drawn := hrun
  rw [hm, hg, hj] at hrun
  obtain ⟨hv, arrs, rfl, hnd, hlen, hcells⟩ : SetupPost secret (contents (h0 i) secret) parts threshold perm
    (ok outs) (W (.inl i)) s.shared.heap (s.proc i).main.drawn := hrun
  have hown : ∀ a ∈ arrs, own a ⊆ W (.inl i) := by
    intro a ha
    obtain ⟨k, hk, e⟩ := List.getElem_of_mem ha
    exact (hcells k a (by rw [List.getElem?_eq_getElem hk, e])).1
  have hsub : ∀ t, handOver secret arrs i W t ⊆ W (srcOf i t) := by
    intro t
    match t with
    | .inl k =>
      by_cases hk : k = i
      · subst hk; simp only [handOver, srcOf, if_true]; exact Set.sdiff_subset
      · simp only [handOver, srcOf, hk, if_false]; exact fun _ h => h
    | .inr (k, j) =>
      by_cases hk : k = i
      · subst hk; simp only [handOver, srcOf, if_true]
        intro l hl
        exact hown l.1 hl.1 rfl
      · simp only [handOver, srcOf, hk, if_false]; exact fun _ h => h
  have hmem : secret ∈ (jobs i).inputs := by rw [hj]; simp [Job.inputs]
  have hcell := hst.cells i secret hmem
  have hshows : 0 < secret.len → Shows secret (contents (h0 i) secret) s.shared.heap := fun hpos =>
    shows_agree (hst.bounds i secret hmem) hpos fun k hk => I.agree i _ _ (hcell k hk)
  have hperm : perm.Perm (List.range 255) := by have := hst.adm i; rwa [hj] at this
  have hpl : parts.toNat ≤ perm.length := by
    rw [hperm.length_eq, List.length_range]; have := hv.2.1; omega
  have hml := mOf_le secret
  have hmlt := mOf_lt secret
  refine ⟨Function.update g i (some arrs), handOver secret arrs i W, ⟨?_, fun k => ?_, I.agree⟩, fun k r hk => ?_⟩
  · constructor
    · intro t u htu
      by_cases hsrc : srcOf i t = srcOf i u
      · -- both belong to call i
        match t, u with
        | .inl k, .inl l => simp [srcOf] at hsrc; exact absurd (by rw [hsrc]) htu
        | .inl k, .inr (l, j) =>
          by_cases hl : l = i
          · subst hl
            simp only [srcOf, if_true, Sum.inl.injEq] at hsrc
            subst hsrc
            simp only [handOver, if_true]
            rw [Set.disjoint_left]
            intro x hx hx'
            exact hx.2 (region_lt hx')
          · simp [srcOf, hl] at hsrc
        | .inr (k, j), .inl l =>
          by_cases hk : k = i
          · subst hk
            simp only [srcOf, if_true, Sum.inl.injEq] at hsrc
            subst hsrc
            simp only [handOver, if_true]
            rw [Set.disjoint_left]
            intro x hx hx'
            exact hx'.2 (region_lt hx)
          · simp [srcOf, hk] at hsrc
        | .inr (k, j), .inr (l, j') =>
          by_cases hk : k = i
          · by_cases hl : l = i
            · subst hk; subst hl
              simp only [handOver, if_true]
              have hjj : j ≠ j' := by rintro rfl; exact htu rfl
              rw [Set.disjoint_left]
              rintro x ⟨-, hx1, hx2⟩ ⟨-, hx3, hx4⟩
              unfold stopOf at hx2 hx4
              omega
            · simp [srcOf, hk, hl] at hsrc
          · by_cases hl : l = i
            · simp [srcOf, hk, hl] at hsrc
            · simp only [srcOf, hk, hl, if_false] at hsrc
              exact absurd hsrc htu
      · exact (I.inv.disjW _ _ hsrc).mono (hsub t) (hsub u)
    · intro t u
      exact (I.inv.disjR _ u).mono_left (hsub t)
    · exact I.inv.poolNodup
    · exact I.inv.poolLt
    · intro a ha t
      exact (I.inv.poolFreshW a ha _).mono (hsub t)
    · intro a ha t
      exact I.inv.poolFreshR a ha t
    · intro a ha t
      exact (I.inv.newW a ha _).mono (hsub t)
    · intro a ha t
      exact I.inv.newR a ha t
    · intro t
      match t with
      | .inl k =>
        by_cases hk : k = i
        · subst hk
          show wp _ (Function.update s.proc k _ k).main.prog (mainPost arch (h0 k) (jobs k) (Function.update g k (some arrs) k)) (handOver secret arrs k W (.inl k)) _ _
          rw [Function.update_self, Function.update_self, hj]
          simp only [handOver, if_true]
          rw [hm]
          refine ⟨rfl, hv, hnd, hlen, fun n a hn q hq => ⟨⟨(hcells n a hn).1 rfl, fun hc => ?_⟩, ?_⟩⟩
          · have : q < mOf secret := hc.2
            omega
          · show (s.shared.heap a)[q]? = _
            rw [(hcells n a hn).2]
        · have := I.inv.run (.inl k)
          show wp _ (Function.update s.proc i _ k).main.prog (mainPost arch (h0 k) (jobs k) (Function.update g i (some arrs) k)) (handOver secret arrs i W (.inl k)) _ (Function.update s.proc i _ k).main.drawn
          simp only [handOver, Function.update_of_ne hk, hk, if_false]
          exact this
      | .inr (k, j) =>
        by_cases hk : k = i
        · subst hk
          show wp _ (((Function.update s.proc k _ k).workers[j]?).getD (pending (jobs k) (Function.update g k (some arrs) k) j)).prog
            (workerPost (h0 k) (jobs k) (Function.update g k (some arrs) k) j) (handOver secret arrs k W (.inr (k, j))) s.shared.heap
            (((Function.update s.proc k _ k).workers[j]?).getD (pending (jobs k) (Function.update g k (some arrs) k) j)).drawn
          simp only [handOver, if_true, Function.update_self, hw, hj, List.getElem?_nil, Option.getD_none]
          show wp _ (chunkProg secret parts threshold perm arrs j) (ChunkPost secret (contents (h0 k) secret) threshold perm arrs j) _ _ []
          unfold chunkProg
          by_cases hjm : 1024 * j < mOf secret
          · rw [if_pos hjm]
            have e1 : (BitVec.ofNat 32 (1024 * j)).toNat = 1024 * j := by rw [BitVec.toNat_ofNat]; omega
            have hstop : stopOf secret j ≤ mOf secret := Nat.min_le_right _ _
            have e2 : (BitVec.ofNat 32 (stopOf secret j)).toNat = stopOf secret j := by rw [BitVec.toNat_ofNat]; omega
            refine wp_workerP (bs := contents (h0 k) secret) hv.2.2.1 (by have := hv.1; have := hv.2.1; omega) hpl hlen hnd
              (by rw [e2]; omega) ?_ hcell ?_ (hshows (by omega)) ?_
            · intro a ha q hq1 hq2
              rw [e1] at hq1
              rw [e2] at hq2
              refine ⟨⟨ha, hq1, hq2⟩, ?_⟩
              obtain ⟨n, hn, e⟩ := List.getElem_of_mem ha
              rw [(hcells n a (by rw [List.getElem?_eq_getElem hn, e])).2]
              simp
              omega
            · rw [Set.disjoint_left]
              intro x hx hx'
              exact Set.disjoint_left.1 (I.inv.disjR (.inl k) (.inl k)) (hown x.1 hx.1 rfl) hx'
            · intro h' log' hA _
              rw [e1, e2] at hA
              exact ⟨fun _ h => h, hA⟩
          · rw [if_neg hjm]
            exact fun hc => absurd hc hjm
        · have := I.inv.run (.inr (k, j))
          show wp _ (((Function.update s.proc i _ k).workers[j]?).getD (pending (jobs k) (Function.update g i (some arrs) k) j)).prog
            (workerPost (h0 k) (jobs k) (Function.update g i (some arrs) k) j) (handOver secret arrs i W (.inr (k, j))) s.shared.heap
            (((Function.update s.proc i _ k).workers[j]?).getD (pending (jobs k) (Function.update g i (some arrs) k) j)).drawn
          simp only [handOver, Function.update_of_ne hk, hk, if_false]
          exact this
  · by_cases hk : k = i
    · subst hk
      simp only [Function.update_self]
      refine ⟨secret, parts, threshold, perm, arrs, hj, rfl, rfl, hm, ?_, ?_⟩
      · simp [hw]
      · right; simp [hw]
    · simp only [Function.update_of_ne hk]; exact I.phase k
  · have hki : k ≠ i := by rintro rfl; rw [hph] at hk; cases hk
    refine ⟨by simp only [Function.update_of_ne hki], Function.update_of_ne hki _ _, ?_, fun j => ?_, Agree.refl _ _, fun _ => Agree.refl _ _⟩
    · simp only [handOver, hki, if_false]
    · simp only [handOver, hki, if_false]

/-- Every step of every goroutine preserves the invariant. -/
theorem ainv_step {arch : Arch} {h0 : ι → HeapF} {R : ι → Set Loc} {jobs : ι → Job} (hst : Ready h0 R jobs)
    {g : ι → Option (List Arr)} {W : ι ⊕ ι × Nat → Set Loc} {s s' : World ι} (I : AInv arch h0 R jobs g W s)
    (h : WorldStep jobs s s') : ∃ g' W', AInv arch h0 R jobs g' W' s' ∧ WKept g g' W W' s s' := by
  obtain ⟨i, σ', p', hstep⟩ := h
  have hnd : ∀ r, (s.proc i).phase ≠ .done r := fun r hr => done_no_step (I.phase i) hr hstep
  have hp := I.phase i
  unfold PhaseOk at hp
  generalize hjob : jobs i = job at hstep
  generalize hproc : s.proc i = p at hstep
  cases hstep with
  | main =>
    rename_i prog' bs hph hs
    subst hproc
    refine ainv_thread I i (.inl i) σ' prog' bs _ hs (flat_main jobs g s i σ' _) ?_ hnd
    rw [hph] at hp
    unfold PhaseOk
    rw [show ({ s.proc i with main := _ } : Proc).phase = (s.proc i).phase from rfl, hph]
    exact hp
  | finish =>
    rename_i c r hph hs
    subst hproc
    refine ainv_phase I i _ (flat_phase jobs g s i _) ?_ hnd
    rw [hph] at hp
    exact ⟨hs, .inl ⟨hp.1, hp.2, .inl ⟨c, hjob⟩⟩⟩
  | reject =>
    rename_i secret parts threshold perm e hph hs
    subst hproc
    refine ainv_phase I i _ (flat_phase jobs g s i _) ?_ hnd
    rw [hph] at hp
    exact ⟨hs, .inl ⟨hp.1, hp.2, .inr ⟨_, _, _, _, e, hjob, rfl⟩⟩⟩
  | enter =>
    rename_i secret parts threshold perm outs hph hs
    subst hproc
    exact ainv_enter hst I i hjob hph hs
  | spawn =>
    rename_i secret parts threshold perm outs idx hlt hb hph
    subst hproc
    rw [hph] at hp
    obtain ⟨secret', parts', threshold', perm', arrs, h1, h2, h3, h4, h5, h6⟩ := hp
    rw [hjob] at h1; cases h1
    obtain ⟨c1, c2, c3⟩ := chunk_cases h5 hlt
    rcases c3 with ⟨c3, c4, -⟩ | ⟨-, c4⟩
    · refine ainv_phase I i _ (flat_spawn jobs g s i _ _ ?_) ?_ hnd
      · rw [hjob, h2]
        show _ = (⟨chunkProg secret parts threshold perm arrs (s.proc i).workers.length, []⟩ : Goroutine)
        unfold chunkProg
        rw [if_pos c2, ← c1, ← c4, h3]
      · refine ⟨secret, parts, threshold, perm, arrs, hjob, h2, h3, h4, ?_, ?_⟩
        · rw [c4, BitVec.toNat_ofNat]
          have := mOf_lt secret
          simp only [List.length_append, List.length_singleton]
          unfold stopOf
          omega
        · simpa using c3
    · exact absurd hb.1 c4
  | spawnPanic =>
    rename_i secret parts threshold perm outs idx hlt hb hph
    subst hproc
    rw [hph] at hp
    obtain ⟨secret', parts', threshold', perm', arrs, h1, h2, h3, h4, h5, h6⟩ := hp
    rw [hjob] at h1; cases h1
    obtain ⟨c1, c2, c3⟩ := chunk_cases h5 hlt
    refine ainv_phase I i _ (flat_phase jobs g s i _) ?_ hnd
    refine ⟨secret, parts, threshold, perm, arrs, hjob, h2, by rw [← h3]; exact h4, ?_⟩
    rcases c3 with ⟨-, -, c4⟩ | ⟨c4, -⟩
    · have hin := hst.cap i secret (by rw [hjob]; simp [Job.inputs])
      have := chunkEnd_le secret idx
      have := mOf_le secret
      exact absurd ⟨c4, by omega⟩ hb
    · exact c4
  | exit =>
    rename_i secret parts threshold perm outs idx hge hph
    subst hproc
    rw [hph] at hp
    obtain ⟨secret', parts', threshold', perm', arrs, h1, h2, h3, h4, h5, h6⟩ := hp
    rw [hjob] at h1; cases h1
    have hge : ¬ idx.toNat < mOf secret := hge
    refine ainv_phase I i _ (flat_phase jobs g s i _) ?_ hnd
    exact ⟨secret, parts, threshold, perm, arrs, hjob, h2, h3, h4, by simp only; omega, by omega⟩
  | join =>
    rename_i secret parts threshold perm outs hph hall
    subst hproc
    rw [hph] at hp
    obtain ⟨secret', parts', threshold', perm', arrs, h1, h2, h3, h4, h5, h6⟩ := hp
    rw [hjob] at h1; cases h1
    refine ainv_phase I i _ (flat_phase jobs g s i _) ?_ hnd
    exact ⟨h4, .inr ⟨secret, parts, threshold, perm, arrs, hjob, h2, by rw [h3], h5, h6, hall⟩⟩
  | worker =>
    rename_i j w prog' bs hw hs
    subst hproc
    have e : (flat jobs g s).thread (.inr (i, j)) = w := by
      show ((s.proc i).workers[j]?).getD _ = w
      rw [hw]; rfl
    refine ainv_thread I i (.inr (i, j)) σ' prog' bs _ (by rw [e]; exact hs) (by rw [e]; exact flat_worker jobs g s i j w hw σ' _) ?_ hnd
    unfold PhaseOk
    rw [show ({ s.proc i with workers := _ } : Proc).phase = (s.proc i).phase from rfl]
    cases hph : (s.proc i).phase with
    | sequential =>
      rw [hph] at hp
      rw [hp.2] at hw; cases hw
    | done r => exact absurd hph (hnd r)
    | loop outs idx => rw [hph] at hp; simpa using hp
    | waiting outs => rw [hph] at hp; simpa using hp
    | panicked => rw [hph] at hp; exact hp

theorem winv_step {arch : Arch} {σ : Shared} {jobs : ι → Job} (hst : WStart σ jobs) (hadm : ∀ i, JobAdmissible (jobs i))
    {g : ι → Option (List Arr)} {W : ι ⊕ ι × Nat → Set Loc} {s s' : World ι} (I : WInv arch σ jobs g W s)
    (h : WorldStep jobs s s') : ∃ g' W', WInv arch σ jobs g' W' s' ∧ WKept g g' W W' s s' := by
  obtain ⟨g', W', I', k⟩ := ainv_step (WStart.ready hst hadm) I.toA h
  have hne : Nonempty ι := by obtain ⟨i, _, _, _⟩ := h; exact ⟨i⟩
  exact ⟨g', W', I'.toW hne.some, k⟩

theorem winv_reach {arch : Arch} {σ : Shared} {jobs : ι → Job} (hst : WStart σ jobs) (hadm : ∀ i, JobAdmissible (jobs i))
    {g : ι → Option (List Arr)} {W : ι ⊕ ι × Nat → Set Loc} {s s' : World ι} (I : WInv arch σ jobs g W s)
    (h : WReach jobs s s') : ∃ g' W', WInv arch σ jobs g' W' s' ∧ WKept g g' W W' s s' := by
  induction h with
  | refl => exact ⟨g, W, I, fun i r _ => ⟨rfl, rfl, rfl, fun _ => rfl, Agree.refl _ _, fun _ => Agree.refl _ _⟩⟩
  | tail _ hs ih =>
    obtain ⟨g1, W1, I1, k1⟩ := ih
    obtain ⟨g2, W2, I2, k2⟩ := winv_step hst hadm I1 hs
    refine ⟨g2, W2, I2, fun i r hr => ?_⟩
    obtain ⟨a1, a2, a3, a4, a5, a6⟩ := k1 i r hr
    obtain ⟨b1, b2, b3, b4, b5, b6⟩ := k2 i r (by rw [a1]; exact hr)
    refine ⟨b1.trans a1, b2.trans a2, b3.trans a3, fun j => (b4 j).trans (a4 j), ?_, fun j => ?_⟩
    · intro a q hm; exact (a5 a q hm).trans (b5 a q (by rw [a3]; exact hm))
    · intro a q hm; exact (a6 j a q hm).trans (b6 j a q (by rw [a4]; exact hm))

/-- The invariant holds in every reachable state. -/
theorem winv (arch : Arch) {σ : Shared} {jobs : ι → Job} (hst : WStart σ jobs) (hadm : ∀ i, JobAdmissible (jobs i))
    {s : World ι} (h : WReach jobs (winitial arch σ jobs) s) : ∃ g W, WInv arch σ jobs g W s := by
  obtain ⟨g, W, I, -⟩ := winv_reach hst hadm (winv_initial arch hst hadm) h
  exact ⟨g, W, I⟩

end Verif.Proofs.Own
