import Verif.Proofs.SoloProgram
import Verif.Props.Random
import Verif.Props.PoolBalance

/-! # C68: a program that makes one call at a time

The functions of the sequential model (C01-C31, C35-C45 ...) take the contents of the buffer pools and return the new
contents.  Here a program with a single goroutine works on shared memory: it allocates, stores, makes calls, gets results.
What every call returns is what the sequential function returns for the pools the call before left. -/

namespace Verif.Props
open Verif Outcome Galois Shamir Spec Pool Csprng Verif.Heap Verif.Proofs Verif.Proofs.Own Verif.Proofs.Alone

/-- C68: starting with any pools, the calls of a program with one goroutine return, one after the other, what the
sequential functions return, each one getting the pools the one before left. -/
theorem C68_sequential (arch : Arch) (σ : Shared) (hn : (σ.pool .bPool ++ σ.pool .polyPool).Nodup)
    (hlt : ∀ p, ∀ a ∈ σ.pool p, a < σ.next) (s : Program) (h : RunsAlone arch (Program.start σ) s) (hopen : s.openCalls = 0) :
    ∃ pools : Nat → Pools, pools 0 = poolsOf σ ∧ pools s.calls.length = poolsOf s.shared ∧
      ∀ i c, s.calls[i]? = some c → ∃ o, c.returned = some o ∧
        JobAlone arch c.job c.ins c.proc.main.drawn (workerDraws c.proc) (pools i) o (pools (i + 1)) := by
  obtain ⟨pools, I⟩ := aloneInv_runs hn hlt h
  refine ⟨pools, I.first, I.idle hopen, fun i c hc => ?_⟩
  obtain ⟨o, ho⟩ := Option.ne_none_iff_exists'.1 (openCalls_zero hopen hc)
  exact ⟨o, ho, I.past i c hc o ho⟩

/-! ## Equal calls give equal results -/

theorem yields_det {x : Outcome (List (List Byte) × Pools)} {ps ps1 ps2 : Pools} {o1 o2 : Outcome (List (List Byte))}
    (h1 : Yields x ps o1 ps1) (h2 : Yields x ps o2 ps2) : o1 = o2 ∧ ps1 = ps2 :=
  ⟨h1.1.trans h2.1.symm, h1.2.trans h2.2.symm⟩

theorem withNils_anon {β : Type} (ss : List (Option Slice)) (l : List β) :
    withNils (ss.map (·.map anonSlice)) l = withNils ss l := by
  induction ss generalizing l with
  | nil => rfl
  | cons s rest ih =>
    cases s with
    | none => simp only [List.map_cons, Option.map_none, withNils, ih]
    | some s => cases l <;> simp only [List.map_cons, Option.map_some, withNils, ih]

theorem caps_anon (ss : List (Option Slice)) :
    ((ss.map (·.map anonSlice)).filterMap id).map (·.cap) = (ss.filterMap id).map (·.cap) := by
  induction ss with
  | nil => rfl
  | cons s rest ih =>
    cases s with
    | none => simpa using ih
    | some s => simp [anonSlice] at ih ⊢; exact ih

/-- Where the arguments are in memory does not matter. -/
theorem jobAlone_anon {arch : Arch} {j : Job} {ins : List (List Byte)} {drawn : List Byte} {w : Nat → List Byte} {ps ps' : Pools}
    {o : Outcome (List (List Byte))} : JobAlone arch (anonJob j) ins drawn w ps o ps' ↔ JobAlone arch j ins drawn w ps o ps' := by
  cases j with
  | splitP => rfl
  | seq c =>
    cases c with
    | krawczykCombine env ss parts threshold =>
      show Correct arch (.krawczykCombine env (ss.map (·.map anonSlice)) parts threshold) ins drawn o ∧ _ ↔ _
      unfold Correct
      dsimp only
      rw [withNils_anon, caps_anon]
      rfl
    | _ => rfl

theorem jobAlone_det {arch : Arch} {j : Job} {ins : List (List Byte)} {drawn : List Byte} {w : Nat → List Byte}
    {ps ps1 ps2 : Pools} {o1 o2 : Outcome (List (List Byte))} (h1 : JobAlone arch j ins drawn w ps o1 ps1)
    (h2 : JobAlone arch j ins drawn w ps o2 ps2) : o1 = o2 ∧ ps1 = ps2 := by
  cases j with
  | splitP s parts threshold perm =>
    obtain ⟨c1, rfl⟩ := h1
    obtain ⟨c2, rfl⟩ := h2
    refine ⟨?_, rfl⟩
    unfold JobCorrect at c1 c2
    dsimp only at c1 c2
    cases he : argError (ins.headD []) parts threshold with
    | some e =>
      rw [he] at c1 c2
      exact Eq.trans c1 (Eq.symm c2)
    | none =>
      rw [he] at c1 c2
      exact c1.1.trans c2.1.symm
  | seq c =>
    cases c with
    | split => exact yields_det (h1 _ (delivers_getD drawn)) (h2 _ (delivers_getD drawn))
    | splitWithRandomizer => exact yields_det h1 h2
    | splitWithRandomizerOld => exact yields_det h1 h2
    | splitGeneric => exact ⟨(h1.1 _ (delivers_getD drawn)).trans (h2.1 _ (delivers_getD drawn)).symm, h1.2.trans h2.2.symm⟩
    | combine => exact ⟨Eq.trans h1.1 (Eq.symm h2.1), h1.2.trans h2.2.symm⟩
    | regenerate => exact ⟨(h1.1 _ (delivers_getD drawn)).trans (h2.1 _ (delivers_getD drawn)).symm, h1.2.trans h2.2.symm⟩
    | krawczykSplit => exact yields_det (h1 _ (delivers_getD drawn)) (h2 _ (delivers_getD drawn))
    | krawczykSplitWithRandomizer => exact yields_det h1 h2
    | krawczykCombine => exact ⟨Eq.trans h1.1 (Eq.symm h2.1), h1.2.trans h2.2.symm⟩

/-- C68: two programs with one goroutine that start with pools of the same contents and ask for the same, in the same
order, get the same results and end with the same pools, wherever the arguments lie in memory and whatever else the
programs do between the calls. -/
theorem C68_deterministic (arch : Arch) (σ σ' : Shared) (hn : (σ.pool .bPool ++ σ.pool .polyPool).Nodup)
    (hlt : ∀ p, ∀ a ∈ σ.pool p, a < σ.next) (hn' : (σ'.pool .bPool ++ σ'.pool .polyPool).Nodup)
    (hlt' : ∀ p, ∀ a ∈ σ'.pool p, a < σ'.next) (hpools : poolsOf σ = poolsOf σ') (s s' : Program)
    (h : RunsAlone arch (Program.start σ) s) (h' : RunsAlone arch (Program.start σ') s') (hopen : s.openCalls = 0)
    (hopen' : s'.openCalls = 0) (hsame : List.Forall₂ AskSame s.calls s'.calls) :
    s.calls.map (·.returned) = s'.calls.map (·.returned) ∧ poolsOf s.shared = poolsOf s'.shared := by
  obtain ⟨pools, p0, p1, hc⟩ := C68_sequential arch σ hn hlt s h hopen
  obtain ⟨pools', p0', p1', hc'⟩ := C68_sequential arch σ' hn' hlt' s' h' hopen'
  have hlen := hsame.length_eq
  have key : ∀ i ≤ s.calls.length, pools i = pools' i ∧ ∀ j < i, (s.calls[j]?).map (·.returned) = (s'.calls[j]?).map (·.returned) := by
    intro i
    induction i with
    | zero => exact fun _ => ⟨by rw [p0, p0', hpools], fun j hj => absurd hj (Nat.not_lt_zero _)⟩
    | succ i ih =>
      intro hi
      obtain ⟨e, hr⟩ := ih (by omega)
      have hi1 : i < s.calls.length := by omega
      have hi2 : i < s'.calls.length := by omega
      obtain ⟨o, ho, ha⟩ := hc i _ (List.getElem?_eq_getElem hi1)
      obtain ⟨o', ho', ha'⟩ := hc' i _ (List.getElem?_eq_getElem hi2)
      obtain ⟨q1, q2, q3, q4⟩ : AskSame s.calls[i] s'.calls[i] := List.forall₂_iff_get.1 hsame |>.2 i hi1 hi2
      rw [← jobAlone_anon, q1, q2, q3, e] at ha
      have ha : JobAlone arch (anonJob s'.calls[i].job) s'.calls[i].ins s'.calls[i].proc.main.drawn
          (workerDraws s'.calls[i].proc) (pools' i) o (pools (i + 1)) := by
        cases hj : s.calls[i].job with
        | seq c =>
          rw [hj] at q1
          rw [← q1] at ha ⊢
          exact ha
        | splitP =>
          rw [hj] at q4
          rw [← q4]; exact ha
      obtain ⟨e1, e2⟩ := jobAlone_det (jobAlone_anon.1 ha) ha'
      refine ⟨e2, fun j hj => ?_⟩
      by_cases hji : j = i
      · subst hji
        rw [List.getElem?_eq_getElem hi1, List.getElem?_eq_getElem hi2, Option.map_some, Option.map_some, ho, ho', e1]
      · exact hr j (by omega)
  obtain ⟨k1, k2⟩ := key _ le_rfl
  refine ⟨?_, by rw [← p1, k1, hlen, p1']⟩
  apply List.ext_getElem?
  intro j
  rw [List.getElem?_map, List.getElem?_map]
  by_cases hj : j < s.calls.length
  · exact k2 j hj
  · rw [List.getElem?_eq_none (by omega), List.getElem?_eq_none (by omega)]

/-! ## Consequences -/

theorem yields_ok {x : Outcome (List (List Byte) × Pools)} {ps ps' : Pools} {rows : List (List Byte)}
    (h : Yields x ps (ok rows) ps') : x = ok (rows, ps') := by
  obtain ⟨h1, h2⟩ := h
  cases x with
  | ok v =>
    dsimp only at h2
    have h1 := Outcome.ok.inj h1
    rw [h1, h2]
  | _ => cases h1

/-- C68: in a program whose first two calls are `SplitWithRandomizer` with the same randomizer and threshold, every share
of the second call shows its secret, when the secrets have one byte and the pool was empty before. -/
theorem C68_second_call_leaks (arch : Arch) (σ : Shared) (hn : (σ.pool .bPool ++ σ.pool .polyPool).Nodup)
    (hlt : ∀ p, ∀ a ∈ σ.pool p, a < σ.next) (hempty : σ.pool .bPool = []) (hsize : 0 < σ.size)
    (s : Program) (h : RunsAlone arch (Program.start σ) s) (hopen : s.openCalls = 0)
    (r : CSPRNG) (fuel fuel' : Nat) (sl sl' : Slice) (parts parts' threshold : Int) (b b' : Byte) (c c' : CallState)
    (hc : s.calls[0]? = some c) (hj : c.job = .seq (.splitWithRandomizer fuel sl parts threshold r)) (hi : c.ins = [[b]])
    (hc' : s.calls[1]? = some c') (hj' : c'.job = .seq (.splitWithRandomizer fuel' sl' parts' threshold r))
    (hi' : c'.ins = [[b']]) (rows rows' : List (List Byte)) (hr : c.returned = some (ok rows))
    (hr' : c'.returned = some (ok rows')) :
    ∀ x ∈ rows', x = [b', tag x] := by
  obtain ⟨pools, p0, -, hall⟩ := C68_sequential arch σ hn hlt s h hopen
  obtain ⟨o, ho, ha⟩ := hall 0 c hc
  obtain ⟨o', ho', ha'⟩ := hall 1 c' hc'
  rw [hr] at ho; cases ho
  rw [hr'] at ho'; cases ho'
  rw [hj, hi] at ha
  rw [hj', hi'] at ha'
  have h1 := yields_ok (show Yields (splitWithRandomizer arch fuel [b] parts threshold r (pools 0)) _ _ _ from ha)
  have h2 := yields_ok (show Yields (splitWithRandomizer arch fuel' [b'] parts' threshold r (pools 1)) _ _ _ from ha')
  refine C30_reuse_one_byte arch fuel fuel' b b' parts parts' threshold r (pools 0) (pools 1) (pools 2) rows rows' ?_ ?_ h1 h2
  · rw [p0]; show (σ.pool .bPool).map _ = []; rw [hempty]; rfl
  · rw [p0]; exact hsize

/-! ## A program with two calls -/

theorem runsAlone_finishes {arch : Arch} {s s' : Program} (h : Finishes arch s s') : RunsAlone arch s s' := by
  induction h with
  | refl => exact .refl
  | tail _ hs ih =>
    obtain ⟨i, hs | hs⟩ := hs
    · exact ih.tail ⟨_, hs, .inr ⟨i, .inl rfl⟩⟩
    · exact ih.tail ⟨_, hs, .inr ⟨i, .inr rfl⟩⟩

theorem runs_of_runsAlone {arch : Arch} {s s' : Program} (h : RunsAlone arch s s') : Runs arch s s' := by
  induction h with
  | refl => exact .refl
  | tail _ hs ih => obtain ⟨e, hs, -⟩ := hs; exact ih.tail ⟨e, hs⟩

/-- A program with one goroutine makes a call (not of `SplitP`) and waits until it has returned. -/
theorem call_returns {arch : Arch} {s : Program} (I : PInv arch s) (hopen : s.openCalls = 0)
    (hseq : ∀ c ∈ s.calls, ∃ call, c.job = .seq call) (call : Call) (hadm : Admissible call)
    (hin : ∀ sl ∈ call.inputs, sl.arr ∈ s.known ∧ InBounds s.shared.heap sl ∧ sl.len ≤ sl.cap) :
    ∃ s', RunsAlone arch s s' ∧ s'.openCalls = 0 ∧ s'.calls.length = s.calls.length + 1 ∧
      (∀ a ∈ s.known, a ∈ s'.known ∧ s'.shared.heap a = s.shared.heap a) ∧
      (∀ (i : Nat) (c : CallState), s.calls[i]? = some c → s'.calls[i]? = some c) ∧
      ∃ c o, s'.calls[s.calls.length]? = some c ∧ c.job = .seq call ∧ c.ins = call.inputs.map (contents s.shared.heap) ∧
        c.returned = some o := by
  have hcall := PStep.call (arch := arch) s (.seq call) hadm hin
  have I1 := pinv_pstep I hcall
  generalize hs1 : Program.mk _ _ _ = s1 at hcall I1
  have hcalls : s1.calls = s.calls ++ [⟨.seq call, call.inputs.map (contents s.shared.heap), ⟨.sequential, ⟨call.prog arch, []⟩, []⟩, none⟩] := by
    rw [← hs1]; rfl
  have hret : ∀ (i : Nat) (c : CallState), s.calls[i]? = some c → c.returned ≠ none := fun i c hc => openCalls_zero hopen hc
  obtain ⟨s', hf, hdone⟩ := finishes_all I1 (by
    intro c hc secret parts threshold perm hj
    rw [hcalls] at hc
    rcases List.mem_append.1 hc with hc | hc
    · obtain ⟨d, hd⟩ := hseq c hc
      rw [hd] at hj; cases hj
    · rw [List.mem_singleton.1 hc] at hj; cases hj)
  obtain ⟨-, h2, h3, h4⟩ := finishes_keep I1 hf
  have hlen : s'.calls.length = s.calls.length + 1 := by rw [h3, hcalls]; simp
  refine ⟨s', .head ⟨_, hcall, .inl hopen⟩ (runsAlone_finishes hf), ?_, hlen, ?_, ?_, ?_⟩
  · unfold Program.openCalls
    rw [List.countP_eq_zero]
    intro c hc
    simpa [Option.isSome_iff_ne_none] using hdone c hc
  · intro a ha
    have hs1k : s1.known = s.known := by rw [← hs1]
    have hs1h : s1.shared = s.shared := by rw [← hs1]
    have := h2 a (by rw [hs1k]; exact ha)
    rw [hs1h] at this
    exact this
  · intro i c hc
    have hi := (List.getElem?_eq_some_iff.1 hc).1
    obtain ⟨c', e1, -, -, e2⟩ := h4 i c (by rw [hcalls, List.getElem?_append_left hi]; exact hc)
    rw [e2 (Option.isSome_iff_ne_none.2 (hret i c hc))] at e1
    exact e1
  · obtain ⟨c', e1, e2, e3, -⟩ := h4 s.calls.length _ (by rw [hcalls]; exact List.getElem?_concat_length)
    obtain ⟨o, ho⟩ := Option.isSome_iff_exists.1 (hdone c' (List.mem_of_getElem? e1))
    exact ⟨c', o, e1, e2, e3, ho⟩

/-- Two secrets of one byte; the pools are empty, as when the process starts. -/
def exTwo : Shared := ⟨fun a => if a = 0 then [5] else if a = 1 then [77] else [], 2, fun _ => [], 8⟩

def exRandomizer : CSPRNG := ⟨fun i => BitVec.ofNat 8 (i * i + 9)⟩

theorem exRandomizer_tags : ∃ xs, exRandomizer.getUniqueBytes 1 (BitVec.ofInt 8 4) = ok xs :=
  ⟨_, getUnique_distinct (r := exRandomizer) (n := BitVec.ofInt 8 4) (by decide) (by decide) 0⟩

/-- The program splits the first secret, waits, and splits the second one with the same randomizer: each of the four
shares of the second call begins with the secret byte 77. -/
example (arch : Arch) : ∃ s c rows, RunsAlone arch (Program.start exTwo) s ∧ s.openCalls = 0 ∧ s.calls[1]? = some c ∧
    c.returned = some (ok rows) ∧ rows.length = 4 ∧ ∀ x ∈ rows, x = [77, tag x] := by
  have I0 := pinv_start arch (σ := exTwo) (by decide) (by simp [exTwo])
  have hk : ∀ a < 2, a ∈ (Program.start exTwo).known := fun a ha => ⟨ha, by simp [exTwo]⟩
  obtain ⟨s1, r1, o1, l1, k1, -, c1, q1, g1, j1, i1, e1⟩ := call_returns I0 rfl (by simp [Program.start])
    (.splitWithRandomizer 1 ⟨0, 0, 1, 1⟩ 4 3 exRandomizer) exRandomizer_tags (by
      intro sl hsl
      have : sl = ⟨0, 0, 1, 1⟩ := by simpa [Call.inputs] using hsl
      subst this
      exact ⟨hk 0 (by decide), by unfold InBounds; decide, by decide⟩)
  have I1 := pinv_runs I0 (runs_of_runsAlone r1)
  have hm : (1 : Arr) ∈ s1.known ∧ s1.shared.heap 1 = [77] := k1 1 (hk 1 (by decide))
  obtain ⟨s2, r2, o2, l2, k2, p2, c2, q2, g2, j2, i2, e2⟩ := call_returns I1 o1 (by
      intro c hc
      obtain ⟨i, hi, rfl⟩ := List.getElem_of_mem hc
      have : i = 0 := by rw [l1] at hi; simp [Program.start] at hi; exact hi
      subst this
      have g1 : s1.calls[0]? = some c1 := g1
      rw [List.getElem?_eq_getElem hi, Option.some.injEq] at g1
      exact ⟨_, by rw [g1]; exact j1⟩)
    (.splitWithRandomizer 1 ⟨1, 0, 1, 1⟩ 4 3 exRandomizer) exRandomizer_tags (by
      intro sl hsl
      have : sl = ⟨1, 0, 1, 1⟩ := by simpa [Call.inputs] using hsl
      subst this
      exact ⟨hm.1, by unfold InBounds; rw [hm.2]; decide, by decide⟩)
  have hl1 : s1.calls.length = 1 := l1
  have hr := r1.trans r2
  rw [hl1] at g2
  have g1' : s2.calls[0]? = some c1 := p2 0 c1 g1
  obtain ⟨pools, -, -, hall⟩ := C68_sequential arch exTwo (by decide) (by simp [exTwo]) s2 hr o2
  have i1 : c1.ins = [[5]] := i1.trans rfl
  have i2 : c2.ins = [[77]] := by rw [i2]; simp [Call.inputs, contents, hm.2]
  have succeeds : ∀ (b : Byte) ps o ps', Yields (splitWithRandomizer arch 1 [b] 4 3 exRandomizer ps) ps o ps' →
      ∃ rows : List (List Byte), o = ok rows ∧ rows.length = 4 := by
    intro b ps o ps' hy
    obtain ⟨xs, hx⟩ := exRandomizer_tags
    have hv : ValidArgs [b] 4 3 := ⟨by decide, by decide, by decide, by simp⟩
    obtain ⟨pp, e⟩ := splitWithRandomizer_payload arch 1 exRandomizer ps hv xs hx
    have e' := splitWithRandomizer_ok arch 1 e
    have h1 := hy.1
    rw [e] at h1
    exact ⟨_, h1, e'.2.2.1⟩
  obtain ⟨o, ho, ha⟩ := hall 0 c1 g1'
  rw [j1, i1] at ha
  obtain ⟨rows, rfl, -⟩ := succeeds 5 _ _ _ ha
  obtain ⟨o', ho', ha'⟩ := hall 1 c2 g2
  rw [j2, i2] at ha'
  obtain ⟨rows', rfl, hlen⟩ := succeeds 77 _ _ _ ha'
  exact ⟨s2, c2, rows', hr, o2, g2, ho', hlen, C68_second_call_leaks arch exTwo (by decide) (by simp [exTwo]) rfl (by decide) s2 hr o2
    exRandomizer 1 1 _ _ 4 4 3 5 77 c1 c2 g1' j1 i1 g2 j2 i2 rows rows' ho ho'⟩

/-- The second secret of `exTwo`, elsewhere in memory. -/
def exOther : Shared := ⟨fun a => if a = 0 then [1, 2, 77, 4] else [], 1, fun _ => [], 8⟩

/-- Two programs split the same secret, which is at different places in memory: the shares are the same. -/
example (arch : Arch) : ∃ s s' c c', RunsAlone arch (Program.start exTwo) s ∧ RunsAlone arch (Program.start exOther) s' ∧
    s.calls = [c] ∧ s'.calls = [c'] ∧ c.job ≠ c'.job ∧ c.returned = c'.returned ∧ c.returned.isSome := by
  have I0 := pinv_start arch (σ := exTwo) (by decide) (by simp [exTwo])
  have I0' := pinv_start arch (σ := exOther) (by decide) (by simp [exOther])
  obtain ⟨s1, r1, o1, l1, -, -, c1, q1, g1, j1, i1, e1⟩ := call_returns I0 rfl (by simp [Program.start])
    (.splitWithRandomizer 1 ⟨1, 0, 1, 1⟩ 4 3 exRandomizer) exRandomizer_tags (by
      intro sl hsl
      have : sl = ⟨1, 0, 1, 1⟩ := by simpa [Call.inputs] using hsl
      subst this
      exact ⟨⟨by decide, by simp [exTwo]⟩, by unfold InBounds; decide, by decide⟩)
  obtain ⟨s2, r2, o2, l2, -, -, c2, q2, g2, j2, i2, e2⟩ := call_returns I0' rfl (by simp [Program.start])
    (.splitWithRandomizer 1 ⟨0, 2, 1, 1⟩ 4 3 exRandomizer) exRandomizer_tags (by
      intro sl hsl
      have : sl = ⟨0, 2, 1, 1⟩ := by simpa [Call.inputs] using hsl
      subst this
      exact ⟨⟨by decide, by simp [exOther]⟩, by unfold InBounds; decide, by decide⟩)
  have single : ∀ {l : List CallState} {c : CallState}, l.length = 1 → l[0]? = some c → l = [c] := by
    rintro l c hl hg
    obtain ⟨x, rfl⟩ := List.length_eq_one_iff.1 hl
    simpa using hg
  have f1 := single l1 g1
  have f2 := single l2 g2
  have d1 : c1.proc.main.drawn = [] := (pinv_runs I0 (runs_of_runsAlone r1)).draws c1 (by simp [f1]) _ e1 _ j1
  have d2 : c2.proc.main.drawn = [] := (pinv_runs I0' (runs_of_runsAlone r2)).draws c2 (by simp [f2]) _ e2 _ j2
  have key := C68_deterministic arch exTwo exOther (by decide) (by simp [exTwo]) (by decide) (by simp [exOther]) rfl s1 s2 r1 r2 o1 o2 (by
    rw [f1, f2]
    refine .cons ⟨by rw [j1, j2]; rfl, ?_, by rw [d1, d2], ?_⟩ .nil
    · rw [i1, i2]; rfl
    · rw [j1]; trivial)
  rw [f1, f2] at key
  refine ⟨s1, s2, c1, c2, r1, r2, f1, f2, ?_, by simpa using key.1, by simp [e1]⟩
  rw [j1, j2]; simp

end Verif.Props
