import Verif.Proofs.SplitPTerm
import Verif.Props.Secrecy
import Verif.Props.Concurrency

/-! # C11, C12, C13, C17, C34, C48, C50 for SplitP

Any number of calls run concurrently, each of them `SplitP` or one of the functions of `Verif.Model.Heap`.  `WReach`
ranges over all interleavings of the single steps of all goroutines (those that make the calls and those `SplitP`
starts), and over all bytes the random source may deliver to each of them. -/

namespace Verif.Props
open Verif Outcome Galois Spec Proofs Proofs.Own Shamir Verif.Heap

variable {ι : Type} [DecidableEq ι]

/-- C11: what `SplitP` returns: the documented error, or exactly the shares computed from the secret, the tags and the
bytes its goroutines drew, each goroutine having drawn threshold-1 bytes per byte of its chunk. -/
theorem C11_splitP_exact (arch : Arch) (σ : Shared) (jobs : ι → Job) (hst : WStart σ jobs)
    (hadm : ∀ i, JobAdmissible (jobs i)) (s : World ι) (hr : WReach jobs (winitial arch σ jobs) s) (i : ι)
    (secret : Slice) (parts threshold : Int) (perm : List Nat) (hj : jobs i = .splitP secret parts threshold perm)
    (r : Outcome (List Slice)) (hd : (s.proc i).phase = .done r) :
    match argError (contents σ.heap secret) parts threshold with
    | some e => r = err e
    | none => ∃ outs, r = ok outs ∧
        outs.map (contents s.shared.heap) = (perm.take parts.toNat).map (fun v =>
          splitPShare (contents σ.heap secret) threshold.toNat (workerDraws (s.proc i)) (BitVec.ofNat 8 v + 1#8)) ∧
        ∀ j, 1024 * j < secret.len % 2 ^ 32 → (workerDraws (s.proc i) j).length
          = (min (1024 * (j + 1)) (secret.len % 2 ^ 32) - 1024 * j) * (threshold.toNat - 1) := by
  obtain ⟨g, W, I⟩ := winv arch hst hadm hr
  rcases done_splitP hst hadm I hj hd with ⟨e, h1, h2⟩ | ⟨arrs, h1, -, -, -, hv, -, hdr, hc, -⟩
  · rw [h2]; exact h1
  · rw [argError_none.2 hv]
    exact ⟨_, h1, hc, hdr⟩

/-- C11: any `threshold` of the shares returned by `SplitP` combine to the secret (secrets of 2^32 bytes and more: see
C48), whatever the schedule, the other calls and the random bytes. -/
theorem C11_splitP_combine (arch : Arch) (σ : Shared) (jobs : ι → Job) (hst : WStart σ jobs)
    (hadm : ∀ i, JobAdmissible (jobs i)) (s : World ι) (hr : WReach jobs (winitial arch σ jobs) s) (i : ι)
    (secret : Slice) (parts threshold : Int) (perm : List Nat) (hj : jobs i = .splitP secret parts threshold perm)
    (hlen : secret.len < 2 ^ 32) (outs : List Slice) (hd : (s.proc i).phase = .done (ok outs)) (sub : List (List Byte))
    (hsub : sub.Subperm (outs.map (contents s.shared.heap))) (ht : threshold ≤ sub.length) :
    combine sub = ok (contents σ.heap secret) := by
  obtain ⟨g, W, I⟩ := winv arch hst hadm hr
  rcases done_splitP hst hadm I hj hd with ⟨e, h1, h2⟩ | ⟨arrs, h1, -, -, -, hv, -, hdr, hc, -⟩
  · cases h1
  · cases h1
    have hperm : perm.Perm (List.range 255) := by have := hadm i; rwa [hj] at this
    have hbl : (contents σ.heap secret).length < 2 ^ 32 := by
      have : (contents σ.heap secret).length ≤ secret.len := by simp [contents]
      omega
    have h2 := hv.2.2.1
    have key := splitP_sharing (contents σ.heap secret) (t := threshold.toNat) (by omega) (workerDraws (s.proc i))
      ((perm.take parts.toNat).map fun v => BitVec.ofNat 8 v + 1#8) (splitTags_facts hperm parts.toNat).1
    rw [truncated_eq hbl, List.map_map] at key
    rw [hc] at hsub
    exact combine_sharing key hsub (by omega) (by omega) hv.2.2.2

/-- C11, C13: no goroutine of any call panics while it computes; the only panic is the one described by C48. -/
theorem C11_C13_never_panics (arch : Arch) (σ : Shared) (jobs : ι → Job) (hst : WStart σ jobs)
    (hadm : ∀ i, JobAdmissible (jobs i)) (s : World ι) (hr : WReach jobs (winitial arch σ jobs) s) (i : ι) :
    (∀ w t, RunsIn s i w t → t.prog ≠ .panic) ∧
    ((s.proc i).phase = .panicked → ∃ secret parts threshold perm, jobs i = .splitP secret parts threshold perm ∧
      2 ^ 32 - 1024 < secret.len % 2 ^ 32) := by
  obtain ⟨g, W, I⟩ := winv arch hst hadm hr
  constructor
  · rintro w t ht hp
    match w with
    | none =>
      have hw := I.inv.run (.inl i)
      have hw : wp _ (s.proc i).main.prog _ _ _ (s.proc i).main.drawn := hw
      rw [show (s.proc i).main = t from ht, hp] at hw
      exact hw
    | some j =>
      have hw := I.inv.run (.inr (i, j))
      have hw : wp _ (((s.proc i).workers[j]?).getD (pending (jobs i) (g i) j)).prog _ _ _
        (((s.proc i).workers[j]?).getD (pending (jobs i) (g i) j)).drawn := hw
      rw [show (s.proc i).workers[j]? = some t from ht, Option.getD_some, hp] at hw
      exact hw
  · intro hp
    have := I.phase i
    unfold PhaseOk at this
    rw [hp] at this
    obtain ⟨secret, parts, threshold, perm, arrs, h1, -, -, h2⟩ := this
    exact ⟨secret, parts, threshold, perm, h1, by rwa [mOf_eq] at h2⟩

/-- C11, C34: no two goroutines, of the same call or of different calls, are ever about to access the same byte, one of
them storing. -/
theorem C11_C34_no_data_race (arch : Arch) (σ : Shared) (jobs : ι → Job) (hst : WStart σ jobs)
    (hadm : ∀ i, JobAdmissible (jobs i)) (s : World ι) (hr : WReach jobs (winitial arch σ jobs) s)
    (i i' : ι) (w w' : Option Nat) (hne : (i, w) ≠ (i', w')) (t t' : Goroutine) (ht : RunsIn s i w t)
    (ht' : RunsIn s i' w' t') (a : Arr) (k : Nat) (st st' : Bool) (h : nextAccess t.prog = some (a, k, st))
    (h' : nextAccess t'.prog = some (a, k, st')) : st = false ∧ st' = false := by
  obtain ⟨g, W, I⟩ := winv arch hst hadm hr
  let code : ι × Option Nat → ι ⊕ ι × Nat := fun x => match x with
    | (i, none) => .inl i
    | (i, some j) => .inr (i, j)
  have hcode : code (i, w) ≠ code (i', w') := by
    intro e
    apply hne
    cases w <;> cases w' <;> simp_all [code]
  have hth : ∀ i w t, RunsIn s i w t → (flat jobs g s).thread (code (i, w)) = t := by
    intro i w t ht
    cases w with
    | none => exact ht
    | some j =>
      show ((s.proc i).workers[j]?).getD (pending (jobs i) (g i) j) = t
      rw [show (s.proc i).workers[j]? = some t from ht]; rfl
  have acc : ∀ i w t st, RunsIn s i w t → nextAccess t.prog = some (a, k, st) →
      (a, k) ∈ W (code (i, w)) ∪ preexisting σ ∧ (st = true → (a, k) ∈ W (code (i, w))) := by
    intro i w t st ht h
    have hw := I.inv.run (code (i, w))
    rw [hth i w t ht] at hw
    cases hp : t.prog <;> rw [hp] at h hw <;> simp only [nextAccess, Option.some.injEq, Prod.mk.injEq, reduceCtorEq] at h
    · obtain ⟨rfl, rfl, rfl⟩ := h
      exact ⟨hw.1, fun c => by cases c⟩
    · obtain ⟨rfl, rfl, rfl⟩ := h
      exact ⟨Or.inl hw.1, fun _ => hw.1⟩
  have h1 := acc i w t st ht h
  have h2 := acc i' w' t' st' ht' h'
  have key : ∀ c c', c ≠ c' → (a, k) ∈ W c → (a, k) ∈ W c' ∪ preexisting σ → False := by
    intro c c' hc hm hm'
    rcases hm' with hm' | hm'
    · exact Set.disjoint_left.1 (I.inv.disjW c c' hc) hm hm'
    · exact Set.disjoint_left.1 (I.inv.disjR c c') hm hm'
  refine ⟨?_, ?_⟩
  · by_contra hs
    exact key _ _ hcode (h1.2 (by simpa using hs)) h2.1
  · by_contra hs
    exact key _ _ (Ne.symm hcode) (h2.2 (by simpa using hs)) h1.1

/-- C11: with finitely many calls there is no infinite execution, no call ever gets stuck, and every execution can be
continued until every call has returned (or, for the lengths of C48, panicked). -/
theorem C11_terminates [Finite ι] (arch : Arch) (σ : Shared) (jobs : ι → Job) (hst : WStart σ jobs)
    (hadm : ∀ i, JobAdmissible (jobs i)) :
    (¬ ∃ f : Nat → World ι, f 0 = winitial arch σ jobs ∧ ∀ n, WorldStep jobs (f n) (f (n + 1))) ∧
    ∀ s, WReach jobs (winitial arch σ jobs) s →
      (∀ i, (∃ r, (s.proc i).phase = .done r) ∨ (s.proc i).phase = .panicked ∨
        ∃ σ' p', ProcStep (jobs i) s.shared (s.proc i) σ' p') ∧
      ∃ s', WReach jobs s s' ∧ ∀ i, (∃ r, (s'.proc i).phase = .done r) ∨ (s'.proc i).phase = .panicked := by
  refine ⟨?_, fun s hr => ⟨fun i => ?_, wreach_done hst hadm s hr⟩⟩
  · rintro ⟨f, -, hf⟩
    exact (wellFounded_iff_isEmpty_descending_chain.1 (worldStep_wf jobs)).false ⟨f, hf⟩
  · obtain ⟨g, W, I⟩ := winv arch hst hadm hr
    by_cases h1 : ∃ r, (s.proc i).phase = .done r
    · exact .inl h1
    · by_cases h2 : (s.proc i).phase = .panicked
      · exact .inr (.inl h2)
      · exact .inr (.inr (proc_progress I i (fun r hr => h1 ⟨r, hr⟩) h2))

/-- C34: the other functions return what they would return alone, also while calls of `SplitP` run. -/
theorem C34_concurrent_with_splitP (arch : Arch) (σ : Shared) (jobs : ι → Job) (hst : WStart σ jobs)
    (hadm : ∀ i, JobAdmissible (jobs i)) (s : World ι) (hr : WReach jobs (winitial arch σ jobs) s) (i : ι) (c : Call)
    (hj : jobs i = .seq c) (r : Outcome (List Slice)) (hd : (s.proc i).phase = .done r) :
    Correct arch c (c.inputs.map (contents σ.heap)) (s.proc i).main.drawn
      ((fun slices => slices.map (contents s.shared.heap)) <$> r) := by
  obtain ⟨g, W, I⟩ := winv arch hst hadm hr
  have hw := I.inv.run (.inl i)
  have hw : wp _ (s.proc i).main.prog (mainPost arch σ.heap (jobs i) (g i)) (W (.inl i)) s.shared.heap (s.proc i).main.drawn := hw
  have h1 := (done_ret (I.phase i) hd).1
  have h1 : (s.proc i).main.prog = .ret r := h1
  rw [h1, hj] at hw
  exact hw.1.1

/-- C50: no call, `SplitP` included, ever modifies memory that existed before and was not in a pool. -/
theorem C50_splitP_inputs_unchanged (arch : Arch) (σ : Shared) (jobs : ι → Job) (hst : WStart σ jobs)
    (hadm : ∀ i, JobAdmissible (jobs i)) (s : World ι) (hr : WReach jobs (winitial arch σ jobs) s) :
    (∀ a, a < σ.next → (∀ p, a ∉ σ.pool p) → s.shared.heap a = σ.heap a) ∧
    ∀ i, ∀ sl ∈ (jobs i).inputs, contents s.shared.heap sl = contents σ.heap sl := by
  obtain ⟨g, W, I⟩ := winv arch hst hadm hr
  have key : ∀ a, a < σ.next → (∀ p, a ∉ σ.pool p) → s.shared.heap a = σ.heap a := by
    intro a h1 h2
    refine (agree_eq I.agree (a := a) ?_).symm
    rintro ⟨b, k⟩ rfl
    exact ⟨h1, h2⟩
  refine ⟨key, fun i sl hsi => ?_⟩
  have := hst.inputs i sl hsi
  simp only [contents, key _ this.2.2.1 this.2.2.2]

/-- C50: once a call has returned slices, nothing that happens later changes its result or the bytes in them. -/
theorem C50_splitP_results_never_change (arch : Arch) (σ : Shared) (jobs : ι → Job) (hst : WStart σ jobs)
    (hadm : ∀ i, JobAdmissible (jobs i)) (s s' : World ι) (hr : WReach jobs (winitial arch σ jobs) s)
    (hr' : WReach jobs s s') (i : ι) (outs : List Slice) (hd : (s.proc i).phase = .done (ok outs)) :
    (s'.proc i).phase = .done (ok outs) ∧ ∀ sl ∈ outs, s'.shared.heap sl.arr = s.shared.heap sl.arr ∧
      contents s'.shared.heap sl = contents s.shared.heap sl := by
  obtain ⟨g, W, I⟩ := winv arch hst hadm hr
  obtain ⟨g', W', I', k⟩ := winv_reach hst hadm I hr'
  obtain ⟨k1, k2, -, -, k5, k6⟩ := k i _ hd
  have hd' : (s'.proc i).phase = .done (ok outs) := by rw [k1]; exact hd
  refine ⟨hd', ?_⟩
  have key : ∀ sl ∈ outs, s'.shared.heap sl.arr = s.shared.heap sl.arr := by
    cases hj : jobs i with
    | seq c =>
      have hw := I.inv.run (.inl i)
      have hw : wp _ (s.proc i).main.prog (mainPost arch σ.heap (jobs i) (g i)) (W (.inl i)) s.shared.heap (s.proc i).main.drawn := hw
      have h1 : (s.proc i).main.prog = .ret (ok outs) := (done_ret (I.phase i) hd).1
      rw [h1, hj] at hw
      intro sl hsl
      exact (agree_eq k5 ((hw.1.2 outs rfl).2 sl hsl).1).symm
    | splitP secret parts threshold perm =>
      rcases done_splitP hst hadm I hj hd with ⟨e, h1, -⟩ | ⟨arrs, h1, hg, -, -, -, -, -, -, hl, hown⟩
      · cases h1
      · rcases done_splitP hst hadm I' hj hd' with ⟨e, h1', -⟩ | ⟨arrs', h1', hg', -, -, -, -, -, -, hl', -⟩
        · cases h1'
        · have : arrs' = arrs := by rw [k2, hg] at hg'; exact (Option.some.inj hg').symm
          subst this
          cases h1
          intro sl hsl
          obtain ⟨a, ha, rfl⟩ := List.mem_map.1 hsl
          apply List.ext_getElem?
          intro q
          by_cases hq : q ≤ secret.len
          · rcases hown a ha q with h | ⟨j, h⟩
            · exact (k5 a q h).symm
            · exact (k6 j a q h).symm
          · rw [List.getElem?_eq_none (by rw [hl' a ha]; omega), List.getElem?_eq_none (by rw [hl a ha]; omega)]
  exact fun sl hsl => ⟨key sl hsl, by simp only [contents, key sl hsl]⟩

/-- C12 for `SplitP`: `parts` shares of length len(secret)+1 with distinct tags that are not 0. -/
theorem C12_splitP_format (arch : Arch) (σ : Shared) (jobs : ι → Job) (hst : WStart σ jobs)
    (hadm : ∀ i, JobAdmissible (jobs i)) (s : World ι) (hr : WReach jobs (winitial arch σ jobs) s) (i : ι)
    (secret : Slice) (parts threshold : Int) (perm : List Nat) (hj : jobs i = .splitP secret parts threshold perm)
    (outs : List Slice) (hd : (s.proc i).phase = .done (ok outs)) :
    (outs.length : Int) = parts ∧
    (∀ share ∈ outs.map (contents s.shared.heap), share.length = secret.len + 1 ∧ tag share ≠ 0) ∧
    ((outs.map (contents s.shared.heap)).map tag).Nodup := by
  obtain ⟨g, W, I⟩ := winv arch hst hadm hr
  rcases done_splitP hst hadm I hj hd with ⟨e, h1, h2⟩ | ⟨arrs, h1, -, -, hal, hv, -, hdr, hc, -⟩
  · cases h1
  · cases h1
    have hperm : perm.Perm (List.range 255) := by have := hadm i; rwa [hj] at this
    have hbl : (contents σ.heap secret).length = secret.len := by
      have := (hst.inputs i secret (by rw [hj]; simp [Job.inputs])).1
      unfold InBounds at this
      simp [contents]; omega
    obtain ⟨hnd, hnz⟩ := splitTags_facts hperm parts.toNat
    have htag : ∀ x, tag (splitPShare (contents σ.heap secret) threshold.toNat (workerDraws (s.proc i)) x) = x := by
      intro x; rw [splitPShare_eq]; exact tag_shareOf _ _
    refine ⟨?_, ?_, ?_⟩
    · have := hv.1; have := hv.2.2.1
      simp only [outSlices, List.length_map, hal]; omega
    · rw [hc]
      intro share hsh
      obtain ⟨v, hvm, rfl⟩ := List.mem_map.1 hsh
      refine ⟨by simp [splitPShare, hbl], ?_⟩
      rw [htag]
      exact hnz _ (List.mem_map.2 ⟨v, hvm, rfl⟩)
    · rw [hc, List.map_map]
      have : (tag ∘ fun v => splitPShare (contents σ.heap secret) threshold.toNat (workerDraws (s.proc i)) (BitVec.ofNat 8 v + 1#8))
          = fun v => BitVec.ofNat 8 v + 1#8 := by funext v; exact htag _
      rw [this]
      exact hnd

/-- C13 for `SplitP`: errors exactly as documented; on valid arguments, and when the length is below 2^32-1023, every
execution of finitely many calls can be completed and then `SplitP` has returned shares. -/
theorem C13_splitP_validates [Finite ι] (arch : Arch) (σ : Shared) (jobs : ι → Job) (hst : WStart σ jobs)
    (hadm : ∀ i, JobAdmissible (jobs i)) (s : World ι) (hr : WReach jobs (winitial arch σ jobs) s) (i : ι)
    (secret : Slice) (parts threshold : Int) (perm : List Nat) (hj : jobs i = .splitP secret parts threshold perm)
    (hlen : secret.len < 2 ^ 32 - 1023) :
    (s.proc i).phase ≠ .panicked ∧
    (∀ r, (s.proc i).phase = .done r → match argError (contents σ.heap secret) parts threshold with
      | some e => r = err e
      | none => ∃ outs, r = ok outs) ∧
    ∃ s', WReach jobs s s' ∧ ∃ r, (s'.proc i).phase = .done r := by
  have hnp : ∀ s, WReach jobs (winitial arch σ jobs) s → (s.proc i).phase ≠ .panicked := by
    intro s hr hp
    obtain ⟨secret', _, _, _, h1, h2⟩ := (C11_C13_never_panics arch σ jobs hst hadm s hr i).2 hp
    rw [hj] at h1; cases h1
    rw [Nat.mod_eq_of_lt (by omega)] at h2
    omega
  refine ⟨hnp s hr, fun r hd => ?_, ?_⟩
  · have := C11_splitP_exact arch σ jobs hst hadm s hr i secret parts threshold perm hj r hd
    cases he : argError (contents σ.heap secret) parts threshold with
    | some e => rw [he] at this; exact this
    | none =>
      rw [he] at this
      obtain ⟨outs, h, -⟩ := this
      exact ⟨outs, h⟩
  · obtain ⟨s', hr', h⟩ := wreach_done hst hadm s hr
    rcases h i with h | h
    · exact ⟨s', hr', h⟩
    · exact absurd h (hnp s' (hr.trans hr'))

/-! ## C17 for SplitP -/

/-- The bytes the goroutine of chunk `j` gets when the `N (t-1)` random bytes of the call are `ρ`, chunk after chunk. -/
def chunkDraws (t N : Nat) (ρ : Fin ((t - 1) * N) → Byte) (j : Nat) : List Byte :=
  (List.range ((min (1024 * (j + 1)) N - 1024 * j) * (t - 1))).map fun l => stream ρ (1024 * j * (t - 1) + l)

/-- C17 for `SplitP`: what its goroutines draw during a finished call, under any schedule, is one of the fillings, and
the shares are a function of that filling, the secret and the tags. -/
theorem C17_splitP_draws (arch : Arch) (σ : Shared) (jobs : ι → Job) (hst : WStart σ jobs)
    (hadm : ∀ i, JobAdmissible (jobs i)) (s : World ι) (hr : WReach jobs (winitial arch σ jobs) s) (i : ι)
    (secret : Slice) (parts threshold : Int) (perm : List Nat) (hj : jobs i = .splitP secret parts threshold perm)
    (hlen : secret.len < 2 ^ 32) (outs : List Slice) (hd : (s.proc i).phase = .done (ok outs)) :
    ∃ ρ : Fin ((threshold.toNat - 1) * secret.len) → Byte,
      (∀ j, 1024 * j < secret.len → workerDraws (s.proc i) j = chunkDraws threshold.toNat secret.len ρ j) ∧
      outs.map (contents s.shared.heap) = (perm.take parts.toNat).map (fun v => splitPShare (contents σ.heap secret)
        threshold.toNat (chunkDraws threshold.toNat secret.len ρ) (BitVec.ofNat 8 v + 1#8)) := by
  obtain ⟨g, W, I⟩ := winv arch hst hadm hr
  rcases done_splitP hst hadm I hj hd with ⟨e, h1, h2⟩ | ⟨arrs, h1, -, -, hal, hv, -, hdr, hc, -⟩
  · cases h1
  · cases h1
    have h2 := hv.2.2.1
    have hbl : (contents σ.heap secret).length = secret.len := by
      have := (hst.inputs i secret (by rw [hj]; simp [Job.inputs])).1
      unfold InBounds at this
      simp [contents]; omega
    rw [Nat.mod_eq_of_lt hlen] at hdr
    let d := threshold.toNat - 1
    have hdr : ∀ j, 1024 * j < secret.len → (workerDraws (s.proc i) j).length
        = (min (1024 * (j + 1)) secret.len - 1024 * j) * d := hdr
    have hd0 : 0 < d := by show 0 < threshold.toNat - 1; omega
    let ρ : Fin (d * secret.len) → Byte := fun k =>
      (workerDraws (s.proc i) (k / (1024 * d))).getD (k % (1024 * d)) 0
    have hρ : ∀ j, 1024 * j < secret.len → workerDraws (s.proc i) j
        = (List.range ((min (1024 * (j + 1)) secret.len - 1024 * j) * d)).map fun l => stream ρ (1024 * j * d + l) := by
      intro j hjl
      apply List.ext_getElem
      · rw [hdr j hjl]; simp
      · intro l h1 h2
        rw [hdr j hjl] at h1
        have hl1 : l < 1024 * d := lt_of_lt_of_le h1 (Nat.mul_le_mul_right _ (by omega))
        have hlt : 1024 * j * d + l < d * secret.len := by
          calc 1024 * j * d + l < 1024 * j * d + (min (1024 * (j + 1)) secret.len - 1024 * j) * d := by omega
            _ = (1024 * j + (min (1024 * (j + 1)) secret.len - 1024 * j)) * d := by rw [Nat.add_mul]
            _ ≤ secret.len * d := Nat.mul_le_mul_right _ (by omega)
            _ = d * secret.len := Nat.mul_comm _ _
        rw [List.getElem_map, List.getElem_range, stream, dif_pos hlt]
        have e : 1024 * j * d + l = 1024 * d * j + l := by ring
        have e1 : (1024 * j * d + l) / (1024 * d) = j := by
          rw [e, Nat.mul_add_div (by omega), Nat.div_eq_of_lt hl1, Nat.add_zero]
        have e2 : (1024 * j * d + l) % (1024 * d) = l := by
          rw [e, Nat.mul_add_mod, Nat.mod_eq_of_lt hl1]
        simp only [ρ, e1, e2]
        rw [List.getD_eq_getElem?_getD, List.getElem?_eq_getElem]; rfl
    refine ⟨ρ, hρ, ?_⟩
    rw [hc]
    apply List.map_congr_left
    intro v _
    unfold splitPShare
    congr 1
    apply List.map_congr_left
    intro p hp
    have hp : p < secret.len := by rw [hbl] at hp; simpa using hp
    unfold splitPCoeffs
    rw [hρ (p / 1024) (by omega)]
    rfl

theorem splitPShare_cShare {s : List Byte} (hl : s.length < 2 ^ 32) {t : Nat} (ht : 2 ≤ t)
    (ρ : Fin ((t - 1) * s.length) → Byte) (x : Byte) :
    splitPShare s t (chunkDraws t s.length ρ) x
      = cShare s t (fun p k => stream ρ ((layoutGeneric t s.length).ix p k)) x := by
  unfold splitPShare cShare
  congr 1
  apply List.map_congr_left
  intro p hp
  have hp : p < s.length := by simpa using hp
  rw [Nat.mod_eq_of_lt hl, if_pos hp]
  have hcoef : ∀ k < t - 1, (chunkDraws t s.length ρ (p / 1024)).getD (p % 1024 * (t - 1) + k) 0
      = stream ρ ((t - 1) * p + k) := by
    intro k hk
    have h1 : p % 1024 * (t - 1) + k < (min (1024 * (p / 1024 + 1)) s.length - 1024 * (p / 1024)) * (t - 1) := by
      calc p % 1024 * (t - 1) + k < p % 1024 * (t - 1) + (t - 1) := by omega
        _ = (p % 1024 + 1) * (t - 1) := by rw [Nat.add_mul, Nat.one_mul]
        _ ≤ _ := Nat.mul_le_mul_right _ (by omega)
    unfold chunkDraws
    rw [List.getD_eq_getElem?_getD, List.getElem?_map, List.getElem?_range h1, Option.map_some, Option.getD_some]
    congr 1
    have : p = 1024 * (p / 1024) + p % 1024 := by omega
    calc 1024 * (p / 1024) * (t - 1) + (p % 1024 * (t - 1) + k) = (1024 * (p / 1024) + p % 1024) * (t - 1) + k := by ring
      _ = (t - 1) * p + k := by rw [← this, Nat.mul_comm]
  unfold splitPCoeffs evalC ofCoeffs
  rw [Polynomial.eval_finsetSum]
  simp only [List.length_cons, List.length_map, List.length_range]
  rw [Finset.range_eq_Ico, Finset.sum_eq_sum_Ico_succ_bot (by omega)]
  have e1 : ∑ k ∈ Finset.Ico (0 + 1) (t - 1 + 1), Polynomial.eval (⟨x⟩ : GF) (Polynomial.C ⟨(s.getD p 0 ::
      (List.range (t - 1)).map fun k => (chunkDraws t s.length ρ (p / 1024)).getD (p % 1024 * (t - 1) + k) 0).getD k 0⟩
        * Polynomial.X ^ k)
      = ∑ k ∈ Finset.Ico 1 t, (⟨stream ρ ((layoutGeneric t s.length).ix p k)⟩ : GF) * ⟨x⟩ ^ k := by
    rw [show 0 + 1 = 1 from rfl, show t - 1 + 1 = t by omega]
    apply Finset.sum_congr rfl
    intro k hk
    simp only [Finset.mem_Ico] at hk
    obtain ⟨k', rfl⟩ : ∃ k', k = k' + 1 := ⟨k - 1, by omega⟩
    rw [List.getD_cons_succ, List.getD_eq_getElem?_getD, List.getElem?_map, List.getElem?_range (by omega), Option.map_some,
      Option.getD_some, hcoef k' (by omega)]
    simp [layoutGeneric]
  rw [e1]
  simp only [List.getD_cons_zero, pow_zero, mul_one, Polynomial.eval_C]
  rfl

/-- C17 for `SplitP`: any view of fewer than `threshold` shares is produced by equally many fillings from any two
secrets of the same length. -/
theorem C17_splitP_secrecy (s s' : List Byte) (hs : s.length = s'.length) (hl : s.length < 2 ^ 32) (parts threshold : Int)
    (h2 : 2 ≤ threshold) (perm : List Nat) (hperm : perm.Perm (List.range 255)) (I : Finset Nat)
    (hI : (I.card : Int) < threshold) (v : Nat → List Byte) :
    count (m := (threshold.toNat - 1) * s.length) (fun ρ => Seen I v ((perm.take parts.toNat).map fun x =>
        splitPShare s threshold.toNat (chunkDraws threshold.toNat s.length ρ) (BitVec.ofNat 8 x + 1#8)))
      = count (m := (threshold.toNat - 1) * s.length) (fun ρ => Seen I v ((perm.take parts.toNat).map fun x =>
        splitPShare s' threshold.toNat (chunkDraws threshold.toNat s.length ρ) (BitVec.ofNat 8 x + 1#8))) := by
  obtain ⟨hnd, h0⟩ := splitTags_facts hperm parts.toNat
  obtain ⟨e, he⟩ := (layoutGeneric threshold.toNat s.length).secrecy rfl hs.symm _ h0 I (by omega)
  refine count_congr e fun ρ => ?_
  have e1 : ∀ (s'' : List Byte) (ρ : Fin ((threshold.toNat - 1) * s.length) → Byte), s''.length = s.length →
      ((perm.take parts.toNat).map fun x =>
        splitPShare s'' threshold.toNat (chunkDraws threshold.toNat s.length ρ) (BitVec.ofNat 8 x + 1#8))
      = (layoutGeneric threshold.toNat s.length).shares s'' ((perm.take parts.toNat).map fun v => BitVec.ofNat 8 v + 1#8) ρ := by
    rintro s'' ρ hl'
    unfold Layout.shares
    rw [List.map_map]
    apply List.map_congr_left
    intro x _
    revert ρ
    rw [← hl']
    intro ρ
    exact splitPShare_cShare (by omega) (by omega) ρ _
  rw [e1 s ρ rfl, e1 s' _ hs.symm]
  exact forall₂_congr fun i hi => Eq.congr_left (he ρ i hi)

/-- C17, uniformity, for `SplitP`. -/
theorem C17_splitP_uniform (s s' : List Byte) (hs : s.length = s'.length) (hl : s.length < 2 ^ 32) (parts threshold : Int)
    (h2 : 2 ≤ threshold) (hp : parts ≤ 255) (perm : List Nat) (hperm : perm.Perm (List.range 255)) (I : Finset Nat)
    (hI : (I.card : Int) < threshold) (hIp : ∀ i ∈ I, (i : Int) < parts) (v v' : Nat → List Byte)
    (hw : ∀ i ∈ I, (v i).length = s.length + 1 ∧ tag (v i) = BitVec.ofNat 8 (perm.getD i 0) + 1#8)
    (hw' : ∀ i ∈ I, (v' i).length = s.length + 1 ∧ tag (v' i) = BitVec.ofNat 8 (perm.getD i 0) + 1#8) :
    count (m := (threshold.toNat - 1) * s.length) (fun ρ => Seen I v ((perm.take parts.toNat).map fun x =>
        splitPShare s threshold.toNat (chunkDraws threshold.toNat s.length ρ) (BitVec.ofNat 8 x + 1#8)))
      = count (m := (threshold.toNat - 1) * s.length) (fun ρ => Seen I v' ((perm.take parts.toNat).map fun x =>
        splitPShare s' threshold.toNat (chunkDraws threshold.toNat s.length ρ) (BitVec.ofNat 8 x + 1#8))) := by
  obtain ⟨hnd, h0⟩ := splitTags_facts hperm parts.toNat
  obtain ⟨e, he⟩ := (layoutGeneric threshold.toNat s.length).uniform rfl hs.symm _ h0 hnd I (by omega) v v'
    (view_shape hperm hp hIp hw) (view_shape hperm hp hIp hw')
  refine count_congr e fun ρ => ?_
  have e1 : ∀ (s'' : List Byte) (ρ : Fin ((threshold.toNat - 1) * s.length) → Byte), s''.length = s.length →
      ((perm.take parts.toNat).map fun x =>
        splitPShare s'' threshold.toNat (chunkDraws threshold.toNat s.length ρ) (BitVec.ofNat 8 x + 1#8))
      = (layoutGeneric threshold.toNat s.length).shares s'' ((perm.take parts.toNat).map fun v => BitVec.ofNat 8 v + 1#8) ρ := by
    rintro s'' ρ hl'
    unfold Layout.shares
    rw [List.map_map]
    apply List.map_congr_left
    intro x _
    revert ρ
    rw [← hl']
    intro ρ
    exact splitPShare_cShare (by omega) (by omega) ρ _
  rw [e1 s ρ rfl, e1 s' _ hs.symm]
  exact he ρ

/-! ## C48 -/

/-- C48: when the length modulo 2^32 is above 2^32-1024, `SplitP` never returns shares. -/
theorem C48_no_result (arch : Arch) (σ : Shared) (jobs : ι → Job) (hst : WStart σ jobs)
    (hadm : ∀ i, JobAdmissible (jobs i)) (s : World ι) (hr : WReach jobs (winitial arch σ jobs) s) (i : ι)
    (secret : Slice) (parts threshold : Int) (perm : List Nat) (hj : jobs i = .splitP secret parts threshold perm)
    (hlen : 2 ^ 32 - 1024 < secret.len % 2 ^ 32) (outs : List Slice) : (s.proc i).phase ≠ .done (ok outs) := by
  intro hd
  obtain ⟨g, W, I⟩ := winv arch hst hadm hr
  rcases done_splitP hst hadm I hj hd with ⟨e, h1, h2⟩ | ⟨arrs, h1, -, -, hal, hv, hm, -⟩
  · cases h1
  · omega

/-- C48: ... and on valid arguments every complete execution ends with its panic. -/
theorem C48_panics [Finite ι] (arch : Arch) (σ : Shared) (jobs : ι → Job) (hst : WStart σ jobs)
    (hadm : ∀ i, JobAdmissible (jobs i)) (s : World ι) (hr : WReach jobs (winitial arch σ jobs) s) (i : ι)
    (secret : Slice) (parts threshold : Int) (perm : List Nat) (hj : jobs i = .splitP secret parts threshold perm)
    (hv : ValidArgs (contents σ.heap secret) parts threshold) (hlen : 2 ^ 32 - 1024 < secret.len % 2 ^ 32) :
    (∃ s', WReach jobs s s' ∧ (s'.proc i).phase = .panicked) ∧
    ((∀ s', ¬ WorldStep jobs s s') → (s.proc i).phase = .panicked) := by
  have hnd : ∀ s, WReach jobs (winitial arch σ jobs) s → ∀ r, (s.proc i).phase ≠ .done r := by
    intro s hr r hd
    have := C11_splitP_exact arch σ jobs hst hadm s hr i secret parts threshold perm hj r hd
    rw [argError_none.2 hv] at this
    obtain ⟨outs, rfl, -⟩ := this
    exact C48_no_result arch σ jobs hst hadm s hr i secret parts threshold perm hj hlen outs hd
  constructor
  · obtain ⟨s', hr', h⟩ := wreach_done hst hadm s hr
    rcases h i with ⟨r, h⟩ | h
    · exact absurd h (hnd s' (hr.trans hr') r)
    · exact ⟨s', hr', h⟩
  · intro hstuck
    by_contra hp
    obtain ⟨g, W, I⟩ := winv arch hst hadm hr
    obtain ⟨σ', p', h⟩ := proc_progress I i (hnd s hr) hp
    exact hstuck _ (WorldStep.mk s i σ' p' h)

/-- C48: for every length, what the shares returned by `SplitP` combine to is the secret with all bytes from
`len(secret) mod 2^32` on replaced by 0. -/
theorem C48_truncated (arch : Arch) (σ : Shared) (jobs : ι → Job) (hst : WStart σ jobs)
    (hadm : ∀ i, JobAdmissible (jobs i)) (s : World ι) (hr : WReach jobs (winitial arch σ jobs) s) (i : ι)
    (secret : Slice) (parts threshold : Int) (perm : List Nat) (hj : jobs i = .splitP secret parts threshold perm)
    (outs : List Slice) (hd : (s.proc i).phase = .done (ok outs)) :
    (∀ share ∈ outs.map (contents s.shared.heap), ∀ k, secret.len % 2 ^ 32 ≤ k → k < secret.len → share.getD k 0 = 0) ∧
    ∀ sub : List (List Byte), sub.Subperm (outs.map (contents s.shared.heap)) → threshold ≤ sub.length →
      combine sub = ok (truncated (contents σ.heap secret)) := by
  obtain ⟨g, W, I⟩ := winv arch hst hadm hr
  rcases done_splitP hst hadm I hj hd with ⟨e, h1, h2⟩ | ⟨arrs, h1, -, -, -, hv, -, hdr, hc, -⟩
  · cases h1
  · cases h1
    have hperm : perm.Perm (List.range 255) := by have := hadm i; rwa [hj] at this
    have hbl : (contents σ.heap secret).length = secret.len := by
      have := (hst.inputs i secret (by rw [hj]; simp [Job.inputs])).1
      unfold InBounds at this
      simp [contents]; omega
    have h2 := hv.2.2.1
    constructor
    · rw [hc]
      intro share hsh k hk hk'
      obtain ⟨v, -, rfl⟩ := List.mem_map.1 hsh
      unfold splitPShare
      rw [List.getD_eq_getElem?_getD, List.getElem?_append_left (by simpa [hbl] using hk'), List.getElem?_map, hbl,
        List.getElem?_range hk', Option.map_some, Option.getD_some, if_neg (by omega)]
    · intro sub hsub ht
      have key := splitP_sharing (contents σ.heap secret) (t := threshold.toNat) (by omega) (workerDraws (s.proc i))
        ((perm.take parts.toNat).map fun v => BitVec.ofNat 8 v + 1#8) (splitTags_facts hperm parts.toNat).1
      rw [List.map_map] at key
      rw [hc] at hsub
      refine combine_sharing key hsub (by omega) (by omega) ?_
      have := List.length_pos_iff.2 hv.2.2.2
      have := Nat.mod_le (contents σ.heap secret).length (2 ^ 32)
      apply List.length_pos_iff.1
      simp only [truncated, List.length_append, List.length_take, List.length_replicate]
      omega

/-- C48: a secret whose length is a positive multiple of 2^32 gives shares with all-zero payloads. -/
theorem C48_multiple (arch : Arch) (σ : Shared) (jobs : ι → Job) (hst : WStart σ jobs)
    (hadm : ∀ i, JobAdmissible (jobs i)) (s : World ι) (hr : WReach jobs (winitial arch σ jobs) s) (i : ι)
    (secret : Slice) (parts threshold : Int) (perm : List Nat) (hj : jobs i = .splitP secret parts threshold perm)
    (hlen : secret.len % 2 ^ 32 = 0) (outs : List Slice) (hd : (s.proc i).phase = .done (ok outs)) :
    outs.map (contents s.shared.heap) = (perm.take parts.toNat).map (fun v =>
      List.replicate secret.len 0 ++ [BitVec.ofNat 8 v + 1#8]) := by
  obtain ⟨g, W, I⟩ := winv arch hst hadm hr
  rcases done_splitP hst hadm I hj hd with ⟨e, h1, h2⟩ | ⟨arrs, h1, -, -, -, hv, -, hdr, hc, -⟩
  · cases h1
  · cases h1
    rw [hc]
    have hbl : (contents σ.heap secret).length = secret.len := by
      have := (hst.inputs i secret (by rw [hj]; simp [Job.inputs])).1
      unfold InBounds at this
      simp [contents]; omega
    apply List.map_congr_left
    intro v _
    unfold splitPShare
    rw [hbl, hlen]
    simp

/-! ## Non-vacuity -/

/-- two calls of `SplitP` and one of `Split`, on the state of `exShared` -/
def exJobs : Fin 3 → Job := fun i =>
  if i = 0 then .splitP ⟨0, 0, 3, 3⟩ 3 2 (List.range 255)
  else if i = 1 then .splitP ⟨0, 1, 2, 2⟩ 5 4 (List.range 255)
  else .seq (.split ⟨0, 0, 3, 3⟩ 3 2 (List.range 255))

theorem exWStart : WStart exShared exJobs where
  poolNodup := exStart.poolNodup
  poolLt := exStart.poolLt
  inputs i s h := by
    have : s = ⟨0, 0, 3, 3⟩ ∨ s = ⟨0, 1, 2, 2⟩ := by
      unfold exJobs at h
      split at h
      · simp [Job.inputs] at h; simp [h]
      · split at h
        · simp [Job.inputs] at h; simp [h]
        · simp [Job.inputs, Call.inputs] at h; simp [h]
    rcases this with rfl | rfl
    · exact ⟨by unfold InBounds; decide, by decide, by decide, fun p => by cases p <;> decide⟩
    · exact ⟨by unfold InBounds; decide, by decide, by decide, fun p => by cases p <;> decide⟩

theorem exJobAdmissible : ∀ i, JobAdmissible (exJobs i) := by
  intro i
  unfold exJobs
  split
  · exact List.Perm.refl _
  · split <;> exact List.Perm.refl _

/-- Some schedule completes all three calls; then the second call's five shares exist and any four of them combine to
the two bytes shared. -/
example (arch : Arch) : ∃ s, WReach exJobs (winitial arch exShared exJobs) s ∧ ∃ outs, (s.proc 1).phase = .done (ok outs) ∧
    outs.length = 5 ∧ ∀ sub : List (List Byte), sub.Subperm (outs.map (contents s.shared.heap)) → 4 ≤ sub.length →
      combine sub = ok [2, 3] := by
  obtain ⟨s, hr, r, hd⟩ := (C13_splitP_validates arch exShared exJobs exWStart exJobAdmissible _ .refl 1
    ⟨0, 1, 2, 2⟩ 5 4 (List.range 255) rfl (by decide)).2.2
  have hx := C11_splitP_exact arch exShared exJobs exWStart exJobAdmissible s hr 1 _ _ _ _ rfl r hd
  have hc : contents exShared.heap ⟨0, 1, 2, 2⟩ = [2, 3] := by decide
  rw [hc, show argError [2, 3] 5 4 = none from by decide] at hx
  obtain ⟨outs, rfl, -⟩ := hx
  refine ⟨s, hr, outs, hd, ?_, fun sub hsub h4 => ?_⟩
  · have := (C12_splitP_format arch exShared exJobs exWStart exJobAdmissible s hr 1 _ _ _ _ rfl outs hd).1
    omega
  · rw [← hc]
    exact C11_splitP_combine arch exShared exJobs exWStart exJobAdmissible s hr 1 _ _ _ _ rfl (by decide) outs hd sub hsub
      (by omega)

/-- Some schedule completes all three calls, and they return shares. -/
theorem exWorld (arch : Arch) : ∃ s, WReach exJobs (winitial arch exShared exJobs) s ∧ ∃ o0 o1 o2 : List Slice,
    (s.proc 0).phase = .done (ok o0) ∧ (s.proc 1).phase = .done (ok o1) ∧ (s.proc 2).phase = .done (ok o2) ∧
    o0.length = 3 ∧ o1.length = 5 ∧ o2.length = 3 ∧ ∀ sl ∈ o2, (contents s.shared.heap sl).length = 4 := by
  obtain ⟨s, hr, h⟩ := ((C11_terminates arch exShared exJobs exWStart exJobAdmissible).2 _ .refl).2
  have hd : ∀ i, ∃ r, (s.proc i).phase = .done r := by
    intro i
    rcases h i with h | h
    · exact h
    · obtain ⟨secret, _, _, _, h1, h2⟩ := (C11_C13_never_panics arch exShared exJobs exWStart exJobAdmissible s hr i).2 h
      exfalso
      fin_cases i <;> simp [exJobs] at h1
      · obtain ⟨rfl, -⟩ := h1; simp at h2
      · obtain ⟨rfl, -⟩ := h1; simp at h2
  obtain ⟨r0, h0⟩ := hd 0
  obtain ⟨r1, h1⟩ := hd 1
  obtain ⟨r2, h2⟩ := hd 2
  have x0 := C11_splitP_exact arch exShared exJobs exWStart exJobAdmissible s hr 0 _ _ _ _ rfl r0 h0
  have x1 := C11_splitP_exact arch exShared exJobs exWStart exJobAdmissible s hr 1 _ _ _ _ rfl r1 h1
  have c0 : contents exShared.heap ⟨0, 0, 3, 3⟩ = [1, 2, 3] := by decide
  have c1 : contents exShared.heap ⟨0, 1, 2, 2⟩ = [2, 3] := by decide
  rw [c0, show argError [1, 2, 3] 3 2 = none from by decide] at x0
  rw [c1, show argError [2, 3] 5 4 = none from by decide] at x1
  obtain ⟨o0, rfl, -⟩ := x0
  obtain ⟨o1, rfl, -⟩ := x1
  have hcor := C34_concurrent_with_splitP arch exShared exJobs exWStart exJobAdmissible s hr 2 _ rfl r2 h2 _ (delivers_getD _)
    ⟨⟨[], 0⟩, ⟨[], 0⟩⟩
  simp only [Call.inputs, List.map_cons, List.map_nil, List.headD_cons, c0] at hcor
  obtain ⟨⟨shares, ps⟩, hsp⟩ := C13_split_validates arch [1, 2, 3] 3 2 (List.range 255) (List.Perm.refl _)
    (fun k => (s.proc 2).main.drawn.getD k 0) ⟨⟨[], 0⟩, ⟨[], 0⟩⟩
  have hfmt := C12_split_format arch [1, 2, 3] 3 2 _ (List.Perm.refl _) _ _ _ _ hsp
  have hlen := hfmt.1
  rw [hsp] at hcor
  cases r2 with
  | ok o2 =>
    have he : o2.map (contents s.shared.heap) = shares := by
      rw [map_ok, map_ok] at hcor; exact Outcome.ok.inj hcor
    refine ⟨s, hr, o0, o1, o2, h0, h1, h2, ?_, ?_, ?_, fun sl hsl => ?_⟩
    · have := (C12_splitP_format arch exShared exJobs exWStart exJobAdmissible s hr 0 _ _ _ _ rfl o0 h0).1
      omega
    · have := (C12_splitP_format arch exShared exJobs exWStart exJobAdmissible s hr 1 _ _ _ _ rfl o1 h1).1
      omega
    · have := congrArg List.length he
      simp at this; omega
    · exact hfmt.2.1 _ (he ▸ List.mem_map_of_mem hsl)
  | _ => cases hcor

/-- The memory of the arguments is as before when the three calls have returned. -/
example (arch : Arch) : ∃ s, WReach exJobs (winitial arch exShared exJobs) s ∧ (∀ i, ∃ o, (s.proc i).phase = .done (ok o)) ∧
    s.shared.heap 0 = [1, 2, 3] := by
  obtain ⟨s, hr, o0, o1, o2, h0, h1, h2, -⟩ := exWorld arch
  refine ⟨s, hr, ?_, ?_⟩
  · intro i; fin_cases i
    exacts [⟨_, h0⟩, ⟨_, h1⟩, ⟨_, h2⟩]
  · rw [(C50_splitP_inputs_unchanged arch exShared exJobs exWStart exJobAdmissible s hr).1 0 (by decide)
      (fun p => by cases p <;> decide)]
    decide

/-- The second call returns before the others go on; its shares stay as they are until all have returned. -/
example (arch : Arch) : ∃ s s', WReach exJobs (winitial arch exShared exJobs) s ∧ WReach exJobs s s' ∧
    (∀ i, (∃ r, (s'.proc i).phase = .done r) ∨ (s'.proc i).phase = .panicked) ∧
    ∃ outs, (s.proc 1).phase = .done (ok outs) ∧ (s'.proc 1).phase = .done (ok outs) ∧
      outs.map (contents s'.shared.heap) = outs.map (contents s.shared.heap) := by
  obtain ⟨s, hr, r, hd⟩ := (C13_splitP_validates arch exShared exJobs exWStart exJobAdmissible _ .refl 1
    ⟨0, 1, 2, 2⟩ 5 4 (List.range 255) rfl (by decide)).2.2
  have hx := C11_splitP_exact arch exShared exJobs exWStart exJobAdmissible s hr 1 _ _ _ _ rfl r hd
  rw [show contents exShared.heap ⟨0, 1, 2, 2⟩ = [2, 3] from by decide, show argError [2, 3] 5 4 = none from by decide] at hx
  obtain ⟨outs, rfl, -⟩ := hx
  obtain ⟨s', hr', h⟩ := ((C11_terminates arch exShared exJobs exWStart exJobAdmissible).2 s hr).2
  have key := C50_splitP_results_never_change arch exShared exJobs exWStart exJobAdmissible s s' hr hr' 1 outs hd
  exact ⟨s, s', hr, hr', h, outs, hd, key.1, List.map_congr_left fun sl hsl => (key.2 sl hsl).2⟩

/-- What the goroutine of the second call (one chunk, threshold 4) draws: six bytes. -/
example (arch : Arch) : ∃ s, WReach exJobs (winitial arch exShared exJobs) s ∧ (workerDraws (s.proc 1) 0).length = 6 := by
  obtain ⟨s, hr, o0, o1, o2, h0, h1, h2, -⟩ := exWorld arch
  refine ⟨s, hr, ?_⟩
  obtain ⟨ρ, hρ, -⟩ := C17_splitP_draws arch exShared exJobs exWStart exJobAdmissible s hr 1 _ _ _ _ rfl (by decide) o1 h1
  rw [hρ 0 (by decide)]
  simp [chunkDraws]

/-- One share of `SplitP` with threshold 2 tells nothing about which of the two secrets was shared. -/
example (v : Nat → List Byte) :
    count (m := (2 - 1) * 2) (fun ρ => Seen {1} v (((List.range 255).take 3).map fun x =>
        splitPShare [1, 2] 2 (chunkDraws 2 2 ρ) (BitVec.ofNat 8 x + 1#8)))
      = count (m := (2 - 1) * 2) (fun ρ => Seen {1} v (((List.range 255).take 3).map fun x =>
        splitPShare [3, 4] 2 (chunkDraws 2 2 ρ) (BitVec.ofNat 8 x + 1#8))) :=
  C17_splitP_secrecy [1, 2] [3, 4] rfl (by decide) 3 2 (by decide) _ (List.Perm.refl _) {1} (by decide) v

/-- The share with tag 2 is as likely to be [5, 6, 2] for the one secret as [9, 9, 2] for the other. -/
example :
    count (m := (2 - 1) * 2) (fun ρ => Seen {1} (fun _ => [5, 6, 2]) (((List.range 255).take 3).map fun x =>
        splitPShare [1, 2] 2 (chunkDraws 2 2 ρ) (BitVec.ofNat 8 x + 1#8)))
      = count (m := (2 - 1) * 2) (fun ρ => Seen {1} (fun _ => [9, 9, 2]) (((List.range 255).take 3).map fun x =>
        splitPShare [3, 4] 2 (chunkDraws 2 2 ρ) (BitVec.ofNat 8 x + 1#8))) :=
  C17_splitP_uniform [1, 2] [3, 4] rfl (by decide) 3 2 (by decide) (by decide) _ (List.Perm.refl _) {1} (by decide)
    (by decide) _ _ (by intro i hi; rw [Finset.mem_singleton.1 hi]; decide) (by intro i hi; rw [Finset.mem_singleton.1 hi]; decide)

/-- a secret of 2^32 bytes, all equal to 7, and one of 2^32-1 bytes: inputs for which C48 applies -/
def bigShared (n : Nat) : Shared := ⟨fun a => if a = 0 then List.replicate n 7 else [], 1, fun _ => [], 4⟩

/-- the call -/
def bigJobs (n : Nat) : Unit → Job := fun _ => Job.splitP ⟨0, 0, n, n⟩ 3 2 (List.range 255)

theorem bigStart (n : Nat) : WStart (bigShared n) (bigJobs n) where
  poolNodup := by simp [bigShared]
  poolLt p a h := by simp [bigShared] at h
  inputs i s h := by
    have : s = ⟨0, 0, n, n⟩ := by simpa [Job.inputs, bigJobs] using h
    subst this
    exact ⟨by simp [InBounds, bigShared], le_rfl, Nat.zero_lt_one, fun p => by simp [bigShared]⟩

theorem bigContents (n : Nat) : contents (bigShared n).heap ⟨0, 0, n, n⟩ = List.replicate n 7 := by
  simp [contents, bigShared]

/-- 2^32 bytes: `SplitP` returns, but the shares combine to zeros -/
example (arch : Arch) : ∃ s, WReach (bigJobs (2 ^ 32)) (winitial arch (bigShared (2 ^ 32)) (bigJobs (2 ^ 32))) s ∧
    ∃ outs, (s.proc ()).phase = .done (ok outs) ∧ ∀ sub : List (List Byte),
      sub.Subperm (outs.map (contents s.shared.heap)) → 2 ≤ sub.length → combine sub = ok (List.replicate (2 ^ 32) 0) := by
  generalize hn : 2 ^ 32 = n
  have hadm : ∀ i, JobAdmissible (bigJobs n i) := fun _ => List.Perm.refl _
  obtain ⟨s, hr, h⟩ := ((C11_terminates arch (bigShared n) _ (bigStart n) hadm).2 _ .refl).2
  have hv : ValidArgs (contents (bigShared n).heap ⟨0, 0, n, n⟩) 3 2 := by
    refine ⟨by decide, by decide, by decide, ?_⟩
    rw [bigContents]
    intro e
    have := congrArg List.length e
    simp at this; omega
  rcases h () with ⟨r, hd⟩ | hp
  · have hx := C11_splitP_exact arch _ _ (bigStart n) hadm s hr () _ _ _ _ rfl r hd
    rw [argError_none.2 hv] at hx
    obtain ⟨outs, rfl, -⟩ := hx
    refine ⟨s, hr, outs, hd, fun sub hsub h2 => ?_⟩
    have := (C48_truncated arch _ _ (bigStart n) hadm s hr () _ _ _ _ rfl outs hd).2 sub hsub (by omega)
    rw [this, bigContents, truncated, List.length_replicate, hn, Nat.mod_self]
    simp
  · obtain ⟨secret, _, _, _, h1, h2⟩ := (C11_C13_never_panics arch _ _ (bigStart n) hadm s hr ()).2 hp
    cases h1
    rw [hn] at h2
    simp at h2

/-- 2^32-1 bytes: `SplitP` panics -/
example (arch : Arch) : ∃ s, WReach (bigJobs (2 ^ 32 - 1)) (winitial arch (bigShared (2 ^ 32 - 1)) (bigJobs (2 ^ 32 - 1))) s ∧
    (s.proc ()).phase = .panicked := by
  generalize hn : 2 ^ 32 - 1 = n
  refine (C48_panics arch _ _ (bigStart n) (fun _ => List.Perm.refl _) _ .refl () _ _ _ _ rfl ?_ ?_).1
  · refine ⟨by decide, by decide, by decide, ?_⟩
    rw [bigContents]
    intro e
    have := congrArg List.length e
    simp at this; omega
  · show 2 ^ 32 - 1024 < n % 2 ^ 32
    omega

/-- 2^32-1 bytes: no schedule ends with shares -/
example (arch : Arch) (s : World Unit)
    (hr : WReach (bigJobs (2 ^ 32 - 1)) (winitial arch (bigShared (2 ^ 32 - 1)) (bigJobs (2 ^ 32 - 1))) s) (outs : List Slice) :
    (s.proc ()).phase ≠ .done (ok outs) := by
  generalize hn : 2 ^ 32 - 1 = n at hr
  refine C48_no_result arch _ _ (bigStart n) (fun _ => List.Perm.refl _) s hr () _ _ _ _ rfl ?_ outs
  show 2 ^ 32 - 1024 < n % 2 ^ 32
  omega

/-- 2^33 bytes: every schedule that ends with shares ends with these -/
example (arch : Arch) (n : Nat) (hn : n = 2 ^ 33) (s : World Unit)
    (hr : WReach (bigJobs n) (winitial arch (bigShared n) (bigJobs n)) s) (outs : List Slice)
    (hd : (s.proc ()).phase = .done (ok outs)) :
    outs.map (contents s.shared.heap) = (List.range 3).map fun i => List.replicate n 0 ++ [BitVec.ofNat 8 i + 1#8] := by
  have := C48_multiple arch _ _ (bigStart n) (fun _ => List.Perm.refl _) s hr () ⟨0, 0, n, n⟩ 3 2 (List.range 255) rfl
    (by show n % 2 ^ 32 = 0; omega) outs hd
  rw [this]
  rw [show (List.range 255).take (Int.toNat 3) = List.range 3 from by decide]

/-- C11, C34: the goroutine of the first call never stores a byte that `Split` is about to load at the same time. -/
example (arch : Arch) (s : World (Fin 3)) (hr : WReach exJobs (winitial arch exShared exJobs) s) (t t' : Goroutine)
    (ht : RunsIn s 0 (some 0) t) (ht' : RunsIn s 2 none t') (a : Arr) (k : Nat) (h : nextAccess t.prog = some (a, k, true)) :
    nextAccess t'.prog ≠ some (a, k, false) := fun h' => by
  have := (C11_C34_no_data_race arch exShared exJobs exWStart exJobAdmissible s hr 0 2 (some 0) none (by decide) t t' ht ht'
    a k true false h h').1
  cases this

end Verif.Props
