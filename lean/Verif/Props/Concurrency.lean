import Verif.Props.Sharing
import Verif.Proofs.HeapSystem

/-! # C34, C50: concurrent calls over shared memory

Any number of goroutines make calls of any of the functions of `Heap.Call` (both packages; `SplitP`: Props/SplitP.lean)
(`calls i` is the call of goroutine `i`; inputs may be shared between them).  `Reach` ranges over all interleavings of
the individual loads, stores, allocations, pool operations and draws from the random source, and over all results of
the draws.  A sequence of calls is one of the interleavings. -/

namespace Verif.Props
open Verif Outcome Galois Spec Proofs Proofs.Own Shamir Verif.Heap

variable {ι : Type} [DecidableEq ι]

/-- C34: under every interleaving, no call panics, and a call that has returned has returned the result it would have
returned alone (with the random bytes it drew): the bytes of the returned slices are those of the sequential model. -/
theorem C34_concurrent_calls (arch : Arch) (σ : Shared) (calls : ι → Call) (hs : Start σ calls)
    (ha : ∀ i, Admissible (calls i)) (c : Config ι (Outcome (List Slice))) (hr : Reach (initial arch σ calls) c) (i : ι) :
    (c.thread i).prog ≠ .panic ∧
    ∀ r, (c.thread i).prog = .ret r →
      Correct arch (calls i) ((calls i).inputs.map (contents σ.heap)) (c.thread i).drawn
        ((fun slices => slices.map (contents c.shared.heap)) <$> r) := by
  obtain ⟨W, I, -⟩ := inv_calls arch hs ha hr
  have hw := I.run i
  constructor
  · intro h; rw [h] at hw; exact hw
  · intro r h; rw [h] at hw; exact hw.1

/-- C34, round trip: `Split` in one of many concurrent goroutines; whatever the others do, any `threshold` of the
bytes returned combine to the secret. -/
theorem C34_concurrent_split_combine (arch : Arch) (σ : Shared) (calls : ι → Call) (hs : Start σ calls)
    (ha : ∀ i, Admissible (calls i)) (c : Config ι (Outcome (List Slice))) (hr : Reach (initial arch σ calls) c) (i : ι)
    (secret : Slice) (parts threshold : Int) (perm : List Nat) (hi : calls i = .split secret parts threshold perm)
    (slices : List Slice) (hret : (c.thread i).prog = .ret (ok slices)) (sub : List (List Byte))
    (hsub : sub.Subperm (slices.map (contents c.shared.heap))) (ht : threshold ≤ sub.length) :
    combine sub = ok (contents σ.heap secret) := by
  have h := (C34_concurrent_calls arch σ calls hs ha c hr i).2 _ hret
  have hperm : perm.Perm (List.range 255) := by have := ha i; rwa [hi] at this
  rw [hi] at h
  have h := h _ (delivers_getD _) ⟨⟨[], 0⟩, ⟨[], 0⟩⟩
  simp only [Call.inputs, List.map_cons, List.map_nil, List.headD_cons, map_ok] at h
  cases hsp : split arch (contents σ.heap secret) parts threshold perm (fun k => (c.thread i).drawn.getD k 0) ⟨⟨[], 0⟩, ⟨[], 0⟩⟩ with
  | ok x =>
    rw [hsp, map_ok, Outcome.ok.injEq] at h
    obtain ⟨shares, ps'⟩ := x
    obtain ⟨hv, hsh, -⟩ := split_ok arch hperm hsp
    have := hv.2.2.1
    rw [h] at hsub
    exact combine_sharing hsh hsub (by omega) (by omega) hv.2.2.2
  | _ => rw [hsp] at h; cases h

/-- C34: no data race: no two goroutines are ever about to access the same byte, one of them storing. -/
theorem C34_no_data_race (arch : Arch) (σ : Shared) (calls : ι → Call) (hs : Start σ calls)
    (ha : ∀ i, Admissible (calls i)) (c : Config ι (Outcome (List Slice))) (hr : Reach (initial arch σ calls) c) :
    ¬ Race c := by
  obtain ⟨W, I, -⟩ := inv_calls arch hs ha hr
  have acc : ∀ i a k w, nextAccess (c.thread i).prog = some (a, k, w) →
      (a, k) ∈ W i ∪ preexisting σ ∧ (w = true → (a, k) ∈ W i) := by
    intro i a k w h
    have hw := I.run i
    cases hp : (c.thread i).prog <;> rw [hp] at h hw <;> simp only [nextAccess, Option.some.injEq, Prod.mk.injEq, reduceCtorEq] at h
    · obtain ⟨rfl, rfl, rfl⟩ := h
      exact ⟨hw.1, fun c => by cases c⟩
    · obtain ⟨rfl, rfl, rfl⟩ := h
      exact ⟨Or.inl hw.1, fun _ => hw.1⟩
  rintro ⟨i, j, a, k, w, w', hij, hi, hj, hw⟩
  have h1 := acc i a k w hi
  have h2 := acc j a k w' hj
  have key : ∀ i j, i ≠ j → (a, k) ∈ W i → (a, k) ∈ W j ∪ preexisting σ → False := by
    intro i j hij hm hm'
    rcases hm' with hm' | hm'
    · exact Set.disjoint_left.1 (I.disjW i j hij) hm hm'
    · exact Set.disjoint_left.1 (I.disjR i j) hm hm'
  rcases hw with hw | hw
  · exact key i j hij (h1.2 hw) h2.1
  · exact key j i (Ne.symm hij) (h2.2 hw) h1.1

/-- C34: a buffer is never in the pools twice, and no goroutine is about to access a byte of a buffer that is in a
pool or to put such a buffer into a pool again. -/
theorem C34_pool_exclusive (arch : Arch) (σ : Shared) (calls : ι → Call) (hs : Start σ calls)
    (ha : ∀ i, Admissible (calls i)) (c : Config ι (Outcome (List Slice))) (hr : Reach (initial arch σ calls) c) :
    (c.shared.pool .bPool ++ c.shared.pool .polyPool).Nodup ∧
    ∀ i p, ∀ a ∈ c.shared.pool p, (∀ k w, nextAccess (c.thread i).prog ≠ some (a, k, w)) ∧
      ∀ q k, (c.thread i).prog ≠ .put q a k := by
  obtain ⟨W, I, -⟩ := inv_calls arch hs ha hr
  refine ⟨I.poolNodup, fun i p a hap => ?_⟩
  have hm := mem_pooled.2 ⟨p, hap⟩
  have hW := I.poolFreshW a hm i
  have hR := I.poolFreshR a hm i
  have hw := I.run i
  constructor
  · intro k w h
    cases hp : (c.thread i).prog <;> rw [hp] at h hw <;> simp only [nextAccess, Option.some.injEq, Prod.mk.injEq, reduceCtorEq] at h
    · obtain ⟨rfl, rfl, rfl⟩ := h
      exact hw.1.elim (hW _) (hR _)
    · obtain ⟨rfl, rfl, rfl⟩ := h
      exact hW _ hw.1
  · intro q k h
    rw [h] at hw
    exact hW 0 (hw.1 rfl)

/-- C34: with finitely many goroutines there is no infinite execution, and every execution can be continued until all
calls have returned: no deadlock. -/
theorem C34_terminates [Finite ι] (arch : Arch) (σ : Shared) (calls : ι → Call) (hs : Start σ calls)
    (ha : ∀ i, Admissible (calls i)) :
    (¬ ∃ f : Nat → Config ι (Outcome (List Slice)), f 0 = initial arch σ calls ∧ ∀ n, SysStep (f n) (f (n + 1))) ∧
    ∀ c, Reach (initial arch σ calls) c →
      (∀ i, (∃ r, (c.thread i).prog = .ret r) ∨ ∃ σ' p' bs, Step c.shared (c.thread i).prog σ' p' bs) ∧
      ∃ c', Reach c c' ∧ ∀ i, ∃ r, (c'.thread i).prog = .ret r := by
  refine ⟨?_, fun c hr => ⟨fun i => ?_, ?_⟩⟩
  · rintro ⟨f, -, hf⟩
    exact (wellFounded_iff_isEmpty_descending_chain.1
      (sysStep_wf (ι := ι) (α := Outcome (List Slice)))).false ⟨f, hf⟩
  · have hp := (C34_concurrent_calls arch σ calls hs ha c hr i).1
    by_cases h : ∃ r, (c.thread i).prog = .ret r
    · exact Or.inl h
    · exact Or.inr (progress _ _ (fun r hr => h ⟨r, hr⟩) hp)
  · obtain ⟨c', hr', hd⟩ := reach_done c
    refine ⟨c', hr', fun i => ?_⟩
    rcases hd i with h | h
    · exact h
    · exact absurd h (C34_concurrent_calls arch σ calls hs ha c' (hr.trans hr') i).1

/-- C50: no call ever modifies memory that existed before and was not in a pool; in particular the secrets and shares
passed as arguments stay unchanged. -/
theorem C50_inputs_unchanged (arch : Arch) (σ : Shared) (calls : ι → Call) (hs : Start σ calls)
    (ha : ∀ i, Admissible (calls i)) (c : Config ι (Outcome (List Slice))) (hr : Reach (initial arch σ calls) c) :
    (∀ a, a < σ.next → (∀ p, a ∉ σ.pool p) → c.shared.heap a = σ.heap a) ∧
    ∀ i, ∀ s ∈ (calls i).inputs, contents c.shared.heap s = contents σ.heap s := by
  obtain ⟨W, I, hag⟩ := inv_calls arch hs ha hr
  have key : ∀ a, a < σ.next → (∀ p, a ∉ σ.pool p) → c.shared.heap a = σ.heap a := by
    intro a h1 h2
    refine (agree_eq hag (a := a) ?_).symm
    rintro ⟨b, k⟩ rfl
    exact ⟨h1, h2⟩
  refine ⟨key, fun i s hsi => ?_⟩
  have := hs.inputs i s hsi
  simp only [contents, key _ this.2.2.1 this.2.2.2]

/-- C50: once a call has returned slices, nothing that happens later (other calls finishing, later calls recycling the
buffers) changes the call's result or the bytes in them. -/
theorem C50_results_never_change (arch : Arch) (σ : Shared) (calls : ι → Call) (hs : Start σ calls)
    (ha : ∀ i, Admissible (calls i)) (c c' : Config ι (Outcome (List Slice))) (hr : Reach (initial arch σ calls) c)
    (hr' : Reach c c') (i : ι) (slices : List Slice) (h : (c.thread i).prog = .ret (ok slices)) :
    c'.thread i = c.thread i ∧ ∀ s ∈ slices, c'.shared.heap s.arr = c.shared.heap s.arr ∧
      contents c'.shared.heap s = contents c.shared.heap s := by
  obtain ⟨W, I, -⟩ := inv_calls arch hs ha hr
  obtain ⟨W', I', -, k⟩ := inv_reach (fun i => callPost_stable arch _ _) I hr'
  obtain ⟨-, e2, e3⟩ := k i _ h
  have hw := I.run i
  rw [h] at hw
  refine ⟨e2, fun s hs => ?_⟩
  have e := (agree_eq e3 ((hw.2 slices rfl).2 s hs).1).symm
  exact ⟨e, by simp only [contents, e]⟩

/-- C50: returned slices are new memory: not in a pool, not part of anything that existed before the calls, and not
shared with the result of another call. -/
theorem C50_results_private (arch : Arch) (σ : Shared) (calls : ι → Call) (hs : Start σ calls)
    (ha : ∀ i, Admissible (calls i)) (c : Config ι (Outcome (List Slice))) (hr : Reach (initial arch σ calls) c) (i : ι)
    (slices : List Slice) (h : (c.thread i).prog = .ret (ok slices)) (s : Slice) (hsl : s ∈ slices) :
    (∀ p, s.arr ∉ c.shared.pool p) ∧ (s.arr < σ.next → ∃ p, s.arr ∈ σ.pool p) ∧
    (∀ j slices', j ≠ i → (c.thread j).prog = .ret (ok slices') → ∀ s' ∈ slices', s'.arr ≠ s.arr) ∧
    (∀ j k w, j ≠ i → nextAccess (c.thread j).prog ≠ some (s.arr, k, w)) := by
  obtain ⟨W, I, -⟩ := inv_calls arch hs ha hr
  have own_i : own s.arr ⊆ W i := by
    have hw := I.run i
    rw [h] at hw
    exact ((hw.2 slices rfl).2 s hsl).1
  refine ⟨fun p hp => ?_, fun hlt => ?_, fun j slices' hj h' s' hs' e => ?_, fun j k w hj h' => ?_⟩
  · exact I.poolFreshW s.arr (mem_pooled.2 ⟨p, hp⟩) i 0 (own_i rfl)
  · by_contra hn
    push Not at hn
    exact Set.disjoint_left.1 (I.disjR i i) (own_i (rfl : ((s.arr, 0) : Loc).1 = s.arr)) ⟨hlt, hn⟩
  · have hw := I.run j
    rw [h'] at hw
    have := ((hw.2 slices' rfl).2 s' hs').1 (rfl : ((s'.arr, 0) : Loc).1 = s'.arr)
    rw [e] at this
    exact Set.disjoint_left.1 (I.disjW j i hj) this (own_i rfl)
  · have hw := I.run j
    have no : ∀ l : Loc, l.1 = s.arr → l ∉ W j ∪ preexisting σ := by
      intro l hl hm
      rcases hm with hm | hm
      · exact Set.disjoint_left.1 (I.disjW j i hj) hm (own_i hl)
      · exact Set.disjoint_left.1 (I.disjR i j) (own_i hl) hm
    cases hp : (c.thread j).prog <;> rw [hp] at h' hw <;> simp only [nextAccess, Option.some.injEq, Prod.mk.injEq, reduceCtorEq] at h'
    · obtain ⟨rfl, rfl, rfl⟩ := h'
      exact no _ rfl hw.1
    · obtain ⟨rfl, rfl, rfl⟩ := h'
      exact no _ rfl (Or.inl hw.1)

/-! A state and calls that meet the hypotheses: two goroutines split the same secret, a third one another secret, with
one recycled buffer in the pool. -/

/-- example state -/
def exShared : Shared where
  heap a := if a = 0 then [1, 2, 3] else if a = 1 then [9, 9] else if a = 2 then [7, 7, 7, 7] else []
  next := 3
  pool p := match p with
    | .bPool => [1]
    | .polyPool => []
  size := 4

/-- example calls -/
def exCalls : Fin 3 → Call := fun i =>
  if i = 2 then .split ⟨2, 1, 2, 3⟩ 4 3 (List.range 255) else .split ⟨0, 0, 3, 3⟩ 3 2 (List.range 255)

theorem exStart : Start exShared exCalls where
  poolNodup := by decide
  poolLt p a h := by
    cases p
    · have : a = 1 := by simpa [exShared] using h
      subst this; decide
    · simp [exShared] at h
  inputs i s h := by
    have : ∀ i : Fin 3, ∀ s ∈ (exCalls i).inputs, s = ⟨0, 0, 3, 3⟩ ∨ s = ⟨2, 1, 2, 3⟩ := by
      intro i s hs
      unfold exCalls at hs
      split at hs <;> simp [Call.inputs] at hs <;> simp [hs]
    rcases this i s h with rfl | rfl
    · exact ⟨by unfold InBounds; decide, by decide, by decide, fun p => by cases p <;> decide⟩
    · exact ⟨by unfold InBounds; decide, by decide, by decide, fun p => by cases p <;> decide⟩

theorem exAdmissible : ∀ i, Admissible (exCalls i) := by
  intro i
  unfold exCalls
  split <;> exact List.Perm.refl _

/-- The three example calls all return, and nothing but correct shares comes out. -/
example (arch : Arch) : ∃ c, Reach (initial arch exShared exCalls) c ∧ ∀ i, ∃ r, (c.thread i).prog = .ret r ∧
    Correct arch (exCalls i) ((exCalls i).inputs.map (contents exShared.heap)) (c.thread i).drawn
      ((fun slices => slices.map (contents c.shared.heap)) <$> r) := by
  obtain ⟨c, hr, hd⟩ := ((C34_terminates arch exShared exCalls exStart exAdmissible).2 _ .refl).2
  refine ⟨c, hr, fun i => ?_⟩
  obtain ⟨r, h⟩ := hd i
  exact ⟨r, h, (C34_concurrent_calls arch exShared exCalls exStart exAdmissible c hr i).2 r h⟩

/-- C34, C50: in every state that these calls reach there is no race, the pooled buffers belong to nobody, and the
callers' bytes are as before; a result, once returned, stays as it is and combines to the secret. -/
example (arch : Arch) (c : Config (Fin 3) (Outcome (List Slice))) (hr : Reach (initial arch exShared exCalls) c) :
    ¬ Race c ∧ (c.shared.pool .bPool ++ c.shared.pool .polyPool).Nodup ∧ c.shared.heap 2 = [7, 7, 7, 7] :=
  ⟨C34_no_data_race arch _ _ exStart exAdmissible c hr, (C34_pool_exclusive arch _ _ exStart exAdmissible c hr).1,
    (C50_inputs_unchanged arch _ _ exStart exAdmissible c hr).1 2 (by decide) (by intro p; cases p <;> decide)⟩

example (arch : Arch) (c c' : Config (Fin 3) (Outcome (List Slice))) (hr : Reach (initial arch exShared exCalls) c)
    (hr' : Reach c c') (slices : List Slice) (h : (c.thread 2).prog = .ret (ok slices)) :
    slices.map (contents c'.shared.heap) = slices.map (contents c.shared.heap) ∧
    combine ((slices.map (contents c.shared.heap)).take 3) = ok [7, 7] := by
  have hm := (C50_results_never_change arch _ _ exStart exAdmissible c c' hr hr' 2 slices h).2
  refine ⟨List.map_congr_left fun s hs => (hm s hs).2, ?_⟩
  have hcor := (C34_concurrent_calls arch exShared exCalls exStart exAdmissible c hr 2).2 _ h
  have hi : exCalls 2 = .split ⟨2, 1, 2, 3⟩ 4 3 (List.range 255) := rfl
  refine C34_concurrent_split_combine arch _ _ exStart exAdmissible c hr 2 _ _ _ _ hi slices h _
    (List.take_sublist _ _).subperm ?_
  rw [hi] at hcor
  have hc : contents exShared.heap ⟨2, 1, 2, 3⟩ = [7, 7] := by decide
  have hcor := hcor _ (delivers_getD _) ⟨⟨[], 0⟩, ⟨[], 0⟩⟩
  simp only [Call.inputs, List.map_cons, List.map_nil, List.headD_cons, hc] at hcor
  obtain ⟨⟨shares, ps⟩, hsp⟩ := C13_split_validates arch [7, 7] 4 3 (List.range 255) (List.Perm.refl _)
    (fun k => (c.thread 2).drawn.getD k 0) ⟨⟨[], 0⟩, ⟨[], 0⟩⟩
  have hlen := (C12_split_format arch [7, 7] 4 3 _ (List.Perm.refl _) _ _ _ _ hsp).1
  rw [hsp, map_ok, map_ok] at hcor
  have := congrArg List.length (Outcome.ok.inj hcor)
  simp only at this
  rw [List.length_take, this]
  omega

/-- C50: what two of the calls have returned lies in different arrays. -/
example (arch : Arch) (c : Config (Fin 3) (Outcome (List Slice))) (hr : Reach (initial arch exShared exCalls) c)
    (o0 o1 : List Slice) (h0 : (c.thread 0).prog = .ret (ok o0)) (h1 : (c.thread 1).prog = .ret (ok o1)) :
    ∀ s ∈ o0, ∀ s' ∈ o1, s'.arr ≠ s.arr :=
  fun s hs s' hs' => (C50_results_private arch exShared exCalls exStart exAdmissible c hr 0 o0 h0 s hs).2.2.1 1 o1 (by decide) h1 s' hs'

end Verif.Props
