import Verif.Proofs.WorkCalls
import Verif.Proofs.LeakRest

/-! # The steps of SplitWithRandomizerOld and of the goroutines of SplitP -/

namespace Verif.Leak
open Verif Outcome Galois Pool Proofs Spec Csprng

/-! ## SplitWithRandomizerOld -/

theorem work_makeOld (s : List Byte) (d : Nat) (r : CSPRNG) : (makePolynomialsWithRandomizer s d r).work ≤ 1 + s.length * 4 :=
  work_forUp fun _ _ _ => work_bind_le (m := 1) (n := 3) (work_slice _ _ _) fun _ _ => work_bind_le (m := 1) (n := 2) (work_idx _ _) fun _ _ =>
    work_bind_le (m := 1) (n := 1) (work_setIdx _ _ _) fun _ _ => work_setIdx _ _ _

theorem work_evaluateAt (arch : Arch) (c : Nat → Nat → Byte) (N d : Nat) (x : Byte) (out : List Byte) (pool : BytesBufferPool) :
    (evaluatePolynomialsAt arch ((List.range (d + 1)).map fun i => (List.range N).map (c i)) x out pool).work
      ≤ 7 + 2 * N + d * (10 * N + 21) := by
  have hi : ∀ {i : Nat} {row : List Byte},
      (idx ((List.range (d + 1)).map fun i => (List.range N).map (c i)) i).out = ok row → i ≤ d → row = (List.range N).map (c i) := by
    intro i row h hd
    rw [out_idx, idx_ok (by simp; omega)] at h
    have := Outcome.ok.inj h
    simpa using this.symm
  unfold evaluatePolynomialsAt
  refine (work_bind_le (m := 1) (n := 6 + 2 * N + d * (10 * N + 21)) (work_idx _ _) fun r hr => ?_).trans (by omega)
  have hr := hi hr (Nat.zero_le _)
  have lr : r.length = N := by rw [hr]; simp
  simp only [List.length_map, List.length_range, Nat.add_sub_cancel, lr]
  refine (work_bind_le (m := 1) (n := 5 + 2 * N + d * (10 * N + 21)) (work_slice _ _ _) fun r0 hr0 => ?_).trans (by omega)
  have lr0 : r0.length = N := by
    rw [out_slice, slice_ok (Nat.zero_le _) (length_grow _ _)] at hr0
    cases hr0
    have := length_grow pool.get.1 N
    simp; omega
  refine (work_bind_le (m := 1) (n := 4 + 2 * N + d * (10 * N + 21)) (work_idx _ _) fun top ht => ?_).trans (by omega)
  have ht := hi ht le_rfl
  refine (work_bind_le (m := 1 + N) (n := 3 + N + d * (10 * N + 21)) (by rw [← lr0]; exact work_copyInto _ _) fun r1 h1 => ?_).trans (by omega)
  rw [out_copyInto, copyInto_same (by rw [lr0, ht]; simp)] at h1
  cases h1
  refine (work_bind_le (m := 1 + d * (10 * N + 21)) (n := 2 + N) ?_ fun fin _ => ?_).trans (by omega)
  · refine work_forDown (fun s => s.length = N) (by rw [ht]; simp) fun i hi' s hs => ⟨?_, fun t htt => ?_⟩
    · refine (work_bind_le (m := 1) (n := 10 * N + 20) (work_idx _ _) fun row hrow => ?_).trans (by omega)
      have hrow := hi hrow (by omega)
      refine (work_bind_le (m := 5 * N + 10) (n := 5 * N + 10) (by rw [← hs]; exact work_mulConstVector _ _ _) fun m hm => ?_).trans (by omega)
      rw [out_mulConstVector, mulConstVector_eq] at hm
      cases hm
      refine (work_addVector arch (by rw [hrow]; simp [hs])).trans ?_
      rw [hrow]; simp
    · rw [out_bind] at htt
      obtain ⟨row, hrow, htt⟩ := bind_eq_ok.1 htt
      have hrow := hi hrow (by omega)
      rw [out_bind] at htt
      obtain ⟨m, hm, htt⟩ := bind_eq_ok.1 htt
      rw [out_mulConstVector, mulConstVector_eq] at hm
      cases hm
      rw [out_addVector, addVector_eq _ (by rw [hrow]; simp [hs])] at htt
      cases htt
      simp [xorBytes, hrow, hs]
  · refine (work_bind_le (m := 1) (n := 1 + N) (work_slice _ _ _) fun dst hd => ?_).trans (by omega)
    refine (work_bind_le (m := 1 + N) (n := 0) ?_ fun _ _ => work_pure _ _).trans (by omega)
    have := length_slice_le hd
    exact (work_copyInto _ _).trans (by omega)

theorem work_splitOld (arch : Arch) {s : List Byte} {parts threshold : Int} (hv : ValidArgs s parts threshold) (r : CSPRNG) (ps : Shamir.Pools) :
    (splitWithRandomizerOld arch s parts threshold r ps).work ≤ 10 + 14 * parts.toNat + 4 * s.length + threshold.toNat + 5 * (threshold.toNat * s.length) +
      2 * (parts.toNat * s.length) + parts.toNat * ((threshold.toNat - 1) * (10 * s.length + 21)) := by
  obtain ⟨h1, h2, h3, h4⟩ := hv
  have hN : 0 < s.length := List.length_pos_iff.2 h4
  obtain ⟨d, hd⟩ : ∃ d, threshold.toNat = d + 1 := ⟨threshold.toNat - 1, by omega⟩
  have e1 : decide (parts < threshold) = false := by simp; omega
  have e2 : decide (parts > 255) = false := by simp; omega
  have e3 : decide (threshold < 2) = false := by simp; omega
  have e4 : decide (threshold > 255) = false := by simp; omega
  have e5 : decide (s.length = 0) = false := by simp [h4]
  have key : (splitWithRandomizerOld arch s parts threshold r ps).work ≤ 1 + (1 + (1 + (1 + (1 + (0 + ((1 + parts.toNat * 4) + ((1 + s.length * 4) +
      ((2 + (d + 1) * (1 + s.length * 5)) + ((1 + parts.toNat * (10 + 2 * s.length + d * (10 * s.length + 21))) + 0))))))))) := by
    unfold splitWithRandomizerOld
    refine work_bind_le (within_test _).1 fun t ht => ?_
    rw [out_test, e1] at ht; cases ht
    refine work_bind_le (within_test _).1 fun t ht => ?_
    rw [out_test, e2] at ht; cases ht
    refine work_bind_le (within_test _).1 fun t ht => ?_
    rw [out_test, e3] at ht; cases ht
    refine work_bind_le (within_test _).1 fun t ht => ?_
    rw [out_test, e4] at ht; cases ht
    refine work_bind_le (within_test _).1 fun t ht => ?_
    rw [out_test, e5] at ht; cases ht
    simp only [hd, Nat.add_sub_cancel]
    refine work_bind_le (work_quiet _ _) fun xs _ => ?_
    refine work_bind_le (work_allocShares _ _ _) fun out _ => ?_
    refine work_bind_le (work_makeOld _ _ _) fun m hm => ?_
    rw [out_makePolynomialsWithRandomizer, makePolynomialsWithRandomizer_eq] at hm
    cases hm
    refine work_bind_le (work_transposeRows (N := s.length) (t := d + 1) (by simp [rowsF]) ?_) fun co hco => ?_
    · intro r hr
      obtain ⟨p, -, rfl⟩ := List.mem_map.1 hr
      simp
    rw [out_transpose, transpose_eq _ _ _ hN] at hco
    cases hco
    refine work_bind_le (work_forUp fun i _ o => ?_) fun st _ => ?_
    · obtain ⟨o, pool⟩ := o
      refine (work_bind_le (m := 1) (n := 9 + 2 * s.length + d * (10 * s.length + 21)) (work_idx _ _) fun _ _ => ?_).trans (by omega)
      refine (work_bind_le (m := 1) (n := 8 + 2 * s.length + d * (10 * s.length + 21)) (work_idx _ _) fun _ _ => ?_).trans (by omega)
      refine (work_bind_le (n := 1) (work_evaluateAt arch (fun i p => oldCoeff s (d + 1) r p i) s.length d _ _ _) fun q _ => ?_).trans (by omega)
      obtain ⟨row, pool⟩ := q
      exact work_bind_le (m := 1) (n := 0) (work_setIdx _ _ _) fun _ _ => work_pure _ _
    · obtain ⟨o, pool⟩ := st
      exact work_pure _ _
  refine key.trans ?_
  rw [hd, Nat.add_sub_cancel]
  have e1 : (d + 1) * (1 + s.length * 5) = (d + 1) + 5 * ((d + 1) * s.length) := by ring
  have e2 : parts.toNat * (10 + 2 * s.length + d * (10 * s.length + 21)) = 10 * parts.toNat + 2 * (parts.toNat * s.length) + parts.toNat * (d * (10 * s.length + 21)) := by ring
  omega

/-! ## SplitP -/

theorem work_makePolynomial (v d : Byte) (rnd : Nat → Byte) (pos : Nat) : (makePolynomial v d rnd pos).work ≤ 2 :=
  work_bind_le (m := 1) (n := 1) (work_setIdx _ _ _) fun _ _ => work_bind_le (m := 1) (n := 0) (work_slice _ _ _) fun _ _ => work_pure _ _

theorem work_evaluateOne (c : List Byte) (x : Byte) : (evaluate c x).work ≤ 3 + 2 * (c.length - 1) := by
  unfold evaluate
  refine (work_bind_le (m := 1) (n := 2 + 2 * (c.length - 1)) (within_test _).1 fun t _ => work_ite ((work_idx _ _).trans (by omega)) ?_).trans (by omega)
  by_cases h : c.length = 0
  · rw [if_pos h]; exact work_fail (by simp) _ _
  · rw [if_neg h]
    refine (work_bind_le (m := 1) (n := 1 + (c.length - 1) * 2) (work_idx _ _) fun _ _ => ?_).trans (by omega)
    exact work_forDown (fun _ => True) trivial fun i _ s _ => ⟨work_bind_le (m := 1) (n := 1) (work_idx _ _) fun _ _ =>
      work_bind_le (m := 1) (n := 0) (work_one _) fun _ _ => work_pure _ _, fun _ _ => trivial⟩

theorem work_splitPGoroutine (vs : List Byte) {parts threshold : Int} (h1 : 2 ≤ threshold) (h2 : threshold ≤ 255) (perm : List Nat)
    (rnd : Nat → Byte) (start : Nat) (out : List (List Byte)) :
    (splitPGoroutine vs parts threshold perm rnd start out).work ≤ 1 + vs.length * (4 + parts.toNat * (5 + 2 * threshold.toNat)) := by
  have hdn : (BitVec.ofInt 8 (threshold - 1)).toNat = threshold.toNat - 1 := by
    rw [BitVec.toNat_ofInt]; omega
  have hd : BitVec.ofInt 8 (threshold - 1) ≠ 255#8 := by
    intro h
    have := congrArg BitVec.toNat h
    rw [hdn] at this
    simp at this
    omega
  unfold splitPGoroutine
  refine work_forUp fun k _ o => ?_
  refine (work_bind_le (m := 1) (n := 3 + parts.toNat * (5 + 2 * threshold.toNat)) (work_idx _ _) fun v _ => ?_).trans (by omega)
  refine (work_bind_le (m := 2) (n := 1 + parts.toNat * (5 + 2 * threshold.toNat)) (work_makePolynomial _ _ _ _) fun p hp => ?_).trans (by omega)
  rw [out_makePolynomial, makePolynomial_eq _ hd, hdn] at hp
  cases hp
  refine work_forUp fun i _ o => ?_
  refine (work_bind_le (m := 1) (n := 4 + 2 * threshold.toNat) (work_idx _ _) fun _ _ => ?_).trans (by omega)
  refine (work_bind_le (n := 3) (work_evaluateOne _ _) fun _ _ => ?_).trans (by simp; omega)
  exact work_bind_le (m := 1) (n := 2) (work_idx _ _) fun _ _ => work_bind_le (m := 1) (n := 1) (work_setIdx _ _ _) fun _ _ => work_setIdx _ _ _

end Verif.Leak
