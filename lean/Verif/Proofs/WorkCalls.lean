import Verif.Proofs.WorkSplit
import Verif.Proofs.LeakCalls

/-! # The steps of SplitWithRandomizer, SplitGeneric and Regenerate -/

namespace Verif.Leak
open Verif Outcome Galois Pool Proofs Spec Csprng

theorem work_quiet {α : Type} (o : Outcome α) (n : Nat) : (quiet o).work ≤ n := Nat.zero_le _

theorem work_idx {α : Type} (l : List α) (i : Nat) : (idx l i).work ≤ 1 := work_one _
theorem work_setIdx {α : Type} (l : List α) (i : Nat) (v : α) : (setIdx l i v).work ≤ 1 := work_one _

theorem work_splitWithRandomizer (arch : Arch) (fuel : Nat) {s : List Byte} {parts threshold : Int} (hv : ValidArgs s parts threshold) (r : CSPRNG)
    (ps : Shamir.Pools) : (splitWithRandomizer arch fuel s parts threshold r ps).work ≤ 12 + 14 * parts.toNat + 3 * s.length + 3 * (threshold.toNat * s.length) +
      2 * (parts.toNat * s.length) + parts.toNat * ((threshold.toNat - 1) * (10 * s.length + 21)) := by
  obtain ⟨h1, h2, h3, h4⟩ := hv
  have hN : 0 < s.length := List.length_pos_iff.2 h4
  have et : threshold.toNat - 1 + 1 = threshold.toNat := by omega
  have e1 : decide (parts < threshold) = false := by simp; omega
  have e2 : decide (parts > 255) = false := by simp; omega
  have e3 : decide (threshold < 2) = false := by simp; omega
  have e4 : decide (threshold > 255) = false := by simp; omega
  have e5 : decide (s.length = 0) = false := by simp [h4]
  have hpb : ∀ {l p : List Byte}, (slice l 0 (threshold.toNat * s.length)).out = ok p → p.length = threshold.toNat * s.length := fun {l p} h => by
    have := slice_val (s := 0) (N := threshold.toNat * s.length) (e := .window 0 (threshold.toNat * s.length)) (l := l) (r := p) (by simpa [slice] using h)
    simp [this]
  have key : (splitWithRandomizer arch fuel s parts threshold r ps).work ≤ 1 + (1 + (1 + (1 + (1 + (0 + ((1 + parts.toNat * 4) + (1 + ((1 + s.length * 3) + (1 +
      ((2 + (threshold.toNat * s.length) * 3) + ((1 + parts.toNat * (10 + 2 * s.length + (threshold.toNat - 1) * (10 * s.length + 21))) + 0))))))))))) := by
    unfold splitWithRandomizer
    refine work_bind_le (within_test _).1 fun t ht => ?_
    rw [out_test, e1] at ht; cases ht
    refine work_bind_le (within_test _).1 fun t ht => ?_
    rw [out_test, e2] at ht; cases ht
    refine work_bind_le (within_test _).1 fun t ht => ?_
    rw [out_test, e3] at ht; cases ht
    refine work_bind_le (within_test _).1 fun t ht => ?_
    rw [out_test, e4] at ht; cases ht
    refine work_bind_le (within_test _).1 fun t ht => ?_
    rw [out_test, e5] at ht; cases ht
    simp only [et]
    refine work_bind_le (work_quiet _ _) fun xs _ => ?_
    refine work_bind_le (work_allocShares _ _ _) fun out _ => ?_
    refine work_bind_le (work_slice _ _ _) fun pb hb => ?_
    have hb := hpb hb
    refine work_bind_le (work_setIntercepts _ _ _) fun pol hp => ?_
    rw [out_setIntercepts, setIntercepts_eq _ _ _ (by rw [length_read, hb, et]), et] at hp
    have lp : pol.length = threshold.toNat * s.length := by
      rw [← Outcome.ok.inj hp]; simp [length_withIntercepts, length_read, hb]
    rw [lp]
    refine work_bind_le (work_slice _ _ _) fun cb hcb => ?_
    have hcb := hpb hcb
    refine work_bind_le (by rw [← lp]; exact work_transpose _ _ _) fun co hco => ?_
    rw [out_transposeMatrixBuffer, transposeBuffer_eq _ _ _ s.length (by omega) hN lp (hcb.trans lp.symm)] at hco
    cases hco
    refine work_bind_le (work_fillShares arch (d := threshold.toNat - 1) hN (by rw [et]; simp) _ _ _ _) fun r _ => ?_
    obtain ⟨o, pp⟩ := r
    exact work_pure _ _
  refine key.trans (le_of_eq ?_)
  ring

/-! ## SplitGeneric -/

theorem work_makePolynomials (s : List Byte) (d : Nat) (rnd : Nat → Byte) : (makePolynomials s d rnd).work ≤ 1 + s.length * (7 + d) := by
  unfold makePolynomials
  refine (work_bind_le (m := 1 + s.length * (7 + d)) (n := 0) ?_ fun st _ => work_pure _ _).trans (by omega)
  refine work_bind_le (m := 1) (work_one _) fun _ _ => ?_
  refine (work_iterUp (fun _ (st : List (List Byte) × Nat) => ∀ r ∈ st.1, r.length = d + 1) _ s.length _ ?_ fun p hp st hst => ⟨?_, fun t ht => ?_⟩).1
  · intro r hr
    have := List.eq_of_mem_replicate hr
    simp [this]
  · obtain ⟨m, st⟩ := st
    simp only at hst
    refine (work_bind_le (m := 1) (n := 6 + d) (work_idx _ _) fun row hr => ?_).trans (by omega)
    rw [out_idx, idx_eq_ok] at hr
    have l1 := hst row (List.mem_of_getElem? hr)
    refine (work_bind_le (m := 1) (n := 5 + d) (work_idx _ _) fun v _ => ?_).trans (by omega)
    refine (work_bind_le (m := 1) (n := 4 + d) (work_setIdx _ _ _) fun row' hr' => ?_).trans (by omega)
    rw [out_setIdx, setIdx_ok (by omega)] at hr'
    cases hr'
    refine (work_bind_le (m := 1) (n := 3 + d) (work_slice _ _ _) fun _ _ => ?_).trans (by omega)
    refine (work_bind_le (m := 1) (n := 2 + d) (work_slice _ _ _) fun tl htl => ?_).trans (by omega)
    have l2 := length_slice_le htl
    rw [List.length_set, l1] at l2
    refine (work_bind_le (m := 1 + d) (n := 1) ((work_copyInto _ _).trans (by omega)) fun _ _ => ?_).trans (by omega)
    exact work_bind_le (m := 1) (n := 0) (work_setIdx _ _ _) fun _ _ => work_pure _ _
  · obtain ⟨m, st⟩ := st
    simp only at hst
    simp only [out_bind, out_idx, out_setIdx, out_slice, out_copyInto, out_pure] at ht
    obtain ⟨row, hr, ht⟩ := bind_eq_ok.1 ht
    rw [idx_eq_ok] at hr
    have l1 := hst row (List.mem_of_getElem? hr)
    obtain ⟨v, -, ht⟩ := bind_eq_ok.1 ht
    rw [setIdx_ok (by omega), ok_bind] at ht
    obtain ⟨src, -, ht⟩ := bind_eq_ok.1 ht
    obtain ⟨tl, htl, ht⟩ := bind_eq_ok.1 ht
    rw [ok_bind] at ht
    obtain ⟨m', hm', ht⟩ := bind_eq_ok.1 ht
    cases ht
    intro r hr'
    have hlt : p < m.length := (List.getElem?_eq_some_iff.1 hr).1
    rw [setIdx_ok hlt] at hm'
    cases hm'
    rcases List.mem_or_eq_of_mem_set hr' with h | rfl
    · exact hst r h
    · have : tl.length ≤ d := by
        have := length_slice_le htl
        rw [List.length_set, l1] at this
        omega
      have e : ∀ (l w : List Byte) (o : Nat), o + w.length ≤ l.length → (writeAt l o w).length = l.length := by
        intro l w o h
        simp [writeAt]; omega
      rw [e _ _ _ (by rw [length_copyInto, List.length_set]; omega), List.length_set, l1]

theorem work_transposeRows {m : List (List Byte)} {N t : Nat} (hm : m.length = N) (hr : ∀ r ∈ m, r.length = t) :
    (transpose m).work ≤ 2 + t * (1 + N * 5) := by
  unfold transpose
  refine (work_bind_le (m := 1) (n := 1 + t * (1 + N * 5)) (work_idx _ _) fun row h => ?_).trans (by omega)
  rw [out_idx, idx_eq_ok] at h
  rw [hr row (List.mem_of_getElem? h), hm]
  refine work_forUp fun i _ s => work_forUp fun j _ s => ?_
  exact work_bind_le (m := 1) (n := 4) (work_idx _ _) fun _ _ => work_bind_le (m := 1) (n := 3) (work_idx _ _) fun _ _ =>
    work_bind_le (m := 1) (n := 2) (work_idx _ _) fun _ _ => work_bind_le (m := 1) (n := 1) (work_setIdx _ _ _) fun _ _ => work_setIdx _ _ _

theorem work_genericEvaluate (c : Nat → Nat → Byte) (N d : Nat) (x : Byte) (out : List Byte) :
    (genericEvaluatePolynomialsAt ((List.range (d + 1)).map fun i => (List.range N).map (c i)) x out).work ≤ 6 + 2 * N + d * (10 * N + 21) := by
  have hi : ∀ {i : Nat} {row : List Byte},
      (idx ((List.range (d + 1)).map fun i => (List.range N).map (c i)) i).out = ok row → i ≤ d → row = (List.range N).map (c i) := by
    intro i row h hd
    rw [out_idx, idx_ok (by simp; omega)] at h
    have := Outcome.ok.inj h
    simpa using this.symm
  unfold genericEvaluatePolynomialsAt
  refine (work_bind_le (m := 1) (n := 5 + 2 * N + d * (10 * N + 21)) (work_idx _ _) fun r hr => ?_).trans (by omega)
  have hr := hi hr (Nat.zero_le _)
  have lr : r.length = N := by rw [hr]; simp
  simp only [List.length_map, List.length_range, Nat.add_sub_cancel, lr]
  refine (work_bind_le (m := 1) (n := 4 + 2 * N + d * (10 * N + 21)) (work_idx _ _) fun top ht => ?_).trans (by omega)
  have ht := hi ht le_rfl
  refine (work_bind_le (m := 1 + N) (n := 3 + N + d * (10 * N + 21)) ((work_copyInto _ _).trans (by simp)) fun r1 h1 => ?_).trans (by omega)
  rw [out_copyInto, copyInto_same (by rw [ht]; simp)] at h1
  cases h1
  refine (work_bind_le (m := 1 + d * (10 * N + 21)) (n := 2 + N) ?_ fun fin _ => ?_).trans (by omega)
  · refine work_forDown (fun s => s.length = N) (by rw [ht]; simp) fun i hi' s hs => ⟨?_, fun t htt => ?_⟩
    · refine (work_bind_le (m := 1) (n := 10 * N + 20) (work_idx _ _) fun row hrow => ?_).trans (by omega)
      have hrow := hi hrow (by omega)
      refine (work_bind_le (m := 5 * N + 10) (n := 5 * N + 10) (by rw [← hs]; exact work_mulConstVector .noasm _ _) fun m hm => ?_).trans (by omega)
      have hm : Galois.mulConstVector .noasm x s = ok m := by rw [← out_mulConstVector]; exact hm
      rw [mulConstVector_eq] at hm
      cases hm
      refine (work_addVector .noasm (by rw [hrow]; simp [hs])).trans ?_
      rw [hrow]; simp
    · rw [out_bind] at htt
      obtain ⟨row, hrow, htt⟩ := bind_eq_ok.1 htt
      have hrow := hi hrow (by omega)
      rw [out_bind] at htt
      obtain ⟨m, hm, htt⟩ := bind_eq_ok.1 htt
      have hm : Galois.mulConstVector .noasm x s = ok m := by rw [← out_mulConstVector]; exact hm
      rw [mulConstVector_eq] at hm
      cases hm
      have htt : Galois.addVector .noasm row (s.map (mulSpec x)) = ok t := by rw [← out_addVector]; exact htt
      rw [addVector_eq _ (by rw [hrow]; simp [hs])] at htt
      cases htt
      simp [xorBytes, hrow, hs]
  · refine (work_bind_le (m := 1) (n := 1 + N) (work_slice _ _ _) fun dst hd => ?_).trans (by omega)
    refine (work_bind_le (m := 1 + N) (n := 0) ?_ fun _ _ => work_pure _ _).trans (by omega)
    have := length_slice_le hd
    exact (work_copyInto _ _).trans (by omega)

theorem work_splitGeneric {s : List Byte} {parts threshold : Int} (hv : ValidArgs s parts threshold) (perm : List Nat) (rnd : Nat → Byte) :
    (splitGeneric s parts threshold perm rnd).work ≤ 10 + 12 * parts.toNat + 6 * s.length + threshold.toNat + 6 * (threshold.toNat * s.length) +
      2 * (parts.toNat * s.length) + parts.toNat * ((threshold.toNat - 1) * (10 * s.length + 21)) := by
  obtain ⟨h1, h2, h3, h4⟩ := hv
  have hN : 0 < s.length := List.length_pos_iff.2 h4
  obtain ⟨d, hd⟩ : ∃ d, threshold.toNat = d + 1 := ⟨threshold.toNat - 1, by omega⟩
  have e1 : decide (parts < threshold) = false := by simp; omega
  have e2 : decide (parts > 255) = false := by simp; omega
  have e3 : decide (threshold < 2) = false := by simp; omega
  have e4 : decide (threshold > 255) = false := by simp; omega
  have e5 : decide (s.length = 0) = false := by simp [h4]
  have key : (splitGeneric s parts threshold perm rnd).work ≤ 1 + (1 + (1 + (1 + (1 + ((1 + parts.toNat * 3) + ((1 + s.length * (7 + d)) +
      ((2 + (d + 1) * (1 + s.length * 5)) + (1 + parts.toNat * (9 + 2 * s.length + d * (10 * s.length + 21)))))))))) := by
    unfold splitGeneric
    refine work_bind_le (within_test _).1 fun t ht => ?_
    rw [out_test, e1] at ht; cases ht
    refine work_bind_le (within_test _).1 fun t ht => ?_
    rw [out_test, e2] at ht; cases ht
    refine work_bind_le (within_test _).1 fun t ht => ?_
    rw [out_test, e3] at ht; cases ht
    refine work_bind_le (within_test _).1 fun t ht => ?_
    rw [out_test, e4] at ht; cases ht
    refine work_bind_le (within_test _).1 fun t ht => ?_
    rw [out_test, e5] at ht; cases ht
    simp only [hd, Nat.add_sub_cancel]
    refine work_bind_le (work_forUp (c := 3) fun _ _ _ => work_bind_le (m := 1) (n := 2) (work_idx _ _) fun _ _ =>
      work_bind_le (m := 1) (n := 1) (work_setIdx _ _ _) fun _ _ => work_setIdx _ _ _) fun out _ => ?_
    refine work_bind_le (work_makePolynomials _ _ _) fun m hm => ?_
    rw [out_makePolynomials, makePolynomials_eq] at hm
    cases hm
    refine work_bind_le (work_transposeRows (N := s.length) (t := d + 1) (by simp [rowsF]) ?_) fun co hco => ?_
    · intro r hr
      obtain ⟨p, -, rfl⟩ := List.mem_map.1 hr
      simp
    rw [out_transpose, transpose_eq _ _ _ hN] at hco
    cases hco
    refine work_forUp fun i _ o => ?_
    refine (work_bind_le (m := 1) (n := 8 + 2 * s.length + d * (10 * s.length + 21)) (work_idx _ _) fun _ _ => ?_).trans (by omega)
    refine (work_bind_le (m := 1) (n := 7 + 2 * s.length + d * (10 * s.length + 21)) (work_idx _ _) fun _ _ => ?_).trans (by omega)
    exact (work_bind_le (n := 1) (work_genericEvaluate (fun i p => genericCoeff s d rnd p i) s.length d _ _) fun _ _ => work_setIdx _ _ _).trans (by omega)
  refine key.trans ?_
  rw [hd, Nat.add_sub_cancel]
  have : s.length * (7 + d) + (d + 1) * (1 + s.length * 5) = 6 * s.length + (d + 1) + 6 * ((d + 1) * s.length) := by ring
  have e2 : parts.toNat * (9 + 2 * s.length + d * (10 * s.length + 21)) = 9 * parts.toNat + 2 * (parts.toNat * s.length) + parts.toNat * (d * (10 * s.length + 21)) := by ring
  omega

/-! ## Regenerate -/

theorem work_regenLoop (u : Nat → Byte) (m : List Byte) (fuel : Nat) (nx : Byte) (pos : Nat) : (regenLoop u m fuel nx pos).work ≤ fuel * 2 := by
  induction fuel generalizing nx pos with
  | zero => exact Nat.zero_le _
  | succ f ih =>
    refine (work_bind_le (m := 1) (n := f * 2 + 1) (work_one _) fun _ _ => ?_).trans (by omega)
    exact (work_bind_le (m := 1) (n := f * 2) (within_test _).1 fun _ _ => work_ite (ih _ _) (work_pure _ _)).trans (by omega)

theorem work_regenerate (fuel : Nat) (parts : List (List Byte)) (n : Int) (rnd u : Nat → Byte) :
    (regenerate fuel parts n rnd u).work ≤ 7 * parts.length + 6 + n.toNat * (2 * fuel + 6) +
      n.toNat * (((parts.headD []).length - 1) * (10 * parts.length ^ 2 - parts.length + 3)) := by
  unfold regenerate
  refine (work_bind_le (m := 1) (n := 7 * parts.length + 5 + n.toNat * (2 * fuel + 6) +
      n.toNat * (((parts.headD []).length - 1) * (10 * parts.length ^ 2 - parts.length + 3))) (within_test _).1 fun t ht => ?_).trans (by omega)
  cases t
  swap
  · exact work_fail (by simp) _ _
  have hlen : ¬ parts.length < 2 := by simpa using ht
  have key : 1 + (1 + ((1 + (parts.length - 1) * 2) + (1 + ((1 + parts.length * 5) + ((1 + n.toNat * (2 * fuel + 2)) +
      ((1 + n.toNat * (4 + ((parts.headD []).length - 1) * (10 * parts.length ^ 2 - parts.length + 3))) + 0))))))
      ≤ 7 * parts.length + 5 + n.toNat * (2 * fuel + 6) + n.toNat * (((parts.headD []).length - 1) * (10 * parts.length ^ 2 - parts.length + 3)) := by
    rw [Nat.mul_add n.toNat 4, Nat.mul_add n.toNat (2 * fuel) 2, Nat.mul_add n.toNat (2 * fuel) 6]
    omega
  refine le_trans ?_ key
  refine work_bind_le (within_idx _ _).1 fun p hp => ?_
  have hp : p = parts.headD [] := by
    rw [out_idx, idx_eq_ok] at hp
    cases parts with
    | nil => simp at hp
    | cons a l => simpa using hp.symm
  refine work_bind_le (within_test _).1 fun t ht2 => ?_
  cases t
  swap
  · exact work_fail (by simp) _ _
  have hpl : ¬ p.length < 2 := by simpa using ht2
  refine work_bind_le (within_checkLengths _ _).1 fun _ hc => ?_
  rw [out_checkLengths, checkLengths_eq] at hc
  split at hc
  swap
  · cases hc
  rename_i hc'
  have hall : ∀ q ∈ parts, q.length = p.length := by
    cases parts with
    | nil => simp at hlen
    | cons a l =>
      intro q hq
      rcases List.mem_cons.1 hq with rfl | hq
      · rw [hp]; rfl
      · exact hc' q hq
  refine work_bind_le (within_test _).1 fun t ht2 => ?_
  cases t
  swap
  · exact work_fail (by simp) _ _
  refine work_bind_le (within_collectTags _ _ _).1 fun st hst => ?_
  obtain ⟨xs, cm⟩ := st
  have hxl : xs.length = parts.length := by
    rw [out_collectTags, collectTags_eq (by omega) hall _ (by simp)] at hst
    split at hst
    · cases hst
      simp [tags]
    · cases hst
  refine work_bind_le (m := 1 + n.toNat * (2 * fuel + 2)) ?_ fun _ _ => ?_
  · refine (work_forUp (c := 2 * fuel + 2) fun i _ st => ?_).trans (by simp [Shamir.randRead])
    obtain ⟨c, pos⟩ := st
    refine (work_bind_le (m := 1) (n := 2 * fuel + 1) (work_idx _ _) fun _ _ => ?_).trans (by omega)
    refine (work_bind_le (m := fuel * 2) (n := 1) (work_regenLoop _ _ _ _ _) fun r _ => ?_).trans (by omega)
    obtain ⟨nx, pos⟩ := r
    exact work_bind_le (m := 1) (n := 0) (work_one _) fun _ _ => work_pure _ _
  refine work_bind_le (n := 0) ?_ fun st _ => ?_
  · refine work_forUp fun k _ st => ?_
    obtain ⟨sh, ys⟩ := st
    rw [← hp]
    refine (work_bind_le (m := 1) (n := 3 + (p.length - 1) * (10 * parts.length ^ 2 - parts.length + 3)) (work_idx _ _) fun _ _ => ?_).trans (by omega)
    refine (work_bind_le (m := 1) (n := 2 + (p.length - 1) * (10 * parts.length ^ 2 - parts.length + 3)) (work_setIdx _ _ _) fun _ _ => ?_).trans (by omega)
    refine (work_bind_le (m := 1 + (p.length - 1) * (10 * parts.length ^ 2 - parts.length + 3)) (n := 1) (work_forUp fun j _ st => ?_) fun st _ => ?_).trans (by omega)
    · obtain ⟨row, ys⟩ := st
      have : (1 + parts.length * 3) + ((1 + xs.length * (10 * xs.length - 4)) + (1 + 0)) = 10 * parts.length ^ 2 - parts.length + 3 := by
        rw [hxl]
        obtain ⟨k, hk⟩ : ∃ k, parts.length = k + 1 := ⟨parts.length - 1, by omega⟩
        rw [hk]
        have e1 : 10 * (k + 1) - 4 = 10 * k + 6 := by omega
        have e2 : 10 * (k + 1) ^ 2 - (k + 1) = 10 * k ^ 2 + 19 * k + 9 := by
          have : 10 * (k + 1) ^ 2 = 10 * k ^ 2 + 19 * k + 9 + (k + 1) := by ring
          omega
        rw [e1, e2]
        ring
      rw [← this]
      exact work_bind_le (within_collectY _ _ _).1 fun _ _ => work_bind_le (within_interpolate _ _ _).1 fun _ _ =>
        work_bind_le (work_setIdx _ _ _) fun _ _ => work_pure _ _
    · obtain ⟨row, ys⟩ := st
      exact work_bind_le (m := 1) (n := 0) (work_setIdx _ _ _) fun _ _ => work_pure _ _
  · obtain ⟨sh, ys⟩ := st
    exact work_pure _ _

end Verif.Leak
