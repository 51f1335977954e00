import Verif.Proofs.CombineAlg

/-! # C14–C16, C19, C20: Combine -/

namespace Verif.Props
open Verif Outcome Spec Proofs Shamir Polynomial

/-- C14: `Combine` returns the error of the first violated condition; otherwise it returns, for each byte
position, the value at 0 of the interpolation polynomial through the points (tag, byte). It never panics. -/
theorem C14_combine_total (parts : List (List Byte)) :
    match combineError parts with
    | some e => combine parts = err e
    | none => ∃ secret, combine parts = ok secret ∧ (∀ p ∈ parts, p.length = secret.length + 1) ∧
        ∀ j < secret.length, secret[j]? = some (lagrangeAt (parts.map tag) (parts.map fun p => p.getD j 0) 0) := by
  unfold combineError
  have e := combine_eq parts
  by_cases h1 : parts.length < 2
  · rw [if_pos h1] at e ⊢; exact e
  rw [if_neg h1] at e ⊢
  by_cases h2 : (parts.headD []).length < 2
  · rw [if_pos h2] at e ⊢; exact e
  rw [if_neg h2] at e ⊢
  by_cases h3 : ∀ p ∈ parts, p.length = (parts.headD []).length
  · rw [if_neg (not_not.2 h3)] at e
    rw [if_neg (by push Not; exact h3)]
    by_cases h4 : (parts.map tag).Nodup
    · rw [if_neg (not_not.2 (show (tags parts).Nodup from h4))] at e
      rw [if_neg (not_not.2 h4)]
      refine ⟨_, e, ?_, ?_⟩
      · intro p hp; rw [h3 p hp]; simp only [recover, List.length_map, List.length_range]; omega
      · intro j hj
        exact recover_get parts _ (by simpa [recover] using hj)
    · rw [if_pos (show ¬ (tags parts).Nodup from h4)] at e
      rw [if_pos h4]; exact e
  · rw [if_pos h3] at e
    rw [if_pos (by push Not at h3; exact h3)]; exact e

example : combineError [[1, 2], [3, 4]] = none ∧ combineError [[1, 2], [3, 2]] = some .duplicatePart ∧
    combineError [[1, 2], [3]] = some .partLengthMismatch ∧ combineError [[1], [3]] = some .partTooShort ∧
    combineError [[1, 2]] = some .lessThanTwoParts := by decide

/-- C15: the order of the shares is irrelevant. -/
theorem C15_combine_order (p q : List (List Byte)) (h : p.Perm q) (s : List Byte) :
    combine p = ok s ↔ combine q = ok s := ⟨combine_perm h, combine_perm h.symm⟩

example : combine [[6, 2], [5, 1]] = ok [4] :=
  (C15_combine_order [[5, 1], [6, 2]] [[6, 2], [5, 1]] (List.Perm.swap _ _ _) [4]).1 (by decide +kernel)

/-- C16: two sets of at least `t` (and two) shares lying on the same polynomials of degree below `t`
combine to the same value. -/
theorem C16_qualified_sets_agree (t N : Nat) (f : Nat → GF[X]) (hf : ∀ j < N, (f j).degree < t) (hN : 0 < N)
    (p q : List (List Byte)) (hp : ∀ s ∈ p, IsShareOf f N s) (hq : ∀ s ∈ q, IsShareOf f N s)
    (np : (p.map tag).Nodup) (nq : (q.map tag).Nodup) (lp : max 2 t ≤ p.length) (lq : max 2 t ≤ q.length) :
    combine p = combine q ∧ combine p = ok ((List.range N).map fun j => ((f j).eval 0).val) := by
  have key : ∀ p : List (List Byte), (∀ s ∈ p, IsShareOf f N s) → (p.map tag).Nodup → max 2 t ≤ p.length →
      combine p = ok ((List.range N).map fun j => ((f j).eval 0).val) := by
    intro p hp np lp
    refine combine_shares (t := t) (f := f) ?_ (by simpa using hp) np (by omega) (by omega) ?_
    · intro j hj
      have hj : j < N := by simpa using hj
      refine ⟨hf j hj, ?_⟩
      apply GF.ext'
      simp [List.getD_eq_getElem?_getD, hj]
    · intro h
      have := congrArg List.length h
      simp at this; omega
  rw [key p hp np lp, key q hq nq lq]
  exact ⟨rfl, rfl⟩

/-- C16: adding further shares of the same polynomials never changes the result. -/
theorem C16_more_shares (t N : Nat) (f : Nat → GF[X]) (hf : ∀ j < N, (f j).degree < t) (hN : 0 < N)
    (p extra : List (List Byte)) (h : ∀ s ∈ p ++ extra, IsShareOf f N s)
    (hn : ((p ++ extra).map tag).Nodup) (lp : max 2 t ≤ p.length) : combine (p ++ extra) = combine p :=
  (C16_qualified_sets_agree t N f hf hN (p ++ extra) p h (fun s hs => h s (by simp [hs])) hn
    (hn.sublist (by simp)) (by simp; omega) lp).1

/-- Shares of the byte 4 with the polynomial 4 + X. -/
theorem exLine : ∀ s ∈ ([[5, 1], [6, 2], [7, 3], [0xf4, 0xf0]] : List (List Byte)),
      IsShareOf (fun _ => C ⟨4⟩ + X) 1 s := by
    intro s hs
    simp only [List.mem_cons, List.not_mem_nil, or_false] at hs
    refine ⟨by rcases hs with rfl | rfl | rfl | rfl <;> rfl, fun j hj => ?_⟩
    obtain rfl : j = 0 := by omega
    rw [eval_add, eval_C, eval_X]
    rcases hs with rfl | rfl | rfl | rfl <;> (apply GF.ext'; rfl)

example : combine [[5, 1], [6, 2]] = combine [[7, 3], [5, 1], [0xf4, 0xf0]] ∧ combine [[5, 1], [6, 2]] = ok [4] := by
  have hd : ∀ j < 1, ((fun _ => C ⟨4⟩ + X : Nat → GF[X]) j).degree < (2 : Nat) := fun _ _ =>
    lt_of_le_of_lt (degree_add_le _ _) (max_lt (lt_of_le_of_lt degree_C_le (by norm_num))
      (lt_of_le_of_lt degree_X_le (by norm_num)))
  have h := C16_qualified_sets_agree 2 1 (fun _ => C ⟨4⟩ + X) hd (by decide)
    [[5, 1], [6, 2]] [[7, 3], [5, 1], [0xf4, 0xf0]] (fun s h => exLine s (by simp at h ⊢; tauto))
    (fun s h => exLine s (by simp at h ⊢; tauto)) (by decide) (by decide) (by decide) (by decide)
  refine ⟨h.1, h.2.trans ?_⟩
  have : ((C ⟨4⟩ + X : GF[X]).eval 0).val = 4 := by rw [eval_add, eval_C, eval_X]; rfl
  simp only [List.range_one, List.map_cons, List.map_nil, this]

example : combine [[5, 1], [6, 2], [7, 3]] = combine [[5, 1], [6, 2]] := by
  have hd : ∀ j < 1, ((fun _ => C ⟨4⟩ + X : Nat → GF[X]) j).degree < (2 : Nat) := fun _ _ =>
    lt_of_le_of_lt (degree_add_le _ _) (max_lt (lt_of_le_of_lt degree_C_le (by norm_num))
      (lt_of_le_of_lt degree_X_le (by norm_num)))
  exact C16_more_shares 2 1 (fun _ => C ⟨4⟩ + X) hd (by decide) [[5, 1], [6, 2]] [[7, 3]]
    (fun s h => exLine s (by simp at h ⊢; tauto)) (by decide) (by decide)

/-- C19: byte `j` of the result depends only on the tags and on byte `j` of the shares. -/
theorem C19_bytewise (p q : List (List Byte)) (s s' : List Byte) (hp : combine p = ok s) (hq : combine q = ok s')
    (htags : p.map tag = q.map tag) (j : Nat) (hj : j < s.length) (hj' : j < s'.length)
    (hcol : p.map (fun x => x.getD j 0) = q.map (fun x => x.getD j 0)) : s[j]? = s'[j]? := by
  obtain ⟨-, rfl⟩ := combine_ok_iff.1 hp
  obtain ⟨-, rfl⟩ := combine_ok_iff.1 hq
  rw [recover_get _ _ (by simpa [recover] using hj), recover_get _ _ (by simpa [recover] using hj')]
  unfold tags column
  rw [htags, hcol]

/-- Two forged share lists that agree in byte 0 only: the results agree in byte 0. -/
example : ∃ s s', combine [[5, 8, 1], [6, 8, 2]] = ok s ∧ combine [[5, 8, 1], [6, 9, 2]] = ok s' ∧ s[0]? = s'[0]? := by
  have h : combine [[5, 8, 1], [6, 8, 2]] = ok [4, 8] := by decide +kernel
  have h' : combine [[5, 8, 1], [6, 9, 2]] = ok [4, 252] := by decide +kernel
  exact ⟨_, _, h, h', C19_bytewise _ _ _ _ h h' rfl 0 (by decide) (by decide) rfl⟩

/-- C19: changing payload byte `j` of share `k` (all other tags non-zero) raises no error, changes byte `j`
of the result and leaves all other bytes as they were. -/
theorem C19_tamper (p : List (List Byte)) (s : List Byte) (hp : combine p = ok s) (k : Nat) (hk : k < p.length)
    (htags : ∀ i, (hi : i < p.length) → i ≠ k → tag p[i] ≠ 0) (j : Nat) (hj : j < s.length) (v : Byte)
    (hv : p[k].getD j 0 ≠ v) :
    ∃ s', combine (p.set k (p[k].set j v)) = ok s' ∧ s'.length = s.length ∧ s'[j]? ≠ s[j]? ∧
      ∀ i, i ≠ j → s'[i]? = s[i]? := by
  obtain ⟨⟨h1, h2, h3, h4⟩, rfl⟩ := combine_ok_iff.1 hp
  set L := (p.headD []).length with hL
  have hjL : j < L - 1 := by simpa [recover] using hj
  have hkl : p[k].length = L := h3 _ (List.getElem_mem hk)
  have htag : tag (p[k].set j v) = tag p[k] := by
    unfold tag
    simp only [List.length_set, List.getD_eq_getElem?_getD]
    rw [List.getElem?_set_ne (by omega)]
  have ht : tags (p.set k (p[k].set j v)) = tags p := by
    unfold tags
    rw [List.map_set, htag]
    apply List.ext_getElem
    · simp
    · intro n a b
      rw [List.getElem_set]
      split
      · rename_i e; subst e; simp
      · rfl
  have hlen : ∀ x ∈ p.set k (p[k].set j v), x.length = (L - 1) + 1 := by
    intro x hx
    rcases List.mem_or_eq_of_mem_set hx with hx | rfl
    · have := h3 x hx; omega
    · simp; omega
  have hc := combine_ok (N := L - 1) (parts := p.set k (p[k].set j v)) (by simpa using h1) (by omega) hlen
    (by rw [ht]; exact h4)
  have hcol : ∀ i, i ≠ j → column (p.set k (p[k].set j v)) i = column p i := by
    intro i hi
    unfold column
    rw [List.map_set]
    have : (p[k].set j v).getD i 0 = p[k].getD i 0 := by
      simp only [List.getD_eq_getElem?_getD]
      rw [List.getElem?_set_ne (Ne.symm hi)]
    rw [this]
    apply List.ext_getElem
    · simp
    · intro n a b
      rw [List.getElem_set]
      split
      · rename_i e; subst e; simp
      · rfl
  refine ⟨_, hc, by simp [recover], ?_, ?_⟩
  · rw [recover_get _ _ hjL, recover_get _ _ hjL, ht, lagrangeAt_zero, lagrangeAt_zero]
    intro e
    have e := GF.ext' (Option.some.inj e)
    have hk' : k ∈ Finset.range (tags p).length := by simpa using hk
    rw [← Finset.add_sum_erase _ _ hk', ← Finset.add_sum_erase _ _ hk'] at e
    have hrest : ∑ i ∈ (Finset.range (tags p).length).erase k,
        (⟨(column (p.set k (p[k].set j v)) j).getD i 0⟩ : GF) * weight (tags p) i
        = ∑ i ∈ (Finset.range (tags p).length).erase k, (⟨(column p j).getD i 0⟩ : GF) * weight (tags p) i := by
      apply Finset.sum_congr rfl
      intro i hi
      simp only [Finset.mem_erase] at hi
      unfold column
      rw [List.map_set]
      simp only [List.getD_eq_getElem?_getD]
      rw [List.getElem?_set_ne (Ne.symm hi.1)]
    rw [hrest] at e
    have e := add_right_cancel e
    have hw : weight (tags p) k ≠ 0 := by
      refine weight_ne_zero h4 (by simpa using hk) ?_
      intro i hi hne
      have hi : i < p.length := by simpa using hi
      rw [getD_getElem (by simpa using hi)]
      simpa [tags] using htags i hi hne
    have e := congrArg GF.val (mul_right_cancel₀ hw e)
    apply hv
    have e1 : (column (p.set k (p[k].set j v)) j).getD k 0 = v := by
      rw [getD_getElem (by simpa using hk)]
      simp only [column, List.map_set, List.getElem_set_self, List.getD_eq_getElem?_getD]
      rw [List.getElem?_set_self (by omega)]; rfl
    have e2 : (column p j).getD k 0 = p[k].getD j 0 := by
      rw [getD_getElem (by simpa using hk)]; simp [column]
    rw [e1, e2] at e
    exact e.symm
  · intro i hi
    by_cases hiL : i < L - 1
    · rw [recover_get _ _ hiL, recover_get _ _ hiL, ht, hcol i hi]
    · rw [List.getElem?_eq_none (by simp [recover]; omega), List.getElem?_eq_none (by simp [recover]; omega)]

example : combine [[5, 1], [6, 2]] = ok [4] ∧ combine [[5, 1], [7, 2]] = ok [0xf0] := by
  constructor <;> decide +kernel

example : ∃ s', combine [[5, 8, 1], [77, 8, 2]] = ok s' ∧ s'.length = 2 ∧ s'[0]? ≠ some 4 ∧ s'[1]? = some 8 := by
  have h : combine [[5, 8, 1], [6, 8, 2]] = ok [4, 8] := by decide +kernel
  obtain ⟨s', h1, h2, h3, h4⟩ := C19_tamper _ _ h 1 (by decide) (by
    intro i hi hne
    have : i = 0 := by simp at hi; omega
    subst this; change tag [5, 8, 1] ≠ 0; decide) 0 (by decide) 77 (by decide)
  exact ⟨s', h1, h2, h3, h4 1 (by decide)⟩

/-- C20: shares are additively homomorphic: adding two share lists with equal tags adds the secrets. -/
theorem C20_homomorphic (p q : List (List Byte)) (s s' : List Byte) (hp : combine p = ok s) (hq : combine q = ok s')
    (htags : p.map tag = q.map tag) (hl : s.length = s'.length) :
    combine (List.zipWith addShares p q) = ok (List.zipWith (· ^^^ ·) s s') := by
  obtain ⟨⟨h1, h2, h3, h4⟩, es⟩ := combine_ok_iff.1 hp
  obtain ⟨⟨g1, g2, g3, g4⟩, es'⟩ := combine_ok_iff.1 hq
  have hpq : p.length = q.length := by simpa using congrArg List.length htags
  generalize hL : (p.headD []).length = L at *
  generalize hL' : (q.headD []).length = L' at *
  have hLL : L = L' := by
    have := congrArg List.length es
    have := congrArg List.length es'
    simp only [recover, List.length_map, List.length_range] at *
    omega
  subst hLL
  have hget : ∀ i, (hi : i < p.length) → (List.zipWith addShares p q)[i]? = some (addShares p[i] (q[i]'(by omega))) := by
    intro i hi
    rw [List.getElem?_zipWith, List.getElem?_eq_getElem hi, List.getElem?_eq_getElem (by omega)]
  have hsl : ∀ a b : List Byte, a.length = L → b.length = L →
      (addShares a b).length = L - 1 + 1 ∧ tag (addShares a b) = tag a ∧
      ∀ j < L - 1, (addShares a b).getD j 0 = a.getD j 0 ^^^ b.getD j 0 := by
    intro a b ha hb
    have hlz : (List.zipWith (· ^^^ ·) a.dropLast b.dropLast).length = L - 1 := by simp [ha, hb]
    refine ⟨by simp [addShares, ha, hb], ?_, ?_⟩
    · unfold addShares
      conv_lhs => rw [tag]
      rw [List.length_append, List.length_singleton, Nat.add_sub_cancel, List.getD_eq_getElem?_getD,
        List.getElem?_append_right (le_refl _)]
      simp
    · intro j hj
      unfold addShares
      rw [List.getD_eq_getElem?_getD, List.getElem?_append_left (by omega), List.getElem?_zipWith,
        List.getElem?_dropLast, List.getElem?_dropLast]
      rw [if_pos (by omega), if_pos (by omega), List.getElem?_eq_getElem (by omega),
        List.getElem?_eq_getElem (by omega), getD_getElem (by omega), getD_getElem (by omega)]
      rfl
  have hzl : (List.zipWith addShares p q).length = p.length := by simp [hpq]
  have hmem : ∀ x ∈ List.zipWith addShares p q, x.length = L - 1 + 1 := by
    intro x hx
    obtain ⟨i, hi, rfl⟩ := List.getElem_of_mem hx
    rw [List.getElem_zipWith]
    exact (hsl _ _ (h3 _ (List.getElem_mem _)) (g3 _ (List.getElem_mem _))).1
  have ht : tags (List.zipWith addShares p q) = tags p := by
    unfold tags
    apply List.ext_getElem
    · simp [hpq]
    · intro i a b
      simp only [List.getElem_map, List.getElem_zipWith]
      exact (hsl _ _ (h3 _ (List.getElem_mem _)) (g3 _ (List.getElem_mem _))).2.1
  rw [combine_ok (N := L - 1) (by omega) (by omega) hmem (by rw [ht]; exact h4)]
  congr 1
  rw [es, es']
  apply List.ext_getElem
  · simp [recover]
  · intro j a b
    have hj : j < L - 1 := by simpa [recover] using a
    simp only [recover, List.getElem_map, List.getElem_range, List.getElem_zipWith]
    have htq : tags q = tags p := htags.symm
    rw [ht, htq, lagrangeAt_zero, lagrangeAt_zero, lagrangeAt_zero]
    change _ = ((_ : GF) + (_ : GF)).val
    rw [← Finset.sum_add_distrib]
    congr 1
    apply Finset.sum_congr rfl
    intro i hi
    have hi : i < p.length := by simpa using hi
    rw [← add_mul]
    congr 1
    apply GF.ext'
    have e1 : (column (List.zipWith addShares p q) j).getD i 0 = (addShares p[i] (q[i]'(by omega))).getD j 0 := by
      rw [getD_getElem (by rw [length_column, hzl]; omega)]
      simp [column]
    have e2 : (column p j).getD i 0 = p[i].getD j 0 := by
      rw [getD_getElem (by rw [length_column]; omega)]
      simp [column]
    have e3 : (column q j).getD i 0 = (q[i]'(by omega)).getD j 0 := by
      rw [getD_getElem (by rw [length_column]; omega)]
      simp [column]
    rw [e1, e2, e3]
    exact (hsl _ _ (h3 _ (List.getElem_mem _)) (g3 _ (List.getElem_mem _))).2.2 j hj

example : combine [addShares [5, 1] [9, 1], addShares [6, 2] [4, 2]] = ok [4 ^^^ 0xf9] := by decide +kernel

example : combine [[5 ^^^ 9, 1], [6 ^^^ 4, 2]] = ok [4 ^^^ 0xf9] :=
  C20_homomorphic [[5, 1], [6, 2]] [[9, 1], [4, 2]] [4] [0xf9] (by decide +kernel) (by decide +kernel) rfl rfl

end Verif.Props
