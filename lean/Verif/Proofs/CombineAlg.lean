import Verif.Proofs.Combine

/-! # Algebra of Combine: order, linearity, tampering -/

namespace Verif.Proofs
open Verif Spec Outcome Polynomial Shamir

theorem combine_ok_iff {parts : List (List Byte)} {s : List Byte} :
    combine parts = ok s ↔ (2 ≤ parts.length ∧ 2 ≤ (parts.headD []).length ∧
      (∀ p ∈ parts, p.length = (parts.headD []).length) ∧ (tags parts).Nodup) ∧
      s = recover parts ((parts.headD []).length - 1) := by
  rw [combine_eq]
  constructor
  · intro h
    split at h <;> [skip; split at h <;> [skip; split at h <;> [skip; split at h]]] <;> try cases h
    rename_i h1 h2 h3 h4
    exact ⟨⟨by omega, by omega, not_not.1 h3, not_not.1 h4⟩, rfl⟩
  · rintro ⟨⟨h1, h2, h3, h4⟩, rfl⟩
    rw [if_neg (by omega), if_neg (by omega), if_neg (not_not.2 h3), if_neg (not_not.2 h4)]

/-- the interpolating polynomial of byte `j` -/
noncomputable def interp (parts : List (List Byte)) (j : Nat) : GF[X] :=
  Lagrange.interpolate (Finset.range (tags parts).length) (fun i => (⟨(tags parts).getD i 0⟩ : GF))
    (fun i => (⟨(column parts j).getD i 0⟩ : GF))

theorem interp_degree {parts : List (List Byte)} (hn : (tags parts).Nodup) (j : Nat) :
    (interp parts j).degree < parts.length := by
  have := Lagrange.degree_interpolate_lt (r := fun i => (⟨(column parts j).getD i 0⟩ : GF)) (injOn_of_nodup hn)
  rw [Finset.card_range, length_tags] at this
  unfold interp
  rw [length_tags]
  exact this

theorem interp_eval {parts : List (List Byte)} (hn : (tags parts).Nodup) (j : Nat) {p : List Byte} (hp : p ∈ parts) :
    (interp parts j).eval ⟨tag p⟩ = ⟨p.getD j 0⟩ := by
  obtain ⟨i, hi, rfl⟩ := List.getElem_of_mem hp
  have := Lagrange.eval_interpolate_at_node (r := fun i => (⟨(column parts j).getD i 0⟩ : GF))
    (injOn_of_nodup hn) (i := i) (by simpa using hi)
  have e1 : (tags parts).getD i 0 = tag parts[i] := by
    rw [getD_getElem (by simpa using hi)]; simp [tags]
  have e2 : (column parts j).getD i 0 = parts[i].getD j 0 := by
    rw [getD_getElem (by simpa using hi)]; simp [column]
  rw [e1, e2] at this
  exact this

/-- recovering byte `j` = evaluating at 0 any polynomial of small degree through the points -/
theorem recover_of_poly {parts : List (List Byte)} (hn : (tags parts).Nodup) (f : Nat → GF[X]) {N : Nat}
    (hd : ∀ j < N, (f j).degree < parts.length)
    (hf : ∀ j < N, ∀ p ∈ parts, (f j).eval ⟨tag p⟩ = ⟨p.getD j 0⟩) :
    recover parts N = (List.range N).map fun j => ((f j).eval 0).val := by
  unfold recover
  apply List.map_congr_left
  intro j hj
  have hj : j < N := by simpa using hj
  rw [lagrangeAt_of_poly hn (f j) (by simpa using hd j hj)]
  · rfl
  · intro i hi
    have hi : i < parts.length := by simpa using hi
    have := hf j hj _ (List.getElem_mem hi)
    rw [getD_getElem (by simpa using hi), getD_getElem (by simpa using hi)]
    simpa [column, tags] using this.symm

theorem recover_interp {parts : List (List Byte)} (hn : (tags parts).Nodup) (N : Nat) :
    recover parts N = (List.range N).map fun j => ((interp parts j).eval 0).val :=
  recover_of_poly hn (interp parts) (fun j _ => interp_degree hn j) (fun j _ _ hp => interp_eval hn j hp)

theorem headD_mem {parts : List (List Byte)} (h : 2 ≤ parts.length) : parts.headD [] ∈ parts := by
  cases parts with
  | nil => simp at h
  | cons a b => simp

theorem combine_perm {p q : List (List Byte)} (hpq : p.Perm q) {s : List Byte} (h : combine p = ok s) :
    combine q = ok s := by
  obtain ⟨⟨h1, h2, h3, h4⟩, rfl⟩ := combine_ok_iff.1 h
  have hq1 : 2 ≤ q.length := by rw [← hpq.length_eq]; exact h1
  have hh : (q.headD []).length = (p.headD []).length := h3 _ (hpq.mem_iff.2 (headD_mem hq1))
  have hn : (tags q).Nodup := (hpq.map tag).nodup_iff.1 h4
  rw [combine_ok_iff]
  refine ⟨⟨hq1, by omega, fun x hx => by rw [hh]; exact h3 x (hpq.mem_iff.2 hx), hn⟩, ?_⟩
  rw [hh, recover_interp h4, recover_of_poly hn (interp p)]
  · intro j _; rw [← hpq.length_eq]; exact interp_degree h4 j
  · intro j _ x hx; exact interp_eval h4 j (hpq.mem_iff.2 hx)

/-- the value at 0 of the i-th basis polynomial of the tags -/
noncomputable def weight (xs : List Byte) (i : Nat) : GF :=
  (Lagrange.basis (Finset.range xs.length) (fun i => (⟨xs.getD i 0⟩ : GF)) i).eval 0

theorem lagrangeAt_zero (xs ys : List Byte) :
    lagrangeAt xs ys 0 = (∑ i ∈ Finset.range xs.length, (⟨ys.getD i 0⟩ : GF) * weight xs i).val := by
  unfold lagrangeAt weight
  congr 1
  change Polynomial.eval 0 _ = _
  rw [Lagrange.interpolate_apply, eval_finsetSum]
  simp

theorem weight_ne_zero {xs : List Byte} (hn : xs.Nodup) {k : Nat} (hk : k < xs.length)
    (h0 : ∀ i < xs.length, i ≠ k → xs.getD i 0 ≠ 0) : weight xs k ≠ 0 := by
  unfold weight
  rw [Lagrange.basis, eval_prod, Finset.prod_ne_zero_iff]
  intro j hj
  simp only [Finset.mem_erase, Finset.mem_range] at hj
  rw [Lagrange.basisDivisor, eval_mul, eval_C, eval_sub, eval_X, eval_C]
  refine mul_ne_zero (inv_ne_zero ?_) ?_
  · intro h
    exact nodup_ne hn hk hj.2 (Ne.symm hj.1) (congrArg GF.val (sub_eq_zero.1 h))
  · intro h
    exact h0 j hj.2 hj.1 (congrArg GF.val (sub_eq_zero.1 h)).symm

theorem recover_get (parts : List (List Byte)) (N : Nat) {j : Nat} (hj : j < N) :
    (recover parts N)[j]? = some (lagrangeAt (tags parts) (column parts j) 0) := by
  unfold recover; simp [hj]

end Verif.Proofs
