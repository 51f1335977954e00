import Verif.Proofs.Field
import Verif.Spec.Sharing

/-! # `interpolatePolynomial` is Lagrange interpolation -/

namespace Verif.Proofs
open Verif Spec Outcome Polynomial

theorem getD_getElem {l : List Byte} {i : Nat} (h : i < l.length) (d : Byte) : l.getD i d = l[i] := by
  simp [List.getD_eq_getElem?_getD, List.getElem?_eq_getElem h]

theorem idx_getD {l : List Byte} {i : Nat} (h : i < l.length) : idx l i = ok (l.getD i 0) := by
  rw [idx_ok h, getD_getElem h]

theorem nodup_ne {l : List Byte} (h : l.Nodup) {i j : Nat} (hi : i < l.length) (hj : j < l.length)
    (hne : i ≠ j) : l.getD i 0 ≠ l.getD j 0 := by
  rw [getD_getElem hi, getD_getElem hj]
  exact fun e => hne ((List.Nodup.getElem_inj_iff h).1 e)

theorem injOn_of_nodup {l : List Byte} (h : l.Nodup) :
    Set.InjOn (fun i => (⟨l.getD i 0⟩ : GF)) (Finset.range l.length : Set ℕ) := by
  intro i hi j hj e
  simp only [Finset.coe_range, Set.mem_Iio] at hi hj
  by_contra hne
  exact nodup_ne h hi hj hne (congrArg GF.val e)

theorem eval_basis (s : Finset ℕ) (v : ℕ → GF) (i : ℕ) (x : GF) :
    (Lagrange.basis s v i).eval x = ∏ j ∈ s.erase i, (x - v j) / (v i - v j) := by
  rw [Lagrange.basis, eval_prod]
  refine Finset.prod_congr rfl fun j _ => ?_
  rw [Lagrange.basisDivisor]
  simp [div_eq_mul_inv, mul_comm]

theorem interpolatePolynomial_eq {xs ys : List Byte} (hx : xs.Nodup) (hl : ys.length = xs.length) (x : Byte) :
    Shamir.interpolatePolynomial xs ys x = ok (lagrangeAt xs ys x) := by
  let v : ℕ → GF := fun i => ⟨xs.getD i 0⟩
  let w : ℕ → GF := fun i => ⟨ys.getD i 0⟩
  unfold Shamir.interpolatePolynomial
  rw [forUp_eq (fun k => (∑ i ∈ Finset.range k,
    w i * ∏ j ∈ (Finset.range xs.length).erase i, ((⟨x⟩ : GF) - v j) / (v i - v j)).val) (by simp)]
  · congr 1
    unfold lagrangeAt
    rw [Lagrange.interpolate_apply, eval_finset_sum]
    congr 1
    refine Finset.sum_congr rfl fun i _ => ?_
    rw [eval_mul, eval_C, eval_basis]
  · intro i hi
    rw [forUp_eq (fun k => (∏ j ∈ (Finset.range k).erase i, ((⟨x⟩ : GF) - v j) / (v i - v j)).val) (by simp)]
    · rw [ok_bind, idx_getD (by omega), ok_bind, mult_eq, ok_bind]
      simp only [Outcome.pure_eq, Finset.sum_range_succ]
      rfl
    · intro j hj
      by_cases hij : i = j
      · subst hij
        rw [if_pos rfl]
        have : (Finset.range (i + 1)).erase i = (Finset.range i).erase i := by
          ext k; simp only [Finset.mem_erase, Finset.mem_range]; omega
        rw [this]; rfl
      · rw [if_neg hij, idx_getD hj, ok_bind]
        simp only
        rw [idx_getD hi, ok_bind]
        have hne : Shamir.add (xs.getD i 0) (xs.getD j 0) ≠ 0 := by
          intro h
          exact nodup_ne hx hi hj hij (by simpa [Shamir.add, BitVec.xor_eq_zero_iff] using h)
        rw [div_eq hne, ok_bind, mult_eq]
        have : (Finset.range (j + 1)).erase i = insert j ((Finset.range j).erase i) := by
          ext k; simp only [Finset.mem_erase, Finset.mem_range, Finset.mem_insert]; omega
        rw [this, Finset.prod_insert (by simp), mul_comm]
        rfl

/-- Shares of polynomials of degree below their number interpolate to the polynomial. -/
theorem lagrangeAt_of_poly {xs ys : List Byte} (hx : xs.Nodup) (f : GF[X])
    (hd : f.degree < xs.length) (hy : ∀ i < xs.length, (⟨ys.getD i 0⟩ : GF) = f.eval ⟨xs.getD i 0⟩) (x : Byte) :
    lagrangeAt xs ys x = (f.eval ⟨x⟩).val := by
  unfold lagrangeAt
  congr 2
  symm
  refine Lagrange.eq_interpolate_of_eval_eq _ (injOn_of_nodup hx) (by simpa using hd) ?_
  intro i hi
  exact (hy i (by simpa using hi)).symm

end Verif.Proofs
