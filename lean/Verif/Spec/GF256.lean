import Verif.Basic
import Mathlib.RingTheory.AdjoinRoot
import Mathlib.Algebra.Field.ZMod
import Mathlib.Algebra.CharP.Two
import Mathlib.Algebra.CharP.Algebra
import Mathlib.Tactic.Ring
import Mathlib.Tactic.FinCases
import Mathlib.Algebra.Polynomial.Degree.Lemmas
import Mathlib.Tactic.ComputeDegree

/-!
# Specification: the field GF(2^8) = GF(2)[x] / (x^8 + x^4 + x^3 + x^2 + 1)

Independent of every table and function of /repo.  `mulSpec` is the textbook shift-and-xor
multiplication; `polyOf_mulSpec` says that it is polynomial multiplication modulo the polynomial
0x11d, and `GF` is the resulting field, on which Mathlib's theory of polynomials and of Lagrange
interpolation is available.
-/

namespace Verif.Spec
open Verif Polynomial

/-- Multiplication by `x` modulo `x^8 + x^4 + x^3 + x^2 + 1`. -/
def xtime (a : Byte) : Byte := (a <<< 1) ^^^ (if a.getLsbD 7 then 0x1d#8 else 0#8)

/-- `x^i * a`. -/
def xpow : Nat → Byte → Byte
  | 0, a => a
  | i + 1, a => xtime (xpow i a)

/-- Product in GF(2^8): the sum (xor) of the `x^i * a` over the bits `i` set in `b`. -/
def mulSpec (a b : Byte) : Byte :=
  (List.range 8).foldl (fun acc i => if b.getLsbD i then acc ^^^ xpow i a else acc) 0#8

/-- The polynomial over GF(2) whose coefficients are the bits of `a`. -/
noncomputable def polyOf (a : Byte) : (ZMod 2)[X] :=
  ∑ i ∈ Finset.range 8, if a.getLsbD i then X ^ i else 0

/-- x^8 + x^4 + x^3 + x^2 + 1 -/
noncomputable def modPoly : (ZMod 2)[X] := X ^ 8 + X ^ 4 + X ^ 3 + X ^ 2 + 1

theorem modPoly_natDegree : modPoly.natDegree = 8 := by
  unfold modPoly; compute_degree!

theorem modPoly_monic : modPoly.Monic := by
  unfold modPoly; monicity!

theorem polyOf_xor (a b : Byte) : polyOf (a ^^^ b) = polyOf a + polyOf b := by
  unfold polyOf
  rw [← Finset.sum_add_distrib]
  refine Finset.sum_congr rfl fun i _ => ?_
  rw [BitVec.getLsbD_xor]
  cases a.getLsbD i <;> cases b.getLsbD i <;> simp [CharTwo.add_self_eq_zero]

@[simp] theorem polyOf_zero : polyOf 0#8 = 0 := by simp [polyOf]

theorem polyOf_one : polyOf 1#8 = 1 := by
  unfold polyOf
  rw [Finset.sum_eq_single 0]
  · simp
  · intro i hi h0
    have : i < 8 := by simpa using hi
    interval_cases i <;> simp_all
  · simp

theorem xtime_bits : ∀ a : Byte,
    (xtime a).getLsbD 0 = a.getLsbD 7 ∧ (xtime a).getLsbD 1 = a.getLsbD 0 ∧
    (xtime a).getLsbD 2 = (a.getLsbD 1 ^^ a.getLsbD 7) ∧
    (xtime a).getLsbD 3 = (a.getLsbD 2 ^^ a.getLsbD 7) ∧
    (xtime a).getLsbD 4 = (a.getLsbD 3 ^^ a.getLsbD 7) ∧ (xtime a).getLsbD 5 = a.getLsbD 4 ∧
    (xtime a).getLsbD 6 = a.getLsbD 5 ∧ (xtime a).getLsbD 7 = a.getLsbD 6 := by
  decide +kernel

theorem ite_xor_two (b c : Bool) (p : (ZMod 2)[X]) :
    (if (b ^^ c) = true then p else 0) = (if b = true then p else 0) + (if c = true then p else 0) := by
  cases b <;> cases c <;> simp [CharTwo.add_self_eq_zero]

/-- `xtime` multiplies by `X`, up to a multiple of the modulus. -/
theorem polyOf_xtime (a : Byte) :
    polyOf (xtime a) = X * polyOf a + modPoly * (if a.getLsbD 7 then 1 else 0) := by
  obtain ⟨h0, h1, h2, h3, h4, h5, h6, h7⟩ := xtime_bits a
  have h2' : (2 : (ZMod 2)[X]) = 0 := CharTwo.two_eq_zero
  simp only [polyOf, Finset.sum_range_succ, Finset.sum_range_zero, h0, h1, h2, h3, h4, h5, h6, h7,
    ite_xor_two, modPoly]
  have e : ∀ (b : Bool) (p : (ZMod 2)[X]), (if b = true then p else 0) = (if b = true then 1 else 0) * p := by
    intro b p; cases b <;> simp
  simp only [e _ (X ^ _)]
  generalize (if a.getLsbD 7 = true then (1 : (ZMod 2)[X]) else 0) = b7
  linear_combination (-(b7 * X ^ 8)) * h2'

/-- The ring GF(2)[x]/(x^8+x^4+x^3+x^2+1). -/
abbrev Quot8 := AdjoinRoot modPoly

/-- The residue class a byte stands for. -/
noncomputable def cls (a : Byte) : Quot8 := AdjoinRoot.mk modPoly (polyOf a)

theorem cls_xor (a b : Byte) : cls (a ^^^ b) = cls a + cls b := by
  simp [cls, polyOf_xor]

@[simp] theorem cls_zero : cls 0#8 = 0 := by simp [cls]
@[simp] theorem cls_one : cls 1#8 = 1 := by simp [cls, polyOf_one]

theorem cls_xtime (a : Byte) : cls (xtime a) = AdjoinRoot.root modPoly * cls a := by
  unfold cls
  rw [polyOf_xtime, map_add, map_mul, map_mul, AdjoinRoot.mk_X, AdjoinRoot.mk_self, zero_mul, add_zero]

theorem cls_xpow (i : Nat) (a : Byte) : cls (xpow i a) = AdjoinRoot.root modPoly ^ i * cls a := by
  induction i with
  | zero => simp [xpow]
  | succ n ih => rw [xpow, cls_xtime, ih]; ring

theorem cls_eq_sum (b : Byte) :
    cls b = ∑ i ∈ Finset.range 8, if b.getLsbD i then AdjoinRoot.root modPoly ^ i else 0 := by
  unfold cls polyOf
  rw [map_sum]
  refine Finset.sum_congr rfl fun i _ => ?_
  split <;> simp

theorem cls_mulSpec (a b : Byte) : cls (mulSpec a b) = cls a * cls b := by
  have key : ∀ (l : List Nat) (acc : Byte),
      cls (l.foldl (fun acc i => if b.getLsbD i then acc ^^^ xpow i a else acc) acc)
        = cls acc + (l.map fun i => if b.getLsbD i then AdjoinRoot.root modPoly ^ i * cls a else 0).sum := by
    intro l
    induction l with
    | nil => intro acc; simp
    | cons i l ih =>
      intro acc
      rw [List.foldl_cons, ih, List.map_cons, List.sum_cons]
      split
      · rw [cls_xor, cls_xpow]; ring
      · ring
  unfold mulSpec
  rw [key, cls_zero, zero_add, cls_eq_sum b, Finset.mul_sum]
  simp only [Finset.sum_range_succ, Finset.sum_range_zero, List.range, List.range.loop, List.map_cons,
    List.map_nil, List.sum_cons, List.sum_nil]
  have e : ∀ i, (cls a * if b.getLsbD i = true then AdjoinRoot.root modPoly ^ i else 0)
      = if b.getLsbD i = true then AdjoinRoot.root modPoly ^ i * cls a else 0 := by
    intro i; split <;> ring
  simp only [e]
  ring

theorem polyOf_degree_lt (a : Byte) : (polyOf a).degree < 8 := by
  unfold polyOf
  refine (degree_sum_le _ _).trans_lt ?_
  rw [Finset.sup_lt_iff (by exact WithBot.bot_lt_coe 8)]
  intro i hi
  have hi : i < 8 := by simpa using hi
  split
  · rw [degree_X_pow]; exact_mod_cast hi
  · rw [degree_zero]; exact WithBot.bot_lt_coe 8

theorem polyOf_coeff (a : Byte) (i : Nat) (hi : i < 8) :
    (polyOf a).coeff i = if a.getLsbD i then 1 else 0 := by
  unfold polyOf
  rw [finsetSum_coeff]
  rw [Finset.sum_eq_single i]
  · split <;> simp
  · intro j _ hj
    split
    · rw [coeff_X_pow, if_neg (Ne.symm hj)]
    · simp
  · intro h; exact absurd (Finset.mem_range.2 hi) h

theorem polyOf_injective : Function.Injective polyOf := by
  intro a b h
  apply BitVec.eq_of_getLsbD_eq
  intro i hi
  have := congrArg (fun p => coeff p i) h
  simp only [polyOf_coeff _ _ hi] at this
  revert this
  cases a.getLsbD i <;> cases b.getLsbD i <;> simp

/-- **Meaning of `mulSpec`**: multiplication of polynomials over GF(2) modulo x^8+x^4+x^3+x^2+1. -/
theorem polyOf_mulSpec (a b : Byte) : polyOf (mulSpec a b) = (polyOf a * polyOf b) %ₘ modPoly := by
  have h : AdjoinRoot.mk modPoly (polyOf (mulSpec a b)) = AdjoinRoot.mk modPoly (polyOf a * polyOf b) := by
    rw [map_mul]; exact cls_mulSpec a b
  rw [AdjoinRoot.mk_eq_mk] at h
  have hd : (polyOf (mulSpec a b)).degree < modPoly.degree := by
    rw [degree_eq_natDegree modPoly_monic.ne_zero, modPoly_natDegree]
    exact polyOf_degree_lt _
  rw [← (modByMonic_eq_self_iff modPoly_monic).2 hd]
  exact (modByMonic_eq_of_dvd_sub modPoly_monic h)

theorem cls_injective : Function.Injective cls := by
  intro a b h
  apply polyOf_injective
  unfold cls at h
  rw [AdjoinRoot.mk_eq_mk] at h
  have hd : ∀ a, (polyOf a).degree < modPoly.degree := by
    intro a
    rw [degree_eq_natDegree modPoly_monic.ne_zero, modPoly_natDegree]
    exact polyOf_degree_lt _
  rw [← (modByMonic_eq_self_iff modPoly_monic).2 (hd a), ← (modByMonic_eq_self_iff modPoly_monic).2 (hd b)]
  exact (modByMonic_eq_of_dvd_sub modPoly_monic h)

/-- The field with 256 elements; its elements are bytes. -/
structure GF where
  val : Byte
  deriving DecidableEq

namespace GF

theorem ext' {a b : GF} (h : a.val = b.val) : a = b := by cases a; cases b; simp_all

/-- GF(2^8) and bytes are the same thing. -/
def equiv : GF ≃ Byte := ⟨GF.val, GF.mk, fun _ => rfl, fun _ => rfl⟩

/-- a^254 = a^2 * a^4 * ... * a^128, the inverse of a. -/
def invSpec (a : Byte) : Byte :=
  (List.range 7).foldl (fun (p : Byte × Byte) _ => (mulSpec p.1 p.1, mulSpec p.2 (mulSpec p.1 p.1)))
    (a, 1#8) |>.2

instance : Zero GF := ⟨⟨0#8⟩⟩
instance : One GF := ⟨⟨1#8⟩⟩
instance : Add GF := ⟨fun a b => ⟨a.val ^^^ b.val⟩⟩
instance : Neg GF := ⟨fun a => a⟩
instance : Sub GF := ⟨fun a b => ⟨a.val ^^^ b.val⟩⟩
instance : Mul GF := ⟨fun a b => ⟨mulSpec a.val b.val⟩⟩
instance : SMul ℕ GF := ⟨nsmulRec⟩
instance : SMul ℤ GF := ⟨zsmulRec⟩
instance : Pow GF ℕ := ⟨fun a n => npowRec n a⟩
instance : NatCast GF := ⟨Nat.unaryCast⟩
instance : IntCast GF := ⟨Int.castDef⟩
instance : Inv GF := ⟨fun a => ⟨if a.val = 0#8 then 0#8 else invSpec a.val⟩⟩

@[simp] theorem val_zero : (0 : GF).val = 0#8 := rfl
@[simp] theorem val_one : (1 : GF).val = 1#8 := rfl
@[simp] theorem val_add (a b : GF) : (a + b).val = a.val ^^^ b.val := rfl
@[simp] theorem val_sub (a b : GF) : (a - b).val = a.val ^^^ b.val := rfl
@[simp] theorem val_neg (a : GF) : (-a).val = a.val := rfl
@[simp] theorem val_mul (a b : GF) : (a * b).val = mulSpec a.val b.val := rfl

noncomputable def toQuot (a : GF) : Quot8 := cls a.val

theorem toQuot_injective : Function.Injective toQuot := fun _ _ h => ext' (cls_injective h)

instance : CharP Quot8 2 := by
  have : Nontrivial Quot8 := by
    refine AdjoinRoot.nontrivial _ ?_
    rw [degree_eq_natDegree modPoly_monic.ne_zero, modPoly_natDegree]; decide
  exact charP_of_injective_algebraMap (algebraMap (ZMod 2) Quot8).injective 2

private theorem tq_nsmul (n : ℕ) (x : GF) : toQuot (n • x) = n • toQuot x := by
  change toQuot (nsmulRec n x) = _
  induction n with
  | zero => simp [nsmulRec, toQuot]
  | succ n ih =>
    have : toQuot (nsmulRec n x + x) = toQuot (nsmulRec n x) + toQuot x := cls_xor _ _
    rw [nsmulRec, this, ih, succ_nsmul]

private theorem tq_neg (x : GF) : toQuot (-x) = -toQuot x := (CharTwo.neg_eq _).symm

private theorem tq_zsmul (n : ℤ) (x : GF) : toQuot (n • x) = n • toQuot x := by
  change toQuot (zsmulRec nsmulRec n x) = _
  cases n with
  | ofNat n =>
    rw [zsmulRec]
    exact (tq_nsmul n x).trans (natCast_zsmul _ _).symm
  | negSucc n =>
    rw [zsmulRec, tq_neg, negSucc_zsmul]
    congr 1
    exact tq_nsmul (n + 1) x

private theorem tq_pow (x : GF) (n : ℕ) : toQuot (x ^ n) = toQuot x ^ n := by
  change toQuot (npowRec n x) = _
  induction n with
  | zero => simp [npowRec, toQuot]
  | succ n ih =>
    have : toQuot (npowRec n x * x) = toQuot (npowRec n x) * toQuot x := cls_mulSpec _ _
    rw [npowRec, this, ih, pow_succ]

private theorem tq_natCast (n : ℕ) : toQuot (n : GF) = (n : Quot8) := by
  change toQuot (Nat.unaryCast n) = _
  induction n with
  | zero => simp [Nat.unaryCast, toQuot]
  | succ n ih =>
    have : toQuot (Nat.unaryCast n + 1) = toQuot (Nat.unaryCast n) + toQuot 1 := cls_xor _ _
    rw [Nat.unaryCast, this, ih, Nat.cast_succ]; simp [toQuot]

private theorem tq_intCast (n : ℤ) : toQuot (n : GF) = (n : Quot8) := by
  change toQuot (Int.castDef n) = _
  cases n with
  | ofNat n => rw [Int.castDef]; simpa using tq_natCast n
  | negSucc n => rw [Int.castDef, tq_neg, tq_natCast]; simp

noncomputable instance : CommRing GF :=
  Function.Injective.commRing toQuot toQuot_injective (by simp [toQuot]) (by simp [toQuot])
    (fun a b => cls_xor _ _) (fun a b => cls_mulSpec _ _) tq_neg
    (fun a b => (cls_xor _ _).trans (CharTwo.sub_eq_add _ _).symm)
    tq_nsmul tq_zsmul tq_pow tq_natCast tq_intCast

theorem mul_inv_check : ∀ a : Byte, a ≠ 0#8 → mulSpec a (invSpec a) = 1#8 := by
  decide +kernel

noncomputable instance : Field GF where
  exists_pair_ne := ⟨0, 1, by intro h; have := congrArg GF.val h; revert this; decide⟩
  mul_inv_cancel a ha := by
    have : a.val ≠ 0#8 := fun h => ha (ext' h)
    apply ext'
    change mulSpec a.val (if a.val = 0#8 then 0#8 else invSpec a.val) = 1#8
    rw [if_neg this]
    exact mul_inv_check _ this
  inv_zero := by
    apply ext'
    change (if (0#8 : Byte) = 0#8 then 0#8 else invSpec 0#8) = 0#8
    simp
  nnqsmul := _
  nnqsmul_def := fun _ _ => rfl
  qsmul := _
  qsmul_def := fun _ _ => rfl

instance : Fintype GF := Fintype.ofEquiv (Fin 256) ⟨fun i => ⟨⟨i⟩⟩, fun a => a.val.toFin, fun _ => rfl, fun _ => rfl⟩

theorem card : Fintype.card GF = 256 := by
  rw [Fintype.card_congr (⟨fun a => a.val.toFin, fun i => ⟨⟨i⟩⟩, fun _ => rfl, fun _ => rfl⟩ : GF ≃ Fin 256)]; simp

instance : CharP GF 2 := CharTwo.of_one_ne_zero_of_two_eq_zero one_ne_zero (by
  apply ext'; rw [← one_add_one_eq_two]; rfl)

end GF
end Verif.Spec
