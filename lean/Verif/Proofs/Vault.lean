import Verif.Spec.Vault
import Verif.Proofs.CombineAlg
import Mathlib.FieldTheory.Finite.Basic

/-! # The field of AES and the field of /repo -/

namespace Verif.Proofs
open Verif Spec Outcome Polynomial Shamir

namespace Vault
open Spec.Vault

theorem convert_convert : ∀ a : Byte, convert (convert a) = a := by decide +kernel

theorem convert_zero : convert 0#8 = 0#8 := by decide
theorem convert_one : convert 1#8 = 1#8 := by decide

theorem convert_xtime : ∀ a : Byte, convert (Aes.xtime a) = mulSpec 3#8 (convert a) := by decide +kernel

theorem convert_xor (a b : Byte) : convert (a ^^^ b) = convert a ^^^ convert b := by
  unfold convert
  simp only [List.range, List.range.loop, List.foldl_cons, List.foldl_nil, BitVec.getLsbD_xor]
  generalize a.getLsbD 0 = a0; generalize a.getLsbD 1 = a1; generalize a.getLsbD 2 = a2; generalize a.getLsbD 3 = a3
  generalize a.getLsbD 4 = a4; generalize a.getLsbD 5 = a5; generalize a.getLsbD 6 = a6; generalize a.getLsbD 7 = a7
  generalize b.getLsbD 0 = b0; generalize b.getLsbD 1 = b1; generalize b.getLsbD 2 = b2; generalize b.getLsbD 3 = b3
  generalize b.getLsbD 4 = b4; generalize b.getLsbD 5 = b5; generalize b.getLsbD 6 = b6; generalize b.getLsbD 7 = b7
  have key : ∀ (p q : Bool) (x y c : Byte), (if (p ^^ q) = true then (x ^^^ y) ^^^ c else x ^^^ y) =
      (if p = true then x ^^^ c else x) ^^^ (if q = true then y ^^^ c else y) := by
    intro p q x y c
    cases p <;> cases q <;> simp
    · ac_rfl
    · ac_rfl
    · rw [show x ^^^ c ^^^ (y ^^^ c) = x ^^^ y ^^^ (c ^^^ c) by ac_rfl, BitVec.xor_self, BitVec.xor_zero]
  have z : (0#8 : Byte) = 0#8 ^^^ 0#8 := by decide
  conv_lhs => rw [z]
  simp only [key]

/-- `convert` as a map to the field of /repo. -/
def toGF (a : Byte) : GF := ⟨convert a⟩

theorem toGF_xor (a b : Byte) : toGF (a ^^^ b) = toGF a + toGF b := GF.ext' (convert_xor a b)
theorem toGF_zero : toGF 0#8 = 0 := GF.ext' convert_zero
theorem toGF_injective : Function.Injective toGF := fun a b h => by
  have := congrArg GF.val h
  have e : convert a = convert b := this
  rw [← convert_convert a, e, convert_convert]

theorem toGF_xtime (i : Nat) (a : Byte) : toGF (Aes.xtime^[i] a) = (⟨3#8⟩ : GF) ^ i * toGF a := by
  induction i with
  | zero => simp
  | succ i ih =>
    rw [Function.iterate_succ', Function.comp, pow_succ', mul_assoc, ← ih]
    exact GF.ext' (convert_xtime _)

theorem bits_sum (b : Byte) : toGF b = ((List.range 8).map fun i => if b.getLsbD i then (⟨3#8⟩ : GF) ^ i else 0).sum := by
  have p : ∀ i < 8, (⟨[0x01#8, 0x03#8, 0x05#8, 0x0f#8, 0x11#8, 0x33#8, 0x55#8, 0xff#8].getD i 0⟩ : GF) = ⟨3#8⟩ ^ i := by
    intro i
    induction i with
    | zero => intro _; rfl
    | succ i ih =>
      intro h
      rw [pow_succ', ← ih (by omega)]
      apply GF.ext'
      rw [GF.val_mul]
      have : i < 7 := by omega
      interval_cases i <;> decide
  have key : ∀ (l : List Nat), (∀ i ∈ l, i < 8) → ∀ acc : Byte,
      (⟨l.foldl (fun acc i => if b.getLsbD i then
        acc ^^^ [0x01#8, 0x03#8, 0x05#8, 0x0f#8, 0x11#8, 0x33#8, 0x55#8, 0xff#8].getD i 0 else acc) acc⟩ : GF)
        = ⟨acc⟩ + (l.map fun i => if b.getLsbD i then (⟨3#8⟩ : GF) ^ i else 0).sum := by
    intro l
    induction l with
    | nil => intro _ acc; simp
    | cons i l ih =>
      intro hl acc
      rw [List.foldl_cons, ih (fun j hj => hl j (by simp [hj])), List.map_cons, List.sum_cons]
      split
      · rw [← p i (hl i (by simp)), ← add_assoc]; rfl
      · rw [zero_add]
  have := key (List.range 8) (by simp) 0#8
  rw [show (⟨0#8⟩ : GF) = 0 from rfl, zero_add] at this
  exact this

theorem toGF_mul (a b : Byte) : toGF (Aes.mul a b) = toGF a * toGF b := by
  have key : ∀ (l : List Nat) (acc : Byte),
      toGF (l.foldl (fun acc i => if b.getLsbD i then acc ^^^ Aes.xtime^[i] a else acc) acc)
        = toGF acc + toGF a * (l.map fun i => if b.getLsbD i then (⟨3#8⟩ : GF) ^ i else 0).sum := by
    intro l
    induction l with
    | nil => intro acc; simp
    | cons i l ih =>
      intro acc
      rw [List.foldl_cons, ih, List.map_cons, List.sum_cons]
      split
      · rw [toGF_xor, toGF_xtime]; ring
      · ring
  unfold Aes.mul
  rw [key, toGF_zero, zero_add, ← bits_sum]

theorem toGF_evalAes (cs : List Byte) (x : Byte) :
    toGF (evalAes cs x) = (ofCoeffs (cs.map convert)).eval (toGF x) := by
  induction cs with
  | nil => simp [evalAes, ofCoeffs, toGF_zero]
  | cons c cs ih =>
    rw [evalAes, toGF_xor, toGF_mul, ih]
    unfold ofCoeffs
    rw [eval_finsetSum, eval_finsetSum, List.map_cons, List.length_cons, Finset.sum_range_succ', Finset.sum_mul, add_comm]
    congr 1
    · refine Finset.sum_congr rfl fun i _ => ?_
      simp [pow_succ, mul_assoc]
    · simp [toGF]

theorem evalC_map (cs : List Byte) (x : Byte) : evalC (cs.map convert) (convert x) = convert (evalAes cs x) := by
  unfold evalC
  have := toGF_evalAes cs x
  exact congrArg GF.val this.symm

theorem share_convert (rows : List (List Byte)) (x : Byte) :
    (share rows x).map convert = shareOf (rows.map (List.map convert)) (convert x) := by
  unfold share shareOf
  rw [List.map_append, List.map_map, List.map_map]
  congr 1
  refine List.map_congr_left fun cs _ => ?_
  exact (evalC_map cs x).symm

end Vault
end Verif.Proofs
