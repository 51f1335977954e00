import Verif.Proofs.Loops

/-! # Little-endian words -/

namespace Verif.Proofs
open Verif

theorem getLsbD_foldr_le {w : Nat} (bs : List Byte) (i : Nat) (hi : i < w) :
    (bs.foldr (fun (b : Byte) (acc : BitVec w) => (acc <<< 8) ||| b.setWidth w) (0 : BitVec w)).getLsbD i
      = (bs.getD (i / 8) 0).getLsbD (i % 8) := by
  induction bs generalizing i with
  | nil => simp
  | cons b bs ih =>
    rw [List.foldr_cons, BitVec.getLsbD_or, BitVec.getLsbD_shiftLeft, BitVec.getLsbD_setWidth]
    by_cases h : i < 8
    · have h1 : i / 8 = 0 := by omega
      have h2 : i % 8 = i := by omega
      simp [h, h1, h2, hi]
    · have h1 : i / 8 = (i - 8) / 8 + 1 := by omega
      have h2 : i % 8 = (i - 8) % 8 := by omega
      rw [ih (i - 8) (by omega), h1, h2, List.getD_cons_succ]
      have : b.getLsbD i = false := BitVec.getLsbD_of_ge _ _ (by omega)
      simp [h, this, hi]

theorem leUint64_bit (bs : List Byte) (i : Nat) (hi : i < 64) :
    (leUint64 bs).getLsbD i = (bs.getD (i / 8) 0).getLsbD (i % 8) := getLsbD_foldr_le bs i hi

theorem leUint32_bit (bs : List Byte) (i : Nat) (hi : i < 32) :
    (leUint32 bs).getLsbD i = (bs.getD (i / 8) 0).getLsbD (i % 8) := getLsbD_foldr_le bs i hi

theorem byte_of_word {w : Nat} (v : BitVec w) (b : Byte) (k : Nat)
    (h : ∀ j < 8, v.getLsbD (8 * k + j) = b.getLsbD j) : (v >>> (8 * k)).setWidth 8 = b := by
  apply BitVec.eq_of_getLsbD_eq
  intro j hj
  rw [BitVec.getLsbD_setWidth, BitVec.getLsbD_ushiftRight, h j hj]
  simp [hj]

/-- xoring words is xoring bytes -/
theorem lePutUint64_xor {x y : List Byte} (hx : x.length = 8) (hy : y.length = 8) :
    lePutUint64 (leUint64 x ^^^ leUint64 y) = List.zipWith (· ^^^ ·) x y := by
  unfold lePutUint64
  apply List.ext_getElem
  · simp [hx, hy]
  · intro k h1 h2
    simp only [List.length_map, List.length_range] at h1
    simp only [List.getElem_map, List.getElem_range, List.getElem_zipWith]
    apply byte_of_word
    intro j hj
    rw [BitVec.getLsbD_xor, leUint64_bit _ _ (by omega), leUint64_bit _ _ (by omega), BitVec.getLsbD_xor]
    have e1 : (8 * k + j) / 8 = k := by omega
    have e2 : (8 * k + j) % 8 = j := by omega
    rw [e1, e2]
    have k1 : k < x.length := by omega
    have k2 : k < y.length := by omega
    simp [List.getD_eq_getElem?_getD, List.getElem?_eq_getElem k1, List.getElem?_eq_getElem k2]

theorem leUint32_put (w : BitVec 32) : leUint32 (lePutUint32 w) = w := by
  apply BitVec.eq_of_getLsbD_eq
  intro i hi
  rw [leUint32_bit _ _ hi]
  have : i / 8 < 4 := by omega
  simp only [lePutUint32, List.getD_eq_getElem?_getD, List.getElem?_map, List.getElem?_range this,
    Option.map_some, Option.getD_some, BitVec.getLsbD_setWidth, BitVec.getLsbD_ushiftRight]
  have : 8 * (i / 8) + i % 8 = i := by omega
  rw [this]
  have : i % 8 < 8 := by omega
  simp [this]

end Verif.Proofs
