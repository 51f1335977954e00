import Verif.Proofs.Tables
import Verif.Proofs.Loops

/-! # Scalar arithmetic of galois.go and polynomial.go in GF(2^8) -/

namespace Verif.Proofs
open Verif Spec Outcome

theorem gf_eta (a : GF) : (⟨a.val⟩ : GF) = a := rfl

theorem gf_mk_eq_zero {a : Byte} : (⟨a⟩ : GF) = 0 ↔ a = 0 :=
  ⟨fun h => congrArg GF.val h, fun h => by subst h; rfl⟩

theorem idxInt_nonneg {α : Type} (l : List α) (n : Nat) : idxInt l (n : Int) = idx l n := by
  simp [idxInt]

theorem idxInt_neg {α : Type} (l : List α) {i : Int} (h : i < 0) : idxInt l i = panic := by
  simp [idxInt, h]

theorem lookup_exp {log exp : List Nat} (h : checkLogExp log exp = true) (n : Nat) (hn : n < 510) :
    (idxInt exp (n : Int) >>= fun v => (pure (BitVec.ofNat 8 v) : Outcome Byte)) = ok (gen ^ n).val := by
  obtain ⟨hl, he, -, -⟩ := checkLogExp_spec h
  rw [idxInt_nonneg, idx_ok (by omega), ← he n hn]
  simp [List.getD_eq_getElem?_getD, List.getElem?_eq_getElem (show n < exp.length by omega)]

theorem galois_exp (n : Nat) (hn : n < 510) : Galois.expTable (n : Int) = ok (gen ^ n).val :=
  lookup_exp check_galois_log n hn

theorem galois_exp_neg {i : Int} (h : i < 0) : Galois.expTable i = panic := by
  simp [Galois.expTable, idxInt_neg _ h]

theorem shamir_exp (n : Nat) (hn : n < 510) : Shamir.expTable (n : Int) = ok (gen ^ n).val :=
  lookup_exp check_shamir_log n hn

theorem galois_log_lt (a : Byte) : Galois.logTable a < 255 := (checkLogExp_spec check_galois_log).2.2.1 a
theorem galois_log_spec {a : Byte} (h : a ≠ 0) : (⟨a⟩ : GF) = gen ^ Galois.logTable a :=
  (checkLogExp_spec check_galois_log).2.2.2 a h

/-- shamir `logTable` as a natural number -/
def sLog (a : Byte) : Nat := Tables.Shamir.logTable.getD a.toNat 0
theorem shamir_log_eq (a : Byte) : Shamir.logTable a = (sLog a : Int) := rfl
theorem shamir_log_lt (a : Byte) : sLog a < 255 := (checkLogExp_spec check_shamir_log).2.2.1 a
theorem shamir_log_spec {a : Byte} (h : a ≠ 0) : (⟨a⟩ : GF) = gen ^ sLog a :=
  (checkLogExp_spec check_shamir_log).2.2.2 a h

theorem galMultiply_eq (a b : Byte) : Galois.galMultiply a b = mulSpec a b := galois_mulTable_eq a b

theorem galMultiplyLogExp_eq (a b : Byte) : Galois.galMultiplyLogExp a b = ok (mulSpec a b) := by
  unfold Galois.galMultiplyLogExp
  by_cases h : a = 0 ∨ b = 0
  · rw [if_pos h]
    have : (⟨a⟩ : GF) * ⟨b⟩ = 0 := by rcases h with rfl | rfl; exact zero_mul _; exact mul_zero _
    have := congrArg GF.val this
    simp only [GF.val_mul, GF.val_zero] at this
    rw [this]; rfl
  · rw [if_neg h]
    obtain ⟨ha, hb⟩ := not_or.1 h
    have e := galois_exp (Galois.logTable a + Galois.logTable b)
      (by have := galois_log_lt a; have := galois_log_lt b; omega)
    rw [pow_add, ← galois_log_spec ha, ← galois_log_spec hb] at e
    push_cast at e
    simpa using e

theorem gen_pow_sub {i j : Nat} (hj : j ≤ 255) : gen ^ (i + 255 - j) = gen ^ i / gen ^ j := by
  have hg : gen ^ j ≠ 0 := pow_ne_zero _ gen_ne_zero
  rw [eq_div_iff hg, ← pow_add]
  have : i + 255 - j + j = i + 255 := by omega
  rw [this, pow_add, gen_pow_255, mul_one]

theorem galDivide_eq {a b : Byte} (hb : b ≠ 0) : Galois.galDivide a b = ok ((⟨a⟩ / ⟨b⟩ : GF)).val := by
  unfold Galois.galDivide
  by_cases ha : a = 0
  · subst ha
    rw [if_pos rfl]
    have : (⟨0⟩ : GF) / ⟨b⟩ = 0 := zero_div _
    rw [this]; rfl
  · rw [if_neg ha, if_neg hb]
    have la := galois_log_lt a
    have lb := galois_log_lt b
    rw [galois_log_spec ha, galois_log_spec hb]
    simp only [Outcome.pure_eq, ok_bind]
    split
    · have : ((Galois.logTable a : Int) - (Galois.logTable b : Int) + 255)
          = ((Galois.logTable a + 255 - Galois.logTable b : Nat) : Int) := by omega
      rw [this, galois_exp _ (by omega), gen_pow_sub (by omega)]
    · have : ((Galois.logTable a : Int) - (Galois.logTable b : Int))
          = ((Galois.logTable a - Galois.logTable b : Nat) : Int) := by omega
      rw [this, galois_exp _ (by omega)]
      congr 2
      rw [eq_div_iff (pow_ne_zero _ gen_ne_zero), ← pow_add]
      congr 1; omega

theorem galDivide_zero_zero : Galois.galDivide 0 0 = ok 0 := rfl

theorem galDivide_panic {a : Byte} (ha : a ≠ 0) : Galois.galDivide a 0 = panic := by
  unfold Galois.galDivide
  rw [if_neg ha, if_pos rfl]
  rfl

theorem reduceLog_neg {r : Int} (h : r < 255) : Galois.reduceLog r = r := by
  unfold Galois.reduceLog; rw [if_neg (by omega)]

theorem reduceLog_nat (n : Nat) : Galois.reduceLog (n : Int) = ((n % 255 : Nat) : Int) := by
  induction n using Nat.strong_induction_on with
  | _ n ih =>
    unfold Galois.reduceLog
    split
    · have : ((n : Int) - 255) = ((n - 255 : Nat) : Int) := by omega
      rw [this, ih (n - 255) (by omega)]
      omega
    · omega

theorem galExp_nonneg (a : Byte) (n : Nat) (hn : (Galois.logTable a : Int) * n < 2 ^ 63) :
    Galois.galExp a n = ok ((⟨a⟩ : GF) ^ n).val := by
  unfold Galois.galExp
  by_cases h0 : n = 0
  · subst h0; rw [pow_zero]; rfl
  rw [if_neg (by omega)]
  by_cases ha : a = 0
  · subst ha
    rw [if_pos rfl]
    have : (⟨0⟩ : GF) ^ n = 0 := zero_pow h0
    rw [this]; rfl
  rw [if_neg ha]
  simp only [Outcome.pure_eq, ok_bind]
  have hb : Int.bmod ((Galois.logTable a : Int) * n) (2 ^ 64) = ((Galois.logTable a * n : Nat) : Int) := by
    have hpos : 0 ≤ (Galois.logTable a : Int) * n := by positivity
    push_cast
    rw [Int.bmod_def]
    omega
  rw [hb, reduceLog_nat, galois_exp _ (by omega), gen_pow_mod, pow_mul, ← galois_log_spec ha]

theorem galExp_neg {a : Byte} (ha : a ≠ 0) (h1 : a ≠ 1) {n : Int} (hn : n < 0)
    (hlo : -(2 ^ 63) ≤ (Galois.logTable a : Int) * n) : Galois.galExp a n = panic := by
  unfold Galois.galExp
  rw [if_neg (by omega), if_neg ha]
  simp only [Outcome.pure_eq, ok_bind]
  have hl : 0 < Galois.logTable a := by
    rcases Nat.eq_zero_or_pos (Galois.logTable a) with h | h
    · have := galois_log_spec ha
      rw [h, pow_zero] at this
      exact absurd (congrArg GF.val this) h1
    · exact h
  have hneg : (Galois.logTable a : Int) * n < 0 := mul_neg_of_pos_of_neg (by exact_mod_cast hl) hn
  have hb : Int.bmod ((Galois.logTable a : Int) * n) (2 ^ 64) = (Galois.logTable a : Int) * n := by
    rw [Int.bmod_def]; omega
  rw [hb, reduceLog_neg (by omega), galois_exp_neg hneg]

theorem galois_log_one : Galois.logTable 1 = 0 := by decide +kernel

theorem galExp_zero_one (n : Int) (hn : n ≠ 0) :
    Galois.galExp 0 n = ok 0 ∧ Galois.galExp 1 n = ok 1 := by
  unfold Galois.galExp
  refine ⟨by rw [if_neg hn]; rfl, ?_⟩
  rw [if_neg hn, if_neg (by decide), galois_log_one]
  simp only [Outcome.pure_eq, ok_bind, Int.natCast_zero, Int.zero_mul, Int.zero_bmod]
  have := galois_exp 0 (by omega)
  rw [pow_zero] at this
  rw [reduceLog_neg (by omega)]
  exact this

/-! ## shamir/polynomial.go -/

theorem mult_eq (a b : Byte) : Shamir.mult a b = ok (mulSpec a b) := by
  unfold Shamir.mult
  rw [shamir_log_eq, shamir_log_eq]
  have e1 : ((sLog a : Int) + (sLog b : Int)).tmod 255 = (((sLog a + sLog b) % 255 : Nat) : Int) := by
    rw [Int.tmod_eq_emod_of_nonneg (by omega)]; push_cast; rfl
  simp only [e1]
  rw [shamir_exp _ (by omega)]
  simp only [Outcome.pure_eq, ok_bind, gen_pow_mod]
  congr 1
  by_cases hb : b = 0
  · subst hb
    rw [if_pos rfl]
    exact (congrArg GF.val (mul_zero (⟨a⟩ : GF))).symm
  rw [if_neg hb]
  by_cases ha : a = 0
  · subst ha
    rw [if_pos rfl]
    exact (congrArg GF.val (zero_mul (⟨b⟩ : GF))).symm
  rw [if_neg ha, pow_add, ← shamir_log_spec ha, ← shamir_log_spec hb]; rfl

theorem div_eq {a b : Byte} (hb : b ≠ 0) : Shamir.div a b = ok (⟨a⟩ / ⟨b⟩ : GF).val := by
  unfold Shamir.div
  rw [if_neg hb, shamir_log_eq, shamir_log_eq]
  have la := shamir_log_lt a
  have lb := shamir_log_lt b
  have e1 : ((sLog a : Int) - (sLog b : Int) + 255).tmod 255 = (((sLog a + 255 - sLog b) % 255 : Nat) : Int) := by
    rw [Int.tmod_eq_emod_of_nonneg (by omega)]; omega
  simp only [e1, Outcome.pure_eq, ok_bind]
  rw [shamir_exp _ (by omega)]
  simp only [ok_bind, gen_pow_mod]
  congr 1
  by_cases ha : a = 0
  · subst ha
    rw [if_pos rfl]
    exact (congrArg GF.val (zero_div (⟨b⟩ : GF))).symm
  rw [if_neg ha, gen_pow_sub (by omega), ← shamir_log_spec ha, ← shamir_log_spec hb]

theorem div_panic (a : Byte) : Shamir.div a 0 = panic := by
  unfold Shamir.div
  rw [if_pos rfl]; rfl

/-! ## invTable -/

theorem invTable_check : ∀ a : Byte, a ≠ 0 → mulSpec a (Galois.invTable a) = 1 := by decide +kernel
theorem invTable_zero : Galois.invTable 0 = 0 := by decide +kernel

theorem mulSpec_comm (a b : Byte) : mulSpec a b = mulSpec b a :=
  congrArg GF.val (mul_comm (⟨a⟩ : GF) ⟨b⟩)

theorem mulSpec_one (a : Byte) : mulSpec a 1 = a := congrArg GF.val (mul_one (⟨a⟩ : GF))
theorem one_mulSpec (a : Byte) : mulSpec 1 a = a := congrArg GF.val (one_mul (⟨a⟩ : GF))

end Verif.Proofs
