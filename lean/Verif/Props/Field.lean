import Verif.Proofs.Field

/-! # C01–C04: byte arithmetic in GF(2^8) -/

namespace Verif.Props
open Verif Outcome Galois Spec Proofs Polynomial

/-- C01: `GalMultiply` is multiplication of polynomials over GF(2) modulo x^8+x^4+x^3+x^2+1, and the
table of the shamir package is the same table. -/
theorem C01_galMultiply (a b : Byte) :
    polyOf (galMultiply a b) = (polyOf a * polyOf b) %ₘ modPoly ∧ Shamir.mulTable a b = galMultiply a b :=
  ⟨by rw [galMultiply_eq, polyOf_mulSpec], by rw [galMultiply_eq]; exact shamir_mulTable_eq a b⟩

/-- The residue determines the byte, so C01 fixes every result. -/
theorem C01_galMultiply_unique (a b r : Byte) (h : polyOf r = (polyOf a * polyOf b) %ₘ modPoly) :
    r = galMultiply a b := polyOf_injective (h.trans (C01_galMultiply a b).1.symm)

example : galMultiply 0x53#8 0xCA#8 = 0x8f#8 := by decide +kernel

/-- C02: the log/exp multiplication agrees with the table. -/
theorem C02_logExp_multiply (a b : Byte) : galMultiplyLogExp a b = ok (galMultiply a b) := by
  rw [galMultiplyLogExp_eq, galMultiply_eq]

private theorem quot_unique {a b : Byte} (hb : b ≠ 0) :
    galMultiply (⟨a⟩ / ⟨b⟩ : GF).val b = a ∧ ∀ q, galMultiply q b = a → q = (⟨a⟩ / ⟨b⟩ : GF).val := by
  have hb' : (⟨b⟩ : GF) ≠ 0 := fun h => hb (congrArg GF.val h)
  refine ⟨?_, ?_⟩
  · rw [galMultiply_eq]
    exact congrArg GF.val (div_mul_cancel₀ (⟨a⟩ : GF) hb')
  · intro q hq
    rw [galMultiply_eq] at hq
    have : (⟨q⟩ : GF) * ⟨b⟩ = ⟨a⟩ := GF.ext' hq
    exact congrArg GF.val (eq_div_of_mul_eq hb' this)

/-- C02: for a non-zero divisor `GalDivide` returns the unique quotient. -/
theorem C02_galDivide (a b : Byte) (hb : b ≠ 0) :
    ∃ q, galDivide a b = ok q ∧ galMultiply q b = a ∧ ∀ q', galMultiply q' b = a → q' = q :=
  ⟨_, galDivide_eq hb, (quot_unique hb).1, (quot_unique hb).2⟩

/-- C02: `GalDivide` by zero panics exactly for a non-zero dividend. -/
theorem C02_galDivide_zero (a : Byte) :
    (galDivide a 0 = panic ↔ a ≠ 0) ∧ galDivide 0 0 = ok 0 := by
  refine ⟨⟨?_, galDivide_panic⟩, galDivide_zero_zero⟩
  rintro h rfl
  rw [galDivide_zero_zero] at h
  cases h

/-- C02: the `mult` and `div` of the shamir package. -/
theorem C02_shamir_mult_div (a b : Byte) :
    Shamir.mult a b = ok (galMultiply a b) ∧
    (b ≠ 0 → ∃ q, Shamir.div a b = ok q ∧ galMultiply q b = a ∧ ∀ q', galMultiply q' b = a → q' = q) ∧
    (Shamir.div a b = panic ↔ b = 0) := by
  refine ⟨by rw [mult_eq, galMultiply_eq], fun hb => ⟨_, div_eq hb, (quot_unique hb).1, (quot_unique hb).2⟩, ?_⟩
  constructor
  · intro h
    by_contra hb
    rw [div_eq hb] at h
    cases h
  · rintro rfl
    exact div_panic a

example : galDivide 7 3 = ok 0xf6 ∧ galDivide 5 0 = panic := by decide +kernel

theorem iterate_mul (a : Byte) (n : Nat) : (galMultiply a)^[n] 1 = ((⟨a⟩ : GF) ^ n).val := by
  induction n with
  | zero => rw [pow_zero]; rfl
  | succ n ih =>
    rw [Function.iterate_succ_apply', ih, galMultiply_eq, pow_succ']
    rfl

/-- C03: `GalExp(a,n)` is the n-fold product of `a`, unless `log(a)*n` overflows the 64-bit int. -/
theorem C03_galExp (a : Byte) (n : Nat) (hn : (logTable a : Int) * n < 2 ^ 63) :
    galExp a n = ok ((galMultiply a)^[n] 1) := by
  rw [galExp_nonneg a n hn, iterate_mul]

/-- C03, with a bound on `n` only: no overflow below 2^63/254. -/
theorem C03_galExp_bounded (a : Byte) (n : Nat) (hn : 254 * n < 2 ^ 63) :
    galExp a n = ok ((galMultiply a)^[n] 1) := by
  apply C03_galExp
  have h := galois_log_lt a
  have : Galois.logTable a * n ≤ 254 * n := Nat.mul_le_mul_right _ (by omega)
  have : Galois.logTable a * n < 2 ^ 63 := by omega
  exact_mod_cast this

/-- C03: a negative exponent panics for every base other than 0 and 1 (as long as `log(a)*n` does not
overflow); 0 and 1 give 0 and 1. -/
theorem C03_galExp_negative (n : Int) (hn : n < 0) :
    galExp 0 n = ok 0 ∧ galExp 1 n = ok 1 ∧
    ∀ a : Byte, a ≠ 0 → a ≠ 1 → -(2 ^ 63) ≤ (logTable a : Int) * n → galExp a n = panic :=
  ⟨(galExp_zero_one n (by omega)).1, (galExp_zero_one n (by omega)).2, fun _ ha h1 h => galExp_neg ha h1 hn h⟩

/-- C03, the overflow: for every base of logarithm `l` and every `n` for which the product `l*n` lies in
[2^63, 2^64) the call panics, although the power exists. -/
theorem C03_galExp_overflow (a : Byte) (ha : a ≠ 0) (n : Nat) (h0 : n ≠ 0)
    (h1 : 2 ^ 63 ≤ (logTable a : Int) * n) (h2 : (logTable a : Int) * n < 2 ^ 64) :
    galExp a n = panic := by
  unfold galExp
  rw [if_neg (by omega), if_neg ha]
  simp only [Outcome.pure_eq, ok_bind]
  have hb : Int.bmod ((Galois.logTable a : Int) * n) (2 ^ 64) = (Galois.logTable a : Int) * n - 2 ^ 64 := by
    rw [Int.bmod_def]; omega
  rw [hb, reduceLog_neg (by omega), galois_exp_neg (by omega)]

example : galExp 4 (2 ^ 62 : Nat) = panic := C03_galExp_overflow 4 (by decide) _ (by norm_num)
  (by rw [show logTable 4 = 2 by decide +kernel]; norm_num) (by rw [show logTable 4 = 2 by decide +kernel]; norm_num)
example : galExp 2 (8 : Nat) = ok 0x1d := by
  rw [C03_galExp_bounded _ _ (by norm_num)]; decide +kernel

/-- C03, every case: the base is a power `2^l` with `l < 255`; the exponent `l*n` is computed in 64-bit two's
complement arithmetic, `w` is its value; a negative `w` panics, otherwise the result is `2^w`. -/
theorem C03_galExp_exact (a : Byte) (ha : a ≠ 0) : ∃ l < 255, (galMultiply 2)^[l] 1 = a ∧ ∀ n : Int, n ≠ 0 →
    galExp a n = if (BitVec.ofInt 64 (l * n)).toInt < 0 then panic
      else ok ((galMultiply 2)^[(BitVec.ofInt 64 (l * n)).toInt.toNat] 1) := by
  have hgen : (⟨2⟩ : GF) = gen := rfl
  refine ⟨Galois.logTable a, galois_log_lt a, ?_, fun n hn => ?_⟩
  · rw [iterate_mul, hgen, ← galois_log_spec ha]
  · rw [BitVec.toInt_ofInt]
    unfold galExp
    rw [if_neg hn, if_neg ha]
    simp only [Outcome.pure_eq, ok_bind]
    generalize hw : Int.bmod ((Galois.logTable a : Int) * n) (2 ^ 64) = w
    by_cases h : w < 0
    · rw [if_pos h, reduceLog_neg (by omega), galois_exp_neg h]
    · rw [if_neg h, iterate_mul, hgen]
      obtain ⟨k, rfl⟩ : ∃ k : Nat, w = k := ⟨w.toNat, by omega⟩
      rw [reduceLog_nat, galois_exp _ (by omega), gen_pow_mod]
      rfl

/-- 3 = 2^25, and 25*2^60 is congruent to -7*2^60 modulo 2^64. -/
example : galExp 3 (2 ^ 60) = panic := by
  obtain ⟨l, hl, hp, h⟩ := C03_galExp_exact 3 (by decide)
  have : l = 25 := by
    have key : ∀ l < 255, (galMultiply 2)^[l] 1 = 3 → l = 25 := by decide +kernel
    exact key l hl hp
  subst this
  rw [h _ (by norm_num), if_pos (by decide)]

/-- C04: the exported operations satisfy the field axioms. -/
theorem C04_field (a b c : Byte) :
    galAdd a b = galAdd b a ∧ galAdd (galAdd a b) c = galAdd a (galAdd b c) ∧ galAdd a 0 = a ∧
    galSub (galAdd a b) b = a ∧
    galMultiply a b = galMultiply b a ∧
    galMultiply (galMultiply a b) c = galMultiply a (galMultiply b c) ∧
    galMultiply a 1 = a ∧
    galMultiply a (galAdd b c) = galAdd (galMultiply a b) (galMultiply a c) ∧
    (galMultiply a b = 0 ↔ a = 0 ∨ b = 0) ∧
    (a ≠ 0 → galMultiply a (invTable a) = 1) := by
  simp only [galMultiply_eq]
  refine ⟨BitVec.xor_comm _ _, BitVec.xor_assoc _ _ _, BitVec.xor_zero, ?_, mulSpec_comm a b,
    congrArg GF.val (mul_assoc (⟨a⟩ : GF) ⟨b⟩ ⟨c⟩), mulSpec_one a,
    congrArg GF.val (mul_add (⟨a⟩ : GF) ⟨b⟩ ⟨c⟩), ?_, invTable_check a⟩
  · simp only [galSub, galAdd, BitVec.xor_assoc, BitVec.xor_self, BitVec.xor_zero]
  · constructor
    · intro h
      have : (⟨a⟩ : GF) * ⟨b⟩ = 0 := GF.ext' h
      rcases mul_eq_zero.1 this with h | h
      · exact .inl (congrArg GF.val h)
      · exact .inr (congrArg GF.val h)
    · rintro (rfl | rfl)
      · exact congrArg GF.val (zero_mul (⟨b⟩ : GF))
      · exact congrArg GF.val (mul_zero (⟨a⟩ : GF))

example : invTable 2 = 0x8e := by decide +kernel

example : ∃ q, galDivide 7 3 = ok q ∧ galMultiply q 3 = 7 := by
  obtain ⟨q, h1, h2, -⟩ := C02_galDivide 7 3 (by decide)
  exact ⟨q, h1, h2⟩
example : galExp 5 (-3) = panic :=
  (C03_galExp_negative (-3) (by decide)).2.2 5 (by decide) (by decide) (by
    rw [show logTable 5 = 50 by decide +kernel]; norm_num)

end Verif.Props
