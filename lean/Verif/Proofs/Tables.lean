import Verif.Model.Polynomial
import Verif.Spec.GF256

/-! # The generated tables are the tables of GF(2^8)

Every entry of every table is compared by the kernel with the specification (`decide +kernel` over the
whole table); everything else is algebra in `Spec.GF`. -/

namespace Verif.Proofs
open Verif Spec

/-! ## Algebraic reading of `xtime` and `mulSpec` -/

theorem xtime_eq_mul (a : Byte) : (⟨xtime a⟩ : GF) = ⟨2#8⟩ * ⟨a⟩ := by
  have h2 : (2#8 : Byte) = xtime 1#8 := by decide
  apply GF.toQuot_injective
  change cls (xtime a) = cls (mulSpec 2#8 a)
  rw [cls_mulSpec, h2, cls_xtime, cls_xtime, cls_one, mul_one]

theorem byte_halves : ∀ b : Byte, b = xtime (b >>> 1) ^^^ (if b.getLsbD 0 then 1#8 else 0#8) := by
  decide +kernel

/-- Horner step for `mulSpec`. -/
theorem mulSpec_step (a b : Byte) :
    mulSpec a b = xtime (mulSpec a (b >>> 1)) ^^^ (if b.getLsbD 0 then a else 0#8) := by
  have key : (⟨a⟩ : GF) * ⟨b⟩ = ⟨xtime (mulSpec a (b >>> 1))⟩ + ⟨if b.getLsbD 0 then a else 0#8⟩ := by
    have hb : (⟨b⟩ : GF) = ⟨xtime (b >>> 1)⟩ + ⟨if b.getLsbD 0 then 1#8 else 0#8⟩ :=
      GF.ext' (byte_halves b)
    rw [hb, xtime_eq_mul, xtime_eq_mul]
    have e1 : (⟨mulSpec a (b >>> 1)⟩ : GF) = ⟨a⟩ * ⟨b >>> 1⟩ := rfl
    rw [e1]
    have e2 : (⟨if b.getLsbD 0 then a else 0#8⟩ : GF) = ⟨a⟩ * ⟨if b.getLsbD 0 then 1#8 else 0#8⟩ := by
      split
      · exact (mul_one _).symm
      · exact (mul_zero _).symm
    rw [e2]; ring
  exact congrArg GF.val key

theorem xtime_fix : ∀ v : Byte, v = xtime v → v = 0#8 := by decide +kernel

/-- A function satisfying the Horner step is multiplication by `a`. -/
theorem eq_mulSpec_of_step (a : Byte) (f : Byte → Byte)
    (h : ∀ b, f b = xtime (f (b >>> 1)) ^^^ (if b.getLsbD 0 then a else 0#8)) (b : Byte) :
    f b = mulSpec a b := by
  have : ∀ n (b : Byte), b.toNat = n → f b = mulSpec a b := by
    intro n
    induction n using Nat.strong_induction_on with
    | _ n ih =>
      intro b hb
      by_cases h0 : b = 0#8
      · subst h0
        have h1 := h 0#8
        have h2 := mulSpec_step a 0#8
        simp at h1 h2
        rw [xtime_fix _ h1, xtime_fix _ h2]
      · rw [h b, mulSpec_step a b, ih (b >>> 1).toNat _ (b >>> 1) rfl]
        have hpos : 0 < b.toNat := by
          rcases Nat.eq_zero_or_pos b.toNat with h | h
          · exact absurd (BitVec.eq_of_toNat_eq (by simpa using h)) h0
          · exact h
        rw [← hb, BitVec.toNat_ushiftRight, Nat.shiftRight_eq_div_pow]
        omega
  exact this _ b rfl

/-! ## Whole-table checks -/

/-- `xtime` on natural numbers below 256. -/
def xtN (v : Nat) : Nat := if 128 ≤ v then (2 * v) ^^^ 0x11d else 2 * v

/-- Every entry `(a,b)` of a packed 256x256 table satisfies the Horner step. -/
def checkMulRows (rows : List Nat) : Bool :=
  rows.length == 256 && rows.zipIdx.all fun (row, a) => (List.range 256).all fun b =>
    (row >>> (8 * (255 - b))) % 256 ==
      (xtN ((row >>> (8 * (255 - b / 2))) % 256)) ^^^ (if b % 2 = 1 then a else 0)

theorem check_galois_mulTable : checkMulRows Tables.Galois.mulTableRows = true := by decide +kernel
theorem check_shamir_mulTable : checkMulRows Tables.Shamir.mulTableRows = true := by decide +kernel

theorem xtime_toNat : ∀ v : Byte, (xtime v).toNat = xtN v.toNat := by decide +kernel

theorem rows_eq_mulSpec (rows : List Nat) (h : checkMulRows rows = true) (a b : Byte) :
    rowByte (rows.getD a.toNat 0) 256 b.toNat = mulSpec a b := by
  unfold checkMulRows at h
  simp only [Bool.and_eq_true, beq_iff_eq, List.all_eq_true] at h
  obtain ⟨hlen, hall⟩ := h
  have ha : a.toNat < rows.length := by rw [hlen]; exact a.isLt
  have hmem : (rows.getD a.toNat 0, a.toNat) ∈ rows.zipIdx := by
    rw [List.mem_zipIdx_iff_getElem?]
    simp [List.getD_eq_getElem?_getD, List.getElem?_eq_getElem ha]
  have hrow := hall _ hmem
  apply eq_mulSpec_of_step a (fun b => rowByte (rows.getD a.toNat 0) 256 b.toNat)
  intro b
  have hb := hrow b.toNat (List.mem_range.2 b.isLt)
  apply BitVec.eq_of_toNat_eq
  simp only [rowByte, BitVec.toNat_xor, xtime_toNat, BitVec.toNat_ofNat, BitVec.toNat_ushiftRight,
    Nat.shiftRight_eq_div_pow (b.toNat)]
  have e1 : (256 - 1 - b.toNat) = 255 - b.toNat := by omega
  have e2 : (256 - 1 - b.toNat / 2 ^ 1) = 255 - b.toNat / 2 := by omega
  rw [e1, e2]
  have hb' : rows.getD a.toNat 0 >>> (8 * (255 - b.toNat)) % 2 ^ 8 = _ := hb
  rw [hb']
  congr 1
  have hbit : b.getLsbD 0 = decide (b.toNat % 2 = 1) := by
    rw [BitVec.getLsbD, Nat.testBit_zero]
  rw [hbit]
  by_cases hc : b.toNat % 2 = 1 <;> simp [hc]

/-- galois `mulTable` is multiplication in GF(2^8). -/
theorem galois_mulTable_eq (a b : Byte) : Galois.mulTable a b = mulSpec a b :=
  rows_eq_mulSpec _ check_galois_mulTable a b

/-- shamir `mulTable` is multiplication in GF(2^8). -/
theorem shamir_mulTable_eq (a b : Byte) : Shamir.mulTable a b = mulSpec a b :=
  rows_eq_mulSpec _ check_shamir_mulTable a b

/-! ### Nibble tables -/

/-- Every entry of the packed low/high nibble tables against the full table. -/
def checkNibble (rows low high : List Nat) : Bool :=
  low.length == 256 && high.length == 256 &&
  (List.range 256).all fun c => (List.range 16).all fun i =>
    (low.getD c 0 >>> (8 * (15 - i))) % 256 == (rows.getD c 0 >>> (8 * (255 - i))) % 256 &&
    (high.getD c 0 >>> (8 * (15 - i))) % 256 == (rows.getD c 0 >>> (8 * (255 - 16 * i))) % 256

theorem check_nibble : checkNibble Tables.Galois.mulTableRows Tables.Galois.mulTableLowRows
    Tables.Galois.mulTableHighRows = true := by decide +kernel

theorem nibble_entries (c : Byte) (i : Nat) (hi : i < 16) :
    (Galois.mulTableLow c).getD i 0 = mulSpec c (BitVec.ofNat 8 i) ∧
    (Galois.mulTableHigh c).getD i 0 = mulSpec c (BitVec.ofNat 8 (16 * i)) := by
  have h := check_nibble
  unfold checkNibble at h
  simp only [Bool.and_eq_true, beq_iff_eq, List.all_eq_true, List.mem_range] at h
  obtain ⟨h1, h2⟩ := h.2 c.toNat c.isLt i hi
  constructor
  · rw [← galois_mulTable_eq]
    simp only [Galois.mulTableLow, rowBytes, Galois.mulTable]
    rw [List.getD_eq_getElem?_getD, List.getElem?_map, List.getElem?_range hi]
    simp only [Option.map_some, Option.getD_some, rowByte]
    apply BitVec.eq_of_toNat_eq
    have : (BitVec.ofNat 8 i).toNat = i := by simp; omega
    rw [this]
    simpa using h1
  · rw [← galois_mulTable_eq]
    simp only [Galois.mulTableHigh, rowBytes, Galois.mulTable]
    rw [List.getD_eq_getElem?_getD, List.getElem?_map, List.getElem?_range hi]
    simp only [Option.map_some, Option.getD_some, rowByte]
    apply BitVec.eq_of_toNat_eq
    have : (BitVec.ofNat 8 (16 * i)).toNat = 16 * i := by simp; omega
    rw [this]
    simpa using h2

theorem nibble_split : ∀ x : Byte, x = BitVec.ofNat 8 (x &&& 0xf#8).toNat ^^^
    BitVec.ofNat 8 (16 * (x >>> 4).toNat) := by decide +kernel

theorem nibble_bounds : ∀ x : Byte, (x &&& 0xf#8).toNat < 16 ∧ (x >>> 4).toNat < 16 := by decide +kernel

theorem mulSpec_xor (a b c : Byte) : mulSpec a (b ^^^ c) = mulSpec a b ^^^ mulSpec a c :=
  congrArg GF.val (mul_add (⟨a⟩ : GF) ⟨b⟩ ⟨c⟩)

/-- The nibble-table product is the product. -/
theorem nibbleMul_eq (c x : Byte) :
    Galois.nibbleMul (Galois.mulTableLow c) (Galois.mulTableHigh c) x = mulSpec c x := by
  unfold Galois.nibbleMul
  rw [(nibble_entries c _ (nibble_bounds x).1).1, (nibble_entries c _ (nibble_bounds x).2).2, ← mulSpec_xor,
    ← nibble_split]

/-! ### Logarithm tables -/

/-- exp[0] = 1 and exp[i+1] = 2 * exp[i]; log is in range and exp[log a] = a. -/
def checkLogExp (log exp : List Nat) : Bool :=
  log.length == 256 && exp.length == 510 && exp.getD 0 0 == 1 &&
  ((List.range 509).all fun i => exp.getD (i + 1) 0 == xtN (exp.getD i 0)) &&
  (exp.all fun v => decide (v < 256)) &&
  ((List.range 256).all fun a => decide (log.getD a 0 < 255) && (a == 0 || exp.getD (log.getD a 0) 0 == a))

theorem check_galois_log : checkLogExp Tables.Galois.logTable Tables.Galois.expTable = true := by decide +kernel
theorem check_shamir_log : checkLogExp Tables.Shamir.logTable Tables.Shamir.expTable = true := by decide +kernel

/-- The generator `x` of the multiplicative group. -/
def gen : GF := ⟨2#8⟩

theorem checkLogExp_spec {log exp : List Nat} (h : checkLogExp log exp = true) :
    exp.length = 510 ∧ (∀ i < 510, (⟨BitVec.ofNat 8 (exp.getD i 0)⟩ : GF) = gen ^ i) ∧
    (∀ a : Byte, log.getD a.toNat 0 < 255) ∧
    (∀ a : Byte, a ≠ 0 → (⟨a⟩ : GF) = gen ^ (log.getD a.toNat 0)) := by
  unfold checkLogExp at h
  simp only [Bool.and_eq_true, beq_iff_eq, List.all_eq_true, List.mem_range, decide_eq_true_eq,
    Bool.or_eq_true] at h
  obtain ⟨⟨⟨⟨⟨hl, he⟩, h0⟩, hs⟩, hlt⟩, ha⟩ := h
  have hlt' : ∀ i, i < 510 → exp.getD i 0 < 256 := by
    intro i hi
    rw [List.getD_eq_getElem?_getD, List.getElem?_eq_getElem (by omega)]
    exact hlt _ (List.getElem_mem _)
  have hexp : ∀ i < 510, (⟨BitVec.ofNat 8 (exp.getD i 0)⟩ : GF) = gen ^ i := by
    intro i
    induction i with
    | zero => intro _; rw [h0, pow_zero]; rfl
    | succ i ih =>
      intro hi
      rw [pow_succ', ← ih (by omega)]
      have := xtime_eq_mul (BitVec.ofNat 8 (exp.getD i 0))
      unfold gen
      rw [← this]
      apply GF.ext'
      apply BitVec.eq_of_toNat_eq
      have e : (BitVec.ofNat 8 (exp.getD i 0)).toNat = exp.getD i 0 := by
        rw [BitVec.toNat_ofNat]; exact Nat.mod_eq_of_lt (hlt' i (by omega))
      have e' : (BitVec.ofNat 8 (exp.getD (i + 1) 0)).toNat = exp.getD (i + 1) 0 := by
        rw [BitVec.toNat_ofNat]; exact Nat.mod_eq_of_lt (hlt' (i + 1) (by omega))
      change (BitVec.ofNat 8 (exp.getD (i + 1) 0)).toNat = (xtime (BitVec.ofNat 8 (exp.getD i 0))).toNat
      rw [xtime_toNat, e, e']
      exact hs i (by omega)
  refine ⟨he, hexp, fun a => (ha a.toNat a.isLt).1, ?_⟩
  intro a hne
  have hlog := (ha a.toNat a.isLt).1
  rw [← hexp _ (by omega)]
  apply GF.ext'
  rcases (ha a.toNat a.isLt).2 with h | h
  · exact absurd (BitVec.eq_of_toNat_eq (by simpa using h)) hne
  · rw [h]; simp

theorem gen_pow_255 : gen ^ 255 = 1 := by
  have h := (checkLogExp_spec check_galois_log).2.1 255 (by omega)
  rw [← h]
  apply GF.ext'
  decide +kernel

theorem gen_ne_zero : gen ≠ 0 := by
  intro h
  have := congrArg GF.val h
  revert this; decide

theorem gen_pow_mod (n : Nat) : gen ^ (n % 255) = gen ^ n := by
  conv_rhs => rw [← Nat.div_add_mod n 255, pow_add, pow_mul, gen_pow_255, one_pow, one_mul]

end Verif.Proofs
