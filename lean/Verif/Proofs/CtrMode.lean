import Verif.Model.CtrMode
import Verif.Spec.CtrMode
import Mathlib.Tactic.Ring
import Mathlib.Tactic.Positivity
import Mathlib.Tactic.NormNum

/-! # Counter mode -/

namespace Verif.Proofs
open Verif Spec Csprng Randomizer

/-! ## Numbers and bytes -/

theorem beNat_append (l m : List Byte) : beNat (l ++ m) = beNat l * 256 ^ m.length + beNat m := by
  unfold beNat
  rw [List.foldl_append]
  have key : ∀ (m : List Byte) (a : Nat), m.foldl (fun a b => a * 256 + b.toNat) a
      = a * 256 ^ m.length + m.foldl (fun a b => a * 256 + b.toNat) 0 := by
    intro m
    induction m with
    | nil => intro a; simp
    | cons b m ih =>
      intro a
      simp only [List.foldl_cons, List.length_cons, Nat.zero_mul, Nat.zero_add]
      rw [ih (a * 256 + b.toNat), ih b.toNat, pow_succ]
      ring
  exact key m _

theorem beNat_cons (b : Byte) (l : List Byte) : beNat (b :: l) = b.toNat * 256 ^ l.length + beNat l := by
  have := beNat_append [b] l
  simpa [beNat] using this

theorem beNat_lt (l : List Byte) : beNat l < 256 ^ l.length := by
  induction l with
  | nil => simp [beNat]
  | cons b l ih =>
    rw [beNat_cons, List.length_cons, pow_succ]
    have := b.isLt
    have : b.toNat ≤ 255 := by omega
    calc b.toNat * 256 ^ l.length + beNat l < b.toNat * 256 ^ l.length + 256 ^ l.length := by omega
      _ = (b.toNat + 1) * 256 ^ l.length := by ring
      _ ≤ 256 * 256 ^ l.length := Nat.mul_le_mul_right _ (by omega)
      _ = 256 ^ l.length * 256 := by ring

theorem beNat_inj : ∀ {l m : List Byte}, l.length = m.length → beNat l = beNat m → l = m
  | [], [], _, _ => rfl
  | [], _ :: _, h, _ => by simp at h
  | _ :: _, [], h, _ => by simp at h
  | a :: l, b :: m, h, e => by
    have hl : l.length = m.length := by simpa using h
    rw [beNat_cons, beNat_cons, hl] at e
    have h1 := beNat_lt l
    have h2 := beNat_lt m
    rw [hl] at h1
    have hp : 0 < 256 ^ m.length := by positivity
    have ha : a.toNat = b.toNat := by
      have e1 : (a.toNat * 256 ^ m.length + beNat l) / 256 ^ m.length = a.toNat := by
        rw [Nat.mul_comm, Nat.mul_add_div hp, Nat.div_eq_of_lt h1, Nat.add_zero]
      have e2 : (b.toNat * 256 ^ m.length + beNat m) / 256 ^ m.length = b.toNat := by
        rw [Nat.mul_comm, Nat.mul_add_div hp, Nat.div_eq_of_lt h2, Nat.add_zero]
      rw [← e1, e, e2]
    have hb : a = b := BitVec.eq_of_toNat_eq ha
    subst hb
    rw [beNat_inj hl (by omega)]

/-- The big-endian digits of `n`. -/
def digits (k n : Nat) : List Byte := (List.range k).map fun i => BitVec.ofNat 8 (n / 256 ^ (k - 1 - i))

theorem digits_succ (k n : Nat) : digits (k + 1) n = BitVec.ofNat 8 (n / 256 ^ k) :: digits k n := by
  unfold digits
  rw [List.range_succ_eq_map, List.map_cons, List.map_map]
  congr 1
  apply List.map_congr_left
  intro i hi
  have : i < k := by simpa using hi
  show BitVec.ofNat 8 (n / 256 ^ (k + 1 - 1 - (i + 1))) = _
  congr 3
  omega

theorem beNat_digits (k n : Nat) : beNat (digits k n) = n % 256 ^ k := by
  induction k with
  | zero => simp [digits, beNat, Nat.mod_one]
  | succ k ih =>
    have hl : (digits k n).length = k := by simp [digits]
    rw [digits_succ, beNat_cons, ih, hl, BitVec.toNat_ofNat, show (2 ^ 8 : Nat) = 256 from rfl, pow_succ, Nat.mod_mul]
    ring

theorem ctrBlock_eq (n : Nat) : ctrBlock n = digits 16 n := rfl

@[simp] theorem length_ctrBlock (n : Nat) : (ctrBlock n).length = 16 := by simp [ctrBlock]

theorem beNat_ctrBlock (n : Nat) : beNat (ctrBlock n) = n % 256 ^ 16 := beNat_digits 16 n

theorem ctrBlock_beNat {iv : List Byte} (h : iv.length = 16) : ctrBlock (beNat iv) = iv := by
  apply beNat_inj (by simp [h])
  rw [beNat_ctrBlock]
  have := beNat_lt iv
  rw [h] at this
  exact Nat.mod_eq_of_lt this

/-! ## Incrementing -/

theorem byte_succ_zero {b : Byte} : b + 1 = 0 ↔ b.toNat = 255 := by
  have := b.isLt
  constructor
  · intro h
    have := congrArg BitVec.toNat h
    rw [BitVec.toNat_add] at this
    have e1 : (1 : Byte).toNat = 1 := rfl
    have e0 : (0 : Byte).toNat = 0 := rfl
    rw [e1, e0] at this
    omega
  · intro h
    apply BitVec.eq_of_toNat_eq
    rw [BitVec.toNat_add, h]
    rfl

theorem byte_succ_toNat {b : Byte} (h : ¬ b + 1 = 0) : (b + 1).toNat = b.toNat + 1 := by
  rw [byte_succ_zero] at h
  have := b.isLt
  rw [BitVec.toNat_add]
  have e1 : (1 : Byte).toNat = 1 := rfl
  rw [e1]
  omega

@[simp] theorem length_incr (l : List Byte) : (incr l).1.length = l.length := by
  induction l with
  | nil => rfl
  | cons b l ih => simp only [incr]; split <;> simp [ih]

theorem beNat_incr (l : List Byte) : beNat (incr l).1 + (if (incr l).2 then 256 ^ l.length else 0) = beNat l + 1 := by
  induction l with
  | nil => simp [incr, beNat]
  | cons b l ih =>
    simp only [incr]
    by_cases hc : (incr l).2 = true
    · rw [if_pos hc] at ih
      simp only [hc, if_true]
      rw [beNat_cons, beNat_cons, length_incr, List.length_cons, pow_succ]
      by_cases hb : b + 1 = 0
      · have h255 := byte_succ_zero.1 hb
        have e0 : (0 : Byte).toNat = 0 := rfl
        simp only [hb, decide_true, if_true, h255, e0]
        omega
      · simp only [hb, decide_false, byte_succ_toNat hb, Bool.false_eq_true, if_false]
        rw [Nat.add_mul, Nat.one_mul]
        omega
    · simp only [hc, if_false, Bool.false_eq_true]
      rw [if_neg hc] at ih
      rw [beNat_cons, beNat_cons, length_incr]
      omega

theorem incr_ctrBlock (n : Nat) : (incr (ctrBlock n)).1 = ctrBlock (n + 1) := by
  apply beNat_inj (by simp)
  have h := beNat_incr (ctrBlock n)
  have hl := beNat_lt (incr (ctrBlock n)).1
  rw [length_incr, length_ctrBlock] at hl
  rw [length_ctrBlock, beNat_ctrBlock] at h
  rw [beNat_ctrBlock]
  have hm : n % 256 ^ 16 < 256 ^ 16 := Nat.mod_lt _ (by norm_num)
  rw [Nat.add_mod, Nat.mod_eq_of_lt (a := 1) (by norm_num)]
  split at h
  · have : n % 256 ^ 16 + 1 = 256 ^ 16 := by omega
    rw [this, Nat.mod_self]
    omega
  · rw [← h, Nat.add_zero, Nat.mod_eq_of_lt hl]

theorem incr_iterate (n k : Nat) : (fun c => (incr c).1)^[k] (ctrBlock n) = ctrBlock (n + k) := by
  induction k with
  | zero => rfl
  | succ k ih => rw [Function.iterate_succ_apply', ih]; exact incr_ctrBlock _

/-- Both ways of counting agree. -/
theorem ctrStream_eq (E : List Byte → List Byte) {iv : List Byte} (h : iv.length = 16) (i : Nat) :
    ctrStream E iv i = ctrAt E iv i := by
  unfold ctrStream ctrAt
  conv_lhs => rw [← ctrBlock_beNat h]
  rw [incr_iterate]

/-! ## The specification -/

theorem succLE_reverse_incr (l : List Byte) :
    succLE l.reverse = (incr l).1.reverse := by
  -- the successor of a number whose low digits are `m`
  have key : ∀ (m hi : List Byte), succLE (m ++ hi) = succLE m ++ (if (∀ b ∈ m, b + 1 = 0) then succLE hi else hi) := by
    intro m
    induction m with
    | nil => intro hi; simp [succLE]
    | cons b m ih =>
      intro hi
      by_cases hb : b + 1 = 0
      · simp only [succLE, List.cons_append, if_true, ih, List.mem_cons, forall_eq_or_imp, hb, true_and]
      · simp only [succLE, List.cons_append, if_neg hb, List.mem_cons, forall_eq_or_imp, hb, false_and, if_false]
  have carry : ∀ l : List Byte, (incr l).2 = true ↔ ∀ b ∈ l, b + 1 = 0 := by
    intro l
    induction l with
    | nil => simp [incr]
    | cons b l ih =>
      simp only [incr]
      by_cases hc : (incr l).2 = true
      · simp only [hc, if_true, List.mem_cons, forall_eq_or_imp, decide_eq_true_eq]
        exact ⟨fun h => ⟨h, ih.1 hc⟩, fun h => h.1⟩
      · simp only [hc, if_false, Bool.false_eq_true, List.mem_cons, forall_eq_or_imp, false_iff]
        exact fun h => hc (ih.2 h.2)
  induction l with
  | nil => rfl
  | cons b l ih =>
    rw [List.reverse_cons, key, ih]
    simp only [List.mem_reverse]
    by_cases hc : (incr l).2 = true
    · rw [if_pos ((carry l).1 hc)]
      simp only [incr, hc, if_true]
      rw [List.reverse_cons]
      congr 1
      by_cases hb : b + 1 = 0
      · simp only [succLE, if_true, hb]
      · simp only [succLE, if_neg hb]
    · rw [if_neg (fun h => hc ((carry l).2 h))]
      simp [incr, hc]

theorem nextCounter_eq (l : List Byte) : nextCounter l = (incr l).1 := by
  rw [nextCounter, succLE_reverse_incr, List.reverse_reverse]

theorem counterMode_eq (E : List Byte → List Byte) (hE : ∀ b, b.length = 16 → (E b).length = 16) (k : Nat) :
    ∀ iv : List Byte, iv.length = 16 → counterMode E k iv = (List.range (16 * k)).map (ctrStream E iv) := by
  induction k with
  | zero => intro iv _; rfl
  | succ k ih =>
    intro iv hiv
    rw [counterMode, ih _ (by rw [nextCounter_eq, length_incr, hiv]), nextCounter_eq, Nat.mul_succ, Nat.add_comm (16 * k), List.range_add, List.map_append]
    congr 1
    · apply List.ext_getElem
      · simp [hE _ hiv]
      · intro i h1 h2
        have : i < 16 := by simpa using h2
        have h3 : i / 16 = 0 := by omega
        have h4 : i % 16 = i := by omega
        simp [ctrStream, h3, h4, h1]
    · rw [List.map_map]
      apply List.map_congr_left
      intro i _
      show ctrStream E (incr iv).1 i = ctrStream E iv (16 + i)
      unfold ctrStream
      rw [show (16 + i) / 16 = i / 16 + 1 by omega, show (16 + i) % 16 = i % 16 by omega, Function.iterate_succ_apply]

end Verif.Proofs
