import Verif.Proofs.MathRand
import Mathlib.Data.BitVec

/-! # math/rand: what enough known bytes determine -/

namespace Verif.Proofs
open Verif Outcome MathRand

set_option maxRecDepth 20000 in
theorem dvd_4249 {t : Nat} (h2 : 2 ≤ t) (h7 : t ≠ 7) (h255 : t ≤ 255) : ¬ t ∣ 4249 := by
  have : ∀ t, t < 256 → t ∣ 4249 → t = 1 ∨ t = 7 := by decide
  intro h
  rcases this t (by omega) h with h | h <;> omega

set_option maxRecDepth 20000 in
theorem dvd_2338_1911 {t : Nat} (h2 : 2 ≤ t) (h7 : t ≠ 7) (h255 : t ≤ 255) (h : t ∣ 1911) : ¬ t ∣ 2338 := by
  have : ∀ t, t < 256 → t ∣ 1911 → t ∣ 2338 → t = 1 ∨ t = 7 := by decide
  intro h'
  rcases this t (by omega) h h' with h | h <;> omega

section
variable {G : Type} [AddCommGroup G] (e : Nat → G) (hrec : ∀ n, e (n + 607) = e n + e (n + 334))
include hrec

theorem rec_forward {a : Nat} (h : ∀ n, a ≤ n → n < a + 607 → e n = 0) : ∀ n, a ≤ n → e n = 0 := by
  intro n
  induction n using Nat.strong_induction_on with
  | _ n ih =>
    intro ha
    by_cases hn : n < a + 607
    · exact h n ha hn
    · obtain ⟨m, rfl⟩ : ∃ m, n = m + 607 := ⟨n - 607, by omega⟩
      rw [hrec, ih m (by omega) (by omega), ih (m + 334) (by omega) (by omega), add_zero]

theorem rec_backward {a : Nat} (h : ∀ n, a ≤ n → e n = 0) : ∀ n, e n = 0 := by
  induction a with
  | zero => exact fun n => h n (by omega)
  | succ a ih =>
    refine ih fun n hn => ?_
    by_cases hna : n = a
    · have := hrec n
      rw [h (n + 607) (by omega), h (n + 334) (by omega), add_zero] at this
      exact this.symm
    · exact h n (by omega)

/-- A sequence with this recurrence is zero if it is zero at the positions below 1214 that are not in a residue class. -/
theorem rec_zero {t c : Nat} (h2 : 2 ≤ t) (h7 : t ≠ 7) (h255 : t ≤ 255)
    (h : ∀ n < 1214, ¬ t ∣ c + 7 * n → e n = 0) : ∀ n, e n = 0 := by
  by_cases hd : t ∣ 1911
  · have hd' := dvd_2338_1911 h2 h7 h255 hd
    have hz : ∀ n, 0 ≤ n → n < 0 + 607 → e n = 0 := by
      intro n _ hn
      by_cases hu : t ∣ c + 7 * n
      · have k1 : ¬ t ∣ c + 7 * (n + 607) := fun hc => dvd_4249 h2 h7 h255 (by
          have := Nat.dvd_sub hc hu
          rwa [show c + 7 * (n + 607) - (c + 7 * n) = 4249 by omega] at this)
        have k2 : ¬ t ∣ c + 7 * (n + 334) := fun hc => hd' (by
          have := Nat.dvd_sub hc hu
          rwa [show c + 7 * (n + 334) - (c + 7 * n) = 2338 by omega] at this)
        have := hrec n
        rw [h _ (by omega) k1, h _ (by omega) k2, add_zero] at this
        exact this.symm
      · exact h n (by omega) hu
    exact fun n => rec_forward e hrec hz n (by omega)
  · have hz : ∀ n, 607 ≤ n → n < 607 + 607 → e n = 0 := by
      intro n hn1 hn
      by_cases hu : t ∣ c + 7 * n
      · obtain ⟨m, rfl⟩ : ∃ m, n = m + 607 := ⟨n - 607, by omega⟩
        have k1 : ¬ t ∣ c + 7 * m := fun hc => dvd_4249 h2 h7 h255 (by
          have := Nat.dvd_sub hu hc
          rwa [show c + 7 * (m + 607) - (c + 7 * m) = 4249 by omega] at this)
        have k2 : ¬ t ∣ c + 7 * (m + 334) := fun hc => hd (by
          have := Nat.dvd_sub hu hc
          rwa [show c + 7 * (m + 607) - (c + 7 * (m + 334)) = 1911 by omega] at this)
        rw [hrec, h _ (by omega) k1, h _ (by omega) k2, add_zero]
      · exact h n (by omega) hu
    exact rec_backward e hrec (rec_forward e hrec hz)

end

theorem low_eq {x y : BitVec 64} {b : Nat} (h1 : x.setWidth (8 * b) = y.setWidth (8 * b))
    (h2 : byteAt x b = byteAt y b) : x.setWidth (8 * (b + 1)) = y.setWidth (8 * (b + 1)) := by
  ext i hi
  simp only [BitVec.getElem_setWidth]
  rcases Nat.lt_or_ge i (8 * b) with h | h
  · have := congrArg (fun z => z.getLsbD i) h1
    simpa [h] using this
  · have := congrArg (fun z => z.getLsbD (i - 8 * b)) h2
    simp only [byteAt, BitVec.getLsbD_setWidth, BitVec.getLsbD_ushiftRight] at this
    rw [show 8 * b + (i - 8 * b) = i by omega] at this
    simpa [show i - 8 * b < 8 by omega] using this

theorem byteAt_low {x y : BitVec 64} (h : x.setWidth 56 = y.setWidth 56) {b : Nat} (hb : b < 7) : byteAt x b = byteAt y b := by
  unfold byteAt
  ext i hi
  simp only [BitVec.getElem_setWidth, BitVec.getLsbD_ushiftRight]
  have := congrArg (fun z => z.getLsbD (8 * b + i)) h
  simpa [show 8 * b + i < 56 by omega] using this

/-- Numbers with the recurrence of math/rand: the lower seven bytes of all of them are determined by the bytes at the
positions below 8498 that are not in a residue class modulo `t`. -/
theorem words_determined {x y : Nat → BitVec 64} (hx : ∀ n, x (n + 607) = x n + x (n + 334))
    (hy : ∀ n, y (n + 607) = y n + y (n + 334)) {t c : Nat} (h2 : 2 ≤ t) (h7 : t ≠ 7) (h255 : t ≤ 255)
    (h : ∀ n < 1214, ∀ b < 7, ¬ t ∣ c + (7 * n + b) → byteAt (x n) b = byteAt (y n) b) :
    ∀ n, ∀ b < 7, byteAt (x n) b = byteAt (y n) b := by
  have key : ∀ b ≤ 7, ∀ n, (x n).setWidth (8 * b) = (y n).setWidth (8 * b) := by
    intro b
    induction b with
    | zero => intro _ n; ext i hi; omega
    | succ b ih =>
      intro hb n
      have ih := ih (by omega)
      have hz := rec_zero (fun n => (x n).setWidth (8 * (b + 1)) - (y n).setWidth (8 * (b + 1))) (fun n => by
          rw [hx, hy, BitVec.setWidth_add _ _ (by omega), BitVec.setWidth_add _ _ (by omega)]
          ring) (t := t) (c := c + b) h2 h7 h255 (fun n hn hu => by
            rw [sub_eq_zero]
            exact low_eq (ih n) (h n hn b (by omega) (by
              rwa [show c + (7 * n + b) = c + b + 7 * n by omega])))
      exact sub_eq_zero.1 (hz n)
  exact fun n b hb => byteAt_low (key 7 (le_refl _) n) hb

/-- Two sources that deliver the same bytes at the first 8504 positions, except possibly at the multiples of `t`, deliver the
same bytes after them. -/
theorem sim_of_stream {r r' : Rand} (hr : WF r) (hr' : WF r') (hp : r.readPos = r'.readPos) {t M : Nat} (h2 : 2 ≤ t)
    (h7 : t ≠ 7) (h255 : t ≤ 255) (hM : 8504 ≤ M) (h : ∀ j < M, ¬ t ∣ j → r.stream j = r'.stream j) :
    Sim (r.skip M) (r'.skip M) := by
  have hq := hr.pos
  have hs : Sim (r.skip r.readPos) (r'.skip r.readPos) := by
    have e : (r.skip r.readPos).readPos = 0 := by rw [skip_pos (le_refl _)]; omega
    have e' : (r'.skip r.readPos).readPos = 0 := by rw [skip_pos (by omega)]; omega
    refine ⟨hr.skip _, hr'.skip _, by rw [e, e'], by rw [e]; omega, ?_⟩
    refine words_determined (word_rec (hr.skip _)) (word_rec (hr'.skip _)) (t := t) (c := r.readPos) h2 h7 h255
      fun n hn b hb hu => ?_
    rw [← stream_words hb e, ← stream_words hb e', stream_skip, stream_skip]
    exact h _ (by omega) (by rwa [Nat.add_comm])
  obtain ⟨k, rfl⟩ : ∃ k, M = k + r.readPos := ⟨M - r.readPos, by omega⟩
  rw [skip_add, skip_add]
  exact hs.skip k

/-- The same when no byte is unknown: 607 numbers are enough. -/
theorem words_determined_all {x y : Nat → BitVec 64} (hx : ∀ n, x (n + 607) = x n + x (n + 334))
    (hy : ∀ n, y (n + 607) = y n + y (n + 334)) (h : ∀ n < 607, ∀ b < 7, byteAt (x n) b = byteAt (y n) b) :
    ∀ n, ∀ b < 7, byteAt (x n) b = byteAt (y n) b := by
  have key : ∀ b ≤ 7, ∀ n, (x n).setWidth (8 * b) = (y n).setWidth (8 * b) := by
    intro b
    induction b with
    | zero => intro _ n; ext i hi; omega
    | succ b ih =>
      intro hb n
      have ih := ih (by omega)
      have hz := rec_forward (fun n => (x n).setWidth (8 * (b + 1)) - (y n).setWidth (8 * (b + 1))) (fun n => by
          rw [hx, hy, BitVec.setWidth_add _ _ (by omega), BitVec.setWidth_add _ _ (by omega)]
          ring) (a := 0) (fun n _ hn => by
            rw [sub_eq_zero]
            exact low_eq (ih n) (h n (by omega) b (by omega)))
      exact sub_eq_zero.1 (hz n (by omega))
  exact fun n b hb => byteAt_low (key 7 (le_refl _) n) hb

theorem sim_of_stream_all {r r' : Rand} (hr : WF r) (hr' : WF r') (hp : r.readPos = r'.readPos) {M : Nat}
    (hM : 4255 ≤ M) (h : ∀ j < M, r.stream j = r'.stream j) : Sim (r.skip M) (r'.skip M) := by
  have hq := hr.pos
  have hs : Sim (r.skip r.readPos) (r'.skip r.readPos) := by
    have e : (r.skip r.readPos).readPos = 0 := by rw [skip_pos (le_refl _)]; omega
    have e' : (r'.skip r.readPos).readPos = 0 := by rw [skip_pos (by omega)]; omega
    refine ⟨hr.skip _, hr'.skip _, by rw [e, e'], by rw [e]; omega, ?_⟩
    refine words_determined_all (word_rec (hr.skip _)) (word_rec (hr'.skip _)) fun n hn b hb => ?_
    rw [← stream_words hb e, ← stream_words hb e', stream_skip, stream_skip]
    exact h _ (by omega)
  obtain ⟨k, rfl⟩ : ∃ k, M = k + r.readPos := ⟨M - r.readPos, by omega⟩
  rw [skip_add, skip_add]
  exact hs.skip k

end Verif.Proofs
