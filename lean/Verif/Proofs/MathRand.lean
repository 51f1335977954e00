import Verif.Model.MathRand
import Verif.Proofs.Loops
import Mathlib.Data.ZMod.Basic
import Mathlib.Tactic.Ring
import Mathlib.Tactic.LinearCombination
import Mathlib.Tactic.Abel
import Mathlib.Data.List.Perm.Basic

/-! # math/rand: permutations, and the recurrence of the generator -/

namespace Verif.Proofs
open Verif Outcome MathRand

/-! ## Perm -/

theorem int31n_lt {fuel : Nat} {r r' : Rand} {n j : Nat} (h : r.int31n fuel n = ok (j, r')) : j < n := by
  unfold Rand.int31n at h
  by_cases h0 : n = 0
  · simp [h0] at h
  · simp only [if_neg h0, pure_eq, ok_bind] at h
    split at h
    · simp only [ok.injEq, Prod.mk.injEq] at h
      have := Nat.and_le_right (n := r.int31.1) (m := n - 1)
      omega
    · obtain ⟨⟨v, q⟩, -, h2⟩ := bind_eq_ok.1 h
      simp only [ok.injEq, Prod.mk.injEq] at h2
      rw [← h2.1]
      exact Nat.mod_lt _ (by omega)

theorem set_append_perm {l : List Nat} {j i : Nat} (hj : j < l.length) :
    (l.set j i ++ [l[j]]).Perm (l ++ [i]) := by
  rw [List.set_eq_take_append_cons_drop, if_pos hj]
  conv_rhs => rw [← List.take_append_drop j l, List.drop_eq_getElem_cons hj]
  simp only [List.append_assoc, List.cons_append]
  refine List.Perm.append_left _ ?_
  refine (List.Perm.cons _ List.perm_append_comm).trans ?_
  simp only [List.singleton_append]
  refine (List.Perm.swap _ _ _).trans ?_
  refine List.Perm.cons _ ?_
  exact (List.perm_append_singleton _ _).symm

theorem perm_perm {fuel : Nat} {r r' : Rand} {n : Nat} {π : List Nat} (h : r.perm fuel n = ok (π, r')) :
    π.Perm (List.range n) := by
  unfold Rand.perm at h
  have key := forUp_ok_inv (fun i (st : List Nat × Rand) => st.1.length = n ∧ (st.1.take i).Perm (List.range i))
    (by simp) (fun i hi st st' hst hb => ?_) h
  · have h1 : π.length = n := key.1
    have h2 : (π.take n).Perm (List.range n) := key.2
    rwa [List.take_of_length_le (by omega)] at h2
  · obtain ⟨m, g⟩ := st
    obtain ⟨hl, hp⟩ := hst
    simp only at hl hp
    obtain ⟨⟨j, g1⟩, hj, hb⟩ := bind_eq_ok.1 hb
    have hj := int31n_lt hj
    obtain ⟨mj, h1, hb⟩ := bind_eq_ok.1 hb
    obtain ⟨m1, h2, hb⟩ := bind_eq_ok.1 hb
    obtain ⟨m2, h3, hb⟩ := bind_eq_ok.1 hb
    cases hb
    have hjl : j < m.length := by omega
    have hil : i < m.length := by omega
    simp only [idx, List.getElem?_eq_getElem hjl, ok.injEq] at h1
    subst h1
    simp only [setIdx, if_pos hil, ok.injEq] at h2
    subst h2
    simp only [setIdx, List.length_set, if_pos hjl, ok.injEq] at h3
    subst h3
    refine ⟨by simpa using hl, ?_⟩
    rw [List.range_succ]
    refine List.Perm.trans ?_ (List.Perm.append_right _ hp)
    rcases Nat.lt_or_ge j i with hji | hji
    · have hjt : j < (m.take i).length := by simp; omega
      have : ((m.set i m[j]).set j i).take (i + 1) = (m.take i).set j i ++ [(m.take i)[j]] := by
        apply List.ext_getElem (by simp; omega)
        intro k k1 k2
        simp only [List.length_take, List.length_set] at k1
        simp only [List.getElem_take, List.getElem_set, List.getElem_append, List.length_set, List.length_take]
        by_cases e1 : j = k
        · subst e1
          rw [dif_pos (by omega)]
          simp
        · by_cases e2 : i = k
          · subst e2
            rw [dif_neg (by omega)]
            simp [e1]
          · rw [dif_pos (by omega)]
            simp [e1, e2]
      rw [this]
      exact set_append_perm hjt
    · obtain rfl : j = i := by omega
      have : ((m.set j m[j]).set j j).take (j + 1) = m.take j ++ [j] := by
        apply List.ext_getElem (by simp; omega)
        intro k k1 k2
        simp only [List.length_take, List.length_set] at k1
        simp only [List.getElem_take, List.getElem_set, List.getElem_append, List.length_take]
        by_cases e1 : j = k
        · subst e1
          rw [dif_neg (by omega)]
          simp
        · rw [dif_pos (by omega)]
          simp [e1]
      rw [this]

/-- Without a rejected number, `Perm(n)` draws `n` numbers. -/
theorem perm_draw {r r' : Rand} {n : Nat} {π : List Nat} (h : r.perm 0 n = ok (π, r')) : r' = r.draw n := by
  unfold Rand.perm at h
  refine forUp_ok_inv (fun i (st : List Nat × Rand) => st.2 = r.draw i) rfl (fun i hi st st' hst hb => ?_) h
  obtain ⟨m, g⟩ := st
  simp only at hst
  obtain ⟨⟨j, g1⟩, hj, hb⟩ := bind_eq_ok.1 hb
  obtain ⟨mj, h1, hb⟩ := bind_eq_ok.1 hb
  obtain ⟨m1, h2, hb⟩ := bind_eq_ok.1 hb
  obtain ⟨m2, h3, hb⟩ := bind_eq_ok.1 hb
  cases hb
  have hd : g1 = g.uint64.2 := by
    unfold Rand.int31n at hj
    simp only [Nat.add_eq_zero_iff, one_ne_zero, and_false, if_false, pure_eq] at hj
    split at hj
    · simp only [ok.injEq, Prod.mk.injEq] at hj
      exact hj.2.symm
    · obtain ⟨⟨v, q⟩, h4, h5⟩ := bind_eq_ok.1 hj
      simp only [ok.injEq, Prod.mk.injEq] at h5
      unfold int31nLoop at h4
      split at h4
      · cases h4
      · simp only [ok.injEq, Prod.mk.injEq] at h4
        rw [← h5.2, ← h4.2]; rfl
  show g1 = r.draw (i + 1)
  rw [hd, hst]
  unfold Rand.draw
  rw [Function.iterate_succ_apply']

/-! ## The recurrence -/

/-- The positions `tap` and `feed` keep their distance. -/
structure WF (r : Rand) : Prop where
  tap : r.tap < 607
  feed : r.feed = (r.tap + 334) % 607
  pos : r.readPos ≤ 6

/-- The number drawn after `n` others. -/
def word (r : Rand) (n : Nat) : BitVec 64 := (r.draw n).uint64.1

/-- The word that the draw number `k` overwrites. -/
def past (r : Rand) (k : Nat) : BitVec 64 := r.vec ((r.feed + 606 - k) % 607)

theorem draw_succ (r : Rand) (n : Nat) : r.draw (n + 1) = (r.draw n).uint64.2 := by
  unfold Rand.draw
  rw [Function.iterate_succ_apply']

theorem draw_succ' (r : Rand) (n : Nat) : r.draw (n + 1) = (r.uint64.2).draw n := by
  unfold Rand.draw
  rw [Function.iterate_succ_apply]

theorem draw_add (r : Rand) (m n : Nat) : r.draw (m + n) = (r.draw n).draw m := by
  unfold Rand.draw
  rw [Function.iterate_add_apply]

theorem word_draw (r : Rand) (m n : Nat) : word (r.draw m) n = word r (n + m) := by
  unfold word; rw [draw_add]

theorem WF.next {r : Rand} (h : WF r) : WF r.uint64.2 := by
  obtain ⟨h1, h2, h3⟩ := h
  refine ⟨?_, ?_, h3⟩
  · show (if r.tap = 0 then 606 else r.tap - 1) < 607
    split <;> omega
  · show (if r.feed = 0 then 606 else r.feed - 1) = ((if r.tap = 0 then 606 else r.tap - 1) + 334) % 607
    split <;> split <;> omega

theorem WF.draw {r : Rand} (h : WF r) (n : Nat) : WF (r.draw n) := by
  induction n with
  | zero => exact h
  | succ n ih => rw [draw_succ]; exact ih.next

theorem uint64_fst {r : Rand} (h : WF r) : r.uint64.1 = past r 0 + past r 334 := by
  obtain ⟨h1, h2, -⟩ := h
  show r.vec (if r.feed = 0 then 606 else r.feed - 1) + r.vec (if r.tap = 0 then 606 else r.tap - 1) = _
  have e1 : (if r.feed = 0 then 606 else r.feed - 1) = (r.feed + 606 - 0) % 607 := by split <;> omega
  have e2 : (if r.tap = 0 then 606 else r.tap - 1) = (r.feed + 606 - 334) % 607 := by split <;> omega
  rw [e1, e2]; rfl

theorem past_next {r : Rand} (h : WF r) {k : Nat} (hk : k < 606) : past r.uint64.2 k = past r (k + 1) := by
  obtain ⟨h1, h2, -⟩ := h
  have hf : r.feed < 607 := by omega
  show Function.update r.vec (if r.feed = 0 then 606 else r.feed - 1) _ (((if r.feed = 0 then 606 else r.feed - 1) + 606 - k) % 607) = _
  rw [Function.update_of_ne (by split <;> omega)]
  have e1 : ((if r.feed = 0 then 606 else r.feed - 1) + 606 - k) % 607 = (r.feed + 606 - (k + 1)) % 607 := by
    split <;> omega
  rw [e1]; rfl

theorem past_last {r : Rand} (h : WF r) : past r.uint64.2 606 = r.uint64.1 := by
  obtain ⟨h1, h2, -⟩ := h
  have hf : r.feed < 607 := by omega
  have e1 : r.uint64.2.feed = (if r.feed = 0 then 606 else r.feed - 1) := rfl
  have e2 : r.uint64.2.vec = Function.update r.vec (if r.feed = 0 then 606 else r.feed - 1) r.uint64.1 := rfl
  have e3 : ((if r.feed = 0 then 606 else r.feed - 1) + 606 - 606) % 607 = (if r.feed = 0 then 606 else r.feed - 1) := by
    split <;> omega
  unfold past
  rw [e1, e2, e3, Function.update_self]

theorem past_shift {k : Nat} : ∀ {r : Rand}, WF r → k < 607 → past r k = past (r.draw k) 0 := by
  induction k with
  | zero => intro r _ _; rfl
  | succ k ih =>
    intro r h hk
    rw [← past_next h (by omega), ih h.next (by omega), draw_succ']

theorem word_past {r : Rand} (h : WF r) (n : Nat) : word r n = past (r.draw (n + 607)) 0 := by
  have h1 := h.draw n
  have : past (r.draw n).uint64.2 606 = word r n := past_last h1
  rw [← this, past_shift h1.next (by omega), ← draw_succ, ← draw_add, show 606 + (n + 1) = n + 607 by omega]

/-- Every number is the sum of the one 607 before it and the one 273 before it. -/
theorem word_rec {r : Rand} (h : WF r) (n : Nat) : word r (n + 607) = word r n + word r (n + 334) := by
  have h1 := uint64_fst (h.draw (n + 607))
  rw [past_shift (h.draw _) (show 334 < 607 by omega), ← draw_add] at h1
  rw [word_past h n, word_past h (n + 334)]
  show (r.draw (n + 607)).uint64.1 = _
  rw [h1, show 334 + (n + 607) = n + 334 + 607 by omega]

/-! ## Bytes -/

/-- Byte `b` of a number. -/
def byteAt (x : BitVec 64) (b : Nat) : Byte := (x >>> (8 * b)).setWidth 8

theorem byteAt_int63 (r : Rand) {b : Nat} (hb : b < 7) : byteAt r.int63.1 b = byteAt r.uint64.1 b := by
  unfold byteAt Rand.int63
  ext i hi
  simp only [BitVec.getElem_setWidth, BitVec.getLsbD_ushiftRight, BitVec.getLsbD_and]
  have : (0x7fffffffffffffff#64).getLsbD (8 * b + i) = true := by
    have : ∀ k < 63, (0x7fffffffffffffff#64).getLsbD k = true := by decide
    exact this _ (by omega)
  rw [this, Bool.and_true]

theorem byteAt_shift (x : BitVec 64) (b : Nat) : byteAt (x >>> 8) b = byteAt x (b + 1) := by
  unfold byteAt
  rw [← BitVec.shiftRight_add]
  congr 2
  ring

theorem byteAt_zero (x : BitVec 64) : byteAt x 0 = x.setWidth 8 := by
  unfold byteAt; simp

/-- Sources that deliver the same bytes, also after numbers have been drawn: the numbers agree in the lower seven bytes. -/
structure Sim (r r' : Rand) : Prop where
  wf : WF r
  wf' : WF r'
  pos : r.readPos = r'.readPos
  rest : ∀ b < r.readPos, byteAt r.readVal b = byteAt r'.readVal b
  words : ∀ n, ∀ b < 7, byteAt (word r n) b = byteAt (word r' n) b

theorem word_congr {r q : Rand} (h1 : r.vec = q.vec) (h2 : r.tap = q.tap) (h3 : r.feed = q.feed) (n : Nat) :
    word r n = word q n := by
  have : ∀ n, (r.draw n).vec = (q.draw n).vec ∧ (r.draw n).tap = (q.draw n).tap ∧ (r.draw n).feed = (q.draw n).feed := by
    intro n
    induction n with
    | zero => exact ⟨h1, h2, h3⟩
    | succ n ih =>
      rw [draw_succ, draw_succ]
      simp only [Rand.uint64, ih.1, ih.2.1, ih.2.2, and_self]
  obtain ⟨e1, e2, e3⟩ := this n
  unfold word
  simp only [Rand.uint64, e1, e2, e3]

theorem word_with (r : Rand) (v : BitVec 64) (p n : Nat) : word { r with readVal := v, readPos := p } n = word r n := by
  apply word_congr <;> rfl

theorem Sim.next {r r' : Rand} (h : Sim r r') : Sim r.uint64.2 r'.uint64.2 := by
  refine ⟨h.wf.next, h.wf'.next, h.pos, h.rest, fun n b hb => ?_⟩
  have e : ∀ r : Rand, word r.uint64.2 n = word r (n + 1) := fun r => word_draw r 1 n
  rw [e, e]
  exact h.words _ b hb

theorem Sim.draw {r r' : Rand} (h : Sim r r') (n : Nat) : Sim (r.draw n) (r'.draw n) := by
  induction n with
  | zero => exact h
  | succ n ih => rw [draw_succ, draw_succ]; exact ih.next

theorem readByte_zero {r : Rand} (h : r.readPos = 0) :
    r.readByte = (r.int63.1.setWidth 8, { r.uint64.2 with readVal := r.int63.1 >>> 8, readPos := 6 }) := by
  unfold Rand.readByte
  rw [if_pos h]; rfl

theorem readByte_pos {r : Rand} (h : r.readPos ≠ 0) :
    r.readByte = (r.readVal.setWidth 8, { r with readVal := r.readVal >>> 8, readPos := r.readPos - 1 }) := by
  unfold Rand.readByte
  rw [if_neg h]

theorem Sim.read {r r' : Rand} (h : Sim r r') : r.readByte.1 = r'.readByte.1 ∧ Sim r.readByte.2 r'.readByte.2 := by
  by_cases h0 : r.readPos = 0
  · have h0' : r'.readPos = 0 := h.pos ▸ h0
    have hb : ∀ b < 7, byteAt r.int63.1 b = byteAt r'.int63.1 b := fun b hb => by
      rw [byteAt_int63 r hb, byteAt_int63 r' hb]; exact h.words 0 b hb
    rw [readByte_zero h0, readByte_zero h0']
    refine ⟨by simpa only [byteAt_zero] using hb 0 (by omega), ?_⟩
    have hn := h.next
    refine ⟨⟨hn.wf.tap, hn.wf.feed, le_refl _⟩, ⟨hn.wf'.tap, hn.wf'.feed, le_refl _⟩, rfl, fun b hb' => ?_, fun n b hb' => ?_⟩
    · simp only at hb' ⊢
      rw [byteAt_shift, byteAt_shift]; exact hb _ (by omega)
    · show byteAt (word { r.uint64.2 with readVal := r.int63.1 >>> 8, readPos := 6 } n) b
        = byteAt (word { r'.uint64.2 with readVal := r'.int63.1 >>> 8, readPos := 6 } n) b
      rw [word_with r.uint64.2, word_with r'.uint64.2]
      exact hn.words n b hb'
  · have h0' : r'.readPos ≠ 0 := h.pos ▸ h0
    rw [readByte_pos h0, readByte_pos h0']
    refine ⟨by simpa only [byteAt_zero] using h.rest 0 (by omega), ?_⟩
    refine ⟨⟨h.wf.tap, h.wf.feed, ?_⟩, ⟨h.wf'.tap, h.wf'.feed, ?_⟩, ?_, fun b hb' => ?_, fun n b hb' => ?_⟩
    · have := h.wf.pos; simp only; omega
    · have := h.wf'.pos; simp only; omega
    · simp only [h.pos]
    · simp only at hb' ⊢
      rw [byteAt_shift, byteAt_shift]; exact h.rest _ (by omega)
    · show byteAt (word { r with readVal := r.readVal >>> 8, readPos := r.readPos - 1 } n) b
        = byteAt (word { r' with readVal := r'.readVal >>> 8, readPos := r'.readPos - 1 } n) b
      rw [word_with r, word_with r']
      exact h.words n b hb'

theorem skip_succ (r : Rand) (n : Nat) : r.skip (n + 1) = (r.skip n).readByte.2 := by
  unfold Rand.skip; rw [Function.iterate_succ_apply']

theorem skip_add (r : Rand) (m n : Nat) : r.skip (m + n) = (r.skip n).skip m := by
  unfold Rand.skip; rw [Function.iterate_add_apply]

theorem Sim.skip {r r' : Rand} (h : Sim r r') (n : Nat) : Sim (r.skip n) (r'.skip n) := by
  induction n with
  | zero => exact h
  | succ n ih => rw [skip_succ, skip_succ]; exact ih.read.2

theorem Sim.stream {r r' : Rand} (h : Sim r r') (j : Nat) : r.stream j = r'.stream j := (h.skip j).read.1

theorem WF.read {r : Rand} (h : WF r) : WF r.readByte.2 := by
  by_cases h0 : r.readPos = 0
  · rw [readByte_zero h0]; exact ⟨h.next.tap, h.next.feed, le_refl _⟩
  · rw [readByte_pos h0]; exact ⟨h.tap, h.feed, by have := h.pos; simp only; omega⟩

theorem WF.skip {r : Rand} (h : WF r) (n : Nat) : WF (r.skip n) := by
  induction n with
  | zero => exact h
  | succ n ih => rw [skip_succ]; exact ih.read

theorem skip_pos {r : Rand} {n : Nat} (hn : n ≤ r.readPos) :
    (r.skip n).readPos = r.readPos - n := by
  induction n with
  | zero => rfl
  | succ n ih =>
    have := ih (by omega)
    rw [skip_succ, readByte_pos (by omega)]
    simp only [this]
    omega

/-- A source that starts with a new number delivers the lower seven bytes of each number, lowest first. -/
theorem stream_words {n b : Nat} (hb : b < 7) : ∀ {r : Rand}, r.readPos = 0 → r.stream (7 * n + b) = byteAt (word r n) b := by
  induction n with
  | zero =>
    intro r h0
    have key : ∀ b, b < 7 → (r.skip (b + 1)).readPos = 6 - b ∧ (r.skip (b + 1)).readVal = r.int63.1 >>> (8 * (b + 1)) := by
      intro b
      induction b with
      | zero => intro _; rw [skip_succ, show r.skip 0 = r from rfl, readByte_zero h0]; exact ⟨rfl, rfl⟩
      | succ b ih =>
        intro hb
        obtain ⟨i1, i2⟩ := ih (by omega)
        rw [skip_succ, readByte_pos (by omega)]
        refine ⟨by simp only [i1]; omega, ?_⟩
        simp only [i2]
        rw [← BitVec.shiftRight_add]
        rfl
    rw [Nat.mul_zero, Nat.zero_add]
    show (r.skip b).readByte.1 = _
    rcases Nat.eq_zero_or_pos b with rfl | hpos
    · rw [show r.skip 0 = r from rfl, readByte_zero h0]
      rw [← byteAt_zero, byteAt_int63 r (by omega)]
      rfl
    · obtain ⟨c, rfl⟩ : ∃ c, b = c + 1 := ⟨b - 1, by omega⟩
      obtain ⟨i1, i2⟩ := key c (by omega)
      rw [readByte_pos (by omega), i2]
      exact byteAt_int63 r hb
  | succ n ih =>
    intro r h0
    have key : ∀ b, b < 7 → (r.skip (b + 1)).readPos = 6 - b ∧ (r.skip (b + 1)).vec = r.uint64.2.vec ∧
        (r.skip (b + 1)).tap = r.uint64.2.tap ∧ (r.skip (b + 1)).feed = r.uint64.2.feed := by
      intro b
      induction b with
      | zero => intro _; rw [skip_succ, show r.skip 0 = r from rfl, readByte_zero h0]; exact ⟨rfl, rfl, rfl, rfl⟩
      | succ b ih =>
        intro hb
        obtain ⟨i1, i2, i3, i4⟩ := ih (by omega)
        rw [skip_succ, readByte_pos (by omega)]
        exact ⟨by simp only [i1]; omega, i2, i3, i4⟩
    obtain ⟨k1, k2, k3, k4⟩ := key 6 (by omega)
    have := ih (r := r.skip 7) k1
    rw [word_congr k2 k3 k4] at this
    rw [show word r.uint64.2 n = word r (n + 1) from word_draw r 1 n] at this
    rw [← this]
    show (r.skip _).readByte.1 = ((r.skip 7).skip _).readByte.1
    rw [← skip_add, show 7 * (n + 1) + b = 7 * n + b + 7 by omega]

theorem stream_skip (r : Rand) (m j : Nat) : (r.skip m).stream j = r.stream (j + m) := by
  show ((r.skip m).skip j).readByte.1 = (r.skip _).readByte.1
  rw [← skip_add]

end Verif.Proofs
