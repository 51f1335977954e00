import Verif.Spec.Work
import Verif.Proofs.LeakRules
import Verif.Proofs.CombineAlg
import Mathlib.Algebra.BigOperators.Intervals

/-! # Rules for counting steps -/

namespace Verif.Leak
open Verif Outcome Galois Pool Proofs Spec

/-- At most `n` steps, and exactly `n` if the call succeeds. -/
def Within {α : Type} (n : Nat) (x : Traced α) : Prop := x.work ≤ n ∧ ∀ a, x.out = ok a → x.work = n

theorem work_bind_ok {α β : Type} {x : Traced α} {f : α → Traced β} {a : α} (h : x.out = ok a) :
    (x >>= f).work = x.work + (f a).work := by
  unfold Traced.work
  rw [trace_bind _ _ h, List.map_append, List.sum_append]

theorem work_bind_fail {α β : Type} {x : Traced α} {f : α → Traced β} (h : ∀ a, x.out ≠ ok a) :
    (x >>= f).work = x.work := by
  unfold Traced.work
  have : (x >>= f).trace = x.trace := by
    show x.trace ++ _ = _
    cases hx : x.out with
    | ok a => exact absurd hx (h a)
    | _ => simp
  rw [this]

theorem Within.bind {α β : Type} {m n : Nat} {x : Traced α} {f : α → Traced β} (h : Within m x)
    (hf : ∀ a, x.out = ok a → Within n (f a)) : Within (m + n) (x >>= f) := by
  by_cases hx : ∃ a, x.out = ok a
  · obtain ⟨a, ha⟩ := hx
    obtain ⟨h1, h2⟩ := hf a ha
    constructor
    · rw [work_bind_ok ha]
      have := h.1
      omega
    · intro b hb
      rw [out_bind, ha, ok_bind] at hb
      rw [work_bind_ok ha, h.2 a ha, h2 b hb]
  · push Not at hx
    refine ⟨by rw [work_bind_fail hx]; have := h.1; omega, fun b hb => ?_⟩
    obtain ⟨a, ha, -⟩ := bind_eq_ok.1 (show (x.out >>= fun a => (f a).out) = ok b from hb)
    exact absurd ha (hx a)

theorem Within.cast {α : Type} {m n : Nat} {x : Traced α} (h : Within m x) (e : m = n) : Within n x := e ▸ h

theorem within_pure {α : Type} (a : α) : Within 0 (pure a : Traced α) := ⟨le_rfl, fun _ _ => rfl⟩

theorem within_shows {α : Type} {e : Ev} (o : Outcome α) : Within e.steps (shows e o) := by
  have : (shows e o).work = e.steps := by simp [Traced.work, shows]
  exact ⟨this.le, fun _ _ => this⟩

theorem within_one {α : Type} {e : Ev} (o : Outcome α) (h : e.steps = 1 := by rfl) : Within 1 (shows e o) := h ▸ within_shows o

theorem within_idx {α : Type} (l : List α) (i : Nat) : Within 1 (idx l i) := within_shows _
theorem within_setIdx {α : Type} (l : List α) (i : Nat) (v : α) : Within 1 (setIdx l i v) := within_shows _
theorem within_slice {α : Type} (l : List α) (s e : Nat) : Within 1 (slice l s e) := within_shows _
theorem within_test (c : Prop) [Decidable c] : Within 1 (test c) := ⟨le_rfl, fun _ _ => rfl⟩

/-- A call that fails at once. -/
theorem within_fail {α β : Type} {o : Outcome α} (h : ∀ a, o ≠ ok a) (f : α → Traced β) (n : Nat) : Within n (quiet o >>= f) := by
  refine ⟨?_, fun b hb => ?_⟩
  · rw [work_bind_fail (x := quiet o) h]
    exact Nat.zero_le _
  · obtain ⟨a, ha, -⟩ := bind_eq_ok.1 (show (o >>= fun a => (f a).out) = ok b from hb)
    exact absurd ha (h a)

theorem within_iterUp {σ : Type} (c : Nat → Nat) (I : Nat → σ → Prop) (body : Nat → σ → Traced σ) : ∀ (n : Nat) (s : σ), I 0 s →
    (∀ i < n, ∀ s, I i s → Within (c i) (body i s) ∧ ∀ t, (body i s).out = ok t → I (i + 1) t) →
    Within (∑ i ∈ Finset.range n, c i) (iterUp n body s) ∧ ∀ t, (iterUp n body s).out = ok t → I n t
  | 0, s, h, _ => ⟨within_pure s, fun t ht => by cases ht; exact h⟩
  | n + 1, s, h, hb => by
    obtain ⟨h1, h2⟩ := within_iterUp c I body n s h fun i hi => hb i (by omega)
    rw [Finset.sum_range_succ]
    refine ⟨h1.bind fun a ha => (hb n (by omega) a (h2 a ha)).1, fun t ht => ?_⟩
    obtain ⟨a, ha, ht⟩ := bind_eq_ok.1 (show ((iterUp n body s).out >>= fun a => (body n a).out) = ok t from ht)
    exact (hb n (by omega) a (h2 a ha)).2 t ht

theorem within_forUp {σ : Type} (c : Nat → Nat) {body : Nat → σ → Traced σ} {n : Nat} {s : σ}
    (hb : ∀ i < n, ∀ s, Within (c i) (body i s)) : Within (1 + ∑ i ∈ Finset.range n, c i) (forUp n body s) :=
  (within_shows _).bind fun _ _ => (within_iterUp c (fun _ _ => True) body n s trivial fun i hi s _ => ⟨hb i hi s, fun _ _ => trivial⟩).1

/-- All iterations make the same number of steps. -/
theorem within_forUp' {σ : Type} {c : Nat} {body : Nat → σ → Traced σ} {n : Nat} {s : σ}
    (hb : ∀ i < n, ∀ s, Within c (body i s)) : Within (1 + n * c) (forUp n body s) :=
  (within_forUp (fun _ => c) hb).cast (by simp)

theorem within_div (a b : Byte) : Within 4 (div a b) := by
  unfold div
  refine (within_test _).bind (n := 3) fun t _ => ?_
  cases t
  · refine (within_one _).bind (n := 2) fun _ _ => (within_one _).bind (n := 1) fun _ _ => (within_one _).bind (n := 0) fun _ _ => within_pure _
  · exact within_fail (by simp) _ _

theorem within_mult (a b : Byte) : Within 3 (mult a b) := by
  unfold mult
  exact (within_one _).bind (n := 2) fun _ _ => (within_one _).bind (n := 1) fun _ _ => (within_one _).bind (n := 0) fun _ _ => within_pure _

theorem within_interpolate (xs ys : List Byte) (x : Byte) :
    Within (1 + xs.length * (10 * xs.length - 4)) (interpolatePolynomial xs ys x) := by
  refine within_forUp' fun i hi res => ?_
  refine Within.cast (m := (1 + ∑ j ∈ Finset.range xs.length, if i = j then 1 else 10) + (1 + (3 + 0))) ?_ ?_
  · refine Within.bind ?_ fun basis _ => (within_idx _ _).bind fun _ _ => (within_mult _ _).bind fun _ _ => within_pure _
    refine within_forUp _ fun j hj b => ?_
    refine Within.cast (m := 1 + (if i = j then 0 else 9)) ((within_test _).bind fun t ht => ?_) (by split <;> rfl)
    cases ht
    by_cases e : i = j
    · simp only [e, decide_true, if_true]
      exact within_pure _
    · simp only [e, decide_false, Bool.false_eq_true, if_false]
      exact (within_idx _ _).bind fun _ _ => (within_idx _ _).bind fun _ _ => (within_div _ _).bind fun _ _ => within_mult _ _
  · have : ∀ j, (if i = j then 1 else 10) + (if i = j then 9 else 0) = 10 := fun j => by split <;> rfl
    have h := Finset.sum_congr rfl fun j (_ : j ∈ Finset.range xs.length) => this j
    rw [Finset.sum_add_distrib, Finset.sum_ite_eq, if_pos (by simpa using hi)] at h
    simp only [Finset.sum_const, Finset.card_range, smul_eq_mul] at h
    omega

theorem within_checkLengths (parts : List (List Byte)) (n : Nat) : Within (1 + (parts.length - 1) * 2) (checkLengths parts n) := by
  refine within_forUp' fun i _ _ => (within_idx _ _).bind fun p _ => ((within_test _).bind (n := 0) fun t _ => ?_)
  cases t
  · exact within_pure _
  · exact within_fail (by simp) _ _

theorem within_collectTags (parts : List (List Byte)) (n : Nat) (xs : List Byte) : Within (1 + parts.length * 5) (collectTags parts n xs) := by
  refine within_forUp' fun i _ st => ?_
  obtain ⟨x, m⟩ := st
  refine (within_idx _ _).bind (n := 4) fun p _ => (within_idx _ _).bind (n := 3) fun s _ => (within_one _).bind (n := 2) fun _ _ =>
    ((within_test _).bind (n := 1) fun t _ => ?_)
  cases t
  · exact (within_setIdx _ _ _).bind fun _ _ => within_pure _
  · exact within_fail (by simp) _ _

theorem within_collectY (parts : List (List Byte)) (j : Nat) (ys : List Byte) : Within (1 + parts.length * 3) (collectY parts j ys) :=
  within_forUp' fun _ _ _ => (within_idx _ _).bind fun _ _ => (within_idx _ _).bind fun _ _ => within_setIdx _ _ _

theorem work_bind_le {α β : Type} {m n : Nat} {x : Traced α} {f : α → Traced β} (h : x.work ≤ m)
    (hf : ∀ a, x.out = ok a → (f a).work ≤ n) : (x >>= f).work ≤ m + n := by
  by_cases hx : ∃ a, x.out = ok a
  · obtain ⟨a, ha⟩ := hx
    rw [work_bind_ok ha]
    have := hf a ha
    omega
  · push Not at hx
    rw [work_bind_fail hx]
    omega

theorem work_fail {α β : Type} {o : Outcome α} (h : ∀ a, o ≠ ok a) (f : α → Traced β) (n : Nat) : (quiet o >>= f).work ≤ n :=
  (within_fail h f n).1

/-- The steps of a call of Combine that succeeds. -/
theorem work_combine_ok {parts : List (List Byte)} {s : List Byte} (h : Shamir.combine parts = ok s) :
    (Leak.combine parts).work = 7 * parts.length + 4 + s.length * (10 * parts.length ^ 2 - parts.length + 3) := by
  obtain ⟨⟨h2, h3, h4, h5⟩, hs⟩ := combine_ok_iff.1 h
  have key : Within (1 + (1 + (1 + ((1 + (parts.length - 1) * 2) + ((1 + parts.length * 5) +
      (1 + s.length * (10 * parts.length ^ 2 - parts.length + 3) + 0)))))) (Leak.combine parts) := by
    unfold Leak.combine
    refine (within_test _).bind fun t _ => ?_
    cases t
    swap
    · exact within_fail (by simp) _ _
    refine (within_idx _ _).bind fun p hp => ?_
    refine (within_test _).bind fun t _ => ?_
    cases t
    swap
    · exact within_fail (by simp) _ _
    refine (within_checkLengths _ _).bind fun _ _ => ?_
    have hpl : p.length = (parts.headD []).length := by
      rw [out_idx, idx_eq_ok] at hp
      exact h4 p (List.mem_of_getElem? hp)
    have hsl : p.length - 1 = s.length := by rw [hs, hpl]; simp [recover]
    refine (within_collectTags _ _ _).bind fun st hst => ?_
    obtain ⟨xs, m⟩ := st
    have hxl : xs.length = parts.length := by
      rw [out_collectTags, collectTags_eq (by omega) (by rw [hpl]; exact h4) _ (by simp), if_pos h5] at hst
      cases hst
      simp [tags]
    refine Within.bind (n := 0) ?_ fun st _ => ?_
    · rw [List.length_replicate, hsl]
      refine within_forUp' fun j _ st => ?_
      obtain ⟨sec, ys⟩ := st
      refine Within.cast (m := (1 + parts.length * 3) + ((1 + xs.length * (10 * xs.length - 4)) + (1 + 0))) ?_ ?_
      · exact (within_collectY _ _ _).bind fun _ _ => (within_interpolate _ _ _).bind fun _ _ => (within_setIdx _ _ _).bind fun _ _ => within_pure _
      · rw [hxl]
        obtain ⟨k, hk⟩ : ∃ k, parts.length = k + 1 := ⟨parts.length - 1, by omega⟩
        rw [hk]
        have e1 : 10 * (k + 1) - 4 = 10 * k + 6 := by omega
        have e2 : 10 * (k + 1) ^ 2 - (k + 1) = 10 * k ^ 2 + 19 * k + 9 := by
          have : 10 * (k + 1) ^ 2 = 10 * k ^ 2 + 19 * k + 9 + (k + 1) := by ring
          omega
        rw [e1, e2]
        ring
    · obtain ⟨sec, ys⟩ := st
      exact within_pure _
  rw [key.2 s (by rw [out_combine]; exact h)]
  omega

/-- The steps of a call of Combine that does not succeed. -/
theorem work_combine_fail {parts : List (List Byte)} (h : ∀ s, Shamir.combine parts ≠ ok s) :
    (Leak.combine parts).work ≤ 7 * parts.length + 4 := by
  unfold Leak.combine
  refine (work_bind_le (n := 7 * parts.length + 3) (within_test _).1 fun t ht1 => ?_).trans (by omega)
  cases t
  swap
  · exact work_fail (by simp) _ _
  have hlen : ¬ parts.length < 2 := by simpa using ht1
  have key : 1 + (1 + ((1 + (parts.length - 1) * 2) + ((1 + parts.length * 5) + 0))) ≤ 7 * parts.length + 3 := by omega
  refine le_trans ?_ key
  refine work_bind_le (within_idx _ _).1 fun p hp => ?_
  refine work_bind_le (within_test _).1 fun t ht2 => ?_
  cases t
  swap
  · exact work_fail (by simp) _ _
  refine work_bind_le (within_checkLengths _ _).1 fun _ hc => ?_
  refine work_bind_le (within_collectTags _ _ _).1 fun st hst => ?_
  exfalso
  have hpl : ¬ p.length < 2 := by simpa using ht2
  rw [out_checkLengths, checkLengths_eq] at hc
  split at hc
  swap
  · cases hc
  rename_i hc'
  rw [out_idx, idx_eq_ok] at hp
  have hall : ∀ q ∈ parts, q.length = p.length := by
    cases parts with
    | nil => simp at hp
    | cons a l =>
      simp only [List.getElem?_cons_zero, Option.some.injEq] at hp
      subst hp
      intro q hq
      rcases List.mem_cons.1 hq with rfl | hq
      · rfl
      · exact hc' q hq
  rw [out_collectTags, collectTags_eq (by omega) hall _ (by simp)] at hst
  split at hst
  swap
  · cases hst
  rename_i hnd
  exact h _ (combine_ok (N := p.length - 1) (by omega) (by omega) (fun q hq => by rw [hall q hq]; omega) hnd)

end Verif.Leak
