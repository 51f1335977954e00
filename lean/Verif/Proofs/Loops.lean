import Verif.Basic

/-! # Rules for loops, checked slices and element-by-element filling -/

namespace Verif.Proofs
open Verif Outcome

variable {α β σ : Type}

theorem forUp_eq {n : Nat} {body : Nat → σ → Outcome σ} {s : σ} (f : Nat → σ) (h0 : f 0 = s)
    (hs : ∀ i < n, body i (f i) = ok (f (i + 1))) : forUp n body s = ok (f n) := by
  subst h0
  induction n with
  | zero => rfl
  | succ n ih =>
    rw [forUp, ih (fun i hi => hs i (by omega)), ok_bind, hs n (by omega)]

theorem forDown_eq {n : Nat} {body : Nat → σ → Outcome σ} {s : σ} (f : Nat → σ) (h0 : f n = s)
    (hs : ∀ i < n, body i (f (i + 1)) = ok (f i)) : forDown n body s = ok (f 0) := by
  subst h0
  induction n with
  | zero => rfl
  | succ n ih =>
    rw [forDown, hs n (by omega), ok_bind, ih (fun i hi => hs i (by omega))]

/-- Invariant rule. -/
theorem forUp_inv {n : Nat} {body : Nat → σ → Outcome σ} {s : σ} (P : Nat → σ → Prop) (h0 : P 0 s)
    (hs : ∀ i < n, ∀ s, P i s → ∃ s', body i s = ok s' ∧ P (i + 1) s') :
    ∃ s', forUp n body s = ok s' ∧ P n s' := by
  induction n with
  | zero => exact ⟨s, rfl, h0⟩
  | succ n ih =>
    obtain ⟨s1, h1, p1⟩ := ih (fun i hi => hs i (by omega))
    obtain ⟨s2, h2, p2⟩ := hs n (by omega) s1 p1
    exact ⟨s2, by rw [forUp, h1, ok_bind, h2], p2⟩

/-- A successful loop passes through successful states. -/
theorem forUp_ok_inv {n : Nat} {body : Nat → σ → Outcome σ} {s s' : σ} (P : Nat → σ → Prop) (h0 : P 0 s)
    (hs : ∀ i < n, ∀ s s', P i s → body i s = ok s' → P (i + 1) s')
    (h : forUp n body s = ok s') : P n s' := by
  induction n generalizing s' with
  | zero => simp [forUp] at h; exact h ▸ h0
  | succ n ih =>
    rw [forUp, bind_eq_ok] at h
    obtain ⟨s1, h1, h2⟩ := h
    exact hs n (by omega) _ _ (ih (fun i hi => hs i (by omega)) h1) h2

theorem forUp_congr {n : Nat} {f g : Nat → σ → Outcome σ} {s : σ} (h : ∀ i < n, ∀ s, f i s = g i s) :
    forUp n f s = forUp n g s := by
  induction n with
  | zero => rfl
  | succ n ih =>
    rw [forUp, forUp, ih (fun i hi => h i (by omega))]
    congr 1
    funext s
    exact h n (by omega) s

theorem forUp_add {m n : Nat} {f : Nat → σ → Outcome σ} {s : σ} :
    forUp (m + n) f s = forUp m f s >>= forUp n (fun i => f (m + i)) := by
  induction n with
  | zero =>
    have : (fun s : σ => forUp 0 (fun i => f (m + i)) s) = fun s => ok s := by funext s; rfl
    change _ = forUp m f s >>= (fun s : σ => forUp 0 (fun i => f (m + i)) s)
    rw [this]; simp
  | succ n ih =>
    rw [← Nat.add_assoc, forUp, ih, bind_assoc]
    rfl

/-- First failing iteration decides. -/
theorem forUp_fail {n k : Nat} {body : Nat → σ → Outcome σ} {s : σ} {o : Outcome σ} (hk : k < n)
    (f : Nat → σ) (h0 : f 0 = s) (hs : ∀ i < k, body i (f i) = ok (f (i + 1)))
    (hf : body k (f k) = o) (ho : ∀ a, o ≠ ok a) : forUp n body s = o := by
  obtain ⟨m, rfl⟩ : ∃ m, n = k + (m + 1) := ⟨n - k - 1, by omega⟩
  rw [forUp_add, forUp_eq f h0 hs, ok_bind]
  induction m with
  | zero => rw [forUp, forUp, ok_bind]; exact hf
  | succ m ih =>
    rw [forUp, ih (by omega)]
    cases o <;> simp_all

theorem idx_ok {l : List α} {i : Nat} (h : i < l.length) : idx l i = ok l[i] := by
  simp [idx, List.getElem?_eq_getElem h]

theorem idx_eq_ok {l : List α} {i : Nat} {a : α} : idx l i = ok a ↔ l[i]? = some a := by
  unfold idx
  cases l[i]? <;> simp

theorem idx_panic {l : List α} {i : Nat} (h : l.length ≤ i) : idx l i = panic := by
  simp [idx, List.getElem?_eq_none h]

theorem setIdx_ok {l : List α} {i : Nat} (h : i < l.length) (v : α) : setIdx l i v = ok (l.set i v) := by
  simp [setIdx, h]

theorem setIdx_panic {l : List α} {i : Nat} (h : l.length ≤ i) (v : α) : setIdx l i v = panic := by
  simp [setIdx, Nat.not_lt.2 h]

theorem slice_ok {l : List α} {s e : Nat} (h1 : s ≤ e) (h2 : e ≤ l.length) :
    slice l s e = ok ((l.drop s).take (e - s)) := by
  simp [slice, h1, h2]

theorem slice_self {l : List α} {n : Nat} (h : n = l.length) : slice l 0 n = ok l := by
  subst h; simp [slice]

@[simp] theorem length_writeAt {l : List α} {s : Nat} {w : List α} (h : s + w.length ≤ l.length) :
    (writeAt l s w).length = l.length := by
  simp [writeAt]; omega

@[simp] theorem length_copyInto {d s : List α} : (copyInto d s).length = d.length := by
  simp [copyInto]; omega

theorem copyInto_same {d s : List α} (h : d.length = s.length) : copyInto d s = s := by
  simp [copyInto, h]

theorem writeAt_zero_same {l w : List α} (h : w.length = l.length) : writeAt l 0 w = w := by
  simp [writeAt, h]

theorem writeAt_zero {l w : List α} : writeAt l 0 w = w ++ l.drop w.length := by
  simp [writeAt]

/-- `l` after its first `i` elements were replaced by `f 0, f 1, ...`. -/
def filled (f : Nat → α) (l : List α) (i : Nat) : List α := (List.range i).map f ++ l.drop i

@[simp] theorem filled_zero (f : Nat → α) (l : List α) : filled f l 0 = l := by simp [filled]

theorem length_filled {f : Nat → α} {l : List α} {i : Nat} (h : i ≤ l.length) :
    (filled f l i).length = l.length := by simp [filled]; omega

theorem filled_all {f : Nat → α} {l : List α} {n : Nat} (h : n = l.length) :
    filled f l n = (List.range n).map f := by simp [filled, h]

theorem getElem?_filled {f : Nat → α} {l : List α} {i k : Nat} (h : i ≤ l.length) :
    (filled f l i)[k]? = if k < i then some (f k) else l[k]? := by
  unfold filled
  split
  · rename_i hk
    rw [List.getElem?_append_left (by simpa using hk)]
    simp [hk]
  · rename_i hk
    rw [List.getElem?_append_right (by simpa using hk)]
    simp only [List.length_map, List.length_range, List.getElem?_drop]
    congr 1; omega

theorem filled_set {f : Nat → α} {l : List α} {i : Nat} (h : i < l.length) {v : α} (hv : v = f i) :
    (filled f l i).set i v = filled f l (i + 1) := by
  apply List.ext_getElem?
  intro k
  rw [List.getElem?_set, getElem?_filled (by omega), getElem?_filled (by omega), length_filled (by omega)]
  by_cases hk : i = k
  · subst hk; simp [h, hv]
  · by_cases h2 : k < i
    · have : k < i + 1 := by omega
      simp [hk, h2, this]
    · have : ¬ k < i + 1 := by omega
      simp [hk, h2, this]

theorem setIdx_filled {f : Nat → α} {l : List α} {i : Nat} (h : i < l.length) {v : α} (hv : v = f i) :
    setIdx (filled f l i) i v = ok (filled f l (i + 1)) := by
  rw [setIdx_ok (by rw [length_filled (by omega)]; exact h), filled_set h hv]

theorem idx_filled {f : Nat → α} {l : List α} {i : Nat} (h : i < l.length) :
    idx (filled f l i) i = ok l[i] := by
  rw [idx_eq_ok, getElem?_filled (by omega)]
  simp [h]

theorem range_map_getElem (l : List α) (g : α → β) (d : α) :
    (List.range l.length).map (fun i => g (l.getD i d)) = l.map g := by
  apply List.ext_getElem?
  intro k
  by_cases h : k < l.length
  · simp [h, List.getD_eq_getElem?_getD]
  · have h' : l.length ≤ k := by omega
    simp [h']

/-- The usual in-place loop `for i := range l { l[i] = g(i, l[i]) }`. -/
theorem forUp_fill {l : List α} {n : Nat} {body : Nat → List α → Outcome (List α)} (f : Nat → α)
    (hn : n ≤ l.length)
    (hb : ∀ i (hi : i < n), body i (filled f l i) = ok (filled f l (i + 1))) :
    forUp n body l = ok (filled f l n) :=
  forUp_eq (filled f l) (filled_zero f l) hb

end Verif.Proofs
