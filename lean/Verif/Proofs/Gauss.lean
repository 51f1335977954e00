import Verif.Model.Vandermonde
import Mathlib.LinearAlgebra.FiniteDimensional.Lemmas
import Mathlib.LinearAlgebra.Dimension.Constructions
import Mathlib.Algebra.BigOperators.Ring.Finset

/-! # Gaussian elimination inverts every matrix without kernel -/

namespace Verif.Proofs.Gauss
open Verif Spec RS.Klauspost Finset

/-- an entry as an element of the field -/
def e (a : Mat) (r c : Nat) : GF := ⟨a r c⟩

theorem e_eq {a : Mat} {r c : Nat} {x : GF} : a r c = x.val ↔ e a r c = x := by
  constructor
  · intro h; exact GF.ext' h
  · intro h; rw [← h]; rfl

theorem e_zero {a : Mat} {r c : Nat} : a r c = 0 ↔ e a r c = 0 := e_eq (x := 0)
theorem e_one {a : Mat} {r c : Nat} : a r c = 1 ↔ e a r c = 1 := e_eq (x := 1)

theorem e_swap (r₁ r₂ : Nat) (a : Mat) (r c : Nat) :
    e (swapRows r₁ r₂ a) r c = if r = r₁ then e a r₂ c else if r = r₂ then e a r₁ c else e a r c := by
  unfold e swapRows
  split
  · rfl
  · split <;> rfl

theorem e_scale (r : Nat) (s : Byte) (a : Mat) (i c : Nat) :
    e (scaleRow r s a) i c = if i = r then e a r c * ⟨s⟩ else e a i c := by
  unfold e scaleRow
  by_cases h : i = r
  · subst h; rw [if_pos rfl, Function.update_self]; rfl
  · rw [if_neg h, Function.update_of_ne h]

theorem e_add (row : Nat) (s : Byte) (r : Nat) (a : Mat) (i c : Nat) :
    e (addRow row s r a) i c = if i = row then e a row c + ⟨s⟩ * e a r c else e a i c := by
  unfold e addRow
  by_cases h : i = row
  · subst h; rw [if_pos rfl, Function.update_self]; rfl
  · rw [if_neg h, Function.update_of_ne h]

/-- row times vector -/
noncomputable def dot (n : Nat) (a : Mat) (r : Nat) (x : Nat → GF) : GF := ∑ c ∈ range n, e a r c * x c

theorem dot_swap (n r₁ r₂ : Nat) (a : Mat) (r : Nat) (x : Nat → GF) :
    dot n (swapRows r₁ r₂ a) r x = if r = r₁ then dot n a r₂ x else if r = r₂ then dot n a r₁ x else dot n a r x := by
  unfold dot
  simp only [e_swap]
  split
  · rfl
  · split <;> rfl

theorem dot_scale (n r : Nat) (s : Byte) (a : Mat) (i : Nat) (x : Nat → GF) :
    dot n (scaleRow r s a) i x = if i = r then ⟨s⟩ * dot n a r x else dot n a i x := by
  unfold dot
  simp only [e_scale]
  split
  · rw [mul_sum]; exact sum_congr rfl fun c _ => by ring
  · rfl

theorem dot_add (n row : Nat) (s : Byte) (r : Nat) (a : Mat) (i : Nat) (x : Nat → GF) :
    dot n (addRow row s r a) i x = if i = row then dot n a row x + ⟨s⟩ * dot n a r x else dot n a i x := by
  unfold dot
  simp only [e_add]
  split
  · rw [mul_sum, ← sum_add_distrib]; exact sum_congr rfl fun c _ => by ring
  · rfl

/-- What row operations preserve: the left half is the right half times `A`, and the left half has no kernel. -/
structure Inv (n : Nat) (A : Nat → Nat → GF) (a : Mat) : Prop where
  prod : ∀ r < n, ∀ c < n, e a r c = ∑ i ∈ range n, e a r (n + i) * A i c
  ker : ∀ x : Nat → GF, (∀ r < n, dot n a r x = 0) → ∀ c < n, x c = 0

theorem Inv.swap {n : Nat} {A : Nat → Nat → GF} {a : Mat} (h : Inv n A a) {r s : Nat} (hr : r < n) (hs : s < n) :
    Inv n A (swapRows r s a) where
  prod i hi c hc := by
    simp only [e_swap]
    split
    · exact h.prod _ hs c hc
    · split
      · exact h.prod _ hr c hc
      · exact h.prod _ hi c hc
  ker x hx := by
    simp only [dot_swap] at hx
    refine h.ker x fun i hi => ?_
    by_cases h1 : i = r
    · have := hx s hs
      by_cases h2 : s = r
      · rw [h1]; rw [if_pos h2] at this; rw [← h2]; exact this
      · rw [if_neg h2, if_pos rfl] at this; rw [h1]; exact this
    · by_cases h2 : i = s
      · have := hx r hr
        rw [if_pos rfl] at this; rw [h2]; exact this
      · have := hx i hi
        rwa [if_neg h1, if_neg h2] at this

theorem Inv.scale {n : Nat} {A : Nat → Nat → GF} {a : Mat} (h : Inv n A a) {r : Nat} (hr : r < n) {s : Byte}
    (hs : (⟨s⟩ : GF) ≠ 0) : Inv n A (scaleRow r s a) where
  prod i hi c hc := by
    simp only [e_scale]
    split
    · rw [h.prod _ hr c hc, sum_mul]; exact sum_congr rfl fun c _ => by ring
    · exact h.prod _ hi c hc
  ker x hx := by
    simp only [dot_scale] at hx
    refine h.ker x fun i hi => ?_
    have := hx i hi
    by_cases h1 : i = r
    · rw [if_pos h1] at this; rw [h1]; exact (mul_eq_zero.1 this).resolve_left hs
    · rwa [if_neg h1] at this

theorem Inv.add {n : Nat} {A : Nat → Nat → GF} {a : Mat} (h : Inv n A a) {row r : Nat} (hrow : row < n) (hr : r < n)
    (hne : row ≠ r) (s : Byte) : Inv n A (addRow row s r a) where
  prod i hi c hc := by
    simp only [e_add]
    split
    · rw [h.prod _ hrow c hc, h.prod _ hr c hc, mul_sum, ← sum_add_distrib]; exact sum_congr rfl fun c _ => by ring
    · exact h.prod _ hi c hc
  ker x hx := by
    simp only [dot_add] at hx
    refine h.ker x fun i hi => ?_
    have h0 := hx r hr
    rw [if_neg (Ne.symm hne)] at h0
    have := hx i hi
    by_cases h1 : i = row
    · rw [if_pos h1, h0, mul_zero, add_zero] at this; rw [h1]; exact this
    · rwa [if_neg h1] at this

/-- After `k` steps: ones on the diagonal and zeros below it, in the first `k` columns. -/
structure Shape (n k : Nat) (a : Mat) : Prop where
  one : ∀ i < k, e a i i = 1
  low : ∀ c < k, ∀ i < n, c < i → e a i c = 0

theorem foldl_range_inv {α : Type} (P : Nat → α → Prop) (f : α → Nat → α) (n : Nat) {a : α} (h0 : P 0 a)
    (hs : ∀ i < n, ∀ a, P i a → P (i + 1) (f a i)) : P n ((List.range n).foldl f a) := by
  induction n with
  | zero => exact h0
  | succ n ih =>
    rw [List.range_succ, List.foldl_append]
    exact hs n (by omega) _ (ih fun i hi => hs i (by omega))

theorem foldlM_range_inv {α : Type} (P : Nat → α → Prop) (f : α → Nat → Option α) (n : Nat) {a : α} (h0 : P 0 a)
    (hs : ∀ i < n, ∀ a, P i a → ∃ a', f a i = some a' ∧ P (i + 1) a') :
    ∃ a', (List.range n).foldlM f a = some a' ∧ P n a' := by
  induction n with
  | zero => exact ⟨a, rfl, h0⟩
  | succ n ih =>
    obtain ⟨b, hb, hPb⟩ := ih fun i hi => hs i (by omega)
    obtain ⟨c, hc, hPc⟩ := hs n (by omega) b hPb
    refine ⟨c, ?_, hPc⟩
    rw [List.range_succ, List.foldlM_append, hb]
    simpa using hc

/-- A matrix without kernel has a pivot. -/
theorem exists_pivot {n k : Nat} {A : Nat → Nat → GF} {a : Mat} (h : Inv n A a) (hs : Shape n k a) (hk : k < n) :
    ∃ i, k ≤ i ∧ i < n ∧ e a i k ≠ 0 := by
  by_contra hcon
  push Not at hcon
  let φ : (Fin (k + 1) → GF) →ₗ[GF] (Fin k → GF) :=
    { toFun := fun v i => ∑ c : Fin (k + 1), e a i c * v c
      map_add' := fun v w => by funext i; simp [mul_add, sum_add_distrib]
      map_smul' := fun t v => by
        funext i
        simp only [Pi.smul_apply, smul_eq_mul, RingHom.id_apply, mul_sum]
        exact sum_congr rfl fun c _ => by ring }
  have hker : LinearMap.ker φ ≠ ⊥ := LinearMap.ker_ne_bot_of_finrank_lt (by simp)
  obtain ⟨v, hv, hv0⟩ := Submodule.exists_mem_ne_zero_of_ne_bot hker
  let x : Nat → GF := fun c => if hc : c < k + 1 then v ⟨c, hc⟩ else 0
  have hdot : ∀ r < n, dot n a r x = ∑ c : Fin (k + 1), e a r c * v c := by
    intro r _
    unfold dot
    rw [← sum_subset (s₁ := range (k + 1)) (fun c hc => by
      simp only [mem_range] at hc ⊢; omega) (fun c _ hc => by
        simp only [mem_range] at hc
        simp only [x]
        rw [dif_neg hc, mul_zero])]
    rw [Finset.sum_range]
    exact sum_congr rfl fun c _ => by simp only [x]; rw [dif_pos c.2]
  have hx := h.ker x (fun r hr => by
    rw [hdot r hr]
    by_cases hrk : r < k
    · have := congrFun (LinearMap.mem_ker.1 hv) ⟨r, hrk⟩
      exact this
    · refine sum_eq_zero fun c _ => ?_
      have hc := c.2
      by_cases hck : (c : Nat) < k
      · rw [hs.low c hck r hr (by omega), zero_mul]
      · rw [show (c : Nat) = k by omega, hcon r (by omega) hr, zero_mul])
  apply hv0
  funext c
  have hc := c.2
  have := hx c (by omega)
  simp only [x] at this
  rw [dif_pos hc] at this
  exact this

theorem clear_below {n r : Nat} {A : Nat → Nat → GF} (hr : r < n) {a : Mat} (h : Inv n A a) (hs : Shape n r a)
    (h1 : e a r r = 1) : Inv n A (clearBelow n a r) ∧ Shape n (r + 1) (clearBelow n a r) := by
  have := foldl_range_inv (fun j a => Inv n A a ∧ Shape n r a ∧ e a r r = 1 ∧ ∀ i < j, r < i → e a i r = 0)
    (fun a below => if r < below ∧ a below r ≠ 0 then addRow below (a below r) r a else a) n (a := a)
    ⟨h, hs, h1, fun i hi => absurd hi (by omega)⟩ (by
      rintro j hj a ⟨hi, hs, h1, hz⟩
      by_cases hc : r < j ∧ a j r ≠ 0
      · simp only [if_pos hc]
        refine ⟨hi.add hj hr (by omega) _, ⟨fun i hik => ?_, fun c hc' i hin hci => ?_⟩, ?_, fun i hij hri => ?_⟩
        · rw [e_add, if_neg (by omega)]; exact hs.one i hik
        · rw [e_add]
          split
          · rename_i he; subst he
            rw [hs.low c hc' i hin hci, hs.low c hc' r hr (by omega), mul_zero, add_zero]
          · exact hs.low c hc' i hin hci
        · rw [e_add, if_neg (by omega)]; exact h1
        · rw [e_add]
          split
          · rw [h1, mul_one]
            exact CharTwo.add_self_eq_zero _
          · exact hz i (by omega) hri
      · simp only [if_neg hc]
        refine ⟨hi, hs, h1, fun i hij hri => ?_⟩
        by_cases hlt : i < j
        · exact hz i hlt hri
        · have : i = j := by omega
          subst this
          by_contra hne
          exact hc ⟨hri, fun h0 => hne (e_zero.1 h0)⟩)
  refine ⟨this.1, ⟨fun i hi => ?_, fun c hc i hin hci => ?_⟩⟩
  · rcases Nat.lt_succ_iff_lt_or_eq.1 hi with h | rfl
    · exact this.2.1.one i h
    · exact this.2.2.1
  · rcases Nat.lt_succ_iff_lt_or_eq.1 hc with h | rfl
    · exact this.2.1.low c h i hin hci
    · exact this.2.2.2 i hin hci

theorem forwardStep_inv {n r : Nat} {A : Nat → Nat → GF} (hr : r < n) {a : Mat} (h : Inv n A a) (hs : Shape n r a) :
    ∃ a', forwardStep n a r = some a' ∧ Inv n A a' ∧ Shape n (r + 1) a' := by
  -- the pivot
  have hp : Inv n A (bringPivot n a r) ∧ Shape n r (bringPivot n a r) ∧ e (bringPivot n a r) r r ≠ 0 := by
    unfold bringPivot
    by_cases h0 : a r r = 0
    · rw [if_pos h0]
      obtain ⟨i, hi1, hi2, hi3⟩ := exists_pivot h hs hr
      have hri : r < i := by
        rcases Nat.lt_or_eq_of_le hi1 with h | rfl
        · exact h
        · exact absurd (e_zero.1 h0) hi3
      cases hf : (List.range n).find? fun below => r < below ∧ a below r ≠ 0 with
      | none =>
        have := List.find?_eq_none.1 hf i (by simpa using hi2)
        simp only [decide_eq_true_eq] at this
        exact absurd ⟨hri, fun h => hi3 (e_zero.1 h)⟩ this
      | some j =>
        have hj := List.find?_some hf
        have hjn : j < n := by simpa using List.mem_of_find?_eq_some hf
        simp only [decide_eq_true_eq] at hj
        refine ⟨h.swap hr hjn, ⟨fun i hi => ?_, fun c hc i hin hci => ?_⟩, ?_⟩
        · rw [e_swap, if_neg (by omega), if_neg (by omega)]; exact hs.one i hi
        · rw [e_swap]
          split
          · exact hs.low c hc j hjn (by omega)
          · split
            · exact hs.low c hc r hr (by omega)
            · exact hs.low c hc i hin hci
        · rw [e_swap, if_pos rfl]
          exact fun h => hj.2 (e_zero.2 h)
    · rw [if_neg h0]
      exact ⟨h, hs, fun h => h0 (e_zero.2 h)⟩
  unfold forwardStep
  generalize bringPivot n a r = b at hp
  obtain ⟨hib, hsb, hb0⟩ := hp
  simp only [if_neg (fun h => hb0 (e_zero.1 h))]
  -- scaling
  have hsc : Inv n A (scaleToOne b r) ∧ Shape n r (scaleToOne b r) ∧ e (scaleToOne b r) r r = 1 := by
    unfold scaleToOne
    by_cases h1 : b r r ≠ 1
    · rw [if_pos h1]
      have hinv : e b r r * ⟨GF.invSpec (b r r)⟩ = 1 :=
        GF.ext' (GF.mul_inv_check _ (fun h => hb0 (e_zero.1 h)))
      refine ⟨hib.scale hr (right_ne_zero_of_mul_eq_one hinv), ⟨fun i hi => ?_, fun c hc i hin hci => ?_⟩, ?_⟩
      · rw [e_scale, if_neg (by omega)]; exact hsb.one i hi
      · rw [e_scale]
        split
        · rw [hsb.low c hc r hr (by omega), zero_mul]
        · exact hsb.low c hc i hin hci
      · rw [e_scale, if_pos rfl, hinv]
    · rw [if_neg h1]
      exact ⟨hib, hsb, e_one.1 (not_not.1 h1)⟩
  exact ⟨_, rfl, clear_below hr hsc.1 hsc.2.1 hsc.2.2⟩

theorem backwardStep_inv {n d : Nat} {A : Nat → Nat → GF} (hd : d < n) {a : Mat} (h : Inv n A a) (hs : Shape n n a)
    (hz : ∀ c < d, ∀ i < c, e a i c = 0) : Inv n A (backwardStep a d) ∧ Shape n n (backwardStep a d) ∧
      ∀ c < d + 1, ∀ i < c, e (backwardStep a d) i c = 0 := by
  have := foldl_range_inv (fun j a => Inv n A a ∧ Shape n n a ∧ (∀ c < d, ∀ i < c, e a i c = 0) ∧ ∀ i < j, e a i d = 0)
    (fun a above => if a above d ≠ 0 then addRow above (a above d) d a else a) d (a := a)
    ⟨h, hs, hz, fun i hi => absurd hi (by omega)⟩ (by
      rintro j hj a ⟨hi, hs, hz, hzd⟩
      by_cases hc : a j d ≠ 0
      · simp only [if_pos hc]
        refine ⟨hi.add (by omega) hd (by omega) _, ⟨fun i hin => ?_, fun c hcn i hin hci => ?_⟩, fun c hcd i hic => ?_,
          fun i hij => ?_⟩
        · rw [e_add]
          split
          · rename_i he; subst he
            rw [hs.one i hin, hs.low i hin d hd (by omega), mul_zero, add_zero]
          · exact hs.one i hin
        · rw [e_add]
          split
          · rename_i he; subst he
            rw [hs.low c hcn i hin hci, hs.low c hcn d hd (by omega), mul_zero, add_zero]
          · exact hs.low c hcn i hin hci
        · rw [e_add]
          split
          · rename_i he; subst he
            rw [hz c hcd i hic, hs.low c (by omega) d hd (by omega), mul_zero, add_zero]
          · exact hz c hcd i hic
        · rw [e_add]
          split
          · rw [hs.one d hd, mul_one]
            exact CharTwo.add_self_eq_zero _
          · exact hzd i (by omega)
      · simp only [if_neg hc]
        refine ⟨hi, hs, hz, fun i hij => ?_⟩
        by_cases hlt : i < j
        · exact hzd i hlt
        · have : i = j := by omega
          subst this
          exact e_zero.1 (not_not.1 hc))
  refine ⟨this.1, this.2.1, fun c hc i hic => ?_⟩
  rcases Nat.lt_succ_iff_lt_or_eq.1 hc with h | rfl
  · exact this.2.2.1 c h i hic
  · exact this.2.2.2 i hic

/-- `Invert` succeeds on every matrix without kernel, and its result is a left inverse. -/
theorem invert_spec (n : Nat) (a : Mat) (hker : ∀ x : Nat → GF, (∀ r < n, dot n a r x = 0) → ∀ c < n, x c = 0) :
    ∃ b, invert n a = some b ∧
      ∀ r < n, ∀ c < n, ∑ i ∈ range n, e b r i * e a i c = if r = c then 1 else 0 := by
  let w : Mat := fun r c => if c < n then a r c else if c = n + r then 1 else 0
  have hwe : ∀ r, ∀ c < n, e w r c = e a r c := fun r c hc => by unfold e; simp [w, hc]
  have h0 : Inv n (e a) w := by
    refine ⟨fun r hr c hc => ?_, fun x hx => hker x fun r hr => ?_⟩
    · rw [hwe r c hc, sum_eq_single r]
      · have : e w r (n + r) = 1 := GF.ext' (by simp [e, w])
        rw [this, one_mul]
      · intro i _ hir
        have : e w r (n + i) = 0 := GF.ext' (by simp [e, w, hir])
        rw [this, zero_mul]
      · intro h; exact absurd (mem_range.2 hr) h
    · rw [← hx r hr]
      exact sum_congr rfl fun c hc => by rw [hwe r c (mem_range.1 hc)]
  obtain ⟨u, hu, hui, hus⟩ := foldlM_range_inv (fun k a' => Inv n (e a) a' ∧ Shape n k a') (forwardStep n) n (a := w)
    ⟨h0, ⟨fun i hi => absurd hi (by omega), fun c hc => absurd hc (by omega)⟩⟩
    (fun r hr a' h => forwardStep_inv hr h.1 h.2)
  obtain ⟨hv1, hv2, hv3⟩ := foldl_range_inv (fun d a' => Inv n (e a) a' ∧ Shape n n a' ∧ ∀ c < d, ∀ i < c, e a' i c = 0)
    backwardStep n (a := u) ⟨hui, hus, fun c hc => absurd hc (by omega)⟩
    (fun d hd a' h => backwardStep_inv hd h.1 h.2.1 h.2.2)
  refine ⟨fun r c => (List.range n).foldl backwardStep u r (n + c), ?_, ?_⟩
  · unfold invert gaussianElimination
    rw [show (fun r c => if c < n then a r c else if c = n + r then 1 else 0 : Mat) = w from rfl, hu]
    rfl
  · intro r hr c hc
    have := hv1.prod r hr c hc
    rw [show (∑ i ∈ range n, e (fun r c => (List.range n).foldl backwardStep u r (n + c)) r i * e a i c)
      = ∑ i ∈ range n, e ((List.range n).foldl backwardStep u) r (n + i) * e a i c from rfl, ← this]
    rcases Nat.lt_trichotomy r c with h | h | h
    · rw [if_neg (by omega)]; exact hv3 c hc r h
    · subst h; rw [if_pos rfl]; exact hv2.one r hr
    · rw [if_neg (by omega)]; exact hv2.low c hc r hr h

end Verif.Proofs.Gauss
