import Verif.Model.Word
import Verif.Proofs.SplitMatrix
import Verif.Proofs.Results

/-! # Machine integers: where nothing overflows, the models with bounded and unbounded integers agree -/

namespace Verif.Proofs
open Verif Outcome Galois Pool Csprng Spec
open Verif.Word (wrap makeBytes sliceInt growInt)

/-- What fits into a signed integer of `w` bits. -/
abbrev top (w : Nat) : Int := 2 ^ (w - 1)

theorem two_top {w : Nat} (hw : 0 < w) : (2 : Int) ^ w = 2 * top w := by
  obtain ⟨w, rfl⟩ : ∃ v, w = v + 1 := ⟨w - 1, by omega⟩
  simp only [top, Nat.add_sub_cancel]; ring

theorem wrap_eq {w : Nat} (hw : 0 < w) {x : Int} (h0 : -top w ≤ x) (h : x < top w) : wrap w x = x := by
  unfold wrap
  apply Int.bmod_eq_of_le
  all_goals
    have := two_top hw
    push_cast
    omega

theorem wrap_neg {w : Nat} (hw : 0 < w) {x : Int} (h0 : top w ≤ x) (h : x < 2 * top w) : wrap w x < 0 := by
  have h2 := two_top hw
  have : wrap w x = x - 2 ^ w := by
    unfold wrap
    have e : x.bmod (2 ^ w) = (x - 2 ^ w).bmod (2 ^ w) := by
      have := Int.sub_bmod_right x (2 ^ w)
      push_cast at this
      exact this.symm
    rw [e]
    apply Int.bmod_eq_of_le
    all_goals push_cast; omega
  omega

theorem wrap_lt {w : Nat} (hw : 0 < w) (x : Int) : wrap w x < top w := by
  unfold wrap
  have h2 := two_top hw
  have := Int.bmod_lt (x := x) (m := 2 ^ w) (by positivity)
  push_cast at this
  omega

theorem wrap_mul (w : Nat) (x y : Int) : wrap w (wrap w x * y) = wrap w (x * y) := by simp [wrap]
theorem wrap_add (w : Nat) (x y : Int) : wrap w (wrap w x + y) = wrap w (x + y) := by simp [wrap]

theorem sliceInt_nat (l : List Byte) (s e : Nat) : sliceInt l s e = slice l s e := by
  unfold sliceInt slice
  split <;> rename_i h
  · simp
  · rw [if_neg]; omega

theorem sliceInt_zero (l : List Byte) (e : Nat) : sliceInt l 0 e = slice l 0 e := sliceInt_nat l 0 e

theorem makeBytes_nat (n : Nat) : makeBytes n = ok (List.replicate n 0) := by
  unfold makeBytes
  rw [if_neg (by omega), Int.toNat_natCast]

theorem growInt_nat (b : Buf) (n : Nat) : growInt b n = ok (b.grow n) := by
  unfold growInt
  rw [if_neg (by omega), Int.toNat_natCast]

theorem idxInt_nat {α : Type} (l : List α) (i : Nat) : idxInt l (i : Int) = idx l i := by
  unfold idxInt
  rw [if_neg (by omega), Int.toNat_natCast]

/-- Returns or panics. -/
def Plain {α : Type} (x : Outcome α) : Prop := x = panic ∨ ∃ a, x = ok a

theorem plain_bind {α β : Type} {x : Outcome α} {f : α → Outcome β} (h : Plain x) (hf : ∀ a, Plain (f a)) : Plain (x >>= f) := by
  rcases h with rfl | ⟨a, rfl⟩
  · exact .inl rfl
  · exact hf a

theorem plain_idx {α : Type} (l : List α) (i : Nat) : Plain (idx l i) := by
  unfold idx; split
  · exact .inr ⟨_, rfl⟩
  · exact .inl rfl

theorem plain_setIdx {α : Type} (l : List α) (i : Nat) (v : α) : Plain (setIdx l i v) := by
  unfold setIdx; split
  · exact .inr ⟨_, rfl⟩
  · exact .inl rfl

theorem plain_sliceInt (l : List Byte) (s e : Int) : Plain (sliceInt l s e) := by
  unfold sliceInt slice
  split
  · split
    · exact .inr ⟨_, rfl⟩
    · exact .inl rfl
  · exact .inl rfl

/-- A loop whose iterations end normally or panic, and one of which always panics. -/
theorem forUp_panic {σ : Type} {n k : Nat} {body : Nat → σ → Outcome σ} (hk : k < n) (hp : ∀ s, body k s = panic)
    (hb : ∀ i s, Plain (body i s)) (s : σ) : forUp n body s = panic := by
  have any : ∀ m, forUp m body s = panic ∨ ∃ s', forUp m body s = ok s' := by
    intro m
    induction m with
    | zero => exact .inr ⟨s, rfl⟩
    | succ m ih =>
      rw [forUp]
      rcases ih with h | ⟨s', h⟩
      · rw [h]; exact .inl rfl
      · rw [h]; exact hb m s'
  induction n with
  | zero => omega
  | succ n ih =>
    rw [forUp]
    by_cases e : k = n
    · subst e
      rcases any k with h | ⟨s', h⟩
      · rw [h]; rfl
      · rw [h]; exact hp s'
    · rw [ih (by omega)]; rfl

/-- Two loops whose states correspond. -/
theorem forUp_sim {σ τ : Type} {n : Nat} {f : Nat → σ → Outcome σ} {g : Nat → τ → Outcome τ} (φ : σ → τ) (P : Nat → σ → Prop) {s : σ}
    (h0 : P 0 s) (hs : ∀ i < n, ∀ s, P i s → g i (φ s) = φ <$> f i s)
    (hP : ∀ i < n, ∀ s s', P i s → f i s = ok s' → P (i + 1) s') : forUp n g (φ s) = φ <$> forUp n f s := by
  induction n with
  | zero => rfl
  | succ n ih =>
    rw [forUp, forUp, ih (fun i hi => hs i (by omega)) (fun i hi => hP i (by omega))]
    cases h : forUp n f s with
    | ok s' =>
      rw [map_ok, ok_bind, ok_bind]
      exact hs n (by omega) s' (forUp_ok_inv P h0 (fun i hi => hP i (by omega)) h)
    | _ => rfl

theorem forDown_congr {σ : Type} {n : Nat} {f g : Nat → σ → Outcome σ} {s : σ} (h : ∀ i < n, ∀ s, f i s = g i s) :
    forDown n f s = forDown n g s := by
  induction n generalizing s with
  | zero => rfl
  | succ n ih =>
    rw [forDown, forDown, h n (by omega)]
    congr 1
    funext s
    exact ih (fun i hi => h i (by omega))

/-! ## Rows of a matrix that is one array -/

/-- Somewhere the windows of `c` bytes leave an array whose size is `r * c` bytes, computed with overflow. -/
theorem window_fails {w : Nat} (hw : 0 < w) {r c : Nat} (hc : (c : Int) ≤ top w) (h : top w ≤ r * c) {n : Nat}
    (hn : (n : Int) = wrap w (r * c)) (hpos : 0 < c) :
    n / c < r ∧ c * (n / c) ≤ n ∧ ∀ l : List Byte, l.length = n →
      sliceInt l (c * (n / c) : Nat) (wrap w ((c * (n / c) : Nat) + c)) = panic := by
  have h1 := Nat.div_mul_le_self n c
  have h2 := Nat.lt_div_mul_add (a := n) hpos
  have h3 := wrap_lt hw (r * c)
  rw [← hn] at h3
  have h1' : c * (n / c) ≤ n := by rw [Nat.mul_comm]; exact h1
  refine ⟨?_, h1', ?_⟩
  · rw [Nat.div_lt_iff_lt_mul hpos]
    have : (n : Int) < r * c := by omega
    exact_mod_cast this
  · intro l hl
    have h2' : n < c * (n / c) + c := by rw [Nat.mul_comm c]; exact h2
    by_cases hb : ((c * (n / c) : Nat) : Int) + c < top w
    · rw [wrap_eq hw (by positivity |> fun (h : (0 : Int) ≤ top w) => by omega) hb]
      have : ((c * (n / c) : Nat) : Int) + c = ((c * (n / c) + c : Nat) : Int) := by push_cast; rfl
      rw [this, sliceInt_nat]
      unfold slice
      rw [if_neg (by omega)]
    · have := wrap_neg hw (x := ((c * (n / c) : Nat) : Int) + c) (by omega) (by omega)
      unfold sliceInt
      rw [if_neg (by omega)]

/-- `wrap` of a natural number that fits. -/
theorem wrap_nat {w : Nat} (hw : 0 < w) {n : Nat} (h : (n : Int) < top w) : wrap w n = n :=
  wrap_eq hw (by have : (0 : Int) ≤ top w := by positivity
                 omega) h

theorem wrap_of_eq {w : Nat} (hw : 0 < w) {n : Nat} {x : Int} (e : x = n) (h : (n : Int) < top w) : wrap w x = n := by
  rw [e, wrap_nat hw h]

theorem word_allocShares {w : Nat} (hw : 0 < w) {N parts : Nat} (hp : 0 < parts) (xs : List Byte)
    (h : (((N + 1) * parts : Nat) : Int) < top w) : Word.allocShares w N parts xs = Shamir.allocShares N parts xs := by
  unfold Word.allocShares Shamir.allocShares
  simp only [wrap_mul, wrap_add]
  rw [wrap_of_eq hw (n := (N + 1) * parts) (by push_cast; ring) h, makeBytes_nat, ok_bind]
  apply forUp_congr
  intro i hi out
  have hle : (N + 1) * i + (N + 1) ≤ (N + 1) * parts := by rw [← Nat.mul_succ]; exact Nat.mul_le_mul_left _ hi
  rw [wrap_of_eq hw (n := (N + 1) * i) (by push_cast; ring) (by omega),
    wrap_of_eq hw (x := ((N : Int) + 1) * i + N + 1) (n := (N + 1) * i + N + 1) (by push_cast; ring) (by omega), sliceInt_nat]

theorem word_allocShares_panic {w : Nat} (hw : 0 < w) {N parts : Nat} (xs : List Byte) (hN : (N : Int) < top w)
    (h : top w ≤ (((N + 1) * parts : Nat) : Int)) : Word.allocShares w N parts xs = panic := by
  unfold Word.allocShares
  simp only [wrap_mul, wrap_add]
  by_cases hneg : wrap w (((N : Int) + 1) * parts) < 0
  · rw [makeBytes, if_pos hneg]; rfl
  obtain ⟨n, hn⟩ : ∃ n : Nat, (n : Int) = wrap w (((N : Int) + 1) * parts) := ⟨_, Int.toNat_of_nonneg (by omega)⟩
  rw [← hn, makeBytes_nat, ok_bind]
  obtain ⟨h1, h2, h3⟩ := window_fails hw (r := parts) (c := N + 1) (n := n) (by push_cast; omega)
    (by push_cast at h ⊢; linarith) (by rw [hn]; congr 1; push_cast; ring) (by omega)
  refine forUp_panic h1 (fun out => ?_) (fun i out => ?_) _
  · have hlt := wrap_lt hw (((N : Int) + 1) * parts)
    rw [← hn] at hlt
    rw [wrap_of_eq hw (n := (N + 1) * (n / (N + 1))) (by push_cast; ring) (by omega)]
    have := h3 (List.replicate n 0) (by simp)
    push_cast at this ⊢
    rw [add_assoc, this]
    rfl
  · exact plain_bind (plain_sliceInt _ _ _) fun _ => plain_bind (plain_idx _ _) fun _ => plain_bind (plain_setIdx _ _ _) fun _ =>
      plain_setIdx _ _ _

theorem word_setIntercepts {w : Nat} (hw : 0 < w) (s : List Byte) (d : Nat) (buf : List Byte)
    (h : (((d + 1) * s.length : Nat) : Int) < top w) : Word.setIntercepts w s d buf = Shamir.setIntercepts s d buf := by
  unfold Word.setIntercepts Shamir.setIntercepts
  simp only [wrap_mul, wrap_add]
  apply forUp_congr
  intro p hp b
  have hle : (d + 1) * p + (d + 1) ≤ (d + 1) * s.length := by rw [← Nat.mul_succ]; exact Nat.mul_le_mul_left _ hp
  rw [wrap_of_eq hw (x := ((d : Int) + 1) * p + d + 1) (n := (d + 1) * p + d + 1) (by push_cast; ring) (by omega),
    wrap_of_eq hw (n := (d + 1) * p) (by push_cast; ring) (by omega), sliceInt_nat, Int.toNat_natCast]

theorem word_transposeMatrixBuffer {w : Nat} (hw : 0 < w) (dest source : List Byte) {t N : Nat} (ht : 0 < t) (hN : 0 < N)
    (hs : source.length = t * N) (h : ((t * N : Nat) : Int) < top w) :
    Word.transposeMatrixBuffer w dest source t = Shamir.transposeMatrixBuffer dest source t := by
  unfold Word.transposeMatrixBuffer Shamir.transposeMatrixBuffer
  have hq : source.length / t = N := by rw [hs]; exact Nat.mul_div_cancel_left _ ht
  have hq' : (source.length : Int).tdiv t = N := by rw [← Int.ofNat_tdiv, hq]
  rw [if_neg (by omega), if_neg (by omega)]
  simp only [Outcome.pure_eq, hq, hq', wrap_add]
  have key := forUp_sim (n := source.length) (s := (dest, 0, 0))
    (f := fun i (st : List Byte × Nat × Nat) => do
      let v ← idx source (t * st.2.1 + st.2.2)
      let dest ← setIdx st.1 i v
      if st.2.1 + 1 = N then ok (dest, 0, st.2.2 + 1) else ok (dest, st.2.1 + 1, st.2.2))
    (g := fun i (st : List Byte × Int × Int) => do
      let v ← idxInt source (wrap w (t * st.2.1 + st.2.2))
      let dest ← setIdx st.1 i v
      if wrap w (st.2.1 + 1) = N then ok (dest, 0, wrap w (st.2.2 + 1)) else ok (dest, wrap w (st.2.1 + 1), st.2.2))
    (fun st => (st.1, (st.2.1 : Int), (st.2.2 : Int))) (fun i st => st.2.1 < N ∧ N * st.2.2 + st.2.1 = i) ⟨hN, by simp⟩ ?_ ?_
  · simp only [Nat.cast_zero] at key
    rw [key]
    cases forUp source.length _ (dest, 0, 0) <;> rfl
  · rintro i hi ⟨d, r, c⟩ ⟨hr, hc⟩
    have hct : c < t := by
      by_contra hge
      have : N * t ≤ N * c := Nat.mul_le_mul_left _ (by omega)
      rw [hs, Nat.mul_comm] at hi
      simp only at hc
      omega
    have hlt : t * r + c < t * N := by
      calc t * r + c < t * r + t := by omega
        _ = t * (r + 1) := by ring
        _ ≤ t * N := Nat.mul_le_mul_left _ hr
    have h1 : N ≤ t * N := Nat.le_mul_of_pos_left _ ht
    have h2 : t ≤ t * N := Nat.le_mul_of_pos_right _ hN
    simp only at hr hc ⊢
    rw [wrap_of_eq hw (n := t * r + c) (by push_cast; ring) (by omega), wrap_of_eq hw (n := r + 1) (by push_cast; ring) (by omega),
      wrap_of_eq hw (n := c + 1) (by push_cast; ring) (by omega), idxInt_nat]
    cases idx source (t * r + c) with
    | ok v =>
      simp only [ok_bind]
      cases setIdx d i v with
      | ok d' =>
        simp only [ok_bind, Nat.cast_inj]
        split <;> simp
      | _ => rfl
    | _ => rfl
  · rintro i hi ⟨d, r, c⟩ s' ⟨hr, hc⟩ hok
    simp only [bind_eq_ok] at hok
    obtain ⟨v, -, d', -, hok⟩ := hok
    simp only at hr hc
    split at hok <;> rename_i hN' <;> cases hok <;> simp only
    · refine ⟨hN, ?_⟩
      rw [Nat.mul_succ]; omega
    · exact ⟨by omega, by omega⟩

theorem word_evaluate {w : Nat} (hw : 0 < w) (arch : Arch) (cb : List Byte) {t N : Nat} (ht : 0 < t) (hN : 0 < N)
    (hs : cb.length = t * N) (h : ((t * N : Nat) : Int) < top w) (x : Byte) (out : List Byte) (pool : BytesBufferPool) :
    Word.evaluatePolynomialsAtWithCoefficientsBuffer w arch cb N x out pool =
      Shamir.evaluatePolynomialsAtWithCoefficientsBuffer arch cb N x out pool := by
  unfold Word.evaluatePolynomialsAtWithCoefficientsBuffer Shamir.evaluatePolynomialsAtWithCoefficientsBuffer
  have hq : cb.length / N = t := by rw [hs]; exact Nat.mul_div_cancel _ hN
  have hq' : (cb.length : Int).tdiv N = t := by rw [← Int.ofNat_tdiv, hq]
  have h2 : t ≤ t * N := Nat.le_mul_of_pos_right _ hN
  rw [if_neg (by omega), if_neg (by omega), hq, if_neg (by omega)]
  simp only [hq', Outcome.pure_eq, ok_bind]
  obtain ⟨d, rfl⟩ : ∃ d, t = d + 1 := ⟨t - 1, by omega⟩
  have hd : (d + 1) * N = d * N + N := by ring
  rw [wrap_of_eq hw (x := ((d + 1 : Nat) : Int) - 1) (n := d) (by push_cast; ring) (by omega)]
  simp only [wrap_add, growInt_nat, ok_bind, sliceInt_zero, Int.toNat_natCast, Nat.add_sub_cancel]
  rw [wrap_of_eq hw (x := (d : Int) * N + N) (n := d * N + N) (by push_cast; ring) (by omega),
    wrap_of_eq hw (x := (d : Int) * N) (n := d * N) (by push_cast; ring) (by omega), sliceInt_nat]
  have key : ∀ r, forDown d (fun i result => do
        let row ← sliceInt cb (wrap w ((i : Int) * N)) (wrap w ((i : Int) * N + N))
        let m ← mulConstVector arch x result
        addVector arch row m) r =
      forDown d (fun i result => do
        let row ← slice cb (i * N) (i * N + N)
        let m ← mulConstVector arch x result
        addVector arch row m) r := by
    intro r
    apply forDown_congr
    intro i hi r
    have hle : i * N + N ≤ d * N := by rw [← Nat.succ_mul]; exact Nat.mul_le_mul_right _ hi
    rw [wrap_of_eq hw (x := (i : Int) * N + N) (n := i * N + N) (by push_cast; ring) (by omega),
      wrap_of_eq hw (x := (i : Int) * N) (n := i * N) (by push_cast; ring) (by omega), sliceInt_nat]
  simp only [key]

theorem word_fillShares {w : Nat} (hw : 0 < w) (arch : Arch) (cb : List Byte) {t N : Nat} (ht : 0 < t) (hN : 0 < N)
    (hs : cb.length = t * N) (h : ((t * N : Nat) : Int) < top w) (parts : Nat) (xs : List Byte) (out : List (List Byte))
    (pool : BytesBufferPool) : Word.fillShares w arch cb N parts xs out pool = Shamir.fillShares arch cb N parts xs out pool := by
  unfold Word.fillShares Shamir.fillShares
  simp only [word_evaluate hw arch cb ht hN hs h]

/-! ## Split and SplitWithRandomizer -/

/-- What Split and SplitWithRandomizer do once they have the tags. -/
theorem word_rest {w : Nat} (hw : 8 < w) (arch : Arch) {secret : List Byte} {parts threshold : Int}
    (hv : ValidArgs secret parts threshold) (xs : List Byte) (h : parts * (secret.length + 1) < top w) :
    Word.allocShares w secret.length parts.toNat xs = Shamir.allocShares secret.length parts.toNat xs ∧
    wrap w (threshold - 1) = (threshold.toNat - 1 : Nat) ∧
    wrap w (((threshold.toNat - 1 : Nat) : Int) + 1) = threshold.toNat ∧
    wrap w ((threshold.toNat : Int) * secret.length) = (threshold.toNat * secret.length : Nat) ∧
    ((threshold.toNat * secret.length : Nat) : Int) < top w := by
  obtain ⟨h1, h2, h3, h4⟩ := hv
  obtain ⟨p, rfl⟩ : ∃ p : Nat, parts = p := ⟨parts.toNat, by omega⟩
  obtain ⟨t, rfl⟩ : ∃ t : Nat, threshold = t := ⟨threshold.toNat, by omega⟩
  have hN : 0 < secret.length := List.length_pos_iff.2 h4
  have hle : t * secret.length ≤ p * (secret.length + 1) := Nat.mul_le_mul (by omega) (by omega)
  have hlt : ((p * (secret.length + 1) : Nat) : Int) < top w := by push_cast; exact h
  have ht : t ≤ t * secret.length := Nat.le_mul_of_pos_right _ hN
  simp only [Int.toNat_natCast]
  refine ⟨word_allocShares (by omega) (by omega) xs (by rw [Nat.mul_comm]; exact hlt), ?_, ?_, ?_, by omega⟩
  · exact wrap_of_eq (by omega) (by omega) (by omega)
  · exact wrap_of_eq (by omega) (by omega) (by omega)
  · exact wrap_of_eq (by omega) (by push_cast; ring) (by omega)

/-- The polynomials, their transposition and evaluation. -/
theorem word_tail {w : Nat} (hw : 0 < w) (arch : Arch) (secret : List Byte) (hN : 0 < secret.length) {t : Nat} (ht : 0 < t)
    (h : ((t * secret.length : Nat) : Int) < top w) (parts : Nat) (xs : List Byte) (out : List (List Byte)) (buf : List Byte)
    (hb : buf.length = t * secret.length) (bp : Buf) (pool : BytesBufferPool) {β : Type} (k : _ → _ → _ → Outcome β) :
    (do
      let polynomials ← Word.setIntercepts w secret (t - 1 : Nat) buf
      let coefficientBuff ← slice (bp.grow polynomials.length).mem 0 polynomials.length
      let coefficientBuff ← Word.transposeMatrixBuffer w coefficientBuff polynomials t
      let x ← Word.fillShares w arch coefficientBuff secret.length parts xs out pool
      k polynomials coefficientBuff x) =
    (do
      let polynomials ← Shamir.setIntercepts secret (t - 1) buf
      let coefficientBuff ← slice (bp.grow polynomials.length).mem 0 polynomials.length
      let coefficientBuff ← Shamir.transposeMatrixBuffer coefficientBuff polynomials t
      let x ← Shamir.fillShares arch coefficientBuff secret.length parts xs out pool
      k polynomials coefficientBuff x) := by
  have et : t - 1 + 1 = t := by omega
  rw [word_setIntercepts hw _ _ _ (by rw [et]; exact h), setIntercepts_eq _ _ _ (by rw [et]; exact hb), ok_bind, ok_bind]
  have hl : (withIntercepts secret (t - 1 + 1) buf secret.length).length = t * secret.length := by rw [length_withIntercepts, hb]
  generalize withIntercepts secret (t - 1 + 1) buf secret.length = pol at hl
  rw [slice_ok (Nat.zero_le _) (length_grow _ _), ok_bind, ok_bind, word_transposeMatrixBuffer hw _ _ ht hN hl h]
  have hg := length_grow bp pol.length
  rw [transposeBuffer_eq _ _ t secret.length ht hN hl (by simp; omega), ok_bind, ok_bind, word_fillShares hw arch _ ht hN (by simp) h]

theorem word_split {w : Nat} (hw : 8 < w) (arch : Arch) {secret : List Byte} {parts threshold : Int}
    (hv : ValidArgs secret parts threshold) (perm : List Nat) (rnd : Nat → Byte) (ps : Shamir.Pools)
    (h : parts * (secret.length + 1) < top w) :
    Word.split w arch secret parts threshold perm rnd ps = Shamir.split arch secret parts threshold perm rnd ps := by
  obtain ⟨e1, e2, e3, e4, e5⟩ := word_rest hw arch hv (perm.map fun v => BitVec.ofNat 8 v) h
  unfold Word.split Shamir.split
  rw [guard_chain, guard_chain, argError_none.2 hv]
  obtain ⟨h1, h2, h3, h4⟩ := hv
  have hN : 0 < secret.length := List.length_pos_iff.2 h4
  have et : threshold.toNat - 1 + 1 = threshold.toNat := by omega
  simp only [Outcome.pure_eq, ok_bind, e1, e2, e3, e4, et, growInt_nat, sliceInt_zero]
  congr 1; funext out
  have hg := length_grow ps.bPool.get.1 (threshold.toNat * secret.length)
  rw [slice_ok (Nat.zero_le _) hg, ok_bind, ok_bind]
  unfold Word.makePolynomialsWithBuff Shamir.makePolynomialsWithBuff
  exact word_tail (by omega) arch secret hN (by omega) e5 _ _ _ _ (by simp [Shamir.randRead]; omega) _ _ _

theorem word_splitWithRandomizer {w : Nat} (hw : 8 < w) (arch : Arch) (fuel : Nat) {secret : List Byte} {parts threshold : Int}
    (hv : ValidArgs secret parts threshold) (r : CSPRNG) (ps : Shamir.Pools) (h : parts * (secret.length + 1) < top w) :
    Word.splitWithRandomizer w arch fuel secret parts threshold r ps =
      Shamir.splitWithRandomizer arch fuel secret parts threshold r ps := by
  unfold Word.splitWithRandomizer Shamir.splitWithRandomizer
  rw [guard_chain, guard_chain, argError_none.2 hv]
  simp only
  congr 1; funext xs
  obtain ⟨e1, e2, e3, e4, e5⟩ := word_rest hw arch hv xs h
  obtain ⟨h1, h2, h3, h4⟩ := hv
  have hN : 0 < secret.length := List.length_pos_iff.2 h4
  have et : threshold.toNat - 1 + 1 = threshold.toNat := by omega
  simp only [Outcome.pure_eq, ok_bind, e1, e2, e3, e4, et, growInt_nat, sliceInt_zero]
  congr 1; funext out
  have hg := length_grow ps.bPool.get.1 (threshold.toNat * secret.length)
  rw [slice_ok (Nat.zero_le _) hg, ok_bind, ok_bind]
  unfold Word.makePolynomialsWithBuffAndRandomizer Shamir.makePolynomialsWithBuffAndRandomizer
  exact word_tail (by omega) arch secret hN (by omega) e5 _ _ _ _ (by simp [CSPRNG.read]; omega) _ _ _

/-! ## SplitWithRandomizerOld and SplitGeneric -/

theorem word_newMatrix {w : Nat} (hw : 0 < w) {r c : Nat} (hr : 0 < r) (h : ((r * c : Nat) : Int) < top w) :
    Word.newMatrix w r c = ok (Shamir.newMatrix r c) := by
  unfold Word.newMatrix Shamir.newMatrix
  rw [wrap_of_eq hw (n := r * c) (by push_cast; ring) h, makeBytes_nat, ok_bind]
  simp only [Outcome.pure_eq]
  rw [forUp_eq (fun i => (filled (fun _ => List.replicate c 0) (List.replicate r []) i, ((c * i : Nat) : Int), wrap w (c * i + c : Nat)))]
  · simp only [ok_bind]
    rw [filled_all (by simp)]
    simp
  · simp only [filled_zero, Nat.mul_zero, Nat.zero_add, Nat.cast_zero]
    rw [wrap_nat hw]
    have : c ≤ r * c := Nat.le_mul_of_pos_left _ hr
    omega
  · intro i hi
    have hle : c * i + c ≤ r * c := by rw [← Nat.mul_succ, Nat.mul_comm]; exact Nat.mul_le_mul_right _ hi
    simp only
    rw [wrap_nat hw (by omega), sliceInt_nat, slice_ok (by omega) (by simpa using hle), ok_bind]
    rw [setIdx_filled (by simpa using hi) (by simp; omega), ok_bind]
    congr 3

theorem word_newMatrix_panic {w : Nat} (hw : 0 < w) {r c : Nat} (hc : (c : Int) < top w) (h : top w ≤ ((r * c : Nat) : Int)) :
    Word.newMatrix w r c = panic := by
  have hpos : 0 < c := by
    rcases Nat.eq_zero_or_pos c with rfl | h0
    · have : (0 : Int) < top w := by positivity
      simp at h; omega
    · exact h0
  unfold Word.newMatrix
  by_cases hneg : wrap w ((r : Int) * c) < 0
  · rw [makeBytes, if_pos hneg]; rfl
  obtain ⟨n, hn⟩ : ∃ n : Nat, (n : Int) = wrap w ((r : Int) * c) := ⟨_, Int.toNat_of_nonneg (by omega)⟩
  rw [← hn, makeBytes_nat, ok_bind]
  have hlt := wrap_lt hw ((r : Int) * c)
  rw [← hn] at hlt
  obtain ⟨h1, h2, h3⟩ := window_fails hw (r := r) (c := c) (n := n) (by omega) (by push_cast at h; exact h) hn hpos
  simp only [Outcome.pure_eq]
  rw [forUp_fail (o := panic) h1
    (fun i => (filled (fun _ => List.replicate c 0) (List.replicate r []) i, ((c * i : Nat) : Int), wrap w ((c * i : Nat) + c)))]
  · rfl
  · simp only [filled_zero, Nat.mul_zero, Nat.cast_zero, zero_add]
    rw [wrap_nat hw hc]
  · intro i hi
    have hle : c * i + c ≤ n := by
      rw [← Nat.mul_succ]
      exact (Nat.mul_le_mul_left _ hi).trans h2
    simp only
    rw [wrap_of_eq hw (n := c * i + c) (by push_cast; ring) (by omega), sliceInt_nat, slice_ok (by omega) (by simpa using hle), ok_bind]
    rw [setIdx_filled (by simpa using (by omega : i < r)) (by simp; omega), ok_bind]
    congr 3
  · simp only
    rw [h3 _ (by simp)]; rfl
  · intro a; simp

theorem word_makePolynomials {w : Nat} (hw : 0 < w) (s : List Byte) (hs : 0 < s.length) (d : Nat) (rnd : Nat → Byte)
    (h : (((d + 1) * s.length : Nat) : Int) < top w) : Word.makePolynomials w s d rnd = Shamir.makePolynomials s d rnd := by
  have hd : d + 1 ≤ (d + 1) * s.length := Nat.le_mul_of_pos_right _ hs
  have hd2 : d * s.length ≤ (d + 1) * s.length := Nat.mul_le_mul_right _ (by omega)
  unfold Word.makePolynomials Shamir.makePolynomials
  simp only [Outcome.pure_eq]
  rw [wrap_of_eq hw (x := (d : Int) + 1) (n := d + 1) (by push_cast; ring) (by omega),
    wrap_of_eq hw (n := d * s.length) (by push_cast; ring) (by omega), word_newMatrix hw hs (by rw [Nat.mul_comm]; exact h), ok_bind,
    makeBytes_nat, ok_bind]
  have key := forUp_sim (n := s.length) (s := (Shamir.newMatrix s.length (d + 1), 0))
    (f := fun p (st : List (List Byte) × Nat) => do
      let row ← idx st.1 p
      let v ← idx s p
      let row ← setIdx row 0 v
      let src ← slice (Shamir.randRead rnd 0 (List.replicate (d * s.length) 0)) st.2 (st.2 + d)
      let tl ← slice row 1 row.length
      let polynomials ← setIdx st.1 p (writeAt row 1 (copyInto tl src))
      ok (polynomials, st.2 + d))
    (g := fun p (st : List (List Byte) × Int) => do
      let row ← idx st.1 p
      let v ← idx s p
      let row ← setIdx row 0 v
      let src ← sliceInt (Shamir.randRead rnd 0 (List.replicate (d * s.length) 0)) st.2 (wrap w (st.2 + d))
      let tl ← slice row 1 row.length
      let polynomials ← setIdx st.1 p (writeAt row 1 (copyInto tl src))
      ok (polynomials, wrap w (st.2 + d)))
    (fun st => (st.1, (st.2 : Int))) (fun i st => st.2 = d * i) (by simp) ?_ ?_
  · simp only [Nat.cast_zero] at key
    rw [key]
    cases forUp s.length _ (Shamir.newMatrix s.length (d + 1), 0) <;> rfl
  · rintro i hi ⟨m, k⟩ hk
    have hle : d * i + d ≤ d * s.length := by rw [← Nat.mul_succ]; exact Nat.mul_le_mul_left _ hi
    simp only at hk ⊢
    rw [wrap_of_eq hw (n := k + d) (by push_cast; ring) (by omega), sliceInt_nat]
    simp only [map_bind, map_ok]
  · rintro i hi ⟨m, k⟩ s' hk hok
    simp only [bind_eq_ok] at hok
    obtain ⟨_, -, _, -, _, -, _, -, _, -, _, -, hok⟩ := hok
    cases hok
    simp only at hk ⊢
    rw [hk, Nat.mul_succ]

theorem word_makePolynomialsWithRandomizer {w : Nat} (hw : 0 < w) (s : List Byte) (d : Nat) (r : CSPRNG)
    (h : (((d + 1) * s.length : Nat) : Int) < top w) :
    Word.makePolynomialsWithRandomizer w s d r = Shamir.makePolynomialsWithRandomizer s d r := by
  unfold Word.makePolynomialsWithRandomizer Shamir.makePolynomialsWithRandomizer
  simp only [wrap_mul, wrap_add]
  rw [wrap_of_eq hw (n := (d + 1) * s.length) (by push_cast; ring) h, makeBytes_nat, ok_bind]
  apply forUp_congr
  intro p hp m
  have hle : (d + 1) * p + (d + 1) ≤ (d + 1) * s.length := by rw [← Nat.mul_succ]; exact Nat.mul_le_mul_left _ hp
  rw [wrap_of_eq hw (x := ((d : Int) + 1) * p + d + 1) (n := (d + 1) * p + d + 1) (by push_cast; ring) (by omega),
    wrap_of_eq hw (n := (d + 1) * p) (by push_cast; ring) (by omega), sliceInt_nat]

theorem word_transpose {w : Nat} (hw : 0 < w) {r : Nat → Nat → Byte} {t N : Nat} (ht : 0 < t)
    (h : ((t * N : Nat) : Int) < top w) :
    Word.transpose w (rowsF r t N) = Shamir.transpose (rowsF r t N) := by
  unfold Word.transpose Shamir.transpose
  cases hi : idx (rowsF r t N) 0 with
  | ok row0 =>
    have hl : row0.length = t := by
      rw [idx_eq_ok] at hi
      have := List.mem_of_getElem? hi
      simp only [rowsF, List.mem_map] at this
      obtain ⟨p, -, rfl⟩ := this
      simp
    simp only [ok_bind, hl]
    rw [show (rowsF r t N).length = N by simp [rowsF], word_newMatrix hw ht h, ok_bind]
  | _ => rfl

theorem word_splitWithRandomizerOld {w : Nat} (hw : 8 < w) (arch : Arch) {secret : List Byte} {parts threshold : Int}
    (hv : ValidArgs secret parts threshold) (r : CSPRNG) (ps : Shamir.Pools) (h : parts * (secret.length + 1) < top w) :
    Word.splitWithRandomizerOld w arch secret parts threshold r ps =
      Shamir.splitWithRandomizerOld arch secret parts threshold r ps := by
  unfold Word.splitWithRandomizerOld Shamir.splitWithRandomizerOld
  rw [guard_chain, guard_chain, argError_none.2 hv]
  simp only
  congr 1; funext xs
  obtain ⟨e1, e2, e3, e4, e5⟩ := word_rest hw arch hv xs h
  obtain ⟨h1, h2, h3, h4⟩ := hv
  have et : threshold.toNat - 1 + 1 = threshold.toNat := by omega
  simp only [Outcome.pure_eq, ok_bind, e1, e2]
  congr 1; funext out
  rw [word_makePolynomialsWithRandomizer (by omega) _ _ _ (by rw [et]; exact e5), makePolynomialsWithRandomizer_eq, ok_bind, ok_bind,
    word_transpose (by omega) (by omega) (by rw [et]; exact e5)]

theorem word_allocSharesSeparately {w : Nat} (hw : 0 < w) {N : Nat} (h : (N : Int) + 1 < top w) (parts : Nat) (xs : List Byte) :
    Word.allocSharesSeparately w N parts xs = Shamir.allocSharesSeparately N parts xs := by
  unfold Word.allocSharesSeparately Shamir.allocSharesSeparately
  rw [wrap_of_eq hw (n := N + 1) (by push_cast; ring) (by push_cast; omega), makeBytes_nat]
  rfl

theorem word_splitGeneric {w : Nat} (hw : 8 < w) {secret : List Byte} {parts threshold : Int}
    (hv : ValidArgs secret parts threshold) (perm : List Nat) (rnd : Nat → Byte) (h : threshold * secret.length < top w) :
    Word.splitGeneric w secret parts threshold perm rnd = Shamir.splitGeneric secret parts threshold perm rnd := by
  unfold Word.splitGeneric Shamir.splitGeneric
  rw [guard_chain, guard_chain, argError_none.2 hv]
  simp only
  obtain ⟨h1, h2, h3, h4⟩ := hv
  have hN : 0 < secret.length := List.length_pos_iff.2 h4
  obtain ⟨t, rfl⟩ : ∃ t : Nat, threshold = t := ⟨threshold.toNat, by omega⟩
  have h' : ((t * secret.length : Nat) : Int) < top w := by push_cast; exact h
  have hle : 2 * secret.length ≤ t * secret.length := Nat.mul_le_mul_right _ (by omega)
  have ht : t ≤ t * secret.length := Nat.le_mul_of_pos_right _ hN
  have et : t - 1 + 1 = t := by omega
  have hbig : (256 : Int) ≤ top w := by
    have : 2 ^ 8 ≤ 2 ^ (w - 1) := Nat.pow_le_pow_right (by omega) (by omega)
    simp only [top]; exact_mod_cast this
  rw [word_allocSharesSeparately (by omega) (by omega)]
  congr 1; funext out
  rw [wrap_of_eq (by omega) (x := (t : Int) - 1) (n := t - 1) (by omega) (by omega), Int.toNat_natCast,
    word_makePolynomials (by omega) _ hN _ _ (by rw [et]; exact h'), makePolynomials_eq, ok_bind, ok_bind,
    word_transpose (by omega) (by omega) (by rw [et]; exact h')]

/-- Sizes that do not fit make SplitGeneric panic. -/
theorem word_splitGeneric_panic {w : Nat} (hw : 8 < w) {secret : List Byte} {parts threshold : Int}
    (hv : ValidArgs secret parts threshold) (perm : List Nat) (hperm : parts.toNat ≤ perm.length) (rnd : Nat → Byte)
    (hl : (secret.length : Int) < top w) (h : top w ≤ threshold * secret.length) :
    Word.splitGeneric w secret parts threshold perm rnd = panic := by
  unfold Word.splitGeneric
  rw [guard_chain, argError_none.2 hv]
  simp only
  obtain ⟨h1, h2, h3, h4⟩ := hv
  obtain ⟨t, rfl⟩ : ∃ t : Nat, threshold = t := ⟨threshold.toNat, by omega⟩
  have hbig : (256 : Int) ≤ top w := by
    have : 2 ^ 8 ≤ 2 ^ (w - 1) := Nat.pow_le_pow_right (by omega) (by omega)
    simp only [top]; exact_mod_cast this
  by_cases hN : (secret.length : Int) + 1 < top w
  · rw [word_allocSharesSeparately (by omega) hN, allocSharesSeparately_eq _ _ _ (by simpa using hperm), ok_bind]
    unfold Word.makePolynomials
    simp only
    rw [wrap_of_eq (by omega) (x := (t : Int) - 1) (n := t - 1) (by omega) (by omega),
      wrap_of_eq (by omega) (x := ((t - 1 : Nat) : Int) + 1) (n := t) (by omega) (by omega),
      word_newMatrix_panic (r := secret.length) (c := t) (by omega) (by omega) (by push_cast; linarith)]
    rfl
  · have : Word.allocSharesSeparately w secret.length parts.toNat (perm.map fun v => BitVec.ofNat 8 v) = Outcome.panic := by
      unfold Word.allocSharesSeparately
      have hneg := wrap_neg (w := w) (by omega) (x := (secret.length : Int) + 1) (by omega) (by omega)
      simp only [makeBytes, if_pos hneg, panic_bind]
      exact forUp_panic (n := parts.toNat) (k := 0) (by omega) (fun _ => rfl) (fun _ _ => .inl rfl) _
    rw [this]; rfl

end Verif.Proofs
