import Verif.Proofs.Vector
import Verif.Proofs.Interp
import Verif.Model.Shamir

/-! # Polynomial construction, transposition and evaluation -/

namespace Verif.Proofs
open Verif Spec Outcome Polynomial Shamir Galois Pool

theorem evalC_eq (cs : List Byte) (x : Byte) :
    evalC cs x = (∑ k ∈ Finset.range cs.length, (⟨cs.getD k 0⟩ : GF) * ⟨x⟩ ^ k).val := by
  unfold evalC ofCoeffs
  rw [eval_finset_sum]
  congr 1
  refine Finset.sum_congr rfl fun k _ => ?_
  simp

theorem ofCoeffs_degree (cs : List Byte) : (ofCoeffs cs).degree < cs.length := by
  unfold ofCoeffs
  refine lt_of_le_of_lt (degree_sum_le _ _) ?_
  rw [Finset.sup_lt_iff (WithBot.bot_lt_coe _)]
  intro k hk
  refine lt_of_le_of_lt (degree_C_mul_X_pow_le k _) ?_
  exact_mod_cast Finset.mem_range.1 hk

theorem evalC_zero {cs : List Byte} (h : cs ≠ []) : evalC cs 0 = cs.getD 0 0 := by
  rw [evalC_eq, Finset.sum_eq_single 0]
  · have : (⟨cs.getD 0 0⟩ : GF) * (⟨0⟩ : GF) ^ 0 = ⟨cs.getD 0 0⟩ := by rw [pow_zero, mul_one]
    rw [this]
  · intro k _ hk
    have : (⟨0⟩ : GF) = 0 := rfl
    rw [this, zero_pow hk, mul_zero]
  · intro h'
    exact absurd (Finset.mem_range.2 (List.length_pos_iff.2 h)) h'

theorem shareOf_isShare (rows : List (List Byte)) (x : Byte) :
    IsShareOf (fun j => ofCoeffs (rows.getD j [])) rows.length (shareOf rows x) := by
  have ht : tag (shareOf rows x) = x := by
    simp [tag, shareOf, List.getD_eq_getElem?_getD]
  refine ⟨by simp [shareOf], ?_⟩
  intro j hj
  rw [ht]
  have : (shareOf rows x).getD j 0 = evalC (rows.getD j []) x := by
    unfold shareOf
    rw [List.getD_eq_getElem?_getD, List.getElem?_append_left (by simpa using hj)]
    simp [List.getElem?_eq_getElem hj, List.getD_eq_getElem?_getD]
  rw [this]; rfl

theorem tag_shareOf (rows : List (List Byte)) (x : Byte) : tag (shareOf rows x) = x := by
  simp [tag, shareOf, List.getD_eq_getElem?_getD]

/-- Rows of coefficients, each of length `t`, with the secret as first column. -/
def GoodRows (secret : List Byte) (t : Nat) (rows : List (List Byte)) : Prop :=
  rows.length = secret.length ∧ (∀ r ∈ rows, r.length = t) ∧ ∀ j < secret.length, (rows.getD j []).getD 0 0 = secret.getD j 0

theorem goodRows_dealing {secret : List Byte} {t : Nat} (ht : 0 < t) {rows : List (List Byte)}
    (h : GoodRows secret t rows) : IsDealing secret t (fun j => ofCoeffs (rows.getD j [])) := by
  obtain ⟨h1, h2, h3⟩ := h
  intro j hj
  have hmem : rows.getD j [] ∈ rows := by
    rw [List.getD_eq_getElem?_getD, List.getElem?_eq_getElem (by omega)]
    exact List.getElem_mem _
  have hlen := h2 _ hmem
  refine ⟨by have := ofCoeffs_degree (rows.getD j []); rwa [hlen] at this, ?_⟩
  have := evalC_zero (cs := rows.getD j []) (by intro e; rw [e] at hlen; simp at hlen; omega)
  rw [h3 j hj] at this
  exact GF.ext' this

theorem shares_isSharing {secret : List Byte} {t : Nat} (ht : 0 < t) {rows : List (List Byte)}
    (h : GoodRows secret t rows) (xs : List Byte) (hx : xs.Nodup) :
    IsSharing secret t (xs.map (shareOf rows)) := by
  refine ⟨?_, _, goodRows_dealing ht h, ?_⟩
  · rw [List.map_map]
    have : (tag ∘ shareOf rows) = id := by funext x; exact tag_shareOf rows x
    rw [this, List.map_id]; exact hx
  · intro s hs
    obtain ⟨x, -, rfl⟩ := List.mem_map.1 hs
    have := shareOf_isShare rows x
    rwa [h.1] at this

/-! ## Horner evaluation -/

theorem horner {N d : Nat} (c : Nat → Nat → Byte) (x : Byte) (body : Nat → List Byte → Outcome (List Byte))
    (hb : ∀ i < d, ∀ g : Nat → Byte, body i ((List.range N).map g)
      = ok ((List.range N).map fun p => c i p ^^^ mulSpec x (g p))) :
    forDown d body ((List.range N).map (c d))
      = ok ((List.range N).map fun p => (∑ k ∈ Finset.range (d + 1), (⟨c k p⟩ : GF) * ⟨x⟩ ^ k).val) := by
  let h : Nat → Nat → GF := fun i p => ∑ k ∈ Finset.range (d + 1 - i), (⟨c (i + k) p⟩ : GF) * ⟨x⟩ ^ k
  rw [forDown_eq (fun i => (List.range N).map fun p => (h i p).val)]
  · simp only [h, Nat.sub_zero, Nat.zero_add]
  · apply List.map_congr_left
    intro p _
    have : d + 1 - d = 1 := by omega
    simp only [h, this, Finset.sum_range_one, Nat.add_zero, pow_zero, mul_one]
  · intro i hi
    rw [hb i hi]
    congr 1
    apply List.map_congr_left
    intro p _
    have e : h i p = ⟨c i p⟩ + ⟨x⟩ * h (i + 1) p := by
      simp only [h]
      have : d + 1 - i = (d + 1 - (i + 1)) + 1 := by omega
      rw [this, Finset.sum_range_succ', add_comm]
      congr 1
      · simp
      · rw [Finset.mul_sum]
        refine Finset.sum_congr rfl fun k _ => ?_
        rw [pow_succ]
        have : i + (k + 1) = i + 1 + k := by omega
        rw [this]; ring
    rw [e]; rfl

theorem xorBytes_range {N : Nat} (g h : Nat → Byte) :
    xorBytes ((List.range N).map g) ((List.range N).map h) = (List.range N).map fun p => g p ^^^ h p :=
  zipWith_range _ g h N

theorem slice_range {l : List Byte} {s N : Nat} (h : s + N ≤ l.length) :
    slice l s (s + N) = ok ((List.range N).map fun p => l.getD (s + p) 0) := by
  rw [slice_ok (by omega) h, window_eq (by omega)]
  have : s + N - s = N := by omega
  rw [this]

theorem length_grow (b : Buf) (n : Nat) : n ≤ (b.grow n).mem.length := by
  unfold Buf.grow
  split
  · assumption
  · split
    · rename_i h; simp only [List.length_replicate]; omega
    · simp only [List.length_replicate]; omega

/-- The pool after an evaluation: `top` was copied into a buffer, and on the build without assembly overwritten with the
values. -/
def evalPool (arch : Arch) (N : Nat) (top final : List Byte) (pool : BytesBufferPool) : BytesBufferPool :=
  pool.get.2.put ⟨writeAt (pool.get.1.grow N).mem 0 (if Shamir.Arch.inPlace arch then final else top)⟩

/-- polynomial.go:155-174 computes all polynomials at `x`. -/
theorem evaluateBuffer_eq (arch : Arch) (coef : List Byte) (N d : Nat) (x : Byte) (out : List Byte)
    (pool : BytesBufferPool) (hN : 0 < N) (hc : coef.length = (d + 1) * N) (ho : out.length = N) :
    evaluatePolynomialsAtWithCoefficientsBuffer arch coef N x out pool
      = ok ((List.range N).map fun p =>
          (∑ k ∈ Finset.range (d + 1), (⟨coef.getD (k * N + p) 0⟩ : GF) * ⟨x⟩ ^ k).val,
          evalPool arch N ((List.range N).map fun p => coef.getD (d * N + p) 0) ((List.range N).map fun p =>
            (∑ k ∈ Finset.range (d + 1), (⟨coef.getD (k * N + p) 0⟩ : GF) * ⟨x⟩ ^ k).val) pool) := by
  unfold evaluatePolynomialsAtWithCoefficientsBuffer
  have hq : coef.length / N = d + 1 := by rw [hc]; exact Nat.mul_div_cancel _ hN
  rw [if_neg (by omega), hq]
  simp only [Outcome.pure_eq, ok_bind, Nat.add_sub_cancel]
  rw [if_neg (by omega)]
  have hg := length_grow pool.get.1 N
  have hrow : ∀ i ≤ d, i * N + N ≤ coef.length := by
    intro i hi
    rw [hc, ← Nat.succ_mul]
    exact Nat.mul_le_mul_right N (by omega)
  rw [slice_ok (Nat.zero_le _) hg, ok_bind, slice_range (hrow d le_rfl), ok_bind]
  rw [copyInto_same (by simp; omega)]
  have hh := horner (N := N) (d := d) (fun k p => coef.getD (k * N + p) 0) x
    (fun i result => do
      let row ← slice coef (i * N) (i * N + N)
      let m ← mulConstVector arch x result
      addVector arch row m)
    (by
      intro i hi g
      rw [slice_range (hrow i (by omega)), ok_bind, mulConstVector_eq, ok_bind, List.map_map,
        addVector_eq _ (by simp), xorBytes_range]
      rfl)
  rw [hh, ok_bind, slice_self ho.symm, ok_bind]
  rw [copyInto_same (by simp [ho]), writeAt_zero_same (by simp [ho])]
  rfl

/-- polynomial.go:137-153 computes all polynomials at `x` and leaves the last byte of `out` alone. -/
theorem evaluateAt_eq (arch : Arch) (c : Nat → Nat → Byte) (N d : Nat) (x : Byte) (out : List Byte)
    (pool : BytesBufferPool) (ho : N ≤ out.length) :
    evaluatePolynomialsAt arch ((List.range (d + 1)).map fun i => (List.range N).map (c i)) x out pool
      = ok (((List.range N).map fun p =>
          (∑ k ∈ Finset.range (d + 1), (⟨c k p⟩ : GF) * ⟨x⟩ ^ k).val) ++ out.drop N,
          evalPool arch N ((List.range N).map (c d)) ((List.range N).map fun p =>
            (∑ k ∈ Finset.range (d + 1), (⟨c k p⟩ : GF) * ⟨x⟩ ^ k).val) pool) := by
  unfold evaluatePolynomialsAt
  have hi : ∀ i ≤ d, idx ((List.range (d + 1)).map fun i => (List.range N).map (c i)) i
      = ok ((List.range N).map (c i)) := by
    intro i hi
    rw [idx_ok (by simp; omega)]; simp
  rw [hi 0 (by omega), ok_bind]
  simp only [List.length_map, List.length_range, Nat.add_sub_cancel, Outcome.pure_eq]
  have hg := length_grow pool.get.1 N
  rw [slice_ok (Nat.zero_le _) hg, ok_bind, hi d (by omega), ok_bind, copyInto_same (by simp; omega)]
  have hh := horner (N := N) (d := d) c x
    (fun i result => do
      let row ← idx ((List.range (d + 1)).map fun i => (List.range N).map (c i)) i
      let m ← mulConstVector arch x result
      addVector arch row m)
    (by
      intro i hi' g
      rw [hi i (by omega), ok_bind, mulConstVector_eq, ok_bind, List.map_map,
        addVector_eq _ (by simp), xorBytes_range]
      rfl)
  rw [hh, ok_bind, slice_ok (Nat.zero_le _) ho, ok_bind]
  rw [copyInto_same (by simp; omega), writeAt_zero]
  simp only [List.length_map, List.length_range]
  rfl

theorem genericEvaluateAt_eq (c : Nat → Nat → Byte) (N d : Nat) (x : Byte) (out : List Byte)
    (ho : N ≤ out.length) :
    genericEvaluatePolynomialsAt ((List.range (d + 1)).map fun i => (List.range N).map (c i)) x out
      = ok (((List.range N).map fun p =>
          (∑ k ∈ Finset.range (d + 1), (⟨c k p⟩ : GF) * ⟨x⟩ ^ k).val) ++ out.drop N) := by
  unfold genericEvaluatePolynomialsAt
  have hi : ∀ i ≤ d, idx ((List.range (d + 1)).map fun i => (List.range N).map (c i)) i
      = ok ((List.range N).map (c i)) := by
    intro i hi
    rw [idx_ok (by simp; omega)]; simp
  rw [hi 0 (by omega), ok_bind]
  simp only [List.length_map, List.length_range, Nat.add_sub_cancel, Outcome.pure_eq]
  rw [hi d (by omega), ok_bind, copyInto_same (by simp)]
  have hh := horner (N := N) (d := d) c x
    (fun i result => do
      let row ← idx ((List.range (d + 1)).map fun i => (List.range N).map (c i)) i
      let m ← mulConstVectorGeneric x result
      addVectorGeneric row m)
    (by
      intro i hi' g
      rw [hi i (by omega), ok_bind, mulConstVectorGeneric_eq, ok_bind, List.map_map,
        addVectorGeneric_eq (by simp), xorBytes_range]
      rfl)
  rw [hh, ok_bind, slice_ok (Nat.zero_le _) ho, ok_bind]
  rw [copyInto_same (by simp; omega), writeAt_zero]
  simp only [List.length_map, List.length_range]

/-! ## Buffers -/

/-- the flat matrix after the intercepts of the first `p` rows were written -/
def withIntercepts (s : List Byte) (t : Nat) (buf : List Byte) (p : Nat) : List Byte :=
  (List.range buf.length).map fun k => if k % t = 0 ∧ k / t < p then s.getD (k / t) 0 else buf.getD k 0

theorem writeAt_set (l : List Byte) (s w : Nat) (hw : 0 < w) (h : s + w ≤ l.length) (v : Byte) :
    writeAt l s (((l.drop s).take w).set 0 v) = l.set s v := by
  unfold writeAt
  have h1 : (((l.drop s).take w).set 0 v).length = w := by simp; omega
  rw [h1]
  obtain ⟨w, rfl⟩ : ∃ w', w = w' + 1 := ⟨w - 1, by omega⟩
  have h2 : l.drop s = l[s] :: l.drop (s + 1) := List.drop_eq_getElem_cons (by omega)
  rw [h2, List.take_succ_cons, List.set_cons_zero, List.append_assoc, List.cons_append]
  have h3 : (l.drop (s + 1)).take w ++ l.drop (s + (w + 1)) = l.drop (s + 1) := by
    have : s + (w + 1) = (s + 1) + w := by omega
    rw [this, ← List.drop_drop (i := w), List.take_append_drop]
  rw [h3, List.set_eq_take_append_cons_drop, if_pos (by omega)]

theorem setIntercepts_eq (s : List Byte) (d : Nat) (buf : List Byte) (hb : buf.length = (d + 1) * s.length) :
    setIntercepts s d buf = ok (withIntercepts s (d + 1) buf s.length) := by
  unfold setIntercepts
  apply forUp_eq (fun p => withIntercepts s (d + 1) buf p)
  · simp only [withIntercepts, Nat.not_lt_zero, and_false, if_false]
    exact range_map_getElem buf id 0 |>.trans (by simp)
  · intro p hp
    have hle : (d + 1) * p + (d + 1) ≤ buf.length := by
      rw [hb, ← Nat.mul_succ]; exact Nat.mul_le_mul_left _ hp
    have hl : (withIntercepts s (d + 1) buf p).length = buf.length := by simp [withIntercepts]
    simp only [Nat.add_assoc]
    rw [slice_ok (by omega) (by rw [hl]; omega), ok_bind, idx_getD hp, ok_bind,
      setIdx_ok (by simp [hl]; omega), ok_bind]
    have e1 : (d + 1) * p + (d + 1) - (d + 1) * p = d + 1 := by omega
    rw [e1, writeAt_set _ _ _ (by omega) (by rw [hl]; omega)]
    simp only [Outcome.pure_eq]
    congr 1
    apply List.ext_getElem?
    intro k
    rw [List.getElem?_set, hl]
    simp only [withIntercepts, List.getElem?_map]
    by_cases hk : k < buf.length
    · rw [List.getElem?_range hk]
      simp only [Option.map_some]
      by_cases hkp : (d + 1) * p = k
      · subst hkp
        rw [if_pos rfl, if_pos hk, if_pos]
        · rw [Nat.mul_div_cancel_left _ (by omega)]
        · rw [Nat.mul_div_cancel_left _ (by omega)]; exact ⟨Nat.mul_mod_right _ _, by omega⟩
      · rw [if_neg hkp]
        congr 1
        by_cases hm : k % (d + 1) = 0
        · have hkd : k = (d + 1) * (k / (d + 1)) := by
            have := Nat.div_add_mod k (d + 1); omega
          have hne : k / (d + 1) ≠ p := by intro e; rw [e] at hkd; exact hkp hkd.symm
          have : (k / (d + 1) < p ↔ k / (d + 1) < p + 1) := by omega
          simp [hm, this]
        · simp [hm]
    · have h1 : (List.range buf.length)[k]? = none := getElem?_ge (by simp; omega)
      rw [h1, if_neg (by omega)]
      rfl

/-- polynomial.go:110-122: column-major reading. -/
theorem transposeBuffer_eq (dest source : List Byte) (t N : Nat) (ht : 0 < t) (hN : 0 < N)
    (hs : source.length = t * N) (hd : dest.length = source.length) :
    transposeMatrixBuffer dest source t
      = ok ((List.range (t * N)).map fun k => source.getD (t * (k % N) + k / N) 0) := by
  unfold transposeMatrixBuffer
  have hq : source.length / t = N := by rw [hs]; exact Nat.mul_div_cancel_left _ ht
  rw [if_neg (by omega)]
  simp only [Outcome.pure_eq, hq]
  rw [forUp_eq (fun i => (filled (fun k => source.getD (t * (k % N) + k / N) 0) dest i, i % N, i / N))]
  · rw [ok_bind]
    simp only
    rw [hs, filled_all (by omega)]
  · simp
  · intro i hi
    have hmod : i % N < N := Nat.mod_lt _ hN
    have hdiv : i / N < t := by rw [Nat.div_lt_iff_lt_mul hN]; rw [hs] at hi; omega
    have hlt : t * (i % N) + i / N < source.length := by
      rw [hs]
      calc t * (i % N) + i / N < t * (i % N) + t := by omega
        _ = t * (i % N + 1) := by ring
        _ ≤ t * N := Nat.mul_le_mul_left _ hmod
    simp only
    rw [idx_getD hlt, ok_bind, setIdx_filled (by omega) rfl, ok_bind]
    by_cases hwrap : i % N + 1 = N
    · rw [if_pos hwrap]
      have e1 : (i + 1) % N = 0 := by
        have := Nat.div_add_mod i N
        have : i + 1 = N * (i / N + 1) := by rw [Nat.mul_succ]; omega
        rw [this]; exact Nat.mul_mod_right _ _
      have e2 : (i + 1) / N = i / N + 1 := by
        have := Nat.div_add_mod i N
        have : i + 1 = N * (i / N + 1) := by rw [Nat.mul_succ]; omega
        rw [this]; exact Nat.mul_div_cancel_left _ hN
      rw [e1, e2]
    · rw [if_neg hwrap]
      have e1 : (i + 1) % N = i % N + 1 := by
        rw [Nat.add_mod]
        have h1 : 1 % N = 1 := Nat.mod_eq_of_lt (by omega)
        rw [h1]; exact Nat.mod_eq_of_lt (by omega)
      have e2 : (i + 1) / N = i / N := by
        have h0 := Nat.div_add_mod i N
        have : i + 1 = (i % N + 1) + N * (i / N) := by omega
        rw [this, Nat.add_mul_div_left _ _ hN, Nat.div_eq_of_lt (by omega)]; omega
      rw [e1, e2]

/-- rows of a flat N x t matrix -/
def rowsOf (pol : List Byte) (t N : Nat) : List (List Byte) :=
  (List.range N).map fun p => (List.range t).map fun i => pol.getD (t * p + i) 0

theorem rowsOf_good {s buf : List Byte} {t : Nat} (ht : 0 < t) (hb : buf.length = t * s.length) :
    GoodRows s t (rowsOf (withIntercepts s t buf s.length) t s.length) := by
  refine ⟨by simp [rowsOf], ?_, ?_⟩
  · intro r hr
    obtain ⟨p, -, rfl⟩ := List.mem_map.1 hr
    simp
  · intro j hj
    have hlt : t * j < buf.length := by rw [hb]; exact Nat.mul_lt_mul_of_pos_left hj ht
    simp only [rowsOf, List.getD_eq_getElem?_getD, List.getElem?_map, List.getElem?_range hj,
      Option.map_some, Option.getD_some, List.getElem?_range ht, Nat.add_zero, withIntercepts,
      List.getElem?_range hlt]
    rw [if_pos ⟨Nat.mul_mod_right _ _, by rw [Nat.mul_div_cancel_left _ ht]; exact hj⟩,
      Nat.mul_div_cancel_left _ ht]

/-! ## Share allocation -/

theorem allocShares_eq (N parts : Nat) (xs : List Byte) (hx : parts ≤ xs.length) :
    allocShares N parts xs
      = ok ((List.range parts).map fun i => List.replicate N 0 ++ [xs.getD i 0 + 1#8]) := by
  unfold allocShares
  rw [forUp_fill (fun i => List.replicate N (0 : Byte) ++ [xs.getD i 0 + 1#8]) (by simp), filled_all (by simp)]
  intro i hi
  have hle : (N + 1) * i + (N + 1) ≤ (List.replicate ((N + 1) * parts) (0 : Byte)).length := by
    rw [List.length_replicate, ← Nat.mul_succ]; exact Nat.mul_le_mul_left _ hi
  simp only [Nat.add_assoc]
  rw [slice_ok (by omega) hle, ok_bind, idx_getD (by omega), ok_bind, setIdx_ok (by simp at hle ⊢; omega), ok_bind,
    setIdx_filled (by simpa using hi)]
  have hle' : (N + 1) * i + (N + 1) ≤ (N + 1) * parts := by simpa using hle
  have e : (List.drop ((N + 1) * i) (List.replicate ((N + 1) * parts) (0 : Byte))).take
      ((N + 1) * i + (N + 1) - (N + 1) * i) = List.replicate (N + 1) 0 := by
    rw [List.drop_replicate, List.take_replicate]
    congr 1; omega
  rw [e]
  have : List.replicate (N + 1) (0 : Byte) = List.replicate N 0 ++ [0] := by
    rw [List.replicate_succ']
  rw [this, List.set_append_right _ _ (by simp)]
  simp

theorem allocSharesSeparately_eq (N parts : Nat) (xs : List Byte) (hx : parts ≤ xs.length) :
    allocSharesSeparately N parts xs
      = ok ((List.range parts).map fun i => List.replicate N 0 ++ [xs.getD i 0 + 1#8]) := by
  unfold allocSharesSeparately
  simp only [Outcome.pure_eq]
  rw [forUp_fill (fun i => List.replicate N (0 : Byte) ++ [xs.getD i 0 + 1#8]) (by simp), filled_all (by simp)]
  intro i hi
  rw [idx_getD (by omega), ok_bind, setIdx_ok (by simp), ok_bind, setIdx_filled (by simpa using hi)]
  have : List.replicate (N + 1) (0 : Byte) = List.replicate N 0 ++ [0] := by
    rw [List.replicate_succ']
  rw [this, List.set_append_right _ _ (by simp)]
  simp

end Verif.Proofs
