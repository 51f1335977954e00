import Verif.Proofs.Gauss
import Verif.Proofs.ReedSolomon
import Mathlib.LinearAlgebra.Matrix.NonsingularInverse

/-! # The package klauspost/reedsolomon computes the interpolation code -/

namespace Verif.Proofs.Gauss
open Verif Spec RS RS.Klauspost Finset Polynomial

theorem inverse_comm {n : Nat} {a b : Nat → Nat → GF}
    (h : ∀ r < n, ∀ c < n, ∑ i ∈ range n, b r i * a i c = if r = c then 1 else 0) :
    ∀ r < n, ∀ c < n, ∑ i ∈ range n, a r i * b i c = if r = c then 1 else 0 := by
  let A : Matrix (Fin n) (Fin n) GF := fun r c => a r c
  let B : Matrix (Fin n) (Fin n) GF := fun r c => b r c
  have h1 : B * A = 1 := by
    ext r c
    rw [Matrix.mul_apply, Matrix.one_apply]
    have := h r r.2 c c.2
    rw [Finset.sum_range] at this
    rw [show (∑ j, B r j * A j c) = _ from this]
    simp only [Fin.ext_iff]
  have h2 : A * B = 1 := mul_eq_one_comm.1 h1
  intro r hr c hc
  have := congrFun (congrFun h2 ⟨r, hr⟩) ⟨c, hc⟩
  rw [Matrix.mul_apply, Matrix.one_apply] at this
  rw [Finset.sum_range]
  simpa only [Fin.mk.injEq] using this

/-- If `b` is inverse to `a` then `a (b y) = y`. -/
theorem apply_inverse {n : Nat} {a b : Nat → Nat → GF}
    (h : ∀ r < n, ∀ c < n, ∑ i ∈ range n, a r i * b i c = if r = c then 1 else 0) (y : Nat → GF) :
    ∀ r < n, ∑ i ∈ range n, a r i * ∑ c ∈ range n, b i c * y c = y r := by
  intro r hr
  calc ∑ i ∈ range n, a r i * ∑ c ∈ range n, b i c * y c
      = ∑ i ∈ range n, ∑ c ∈ range n, a r i * b i c * y c := by
        refine sum_congr rfl fun i _ => ?_
        rw [mul_sum]; exact sum_congr rfl fun c _ => by ring
    _ = ∑ c ∈ range n, (∑ i ∈ range n, a r i * b i c) * y c := by
        rw [sum_comm]
        refine sum_congr rfl fun c _ => ?_
        rw [sum_mul]
    _ = ∑ c ∈ range n, (if r = c then 1 else 0) * y c :=
        sum_congr rfl fun c hc => by rw [h r hr c (mem_range.1 hc)]
    _ = y r := by
        simp only [ite_mul, one_mul, zero_mul]
        rw [sum_ite_eq, if_pos (mem_range.2 hr)]

theorem foldl_xor_sum (f : Nat → GF) (n : Nat) :
    (⟨(List.range n).foldl (fun v i => v ^^^ (f i).val) 0⟩ : GF) = ∑ i ∈ range n, f i := by
  induction n with
  | zero => rfl
  | succ n ih => rw [List.range_succ, List.foldl_append, sum_range_succ, ← ih]; rfl

/-- the field element with number `p` -/
def pt (p : Nat) : GF := ⟨BitVec.ofNat 8 p⟩

theorem e_vandermonde (r c : Nat) : e vandermonde r c = pt r ^ c := by
  induction c with
  | zero => rw [pow_zero]; rfl
  | succ c ih => rw [pow_succ, ← ih]; rfl

/-- the polynomial with the coefficients `x 0`, ..., `x (n-1)` -/
noncomputable def poly (n : Nat) (x : Nat → GF) : GF[X] := ∑ c ∈ range n, C (x c) * X ^ c

theorem poly_eval (n : Nat) (x : Nat → GF) (z : GF) : (poly n x).eval z = ∑ c ∈ range n, z ^ c * x c := by
  unfold poly
  rw [eval_finsetSum]
  refine sum_congr rfl fun c _ => ?_
  rw [eval_mul, eval_C, eval_pow, eval_X, mul_comm]

theorem poly_degree (n : Nat) (x : Nat → GF) : (poly n x).degree < n := by
  unfold poly
  rw [← mem_degreeLT]
  refine Submodule.sum_mem _ fun c hc => mem_degreeLT.2 ?_
  refine (degree_C_mul_X_pow_le _ _).trans_lt ?_
  exact_mod_cast mem_range.1 hc

theorem poly_coeff (n : Nat) (x : Nat → GF) {c : Nat} (hc : c < n) : (poly n x).coeff c = x c := by
  unfold poly
  rw [finsetSum_coeff, sum_eq_single c]
  · simp
  · intro i _ hi
    rw [coeff_C_mul_X_pow, if_neg (Ne.symm hi)]
  · intro h; exact absurd (mem_range.2 hc) h

theorem pt_injOn {n : Nat} (hn : n ≤ 256) : Set.InjOn pt (range n) := by
  intro a ha b hb h
  have ha : a < n := by simpa using ha
  have hb : b < n := by simpa using hb
  have := congrArg (fun x => x.val.toNat) h
  simp only [pt, BitVec.toNat_ofNat] at this
  omega

/-- The matrix of the package exists, and its product with a vector of `k` data bytes consists of the values, at the
field elements 0, 1, ..., of the polynomial of degree below `k` through the data. -/
theorem buildMatrix_spec {k : Nat} (hk : k ≤ 256) : ∃ mat, buildMatrix k = some mat ∧
    ∀ d : Nat → GF, ∃ p : GF[X], p.degree < k ∧ (∀ i < k, p.eval (pt i) = d i) ∧
      ∀ r, ∑ c ∈ range k, e mat r c * d c = p.eval (pt r) := by
  obtain ⟨u, hu, hl⟩ := invert_spec k vandermonde (by
    intro x hx
    have h0 : poly k x = 0 := by
      refine eq_zero_of_degree_lt_of_eval_index_eq_zero (range k) (pt_injOn hk) (by simpa using poly_degree k x) ?_
      intro r hr
      rw [poly_eval, ← hx r (mem_range.1 hr)]
      exact sum_congr rfl fun c _ => by rw [e_vandermonde]
    intro c hc
    rw [← poly_coeff k x hc, h0, coeff_zero])
  refine ⟨multiply k vandermonde u, by simp [buildMatrix, hu], fun d => ?_⟩
  refine ⟨poly k fun c => ∑ i ∈ range k, e u c i * d i, poly_degree _ _, fun i hi => ?_, fun r => ?_⟩
  · rw [poly_eval, ← apply_inverse (inverse_comm hl) d i hi]
    exact sum_congr rfl fun c _ => by rw [e_vandermonde]
  · have hm : ∀ c, e (multiply k vandermonde u) r c = ∑ i ∈ range k, e vandermonde r i * e u i c := fun c => by
      rw [← foldl_xor_sum]
      simp only [GF.val_mul]
      rfl
    rw [poly_eval]
    simp only [hm, e_vandermonde, mul_sum, sum_mul]
    rw [sum_comm]
    exact sum_congr rfl fun i _ => sum_congr rfl fun c _ => by ring

theorem codeByte_val (k : Nat) (row : Nat → Byte) (shard : Nat → List Byte) (j : Nat) :
    (⟨codeByte k row shard j⟩ : GF) = ∑ c ∈ range k, ⟨row c⟩ * ⟨(shard c).getD j 0⟩ := by
  rw [← foldl_xor_sum]
  simp only [GF.val_mul]
  rfl

theorem codeByte_eq {k : Nat} {row : Nat → Byte} {shard : Nat → List Byte} {j : Nat} {x : GF}
    (h : ∑ c ∈ range k, (⟨row c⟩ : GF) * ⟨(shard c).getD j 0⟩ = x) : codeByte k row shard j = x.val :=
  congrArg GF.val ((codeByte_val k row shard j).trans h)

variable (np : Bool) (stale : List Byte → Nat → Byte)

/-- `Encode`: the parity shards are those of the interpolation code. -/
theorem klauspost_parity {k : Nat} (hk : k ≤ 256) (m : Nat) {data : List (List Byte)} (hd : data.length = k) (r : Nat) :
    (klauspost np stale).parity k m data r = interpolationCode.parity k m data r := by
  obtain ⟨mat, hm, hp⟩ := buildMatrix_spec hk
  simp only [klauspost, hm, interpolationCode]
  refine List.map_congr_left fun j _ => ?_
  obtain ⟨p, hdeg, hpi, hpr⟩ := hp fun c => ⟨(data.getD c []).getD j 0⟩
  rw [codeByte_eq (hpr (k + r)), lagrangeAt_of_poly (points_range_nodup hk) p]
  · rfl
  · rw [points_range_length]; exact hdeg
  · intro i hi
    rw [points_range_length] at hi
    rw [points_getD (by simpa using hi), List.getElem_range]
    rw [show (⟨BitVec.ofNat 8 i⟩ : GF) = pt i from rfl, hpi i hi]
    simp [hd, hi]

theorem validIndices_eq (k m : Nat) (shards : List (List Byte)) : validIndices k m shards = present k m shards := by
  unfold validIndices present
  simp

/-- `ReconstructData`: the reconstructed shards are those of the interpolation code. -/
theorem klauspost_missing {k m : Nat} (hkm : k + m ≤ 256) {shards : List (List Byte)}
    (hv : (present k m shards).length = k) {i : Nat} (hi : i < k) :
    (klauspost np stale).missing k m shards i = interpolationCode.missing k m shards i := by
  have hk : k ≤ 256 := by omega
  obtain ⟨mat, hm, hp⟩ := buildMatrix_spec hk
  generalize hvd : present k m shards = valid at hv
  have hlt : ∀ p ∈ valid, p < k + m := by
    intro p hp
    rw [← hvd] at hp
    simpa using (List.mem_filter.1 (List.mem_of_mem_take hp)).1
  have hnd : valid.Nodup := by
    rw [← hvd]; exact (List.nodup_range.filter _).sublist (List.take_sublist _ _)
  have hinj : Set.InjOn (fun r => pt (valid.getD r 0)) (range k) := by
    intro a ha b hb h
    have ha : a < valid.length := by rw [hv]; simpa using ha
    have hb : b < valid.length := by rw [hv]; simpa using hb
    simp only [List.getD_eq_getElem?_getD, List.getElem?_eq_getElem ha, List.getElem?_eq_getElem hb, Option.getD_some] at h
    have := pt_injOn (n := k + m) (by omega) (by simpa using hlt _ (List.getElem_mem ha)) (by simpa using hlt _ (List.getElem_mem hb)) h
    exact (List.Nodup.getElem_inj_iff hnd).1 this
  obtain ⟨dec, hdec, hl⟩ := invert_spec k (fun r c => mat (valid.getD r 0) c) (by
    intro x hx
    obtain ⟨p, hdeg, hpi, hpr⟩ := hp x
    have h0 : p = 0 := by
      refine eq_zero_of_degree_lt_of_eval_index_eq_zero (range k) hinj (by simpa using hdeg) fun r hr => ?_
      show p.eval (pt (valid.getD r 0)) = 0
      rw [← hpr, ← hx r (mem_range.1 hr)]
      rfl
    intro c hc
    rw [← hpi c hc, h0, eval_zero])
  have hr := inverse_comm hl
  simp only [klauspost, hm, interpolationCode, validIndices_eq, hvd, hdec]
  refine List.map_congr_left fun j _ => ?_
  let y : Nat → GF := fun c => ⟨(shards.getD (valid.getD c 0) []).getD j 0⟩
  obtain ⟨p, hdeg, hpi, hpr⟩ := hp fun i => ∑ c ∈ range k, e dec i c * y c
  have hy : ∀ r < k, p.eval (pt (valid.getD r 0)) = y r := by
    intro r hr'
    rw [← hpr, ← apply_inverse hr y r hr']
    rfl
  rw [codeByte_eq (hpi i hi).symm, lagrangeAt_of_poly (points_nodup hnd fun p hp => by have := hlt p hp; omega) p]
  · rfl
  · simpa [points, hv] using hdeg
  · intro a ha
    have ha' : a < valid.length := by simpa [points] using ha
    rw [points_getD ha']
    have := hy a (by omega)
    simp only [y, List.getD_eq_getElem?_getD, List.getElem?_eq_getElem ha', Option.getD_some] at this
    rw [show (⟨BitVec.ofNat 8 valid[a]⟩ : GF) = pt valid[a] from rfl, this]
    simp [ha']

theorem present_length {k m : Nat} {shards : List (List Byte)} (hl : shards.length = k + m)
    (h : k ≤ (shards.filter (· ≠ [])).length) : (present k m shards).length = k := by
  have hfl : ((List.range (k + m)).filter fun p => shards.getD p [] ≠ []).length = (shards.filter (· ≠ [])).length := by
    have e : shards = (List.range (k + m)).map fun p => shards.getD p [] := by
      rw [← hl]; simpa using (range_map_getElem shards id []).symm
    conv_rhs => rw [e, List.filter_map, List.length_map]
    rfl
  unfold present
  rw [List.length_take, hfl]; omega

theorem klauspost_contract : (klauspost np stale).Contract where
  parity_length k m L data hk hkm hl hd r hr := by
    rw [klauspost_parity np stale (by omega) m hl r]
    exact interpolationCode_contract.parity_length k m L data hk hkm hl hd r hr
  missing_length k m shards hk hkm hl hs hc i hi := by
    rw [klauspost_missing np stale hkm (present_length hl hc) hi]
    exact interpolationCode_contract.missing_length k m shards hk hkm hl hs hc i hi
  recovers k m L data shards hk hkm hL hd hdl hsl hsh hc i hi hmiss := by
    have hpar : parityShards (klauspost np stale) k m data = parityShards interpolationCode k m data :=
      List.map_congr_left fun r _ => klauspost_parity np stale (by omega) m hd r
    rw [hpar] at hsh
    rw [klauspost_missing np stale hkm (present_length hsl hc) hi]
    exact interpolationCode_contract.recovers k m L data shards hk hkm hL hd hdl hsl hsh hc i hi hmiss

end Verif.Proofs.Gauss
