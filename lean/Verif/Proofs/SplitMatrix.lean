import Verif.Proofs.Split

/-! # Closed forms of SplitGeneric and SplitWithRandomizerOld -/

namespace Verif.Proofs
open Verif Spec Outcome Polynomial Shamir Galois Pool Csprng

/-- an N x t matrix -/
def rowsF (r : Nat → Nat → Byte) (t N : Nat) : List (List Byte) :=
  (List.range N).map fun p => (List.range t).map (r p)

theorem rowsF_get (r : Nat → Nat → Byte) (t N : Nat) {p : Nat} (hp : p < N) :
    idx (rowsF r t N) p = ok ((List.range t).map (r p)) := by
  rw [idx_ok (by simpa [rowsF] using hp)]
  simp [rowsF]

theorem idx_range (f : Nat → Byte) {n i : Nat} (hi : i < n) : idx ((List.range n).map f) i = ok (f i) := by
  rw [idx_ok (by simpa using hi)]; simp

theorem transpose_eq (r : Nat → Nat → Byte) (t N : Nat) (hN : 0 < N) :
    transpose (rowsF r t N) = ok ((List.range t).map fun i => (List.range N).map fun p => r p i) := by
  unfold transpose
  rw [rowsF_get r t N hN, ok_bind]
  have hlen : (rowsF r t N).length = N := by simp [rowsF]
  simp only [List.length_map, List.length_range, hlen]
  rw [forUp_fill (fun i => (List.range N).map fun p => r p i) (by simp [newMatrix]),
    filled_all (by simp [newMatrix])]
  intro i hi
  have hm : i < (newMatrix t N).length := by simpa [newMatrix] using hi
  have hmi : (newMatrix t N)[i] = List.replicate N 0 := by simp [newMatrix]
  rw [forUp_eq (fun j => (filled (fun i => (List.range N).map fun p => r p i) (newMatrix t N) i).set i
    (filled (fun p => r p i) (List.replicate N 0) j))]
  · rw [filled_all (f := fun p => r p i) (l := List.replicate N 0) (by simp), filled_set hm rfl]
  · rw [filled_zero, ← hmi]
    apply List.ext_getElem?
    intro k
    rw [List.getElem?_set]
    split
    · rename_i h; subst h
      rw [length_filled (by omega), if_pos hm, getElem?_filled (by omega), if_neg (by omega),
        List.getElem?_eq_getElem hm]
    · rfl
  · intro j hj
    have hl : i < (filled (fun i => (List.range N).map fun p => r p i) (newMatrix t N) i).length := by
      rw [length_filled (by omega)]; exact hm
    rw [rowsF_get r t N hj, ok_bind, idx_range _ hi, ok_bind, idx_ok (by simpa using hl), ok_bind]
    simp only [List.getElem_set_self]
    rw [setIdx_filled (by simpa using hj) rfl, ok_bind, setIdx_ok (by simpa using hl), List.set_set]

theorem rowsF_eval (r : Nat → Nat → Byte) (t : Nat) (x : Byte) (p : Nat) :
    evalC ((List.range t).map (r p)) x = (∑ k ∈ Finset.range t, (⟨r p k⟩ : GF) * ⟨x⟩ ^ k).val := by
  rw [evalC_eq]
  simp only [List.length_map, List.length_range]
  congr 1
  refine Finset.sum_congr rfl fun k hk => ?_
  have hk : k < t := by simpa using hk
  simp [List.getD_eq_getElem?_getD, List.getElem?_range hk]

theorem shareOf_rowsF (r : Nat → Nat → Byte) (t N : Nat) (x : Byte) :
    shareOf (rowsF r t N) x
      = ((List.range N).map fun p => (∑ k ∈ Finset.range t, (⟨r p k⟩ : GF) * ⟨x⟩ ^ k).val) ++ [x] := by
  unfold shareOf rowsF
  rw [List.map_map]
  congr 1
  apply List.map_congr_left
  intro p _
  exact rowsF_eval r t x p

/-- coefficients of SplitGeneric -/
def genericCoeff (s : List Byte) (degree : Nat) (rnd : Nat → Byte) (p i : Nat) : Byte :=
  if i = 0 then s.getD p 0 else rnd (degree * p + (i - 1))

theorem makePolynomials_eq (s : List Byte) (degree : Nat) (rnd : Nat → Byte) :
    makePolynomials s degree rnd = ok (rowsF (genericCoeff s degree rnd) (degree + 1) s.length) := by
  unfold makePolynomials
  simp only [Outcome.pure_eq]
  rw [forUp_eq (fun p => (filled (fun p => (List.range (degree + 1)).map (genericCoeff s degree rnd p))
    (newMatrix s.length (degree + 1)) p, degree * p))]
  · rw [ok_bind]
    simp only
    rw [filled_all (by simp [newMatrix])]
    rfl
  · simp
  · intro p hp
    have hm : p < (newMatrix s.length (degree + 1)).length := by simpa [newMatrix] using hp
    have hmi : (newMatrix s.length (degree + 1))[p] = List.replicate (degree + 1) 0 := by simp [newMatrix]
    have hle : degree * p + degree ≤ degree * s.length := by
      rw [← Nat.mul_succ]; exact Nat.mul_le_mul_left _ hp
    simp only
    rw [idx_filled hm, ok_bind, hmi, idx_getD hp, ok_bind, setIdx_ok (by simp), ok_bind,
      slice_range (by simp [randRead]; omega), ok_bind, slice_ok (by simp) (le_refl _), ok_bind,
      setIdx_filled hm, ok_bind]
    · congr 2
    · rw [List.replicate_succ, List.set_cons_zero]
      rw [copyInto_same (by simp)]
      rw [show writeAt (s.getD p 0 :: List.replicate degree (0 : Byte)) 1
        ((List.range degree).map fun i => (randRead rnd 0 (List.replicate (degree * s.length) 0)).getD (degree * p + i) 0)
        = s.getD p 0 :: ((List.range degree).map fun i =>
          (randRead rnd 0 (List.replicate (degree * s.length) 0)).getD (degree * p + i) 0) from by
          simp [writeAt]]
      rw [List.range_succ_eq_map, List.map_cons, List.map_map]
      congr 1
      apply List.map_congr_left
      intro i hi
      have hi : i < degree := by simpa using hi
      have hlt : degree * p + i < degree * s.length := by omega
      simp [Function.comp, genericCoeff, randRead, List.getD_eq_getElem?_getD, List.getElem?_range hlt]

/-- coefficients of SplitWithRandomizerOld -/
def oldCoeff (s : List Byte) (t : Nat) (r : CSPRNG) (p i : Nat) : Byte :=
  if i = 0 then s.getD p 0 else r.ks (t * p + i)

theorem read_getD (r : CSPRNG) (b : List Byte) {k : Nat} (hk : k < b.length) :
    (r.read b).getD k 0 = b.getD k 0 ^^^ r.ks k := by
  simp [CSPRNG.read, List.getD_eq_getElem?_getD, List.getElem?_eq_getElem hk]

theorem makePolynomialsWithRandomizer_eq (s : List Byte) (degree : Nat) (r : CSPRNG) :
    makePolynomialsWithRandomizer s degree r = ok (rowsF (oldCoeff s (degree + 1) r) (degree + 1) s.length) := by
  unfold makePolynomialsWithRandomizer
  simp only
  rw [forUp_fill (fun p => (List.range (degree + 1)).map (oldCoeff s (degree + 1) r p)) (by simp),
    filled_all (by simp)]
  · rfl
  · intro p hp
    have hle : (degree + 1) * p + (degree + 1) ≤ (degree + 1) * s.length := by
      rw [← Nat.mul_succ]; exact Nat.mul_le_mul_left _ hp
    simp only [Nat.add_assoc]
    rw [slice_range (by simp [length_read]; omega), ok_bind, idx_getD hp, ok_bind, setIdx_ok (by simp), ok_bind,
      setIdx_filled (by simpa using hp)]
    rw [List.range_succ_eq_map, List.map_cons, List.set_cons_zero, List.map_cons, List.map_map, List.map_map]
    congr 1
    apply List.map_congr_left
    intro i hi
    have hi : i < degree := by simpa using hi
    simp only [Function.comp]
    rw [read_getD _ _ (by simp; omega)]
    simp only [oldCoeff, List.getD_eq_getElem?_getD]
    rw [List.getElem?_eq_getElem (by simp; omega)]
    simp

theorem splitGeneric_invalid {secret : List Byte} {parts threshold : Int} (perm : List Nat)
    (rnd : Nat → Byte) {e : Err} (h : argError secret parts threshold = some e) :
    splitGeneric secret parts threshold perm rnd = err e := by
  unfold splitGeneric
  rw [guard_chain, h]

theorem splitGeneric_valid {secret : List Byte} {parts threshold : Int} (perm : List Nat)
    (rnd : Nat → Byte) (h : ValidArgs secret parts threshold) (hperm : parts.toNat ≤ perm.length) :
    splitGeneric secret parts threshold perm rnd
      = ok ((shareTags parts.toNat (perm.map (BitVec.ofNat 8))).map
            (shareOf (rowsF (genericCoeff secret (threshold.toNat - 1) rnd) threshold.toNat secret.length))) := by
  have ht : 2 ≤ threshold.toNat := by have := h.2.2.1; omega
  have hN : 0 < secret.length := List.length_pos_iff.2 h.2.2.2
  unfold splitGeneric
  rw [guard_chain, argError_none.2 h]
  simp only
  set xs := perm.map (BitVec.ofNat 8) with hxs
  have hlen : parts.toNat ≤ xs.length := by simpa [hxs] using hperm
  rw [allocSharesSeparately_eq _ _ _ hlen, ok_bind,
    makePolynomials_eq, ok_bind, transpose_eq _ _ _ hN, ok_bind]
  rw [forUp_fill (fun i => shareOf (rowsF (genericCoeff secret (threshold.toNat - 1) rnd) (threshold.toNat - 1 + 1)
    secret.length) (xs.getD i 0 + 1#8)) (by simp), filled_all (by simp)]
  · have e : threshold.toNat - 1 + 1 = threshold.toNat := by omega
    rw [e, shareTags, List.map_map]
    rfl
  · intro i hi
    rw [idx_getD (by omega), ok_bind, idx_filled (by simpa using hi), ok_bind,
      genericEvaluateAt_eq (fun i p => genericCoeff secret (threshold.toNat - 1) rnd p i) _ _ _ _ (by simp), ok_bind,
      setIdx_filled (by simpa using hi)]
    rw [shareOf_rowsF]
    congr 1
    simp

theorem splitOld_invalid (arch : Arch) {secret : List Byte} {parts threshold : Int} (r : CSPRNG) (ps : Pools)
    {e : Err} (h : argError secret parts threshold = some e) :
    splitWithRandomizerOld arch secret parts threshold r ps = err e := by
  unfold splitWithRandomizerOld
  rw [guard_chain, h]

theorem splitOld_noTags (arch : Arch) {secret : List Byte} {parts threshold : Int} (r : CSPRNG) (ps : Pools)
    (h : ValidArgs secret parts threshold) {o : Outcome (List Byte)} (hx : r.perm 255#8 = o)
    (ho : ∀ xs, o ≠ ok xs) :
    splitWithRandomizerOld arch secret parts threshold r ps = (o >>= fun _ => panic) := by
  unfold splitWithRandomizerOld
  rw [guard_chain, argError_none.2 h, hx]
  cases o <;> first | rfl | exact absurd rfl (ho _)

theorem rowsF_top {r : Nat → Nat → Byte} {t N : Nat} (ht : 0 < t) :
    ((rowsF r t N).map fun row => row.getD (t - 1) 0) = (List.range N).map fun p => r p (t - 1) := by
  unfold rowsF
  rw [List.map_map]
  apply List.map_congr_left
  intro p _
  simp [List.getD_eq_getElem?_getD, List.getElem?_range (show t - 1 < t by omega)]

theorem rowsF_values {r : Nat → Nat → Byte} {t N : Nat} (x : Byte) :
    ((rowsF r t N).map fun row => evalC row x)
      = (List.range N).map fun p => (∑ k ∈ Finset.range t, (⟨r p k⟩ : GF) * ⟨x⟩ ^ k).val := by
  unfold rowsF
  rw [List.map_map]
  apply List.map_congr_left
  intro p _
  simp only [Function.comp]
  rw [evalC_eq]
  simp only [List.length_map, List.length_range]
  congr 1
  refine Finset.sum_congr rfl fun k hk => ?_
  have hk : k < t := by simpa using hk
  simp [List.getD_eq_getElem?_getD, List.getElem?_range hk]

theorem splitOld_pools (arch : Arch) {secret : List Byte} {parts threshold : Int} (r : CSPRNG) (ps : Pools)
    (h : ValidArgs secret parts threshold) (xs : List Byte) (hx : r.perm 255#8 = ok xs)
    (hlen : parts.toNat ≤ xs.length) :
    splitWithRandomizerOld arch secret parts threshold r ps
      = ok ((shareTags parts.toNat xs).map
            (shareOf (rowsF (oldCoeff secret threshold.toNat r) threshold.toNat secret.length)),
          ⟨ps.bPool, polyAfter arch (rowsF (oldCoeff secret threshold.toNat r) threshold.toNat secret.length)
            threshold.toNat xs ps.polyPool parts.toNat⟩) := by
  have ht : 2 ≤ threshold.toNat := by have := h.2.2.1; omega
  have hN : 0 < secret.length := List.length_pos_iff.2 h.2.2.2
  obtain ⟨d, hd⟩ : ∃ d, threshold.toNat = d + 1 := ⟨threshold.toNat - 1, by omega⟩
  unfold splitWithRandomizerOld
  rw [guard_chain, argError_none.2 h]
  simp only [hd, Nat.add_sub_cancel, Outcome.pure_eq]
  rw [hx, ok_bind, allocShares_eq _ _ _ hlen, ok_bind, makePolynomialsWithRandomizer_eq, ok_bind,
    transpose_eq _ _ _ hN, ok_bind]
  obtain ⟨st, hst, P⟩ := forUp_inv (n := parts.toNat)
    (body := fun i (st : List (List Byte) × BytesBufferPool) => do
      let (out, pool) := st
      let xc ← idx xs i
      let row ← idx out i
      let (row, pool) ← evaluatePolynomialsAt arch
        ((List.range (d + 1)).map fun i => (List.range secret.length).map fun p => oldCoeff secret (d + 1) r p i)
        (xc + 1#8) row pool
      let out ← setIdx out i row
      (ok (out, pool) : Outcome _))
    (s := (blankShares secret.length parts.toNat xs, ps.polyPool))
    (fun i st => st = (filled (fun i => shareOf (rowsF (oldCoeff secret (d + 1) r) (d + 1) secret.length)
      (xs.getD i 0 + 1#8)) (blankShares secret.length parts.toNat xs) i,
      polyAfter arch (rowsF (oldCoeff secret (d + 1) r) (d + 1) secret.length) (d + 1) xs ps.polyPool i))
    (by simp [polyAfter])
    (by
      rintro i hi ⟨out, pool⟩ hs
      obtain ⟨rfl, rfl⟩ := Prod.mk.inj hs
      have hb : i < (blankShares secret.length parts.toNat xs).length := by simpa [blankShares] using hi
      have hrow : (blankShares secret.length parts.toNat xs)[i]
          = List.replicate secret.length 0 ++ [xs.getD i 0 + 1#8] := by simp [blankShares]
      have hev := evaluateAt_eq arch (fun i p => oldCoeff secret (d + 1) r p i) secret.length d
        (xs.getD i 0 + 1#8) (List.replicate secret.length 0 ++ [xs.getD i 0 + 1#8])
        (polyAfter arch (rowsF (oldCoeff secret (d + 1) r) (d + 1) secret.length) (d + 1) xs ps.polyPool i) (by simp)
      refine ⟨_, ?_, rfl⟩
      simp only
      rw [idx_getD (by omega), ok_bind, idx_filled hb, ok_bind, hrow, hev, ok_bind]
      simp only
      rw [setIdx_filled hb, ok_bind]
      · rw [polyAfter, rowsF_top (Nat.succ_pos d), rowsF_values]
        simp [rowsF]
      · rw [shareOf_rowsF, List.drop_left' (by simp)])
  have hst' := congrArg (fun o : Outcome (List (List Byte) × BytesBufferPool) => o >>= fun x =>
    (ok (x.1, (⟨ps.bPool, x.2⟩ : Pools)) : Outcome _)) hst
  refine hst'.trans ?_
  simp only [ok_bind]
  rw [P, filled_all (by simp [blankShares]), shareTags, List.map_map]
  rfl

theorem splitOld_valid (arch : Arch) {secret : List Byte} {parts threshold : Int} (r : CSPRNG) (ps : Pools)
    (h : ValidArgs secret parts threshold) (xs : List Byte) (hx : r.perm 255#8 = ok xs)
    (hlen : parts.toNat ≤ xs.length) :
    ∃ polyPool', splitWithRandomizerOld arch secret parts threshold r ps
      = ok ((shareTags parts.toNat xs).map
            (shareOf (rowsF (oldCoeff secret threshold.toNat r) threshold.toNat secret.length)),
          ⟨ps.bPool, polyPool'⟩) :=
  ⟨_, splitOld_pools arch r ps h xs hx hlen⟩

theorem rowsF_good {secret : List Byte} {t : Nat} (ht : 0 < t) {r : Nat → Nat → Byte}
    (h0 : ∀ p < secret.length, r p 0 = secret.getD p 0) :
    GoodRows secret t (rowsF r t secret.length) := by
  refine ⟨by simp [rowsF], ?_, ?_⟩
  · intro x hx
    obtain ⟨p, -, rfl⟩ := List.mem_map.1 hx
    simp
  · intro j hj
    simp [rowsF, List.getD_eq_getElem?_getD, List.getElem?_range hj, List.getElem?_range ht, h0 j hj]

end Verif.Proofs
