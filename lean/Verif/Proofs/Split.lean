import Verif.Proofs.Eval

/-! # Closed forms of the Split functions -/

namespace Verif.Proofs
open Verif Spec Outcome Polynomial Shamir Galois Pool Csprng

/-- shares before evaluation -/
def blankShares (N parts : Nat) (xs : List Byte) : List (List Byte) :=
  (List.range parts).map fun i => List.replicate N 0 ++ [xs.getD i 0 + 1#8]

/-- the tags given to the shares -/
def shareTags (parts : Nat) (xs : List Byte) : List Byte := (List.range parts).map fun i => xs.getD i 0 + 1#8

theorem shareTags_eq {parts : Nat} {xs : List Byte} (h : parts ≤ xs.length) :
    shareTags parts xs = (xs.take parts).map (· + 1#8) := by
  unfold shareTags
  have e := range_map_getElem (xs.take parts) (· + 1#8) 0
  rw [List.length_take, Nat.min_eq_left h] at e
  rw [← e]
  apply List.map_congr_left
  intro i hi
  have hi : i < parts := by simpa using hi
  simp [List.getD_eq_getElem?_getD, List.getElem?_take, hi]

theorem add_one_injective : Function.Injective (fun x : Byte => x + 1#8) := by
  intro a b h
  have : a + 1#8 - 1#8 = b + 1#8 - 1#8 := congrArg (· - 1#8) h
  simpa using this

theorem shareTags_nodup {parts : Nat} {xs : List Byte} (h : parts ≤ xs.length) (hn : (xs.take parts).Nodup) :
    (shareTags parts xs).Nodup := by
  rw [shareTags_eq h]
  exact hn.map add_one_injective

theorem rows_eval (pol : List Byte) (t N : Nat) (x : Byte) (p : Nat) :
    evalC ((List.range t).map fun i => pol.getD (t * p + i) 0) x
      = (∑ k ∈ Finset.range t, (⟨pol.getD (t * p + k) 0⟩ : GF) * ⟨x⟩ ^ k).val := by
  rw [evalC_eq]
  simp only [List.length_map, List.length_range]
  congr 1
  refine Finset.sum_congr rfl fun k hk => ?_
  have hk : k < t := by simpa using hk
  simp [List.getD_eq_getElem?_getD, List.getElem?_range hk]

/-- The transposed flat matrix. -/
def transposed (pol : List Byte) (t N : Nat) : List Byte :=
  (List.range (t * N)).map fun k => pol.getD (t * (k % N) + k / N) 0

theorem transposed_get {pol : List Byte} {t N k p : Nat} (hk : k < t) (hp : p < N) :
    (transposed pol t N).getD (k * N + p) 0 = pol.getD (t * p + k) 0 := by
  have hlt : k * N + p < t * N := by
    calc k * N + p < k * N + N := by omega
      _ = (k + 1) * N := by ring
      _ ≤ t * N := Nat.mul_le_mul_right _ hk
  have hN : 0 < N := by omega
  unfold transposed
  rw [List.getD_eq_getElem?_getD, List.getElem?_map, List.getElem?_range hlt]
  simp only [Option.map_some, Option.getD_some]
  have e1 : (k * N + p) % N = p := by rw [Nat.mul_comm, Nat.mul_add_mod]; exact Nat.mod_eq_of_lt hp
  have e2 : (k * N + p) / N = k := by
    rw [Nat.mul_comm, Nat.mul_add_div hN, Nat.div_eq_of_lt hp]; omega
  rw [e1, e2]

/-- The pool of result buffers after the evaluations of the polynomials `rows` for the first `i` shares. -/
noncomputable def polyAfter (arch : Arch) (rows : List (List Byte)) (t : Nat) (xs : List Byte) (pool : BytesBufferPool) :
    Nat → BytesBufferPool
  | 0 => pool
  | i + 1 => evalPool arch rows.length (rows.map fun row => row.getD (t - 1) 0)
      (rows.map fun row => evalC row (xs.getD i 0 + 1#8)) (polyAfter arch rows t xs pool i)

theorem rowsOf_top {pol : List Byte} {t N : Nat} (ht : 0 < t) :
    ((rowsOf pol t N).map fun row => row.getD (t - 1) 0) = (List.range N).map fun p => pol.getD (t * p + (t - 1)) 0 := by
  unfold rowsOf
  rw [List.map_map]
  apply List.map_congr_left
  intro p _
  simp [List.getD_eq_getElem?_getD, List.getElem?_range (show t - 1 < t by omega)]

theorem fillShares_eq (arch : Arch) (pol : List Byte) (t N parts : Nat) (xs : List Byte) (pool : BytesBufferPool)
    (ht : 0 < t) (hN : 0 < N) (hx : parts ≤ xs.length) :
    fillShares arch (transposed pol t N) N parts xs (blankShares N parts xs) pool
      = ok ((shareTags parts xs).map (shareOf (rowsOf pol t N)), polyAfter arch (rowsOf pol t N) t xs pool parts) := by
  unfold fillShares
  obtain ⟨st, hst, P⟩ := forUp_inv (n := parts)
    (body := fun i (st : List (List Byte) × BytesBufferPool) => do
      let (out, pool) := st
      let xc ← idx xs i
      let row ← idx out i
      let dst ← slice row 0 N
      let (dst, pool) ← evaluatePolynomialsAtWithCoefficientsBuffer arch (transposed pol t N) N (xc + 1#8) dst pool
      let out ← setIdx out i (writeAt row 0 dst)
      (ok (out, pool) : Outcome _))
    (s := (blankShares N parts xs, pool))
    (fun i st => st = (filled (fun i => shareOf (rowsOf pol t N) (xs.getD i 0 + 1#8)) (blankShares N parts xs) i,
      polyAfter arch (rowsOf pol t N) t xs pool i))
    (by simp [polyAfter])
    (by
      rintro i hi ⟨out, pool1⟩ hs
      obtain ⟨rfl, rfl⟩ := Prod.mk.inj hs
      have hb : i < (blankShares N parts xs).length := by simpa [blankShares] using hi
      have hrow : (blankShares N parts xs)[i] = List.replicate N 0 ++ [xs.getD i 0 + 1#8] := by
        simp [blankShares]
      obtain ⟨d, rfl⟩ : ∃ d, t = d + 1 := ⟨t - 1, by omega⟩
      have hev := evaluateBuffer_eq arch (transposed pol (d + 1) N) N d (xs.getD i 0 + 1#8)
        (List.replicate N 0) (polyAfter arch (rowsOf pol (d + 1) N) (d + 1) xs pool i) hN (by simp [transposed]) (by simp)
      have hval : ((List.range N).map fun p =>
          (∑ k ∈ Finset.range (d + 1), (⟨(transposed pol (d + 1) N).getD (k * N + p) 0⟩ : GF) * ⟨xs.getD i 0 + 1#8⟩ ^ k).val)
          = (rowsOf pol (d + 1) N).map fun row => evalC row (xs.getD i 0 + 1#8) := by
        unfold rowsOf
        rw [List.map_map]
        apply List.map_congr_left
        intro p hp
        have hp : p < N := by simpa using hp
        simp only [Function.comp]
        rw [rows_eval _ _ N]
        congr 1
        refine Finset.sum_congr rfl fun k hk => ?_
        rw [transposed_get (by simpa using hk) hp]
      have htop : ((List.range N).map fun p => (transposed pol (d + 1) N).getD (d * N + p) 0)
          = (rowsOf pol (d + 1) N).map fun row => row.getD (d + 1 - 1) 0 := by
        rw [rowsOf_top (Nat.succ_pos d)]
        apply List.map_congr_left
        intro p hp
        rw [transposed_get (Nat.lt_succ_self d) (by simpa using hp)]
        rfl
      rw [hval, htop] at hev
      refine ⟨_, ?_, rfl⟩
      simp only
      rw [idx_getD (by omega), ok_bind, idx_filled hb, ok_bind, hrow,
        slice_ok (Nat.zero_le _) (by simp), ok_bind]
      have e : List.take (N - 0) (List.drop 0 (List.replicate N (0 : Byte) ++ [xs.getD i 0 + 1#8]))
          = List.replicate N 0 := by simp
      rw [e, hev, ok_bind]
      simp only
      have hrl : (rowsOf pol (d + 1) N).length = N := by simp [rowsOf]
      have hsh : (rowsOf pol (d + 1) N).map (fun row => evalC row (xs.getD i 0 + 1#8)) ++
          List.drop ((rowsOf pol (d + 1) N).map fun row => evalC row (xs.getD i 0 + 1#8)).length
            (List.replicate N 0 ++ [xs.getD i 0 + 1#8]) = shareOf (rowsOf pol (d + 1) N) (xs.getD i 0 + 1#8) := by
        unfold shareOf
        rw [List.length_map, hrl, List.drop_left' (by simp)]
      rw [setIdx_filled hb, ok_bind]
      · rw [polyAfter, hrl]
      · rw [writeAt_zero, hsh])
  refine hst.trans ?_
  rw [P, filled_all (by simp [blankShares])]
  simp only [shareTags, List.map_map]
  rfl

/-! ## Argument checks -/

theorem guard_chain {α : Type} (secret : List Byte) (parts threshold : Int) (k : Outcome α) :
    ((do
      if parts < threshold then err .partsLtThreshold
      if parts > 255 then err .partsExceed255
      if threshold < 2 then err .thresholdLt2
      if threshold > 255 then err .thresholdExceed255
      if secret.length = 0 then err .emptySecret
      k) : Outcome α) =
    match argError secret parts threshold with
    | some e => err e
    | none => k := by
  unfold argError
  by_cases h1 : parts < threshold
  · simp [h1]
  by_cases h2 : parts > 255
  · simp [h1, h2]
  by_cases h3 : threshold < 2
  · simp [h1, h2, h3]
  have h4 : ¬ threshold > 255 := by omega
  by_cases h5 : secret.length = 0
  · have : secret = [] := List.length_eq_zero_iff.1 h5
    simp [h1, h2, h3, h4, this]
  · have : secret ≠ [] := fun h => h5 (by simp [h])
    simp [h1, h2, h3, h4, this]

theorem argError_none {secret : List Byte} {parts threshold : Int} :
    argError secret parts threshold = none ↔ ValidArgs secret parts threshold := by
  unfold argError ValidArgs
  split
  · simp; omega
  split
  · simp; omega
  split
  · simp; omega
  split
  · rename_i h; simp [h]
  · rename_i h1 h2 h3 h4
    simp [h4]; omega

/-- Everything Split does once the tags and the filling of the polynomial buffer are known. -/
def splitTail (arch : Arch) (secret : List Byte) (parts t : Nat) (xs : List Byte)
    (mk : List Byte → Outcome (List Byte)) (ps : Pools) : Outcome (List (List Byte) × Pools) := do
  let out ← allocShares secret.length parts xs
  let N := secret.length
  let degree := t - 1
  let (polBytesBuff, bPool) := ps.bPool.get
  let polBytesBuff := polBytesBuff.grow ((degree + 1) * N)
  let polBuff ← slice polBytesBuff.mem 0 ((degree + 1) * N)
  let polynomials ← mk polBuff
  let (polTransposeBytesBuff, bPool) := bPool.get
  let polTransposeBytesBuff := polTransposeBytesBuff.grow polynomials.length
  let coefficientBuff ← slice polTransposeBytesBuff.mem 0 polynomials.length
  let coefficientBuff ← transposeMatrixBuffer coefficientBuff polynomials (degree + 1)
  let (out, polyPool) ← fillShares arch coefficientBuff N parts xs out ps.polyPool
  let bPool := bPool.put ⟨writeAt polTransposeBytesBuff.mem 0 coefficientBuff⟩
  let bPool := bPool.put ⟨writeAt polBytesBuff.mem 0 polynomials⟩
  return (out, ⟨bPool, polyPool⟩)

/-- The shared buffer pool after a Split that took a buffer of `n` bytes, filled it with `pol`, and used a
second one for `coef`. -/
def bPoolAfter (bPool : BytesBufferPool) (pol coef : List Byte) : BytesBufferPool :=
  ((bPool.get.2.get.2.put ⟨writeAt (bPool.get.2.get.1.grow pol.length).mem 0 coef⟩).put
    ⟨writeAt (bPool.get.1.grow pol.length).mem 0 pol⟩)

/-- the stale bytes the polynomial buffer holds when Split gets it -/
def staleBuf (bPool : BytesBufferPool) (n : Nat) : List Byte := (bPool.get.1.grow n).mem.take n

theorem splitTail_eq (arch : Arch) (secret : List Byte) (parts t : Nat) (xs : List Byte)
    (mk : List Byte → Outcome (List Byte)) (ps : Pools) (ht : 0 < t) (hN : secret ≠ [])
    (hx : parts ≤ xs.length) (pol : List Byte)
    (hmk : mk (staleBuf ps.bPool (t * secret.length)) = ok pol) (hpol : pol.length = t * secret.length) :
    splitTail arch secret parts t xs mk ps
      = ok ((shareTags parts xs).map (shareOf (rowsOf pol t secret.length)),
            ⟨bPoolAfter ps.bPool pol (transposed pol t secret.length),
              polyAfter arch (rowsOf pol t secret.length) t xs ps.polyPool parts⟩) := by
  have hpos : 0 < secret.length := List.length_pos_iff.2 hN
  have e : t - 1 + 1 = t := by omega
  unfold splitTail
  simp only [e, Outcome.pure_eq]
  rw [allocShares_eq _ _ _ hx, ok_bind, slice_ok (Nat.zero_le _) (length_grow _ _), ok_bind]
  have e2 : List.take (t * secret.length - 0) (List.drop 0 ((ps.bPool.get.1.grow (t * secret.length)).mem))
      = staleBuf ps.bPool (t * secret.length) := by simp [staleBuf]
  rw [e2, hmk, ok_bind, slice_ok (Nat.zero_le _) (length_grow _ _), ok_bind]
  have hg := length_grow ps.bPool.get.2.get.1 pol.length
  rw [transposeBuffer_eq _ _ t secret.length ht hpos hpol (by simp; omega), ok_bind]
  have hf := fillShares_eq arch pol t secret.length parts xs ps.polyPool ht hpos hx
  rw [show (List.map (fun i => List.replicate secret.length 0 ++ [xs.getD i 0 + 1#8]) (List.range parts))
    = blankShares secret.length parts xs from rfl,
    show (List.map (fun k => pol.getD (t * (k % secret.length) + k / secret.length) 0) (List.range (t * secret.length)))
    = transposed pol t secret.length from rfl, hf, ok_bind]
  simp only [bPoolAfter, hpol]

/-- the polynomial buffer of Split: `rnd` everywhere, the secret in the first column -/
def polSplit (secret : List Byte) (t : Nat) (rnd : Nat → Byte) : List Byte :=
  withIntercepts secret t ((List.range (t * secret.length)).map rnd) secret.length

/-- the polynomial buffer of SplitWithRandomizer -/
def polRandomizer (secret : List Byte) (t : Nat) (r : CSPRNG) (stale : List Byte) : List Byte :=
  withIntercepts secret t (r.read stale) secret.length

theorem length_withIntercepts (s : List Byte) (t : Nat) (buf : List Byte) (p : Nat) :
    (withIntercepts s t buf p).length = buf.length := by simp [withIntercepts]

theorem length_staleBuf (bPool : BytesBufferPool) (n : Nat) : (staleBuf bPool n).length = n := by
  have := length_grow bPool.get.1 n
  simp [staleBuf]; omega

theorem length_read (r : CSPRNG) (b : List Byte) : (r.read b).length = b.length := by
  simp [CSPRNG.read]

theorem split_invalid (arch : Arch) {secret : List Byte} {parts threshold : Int} (perm : List Nat)
    (rnd : Nat → Byte) (ps : Pools) {e : Err} (h : argError secret parts threshold = some e) :
    split arch secret parts threshold perm rnd ps = err e := by
  unfold split
  rw [guard_chain, h]

theorem split_pools (arch : Arch) {secret : List Byte} {parts threshold : Int} (perm : List Nat)
    (rnd : Nat → Byte) (ps : Pools) (h : ValidArgs secret parts threshold) (hperm : parts.toNat ≤ perm.length) :
    split arch secret parts threshold perm rnd ps
      = ok ((shareTags parts.toNat (perm.map (BitVec.ofNat 8))).map
            (shareOf (rowsOf (polSplit secret threshold.toNat rnd) threshold.toNat secret.length)),
          ⟨bPoolAfter ps.bPool (polSplit secret threshold.toNat rnd)
            (transposed (polSplit secret threshold.toNat rnd) threshold.toNat secret.length),
            polyAfter arch (rowsOf (polSplit secret threshold.toNat rnd) threshold.toNat secret.length) threshold.toNat
              (perm.map (BitVec.ofNat 8)) ps.polyPool parts.toNat⟩) := by
  have ht : 0 < threshold.toNat := by have := h.2.2.1; omega
  have hs := splitTail_eq arch secret parts.toNat threshold.toNat (perm.map (BitVec.ofNat 8))
    (fun b => makePolynomialsWithBuff secret (threshold.toNat - 1) b rnd) ps ht h.2.2.2 (by simpa using hperm)
    (polSplit secret threshold.toNat rnd)
    (by
      have e : threshold.toNat - 1 + 1 = threshold.toNat := by omega
      simp only [makePolynomialsWithBuff]
      rw [setIntercepts_eq _ _ _ (by simp [randRead, length_staleBuf, e]), e]
      simp [polSplit, randRead, length_staleBuf])
    (by simp [polSplit, length_withIntercepts])
  unfold split
  rw [guard_chain, argError_none.2 h]
  exact hs

theorem split_valid (arch : Arch) {secret : List Byte} {parts threshold : Int} (perm : List Nat)
    (rnd : Nat → Byte) (ps : Pools) (h : ValidArgs secret parts threshold) (hperm : parts.toNat ≤ perm.length) :
    ∃ polyPool', split arch secret parts threshold perm rnd ps
      = ok ((shareTags parts.toNat (perm.map (BitVec.ofNat 8))).map
            (shareOf (rowsOf (polSplit secret threshold.toNat rnd) threshold.toNat secret.length)),
          ⟨bPoolAfter ps.bPool (polSplit secret threshold.toNat rnd)
            (transposed (polSplit secret threshold.toNat rnd) threshold.toNat secret.length), polyPool'⟩) :=
  ⟨_, split_pools arch perm rnd ps h hperm⟩

theorem splitWithRandomizer_invalid (arch : Arch) (fuel : Nat) {secret : List Byte} {parts threshold : Int}
    (r : CSPRNG) (ps : Pools) {e : Err} (h : argError secret parts threshold = some e) :
    splitWithRandomizer arch fuel secret parts threshold r ps = err e := by
  unfold splitWithRandomizer
  rw [guard_chain, h]

theorem splitWithRandomizer_pools (arch : Arch) (fuel : Nat) {secret : List Byte} {parts threshold : Int}
    (r : CSPRNG) (ps : Pools) (h : ValidArgs secret parts threshold) (xs : List Byte)
    (hx : r.getUniqueBytes fuel (BitVec.ofInt 8 parts) = ok xs) (hlen : parts.toNat ≤ xs.length) :
    let pol := polRandomizer secret threshold.toNat r (staleBuf ps.bPool (threshold.toNat * secret.length))
    splitWithRandomizer arch fuel secret parts threshold r ps
      = ok ((shareTags parts.toNat xs).map (shareOf (rowsOf pol threshold.toNat secret.length)),
          ⟨bPoolAfter ps.bPool pol (transposed pol threshold.toNat secret.length),
            polyAfter arch (rowsOf pol threshold.toNat secret.length) threshold.toNat xs ps.polyPool parts.toNat⟩) := by
  intro pol
  have ht : 0 < threshold.toNat := by have := h.2.2.1; omega
  have hs := splitTail_eq arch secret parts.toNat threshold.toNat xs
    (fun b => makePolynomialsWithBuffAndRandomizer secret (threshold.toNat - 1) b r) ps ht h.2.2.2 hlen
    pol
    (by
      have e : threshold.toNat - 1 + 1 = threshold.toNat := by omega
      simp only [makePolynomialsWithBuffAndRandomizer]
      rw [setIntercepts_eq _ _ _ (by simp [length_read, length_staleBuf, e]), e]
      rfl)
    (by simp [pol, polRandomizer, length_withIntercepts, length_read, length_staleBuf])
  unfold splitWithRandomizer
  rw [guard_chain, argError_none.2 h, hx]
  exact hs

theorem splitWithRandomizer_valid (arch : Arch) (fuel : Nat) {secret : List Byte} {parts threshold : Int}
    (r : CSPRNG) (ps : Pools) (h : ValidArgs secret parts threshold) (xs : List Byte)
    (hx : r.getUniqueBytes fuel (BitVec.ofInt 8 parts) = ok xs) (hlen : parts.toNat ≤ xs.length) :
    let pol := polRandomizer secret threshold.toNat r (staleBuf ps.bPool (threshold.toNat * secret.length))
    ∃ polyPool', splitWithRandomizer arch fuel secret parts threshold r ps
      = ok ((shareTags parts.toNat xs).map (shareOf (rowsOf pol threshold.toNat secret.length)),
          ⟨bPoolAfter ps.bPool pol (transposed pol threshold.toNat secret.length), polyPool'⟩) :=
  ⟨_, splitWithRandomizer_pools arch fuel r ps h xs hx hlen⟩

theorem splitWithRandomizer_noTags (arch : Arch) (fuel : Nat) {secret : List Byte} {parts threshold : Int}
    (r : CSPRNG) (ps : Pools) (h : ValidArgs secret parts threshold) {o : Outcome (List Byte)}
    (hx : r.getUniqueBytes fuel (BitVec.ofInt 8 parts) = o) (ho : ∀ xs, o ≠ ok xs) :
    splitWithRandomizer arch fuel secret parts threshold r ps = (o >>= fun _ => panic) := by
  unfold splitWithRandomizer
  rw [guard_chain, argError_none.2 h, hx]
  cases o <;> first | rfl | exact absurd rfl (ho _)

end Verif.Proofs
