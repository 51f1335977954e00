import Verif.Model.Polynomial

/-! # Model of shamir/shamir.go (SplitP is in Verif.Model.SplitP)

`parts` and `threshold` are Go `int`s, modelled as unbounded integers.  The results of
`rand.Perm(255)` (`perm`) and of `rand.Read` (`rnd`) are parameters. -/

namespace Verif.Shamir
open Verif Outcome Galois Pool Csprng

/-- The two process-wide buffer pools: shamir.go:19 `bPool`, polynomial.go:11 `polynomialBufferPool`. -/
structure Pools where
  bPool : BytesBufferPool
  polyPool : BytesBufferPool
  deriving DecidableEq, Repr

/-- shamir.go:21-23, polynomial.go:13-15 `init` -/
def Pools.init (numCPU : Nat) : Pools := ⟨newBytesBufferPool numCPU 0, newBytesBufferPool numCPU 0⟩

/-- shamir.go:58-65 (also 135-142, 190-197): the `parts` shares as consecutive windows of one zeroed
buffer, the last byte of each set to its x coordinate.  (The windows are disjoint; their capacities,
which overlap, are modelled in Verif.Model.Heap.) -/
def allocShares (secretLen parts : Nat) (xs : List Byte) : Outcome (List (List Byte)) := do
  let out : List (List Byte) := List.replicate parts []
  let buff := List.replicate ((secretLen + 1) * parts) (0 : Byte)
  forUp parts (fun i out => do
    let s := (secretLen + 1) * i
    let e := s + secretLen + 1
    let row ← slice buff s e
    let xc ← idx xs i
    let row ← setIdx row secretLen (xc + 1#8)
    setIdx out i row) out

/-- shamir.go:98-100 (also 230-232): evaluate all polynomials at the x coordinate of each share. -/
def fillShares (arch : Arch) (coefficientBuff : List Byte) (N parts : Nat) (xs : List Byte)
    (out : List (List Byte)) (pool : BytesBufferPool) :
    Outcome (List (List Byte) × BytesBufferPool) :=
  forUp parts (fun i (st : List (List Byte) × BytesBufferPool) => do
    let (out, pool) := st
    let xc ← idx xs i
    let row ← idx out i
    let dst ← slice row 0 N
    let (dst, pool) ← evaluatePolynomialsAtWithCoefficientsBuffer arch coefficientBuff N (xc + 1#8) dst pool
    let out ← setIdx out i (writeAt row 0 dst)
    pure (out, pool)) (out, pool)

/-- shamir.go:30-104 `Split`.  `perm` is the result of `rand.Perm(255)`. -/
def split (arch : Arch) (secret : List Byte) (parts threshold : Int) (perm : List Nat)
    (rnd : Nat → Byte) (ps : Pools) : Outcome (List (List Byte) × Pools) := do
  if parts < threshold then err .partsLtThreshold
  if parts > 255 then err .partsExceed255
  if threshold < 2 then err .thresholdLt2
  if threshold > 255 then err .thresholdExceed255
  if secret.length = 0 then err .emptySecret
  let xCoordinates : List Byte := perm.map fun v => BitVec.ofNat 8 v    -- uint8(xCoordinates[i])
  let out ← allocShares secret.length parts.toNat xCoordinates
  let N := secret.length
  let degree := threshold.toNat - 1
  let (polBytesBuff, bPool) := ps.bPool.get
  let polBytesBuff := polBytesBuff.grow ((degree + 1) * N)
  let polBuff ← slice polBytesBuff.mem 0 ((degree + 1) * N)
  let polynomials ← makePolynomialsWithBuff secret degree polBuff rnd
  let (polTransposeBytesBuff, bPool) := bPool.get
  let polTransposeBytesBuff := polTransposeBytesBuff.grow polynomials.length
  let coefficientBuff ← slice polTransposeBytesBuff.mem 0 polynomials.length
  let coefficientBuff ← transposeMatrixBuffer coefficientBuff polynomials (degree + 1)
  let (out, polyPool) ← fillShares arch coefficientBuff N parts.toNat xCoordinates out ps.polyPool
  -- deferred Puts run last-in first-out
  let bPool := bPool.put ⟨writeAt polTransposeBytesBuff.mem 0 coefficientBuff⟩
  let bPool := bPool.put ⟨writeAt polBytesBuff.mem 0 polynomials⟩
  return (out, ⟨bPool, polyPool⟩)

/-- shamir.go:162-236 `SplitWithRandomizer`. -/
def splitWithRandomizer (arch : Arch) (fuel : Nat) (secret : List Byte) (parts threshold : Int)
    (randomizer : CSPRNG) (ps : Pools) : Outcome (List (List Byte) × Pools) := do
  if parts < threshold then err .partsLtThreshold
  if parts > 255 then err .partsExceed255
  if threshold < 2 then err .thresholdLt2
  if threshold > 255 then err .thresholdExceed255
  if secret.length = 0 then err .emptySecret
  let xCoordinates ← randomizer.getUniqueBytes fuel (BitVec.ofInt 8 parts)   -- byte(parts)
  let out ← allocShares secret.length parts.toNat xCoordinates
  let N := secret.length
  let degree := threshold.toNat - 1
  let (polBytesBuff, bPool) := ps.bPool.get
  let polBytesBuff := polBytesBuff.grow ((degree + 1) * N)
  let polBuff ← slice polBytesBuff.mem 0 ((degree + 1) * N)
  let polynomials ← makePolynomialsWithBuffAndRandomizer secret degree polBuff randomizer
  let (polTransposeBytesBuff, bPool) := bPool.get
  let polTransposeBytesBuff := polTransposeBytesBuff.grow polynomials.length
  let coefficientBuff ← slice polTransposeBytesBuff.mem 0 polynomials.length
  let coefficientBuff ← transposeMatrixBuffer coefficientBuff polynomials (degree + 1)
  let (out, polyPool) ← fillShares arch coefficientBuff N parts.toNat xCoordinates out ps.polyPool
  let bPool := bPool.put ⟨writeAt polTransposeBytesBuff.mem 0 coefficientBuff⟩
  let bPool := bPool.put ⟨writeAt polBytesBuff.mem 0 polynomials⟩
  return (out, ⟨bPool, polyPool⟩)

/-- shamir.go:107-160 `SplitWithRandomizerOld`. -/
def splitWithRandomizerOld (arch : Arch) (secret : List Byte) (parts threshold : Int)
    (randomizer : CSPRNG) (ps : Pools) : Outcome (List (List Byte) × Pools) := do
  if parts < threshold then err .partsLtThreshold
  if parts > 255 then err .partsExceed255
  if threshold < 2 then err .thresholdLt2
  if threshold > 255 then err .thresholdExceed255
  if secret.length = 0 then err .emptySecret
  let xCoordinates ← randomizer.perm 255#8
  let out ← allocShares secret.length parts.toNat xCoordinates
  let polynomials ← makePolynomialsWithRandomizer secret (threshold.toNat - 1) randomizer
  let coefficients ← transpose polynomials
  let (out, polyPool) ← forUp parts.toNat (fun i (st : List (List Byte) × BytesBufferPool) => do
    let (out, pool) := st
    let xc ← idx xCoordinates i
    let row ← idx out i
    let (row, pool) ← evaluatePolynomialsAt arch coefficients (xc + 1#8) row pool
    let out ← setIdx out i row
    pure (out, pool)) (out, ps.polyPool)
  return (out, ⟨ps.bPool, polyPool⟩)

/-- shamir.go:266-270 (also 314-318): separately allocated shares, the last byte set to the x coordinate. -/
def allocSharesSeparately (secretLen parts : Nat) (xs : List Byte) : Outcome (List (List Byte)) := do
  let out : List (List Byte) := List.replicate parts []
  forUp parts (fun i out => do
    let row := List.replicate (secretLen + 1) (0 : Byte)
    let xc ← idx xs i
    let row ← setIdx row secretLen (xc + 1#8)
    setIdx out i row) out

/-- shamir.go:238-288 `SplitGeneric`. -/
def splitGeneric (secret : List Byte) (parts threshold : Int) (perm : List Nat)
    (rnd : Nat → Byte) : Outcome (List (List Byte)) := do
  if parts < threshold then err .partsLtThreshold
  if parts > 255 then err .partsExceed255
  if threshold < 2 then err .thresholdLt2
  if threshold > 255 then err .thresholdExceed255
  if secret.length = 0 then err .emptySecret
  let xCoordinates : List Byte := perm.map fun v => BitVec.ofNat 8 v
  let out ← allocSharesSeparately secret.length parts.toNat xCoordinates
  let polynomials ← makePolynomials secret (threshold.toNat - 1) rnd
  let coefficients ← transpose polynomials
  forUp parts.toNat (fun i out => do
    let xc ← idx xCoordinates i
    let row ← idx out i
    let row ← genericEvaluatePolynomialsAt coefficients (xc + 1#8) row
    setIdx out i row) out

/-- shamir.go:379-383 (also 435-439): all parts have the length of the first one. -/
def checkLengths (parts : List (List Byte)) (firstPartLen : Nat) : Outcome Unit :=
  forUp (parts.length - 1) (fun i _ => do
    let p ← idx parts (i + 1)
    if p.length ≠ firstPartLen then err .partLengthMismatch
    pure ()) ()

/-- shamir.go:394-402 (also 450-457): collect the tags, failing on a duplicate; the map `checkMap` is the
list of tags seen. Returns (x_samples, checkMap). -/
def collectTags (parts : List (List Byte)) (firstPartLen : Nat) (x_samples : List Byte) :
    Outcome (List Byte × List Byte) :=
  forUp parts.length (fun i (st : List Byte × List Byte) => do
    let (x_samples, checkMap) := st
    let part ← idx parts i
    let samp ← idx part (firstPartLen - 1)
    if samp ∈ checkMap then err .duplicatePart
    let x_samples ← setIdx x_samples i samp
    pure (x_samples, samp :: checkMap)) (x_samples, [])

/-- shamir.go:407-409 (also 480-482): `y_samples[i] = parts[i][j]`. -/
def collectY (parts : List (List Byte)) (j : Nat) (y_samples : List Byte) : Outcome (List Byte) :=
  forUp parts.length (fun i y_samples => do
    let part ← idx parts i
    let v ← idx part j
    setIdx y_samples i v) y_samples

/-- shamir.go:368-418 `Combine`. -/
def combine (parts : List (List Byte)) : Outcome (List Byte) := do
  if parts.length < 2 then err .lessThanTwoParts
  let p0 ← idx parts 0
  let firstPartLen := p0.length
  if firstPartLen < 2 then err .partTooShort
  checkLengths parts firstPartLen
  let secret := List.replicate (firstPartLen - 1) (0 : Byte)
  let x_samples := List.replicate parts.length (0 : Byte)
  let y_samples := List.replicate parts.length (0 : Byte)
  let (x_samples, _) ← collectTags parts firstPartLen x_samples
  let (secret, _) ← forUp secret.length (fun j (st : List Byte × List Byte) => do
    let (secret, y_samples) := st
    let y_samples ← collectY parts j y_samples
    let val ← interpolatePolynomial x_samples y_samples 0
    let secret ← setIdx secret j val
    pure (secret, y_samples)) (secret, y_samples)
  return secret

/-- shamir.go:466-469: `for exists { nx = byte(rand.Uint32()); exists = checkMap[nx] }`; `u i` is the i-th
value of `byte(rand.Uint32())`, `pos` of them were used before. Returns the final `nx` and the new `pos`. -/
def regenLoop (u : Nat → Byte) (checkMap : List Byte) : Nat → Byte → Nat → Outcome (Byte × Nat)
  | 0, _, _ => spin
  | fuel + 1, nx, pos =>
    if nx ∈ checkMap then regenLoop u checkMap fuel (u pos) (pos + 1) else ok (nx, pos)

/-- shamir.go:464-471: the loop over `newXs`; it changes only `checkMap` (and the random source). -/
def regenDedupe (u : Nat → Byte) (fuel : Nat) (newXs : List Byte) (checkMap : List Byte) :
    Outcome (List Byte × Nat) :=
  forUp newXs.length (fun i (st : List Byte × Nat) => do
    let (checkMap, pos) := st
    let nx ← idx newXs i
    let (nx, pos) ← regenLoop u checkMap fuel nx pos
    pure (nx :: checkMap, pos)) (checkMap, 0)

/-- shamir.go:424-488 `Regenerate`. `rnd` are the bytes of `rand.Read(newXs)`, `u` the later
`byte(rand.Uint32())` values. -/
def regenerate (fuel : Nat) (parts : List (List Byte)) (numNewShares : Int) (rnd u : Nat → Byte) :
    Outcome (List (List Byte)) := do
  if parts.length < 2 then err .lessThanTwoParts
  let p0 ← idx parts 0
  let firstPartLen := p0.length
  if firstPartLen < 2 then err .partTooShort
  checkLengths parts firstPartLen
  if numNewShares < 0 then panic                     -- make: negative length
  let n := numNewShares.toNat
  let newShares : List (List Byte) := List.replicate n []
  let y_samples := List.replicate parts.length (0 : Byte)
  let newXs := List.replicate n (0 : Byte)
  let (x_samples, checkMap) ← collectTags parts firstPartLen (List.replicate parts.length 0)
  let newXs := randRead rnd 0 newXs
  let _ ← regenDedupe u fuel newXs checkMap
  let (newShares, _) ← forUp n (fun k (st : List (List Byte) × List Byte) => do
    let (newShares, y_samples) := st
    let nx ← idx newXs k
    let row := List.replicate firstPartLen (0 : Byte)
    let row ← setIdx row (firstPartLen - 1) nx
    let (row, y_samples) ← forUp (firstPartLen - 1) (fun j (st : List Byte × List Byte) => do
      let (row, y_samples) := st
      let y_samples ← collectY parts j y_samples
      let v ← interpolatePolynomial x_samples y_samples nx
      let row ← setIdx row j v
      pure (row, y_samples)) (row, y_samples)
    let newShares ← setIdx newShares k row
    pure (newShares, y_samples)) (newShares, y_samples)
  return newShares

end Verif.Shamir
