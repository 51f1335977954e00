import Verif.Model.Leak

/-! # SplitWithRandomizer, SplitGeneric and Regenerate, with what an observer of the processor sees

As in `Model/Leak.lean`.  Simplifications: the pools, `rand.Perm`, `rand.Read`, `CSPRNG.Read`, `CSPRNG.GetUniqueBytes` (which never
see the secret or a share) and the allocator show nothing. -/

namespace Verif.Leak
open Verif Outcome Galois Pool Csprng

/-- shamir.go:162-236 `SplitWithRandomizer` -/
def splitWithRandomizer (arch : Arch) (fuel : Nat) (secret : List Byte) (parts threshold : Int)
    (randomizer : CSPRNG) (ps : Shamir.Pools) : Traced (List (List Byte) × Shamir.Pools) := do
  if ← test (parts < threshold) then quiet (err .partsLtThreshold)
  if ← test (parts > 255) then quiet (err .partsExceed255)
  if ← test (threshold < 2) then quiet (err .thresholdLt2)
  if ← test (threshold > 255) then quiet (err .thresholdExceed255)
  if ← test (secret.length = 0) then quiet (err .emptySecret)
  let xCoordinates ← quiet (randomizer.getUniqueBytes fuel (BitVec.ofInt 8 parts))
  let out ← allocShares secret.length parts.toNat xCoordinates
  let N := secret.length
  let degree := threshold.toNat - 1
  let (polBytesBuff, bPool) := ps.bPool.get
  let polBytesBuff := polBytesBuff.grow ((degree + 1) * N)
  let polBuff ← slice polBytesBuff.mem 0 ((degree + 1) * N)
  let polynomials ← setIntercepts secret degree (randomizer.read polBuff)
  let (polTransposeBytesBuff, bPool) := bPool.get
  let polTransposeBytesBuff := polTransposeBytesBuff.grow polynomials.length
  let coefficientBuff ← slice polTransposeBytesBuff.mem 0 polynomials.length
  let coefficientBuff ← transposeMatrixBuffer coefficientBuff polynomials (degree + 1)
  let (out, polyPool) ← fillShares arch coefficientBuff N parts.toNat xCoordinates out ps.polyPool
  let bPool := bPool.put ⟨writeAt polTransposeBytesBuff.mem 0 coefficientBuff⟩
  let bPool := bPool.put ⟨writeAt polBytesBuff.mem 0 polynomials⟩
  return (out, ⟨bPool, polyPool⟩)

/-- shamir.go:266-270 -/
def allocSharesSeparately (secretLen parts : Nat) (xs : List Byte) : Traced (List (List Byte)) := do
  let out : List (List Byte) := List.replicate parts []
  forUp parts (fun i out => do
    let row := List.replicate (secretLen + 1) (0 : Byte)
    let xc ← idx xs i
    let row ← setIdx row secretLen (xc + 1#8)
    setIdx out i row) out

/-- polynomial.go:57-75 `makePolynomials` -/
def makePolynomials (intercepts : List Byte) (degree : Nat) (rnd : Nat → Byte) : Traced (List (List Byte)) := do
  let N := intercepts.length
  let polynomials := Shamir.newMatrix N (degree + 1)
  let coefficients := Shamir.randRead rnd 0 (List.replicate (degree * N) 0)
  let (polynomials, _) ← forUp N (fun p (st : List (List Byte) × Nat) => do
    let (polynomials, startIdx) := st
    let row ← idx polynomials p
    let v ← idx intercepts p
    let row ← setIdx row 0 v
    let src ← slice coefficients startIdx (startIdx + degree)
    let tl ← slice row 1 row.length
    let tl ← copyInto tl src
    let row := writeAt row 1 tl
    let polynomials ← setIdx polynomials p row
    pure (polynomials, startIdx + degree)) (polynomials, 0)
  return polynomials

/-- polynomial.go:98-108 `transpose` -/
def transpose (m : List (List Byte)) : Traced (List (List Byte)) := do
  let row0 ← idx m 0
  let xl := row0.length
  let yl := m.length
  forUp xl (fun i result =>
    forUp yl (fun j result => do
      let row ← idx m j
      let v ← idx row i
      let dst ← idx result i
      let dst ← setIdx dst j v
      setIdx result i dst) result) (Shamir.newMatrix xl yl)

/-- polynomial.go:178-189 `genericEvaluatePolynomialsAt` -/
def genericEvaluatePolynomialsAt (coefficients : List (List Byte)) (x : Byte) (out : List Byte) : Traced (List Byte) := do
  let row0 ← idx coefficients 0
  let N := row0.length
  let degree := coefficients.length - 1
  let top ← idx coefficients degree
  let result ← copyInto (List.replicate N 0) top
  let result ← forDown degree (fun i result => do
    let row ← idx coefficients i
    let m ← mulConstVectorGeneric x result
    addVectorGeneric row m) result
  let dst ← slice out 0 N
  let dst ← copyInto dst result
  return writeAt out 0 dst

/-- shamir.go:238-288 `SplitGeneric` -/
def splitGeneric (secret : List Byte) (parts threshold : Int) (perm : List Nat) (rnd : Nat → Byte) : Traced (List (List Byte)) := do
  if ← test (parts < threshold) then quiet (err .partsLtThreshold)
  if ← test (parts > 255) then quiet (err .partsExceed255)
  if ← test (threshold < 2) then quiet (err .thresholdLt2)
  if ← test (threshold > 255) then quiet (err .thresholdExceed255)
  if ← test (secret.length = 0) then quiet (err .emptySecret)
  let xCoordinates : List Byte := perm.map fun v => BitVec.ofNat 8 v
  let out ← allocSharesSeparately secret.length parts.toNat xCoordinates
  let polynomials ← makePolynomials secret (threshold.toNat - 1) rnd
  let coefficients ← transpose polynomials
  forUp parts.toNat (fun i out => do
    let xc ← idx xCoordinates i
    let row ← idx out i
    let row ← genericEvaluatePolynomialsAt coefficients (xc + 1#8) row
    setIdx out i row) out

/-- shamir.go:466-469; the map is asked for every candidate -/
def regenLoop (u : Nat → Byte) (checkMap : List Byte) : Nat → Byte → Nat → Traced (Byte × Nat)
  | 0, _, _ => quiet spin
  | fuel + 1, nx, pos => do
    shows (.key nx) (ok ())
    if ← test (nx ∈ checkMap) then regenLoop u checkMap fuel (u pos) (pos + 1) else pure (nx, pos)

/-- shamir.go:464-471 -/
def regenDedupe (u : Nat → Byte) (fuel : Nat) (newXs : List Byte) (checkMap : List Byte) : Traced (List Byte × Nat) :=
  forUp newXs.length (fun i (st : List Byte × Nat) => do
    let (checkMap, pos) := st
    let nx ← idx newXs i
    let (nx, pos) ← regenLoop u checkMap fuel nx pos
    shows (.key nx) (ok ())
    pure (nx :: checkMap, pos)) (checkMap, 0)

/-- shamir.go:424-488 `Regenerate` -/
def regenerate (fuel : Nat) (parts : List (List Byte)) (numNewShares : Int) (rnd u : Nat → Byte) : Traced (List (List Byte)) := do
  if ← test (parts.length < 2) then quiet (err .lessThanTwoParts)
  let p0 ← idx parts 0
  let firstPartLen := p0.length
  if ← test (firstPartLen < 2) then quiet (err .partTooShort)
  checkLengths parts firstPartLen
  if ← test (numNewShares < 0) then quiet Outcome.panic
  let n := numNewShares.toNat
  let newShares : List (List Byte) := List.replicate n []
  let y_samples := List.replicate parts.length (0 : Byte)
  let newXs := List.replicate n (0 : Byte)
  let (x_samples, checkMap) ← collectTags parts firstPartLen (List.replicate parts.length 0)
  let newXs := Shamir.randRead rnd 0 newXs
  let _ ← regenDedupe u fuel newXs checkMap
  let (newShares, _) ← forUp n (fun k (st : List (List Byte) × List Byte) => do
    let (newShares, y_samples) := st
    let nx ← idx newXs k
    let row := List.replicate firstPartLen (0 : Byte)
    let row ← setIdx row (firstPartLen - 1) nx
    let (row, y_samples) ← forUp (firstPartLen - 1) (fun j (st : List Byte × List Byte) => do
      let (row, y_samples) := st
      let y_samples ← collectY parts j y_samples
      let v ← interpolatePolynomial x_samples y_samples nx
      let row ← setIdx row j v
      pure (row, y_samples)) (row, y_samples)
    let newShares ← setIdx newShares k row
    pure (newShares, y_samples)) (newShares, y_samples)
  return newShares

end Verif.Leak
