import Verif.Model.Shamir

/-! # The package shamir, with integers of `w` bits

The other models compute sizes and positions with unbounded integers.  Here every sum and product of Go `int`s wraps, as on a platform
whose `int` has `w` bits (32 on 386 and arm, 64 on amd64 and arm64; package krawczyk does not compile on the former, since the constant
math.MaxUint32 of krawczyk.go:23 overflows `int`).  `make` and `Grow` panic if the size is negative; that memory is exhausted
(and bytes.ErrTooLarge) is not modelled.  Functions without such arithmetic are those of Model/Polynomial.lean and Model/Shamir.lean. -/

namespace Verif.Word
open Verif Outcome Galois Pool Csprng Shamir

/-- The value of an integer in `w` bits, two's complement. -/
def wrap (w : Nat) (x : Int) : Int := x.bmod (2 ^ w)

/-- `make([]byte, n)`: panics for negative `n`. -/
def makeBytes (n : Int) : Outcome (List Byte) := if n < 0 then panic else ok (List.replicate n.toNat 0)

/-- `l[s:e]`; panics unless `0 ≤ s ≤ e ≤ len(l)` (the slices below have no spare capacity, or are accessed within their length). -/
def sliceInt (l : List Byte) (s e : Int) : Outcome (List Byte) :=
  if 0 ≤ s ∧ s ≤ e then slice l s.toNat e.toNat else panic

/-- bytes.Buffer.Grow: panics for negative `n`. -/
def growInt (b : Buf) (n : Int) : Outcome Buf := if n < 0 then panic else ok (b.grow n.toNat)

/-- shamir.go:58-65 (also 135-142, 190-197): see `Shamir.allocShares`. -/
def allocShares (w : Nat) (secretLen parts : Nat) (xs : List Byte) : Outcome (List (List Byte)) := do
  let out : List (List Byte) := List.replicate parts []
  let buff ← makeBytes (wrap w (wrap w (secretLen + 1) * parts))
  forUp parts (fun i out => do
    let s := wrap w (wrap w (secretLen + 1) * i)
    let e := wrap w (wrap w (s + secretLen) + 1)
    let row ← sliceInt buff s e
    let xc ← idx xs i
    let row ← setIdx row secretLen (xc + 1#8)
    setIdx out i row) out

/-- polynomial.go:23-31 (and 45-53): see `Shamir.setIntercepts`. -/
def setIntercepts (w : Nat) (intercepts : List Byte) (degree : Int) (buffer : List Byte) : Outcome (List Byte) :=
  forUp intercepts.length (fun p buffer => do
    let s := wrap w (wrap w (degree + 1) * p)
    let e := wrap w (wrap w (s + degree) + 1)
    let polynomialP ← sliceInt buffer s e
    let v ← idx intercepts p
    let polynomialP ← setIdx polynomialP 0 v
    pure (writeAt buffer s.toNat polynomialP)) buffer

/-- polynomial.go:17-34 `makePolynomialsWithBuff` -/
def makePolynomialsWithBuff (w : Nat) (intercepts : List Byte) (degree : Int) (buffer : List Byte)
    (rnd : Nat → Byte) : Outcome (List Byte) :=
  setIntercepts w intercepts degree (randRead rnd 0 buffer)

/-- polynomial.go:36-55 `makePolynomialsWithBuffAndRandomizer` -/
def makePolynomialsWithBuffAndRandomizer (w : Nat) (intercepts : List Byte) (degree : Int) (buffer : List Byte)
    (randomizer : CSPRNG) : Outcome (List Byte) :=
  setIntercepts w intercepts degree (randomizer.read buffer)

/-- polynomial.go:124-133 `newMatrix`: windows of one zeroed array.  The columns have distinct memory (3-index slices). -/
def newMatrix (w : Nat) (r : Nat) (c : Int) : Outcome (List (List Byte)) := do
  let a ← makeBytes (wrap w (r * c))
  let m : List (List Byte) := List.replicate r []
  let (m, _, _) ← forUp r (fun i (st : List (List Byte) × Int × Int) => do
    let (m, lo, hi) := st
    let row ← sliceInt a lo hi
    let m ← setIdx m i row
    pure (m, hi, wrap w (hi + c))) (m, 0, c)
  return m

/-- polynomial.go:57-75 `makePolynomials` -/
def makePolynomials (w : Nat) (intercepts : List Byte) (degree : Int) (rnd : Nat → Byte) :
    Outcome (List (List Byte)) := do
  let N := intercepts.length
  let polynomials ← newMatrix w N (wrap w (degree + 1))
  let coefficients ← makeBytes (wrap w (degree * N))
  let coefficients := randRead rnd 0 coefficients
  let (polynomials, _) ← forUp N (fun p (st : List (List Byte) × Int) => do
    let (polynomials, startIdx) := st
    let row ← idx polynomials p
    let v ← idx intercepts p
    let row ← setIdx row 0 v
    let src ← sliceInt coefficients startIdx (wrap w (startIdx + degree))
    let tl ← slice row 1 row.length
    let row := writeAt row 1 (copyInto tl src)
    let polynomials ← setIdx polynomials p row
    pure (polynomials, wrap w (startIdx + degree))) (polynomials, 0)
  return polynomials

/-- polynomial.go:77-96 `makePolynomialsWithRandomizer` -/
def makePolynomialsWithRandomizer (w : Nat) (intercepts : List Byte) (degree : Int) (randomizer : CSPRNG) :
    Outcome (List (List Byte)) := do
  let N := intercepts.length
  let polynomials : List (List Byte) := List.replicate N []
  let coefficients ← makeBytes (wrap w (wrap w (degree + 1) * N))
  let coefficients := randomizer.read coefficients
  forUp N (fun p polynomials => do
    let s := wrap w (wrap w (degree + 1) * p)
    let e := wrap w (wrap w (s + degree) + 1)
    let row ← sliceInt coefficients s e
    let v ← idx intercepts p
    let row ← setIdx row 0 v
    setIdx polynomials p row) polynomials

/-- polynomial.go:98-108 `transpose` -/
def transpose (w : Nat) (m : List (List Byte)) : Outcome (List (List Byte)) := do
  let row0 ← idx m 0
  let xl := row0.length
  let yl := m.length
  let result ← newMatrix w xl yl
  forUp xl (fun i result =>
    forUp yl (fun j result => do
      let row ← idx m j
      let v ← idx row i
      let dst ← idx result i
      let dst ← setIdx dst j v
      setIdx result i dst) result) result

/-- polynomial.go:110-122 `transposeMatrixBuffer`: the new content of `dest`. -/
def transposeMatrixBuffer (w : Nat) (dest source : List Byte) (rowLen : Int) : Outcome (List Byte) := do
  if rowLen = 0 then panic                           -- integer divide by zero
  let colLen : Int := (source.length : Int).tdiv rowLen
  let (dest, _, _) ← forUp source.length (fun i (st : List Byte × Int × Int) => do
    let (dest, curSourceRow, curSourceCol) := st
    let v ← idxInt source (wrap w (wrap w (rowLen * curSourceRow) + curSourceCol))
    let dest ← setIdx dest i v
    let curSourceRow := wrap w (curSourceRow + 1)
    if curSourceRow = colLen then pure (dest, 0, wrap w (curSourceCol + 1))
    else pure (dest, curSourceRow, curSourceCol)) (dest, 0, 0)
  return dest

/-- polynomial.go:155-174 `evaluatePolynomialsAtWithCoefficientsBuffer`: new content of `out`, and the pool
after the deferred Put. -/
def evaluatePolynomialsAtWithCoefficientsBuffer (w : Nat) (arch : Arch) (coefficientsBuff : List Byte)
    (rowLen : Int) (x : Byte) (out : List Byte) (pool : BytesBufferPool) :
    Outcome (List Byte × BytesBufferPool) := do
  if rowLen = 0 then panic                           -- integer divide by zero
  let degree : Int := wrap w ((coefficientsBuff.length : Int).tdiv rowLen - 1)
  let (resultBuff, pool) := pool.get
  let resultBuff ← growInt resultBuff rowLen
  let result ← sliceInt resultBuff.mem 0 rowLen
  let s := wrap w (degree * rowLen)
  let e := wrap w (s + rowLen)
  let top ← sliceInt coefficientsBuff s e
  let result := copyInto result top
  let final ← forDown degree.toNat (fun i result => do
    let s := wrap w (i * rowLen)
    let e := wrap w (s + rowLen)
    let row ← sliceInt coefficientsBuff s e
    let m ← mulConstVector arch x result
    addVector arch row m) result
  let dst ← sliceInt out 0 rowLen
  let out := writeAt out 0 (copyInto dst final)
  let left := if Arch.inPlace arch then final else result
  return (out, pool.put ⟨writeAt resultBuff.mem 0 left⟩)

/-- shamir.go:98-100 (also 230-232): see `Shamir.fillShares`. -/
def fillShares (w : Nat) (arch : Arch) (coefficientBuff : List Byte) (N parts : Nat) (xs : List Byte)
    (out : List (List Byte)) (pool : BytesBufferPool) :
    Outcome (List (List Byte) × BytesBufferPool) :=
  forUp parts (fun i (st : List (List Byte) × BytesBufferPool) => do
    let (out, pool) := st
    let xc ← idx xs i
    let row ← idx out i
    let dst ← slice row 0 N
    let (dst, pool) ← evaluatePolynomialsAtWithCoefficientsBuffer w arch coefficientBuff N (xc + 1#8) dst pool
    let out ← setIdx out i (writeAt row 0 dst)
    pure (out, pool)) (out, pool)

/-- shamir.go:30-104 `Split`.  `perm` is the result of `rand.Perm(255)`. -/
def split (w : Nat) (arch : Arch) (secret : List Byte) (parts threshold : Int) (perm : List Nat)
    (rnd : Nat → Byte) (ps : Pools) : Outcome (List (List Byte) × Pools) := do
  if parts < threshold then err .partsLtThreshold
  if parts > 255 then err .partsExceed255
  if threshold < 2 then err .thresholdLt2
  if threshold > 255 then err .thresholdExceed255
  if secret.length = 0 then err .emptySecret
  let xCoordinates : List Byte := perm.map fun v => BitVec.ofNat 8 v    -- uint8(xCoordinates[i])
  let out ← allocShares w secret.length parts.toNat xCoordinates
  let N := secret.length
  let degree := wrap w (threshold - 1)
  let (polBytesBuff, bPool) := ps.bPool.get
  let polBytesBuff ← growInt polBytesBuff (wrap w (wrap w (degree + 1) * N))
  let polBuff ← sliceInt polBytesBuff.mem 0 (wrap w (wrap w (degree + 1) * N))
  let polynomials ← makePolynomialsWithBuff w secret degree polBuff rnd
  let (polTransposeBytesBuff, bPool) := bPool.get
  let polTransposeBytesBuff := polTransposeBytesBuff.grow polynomials.length
  let coefficientBuff ← slice polTransposeBytesBuff.mem 0 polynomials.length
  let coefficientBuff ← transposeMatrixBuffer w coefficientBuff polynomials (wrap w (degree + 1))
  let (out, polyPool) ← fillShares w arch coefficientBuff N parts.toNat xCoordinates out ps.polyPool
  -- deferred Puts run last-in first-out
  let bPool := bPool.put ⟨writeAt polTransposeBytesBuff.mem 0 coefficientBuff⟩
  let bPool := bPool.put ⟨writeAt polBytesBuff.mem 0 polynomials⟩
  return (out, ⟨bPool, polyPool⟩)

/-- shamir.go:162-236 `SplitWithRandomizer`. -/
def splitWithRandomizer (w : Nat) (arch : Arch) (fuel : Nat) (secret : List Byte) (parts threshold : Int)
    (randomizer : CSPRNG) (ps : Pools) : Outcome (List (List Byte) × Pools) := do
  if parts < threshold then err .partsLtThreshold
  if parts > 255 then err .partsExceed255
  if threshold < 2 then err .thresholdLt2
  if threshold > 255 then err .thresholdExceed255
  if secret.length = 0 then err .emptySecret
  let xCoordinates ← randomizer.getUniqueBytes fuel (BitVec.ofInt 8 parts)   -- byte(parts)
  let out ← allocShares w secret.length parts.toNat xCoordinates
  let N := secret.length
  let degree := wrap w (threshold - 1)
  let (polBytesBuff, bPool) := ps.bPool.get
  let polBytesBuff ← growInt polBytesBuff (wrap w (wrap w (degree + 1) * N))
  let polBuff ← sliceInt polBytesBuff.mem 0 (wrap w (wrap w (degree + 1) * N))
  let polynomials ← makePolynomialsWithBuffAndRandomizer w secret degree polBuff randomizer
  let (polTransposeBytesBuff, bPool) := bPool.get
  let polTransposeBytesBuff := polTransposeBytesBuff.grow polynomials.length
  let coefficientBuff ← slice polTransposeBytesBuff.mem 0 polynomials.length
  let coefficientBuff ← transposeMatrixBuffer w coefficientBuff polynomials (wrap w (degree + 1))
  let (out, polyPool) ← fillShares w arch coefficientBuff N parts.toNat xCoordinates out ps.polyPool
  let bPool := bPool.put ⟨writeAt polTransposeBytesBuff.mem 0 coefficientBuff⟩
  let bPool := bPool.put ⟨writeAt polBytesBuff.mem 0 polynomials⟩
  return (out, ⟨bPool, polyPool⟩)

/-- shamir.go:107-160 `SplitWithRandomizerOld`. -/
def splitWithRandomizerOld (w : Nat) (arch : Arch) (secret : List Byte) (parts threshold : Int)
    (randomizer : CSPRNG) (ps : Pools) : Outcome (List (List Byte) × Pools) := do
  if parts < threshold then err .partsLtThreshold
  if parts > 255 then err .partsExceed255
  if threshold < 2 then err .thresholdLt2
  if threshold > 255 then err .thresholdExceed255
  if secret.length = 0 then err .emptySecret
  let xCoordinates ← randomizer.perm 255#8
  let out ← allocShares w secret.length parts.toNat xCoordinates
  let polynomials ← makePolynomialsWithRandomizer w secret (wrap w (threshold - 1)) randomizer
  let coefficients ← transpose w polynomials
  let (out, polyPool) ← forUp parts.toNat (fun i (st : List (List Byte) × BytesBufferPool) => do
    let (out, pool) := st
    let xc ← idx xCoordinates i
    let row ← idx out i
    let (row, pool) ← evaluatePolynomialsAt arch coefficients (xc + 1#8) row pool
    let out ← setIdx out i row
    pure (out, pool)) (out, ps.polyPool)
  return (out, ⟨ps.bPool, polyPool⟩)

/-- shamir.go:266-270: see `Shamir.allocSharesSeparately`. -/
def allocSharesSeparately (w : Nat) (secretLen parts : Nat) (xs : List Byte) : Outcome (List (List Byte)) := do
  let out : List (List Byte) := List.replicate parts []
  forUp parts (fun i out => do
    let row ← makeBytes (wrap w (secretLen + 1))
    let xc ← idx xs i
    let row ← setIdx row secretLen (xc + 1#8)
    setIdx out i row) out

/-- shamir.go:238-288 `SplitGeneric`. -/
def splitGeneric (w : Nat) (secret : List Byte) (parts threshold : Int) (perm : List Nat)
    (rnd : Nat → Byte) : Outcome (List (List Byte)) := do
  if parts < threshold then err .partsLtThreshold
  if parts > 255 then err .partsExceed255
  if threshold < 2 then err .thresholdLt2
  if threshold > 255 then err .thresholdExceed255
  if secret.length = 0 then err .emptySecret
  let xCoordinates : List Byte := perm.map fun v => BitVec.ofNat 8 v
  let out ← allocSharesSeparately w secret.length parts.toNat xCoordinates
  let polynomials ← makePolynomials w secret (wrap w (threshold - 1)) rnd
  let coefficients ← transpose w polynomials
  forUp parts.toNat (fun i out => do
    let xc ← idx xCoordinates i
    let row ← idx out i
    let row ← genericEvaluatePolynomialsAt coefficients (xc + 1#8) row
    setIdx out i row) out

/-- galois/galois.go:51-65 `GalExp` -/
def galExp (w : Nat) (a : Byte) (n : Int) : Outcome Byte := do
  if n = 0 then return 1
  if a = 0 then return 0
  let logA : Int := Galois.logTable a
  let logResult := wrap w (logA * n)
  Galois.expTable (reduceLog logResult)

end Verif.Word
