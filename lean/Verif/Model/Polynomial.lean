import Verif.Model.Vector
import Verif.Model.Pool
import Verif.Model.Csprng
import Verif.Tables.Shamir

/-! # Model of shamir/polynomial.go

`math/rand` is a parameter: `rnd : Nat → Byte` is the sequence of bytes the global source delivers to
the modelled call (`rand.Read(b)` overwrites `b`). Its error result is always nil. -/

namespace Verif.Shamir
open Verif Outcome Galois Pool Csprng

/-- `rand.Read(b)`: every byte of the buffer is overwritten; `pos` bytes were consumed before. -/
def randRead (rnd : Nat → Byte) (pos : Nat) (b : List Byte) : List Byte :=
  (List.range b.length).map fun i => rnd (pos + i)

/-- polynomial.go:23-31 (and 45-53): `for p < N { buffer[s:e][0] = intercepts[p] }` -/
def setIntercepts (intercepts : List Byte) (degree : Nat) (buffer : List Byte) : Outcome (List Byte) :=
  forUp intercepts.length (fun p buffer => do
    let s := (degree + 1) * p
    let e := s + degree + 1
    let polynomialP ← slice buffer s e
    let v ← idx intercepts p
    let polynomialP ← setIdx polynomialP 0 v
    pure (writeAt buffer s polynomialP)) buffer

/-- polynomial.go:17-34 `makePolynomialsWithBuff` -/
def makePolynomialsWithBuff (intercepts : List Byte) (degree : Nat) (buffer : List Byte)
    (rnd : Nat → Byte) : Outcome (List Byte) :=
  setIntercepts intercepts degree (randRead rnd 0 buffer)

/-- polynomial.go:36-55 `makePolynomialsWithBuffAndRandomizer`: the stale buffer content is xored with
the key stream. -/
def makePolynomialsWithBuffAndRandomizer (intercepts : List Byte) (degree : Nat) (buffer : List Byte)
    (randomizer : CSPRNG) : Outcome (List Byte) :=
  setIntercepts intercepts degree (randomizer.read buffer)

/-- polynomial.go:124-133 `newMatrix`: r rows of c zero bytes. -/
def newMatrix (r c : Nat) : List (List Byte) := List.replicate r (List.replicate c 0)

/-- polynomial.go:57-75 `makePolynomials` -/
def makePolynomials (intercepts : List Byte) (degree : Nat) (rnd : Nat → Byte) :
    Outcome (List (List Byte)) := do
  let N := intercepts.length
  let polynomials := newMatrix N (degree + 1)
  let coefficients := randRead rnd 0 (List.replicate (degree * N) 0)
  let (polynomials, _) ← forUp N (fun p (st : List (List Byte) × Nat) => do
    let (polynomials, startIdx) := st
    let row ← idx polynomials p
    let v ← idx intercepts p
    let row ← setIdx row 0 v
    let src ← slice coefficients startIdx (startIdx + degree)
    let tl ← slice row 1 row.length
    let row := writeAt row 1 (copyInto tl src)
    let polynomials ← setIdx polynomials p row
    pure (polynomials, startIdx + degree)) (polynomials, 0)
  return polynomials

/-- polynomial.go:77-96 `makePolynomialsWithRandomizer` -/
def makePolynomialsWithRandomizer (intercepts : List Byte) (degree : Nat) (randomizer : CSPRNG) :
    Outcome (List (List Byte)) := do
  let N := intercepts.length
  let polynomials : List (List Byte) := List.replicate N []
  let coefficients := randomizer.read (List.replicate ((degree + 1) * N) 0)
  forUp N (fun p polynomials => do
    let s := (degree + 1) * p
    let e := s + degree + 1
    let row ← slice coefficients s e
    let v ← idx intercepts p
    let row ← setIdx row 0 v
    setIdx polynomials p row) polynomials

/-- polynomial.go:98-108 `transpose` -/
def transpose (m : List (List Byte)) : Outcome (List (List Byte)) := do
  let row0 ← idx m 0
  let xl := row0.length
  let yl := m.length
  forUp xl (fun i result =>
    forUp yl (fun j result => do
      let row ← idx m j
      let v ← idx row i
      let dst ← idx result i
      let dst ← setIdx dst j v
      setIdx result i dst) result) (newMatrix xl yl)

/-- polynomial.go:110-122 `transposeMatrixBuffer`: the new content of `dest`. -/
def transposeMatrixBuffer (dest source : List Byte) (rowLen : Nat) : Outcome (List Byte) := do
  if rowLen = 0 then panic                           -- integer divide by zero
  let colLen := source.length / rowLen
  let (dest, _, _) ← forUp source.length (fun i (st : List Byte × Nat × Nat) => do
    let (dest, curSourceRow, curSourceCol) := st
    let v ← idx source (rowLen * curSourceRow + curSourceCol)
    let dest ← setIdx dest i v
    let curSourceRow := curSourceRow + 1
    if curSourceRow = colLen then pure (dest, 0, curSourceCol + 1)
    else pure (dest, curSourceRow, curSourceCol)) (dest, 0, 0)
  return dest

/-- On the pure-Go build `MulConstVector`/`AddVector` work in place on the pooled result buffer, so it is
returned to the pool holding the final value; the other builds allocate and leave it as copied. -/
def Arch.inPlace : Arch → Bool
  | .noasm => true
  | _ => false

/-- polynomial.go:137-153 `evaluatePolynomialsAt`: new content of `out`, and the pool after the deferred Put. -/
def evaluatePolynomialsAt (arch : Arch) (coefficients : List (List Byte)) (x : Byte) (out : List Byte)
    (pool : BytesBufferPool) : Outcome (List Byte × BytesBufferPool) := do
  let row0 ← idx coefficients 0
  let N := row0.length
  let degree := coefficients.length - 1
  let (resultBuff, pool) := pool.get
  let resultBuff := resultBuff.grow N
  let result ← slice resultBuff.mem 0 N
  let top ← idx coefficients degree
  let result := copyInto result top
  let final ← forDown degree (fun i result => do
    let row ← idx coefficients i
    let m ← mulConstVector arch x result
    addVector arch row m) result
  let dst ← slice out 0 N
  let out := writeAt out 0 (copyInto dst final)
  let left := if Arch.inPlace arch then final else result
  return (out, pool.put ⟨writeAt resultBuff.mem 0 left⟩)

/-- polynomial.go:155-174 `evaluatePolynomialsAtWithCoefficientsBuffer`: new content of `out`, and the pool
after the deferred Put. -/
def evaluatePolynomialsAtWithCoefficientsBuffer (arch : Arch) (coefficientsBuff : List Byte)
    (rowLen : Nat) (x : Byte) (out : List Byte) (pool : BytesBufferPool) :
    Outcome (List Byte × BytesBufferPool) := do
  if rowLen = 0 then panic                           -- integer divide by zero
  if coefficientsBuff.length / rowLen = 0 then panic -- degree = -1: negative slice bound
  let degree := coefficientsBuff.length / rowLen - 1
  let (resultBuff, pool) := pool.get
  let resultBuff := resultBuff.grow rowLen
  let result ← slice resultBuff.mem 0 rowLen
  let top ← slice coefficientsBuff (degree * rowLen) (degree * rowLen + rowLen)
  let result := copyInto result top
  let final ← forDown degree (fun i result => do
    let row ← slice coefficientsBuff (i * rowLen) (i * rowLen + rowLen)
    let m ← mulConstVector arch x result
    addVector arch row m) result
  let dst ← slice out 0 rowLen
  let out := writeAt out 0 (copyInto dst final)
  let left := if Arch.inPlace arch then final else result
  return (out, pool.put ⟨writeAt resultBuff.mem 0 left⟩)

/-- polynomial.go:178-189 `genericEvaluatePolynomialsAt`: new content of `out`. -/
def genericEvaluatePolynomialsAt (coefficients : List (List Byte)) (x : Byte) (out : List Byte) :
    Outcome (List Byte) := do
  let row0 ← idx coefficients 0
  let N := row0.length
  let degree := coefficients.length - 1
  let top ← idx coefficients degree
  let result := copyInto (List.replicate N 0) top
  let result ← forDown degree (fun i result => do
    let row ← idx coefficients i
    let m ← mulConstVectorGeneric x result
    addVectorGeneric row m) result
  let dst ← slice out 0 N
  return writeAt out 0 (copyInto dst result)

/-- polynomial.go:198-213 `makePolynomial`: intercept followed by `degree` random bytes (`pos` bytes of the
random source were consumed before). `degree+1` is computed in `uint8`. -/
def makePolynomial (intercept degree : Byte) (rnd : Nat → Byte) (pos : Nat) : Outcome (List Byte) := do
  let coefficients := List.replicate (degree + 1).toNat (0 : Byte)
  let coefficients ← setIdx coefficients 0 intercept
  let tl ← slice coefficients 1 coefficients.length
  return writeAt coefficients 1 (randRead rnd pos tl)

/-- polynomial.go:217-219 `add` -/
def add (a b : Byte) : Byte := a ^^^ b

/-- shamir/tables.go:8-40 `int(logTable[a])` -/
def logTable (a : Byte) : Int := (Tables.Shamir.logTable.getD a.toNat 0 : Nat)

/-- shamir/tables.go:44 `int(expTable[i])` -/
def expTable (i : Int) : Outcome Byte := do
  let v ← idxInt Tables.Shamir.expTable i
  return BitVec.ofNat 8 v

/-- shamir/tables.go:80-335 `mulTable[a][b]` (declared, not used by the package) -/
def mulTable (a b : Byte) : Byte := rowByte (Tables.Shamir.mulTableRows.getD a.toNat 0) 256 b.toNat

/-- polynomial.go:222-238 `div`; `subtle.ConstantTimeSelect(subtle.ConstantTimeByteEq(a,0),0,ret)` is
"0 if a = 0 else ret". -/
def div (a b : Byte) : Outcome Byte := do
  if b = 0 then panic
  let diff := ((logTable a - logTable b) + 255).tmod 255
  let ret ← expTable diff
  return if a = 0 then 0 else ret

/-- polynomial.go:241-254 `mult` -/
def mult (a b : Byte) : Outcome Byte := do
  let sum := (logTable a + logTable b).tmod 255
  let ret ← expTable sum
  let ret := if a = 0 then 0 else ret
  let ret := if b = 0 then 0 else ret
  return ret

/-- polynomial.go:257-271 `evaluate` -/
def evaluate (coefficients : List Byte) (x : Byte) : Outcome Byte := do
  if x = 0 then idx coefficients 0
  else do
    if coefficients.length = 0 then panic
    let degree := coefficients.length - 1
    let out ← idx coefficients degree
    forDown degree (fun i out => do
      let coeff ← idx coefficients i
      return galAdd (galMultiply out x) coeff) out

/-- polynomial.go:275-293 `interpolatePolynomial` -/
def interpolatePolynomial (x_samples y_samples : List Byte) (x : Byte) : Outcome Byte :=
  forUp x_samples.length (fun i result => do
    let basis ← forUp x_samples.length (fun j basis =>
      if i = j then pure basis
      else do
        let xj ← idx x_samples j
        let num := add x xj
        let xi ← idx x_samples i
        let denom := add xi xj
        let term ← div num denom
        mult basis term) (1 : Byte)
    let yi ← idx y_samples i
    let group ← mult yi basis
    return add result group) (0 : Byte)

end Verif.Shamir
