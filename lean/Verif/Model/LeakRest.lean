import Verif.Model.LeakCalls

/-! # SplitWithRandomizerOld and the goroutines of SplitP, with what an observer of the processor sees

As in `Model/Leak.lean`.  Simplifications: the pools, `rand.Perm`, `rand.Read`, `CSPRNG.Read`, `CSPRNG.Perm` (which never
see the secret or a share) and the allocator show nothing. -/

namespace Verif.Leak
open Verif Outcome Galois Pool Csprng

/-- polynomial.go:77-96 `makePolynomialsWithRandomizer` -/
def makePolynomialsWithRandomizer (intercepts : List Byte) (degree : Nat) (randomizer : CSPRNG) : Traced (List (List Byte)) := do
  let N := intercepts.length
  let polynomials : List (List Byte) := List.replicate N []
  let coefficients := randomizer.read (List.replicate ((degree + 1) * N) 0)
  forUp N (fun p polynomials => do
    let s := (degree + 1) * p
    let e := s + degree + 1
    let row ← slice coefficients s e
    let v ← idx intercepts p
    let row ← setIdx row 0 v
    setIdx polynomials p row) polynomials

/-- polynomial.go:137-153 `evaluatePolynomialsAt` -/
def evaluatePolynomialsAt (arch : Arch) (coefficients : List (List Byte)) (x : Byte) (out : List Byte)
    (pool : BytesBufferPool) : Traced (List Byte × BytesBufferPool) := do
  let row0 ← idx coefficients 0
  let N := row0.length
  let degree := coefficients.length - 1
  let (resultBuff, pool) := pool.get
  let resultBuff := resultBuff.grow N
  let result ← slice resultBuff.mem 0 N
  let top ← idx coefficients degree
  let result ← copyInto result top
  let final ← forDown degree (fun i result => do
    let row ← idx coefficients i
    let m ← mulConstVector arch x result
    addVector arch row m) result
  let dst ← slice out 0 N
  let dst ← copyInto dst final
  let out := writeAt out 0 dst
  let left := if Shamir.Arch.inPlace arch then final else result
  return (out, pool.put ⟨writeAt resultBuff.mem 0 left⟩)

/-- shamir.go:107-160 `SplitWithRandomizerOld` -/
def splitWithRandomizerOld (arch : Arch) (secret : List Byte) (parts threshold : Int)
    (randomizer : CSPRNG) (ps : Shamir.Pools) : Traced (List (List Byte) × Shamir.Pools) := do
  if ← test (parts < threshold) then quiet (err .partsLtThreshold)
  if ← test (parts > 255) then quiet (err .partsExceed255)
  if ← test (threshold < 2) then quiet (err .thresholdLt2)
  if ← test (threshold > 255) then quiet (err .thresholdExceed255)
  if ← test (secret.length = 0) then quiet (err .emptySecret)
  let xCoordinates ← quiet (randomizer.perm 255#8)
  let out ← allocShares secret.length parts.toNat xCoordinates
  let polynomials ← makePolynomialsWithRandomizer secret (threshold.toNat - 1) randomizer
  let coefficients ← transpose polynomials
  let (out, polyPool) ← forUp parts.toNat (fun i (st : List (List Byte) × BytesBufferPool) => do
    let (out, pool) := st
    let xc ← idx xCoordinates i
    let row ← idx out i
    let (row, pool) ← evaluatePolynomialsAt arch coefficients (xc + 1#8) row pool
    let out ← setIdx out i row
    pure (out, pool)) (out, ps.polyPool)
  return (out, ⟨ps.bPool, polyPool⟩)

/-- polynomial.go:198-213 `makePolynomial` -/
def makePolynomial (intercept degree : Byte) (rnd : Nat → Byte) (pos : Nat) : Traced (List Byte) := do
  let coefficients := List.replicate (degree + 1).toNat (0 : Byte)
  let coefficients ← setIdx coefficients 0 intercept
  let tl ← slice coefficients 1 coefficients.length
  return writeAt coefficients 1 (Shamir.randRead rnd pos tl)

/-- polynomial.go:257-271 `evaluate`; `gf.GalMultiply` (galois.go) is a lookup in the multiplication table -/
def evaluate (coefficients : List Byte) (x : Byte) : Traced Byte := do
  if ← test (x = 0) then idx coefficients 0
  else do
    if coefficients.length = 0 then quiet Outcome.panic
    let degree := coefficients.length - 1
    let out ← idx coefficients degree
    forDown degree (fun i out => do
      let coeff ← idx coefficients i
      let v ← shows (.mul out x) (ok (galMultiply out x))
      return galAdd v coeff) out

/-- shamir.go:335-356, what one goroutine of SplitP does, on its own: `values` is `secret[startIdx:endIdx]`, `rnd` are the bytes it draws,
`out` the shares as they are (other goroutines fill in other positions, see Model/SplitP.lean). -/
def splitPGoroutine (values : List Byte) (parts threshold : Int) (perm : List Nat) (rnd : Nat → Byte) (startIdx : Nat)
    (out : List (List Byte)) : Traced (List (List Byte)) :=
  forUp values.length (fun k out => do
    let val ← idx values k
    let p ← makePolynomial val (BitVec.ofInt 8 (threshold - 1)) rnd (k * (threshold.toNat - 1))
    forUp parts.toNat (fun i out => do
      let xc ← idx perm i
      let y ← evaluate p (BitVec.ofNat 8 xc + 1#8)
      let row ← idx out i
      let row ← setIdx row (startIdx + k) y
      setIdx out i row) out) out

end Verif.Leak
