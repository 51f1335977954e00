import Verif.Model.Shamir
import Mathlib.Logic.Function.Iterate

/-! # Go's math/rand as the library uses it

External code (Go 1.17, src/math/rand/rng.go and rand.go), modelled for C70 and C71 only; every other theorem takes what
`math/rand` delivers as arbitrary.  /repo uses one global source: `rand.Seed(time.Now().UnixNano())` (csprng/csprng.go:14-16,
when the program starts), `rand.Perm` (shamir.go:49, 257), `rand.Read` (polynomial.go:21, 63, 208, shamir.go:460,
krawczyk.go:40, csprng.go:20, randomizer.go:15).  The table `rngCooked` of 607 words is a parameter. -/

namespace Verif.MathRand
open Verif Outcome

/-- `rngSource` (rng.go) together with the fields `readVal`, `readPos` of `Rand` (rand.go). -/
structure Rand where
  vec : Nat → BitVec 64
  tap : Nat
  feed : Nat
  readVal : BitVec 64
  readPos : Nat

/-- rng.go `seedrand`: `x[n+1] = 48271 * x[n] mod (2^31 - 1)`, computed with the quotient 44488 and the remainder 3399. -/
def seedrand (x : Int) : Int :=
  let hi := x.tdiv 44488
  let lo := x.tmod 44488
  let x := 48271 * lo - 3399 * hi
  if x < 0 then x + 2147483647 else x

/-- rng.go `Seed`, lines 1-9: the 31 bits the seed is reduced to. -/
def seedWord (seed : Int) : Int :=
  let seed := seed.tmod 2147483647
  let seed := if seed < 0 then seed + 2147483647 else seed
  if seed = 0 then 89482311 else seed

/-- rng.go `Seed`, the loop: word `i` is made from three numbers of the sequence `seedrand`; the first 20 numbers are
discarded. -/
def seedVec (cooked : Nat → BitVec 64) (x : Int) (i : Nat) : BitVec 64 :=
  let at_ := fun k => BitVec.ofInt 64 (seedrand^[k] x)
  (at_ (20 + 3 * i + 1) <<< 40) ^^^ (at_ (20 + 3 * i + 2) <<< 20) ^^^ at_ (20 + 3 * i + 3) ^^^ cooked i

/-- rand.go `Seed`: resets the source and `readPos`.  (`readVal` is kept, but is not used while `readPos` is 0.) -/
def seed (cooked : Nat → BitVec 64) (seed : Int) (r : Rand) : Rand :=
  { vec := seedVec cooked (seedWord seed), tap := 0, feed := 607 - 273, readVal := r.readVal, readPos := 0 }

/-- rng.go `Uint64` -/
def Rand.uint64 (r : Rand) : BitVec 64 × Rand :=
  let tap := if r.tap = 0 then 606 else r.tap - 1
  let feed := if r.feed = 0 then 606 else r.feed - 1
  let x := r.vec feed + r.vec tap
  (x, { r with vec := Function.update r.vec feed x, tap, feed })

/-- rng.go `Int63`: the lower 63 bits. -/
def Rand.int63 (r : Rand) : BitVec 64 × Rand := ((r.uint64).1 &&& 0x7fffffffffffffff#64, (r.uint64).2)

/-- rand.go `Int31`: the upper 31 of the 63 bits. -/
def Rand.int31 (r : Rand) : Nat × Rand := (((r.int63).1 >>> 32).toNat, (r.int63).2)

/-- rand.go `Int31n`: `for v > max { v = r.Int31() }`; `fuel` bounds the number of iterations. -/
def int31nLoop (max : Nat) : Nat → Nat → Rand → Outcome (Nat × Rand)
  | 0, v, r => if v > max then spin else ok (v, r)
  | fuel + 1, v, r => if v > max then int31nLoop max fuel (r.int31).1 (r.int31).2 else ok (v, r)

/-- rand.go `Int31n` (for `n > 0`) -/
def Rand.int31n (fuel : Nat) (r : Rand) (n : Nat) : Outcome (Nat × Rand) := do
  if n = 0 then panic
  if n &&& (n - 1) = 0 then
    return ((r.int31).1 &&& (n - 1), (r.int31).2)
  let max := 2 ^ 31 - 1 - 2 ^ 31 % n
  let (v, r) ← int31nLoop max fuel (r.int31).1 (r.int31).2
  return (v % n, r)

/-- rand.go `Perm` (`Intn` is `Int31n` for arguments below 2^31): `j := r.Intn(i+1); m[i] = m[j]; m[j] = i`. -/
def Rand.perm (fuel : Nat) (r : Rand) (n : Nat) : Outcome (List Nat × Rand) :=
  forUp n (fun i (st : List Nat × Rand) => do
    let (m, r) := st
    let (j, r) ← r.int31n fuel (i + 1)
    let mj ← idx m j
    let m ← setIdx m i mj
    let m ← setIdx m j i
    pure (m, r)) (List.replicate n 0, r)

/-- rand.go `read`, one byte: a 63-bit number serves seven bytes, lowest first. -/
def Rand.readByte (r : Rand) : Byte × Rand :=
  let (val, pos, r) := if r.readPos = 0 then ((r.int63).1, 7, (r.int63).2) else (r.readVal, r.readPos, r)
  (val.setWidth 8, { r with readVal := val >>> 8, readPos := pos - 1 })

/-- The bytes that the following `rand.Read` calls deliver, as long as nothing else uses the source. -/
def Rand.stream (r : Rand) (j : Nat) : Byte := ((fun r : Rand => r.readByte.2)^[j] r).readByte.1

/-- The source after `n` bytes have been read. -/
def Rand.skip (r : Rand) (n : Nat) : Rand := (fun r : Rand => r.readByte.2)^[n] r

/-- The source after `n` numbers have been drawn. -/
def Rand.draw (r : Rand) (n : Nat) : Rand := (fun r : Rand => r.uint64.2)^[n] r

/-- A use of the source: bytes read, or numbers drawn. -/
inductive Use where
  | read (n : Nat)
  | draw (n : Nat)

/-- The source after a sequence of uses. -/
def Rand.after (r : Rand) : List Use → Rand
  | [] => r
  | .read n :: us => (r.skip n).after us
  | .draw n :: us => (r.draw n).after us

/-- shamir.go:30-105 `Split` with its calls of math/rand: shamir.go:49 `rand.Perm(255)`, then polynomial.go:21 `rand.Read` of
`threshold * len(secret)` bytes; also the source afterwards.  (The arguments are checked first, shamir.go:32-46; when they are
not accepted nothing is drawn, and no source is returned here.) -/
def split (arch : Galois.Arch) (fuel : Nat) (secret : List Byte) (parts threshold : Int) (r : Rand) (ps : Shamir.Pools) :
    Outcome (List (List Byte) × Rand × Shamir.Pools) := do
  let (perm, r) ← r.perm fuel 255
  let (shares, ps) ← Shamir.split arch secret parts threshold perm r.stream ps
  pure (shares, r.skip (threshold.toNat * secret.length), ps)

/-- shamir.go:238-286 `SplitGeneric` with its calls of math/rand: shamir.go:257 `rand.Perm(255)`, then polynomial.go:63
`rand.Read` of `(threshold - 1) * len(secret)` bytes; also the source afterwards. -/
def splitGeneric (fuel : Nat) (secret : List Byte) (parts threshold : Int) (r : Rand) :
    Outcome (List (List Byte) × Rand) := do
  let (perm, r) ← r.perm fuel 255
  let shares ← Shamir.splitGeneric secret parts threshold perm r.stream
  pure (shares, r.skip ((threshold.toNat - 1) * secret.length))

end Verif.MathRand
