import Verif.Model.Word
import Verif.Model.Krawczyk

/-! # The package krawczyk, with integers of `w` bits

See Model/Word.lean.  `len(secret) > math.MaxUint32` (krawczyk.go:22, 93) compares an `int` with a constant that needs more than 32
bits, so the package compiles on platforms with 64-bit `int` only.  Functions without arithmetic on `int`s are those of
Model/Krawczyk.lean. -/

namespace Verif.Word
open Verif Outcome Galois Pool Csprng Krawczyk

/-- krawczyk.go:45-66 (also 116-137): see `Krawczyk.encode`. -/
def encode (w : Nat) (env : Env) (secret key : List Byte) (parts threshold : Int) :
    Outcome (List Byte × List (List Byte)) := do
  let encryptedSecret ← encrypt env secret key
  let encoder ← RS.new env.lib threshold (wrap w (parts - threshold))
  let encodedSecret ← encoder.split env.lib encryptedSecret
  let encodedSecret ← encoder.encode env.lib encodedSecret
  let encodedSecret ← forUp encodedSecret.length (fun i es => do
    let s ← idx es i
    setIdx es i (s ++ [BitVec.ofNat 8 i])) encodedSecret
  pure (encryptedSecret, encodedSecret)

/-- krawczyk.go:163-172 `newByteMatrix`: windows of one zeroed array. -/
def newByteMatrix (w : Nat) (r : Nat) (c : Int) : Outcome (List (List Byte)) := do
  let a ← makeBytes (wrap w (r * c))
  let m : List (List Byte) := List.replicate r []
  let (m, _, _) ← forUp r (fun i (st : List (List Byte) × Int × Int) => do
    let (m, lo, hi) := st
    let row ← sliceInt a lo hi
    let m ← setIdx m i row
    pure (m, hi, wrap w (hi + c))) (m, 0, c)
  return m

/-- krawczyk.go:80-86 (also 152-158): see `Krawczyk.assemble`. -/
def assemble (w : Nat) (parts : Nat) (encodedSecret ssKeyLenPair : List (List Byte)) : Outcome (List (List Byte)) := do
  let e0 ← idx encodedSecret 0
  let m0 ← idx ssKeyLenPair 0
  let lenEncodedSecret := e0.length
  let lenEncodedMetadata := m0.length
  let results ← newByteMatrix w parts (wrap w (lenEncodedSecret + lenEncodedMetadata))
  forUp parts (fun i results => do
    let row ← idx results i
    let win ← slice row 0 lenEncodedMetadata
    let m ← idx ssKeyLenPair i
    let row := writeAt row 0 (copyInto win m)
    let win ← slice row lenEncodedMetadata row.length
    let e ← idx encodedSecret i
    let row := writeAt row lenEncodedMetadata (copyInto win e)
    setIdx results i row) results

/-- krawczyk.go:21-89 `Split`: see `Krawczyk.split`. -/
def krawczykSplit (w : Nat) (env : Env) (secret : List Byte) (parts threshold : Int) (keyRnd : Nat → Byte) (perm : List Nat)
    (rnd : Nat → Byte) (ps : Shamir.Pools) : Outcome (List (List Byte) × Shamir.Pools) := do
  checkArgs secret.length parts threshold
  let key := Shamir.randRead keyRnd 0 (List.replicate 16 0)
  let (encryptedSecret, encodedSecret) ← encode w env secret key parts threshold
  let (ssKeyLenPair, ps) ← Word.split w env.arch (keyLenPair key encryptedSecret) parts threshold perm rnd ps
  let results ← assemble w parts.toNat encodedSecret ssKeyLenPair
  return (results, ps)

/-- krawczyk.go:91-161 `SplitWithRandomizer`: see `Krawczyk.splitWithRandomizer`. -/
def krawczykSplitWithRandomizer (w : Nat) (env : Env) (fuel : Nat) (secret : List Byte) (parts threshold : Int) (r : CSPRNG)
    (ps : Shamir.Pools) : Outcome (List (List Byte) × Shamir.Pools) := do
  checkArgs secret.length parts threshold
  let key := r.read (List.replicate 16 0)
  let (encryptedSecret, encodedSecret) ← encode w env secret key parts threshold
  let (ssKeyLenPair, ps) ← Word.splitWithRandomizer w env.arch fuel (keyLenPair key encryptedSecret) parts threshold r ps
  let results ← assemble w parts.toNat encodedSecret ssKeyLenPair
  return (results, ps)

end Verif.Word
