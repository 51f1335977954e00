import Verif.Basic

/-! # Model of csprng/csprng.go

A `CSPRNG` is determined by its key and IV; the only thing the code uses them for is the AES-CTR key
stream, so a `CSPRNG` is modelled by that stream `ks : Nat → Byte` (byte `i` of the stream from offset 0).
`aesctrat.XORKeyStreamAt(dst, src, iv, 0)` is modelled as `dst[i] = src[i] ^ ks i`. -/

namespace Verif.Csprng
open Verif Outcome

/-- csprng.go:9-12 `CSPRNG` -/
structure CSPRNG where
  ks : Nat → Byte

/-- csprng.go:30-33 `Read`: the new content of `buff`.  The receiver is not modified: there is no position. -/
def CSPRNG.read (r : CSPRNG) (buff : List Byte) : List Byte :=
  buff.mapIdx fun i b => b ^^^ r.ks i

/-- csprng.go:37-51 `Perm`; `byte` arithmetic wraps. -/
def CSPRNG.perm (r : CSPRNG) (n : Byte) : Outcome (List Byte) := do
  let buff := List.replicate n.toNat (0 : Byte)
  let buff ← forUp n.toNat (fun i buff => setIdx buff i (BitVec.ofNat 8 i)) buff
  let shuffler := r.read (List.replicate n.toNat (0 : Byte))
  forUp (n - 2#8).toNat (fun i buff => do
    let s ← idx shuffler i
    if n - BitVec.ofNat 8 i = 0 then panic          -- integer divide by zero
    let j : Byte := 1 + s % (n - BitVec.ofNat 8 i)
    let temp ← idx buff i
    let bj ← idx buff j.toNat
    let buff ← setIdx buff i bj
    setIdx buff j.toNat temp) buff

/-- csprng.go:66-73: the loop that re-reads `buff[i]` until it is not in `isExist`; `Read` of the one-byte
slice xors key stream byte 0 into it. `fuel` bounds the number of iterations. -/
def CSPRNG.uniqueLoop (r : CSPRNG) (seen : List Byte) : Nat → Byte → Outcome Byte
  | 0, _ => spin
  | fuel + 1, b =>
    if b ∈ seen then do
      let b ← idx (r.read [b]) 0
      r.uniqueLoop seen fuel b
    else ok b

/-- csprng.go:58-77 `GetUniqueBytes`; `isExist` is the list of bytes already taken. -/
def CSPRNG.getUniqueBytes (r : CSPRNG) (fuel : Nat) (n : Byte) : Outcome (List Byte) := do
  if 20#8 ≤ n then do
    let p ← r.perm 255#8
    slice p 0 n.toNat
  else do
    let buff := r.read (List.replicate n.toNat (0 : Byte))
    let (buff, _) ← forUp n.toNat (fun i (st : List Byte × List Byte) => do
      let (buff, isExist) := st
      let b ← idx buff i
      let b ← r.uniqueLoop isExist fuel b
      let buff ← setIdx buff i b
      pure (buff, b :: isExist)) (buff, [])
    return buff

end Verif.Csprng
