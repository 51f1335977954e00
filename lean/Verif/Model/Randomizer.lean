import Verif.Basic

/-! # Model of randomizer/randomizer.go

`cipher.NewCTR` is a stateful stream: key stream `ks` and current position `pos`. -/

namespace Verif.Randomizer
open Verif Outcome

/-- randomizer.go:9-11 -/
structure Randomizer where
  ks : Nat → Byte
  pos : Nat

/-- randomizer.go:24-27 `Read`: new content of `buff` and the advanced stream. -/
def Randomizer.read (r : Randomizer) (buff : List Byte) : List Byte × Randomizer :=
  (buff.mapIdx fun i b => b ^^^ r.ks (r.pos + i), { r with pos := r.pos + buff.length })

/-- randomizer.go:29-44 `Perm` (no swap: `buff[max] = buff[rx]` only). -/
def Randomizer.perm (r : Randomizer) (n : Byte) : Outcome (List Byte × Randomizer) := do
  let buff := List.replicate n.toNat (0 : Byte)
  let buff ← forUp n.toNat (fun i buff => setIdx buff i (BitVec.ofNat 8 i)) buff
  let (shuffler, r) := r.read (List.replicate n.toNat (0 : Byte))
  let (buff, _) ← forUp (n - 1#8).toNat (fun i (st : List Byte × Byte) => do
    let (buff, max) := st
    let s ← idx shuffler i
    if max = 0 then panic                           -- integer divide by zero
    let rx : Byte := s % max
    let temp ← idx buff rx.toNat
    let buff ← setIdx buff max.toNat temp
    pure (buff, max - 1#8)) (buff, n - 1#8)
  return (buff, r)

end Verif.Randomizer
