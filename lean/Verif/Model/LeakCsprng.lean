import Verif.Model.Leak
import Verif.Model.Csprng
import Verif.Model.Randomizer

/-! # The model of csprng.go and of Perm in randomizer.go, with what an observer of the processor sees

`Perm` and `GetUniqueBytes` again, statement by statement, recording observations as in `Model/Leak.lean`.  Simplification: AES (`Read`) shows
nothing. -/

namespace Verif.Leak
open Verif Outcome Csprng

/-- csprng.go:37-51 `Perm` -/
def perm (r : CSPRNG) (n : Byte) : Traced (List Byte) := do
  let buff := List.replicate n.toNat (0 : Byte)
  let buff ← forUp n.toNat (fun i buff => setIdx buff i (BitVec.ofNat 8 i)) buff
  let shuffler := r.read (List.replicate n.toNat (0 : Byte))
  forUp (n - 2#8).toNat (fun i buff => do
    let s ← idx shuffler i
    if n - BitVec.ofNat 8 i = 0 then quiet Outcome.panic          -- integer divide by zero
    let j : Byte := 1 + s % (n - BitVec.ofNat 8 i)
    let temp ← idx buff i
    let bj ← idx buff j.toNat
    let buff ← setIdx buff i bj
    setIdx buff j.toNat temp) buff

/-- csprng.go:66-72: the key is looked up in the map, and a branch taken; `buff[i]` is read again after every `Read`. -/
def uniqueLoop (r : CSPRNG) (seen : List Byte) : Nat → Byte → Traced Byte
  | 0, _ => quiet spin
  | fuel + 1, b => do
    shows (.key b) (ok ())
    if ← test (b ∈ seen) then do
      let b ← idx (r.read [b]) 0
      uniqueLoop r seen fuel b
    else pure b

/-- csprng.go:58-76 `GetUniqueBytes` -/
def getUniqueBytes (r : CSPRNG) (fuel : Nat) (n : Byte) : Traced (List Byte) := do
  if ← test (20#8 ≤ n) then do
    let p ← perm r 255#8
    slice p 0 n.toNat
  else do
    let buff := r.read (List.replicate n.toNat (0 : Byte))
    let (buff, _) ← forUp n.toNat (fun i (st : List Byte × List Byte) => do
      let (buff, isExist) := st
      let b ← idx buff i
      let b ← uniqueLoop r isExist fuel b
      let buff ← setIdx buff i b
      shows (.key b) (ok ())
      pure (buff, b :: isExist)) (buff, [])
    return buff

/-- randomizer.go:29-44 `Perm` -/
def rperm (r : Randomizer.Randomizer) (n : Byte) : Traced (List Byte × Randomizer.Randomizer) := do
  let buff := List.replicate n.toNat (0 : Byte)
  let buff ← forUp n.toNat (fun i buff => setIdx buff i (BitVec.ofNat 8 i)) buff
  let (shuffler, r) := r.read (List.replicate n.toNat (0 : Byte))
  let (buff, _) ← forUp (n - 1#8).toNat (fun i (st : List Byte × Byte) => do
    let (buff, max) := st
    let s ← idx shuffler i
    if max = 0 then quiet Outcome.panic                           -- integer divide by zero
    let rx : Byte := s % max
    let temp ← idx buff rx.toNat
    let buff ← setIdx buff max.toNat temp
    pure (buff, max - 1#8)) (buff, n - 1#8)
  return (buff, r)

/-- What is left of an observation for someone who sees neither entries of tables nor keys of maps: branches, numbers of iterations,
positions in slices. -/
def Ev.blind : Ev → Ev
  | .key _ => .key 0
  | e => e.hide

end Verif.Leak
