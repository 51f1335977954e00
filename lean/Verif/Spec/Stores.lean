import Verif.Spec.Heap
import Verif.Spec.Krawczyk

/-! # Specification: what krawczyk.Combine may overwrite -/

namespace Verif.Spec
open Verif Outcome Verif.Heap

/-- The bytes `krawczyk.Combine` may overwrite: those after the first 21 bytes of the shares of 22 bytes (shares
without payload), up to their capacity. -/
def exposed (slices : List Slice) : Set (Arr × Nat) :=
  {l | ∃ s ∈ slices, s.len = 22 ∧ l.1 = s.arr ∧ s.off + 21 ≤ l.2 ∧ l.2 < s.off + s.cap}

/-- A share without its payload: 21 bytes of metadata and the index. -/
def stripped (share : List Byte) : List Byte := share.take 21 ++ [share.getD (share.length - 1) 0]

/-- The two slices have no byte of memory in common, spare capacity included. -/
def Apart (s s' : Slice) : Prop := s.arr ≠ s'.arr ∨ s.off + s.cap ≤ s'.off ∨ s'.off + s'.cap ≤ s.off

/-- The payload of a share: what is between its 21 bytes of metadata and its index. -/
def payload (share : List Byte) : List Byte := (share.drop 21).take (share.length - 22)

/-- The share with the beginning of its payload replaced by the payload of another share from byte `d` on. -/
def overlaid (share other : List Byte) (d : Nat) : List Byte :=
  share.take 21 ++ ((payload other).drop d ++ (payload share).drop (share.length - 22 - d)) ++ [share.getD (share.length - 1) 0]

end Verif.Spec
