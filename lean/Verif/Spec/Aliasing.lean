import Verif.Spec.SplitP

/-! # Specification: what a program does with returned slices -/

namespace Verif.Spec
open Verif Verif.Heap

/-- Memory after `s[k] = v`. -/
def assign (h : Arr → List Byte) (s : Slice) (k : Nat) (v : Byte) : Arr → List Byte :=
  Function.update h s.arr ((h s.arr).set (s.off + k) v)

/-- Memory after `append(s, bs...)`, and the slice it returns (Go language specification: "If the capacity of s is not
large enough to fit the additional values, append allocates a new, sufficiently large underlying array [...]. Otherwise,
append re-uses the underlying array."). `a` is the array allocated in the first case, with `extra` bytes to spare. -/
def append (h : Arr → List Byte) (a : Arr) (extra : Nat) (s : Slice) (bs : List Byte) : (Arr → List Byte) × Slice :=
  if s.len + bs.length ≤ s.cap then
    (Function.update h s.arr ((h s.arr).mapIdx fun q b =>
        if s.off + s.len ≤ q ∧ q < s.off + s.len + bs.length then bs.getD (q - (s.off + s.len)) 0 else b),
      ⟨s.arr, s.off, s.len + bs.length, s.cap⟩)
  else
    (Function.update h a (contents h s ++ bs ++ List.replicate extra 0),
      ⟨a, 0, s.len + bs.length, s.len + bs.length + extra⟩)

/-- The calls that return slices of one array, and the secret they share. -/
def oneArray : Job → Option Slice
  | .seq (.split secret _ _ _) => some secret
  | .seq (.splitWithRandomizer _ secret _ _ _) => some secret
  | .seq (.splitWithRandomizerOld secret _ _ _) => some secret
  | _ => none

end Verif.Spec
