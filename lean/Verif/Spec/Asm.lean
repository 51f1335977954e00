import Verif.Model.AsmCalls

/-! # What a placement of slices in memory has to satisfy -/

namespace Verif.Spec
open Verif Asm

/-- The address ranges [a, a+n) and [b, b+m) do not overlap. -/
def NoOverlap (a n b m : Nat) : Prop := a + n ≤ b ∨ b + m ≤ a

/-- A placement for `in` of `n` bytes and `out` of `m` bytes that the Go run time can produce: the slices and the two
16-byte tables do not overlap and lie in the 64-bit address space (below 2^63, so that a Go `int` can hold the lengths; `out` is
not within `n` bytes of the end); enough fuel. -/
structure Valid (p : Place) (n m : Nat) : Prop where
  lowHigh : NoOverlap p.low 16 p.high 16
  lowIn : NoOverlap p.low 16 p.inp n
  lowOut : NoOverlap p.low 16 p.out m
  highIn : NoOverlap p.high 16 p.inp n
  highOut : NoOverlap p.high 16 p.out m
  inOut : NoOverlap p.inp n p.out m
  lowEnd : p.low + 16 < 2 ^ 63
  highEnd : p.high + 16 < 2 ^ 63
  inEnd : p.inp + n < 2 ^ 63
  outEnd : p.out + m < 2 ^ 63
  outGap : p.out + n < 2 ^ 64
  fuel : n + 4 ≤ p.fuel

end Verif.Spec
