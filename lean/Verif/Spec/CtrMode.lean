import Verif.Basic

/-! # Specification: counter mode (NIST SP 800-38A) -/

namespace Verif.Spec
open Verif

/-- The successor of a counter, least significant byte first: add one to the first byte, and carry to the others when it
becomes zero. -/
def succLE : List Byte → List Byte
  | [] => []
  | b :: rest => if b + 1 = 0 then 0 :: succLE rest else (b + 1) :: rest

/-- The successor of a counter block (most significant byte first; wraps around). -/
def nextCounter (c : List Byte) : List Byte := (succLE c.reverse).reverse

/-- `n` blocks of output in counter mode, starting with the counter `c`. -/
def counterMode (E : List Byte → List Byte) : Nat → List Byte → List Byte
  | 0, _ => []
  | n + 1, c => E c ++ counterMode E n (nextCounter c)

end Verif.Spec
