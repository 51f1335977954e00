import Verif.Spec.Aes
import Verif.Spec.Sharing

/-! # Specification: shares over the other common field of 256 elements

HashiCorp Vault's package shamir, which README.md names as the origin of this library, shares secrets over the field of AES,
GF(2)[x] / (x^8 + x^4 + x^3 + x + 1) (0x11b), with the same share format: the payload bytes, then the tag.  /repo works over
0x11d; the comment of shamir/tables.go:3-4, taken over from there, names a generator of the other field's tables.
This is a specification of that format only; no code of Vault is in /repo. -/

namespace Verif.Spec.Vault
open Verif

/-- The value at `x` of the polynomial over the field of AES with the given coefficients, constant term first. -/
def evalAes : List Byte → Byte → Byte
  | [], _ => 0#8
  | c :: cs, x => c ^^^ Aes.mul (evalAes cs x) x

/-- The share with tag `x` of the polynomials with coefficient rows `rows`, over the field of AES. -/
def share (rows : List (List Byte)) (x : Byte) : List Byte := rows.map (fun cs => evalAes cs x) ++ [x]

/-- Substituting `x + 1` for `x` in a polynomial of degree below 8 over GF(2): the bits are added up as powers of `x + 1`. -/
def convert (a : Byte) : Byte :=
  (List.range 8).foldl
    (fun acc i => if a.getLsbD i then acc ^^^ [0x01#8, 0x03#8, 0x05#8, 0x0f#8, 0x11#8, 0x33#8, 0x55#8, 0xff#8].getD i 0 else acc) 0#8

end Verif.Spec.Vault
