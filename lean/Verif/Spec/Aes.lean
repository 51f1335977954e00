import Verif.Basic
import Mathlib.Logic.Function.Iterate

/-! # Specification: the Advanced Encryption Standard (FIPS 197)

crypto/aes implements this standard.  The four-by-four state is the list of its 16 bytes, column by column (FIPS 197, 3.4):
byte `i` is in row `i % 4` and column `i / 4`. -/

namespace Verif.Spec.Aes
open Verif

/-- 4.2: multiplication by `x` modulo `x^8 + x^4 + x^3 + x + 1`. -/
def xtime (a : Byte) : Byte := (a <<< 1) ^^^ (if a.getLsbD 7 then 0x1b#8 else 0#8)

/-- 4.2: the product in GF(2^8): the sum of the `x^i * a` over the bits `i` set in `b`. -/
def mul (a b : Byte) : Byte :=
  (List.range 8).foldl (fun acc i => if b.getLsbD i then acc ^^^ xtime^[i] a else acc) 0#8

/-- 4.4: the multiplicative inverse `a^254 = a^2 * a^4 * ... * a^128`; zero for zero. -/
def inverse (a : Byte) : Byte :=
  let a2 := mul a a
  let a4 := mul a2 a2
  let a8 := mul a4 a4
  let a16 := mul a8 a8
  let a32 := mul a16 a16
  let a64 := mul a32 a32
  let a128 := mul a64 a64
  mul a2 (mul a4 (mul a8 (mul a16 (mul a32 (mul a64 a128)))))

/-- 5.1.1: the S-box. -/
def sbox (a : Byte) : Byte :=
  let b := inverse a
  b ^^^ b.rotateLeft 1 ^^^ b.rotateLeft 2 ^^^ b.rotateLeft 3 ^^^ b.rotateLeft 4 ^^^ 0x63#8

/-- 5.1.2: row `r` is rotated left by `r` columns. -/
def shiftRows (s : List Byte) : List Byte := (List.range 16).map fun i => s.getD ((i + 4 * (i % 4)) % 16) 0

/-- 5.1.3: one column times the matrix whose first row is 2 3 1 1. -/
def mixColumn (a b c d : Byte) : List Byte :=
  [xtime a ^^^ (xtime b ^^^ b) ^^^ c ^^^ d, a ^^^ xtime b ^^^ (xtime c ^^^ c) ^^^ d,
    a ^^^ b ^^^ xtime c ^^^ (xtime d ^^^ d), (xtime a ^^^ a) ^^^ b ^^^ c ^^^ xtime d]

/-- 5.1.3: every column. -/
def mixColumns : List Byte → List Byte
  | a :: b :: c :: d :: rest => mixColumn a b c d ++ mixColumns rest
  | _ => []

/-- 5.1.4: the round key is added to the state. -/
def addRoundKey (k s : List Byte) : List Byte := List.zipWith (· ^^^ ·) s k

/-- 5.2: `Rcon[i]` is `x^(i-1)`, followed by three zeros. -/
def rcon (i : Nat) : List Byte := [xtime^[i - 1] 1#8, 0, 0, 0]

/-- 5.2: the word with number `w.length` of the key schedule, after the words `w`; the key has `nk` words. -/
def nextWord (nk : Nat) (w : List (List Byte)) : List Byte :=
  let temp := w.getD (w.length - 1) []
  let temp :=
    if w.length % nk = 0 then List.zipWith (· ^^^ ·) ((temp.rotateLeft 1).map sbox) (rcon (w.length / nk))
    else if nk > 6 ∧ w.length % nk = 4 then temp.map sbox
    else temp
  List.zipWith (· ^^^ ·) (w.getD (w.length - nk) []) temp

/-- 5.2: the key, extended by `n` words. -/
def extend (nk : Nat) : Nat → List (List Byte) → List (List Byte)
  | 0, w => w
  | n + 1, w => extend nk n (w ++ [nextWord nk w])

/-- The number of words of a key. -/
def keyWords (key : List Byte) : Nat := key.length / 4

/-- 5: the number of rounds: 10, 12 and 14 for keys of 4, 6 and 8 words. -/
def rounds (key : List Byte) : Nat := keyWords key + 6

/-- 5.2: the key schedule: four words for each round, and four more. -/
def keyExpansion (key : List Byte) : List (List Byte) :=
  extend (keyWords key) (4 * (rounds key + 1) - keyWords key)
    ((List.range (keyWords key)).map fun i => (key.drop (4 * i)).take 4)

/-- The key of round `i`: words `4i` to `4i + 3`. -/
def roundKey (w : List (List Byte)) (i : Nat) : List Byte := ((w.drop (4 * i)).take 4).flatten

/-- 5.1: the rounds `i`, `i + 1`, ..., `i + n - 1`. -/
def middleRounds (w : List (List Byte)) : Nat → Nat → List Byte → List Byte
  | 0, _, s => s
  | n + 1, i, s => middleRounds w n (i + 1) (addRoundKey (roundKey w i) (mixColumns (shiftRows (s.map sbox))))

/-- 5.1: the cipher. -/
def cipher (key block : List Byte) : List Byte :=
  let w := keyExpansion key
  let s := addRoundKey (roundKey w 0) block
  let s := middleRounds w (rounds key - 1) 1 s
  addRoundKey (roundKey w (rounds key)) (shiftRows (s.map sbox))

end Verif.Spec.Aes
