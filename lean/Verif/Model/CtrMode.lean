import Verif.Model.Csprng
import Verif.Model.Randomizer
import Verif.Model.Heap
import Mathlib.Logic.Function.Iterate

/-! # Construction of the random sources: csprng/csprng.go:18-28, randomizer/randomizer.go:13-22

The AES block function `aes key block` is arbitrary.  Counter mode is external code (github.com/starius/aesctrat for the
CSPRNG, crypto/cipher for the Randomizer): the former computes the counter of a block from its number, the latter increments
it from block to block. -/

namespace Verif.Csprng
open Verif Outcome Heap

/-- The number whose big-endian digits are the bytes. -/
def beNat (l : List Byte) : Nat := l.foldl (fun a b => a * 256 + b.toNat) 0

/-- aesctrat: the counter block with number `n` (mod 2^128), 16 bytes big-endian. -/
def ctrBlock (n : Nat) : List Byte := (List.range 16).map fun i => BitVec.ofNat 8 (n / 256 ^ (15 - i))

/-- aesctrat `XORKeyStreamAt(dst, src, iv, 0)`: byte `i` of the key stream for a 16-byte IV. -/
def ctrAt (block : List Byte → List Byte) (iv : List Byte) (i : Nat) : Byte :=
  (block (ctrBlock (beNat iv + i / 16))).getD (i % 16) 0

/-- csprng.go:9-12 `CSPRNG` as an object in memory: `c` holds (an expansion of) the key, `iv` is a slice. -/
structure Handle where
  key : List Byte
  iv : Slice

/-- csprng.go:25-28 `NewCSPRNGWithKeyIV`: `keyIv[:16]` is limited by the capacity, `keyIv[16:]` by the length; the key is
copied, the IV is not. -/
def newCSPRNGWithKeyIV (h : Arr → List Byte) (keyIv : Slice) : Outcome Handle := do
  if keyIv.cap < 16 then panic
  let key := ((h keyIv.arr).drop keyIv.off).take 16
  if keyIv.len < 16 then panic
  pure ⟨key, ⟨keyIv.arr, keyIv.off + 16, keyIv.len - 16, keyIv.cap - 16⟩⟩

/-- csprng.go:18-23 `NewCSPRNG`: the array `a` holding `keyIv` is new; the new memory and the object. -/
def newCSPRNG (h : Arr → List Byte) (a : Arr) (rnd : Nat → Byte) : Outcome ((Arr → List Byte) × Handle) := do
  let h := Function.update h a (List.replicate 32 (0 : Byte))                                   -- make
  let h := Function.update h a ((List.range 32).map rnd)                                        -- rand.Read
  let r ← newCSPRNGWithKeyIV h ⟨a, 0, 32, 32⟩
  pure (h, r)

/-- The CSPRNG as its methods (csprng.go:30-76) see it while the memory is `h`: they all pass `r.iv` to aesctrat. -/
def Handle.source (aes : List Byte → List Byte → List Byte) (h : Arr → List Byte) (r : Handle) : CSPRNG :=
  ⟨ctrAt (aes r.key) (((h r.iv.arr).drop r.iv.off).take r.iv.len)⟩

end Verif.Csprng

namespace Verif.Randomizer
open Verif Outcome

/-- crypto/cipher ctr.go, `refill`: `for i := len(ctr)-1; i >= 0; i-- { ctr[i]++; if ctr[i] != 0 { break } }`; the second
component says whether the loop ran past the first byte. -/
def incr : List Byte → List Byte × Bool
  | [] => ([], true)
  | b :: rest =>
    let (r, carry) := incr rest
    if carry then ((b + 1) :: r, b + 1 = 0) else (b :: r, false)

/-- crypto/cipher `NewCTR`: byte `i` of the key stream. -/
def ctrStream (block : List Byte → List Byte) (iv : List Byte) (i : Nat) : Byte :=
  (block ((fun c => (incr c).1)^[i / 16] iv)).getD (i % 16) 0

/-- randomizer.go:13-22 `NewRandomizer`; `rnd` are the bytes of `rand.Read(keyAndIV)`. -/
def newRandomizer (aes : List Byte → List Byte → List Byte) (rnd : Nat → Byte) : Randomizer :=
  let keyAndIV := (List.range 32).map rnd
  ⟨ctrStream (aes (keyAndIV.take 16)) (keyAndIV.drop 16), 0⟩

end Verif.Randomizer
