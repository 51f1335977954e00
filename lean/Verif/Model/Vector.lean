import Verif.Model.Galois

/-! # Model of galois/vector_amd64.go, vector_arm64.go and vector.go

The assembly routines they call appear here as block loops (`galMulBlocks`, `xorBlocks`: the description
the authors give in vector_amd64.go:46-62).  `Verif.Model.Asm` models the assembly instruction by
instruction, `Verif.Model.AsmCalls` runs the functions below on that machine, and `Verif.Proofs.Asm` proves that
the assembly computes these block loops. -/

namespace Verif.Galois
open Verif Outcome

/-- Store of a register's bytes by assembly code: no bounds check, so a store that does not fit in the
slice corrupts memory. -/
def asmStore (mem : List Byte) (off : Nat) (bytes : List Byte) : Outcome (List Byte) :=
  if off + bytes.length ≤ mem.length then ok (writeAt mem off bytes) else corrupt

/-- Load of `n` bytes by assembly code (no bounds check either). -/
def asmLoad (mem : List Byte) (off n : Nat) : Outcome (List Byte) :=
  if off + n ≤ mem.length then ok ((mem.drop off).take n) else corrupt

/-- vector_amd64.go:50-52: `low[input & 0xf] ^ high[input >> 4]` -/
def nibbleMul (low high : List Byte) (x : Byte) : Byte :=
  low.getD (x &&& 0xf#8).toNat 0 ^^^ high.getD (x >>> 4).toNat 0

/-- galMulSSSE3 (w = 16), galMulAVX2 / galMulNEON (w = 32), galMulAVX2_64 (w = 64): the first
`len(in)/w` blocks of `out` are overwritten with the products. -/
def galMulBlocks (w : Nat) (low high inp out : List Byte) : Outcome (List Byte) :=
  forUp (inp.length / w) (fun k out => do
    let x ← asmLoad inp (w * k) w
    asmStore out (w * k) (x.map (nibbleMul low high))) out

/-- sSE2XorSlice (w = 16), galXorNEON (w = 32), sSE2XorSlice_64 (w = 64): the first `len(in)/w` blocks
of `in` are xored into `out`. -/
def xorBlocks (w : Nat) (inp out : List Byte) : Outcome (List Byte) :=
  forUp (inp.length / w) (fun k out => do
    let x ← asmLoad inp (w * k) w
    let y ← asmLoad out (w * k) w
    asmStore out (w * k) (List.zipWith (· ^^^ ·) x y)) out

/-- vector_amd64.go:10-20: the CPU features detected at start-up. -/
structure Cpu where
  ssse3 : Bool
  sse2 : Bool
  avx2 : Bool

/-- vector_amd64.go:66 -/
def bigSwitchover : Nat := 128

/-- vector_amd64.go:97-101 and vector_arm64.go:29-34: the scalar tail
`for i := d; i < len(in); i++ { out[i] = mulTable[c][in[i]] }` -/
def mulTail (c : Byte) (d : Nat) (inp out : List Byte) : Outcome (List Byte) :=
  forUp (inp.length - d) (fun i out => do
    let x ← idx inp (d + i)
    setIdx out (d + i) (mulTable c x)) out

/-- vector_amd64.go:124-127 and vector_arm64.go:47-51: the scalar tail `out[i] ^= in[i]`. -/
def xorTail (d : Nat) (inp out : List Byte) : Outcome (List Byte) :=
  forUp (inp.length - d) (fun i out => do
    let x ← idx inp (d + i)
    let y ← idx out (d + i)
    setIdx out (d + i) (y ^^^ x)) out

/-- The assembly routines as the Go code sees them.  `mul w d low high in out` processes the blocks of `w` bytes of
`in = in0[d:]`, `out = out0[d:]` where `in0`, `out0` are the slices the function was called with (the offset `d` matters only for
the addresses, see `Verif.Model.AsmCalls`). -/
structure Kernels where
  mul : (w d : Nat) → (low high inp out : List Byte) → Outcome (List Byte)
  xor : (w d : Nat) → (inp out : List Byte) → Outcome (List Byte)

/-- The routines as block loops. -/
def blocks : Kernels where
  mul w _ := galMulBlocks w
  xor w _ := xorBlocks w

/-- vector_amd64.go:68-104 `MulConstVector`. `d` is the number of bytes already processed: the Go
variables `in`, `out` are the suffixes of the original slices from `d` on. -/
def mulConstVectorAmd64With (k : Kernels) (cpu : Cpu) (c : Byte) (inp : List Byte) : Outcome (List Byte) := do
  let out := List.replicate inp.length (0 : Byte)
  if c = 1 then
    return copyInto out inp
  if cpu.avx2 then do
    let (d, out) ← (
      if bigSwitchover ≤ inp.length then do
        let o ← k.mul 64 0 (mulTableLow c) (mulTableHigh c) inp out
        pure ((inp.length >>> 6) <<< 6, o)
      else pure (0, out))
    let in1 ← slice inp d inp.length
    let out1 ← slice out d out.length
    let (d, out) ← (
      if 32 < in1.length then do
        let o ← k.mul 32 d (mulTableLow c) (mulTableHigh c) in1 out1
        pure (d + ((in1.length >>> 5) <<< 5), writeAt out d o)
      else pure (d, out))
    mulTail c d inp out
  else if cpu.ssse3 then do
    let o ← k.mul 16 0 (mulTableLow c) (mulTableHigh c) inp out
    let done := (inp.length >>> 4) <<< 4
    let d := if done < o.length then done else 0
    mulTail c d inp o
  else
    mulTail c 0 inp out

/-- vector_amd64.go:107-130 `AddVector`; the result is the new content of `out`.
`out = out[:len(in)]` panics when `out` is shorter than what is left of `in`
(simplification: capacity = length). -/
def addVectorAmd64With (k : Kernels) (cpu : Cpu) (inp out : List Byte) : Outcome (List Byte) := do
  if cpu.sse2 then do
    let (d, out) ← (
      if bigSwitchover ≤ inp.length then do
        let o ← k.xor 64 0 inp out
        pure ((inp.length >>> 6) <<< 6, o)
      else pure (0, out))
    let in1 ← slice inp d inp.length
    let out1 ← slice out d out.length
    let (d, out) ← (
      if 16 ≤ in1.length then do
        let o ← k.xor 16 d in1 out1
        pure (d + ((in1.length >>> 4) <<< 4), writeAt out d o)
      else pure (d, out))
    let _ ← slice out d inp.length
    xorTail d inp out
  else do
    let _ ← slice out 0 inp.length
    xorTail 0 inp out

/-- vector_arm64.go:17-37 `MulConstVector` -/
def mulConstVectorArm64With (k : Kernels) (c : Byte) (inp : List Byte) : Outcome (List Byte) := do
  let out := List.replicate inp.length (0 : Byte)
  if c = 1 then
    return copyInto out inp
  let out ← k.mul 32 0 (mulTableLow c) (mulTableHigh c) inp out
  let done := (inp.length >>> 5) <<< 5
  let remain := inp.length - done
  if 0 < remain then mulTail c done inp out else pure out

/-- vector_arm64.go:40-54 `AddVector`; the result is the new content of `out`. -/
def addVectorArm64With (k : Kernels) (inp out : List Byte) : Outcome (List Byte) := do
  let out ← k.xor 32 0 inp out
  let done := (inp.length >>> 5) <<< 5
  let remain := inp.length - done
  if 0 < remain then xorTail done inp out else pure out

/-- The four functions with the routines as block loops. -/
def mulConstVectorAmd64 : Cpu → Byte → List Byte → Outcome (List Byte) := mulConstVectorAmd64With blocks
/-- see above -/
def addVectorAmd64 : Cpu → List Byte → List Byte → Outcome (List Byte) := addVectorAmd64With blocks
/-- see above -/
def mulConstVectorArm64 : Byte → List Byte → Outcome (List Byte) := mulConstVectorArm64With blocks
/-- see above -/
def addVectorArm64 : List Byte → List Byte → Outcome (List Byte) := addVectorArm64With blocks

/-- The build targets: vector_amd64.go, vector_arm64.go, or the pure-Go fallback vector.go. -/
inductive Arch where
  | amd64 (cpu : Cpu)
  | arm64
  | noasm

/-- `MulConstVector` of the given build (vector.go:16-18 for noasm). -/
def mulConstVector : Arch → Byte → List Byte → Outcome (List Byte)
  | .amd64 cpu, c, a => mulConstVectorAmd64 cpu c a
  | .arm64, c, a => mulConstVectorArm64 c a
  | .noasm, c, a => mulConstVectorGeneric c a

/-- `AddVector` of the given build (vector.go:10-12 for noasm). -/
def addVector : Arch → List Byte → List Byte → Outcome (List Byte)
  | .amd64 cpu, a, b => addVectorAmd64 cpu a b
  | .arm64, a, b => addVectorArm64 a b
  | .noasm, a, b => addVectorGeneric a b

end Verif.Galois
