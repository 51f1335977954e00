import Verif.Model.Vector
import Verif.Tables.Asm

/-! # `MulConstVector` and `AddVector` with their assembly executed on the machine

The Go code around the assembly is that of `Verif.Model.Vector`; here the routines it calls are run instruction by
instruction (`Verif.Model.Asm`), with the slices at given addresses. -/

namespace Verif.Asm
open Verif Outcome Galois

/-- Where the slices are when a function is called: addresses of the two 16-byte tables of the constant, of the first byte
of `in` and of the first byte of `out`; what the registers and flags hold whenever a routine (of block width `w`, starting
at offset `d`) is entered; and a bound on the number of basic blocks executed. -/
structure Place where
  low : Nat
  high : Nat
  inp : Nat
  out : Nat
  regs : (w d : Nat) → State
  fuel : Nat

/-- vector_amd64.go:22-44: the routines vector_amd64.go calls. -/
def amd64Kernels (p : Place) : Kernels where
  mul w d low high inp out :=
    call (if w = 64 then Routines.galMulAVX2_64 else if w = 32 then Routines.galMulAVX2 else Routines.galMulSSSE3)
      p.fuel (p.regs w d) [⟨p.low, low⟩, ⟨p.high, high⟩, ⟨p.inp + d, inp⟩] ⟨p.out + d, out⟩
  xor w d inp out :=
    call (if w = 64 then Routines.sSE2XorSlice_64 else Routines.sSE2XorSlice)
      p.fuel (p.regs w d) [⟨p.inp + d, inp⟩] ⟨p.out + d, out⟩

/-- vector_arm64.go:8-15: the routines vector_arm64.go calls. -/
def arm64Kernels (p : Place) : Kernels where
  mul w d low high inp out :=
    call Routines.galMulNEON p.fuel (p.regs w d) [⟨p.low, low⟩, ⟨p.high, high⟩, ⟨p.inp + d, inp⟩] ⟨p.out + d, out⟩
  xor w d inp out :=
    call Routines.galXorNEON p.fuel (p.regs w d) [⟨p.inp + d, inp⟩] ⟨p.out + d, out⟩

/-- `MulConstVector` of the given build, its assembly executed on the machine. -/
def mulConstVectorOn (p : Place) : Arch → Byte → List Byte → Outcome (List Byte)
  | .amd64 cpu, c, a => mulConstVectorAmd64With (amd64Kernels p) cpu c a
  | .arm64, c, a => mulConstVectorArm64With (arm64Kernels p) c a
  | .noasm, c, a => mulConstVectorGeneric c a

/-- `AddVector` of the given build, its assembly executed on the machine. -/
def addVectorOn (p : Place) : Arch → List Byte → List Byte → Outcome (List Byte)
  | .amd64 cpu, a, b => addVectorAmd64With (amd64Kernels p) cpu a b
  | .arm64, a, b => addVectorArm64With (arm64Kernels p) a b
  | .noasm, a, b => addVectorGeneric a b

end Verif.Asm
