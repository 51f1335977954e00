import Verif.Model.Asm
import Verif.Model.Vector

/-! # What an observer of a processor learns from an assembly routine

The usual "constant time" model: an observer (through caches, timing, page faults) sees which instructions are executed
and which addresses they access, but not the contents of registers and memory. -/

namespace Verif.Spec.Leak
open Verif Asm Outcome

/-- One observation. -/
inductive Obs where
  /-- execution reaches basic block `b` -/
  | block (b : Nat)
  /-- the argument at this offset of the frame is read -/
  | arg (off : Nat)
  /-- `n` bytes are read from this address -/
  | load (addr n : Nat)
  /-- `n` bytes are written to this address -/
  | store (addr n : Nat)
  /-- the routine returns -/
  | ret
  deriving DecidableEq, Repr

/-- What one instruction shows. -/
def obs (s : State) : Instr → List Obs
  | .movArg off _ => [.arg off]
  | .loadX _ base disp _ => [.load (s.ea base disp) 16]
  | .storeX _ _ base disp => [.store (s.ea base disp) 16]
  | .loadY base disp _ => [.load (s.ea base disp) 32]
  | .storeY _ base disp => [.store (s.ea base disp) 32]
  | .vld1 _ base dsts => [.load (s.gp base).toNat (16 * dsts.length)]
  | .vst1 _ base srcs => [.store (s.gp base).toNat (16 * srcs.length)]
  | _ => []

/-- What the instructions of a block show (until one of them fails, if one does). -/
def obsAll : List Instr → State → List Obs
  | [], _ => []
  | i :: rest, s => obs s i ++ match exec i s with
    | ok s' => obsAll rest s'
    | _ => []

/-- What a routine shows from the beginning of block `b` on; `fuel` bounds the number of blocks. -/
def trace (code : Code) : Nat → Nat → State → List Obs
  | 0, _, _ => []
  | fuel + 1, b, s => .block b :: match code[b]? with
    | none => []
    | some blk => obsAll blk.body s ++ match execAll blk.body s with
      | ok s' => match blk.term with
        | .ret => [.ret]
        | .jmp t => trace code fuel t s'
        | .jcc c t n => trace code fuel (if c.holds s' then t else n) s'
      | _ => []

/-- What a call of a routine (`Asm.call`) shows. -/
def callTrace (code : Code) (fuel : Nat) (init : State) (xs : List Arg) (dst : Arg) : List Obs :=
  trace code fuel 0 { init with
    mem := memOf (xs ++ [dst])
    readable := fun a => (xs ++ [dst]).any (·.contains a)
    writable := dst.contains
    args := frame (xs ++ [dst]) }

/-- What is public about a slice: its address and its length. -/
def shape (x : Arg) : Nat × Nat := (x.base, x.bytes.length)

/-! ## Table lookups

`MulConstVector` hands whole blocks to assembly; the bytes after the last block, and all bytes on builds and processors for
which there is no assembly, are looked up in the multiplication table, so that the address of the entry is a function of
the byte. -/

/-- The position from which on `MulConstVector` looks up the bytes of an `n`-byte vector in a table (`n` if none). -/
def lookupsFrom : Galois.Arch → Nat → Nat
  | .noasm, _ => 0
  | .arm64, n => n - n % 32
  | .amd64 cpu, n =>
    if cpu.avx2 then
      if n < 128 then
        if n ≤ 32 then 0 else n - n % 32
      else if 32 < n % 64 then n - n % 64 + 32 else n - n % 64
    else if cpu.ssse3 then
      if n % 16 = 0 then 0 else n - n % 16
    else 0

end Verif.Spec.Leak
