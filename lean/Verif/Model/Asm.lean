import Verif.Basic

/-! # A machine for the assembly routines of galois/vector_amd64.s and galois/vector_arm64.s

The instructions the routines use, with the meaning the Intel SDM and the Arm ARM give them, in the operand order of
the Go assembler (destination last).  The routines themselves are in `Verif.Tables.Asm` (generated from the .s files).

Simplifications: the upper halves of vector registers that a routine does not use are not tracked exactly (legacy SSE
instructions leave them unchanged, `VZEROUPPER` clears them); of the flags only ZF (amd64) and N (arm64) are modelled,
no other flag is tested. -/

namespace Verif.Asm
open Verif Outcome

/-- General purpose registers (amd64: AX BX DX SI R9; arm64: R1 R2 R3 R5 R10 R11). -/
inductive Gp where
  | ax | bx | dx | si | r9 | r1 | r2 | r3 | r5 | r10 | r11
  deriving DecidableEq, Repr

/-- Conditions of conditional jumps: JEQ/JZ, JNZ, BMI, BPL. -/
inductive Cond where
  | zero | nonzero | minus | plus
  deriving DecidableEq, Repr

/-- The instructions. `X`/`Y`/`V` registers are given by their number; X`n` is the low half of Y`n`. -/
inductive Instr where
  /-- `MOVQ name+off(FP), r`, `MOVD name+off(FP), r` -/
  | movArg (off : Nat) (dst : Gp)
  /-- `MOVQ $v, r`, `MOVD $v, r` -/
  | movImm (v : Nat) (dst : Gp)
  /-- `MOVQ r, r'` -/
  | movGp (src dst : Gp)
  /-- `MOVQ r, X`: low 64 bits, the rest of X is zeroed -/
  | movqX (src : Gp) (dst : Nat)
  /-- `MOVOU d(r), X`, `MOVOA d(r), X` (aligned: faults unless the address is a multiple of 16) -/
  | loadX (aligned : Bool) (base : Gp) (disp : Nat) (dst : Nat)
  /-- `MOVOU X, d(r)`, `MOVOA X, d(r)` -/
  | storeX (aligned : Bool) (src : Nat) (base : Gp) (disp : Nat)
  /-- `MOVOU X, X'`, `MOVOA X, X'` -/
  | movX (src dst : Nat)
  | pxor (src dst : Nat)
  | pand (src dst : Nat)
  /-- `PSHUFB idx, X` -/
  | pshufb (idx dst : Nat)
  /-- `PSRLQ $k, X` -/
  | psrlq (k : Nat) (dst : Nat)
  | shrq (k : Nat) (dst : Gp)
  | andq (k : Nat) (dst : Gp)
  | addq (k : Nat) (dst : Gp)
  | subq (k : Nat) (dst : Gp)
  | orq (src dst : Gp)
  /-- `CMPQ r, $k` -/
  | cmpq (a : Gp) (k : Nat)
  | testq (a b : Gp)
  /-- `VINSERTI128 $k, X, Y, Y'` -/
  | vinserti128 (k src1 src2 dst : Nat)
  /-- `VPBROADCASTB X, Y` -/
  | vpbroadcastb (src dst : Nat)
  /-- `VMOVDQU d(r), Y` -/
  | loadY (base : Gp) (disp : Nat) (dst : Nat)
  /-- `VMOVDQU Y, d(r)` -/
  | storeY (src : Nat) (base : Gp) (disp : Nat)
  /-- `VPSRLQ $k, Y, Y'` -/
  | vpsrlq (k src dst : Nat)
  | vpand (a b dst : Nat)
  | vpxor (a b dst : Nat)
  /-- `VPSHUFB idx, table, Y` -/
  | vpshufb (idx table dst : Nat)
  | vzeroupper
  /-- `SUBS $k, r` -/
  | subs (k : Nat) (dst : Gp)
  /-- `VLD1 (r), [V...]`, `VLD1.P inc(r), [V...]` (the base register is incremented afterwards) -/
  | vld1 (inc : Nat) (base : Gp) (dsts : List Nat)
  /-- `VST1.P [V...], inc(r)` -/
  | vst1 (inc : Nat) (base : Gp) (srcs : List Nat)
  /-- `VUSHR $k, V.B16, V'.B16` -/
  | vushr (k src dst : Nat)
  /-- `VAND` on arm64 -/
  | vandN (a b dst : Nat)
  | veor (a b dst : Nat)
  /-- `VTBL idx.B16, [table.B16], V.B16` -/
  | vtbl (idx table dst : Nat)
  /-- `VMOV r, V.B[0]` -/
  | vmovB0 (src : Gp) (dst : Nat)
  /-- `VDUP V.B[0], V'.B16` -/
  | vdupB0 (src dst : Nat)
  deriving DecidableEq, Repr

/-- How a basic block ends. -/
inductive Term where
  | ret
  | jmp (target : Nat)
  | jcc (c : Cond) (target next : Nat)
  deriving DecidableEq, Repr

/-- A basic block. -/
structure Block where
  body : List Instr
  term : Term
  deriving DecidableEq, Repr

/-- A routine: its blocks, entered at block 0. -/
abbrev Code := List Block

/-- The machine state.  `readable`/`writable` are the addresses that belong to the slices the routine was given (only
the destination is writable): any other access is reported as `corrupt`. -/
structure State where
  gp : Gp → BitVec 64
  /-- register number, byte number -/
  vec : Nat → Nat → Byte
  zf : Bool
  nf : Bool
  mem : Nat → Byte
  readable : Nat → Bool
  writable : Nat → Bool
  /-- the argument frame: 8-byte word at byte offset `off` -/
  args : Nat → BitVec 64

/-- Set a general purpose register. -/
def State.setG (s : State) (r : Gp) (v : BitVec 64) : State :=
  { s with gp := fun q => if q = r then v else s.gp q }

/-- Set the low `n` bytes of a vector register. -/
def State.setV (s : State) (n r : Nat) (f : Nat → Byte) : State :=
  { s with vec := fun q i => if q = r ∧ i < n then f i else s.vec q i }

/-- Set a general purpose register and ZF. -/
def State.setGZ (s : State) (r : Gp) (v : BitVec 64) : State :=
  { s.setG r v with zf := v == 0 }

/-- The effective address `d(r)`. -/
def State.ea (s : State) (base : Gp) (disp : Nat) : Nat := (s.gp base + BitVec.ofNat 64 disp).toNat

/-- Load `n` bytes. -/
def State.load (s : State) (a n : Nat) : Outcome (Nat → Byte) :=
  if ∀ i < n, s.readable (a + i) = true then ok fun i => s.mem (a + i) else corrupt

/-- Store `n` bytes. -/
def State.store (s : State) (a n : Nat) (f : Nat → Byte) : Outcome State :=
  if ∀ i < n, s.writable (a + i) = true then
    ok { s with mem := fun b => if a ≤ b ∧ b < a + n then f (b - a) else s.mem b }
  else corrupt

/-- The alignment check of `MOVOA` (a fault kills the process). -/
def checkAligned (aligned : Bool) (a : Nat) : Outcome Unit :=
  if aligned = true ∧ a % 16 ≠ 0 then panic else ok ()

/-- The 64-bit lane `j`, little endian. -/
def lane (f : Nat → Byte) (j : Nat) : BitVec 64 := leUint64 ((List.range 8).map fun b => f (8 * j + b))

/-- Byte `i` of the register after shifting every 64-bit lane right by `k`. -/
def srl64 (k : Nat) (f : Nat → Byte) (i : Nat) : Byte := (lane f (i / 8) >>> k >>> (8 * (i % 8))).setWidth 8

/-- Byte `i` of the in-lane (16 byte) shuffle: 0 if bit 7 of the index is set, else the byte selected by its low 4 bits. -/
def shuffle (table idx : Nat → Byte) (i : Nat) : Byte :=
  if (idx i).getLsbD 7 then 0 else table (16 * (i / 16) + (idx i &&& 0x0f#8).toNat)

/-- `VLD1` of several registers: consecutive 16-byte pieces. -/
def loadMany (s : State) (a : Nat) : List Nat → Outcome State
  | [] => ok s
  | r :: rest => do
    let f ← s.load a 16
    loadMany (s.setV 16 r f) (a + 16) rest

/-- `VST1` of several registers. -/
def storeMany (s : State) (a : Nat) : List Nat → Outcome State
  | [] => ok s
  | r :: rest => do
    let s ← s.store a 16 (s.vec r)
    storeMany s (a + 16) rest

/-- One instruction. -/
def exec : Instr → State → Outcome State
  | .movArg off dst, s => ok (s.setG dst (s.args off))
  | .movImm v dst, s => ok (s.setG dst (BitVec.ofNat 64 v))
  | .movGp src dst, s => ok (s.setG dst (s.gp src))
  | .movqX src dst, s => ok (s.setV 16 dst fun i => if i < 8 then (s.gp src >>> (8 * i)).setWidth 8 else 0)
  | .loadX al base disp dst, s => do
      checkAligned al (s.ea base disp)
      let f ← s.load (s.ea base disp) 16
      ok (s.setV 16 dst f)
  | .storeX al src base disp, s => do
      checkAligned al (s.ea base disp)
      s.store (s.ea base disp) 16 (s.vec src)
  | .movX src dst, s => ok (s.setV 16 dst (s.vec src))
  | .pxor src dst, s => ok (s.setV 16 dst fun i => s.vec dst i ^^^ s.vec src i)
  | .pand src dst, s => ok (s.setV 16 dst fun i => s.vec dst i &&& s.vec src i)
  | .pshufb idx dst, s => ok (s.setV 16 dst (shuffle (s.vec dst) (s.vec idx)))
  | .psrlq k dst, s => ok (s.setV 16 dst (srl64 k (s.vec dst)))
  | .shrq k dst, s => ok (s.setGZ dst (s.gp dst >>> k))
  | .andq k dst, s => ok (s.setGZ dst (s.gp dst &&& BitVec.ofNat 64 k))
  | .addq k dst, s => ok (s.setGZ dst (s.gp dst + BitVec.ofNat 64 k))
  | .subq k dst, s => ok (s.setGZ dst (s.gp dst - BitVec.ofNat 64 k))
  | .orq src dst, s => ok (s.setGZ dst (s.gp dst ||| s.gp src))
  | .cmpq a k, s => ok { s with zf := s.gp a == BitVec.ofNat 64 k }
  | .testq a b, s => ok { s with zf := (s.gp a &&& s.gp b) == 0 }
  | .vinserti128 k src1 src2 dst, s =>
      ok (s.setV 32 dst fun i => if i / 16 = k then s.vec src1 (i % 16) else s.vec src2 i)
  | .vpbroadcastb src dst, s => ok (s.setV 32 dst fun _ => s.vec src 0)
  | .loadY base disp dst, s => do
      let f ← s.load (s.ea base disp) 32
      ok (s.setV 32 dst f)
  | .storeY src base disp, s => s.store (s.ea base disp) 32 (s.vec src)
  | .vpsrlq k src dst, s => ok (s.setV 32 dst (srl64 k (s.vec src)))
  | .vpand a b dst, s => ok (s.setV 32 dst fun i => s.vec b i &&& s.vec a i)
  | .vpxor a b dst, s => ok (s.setV 32 dst fun i => s.vec b i ^^^ s.vec a i)
  | .vpshufb idx table dst, s => ok (s.setV 32 dst (shuffle (s.vec table) (s.vec idx)))
  | .vzeroupper, s => ok { s with vec := fun r i => if i < 16 then s.vec r i else 0 }
  | .subs k dst, s =>
      let v := s.gp dst - BitVec.ofNat 64 k
      ok { s.setGZ dst v with nf := v.msb }
  | .vld1 inc base dsts, s => do
      let a := (s.gp base).toNat
      let s ← loadMany s a dsts
      ok (s.setG base (s.gp base + BitVec.ofNat 64 inc))
  | .vst1 inc base srcs, s => do
      let a := (s.gp base).toNat
      let s ← storeMany s a srcs
      ok (s.setG base (s.gp base + BitVec.ofNat 64 inc))
  | .vushr k src dst, s => ok (s.setV 16 dst fun i => s.vec src i >>> k)
  | .vandN a b dst, s => ok (s.setV 16 dst fun i => s.vec b i &&& s.vec a i)
  | .veor a b dst, s => ok (s.setV 16 dst fun i => s.vec b i ^^^ s.vec a i)
  | .vtbl idx table dst, s =>
      ok (s.setV 16 dst fun i => if (s.vec idx i).toNat < 16 then s.vec table (s.vec idx i).toNat else 0)
  | .vmovB0 src dst, s => ok (s.setV 1 dst fun _ => (s.gp src).setWidth 8)
  | .vdupB0 src dst, s => ok (s.setV 16 dst fun _ => s.vec src 0)

/-- The instructions of a block. -/
def execAll : List Instr → State → Outcome State
  | [], s => ok s
  | i :: rest, s => do
    let s ← exec i s
    execAll rest s

/-- Whether a conditional jump is taken. -/
def Cond.holds : Cond → State → Bool
  | .zero, s => s.zf
  | .nonzero, s => !s.zf
  | .minus, s => s.nf
  | .plus, s => !s.nf

/-- Run a routine from the beginning of a block until `RET`; `fuel` bounds the number of blocks executed. -/
def run (code : Code) : Nat → Nat → State → Outcome State
  | 0, _, _ => spin
  | fuel + 1, b, s =>
    match code[b]? with
    | none => corrupt
    | some blk => do
      let s ← execAll blk.body s
      match blk.term with
      | .ret => ok s
      | .jmp t => run code fuel t s
      | .jcc c t n => run code fuel (if c.holds s then t else n) s

/-! ## Calls from Go (ABI0: arguments on the stack) -/

/-- A slice argument: where its bytes are. (Its capacity is passed too, but not used by the routines.) -/
structure Arg where
  base : Nat
  bytes : List Byte

/-- The address range of a slice. -/
def Arg.contains (x : Arg) (a : Nat) : Bool := x.base ≤ a && a < x.base + x.bytes.length

/-- The byte at an address, for a list of slices in memory. -/
def memOf : List Arg → Nat → Byte
  | [], _ => 0
  | x :: rest, a => if x.contains a then x.bytes.getD (a - x.base) 0 else memOf rest a

/-- The argument frame of `f(x0, x1, ...)` for slices: pointer, length, capacity of each one. -/
def frame (xs : List Arg) (off : Nat) : BitVec 64 :=
  match xs[off / 24]? with
  | none => 0
  | some x => if off % 24 = 0 then BitVec.ofNat 64 x.base else BitVec.ofNat 64 x.bytes.length

/-- Call a routine on slices, the last of which is the destination; the other registers (`init`) hold anything.  The
result is the new content of the destination. -/
def call (code : Code) (fuel : Nat) (init : State) (xs : List Arg) (dst : Arg) : Outcome (List Byte) := do
  let s ← run code fuel 0 { init with
    mem := memOf (xs ++ [dst])
    readable := fun a => (xs ++ [dst]).any (·.contains a)
    writable := dst.contains
    args := frame (xs ++ [dst]) }
  return (List.range dst.bytes.length).map fun i => s.mem (dst.base + i)

end Verif.Asm
