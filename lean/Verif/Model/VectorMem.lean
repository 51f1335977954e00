import Verif.Model.AsmCalls

/-! # `AddVector` on slices of one memory

`Verif.Model.Vector` and `Verif.Model.AsmCalls` give each slice a content of its own, which is right for slices that do not
overlap.  `AddVector` is exported and Go lets its two arguments be any two slices, so here both are address ranges of the same
memory: every load sees every store made before it, in program order.  The assembly is executed on the machine of
`Verif.Model.Asm`, the Go loops load and store byte by byte (or word by word) as the source does.

Simplification: the capacity of a slice equals its length (relevant for `out[:len(in)]`, vector_amd64.go:124, only). -/

namespace Verif.OneMem
open Verif Outcome Asm Galois

/-- The content of the memory, by address. -/
abbrev Mem := Nat → Byte

/-- A slice: the address of its first byte and its length. -/
structure Span where
  base : Nat
  len : Nat

/-- The address range of a slice. -/
def Span.contains (x : Span) (a : Nat) : Bool := x.base ≤ a && a < x.base + x.len

/-- `x[s:e]`; panics unless `s ≤ e ≤ len(x)`. -/
def Span.slice (x : Span) (s e : Nat) : Outcome Span :=
  if s ≤ e ∧ e ≤ x.len then ok ⟨x.base + s, e - s⟩ else panic

/-- `x[i]`; panics when out of range. -/
def get (m : Mem) (x : Span) (i : Nat) : Outcome Byte :=
  if i < x.len then ok (m (x.base + i)) else panic

/-- `x[i] = v`; panics when out of range. -/
def set (m : Mem) (x : Span) (i : Nat) (v : Byte) : Outcome Mem :=
  if i < x.len then ok (fun a => if a = x.base + i then v else m a) else panic

/-- `binary.LittleEndian.Uint64(x)`; panics when `x` has less than 8 bytes. -/
def getUint64 (m : Mem) (x : Span) : Outcome (BitVec 64) :=
  if 8 ≤ x.len then ok (leUint64 ((List.range 8).map fun k => m (x.base + k))) else panic

/-- `binary.LittleEndian.PutUint64(x, v)`; panics when `x` has less than 8 bytes. -/
def putUint64 (m : Mem) (x : Span) (v : BitVec 64) : Outcome Mem :=
  if 8 ≤ x.len then
    ok (fun a => if x.base ≤ a ∧ a < x.base + 8 then (lePutUint64 v).getD (a - x.base) 0 else m a)
  else panic

/-- The argument frame of `f(x0, x1, ...)` for slices: pointer, length, capacity of each one. -/
def frame (xs : List Span) (off : Nat) : BitVec 64 :=
  match xs[off / 24]? with
  | none => 0
  | some x => if off % 24 = 0 then BitVec.ofNat 64 x.base else BitVec.ofNat 64 x.len

/-- Call an assembly routine on slices of the memory, the last of which is the destination; the registers (`init`) hold
anything.  The result is the memory afterwards. -/
def call (code : Code) (fuel : Nat) (init : State) (xs : List Span) (dst : Span) (m : Mem) : Outcome Mem := do
  let s ← run code fuel 0 { init with
    mem := m
    readable := fun a => (xs ++ [dst]).any (·.contains a)
    writable := dst.contains
    args := frame (xs ++ [dst]) }
  return s.mem

/-- What the registers and flags hold whenever a routine (of block width `w`, starting at offset `d`) is entered, and a bound
on the number of basic blocks executed. -/
structure Machine where
  regs : (w d : Nat) → State
  fuel : Nat

/-- vector_amd64.go:125-127, vector_arm64.go:48-50 and vector_noasm.go:57-59: `for i := d; i < len(in); i++ { out[i] ^= in[i] }` -/
def xorTail (d : Nat) (inp out : Span) (m : Mem) : Outcome Mem :=
  forUp (inp.len - d) (fun i m => do
    let x ← get m inp (d + i)
    let y ← get m out (d + i)
    set m out (d + i) (y ^^^ x)) m

/-- vector_amd64.go:107-130 `AddVector`: the memory afterwards. -/
def addVectorAmd64 (mc : Machine) (cpu : Cpu) (inp out : Span) (m : Mem) : Outcome Mem := do
  let (inp, out, m) ← (
    if cpu.sse2 then do
      let (d, inp, out, m) ← (
        if bigSwitchover ≤ inp.len then do
          let m ← call Routines.sSE2XorSlice_64 mc.fuel (mc.regs 64 0) [inp] out m
          let done := (inp.len >>> 6) <<< 6
          pure (done, ← inp.slice done inp.len, ← out.slice done out.len, m)
        else pure (0, inp, out, m))
      if 16 ≤ inp.len then do
        let m ← call Routines.sSE2XorSlice mc.fuel (mc.regs 16 d) [inp] out m
        let done := (inp.len >>> 4) <<< 4
        pure (← inp.slice done inp.len, ← out.slice done out.len, m)
      else pure (inp, out, m)
    else pure (inp, out, m))
  let out ← out.slice 0 inp.len
  xorTail 0 inp out m

/-- vector_arm64.go:40-54 `AddVector`: the memory afterwards. -/
def addVectorArm64 (mc : Machine) (inp out : Span) (m : Mem) : Outcome Mem := do
  let m ← call Routines.galXorNEON mc.fuel (mc.regs 32 0) [inp] out m
  let done := (inp.len >>> 5) <<< 5
  let remain := inp.len - done
  if 0 < remain then xorTail done inp out m else pure m

/-- vector_noasm.go:44-59: the loops of `AddVectorBatchGeneric` on the suffixes `a` and `b`. -/
def addVectorBatchLoop (a b : Span) (m : Mem) : Outcome Mem :=
  if _h : 32 ≤ b.len then do
    let inS ← a.slice 0 32
    let v0 := (← getUint64 m (← b.slice 0 b.len)) ^^^ (← getUint64 m (← inS.slice 0 inS.len))
    let v1 := (← getUint64 m (← b.slice 8 b.len)) ^^^ (← getUint64 m (← inS.slice 8 inS.len))
    let v2 := (← getUint64 m (← b.slice 16 b.len)) ^^^ (← getUint64 m (← inS.slice 16 inS.len))
    let v3 := (← getUint64 m (← b.slice 24 b.len)) ^^^ (← getUint64 m (← inS.slice 24 inS.len))
    let m ← putUint64 m (← b.slice 0 b.len) v0
    let m ← putUint64 m (← b.slice 8 b.len) v1
    let m ← putUint64 m (← b.slice 16 b.len) v2
    let m ← putUint64 m (← b.slice 24 b.len) v3
    let a' ← a.slice 32 a.len
    addVectorBatchLoop a' ⟨b.base + 32, b.len - 32⟩ m       -- b = b[32:], in range by the loop condition
  else xorTail 0 a b m
termination_by b.len
decreasing_by simp_wf; omega

/-- vector_noasm.go:38-61 `AddVectorBatchGeneric`: the memory afterwards. -/
def addVectorBatchGeneric (a b : Span) (m : Mem) : Outcome Mem :=
  if a.len ≠ b.len then panic else addVectorBatchLoop a b m

/-- vector_noasm.go:10-25 `AddVectorGeneric`: the memory afterwards. -/
def addVectorGeneric (a b : Span) (m : Mem) : Outcome Mem :=
  if a.len ≠ b.len then panic
  else if 256 ≤ a.len then addVectorBatchGeneric a b m
  else forUp a.len (fun i m => do
    let val ← get m a i
    let bi ← get m b i
    set m b i (galAdd val bi)) m

/-- `AddVector` of the given build (vector.go:10-12 for noasm): the memory afterwards, and the returned slice, which is the
second argument. -/
def addVector (mc : Machine) (arch : Arch) (a b : Span) (m : Mem) : Outcome (Mem × Span) := do
  let m ← (match arch with
    | .amd64 cpu => addVectorAmd64 mc cpu a b m
    | .arm64 => addVectorArm64 mc a b m
    | .noasm => addVectorGeneric a b m)
  return (m, b)

end Verif.OneMem
