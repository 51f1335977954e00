import Verif.Model.VectorMem

/-! # What `AddVector` does to two slices of one memory -/

namespace Verif.Spec
open Verif OneMem Galois

/-- `n` bytes at `pa` and `n` bytes at `pb`, anywhere in the lower half of the address space; enough fuel for the loops. -/
structure Fits (mc : Machine) (pa pb n : Nat) : Prop where
  aEnd : pa + n < 2 ^ 63
  bEnd : pb + n < 2 ^ 63
  fuel : n + 4 ≤ mc.fuel

/-- The first byte of the block that byte `i` of vectors of `n` bytes is processed with.  A block is loaded in full before it is
stored: 64 and 16 bytes with SSE2, 32 bytes on arm64 and in the batch loop of the pure-Go build. -/
def blockStart : Arch → Nat → Nat → Nat
  | .amd64 cpu, n, i =>
    if cpu.sse2 then
      if 128 ≤ n ∧ i < 64 * (n / 64) then 64 * (i / 64)
      else if i < 16 * (n / 16) then 16 * (i / 16) else i
    else i
  | .arm64, n, i => if i < 32 * (n / 32) then 32 * (i / 32) else i
  | .noasm, n, i => if 256 ≤ n ∧ i < 32 * (n / 32) then 32 * (i / 32) else i

/-- The size of the largest block. -/
def blockWidth : Arch → Nat → Nat
  | .amd64 cpu, n => if cpu.sse2 then (if 128 ≤ n then 64 else if 16 ≤ n then 16 else 1) else 1
  | .arm64, n => if 32 ≤ n then 32 else 1
  | .noasm, n => if 256 ≤ n then 32 else 1

/-- The elementwise sum with respect to the contents before the call; nothing else changes. -/
def SumOfOld (pa pb n : Nat) (m m' : Mem) : Prop :=
  (∀ i < n, m' (pb + i) = m (pa + i) ^^^ m (pb + i)) ∧ ∀ x, ¬ (pb ≤ x ∧ x < pb + n) → m' x = m x

/-- The result of adding one byte after the other, first to last: a byte of `a` that lies `d = pb - pa` bytes or more behind
the start of `a` is a byte of `b` that has been replaced before it is read.  (For `pa < pb`.) -/
def ByteByByte (pa pb n : Nat) (m m' : Mem) : Prop :=
  (∀ i < n, m' (pb + i) = (if i < pb - pa then m (pa + i) else m' (pa + i)) ^^^ m (pb + i)) ∧
    ∀ x, ¬ (pb ≤ x ∧ x < pb + n) → m' x = m x

end Verif.Spec
