import Verif.Basic

/-! # Model of utils/bufferpool.go and of the parts of bytes.Buffer the pool users rely on -/

namespace Verif.Pool
open Verif

/-- A `*bytes.Buffer`: the bytes of its backing array up to its capacity.  All users `Reset` a buffer
before use, so its read offset and length are 0 and are not modelled; what matters is which stale bytes
are visible through `Bytes()[0:n]`. -/
structure Buf where
  mem : List Byte
  deriving DecidableEq, Repr

/-- `&bytes.Buffer{}` -/
def Buf.new : Buf := ⟨[]⟩

/-- bytes.Buffer.Grow(n) after Reset: keeps the backing array (and its stale bytes) when the capacity
suffices; otherwise a zeroed array is allocated (64 bytes for a first small allocation, else 2*cap+n).
Simplifications: the allocation size of newer Go releases may be rounded up (only the amount of zero
bytes changes) and the `ErrTooLarge` panic for sizes near 2^63 is not modelled. -/
def Buf.grow (b : Buf) (n : Nat) : Buf :=
  if n ≤ b.mem.length then b
  else if b.mem = [] ∧ n ≤ 64 then ⟨List.replicate 64 0⟩
  else ⟨List.replicate (2 * b.mem.length + n) 0⟩

/-- utils/bufferpool.go:8-10: a buffered channel of buffers, oldest first, and its capacity. -/
structure BytesBufferPool where
  ch : List Buf
  size : Nat
  deriving DecidableEq, Repr

/-- utils/bufferpool.go:12-19 `NewBytesBufferPool`; `numCPU` is `runtime.NumCPU()`. -/
def newBytesBufferPool (numCPU : Nat) (size : Int) : BytesBufferPool :=
  { ch := [], size := if size ≤ 0 then numCPU * 1024 else size.toNat }

/-- utils/bufferpool.go:21-28 `Get`: receive if the channel is not empty, else a new buffer. -/
def BytesBufferPool.get (p : BytesBufferPool) : Buf × BytesBufferPool :=
  match p.ch with
  | bb :: rest => (bb, { p with ch := rest })
  | [] => (Buf.new, p)

/-- utils/bufferpool.go:30-38 `Put`: send unless the channel is full, in which case the buffer is dropped. -/
def BytesBufferPool.put (p : BytesBufferPool) (bb : Buf) : BytesBufferPool :=
  if p.ch.length < p.size then { p with ch := p.ch ++ [bb] } else p

end Verif.Pool
