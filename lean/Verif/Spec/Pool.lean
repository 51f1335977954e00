import Verif.Model.Pool

/-! # Specification: histories of a buffer pool -/

namespace Verif.Spec
open Verif Pool

/-- A call on a pool. -/
inductive PoolOp where
  | get
  | put (b : Buf)
  deriving DecidableEq, Repr

/-- The pool after a call. -/
def PoolOp.apply (p : BytesBufferPool) : PoolOp → BytesBufferPool
  | .get => p.get.2
  | .put b => p.put b

/-- The pool after a history of calls. -/
def after (p : BytesBufferPool) (ops : List PoolOp) : BytesBufferPool := ops.foldl PoolOp.apply p

/-- The number of `Get` calls in a history. -/
def gets (ops : List PoolOp) : Nat := ops.count .get

/-- The number of buffers a pool keeps. -/
def retained (p : BytesBufferPool) : Nat := p.ch.length

/-- The capacity `NewBytesBufferPool(size)` documents. -/
def poolCap (numCPU : Nat) (size : Int) : Nat := if size ≤ 0 then numCPU * 1024 else size.toNat

end Verif.Spec
