import Verif.Basic
import Verif.Tables.Galois

/-! # Model of galois/galois.go and galois/vector_noasm.go -/

namespace Verif.Galois
open Verif Outcome Tables.Galois

/-- galois/tables.go:130-385, `mulTable[a][b]` (a `[256][256]uint8`, so byte indices are always in range). -/
def mulTable (a b : Byte) : Byte := rowByte (mulTableRows.getD a.toNat 0) 256 b.toNat

/-- galois/tables.go:387-642, `mulTableLow[c][:]` -/
def mulTableLow (c : Byte) : List Byte := rowBytes (mulTableLowRows.getD c.toNat 0) 16

/-- galois/tables.go:644-899, `mulTableHigh[c][:]` -/
def mulTableHigh (c : Byte) : List Byte := rowBytes (mulTableHighRows.getD c.toNat 0) 16

/-- galois/tables.go:9-42, `int(logTable[a])` (a `[256]byte`) -/
def logTable (a : Byte) : Nat := Tables.Galois.logTable.getD a.toNat 0

/-- galois/tables.go:102-128, `invTable[a]` (a `[256]byte`) -/
def invTable (a : Byte) : Byte := BitVec.ofNat 8 (Tables.Galois.invTable.getD a.toNat 0)

/-- galois/tables.go:49-100, `expTable[i]` (a slice of 510 bytes: checked index) -/
def expTable (i : Int) : Outcome Byte := do
  let v ← idxInt Tables.Galois.expTable i
  return BitVec.ofNat 8 v

/-- galois/galois.go:4-6 `GalAdd` -/
def galAdd (a b : Byte) : Byte := a ^^^ b

/-- galois/galois.go:8-10 `GalSub` -/
def galSub (a b : Byte) : Byte := a ^^^ b

/-- galois/galois.go:16-18 `GalMultiply` -/
def galMultiply (a b : Byte) : Byte := mulTable a b

/-- galois/galois.go:22-29 `GalMultiplyLogExp` -/
def galMultiplyLogExp (a b : Byte) : Outcome Byte := do
  if a = 0 ∨ b = 0 then return 0
  let logA : Int := logTable a
  let logB : Int := logTable b
  expTable (logA + logB)

/-- galois/galois.go:33-47 `GalDivide` -/
def galDivide (a b : Byte) : Outcome Byte := do
  if a = 0 then return 0
  if b = 0 then panic
  let logA : Int := logTable a
  let logB : Int := logTable b
  let logResult := logA - logB
  let logResult := if logResult < 0 then logResult + 255 else logResult
  expTable logResult

/-- galois/galois.go:61-63: `for logResult >= 255 { logResult -= 255 }` -/
def reduceLog (r : Int) : Int :=
  if 255 ≤ r then reduceLog (r - 255) else r
termination_by r.toNat

/-- galois/galois.go:51-65 `GalExp`; the product `int(logA) * n` wraps like a 64-bit Go `int`. -/
def galExp (a : Byte) (n : Int) : Outcome Byte := do
  if n = 0 then return 1
  if a = 0 then return 0
  let logA : Int := logTable a
  let logResult := Int.bmod (logA * n) (2 ^ 64)
  expTable (reduceLog logResult)

/-! ## galois/vector_noasm.go -/

/-- galois/vector_noasm.go:44-59: the loops of `AddVectorBatchGeneric`, on the not yet processed
suffixes of `a` and `b`; returns the new content of `b`'s suffix. -/
def addVectorBatchLoop (a b : List Byte) : Outcome (List Byte) :=
  if _h : 32 ≤ b.length then do
    let inS ← slice a 0 32                       -- inS := a[:32]
    let w := fun k => leUint64 ((b.drop (8 * k)).take 8) ^^^ leUint64 ((inS.drop (8 * k)).take 8)
    let v0 := w 0
    let v1 := w 1
    let v2 := w 2
    let v3 := w 3
    let blk := lePutUint64 v0 ++ lePutUint64 v1 ++ lePutUint64 v2 ++ lePutUint64 v3
    let a' ← slice a 32 a.length                 -- a = a[32:]
    let rest ← addVectorBatchLoop a' (b.drop 32) -- b = b[32:]
    return blk ++ rest
  else
    -- for n, input := range a { b[n] ^= input }
    forUp a.length (fun n b => do
      let input ← idx a n
      let bn ← idx b n
      setIdx b n (bn ^^^ input)) b
termination_by b.length
decreasing_by simp; omega

/-- galois/vector_noasm.go:38-61 `AddVectorBatchGeneric`; the result is the new content of `b`. -/
def addVectorBatchGeneric (a b : List Byte) : Outcome (List Byte) :=
  if a.length ≠ b.length then panic else addVectorBatchLoop a b

/-- galois/vector_noasm.go:10-25 `AddVectorGeneric`; the result is the new content of `b`. -/
def addVectorGeneric (a b : List Byte) : Outcome (List Byte) :=
  if a.length ≠ b.length then panic
  else if 256 ≤ a.length then addVectorBatchGeneric a b
  else forUp a.length (fun i b => do
    let val ← idx a i
    let bi ← idx b i
    setIdx b i (galAdd val bi)) b

/-- galois/vector_noasm.go:29-34 `MulConstVectorGeneric`; the result is the new content of `a`. -/
def mulConstVectorGeneric (c : Byte) (a : List Byte) : Outcome (List Byte) :=
  forUp a.length (fun i a => do
    let val ← idx a i
    setIdx a i (galMultiply val c)) a

end Verif.Galois
