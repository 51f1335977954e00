import Verif.Spec.Secrecy

/-! # Specification: what someone can try who knows how the random source works

`run z s` is a call that splits the secret `s` while the random source is in the state `z`.  Someone who holds one share can
try every state. -/

namespace Verif.Spec
open Verif

/-- The secrets of length `n` that some state of the source explains: the call returns `v` as share number `i`. -/
def Candidates {σ : Type} (run : σ → List Byte → Outcome (List (List Byte))) (n i : Nat) (v : List Byte) :
    Set (List Byte) :=
  {s | s.length = n ∧ ∃ z shares, run z s = Outcome.ok shares ∧ shares[i]? = some v}

/-- The sum of two shares, byte by byte, without the tags. -/
def sumOfPayloads (v w : List Byte) : List Byte := List.zipWith (· ^^^ ·) v.dropLast w.dropLast

end Verif.Spec
