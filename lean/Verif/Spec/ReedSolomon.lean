import Verif.Model.ReedSolomon
import Verif.Spec.Sharing

/-! # A Reed-Solomon code that satisfies the contract of the external package

Shard `p` holds the values at the field element `p` of the polynomials of degree below `k` through the data shards.
(This is the code the package documents: a Vandermonde matrix made systematic, over the same field.) -/

namespace Verif.Spec
open Verif RS

/-- Field elements 0, 1, ..., k-1. -/
def points (l : List Nat) : List Byte := l.map (BitVec.ofNat 8)

/-- The first `k` shards that are present. -/
def present (k m : Nat) (shards : List (List Byte)) : List Nat :=
  ((List.range (k + m)).filter fun p => shards.getD p [] ≠ []).take k

/-- Systematic Reed-Solomon code by interpolation. -/
noncomputable def interpolationCode : RSLib where
  allowsNoParity := true
  stale _ _ := 0
  parity k _ data r := (List.range (shardSize data)).map fun j =>
    lagrangeAt (points (List.range k)) (data.map (·.getD j 0)) (BitVec.ofNat 8 (k + r))
  missing k m shards i := (List.range (shardSize shards)).map fun j =>
    lagrangeAt (points (present k m shards)) ((present k m shards).map fun p => (shards.getD p []).getD j 0) (BitVec.ofNat 8 i)

end Verif.Spec
