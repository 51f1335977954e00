import Verif.Model.ReedSolomon
import Verif.Spec.GF256

/-! # The arithmetic of github.com/klauspost/reedsolomon: matrix.go, reedsolomon.go

Not part of /repo, and its source is not available here: modelled from the published algorithm (a Vandermonde matrix made
systematic, inversion by Gaussian elimination), over the field GF(2)[x]/(x^8+x^4+x^3+x^2+1), the field of /repo.
Simplifications: a matrix is a function of row and column (entries outside are arbitrary); the multiplication tables are
the field multiplication `mulSpec`; the cache of inverted matrices is left out. -/

namespace Verif.RS.Klauspost
open Verif Spec

abbrev Mat := Nat → Nat → Byte

/-- matrix.go `SwapRows` -/
def swapRows (r₁ r₂ : Nat) (a : Mat) : Mat := fun r => if r = r₁ then a r₂ else if r = r₂ then a r₁ else a r

/-- matrix.go, "Scale to 1": `m[r][c] = galMultiply(m[r][c], scale)` for every column. -/
def scaleRow (r : Nat) (scale : Byte) (a : Mat) : Mat := Function.update a r fun c => mulSpec (a r c) scale

/-- matrix.go: `m[row][c] ^= galMultiply(scale, m[r][c])` for every column. -/
def addRow (row : Nat) (scale : Byte) (r : Nat) (a : Mat) : Mat :=
  Function.update a row fun c => a row c ^^^ mulSpec scale (a r c)

/-- matrix.go `gaussianElimination`: if the element on the diagonal is 0, find a row below that has a non-zero and swap. -/
def bringPivot (n : Nat) (a : Mat) (r : Nat) : Mat :=
  if a r r = 0 then
    match (List.range n).find? fun below => r < below ∧ a below r ≠ 0 with
    | some below => swapRows r below a
    | none => a
  else a

/-- matrix.go `gaussianElimination`: scale the row to 1. -/
def scaleToOne (a : Mat) (r : Nat) : Mat := if a r r ≠ 1 then scaleRow r (GF.invSpec (a r r)) a else a

/-- matrix.go `gaussianElimination`: make everything below the 1 be a 0. -/
def clearBelow (n : Nat) (a : Mat) (r : Nat) : Mat :=
  (List.range n).foldl (fun a below => if r < below ∧ a below r ≠ 0 then addRow below (a below r) r a else a) a

/-- matrix.go `gaussianElimination`, body of the first loop; `none`: "matrix is singular". -/
def forwardStep (n : Nat) (a : Mat) (r : Nat) : Option Mat :=
  let a := bringPivot n a r
  if a r r = 0 then none else some (clearBelow n (scaleToOne a r) r)

/-- matrix.go `gaussianElimination`, body of the second loop: clear the column above the diagonal. -/
def backwardStep (a : Mat) (d : Nat) : Mat :=
  (List.range d).foldl (fun a above => if a above d ≠ 0 then addRow above (a above d) d a else a) a

/-- matrix.go `gaussianElimination` on `n` rows -/
def gaussianElimination (n : Nat) (a : Mat) : Option Mat := do
  let a ← (List.range n).foldlM (forwardStep n) a
  some ((List.range n).foldl backwardStep a)

/-- matrix.go `Invert`: the identity matrix is appended on the right; after the elimination it has become the inverse. -/
def invert (n : Nat) (a : Mat) : Option Mat := do
  let w ← gaussianElimination n fun r c => if c < n then a r c else if c = n + r then 1 else 0
  some fun r c => w r (n + c)

/-- matrix.go `Multiply`: `n` columns on the left, `n` rows on the right. -/
def multiply (n : Nat) (a b : Mat) : Mat := fun r c =>
  (List.range n).foldl (fun v i => v ^^^ mulSpec (a r i) (b i c)) 0

/-- galois.go `galExp`: the `n`-fold product, 1 for `n = 0`. -/
def galExp (a : Byte) : Nat → Byte
  | 0 => 1
  | n + 1 => mulSpec (galExp a n) a

/-- reedsolomon.go `vandermonde` -/
def vandermonde : Mat := fun r c => galExp (BitVec.ofNat 8 r) c

/-- reedsolomon.go `buildMatrix`: the Vandermonde matrix times the inverse of its upper square. -/
def buildMatrix (k : Nat) : Option Mat := do
  let topInv ← invert k vandermonde
  some (multiply k vandermonde topInv)

/-- reedsolomon.go `codeSomeShards`: byte `j` of the product of a row of a matrix and `k` shards. -/
def codeByte (k : Nat) (row : Nat → Byte) (shard : Nat → List Byte) (j : Nat) : Byte :=
  (List.range k).foldl (fun v c => v ^^^ mulSpec (row c) ((shard c).getD j 0)) 0

/-- The numbers of the first `k` shards that are present (reedsolomon.go `reconstruct`: `validIndices`). -/
def validIndices (k m : Nat) (shards : List (List Byte)) : List Nat :=
  ((List.range (k + m)).filter fun i => (shards.getD i []).length ≠ 0).take k

/-- The package: `Encode` multiplies the data shards by the rows of the matrix below the identity, `reconstruct` multiplies
the first `k` shards that are present by the inverse of their rows.  (`New` and `ReconstructData` return the error of
`Invert` if there is one; `[]` stands for this case here, which does not occur: `buildMatrix_spec`, `klauspost_missing`.) -/
def klauspost (allowsNoParity : Bool) (stale : List Byte → Nat → Byte) : RSLib where
  allowsNoParity := allowsNoParity
  stale := stale
  parity k _ data r := match buildMatrix k with
    | none => []
    | some mat => (List.range (shardSize data)).map (codeByte k (mat (k + r)) fun c => data.getD c [])
  missing k m shards i := match buildMatrix k with
    | none => []
    | some mat =>
      let valid := validIndices k m shards
      match invert k fun r c => mat (valid.getD r 0) c with
      | none => []
      | some dec => (List.range (shardSize shards)).map (codeByte k (dec i) fun c => shards.getD (valid.getD c 0) [])

end Verif.RS.Klauspost
