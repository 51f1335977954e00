import Verif.Spec.GF256
import Mathlib.LinearAlgebra.Lagrange

/-!
# Specification: Shamir sharings

A share of an `N`-byte secret is `N` payload bytes followed by one tag byte `x`; payload byte `j` is the
value at `x` of a polynomial over GF(2^8) belonging to byte `j`.
-/

namespace Verif.Spec
open Verif Polynomial

/-- The last byte of a share: its x coordinate. -/
def tag (share : List Byte) : Byte := share.getD (share.length - 1) 0

/-- `share` consists of the values of the polynomials `f 0, ..., f (N-1)` at its tag, and the tag. -/
def IsShareOf (f : Nat → GF[X]) (N : Nat) (share : List Byte) : Prop :=
  share.length = N + 1 ∧ ∀ j < N, (⟨share.getD j 0⟩ : GF) = (f j).eval ⟨tag share⟩

/-- The polynomials `f j` have degree below `t` and byte `j` of the secret as constant term. -/
def IsDealing (secret : List Byte) (t : Nat) (f : Nat → GF[X]) : Prop :=
  ∀ j < secret.length, (f j).degree < t ∧ (f j).eval 0 = ⟨secret.getD j 0⟩

/-- `shares` is a `t`-out-of-n Shamir sharing of `secret`. -/
def IsSharing (secret : List Byte) (t : Nat) (shares : List (List Byte)) : Prop :=
  (shares.map tag).Nodup ∧
  ∃ f, IsDealing secret t f ∧ ∀ s ∈ shares, IsShareOf f secret.length s

/-- The polynomial with the given coefficients, constant term first. -/
noncomputable def ofCoeffs (cs : List Byte) : GF[X] :=
  ∑ i ∈ Finset.range cs.length, C ⟨cs.getD i 0⟩ * X ^ i

/-- The value at `x` of the polynomial with coefficients `cs`. -/
noncomputable def evalC (cs : List Byte) (x : Byte) : Byte := ((ofCoeffs cs).eval ⟨x⟩).val

/-- The share with tag `x` of the polynomials with coefficient rows `rows`. -/
noncomputable def shareOf (rows : List (List Byte)) (x : Byte) : List Byte :=
  rows.map (fun cs => evalC cs x) ++ [x]

/-- The value at `x` of the interpolation polynomial through the points `(xs[i], ys[i])`. -/
noncomputable def lagrangeAt (xs ys : List Byte) (x : Byte) : Byte :=
  ((Lagrange.interpolate (Finset.range xs.length) (fun i => (⟨xs.getD i 0⟩ : GF))
    (fun i => (⟨ys.getD i 0⟩ : GF))).eval ⟨x⟩).val

/-- The argument check documented for the Split functions: the first violated condition, if any. -/
def argError (secret : List Byte) (parts threshold : Int) : Option Err :=
  if parts < threshold then some .partsLtThreshold
  else if parts > 255 then some .partsExceed255
  else if threshold < 2 then some .thresholdLt2
  else if secret = [] then some .emptySecret
  else none

/-- Arguments the Split functions accept. -/
def ValidArgs (secret : List Byte) (parts threshold : Int) : Prop :=
  threshold ≤ parts ∧ parts ≤ 255 ∧ 2 ≤ threshold ∧ secret ≠ []

instance (secret : List Byte) (parts threshold : Int) : Decidable (ValidArgs secret parts threshold) := by
  unfold ValidArgs; infer_instance

/-- The input check documented for Combine: the first violated condition, if any. -/
def combineError (parts : List (List Byte)) : Option Err :=
  if parts.length < 2 then some .lessThanTwoParts
  else if (parts.headD []).length < 2 then some .partTooShort
  else if ∃ p ∈ parts, p.length ≠ (parts.headD []).length then some .partLengthMismatch
  else if ¬ (parts.map tag).Nodup then some .duplicatePart
  else none

/-- The sum of two shares with the same tag: the payloads are added bytewise, the tag is kept. -/
def addShares (a b : List Byte) : List Byte := List.zipWith (· ^^^ ·) a.dropLast b.dropLast ++ [tag a]

end Verif.Spec
