import Verif.Spec.Secrecy
import Verif.Model.Shamir

/-! # Specification: an adversary who watches many calls

A program splits secrets one after the other, with Split or SplitGeneric, all with bytes of one random source, and makes
further shares with Regenerate.  In between the adversary learns shares one at a time.  Which call is made next, and which
share is looked at next, and even the secrets, may depend on everything that has been seen before. -/

namespace Verif.Spec
open Verif Outcome Galois Shamir

/-- A call that splits a secret: which function, and its arguments; `perm` is what `rand.Perm(255)` returns in the call. -/
structure Ask where
  generic : Bool
  parts : Int
  threshold : Int
  perm : List Nat

/-- A call of Regenerate: the positions of the shares it is given, the number of new shares, the random bytes that become the
tags and those drawn later in the call. -/
structure Renew where
  positions : List Nat
  number : Int
  tags : Nat → Byte
  later : Nat → Byte
  fuel : Nat

/-- What happens next: the next secret is split; share `i` of the `r`-th sharing is looked at; new shares are added to the
`r`-th sharing. -/
inductive Move where
  | split (a : Ask)
  | look (r i : Nat)
  | renew (r : Nat) (g : Renew)

/-- What is seen of a move: that Split returned shares; that Regenerate did; that the call was refused; a share; that there is
no such share; that the call panicked or did not return. -/
inductive Sight where
  | made
  | added
  | refused (e : Err)
  | share (w : List Byte)
  | nothing
  | stopped

/-- The call, on a random source that delivers the bytes `rnd`. -/
def Ask.run (arch : Arch) (a : Ask) (secret : List Byte) (rnd : Nat → Byte) (ps : Pools) :
    Outcome (List (List Byte) × Pools) :=
  if a.generic then (fun shares => (shares, ps)) <$> splitGeneric secret a.parts a.threshold a.perm rnd
  else split arch secret a.parts a.threshold a.perm rnd ps

/-- The number of random bytes the call reads when it is not refused. -/
def Ask.reads (a : Ask) (secret : List Byte) : Nat :=
  (if a.generic then a.threshold.toNat - 1 else a.threshold.toNat) * secret.length

/-- Regenerate on some of the shares of a sharing. -/
def Renew.run (g : Renew) (shares : List (List Byte)) : Outcome (List (List Byte)) :=
  regenerate g.fuel (g.positions.map fun i => shares.getD i []) g.number g.tags g.later

/-- `Happens arch next secret past rnd ps made seen`: after the sights `past`, when the random source will deliver `rnd`, the
pools are `ps` and the sharings `made` exist, the following sights are `seen`. -/
def Happens (arch : Arch) (next : List Sight → Move) (secret : List Sight → List Byte) (past : List Sight) (rnd : Nat → Byte)
    (ps : Pools) (made : List (List (List Byte))) : List Sight → Prop
  | [] => True
  | s :: seen =>
    match next past, s with
    | .split a, .made => ∃ shares ps', a.run arch (secret past) rnd ps = ok (shares, ps') ∧
        Happens arch next secret (past ++ [s]) (fun j => rnd (a.reads (secret past) + j)) ps' (made ++ [shares]) seen
    | .split a, .refused e => a.run arch (secret past) rnd ps = err e ∧
        Happens arch next secret (past ++ [s]) rnd ps made seen
    | .look r i, .share w => (made.getD r [])[i]? = some w ∧ Happens arch next secret (past ++ [s]) rnd ps made seen
    | .look r i, .nothing => (made.getD r [])[i]? = none ∧ Happens arch next secret (past ++ [s]) rnd ps made seen
    | .renew r g, .added => (∀ i ∈ g.positions, i < (made.getD r []).length) ∧ ∃ new, g.run (made.getD r []) = ok new ∧
        Happens arch next secret (past ++ [s]) rnd ps (made.set r (made.getD r [] ++ new)) seen
    | .renew r g, .refused e => (∀ i ∈ g.positions, i < (made.getD r []).length) ∧ g.run (made.getD r []) = err e ∧
        Happens arch next secret (past ++ [s]) rnd ps made seen
    | .renew r g, .nothing => (¬ ∀ i ∈ g.positions, i < (made.getD r []).length) ∧
        Happens arch next secret (past ++ [s]) rnd ps made seen
    | .renew r g, .stopped => (∀ i ∈ g.positions, i < (made.getD r []).length) ∧
        (∀ new, g.run (made.getD r []) ≠ ok new) ∧ (∀ e, g.run (made.getD r []) ≠ err e) ∧ seen = []
    | _, _ => False

/-- The number of random bytes that have been read (by Split and SplitGeneric) when `seen` has been seen. -/
def bytesRead (next : List Sight → Move) (secret : List Sight → List Byte) (past : List Sight) : List Sight → Nat
  | [] => 0
  | s :: seen =>
    (match next past, s with
      | .split a, .made => a.reads (secret past)
      | _, _ => 0) + bytesRead next secret (past ++ [s]) seen

/-- The number of sharings made. -/
def sharings (seen : List Sight) : Nat := seen.countP fun | .made => true | _ => false

/-- The shares of the `r`-th sharing that have been looked at when `seen` has been seen. -/
def known (next : List Sight → Move) (seen : List Sight) (r : Nat) : Set (List Byte) :=
  {w | ∃ past i, past ++ [.share w] <+: seen ∧ next past = .look r i}

/-- Of each secret that is not the same in both cases fewer than `threshold` shares are known, and none with tag 0. -/
def Legal (next : List Sight → Move) (secret secret' : List Sight → List Byte) (seen : List Sight) : Prop :=
  ∀ past a, past ++ [.made] <+: seen → next past = .split a →
    secret past = secret' past ∨
      ((known next seen (sharings past)).ncard : Int) < a.threshold ∧ ∀ w ∈ known next seen (sharings past), tag w ≠ 0

/-- Regenerate was always given at least `threshold` shares. -/
def Proper (next : List Sight → Move) (seen : List Sight) : Prop :=
  ∀ first a past g, first ++ [.made] <+: past → next first = .split a → past ++ [.added] <+: seen →
    next past = .renew (sharings first) g → a.threshold ≤ g.positions.length

end Verif.Spec
