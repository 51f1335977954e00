import Verif.Spec.Sharing
import Verif.Spec.Secrecy
import Verif.Model.Shamir
import Mathlib.Data.Fintype.Card
import Mathlib.SetTheory.Cardinal.Finite

/-! # Specification: splitting shares again

A client builds more general access rules by handing a share not to a holder but to Split again, to any depth: "two of Alice, Bob and two of the
three directors". -/

namespace Verif.Spec
open Verif Outcome

/-- What a client does with a string of bytes: hand it to a holder, or Split it and proceed with each share.  The call of Split is given by its
arguments, the permutation it draws for the tags, the build, and the pools it meets. -/
inductive Plan where
  | keep
  | split (arch : Galois.Arch) (parts threshold : Int) (perm : List Nat) (ps : Shamir.Pools) (sub : Nat → Plan)

namespace Plan

/-- All arguments are accepted, and the permutations are permutations. -/
def Valid : Plan → Prop
  | keep => True
  | split _ parts threshold perm _ sub =>
    (threshold ≤ parts ∧ parts ≤ 255 ∧ 2 ≤ threshold) ∧ perm.Perm (List.range 255) ∧ ∀ i, (sub i).Valid

/-- The fillings of the random bytes that the calls draw, if the string has `n` bytes: `threshold * n` for the first call, and others for each call
that follows. -/
def Fillings : Plan → Nat → Type
  | keep, _ => Unit
  | split _ parts threshold _ _ sub, n => (Fin (threshold.toNat * n) → Byte) × ∀ i : Fin parts.toNat, (sub i).Fillings (n + 1)

/-- What the holder at the given place gets (the path of positions of shares from the secret to the holder), if there is one. -/
def held : (P : Plan) → (n : Nat) → List Byte → P.Fillings n → List Nat → Option (List Byte)
  | keep, _, s, _, [] => some s
  | keep, _, _, _, _ :: _ => none
  | split _ _ _ _ _ _, _, _, _, [] => none
  | split arch parts threshold perm ps sub, n, s, (ρ, τ), i :: path =>
    match Shamir.split arch s parts threshold perm (stream ρ) ps with
    | ok (shares, _) => if h : i < parts.toNat then (sub i).held (n + 1) (shares.getD i []) (τ ⟨i, h⟩) path else none
    | _ => none

/-- Whether the holders at the places `K` satisfy the rule: a holder can give what it has; at a Split, threshold of the shares must be available. -/
def Satisfied : Plan → Set (List Nat) → Prop
  | keep, K => [] ∈ K
  | split _ parts threshold _ _ sub, K =>
    threshold.toNat ≤ Nat.card {i : Fin parts.toNat // (sub i).Satisfied {path | i.1 :: path ∈ K}}

/-- How holders get the secret back: Combine on all shares available, if they are at least threshold, from the holders upwards. -/
noncomputable def recover : Plan → (List Nat → Option (List Byte)) → Option (List Byte)
  | keep, known => known []
  | split _ parts threshold _ _ sub, known =>
    let got := (List.range parts.toNat).filterMap fun i => (sub i).recover fun path => known (i :: path)
    if threshold.toNat ≤ got.length then
      match Shamir.combine got with
      | ok s => some s
      | _ => none
    else none

end Plan
end Verif.Spec
