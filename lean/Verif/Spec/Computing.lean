import Verif.Spec.Sharing
import Verif.Model.Galois
import Verif.Model.Shamir

/-! # Specification: computing on shares

What a client can do with shares, using the exported functions of package galois on their payloads. -/

namespace Verif.Spec
open Verif Outcome

/-- The product of two shares with the same tag: `galois.GalMultiply` on the payloads byte by byte, the tag is kept. -/
def mulShares (a b : List Byte) : List Byte := List.zipWith Galois.galMultiply a.dropLast b.dropLast ++ [tag a]

/-- The share with the given tag, if there is one. -/
def shareAt (shares : List (List Byte)) (x : Byte) : Option (List Byte) := shares.find? fun a => tag a == x

/-- Refreshing: to every share the share with the same tag of another sharing is added; shares without a counterpart are dropped. -/
def refresh (old new : List (List Byte)) : List (List Byte) :=
  old.filterMap fun a => (shareAt new (tag a)).map (addShares a)

/-- The shares held after refreshing `e` times: Split of the secret, then each time the shares of a Split of zeros are added.  The calls may
use any numbers of parts, permutations for the tags, random bytes and pools. -/
def Held (arch : Galois.Arch) (s : List Byte) (threshold : Int) (parts : Nat → Int) (perm : Nat → List Nat) (rnd : Nat → Nat → Byte)
    (ps : Nat → Shamir.Pools) : Nat → List (List Byte) → Prop
  | 0, sh => ∃ qs, Shamir.split arch s (parts 0) threshold (perm 0) (rnd 0) (ps 0) = ok (sh, qs)
  | e + 1, sh => ∃ old new qs, Held arch s threshold parts perm rnd ps e old ∧
      Shamir.split arch (List.replicate s.length 0) (parts (e + 1)) threshold (perm (e + 1)) (rnd (e + 1)) (ps (e + 1)) = ok (new, qs) ∧
      sh = refresh old new

end Verif.Spec
