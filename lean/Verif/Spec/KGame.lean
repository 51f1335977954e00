import Verif.Spec.Game
import Verif.Model.Krawczyk

/-! # Specification: an adversary who watches many calls, some of them of krawczyk.Split

The game of `Spec/Game.lean` with one more kind of call.  The encryption key that a call of krawczyk.Split draws is given
separately from the other random bytes. -/

namespace Verif.Spec
open Verif Outcome Galois Shamir

/-- The arguments of a call of krawczyk.Split other than the secret; `perm` is what `rand.Perm(255)` returns in the call. -/
structure KAsk where
  parts : Int
  threshold : Int
  perm : List Nat

/-- What happens next: a move of the game in `Spec/Game.lean`, or the next secret is split with krawczyk.Split. -/
inductive KMove where
  | plain (m : Move)
  | krawczyk (c : KAsk)

/-- The number of random bytes the call reads for the shares of its 20 bytes of metadata. -/
def KAsk.reads (c : KAsk) : Nat := c.threshold.toNat * 20

/-- `KHappens env next secret key past rnd ps made seen`: after the sights `past`, when the random source will deliver `rnd`,
the pools are `ps` and the sharings `made` exist, the following sights are `seen`.  `key past` are the random bytes from which
a call of krawczyk.Split after `past` takes its key. -/
def KHappens (env : Krawczyk.Env) (next : List Sight → KMove) (secret : List Sight → List Byte)
    (key : List Sight → Nat → Byte) (past : List Sight) (rnd : Nat → Byte) (ps : Pools) (made : List (List (List Byte))) :
    List Sight → Prop
  | [] => True
  | s :: seen =>
    match next past, s with
    | .krawczyk c, .made => ∃ shares ps',
        Krawczyk.split env (secret past) c.parts c.threshold (key past) c.perm rnd ps = ok (shares, ps') ∧
        KHappens env next secret key (past ++ [s]) (fun j => rnd (c.reads + j)) ps' (made ++ [shares]) seen
    | .krawczyk c, .refused e =>
        Krawczyk.split env (secret past) c.parts c.threshold (key past) c.perm rnd ps = err e ∧
        KHappens env next secret key (past ++ [s]) rnd ps made seen
    | .plain (.split a), .made => ∃ shares ps', a.run env.arch (secret past) rnd ps = ok (shares, ps') ∧
        KHappens env next secret key (past ++ [s]) (fun j => rnd (a.reads (secret past) + j)) ps' (made ++ [shares]) seen
    | .plain (.split a), .refused e => a.run env.arch (secret past) rnd ps = err e ∧
        KHappens env next secret key (past ++ [s]) rnd ps made seen
    | .plain (.look r i), .share w => (made.getD r [])[i]? = some w ∧
        KHappens env next secret key (past ++ [s]) rnd ps made seen
    | .plain (.look r i), .nothing => (made.getD r [])[i]? = none ∧
        KHappens env next secret key (past ++ [s]) rnd ps made seen
    | .plain (.renew r g), .added => (∀ i ∈ g.positions, i < (made.getD r []).length) ∧
        ∃ new, g.run (made.getD r []) = ok new ∧
        KHappens env next secret key (past ++ [s]) rnd ps (made.set r (made.getD r [] ++ new)) seen
    | .plain (.renew r g), .refused e => (∀ i ∈ g.positions, i < (made.getD r []).length) ∧
        g.run (made.getD r []) = err e ∧ KHappens env next secret key (past ++ [s]) rnd ps made seen
    | .plain (.renew r g), .nothing => (¬ ∀ i ∈ g.positions, i < (made.getD r []).length) ∧
        KHappens env next secret key (past ++ [s]) rnd ps made seen
    | .plain (.renew r g), .stopped => (∀ i ∈ g.positions, i < (made.getD r []).length) ∧
        (∀ new, g.run (made.getD r []) ≠ ok new) ∧ (∀ e, g.run (made.getD r []) ≠ err e) ∧ seen = []
    | _, _ => False

/-- The number of random bytes that have been read (other than those for keys and by Regenerate) when `seen` has been seen. -/
def kBytesRead (next : List Sight → KMove) (secret : List Sight → List Byte) (past : List Sight) : List Sight → Nat
  | [] => 0
  | s :: seen =>
    (match next past, s with
      | .plain (.split a), .made => a.reads (secret past)
      | .krawczyk c, .made => c.reads
      | _, _ => 0) + kBytesRead next secret (past ++ [s]) seen

/-- The shares of the `r`-th sharing that have been looked at when `seen` has been seen. -/
def kKnown (next : List Sight → KMove) (seen : List Sight) (r : Nat) : Set (List Byte) :=
  {w | ∃ past i, past ++ [.share w] <+: seen ∧ next past = .plain (.look r i)}

/-- Of each secret that is not the same in both cases fewer than `threshold` shares are known; and none with tag 0, when the
secret was split with Split or SplitGeneric.  When it was split with krawczyk.Split, `secret` and `key` count as one secret. -/
structure KLegal (next : List Sight → KMove) (secret secret' : List Sight → List Byte) (key key' : List Sight → Nat → Byte)
    (seen : List Sight) : Prop where
  plain : ∀ past a, past ++ [.made] <+: seen → next past = .plain (.split a) →
    secret past = secret' past ∨
      ((kKnown next seen (sharings past)).ncard : Int) < a.threshold ∧ ∀ w ∈ kKnown next seen (sharings past), tag w ≠ 0
  krawczyk : ∀ past c, past ++ [.made] <+: seen → next past = .krawczyk c →
    (secret past = secret' past ∧ key past = key' past) ∨ ((kKnown next seen (sharings past)).ncard : Int) < c.threshold

/-- Regenerate was always given at least `threshold` shares of Split or SplitGeneric, and never shares of krawczyk.Split. -/
structure KProper (next : List Sight → KMove) (seen : List Sight) : Prop where
  enough : ∀ first a past g, first ++ [.made] <+: past → next first = .plain (.split a) → past ++ [.added] <+: seen →
    next past = .plain (.renew (sharings first) g) → a.threshold ≤ g.positions.length
  not_krawczyk : ∀ first c past s g, first ++ [.made] <+: past → next first = .krawczyk c → past ++ [s] <+: seen →
    next past ≠ .plain (.renew (sharings first) g)

end Verif.Spec
