import Verif.Model.Heap

/-! # Specification: the random bytes a call draws from the process-wide source -/

namespace Verif.Spec
open Verif Outcome Galois Shamir Verif.Heap

/-- `Redraws taken candidates extra`: going through the candidates, one that is already taken is replaced by the next
byte of `extra` (again and again), the others count as taken from then on; `extra` is used up. -/
inductive Redraws : List Byte → List Byte → List Byte → Prop where
  | done (taken : List Byte) : Redraws taken [] []
  | keep {taken : List Byte} {x : Byte} {rest extra : List Byte} (h : x ∉ taken) (r : Redraws (x :: taken) rest extra) :
      Redraws taken (x :: rest) extra
  | again {taken : List Byte} {x y : Byte} {rest extra : List Byte} (h : x ∈ taken) (r : Redraws taken (y :: rest) extra) :
      Redraws taken (x :: rest) (y :: extra)

/-- The call `c` with arguments showing `ins`, which ended with `o`, has drawn the bytes `drawn`. -/
def Consumes {β : Type} (c : Call) (ins : List (List Byte)) (o : Outcome β) (drawn : List Byte) : Prop :=
  match c with
  | .split secret _ threshold _ =>
      drawn.length = match o with
        | ok _ => threshold.toNat * secret.len          -- a coefficient that the secret byte replaces is drawn, too
        | _ => 0
  | .splitGeneric secret _ threshold _ =>
      drawn.length = match o with
        | ok _ => (threshold.toNat - 1) * secret.len
        | _ => 0
  | .krawczykSplit _ secret parts threshold _ =>
      drawn.length = match o with
        | ok _ => 16 + threshold.toNat * 20             -- the key, and the coefficients for key and length
        | _ => if secret.len > 4294967295 ∨ threshold = 0 ∨ parts = 0 ∨ threshold > parts ∨ threshold > 255 ∨ parts > 255
            then 0 else 16                              -- the key is drawn before the other checks
  | .regenerate _ _ n =>
      match o with
      | ok _ => ∃ newXs extra, drawn = newXs ++ extra ∧ newXs.length = n.toNat ∧
          Redraws (ins.map fun share => share.getLastD 0) newXs extra
      | spin => n.toNat ≤ drawn.length                  -- the bound of the model on redraws was hit
      | _ => drawn = []
  | _ => drawn = []

end Verif.Spec
