import Verif.Basic

/-! # Corrupted shares -/

namespace Verif.Spec
open Verif Outcome

/-- In how many places two lists differ (of the places both have). -/
def differences {α : Type} [DecidableEq α] (l l' : List α) : Nat := ((l.zip l').filter fun p => p.1 ≠ p.2).length

/-- Every choice of `t` of the shares is combined to `v`, without an error. -/
def AllCombineTo (combine : List (List Byte) → Outcome (List Byte)) (t : Int) (shares : List (List Byte)) (v : List Byte) : Prop :=
  ∀ choice, choice.Sublist shares → (choice.length : Int) = t → combine choice = ok v

/-- What a user who knows that at most `e` of the shares received are corrupted can do: look for threshold + `e` of them, of which all
choices of threshold combine to the same value.  This is possible, and the value is the secret. -/
def Correctable (combine : List (List Byte) → Outcome (List Byte)) (t : Int) (e : Nat) (received : List (List Byte))
    (secret : List Byte) : Prop :=
  (∃ sub, sub.Sublist received ∧ (sub.length : Int) = t + e ∧ AllCombineTo combine t sub secret) ∧
  ∀ sub v, sub.Sublist received → (sub.length : Int) = t + e → AllCombineTo combine t sub v → v = secret

end Verif.Spec
