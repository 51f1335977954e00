import Verif.Spec.Sharing

/-! # Specification: ideal randomness

A call that reads `m` random bytes is run on each of the 256^m fillings `ρ : Fin m → Byte`; an event is
equally likely for two inputs iff the same number of fillings leads to it. -/

namespace Verif.Spec
open Verif

/-- The random source that delivers the bytes of `ρ` (and zeros when more are requested). -/
def stream {m : Nat} (ρ : Fin m → Byte) (j : Nat) : Byte := if h : j < m then ρ ⟨j, h⟩ else 0

/-- The number of fillings for which the event happens. -/
noncomputable def count {m : Nat} (event : (Fin m → Byte) → Prop) : Nat := Nat.card {ρ // event ρ}

end Verif.Spec
