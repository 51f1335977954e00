import Verif.Model.Leak

/-! # How much work a call does (C88)

The steps of a call are the branches it takes, the loops it begins, the accesses to slices, tables and maps, one step each, and the bytes
that `copy` and the assembly routines handle, one step each.  A loop makes at least one step in every iteration of the functions of this
package, and the statements between two steps are of constant size. -/

namespace Verif.Leak

/-- The steps of one observation. -/
def Ev.steps : Ev → Nat
  | .copy n => 1 + n
  | .routine _ _ n _ => 1 + n
  | _ => 1

/-- The steps of a call, however it ends. -/
def Traced.work {α : Type} (x : Traced α) : Nat := (x.trace.map Ev.steps).sum

end Verif.Leak
