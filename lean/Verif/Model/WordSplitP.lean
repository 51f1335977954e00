import Verif.Model.SplitP
import Verif.Model.Word

/-! # SplitP with integers of `w` bits (see Model/Word.lean)

The loops of SplitP count in `uint32` on every platform (Model/SplitP.lean); `int`s are used for the sizes of the shares and the degree. -/

namespace Verif.Word
open Verif Outcome Shamir Heap

/-- `make([]byte, n)`: panics for negative `n`. -/
def allocInt {α : Type} (n : Int) (k : Arr → Prog α) : Prog α := if n < 0 then .panic else .alloc n.toNat k

/-- shamir.go:290-318: see `Heap.splitPSetup`. -/
def splitPSetup (w : Nat) (secret : Slice) (parts threshold : Int) (perm : List Nat) : Prog (Outcome (List Slice)) :=
  checkP secret.len parts threshold <| do
  let outs ← Prog.forUp parts.toNat (fun i outs => allocInt (wrap w (secret.len + 1)) fun a => do
    let xc ← Prog.lift (idx perm i)
    let size := (wrap w (secret.len + 1)).toNat
    .write a secret.len (BitVec.ofNat 8 xc + 1#8) (.ret (outs ++ [(⟨a, 0, size, size⟩ : Slice)]))) []
  .ret (ok outs)

/-- A program about to call `SplitP(secret, parts, threshold)`; the goroutines it starts are those of Model/SplitP.lean. -/
def splitPInitial (w : Nat) (σ : Shared) (secret : Slice) (parts threshold : Int) (perm : List Nat) : World Unit :=
  ⟨σ, fun _ => ⟨.sequential, ⟨splitPSetup w secret parts threshold perm, []⟩, []⟩⟩

end Verif.Word
