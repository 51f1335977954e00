import Verif.Model.SplitP
import Verif.Spec.Heap

/-! # Specification: SplitP among concurrent calls -/

namespace Verif.Spec
open Verif Outcome Galois Shamir Verif.Heap

/-- Coefficients of the polynomial for byte `p` of the secret: the byte itself and the bytes number
`(p mod 1024)(t-1), ...` drawn by the goroutine of chunk `p / 1024`. -/
def splitPCoeffs (secret : List Byte) (t : Nat) (draws : Nat → List Byte) (p : Nat) : List Byte :=
  secret.getD p 0 :: (List.range (t - 1)).map fun k => (draws (p / 1024)).getD (p % 1024 * (t - 1) + k) 0

/-- The share with tag `x` that `SplitP` computes when the goroutine of chunk `j` draws `draws j`: values of the
polynomials for the first `len(secret) mod 2^32` bytes, zeros for the others, and the tag. -/
noncomputable def splitPShare (secret : List Byte) (t : Nat) (draws : Nat → List Byte) (x : Byte) : List Byte :=
  (List.range secret.length).map (fun p =>
    if p < secret.length % 2 ^ 32 then evalC (splitPCoeffs secret t draws p) x else 0) ++ [x]

/-- The secret with the bytes from `len(secret) mod 2^32` on replaced by 0: the secret itself if it is shorter than
2^32 bytes. -/
def truncated (secret : List Byte) : List Byte :=
  secret.take (secret.length % 2 ^ 32) ++ List.replicate (secret.length - secret.length % 2 ^ 32) 0

/-- What the goroutines of a call have drawn from the random source. -/
def workerDraws (p : Proc) (j : Nat) : List Byte := ((p.workers[j]?).map (·.drawn)).getD []

/-- Every `SplitP` gets a permutation; for the other calls see `Admissible`. -/
def JobAdmissible : Job → Prop
  | .seq c => Admissible c
  | .splitP _ _ _ perm => perm.Perm (List.range 255)

/-- A state in which calls can be made (see `Start`); a slice's capacity is at least its length. -/
structure WStart {ι : Type} (σ : Shared) (jobs : ι → Job) : Prop where
  poolNodup : (σ.pool .bPool ++ σ.pool .polyPool).Nodup
  poolLt : ∀ p, ∀ a ∈ σ.pool p, a < σ.next
  inputs : ∀ i, ∀ s ∈ (jobs i).inputs, InBounds σ.heap s ∧ s.len ≤ s.cap ∧ s.arr < σ.next ∧ ∀ p, s.arr ∉ σ.pool p

/-- All calls about to start. -/
def winitial {ι : Type} (arch : Arch) (σ : Shared) (jobs : ι → Job) : World ι :=
  ⟨σ, fun i => ⟨.sequential, ⟨(jobs i).prog arch, []⟩, []⟩⟩

/-- `t` is one of the goroutines of the program: the calling goroutine of call `i` (while it is in the sequential part)
or one it has started. -/
def RunsIn {ι : Type} (s : World ι) (i : ι) (w : Option Nat) (t : Goroutine) : Prop :=
  match w with
  | none => (s.proc i).main = t
  | some j => (s.proc i).workers[j]? = some t

end Verif.Spec
