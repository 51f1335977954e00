import Verif.Spec.SplitP

/-! # Specification: a program that makes many calls, one after the other and concurrently

Between the calls the program allocates memory and fills it (new secrets); it passes to the functions any slices of the
memory it knows: memory it allocated, results of earlier calls. -/

namespace Verif.Spec
open Verif Outcome Galois Shamir Verif.Heap

/-- A call that has returned. -/
structure Past where
  job : Job
  /-- the bytes of the arguments when the call was made -/
  ins : List (List Byte)
  /-- what it returned -/
  result : Outcome (List Slice)
  /-- the bytes it drew from the random source -/
  drawn : List Byte
  /-- the bytes the goroutines it started drew -/
  draws : Nat → List Byte

/-- `o` is a correct result (error, or the bytes of the returned slices) of the call. -/
def JobCorrect (arch : Arch) (job : Job) (ins : List (List Byte)) (drawn : List Byte) (draws : Nat → List Byte)
    (o : Outcome (List (List Byte))) : Prop :=
  match job with
  | .seq c => Correct arch c ins drawn o
  | .splitP _ parts threshold perm =>
    match argError (ins.headD []) parts threshold with
    | some e => o = err e
    | none => o = ok ((perm.take parts.toNat).map fun v =>
          splitPShare (ins.headD []) threshold.toNat draws (BitVec.ofNat 8 v + 1#8)) ∧
        -- the goroutine of chunk `j` has drawn all bytes the shares depend on
        ∀ j, 1024 * j < (ins.headD []).length % 2 ^ 32 → (draws j).length
          = (min (1024 * (j + 1)) ((ins.headD []).length % 2 ^ 32) - 1024 * j) * (threshold.toNat - 1)

/-- Memory after the program has allocated an array and stored `bytes` in it. -/
def Shared.push (σ : Shared) (bytes : List Byte) : Shared :=
  { σ with heap := Function.update σ.heap σ.next bytes, next := σ.next + 1 }

/-- `History arch σ₀ σ known past`: starting in `σ₀`, the program can reach memory `σ`, knowing the arrays `known`, after
the calls `past`.  A batch of calls runs concurrently, under any schedule, until all of them have returned. -/
inductive History (arch : Arch) (σ₀ : Shared) : Shared → Set Arr → List Past → Prop where
  | start : History arch σ₀ σ₀ {a | a < σ₀.next ∧ ∀ p, a ∉ σ₀.pool p} []
  | alloc {σ known past} (bytes : List Byte) : History arch σ₀ σ known past →
      History arch σ₀ (Shared.push σ bytes) (insert σ.next known) past
  | batch {σ known past} {n : Nat} (jobs : Fin (n + 1) → Job) (s : World (Fin (n + 1))) (result : Fin (n + 1) → Outcome (List Slice)) :
      History arch σ₀ σ known past →
      (∀ i, JobAdmissible (jobs i)) →
      (∀ i, ∀ sl ∈ (jobs i).inputs, sl.arr ∈ known ∧ InBounds σ.heap sl ∧ sl.len ≤ sl.cap) →
      WReach jobs (winitial arch σ jobs) s →
      (∀ i, (s.proc i).phase = .done (result i)) →
      History arch σ₀ s.shared (known ∪ {a | ∃ i outs, result i = ok outs ∧ ∃ sl ∈ outs, a = sl.arr})
        (past ++ List.ofFn fun i => ⟨jobs i, (jobs i).inputs.map (contents σ.heap), result i, (s.proc i).main.drawn,
          workerDraws (s.proc i)⟩)

/-- The calls of package shamir that split a secret: the secret and the threshold. -/
def splits : Job → Option (Slice × Int)
  | .seq (.split secret _ threshold _) => some (secret, threshold)
  | .seq (.splitGeneric secret _ threshold _) => some (secret, threshold)
  | .seq (.splitWithRandomizer _ secret _ threshold _) => some (secret, threshold)
  | .seq (.splitWithRandomizerOld secret _ threshold _) => some (secret, threshold)
  | .splitP secret _ threshold _ => some (secret, threshold)
  | _ => none

/-- The calls of package krawczyk that split a secret: the secret, the number of parts and the threshold. -/
def krawczykSplits : Job → Option (Krawczyk.Env × Slice × Int × Int)
  | .seq (.krawczykSplit env secret parts threshold _) => some (env, secret, parts, threshold)
  | .seq (.krawczykSplitWithRandomizer env _ secret parts threshold _) => some (env, secret, parts, threshold)
  | _ => none

end Verif.Spec
