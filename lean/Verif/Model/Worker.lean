import Verif.Model.Krawczyk
import Verif.Model.CtrMode

/-! # Model of worker/worker.go -/

namespace Verif.Worker
open Verif Outcome Csprng

/-- worker.go:13-15 `Worker` -/
structure Worker where
  r : CSPRNG

/-- worker.go:13-15 `Worker` as an object in memory: a pointer to the CSPRNG. -/
structure WorkerHandle where
  r : Handle

/-- worker.go:17-21 `NewWorker`: `a` is the new array that holds key and IV, `rnd` the bytes of `rand.Read`; the memory
afterwards and the worker. -/
def newWorker (h : Heap.Arr → List Byte) (a : Heap.Arr) (rnd : Nat → Byte) :
    Outcome ((Heap.Arr → List Byte) × WorkerHandle) := do
  let (h, r) ← newCSPRNG h a rnd
  pure (h, ⟨r⟩)

/-- The worker as its methods see it while the memory is `h`. -/
def WorkerHandle.worker (aes : List Byte → List Byte → List Byte) (h : Heap.Arr → List Byte) (w : WorkerHandle) : Worker :=
  ⟨w.r.source aes h⟩

/-- worker.go:23-31 `Split` -/
def Worker.split (env : Krawczyk.Env) (fuel : Nat) (w : Worker) (algorithm : String) (input : List Byte)
    (n k : Int) (ps : Shamir.Pools) : Outcome (List (List Byte) × Shamir.Pools) :=
  if algorithm ≠ "shamir" ∧ algorithm ≠ "krawczyk" then err .invalidAlgorithm
  else if algorithm = "shamir" then Shamir.splitWithRandomizer env.arch fuel input n k w.r ps
  else Krawczyk.splitWithRandomizer env fuel input n k w.r ps

/-- worker.go:33-41 `Combine`.  A nil entry is an empty slice for `shamir.Combine`. -/
def Worker.combine (env : Krawczyk.Env) (_w : Worker) (algorithm : String) (secretSharedData : List (Option (List Byte)))
    (n k : Int) : Outcome (List Byte) :=
  if algorithm ≠ "shamir" ∧ algorithm ≠ "krawczyk" then err .invalidAlgorithm
  else if algorithm = "shamir" then Shamir.combine (secretSharedData.map (·.getD []))
  else Krawczyk.combine env secretSharedData n k

end Verif.Worker
