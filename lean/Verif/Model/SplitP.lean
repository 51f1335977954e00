import Verif.Model.Heap

/-! # Model of SplitP (shamir/shamir.go:290-364)

`SplitP` starts one goroutine per 1024 bytes of the secret.  The model runs any number of calls side by side: a call
of `SplitP` is a process made of the calling goroutine and the goroutines it has started so far; a call of one of the
other functions is a process with the calling goroutine only.  Every goroutine accesses the shared memory of
`Verif.Model.Heap` one byte at a time, and the steps of all goroutines of all processes interleave arbitrarily.

Simplification: `xCoordinates`, the slice headers `out[i]` and the coefficients of a polynomial (memory private to one
goroutine, or never changed once the goroutines are started) are values, not heap cells. -/

namespace Verif.Heap
open Verif Outcome Galois Pool Csprng Shamir

/-- What happens in a goroutine started at shamir.go:335 (and, for the other calls, in the calling goroutine). -/
abbrev Goroutine := Thread (Outcome (List Slice))

/-- shamir.go:290-318: argument checks, `parts` separately allocated outputs with the x coordinate in the last byte. -/
def splitPSetup (secret : Slice) (parts threshold : Int) (perm : List Nat) : Prog (Outcome (List Slice)) :=
  checkP secret.len parts threshold <| do
  let outs ← Prog.forUp parts.toNat (fun i outs => .alloc (secret.len + 1) fun a => do
    let xc ← Prog.lift (idx perm i)
    .write a secret.len (BitVec.ofNat 8 xc + 1#8) (.ret (outs ++ [(⟨a, 0, secret.len + 1, secret.len + 1⟩ : Slice)]))) []
  .ret (ok outs)

/-- polynomial.go:198-213 `makePolynomial`, drawing the random bytes one at a time. -/
def makePolynomialP (intercept degree : Byte) : Prog (List Byte) := do
  let rs ← Prog.forUp degree.toNat (fun _ l => .rand fun v => .ret (l ++ [v])) []
  Prog.lift (makePolynomial intercept degree (fun k => rs.getD k 0) 0)

/-- shamir.go:335-356, the goroutine for `values = secret[startIdx:endIdx]` (`crtIdx` is a `uint32`). -/
def workerP (secret : Slice) (parts threshold : Int) (perm : List Nat) (outs : List Slice) (startIdx endIdx : BitVec 32) :
    Prog (Outcome (List Slice)) := do
  let _ ← Prog.forUp (endIdx.toNat - startIdx.toNat) (fun k (crtIdx : BitVec 32) =>
    .read secret.arr (secret.off + startIdx.toNat + k) fun val => do
      let p ← makePolynomialP val (BitVec.ofInt 8 (threshold - 1))          -- uint8(threshold-1)
      Prog.forUp parts.toNat (fun i _ => do
        let xc ← Prog.lift (idx perm i)
        let y ← Prog.lift (evaluate p (BitVec.ofNat 8 xc + 1#8))
        let o ← Prog.lift (idx outs i)
        if crtIdx.toNat < o.len then .write o.arr (o.off + crtIdx.toNat) y (.ret ()) else .panic) ()
      .ret (crtIdx + 1)) startIdx
  .ret (ok [])     -- the goroutine is finished; it returns nothing

/-- A call made by a goroutine of the program. -/
inductive Job where
  /-- a call without goroutines of its own -/
  | seq (c : Call)
  /-- `SplitP(secret, parts, threshold)`; `perm` is the result of `rand.Perm(255)` -/
  | splitP (secret : Slice) (parts threshold : Int) (perm : List Nat)

/-- The sequential part of a call. -/
def Job.prog (arch : Arch) : Job → Prog (Outcome (List Slice))
  | .seq c => c.prog arch
  | .splitP secret parts threshold perm => splitPSetup secret parts threshold perm

/-- The slices a call gets as arguments. -/
def Job.inputs : Job → List Slice
  | .seq c => c.inputs
  | .splitP secret _ _ _ => [secret]

/-- Where the calling goroutine is. -/
inductive Phase where
  /-- in the sequential part (`SplitP`: before shamir.go:324) -/
  | sequential
  /-- shamir.go:327 at the head of the loop that starts the goroutines -/
  | loop (outs : List Slice) (idx : BitVec 32)
  /-- shamir.go:360 `wg.Wait()` -/
  | waiting (outs : List Slice)
  /-- the call has returned -/
  | done (r : Outcome (List Slice))
  /-- run-time panic: slice bounds out of range at shamir.go:356 -/
  | panicked

/-- A call in progress. -/
structure Proc where
  phase : Phase
  main : Goroutine
  workers : List Goroutine

/-- shamir.go:325 `uint32(len(secret))` -/
def secretLen (secret : Slice) : BitVec 32 := BitVec.ofNat 32 secret.len

/-- shamir.go:329-332 `endIdx := idx + 1024; if endIdx > secretLen { endIdx = secretLen }` -/
def chunkEnd (secretLen idx : BitVec 32) : BitVec 32 :=
  if idx + 1024 > secretLen then secretLen else idx + 1024

/-- One step of a call. -/
inductive ProcStep : Job → Shared → Proc → Shared → Proc → Prop where
  /-- the sequential part -/
  | main (job : Job) (σ σ' : Shared) (p : Proc) (prog' : Prog (Outcome (List Slice))) (bs : List Byte)
      (hp : p.phase = .sequential) (h : Step σ p.main.prog σ' prog' bs) :
      ProcStep job σ p σ' { p with main := ⟨prog', p.main.drawn ++ bs⟩ }
  /-- a sequential call returns -/
  | finish (c : Call) (σ : Shared) (p : Proc) (r : Outcome (List Slice)) (hp : p.phase = .sequential)
      (h : p.main.prog = .ret r) : ProcStep (.seq c) σ p σ { p with phase := .done r }
  /-- shamir.go:292-306: `SplitP` returns an error -/
  | reject (secret : Slice) (parts threshold : Int) (perm : List Nat) (σ : Shared) (p : Proc) (e : Err)
      (hp : p.phase = .sequential) (h : p.main.prog = .ret (err e)) :
      ProcStep (.splitP secret parts threshold perm) σ p σ { p with phase := .done (err e) }
  /-- shamir.go:324-326: `idx := uint32(0)` -/
  | enter (secret : Slice) (parts threshold : Int) (perm : List Nat) (σ : Shared) (p : Proc) (outs : List Slice)
      (hp : p.phase = .sequential) (h : p.main.prog = .ret (ok outs)) :
      ProcStep (.splitP secret parts threshold perm) σ p σ { p with phase := .loop outs 0 }
  /-- shamir.go:327-358: start the goroutine for the next chunk -/
  | spawn (secret : Slice) (parts threshold : Int) (perm : List Nat) (σ : Shared) (p : Proc) (outs : List Slice)
      (idx : BitVec 32) (hp : p.phase = .loop outs idx) (hlt : idx < secretLen secret)
      (hb : idx ≤ chunkEnd (secretLen secret) idx ∧ (chunkEnd (secretLen secret) idx).toNat ≤ secret.cap) :
      ProcStep (.splitP secret parts threshold perm) σ p σ
        { p with phase := .loop outs (chunkEnd (secretLen secret) idx),
                 workers := p.workers ++
                   [⟨workerP secret parts threshold perm outs idx (chunkEnd (secretLen secret) idx), []⟩] }
  /-- shamir.go:356 `secret[idx:endIdx]` with bounds out of range -/
  | spawnPanic (secret : Slice) (parts threshold : Int) (perm : List Nat) (σ : Shared) (p : Proc) (outs : List Slice)
      (idx : BitVec 32) (hp : p.phase = .loop outs idx) (hlt : idx < secretLen secret)
      (hb : ¬ (idx ≤ chunkEnd (secretLen secret) idx ∧ (chunkEnd (secretLen secret) idx).toNat ≤ secret.cap)) :
      ProcStep (.splitP secret parts threshold perm) σ p σ { p with phase := .panicked }
  /-- shamir.go:327: the loop ends -/
  | exit (secret : Slice) (parts threshold : Int) (perm : List Nat) (σ : Shared) (p : Proc) (outs : List Slice)
      (idx : BitVec 32) (hp : p.phase = .loop outs idx) (hge : ¬ idx < secretLen secret) :
      ProcStep (.splitP secret parts threshold perm) σ p σ { p with phase := .waiting outs }
  /-- shamir.go:360-363: `wg.Wait()` returns when every goroutine has called `wg.Done()` -/
  | join (secret : Slice) (parts threshold : Int) (perm : List Nat) (σ : Shared) (p : Proc) (outs : List Slice)
      (hp : p.phase = .waiting outs) (hall : ∀ w ∈ p.workers, ∃ r, w.prog = .ret r) :
      ProcStep (.splitP secret parts threshold perm) σ p σ { p with phase := .done (ok outs) }
  /-- a step of the `j`-th goroutine that was started -/
  | worker (job : Job) (σ σ' : Shared) (p : Proc) (j : Nat) (w : Goroutine) (prog' : Prog (Outcome (List Slice)))
      (bs : List Byte) (hw : p.workers[j]? = some w) (h : Step σ w.prog σ' prog' bs) :
      ProcStep job σ p σ' { p with workers := p.workers.set j ⟨prog', w.drawn ++ bs⟩ }

/-- All calls in progress. -/
structure World (ι : Type) where
  shared : Shared
  proc : ι → Proc

/-- One step of the program: some goroutine of some call takes a step (any interleaving). (A Go program ends when a
goroutine panics; here the others may go on.) -/
inductive WorldStep {ι : Type} [DecidableEq ι] (jobs : ι → Job) : World ι → World ι → Prop where
  | mk (s : World ι) (i : ι) (σ' : Shared) (p' : Proc) (h : ProcStep (jobs i) s.shared (s.proc i) σ' p') :
      WorldStep jobs s ⟨σ', Function.update s.proc i p'⟩

/-- Reachability under every schedule. -/
def WReach {ι : Type} [DecidableEq ι] (jobs : ι → Job) : World ι → World ι → Prop :=
  Relation.ReflTransGen (WorldStep jobs)

end Verif.Heap
