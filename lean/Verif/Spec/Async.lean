import Verif.Spec.History

/-! # Specification: a program with many goroutines

The program makes calls at any time, also while other calls are running, from any number of goroutines; it allocates memory,
and it stores into memory it knows (what it allocated, what existed before, what calls returned) at any time, except into
the bytes of an argument of a call that has not returned yet (that would be a data race).  Every action is one step, and the
steps of all calls and their goroutines interleave in any way. -/

namespace Verif.Spec
open Verif Outcome Galois Shamir Verif.Heap

/-- A call the program has made. -/
structure CallState where
  job : Job
  /-- the bytes of the arguments when the call was made -/
  ins : List (List Byte)
  /-- how far it is -/
  proc : Proc
  /-- when it has returned: the bytes of the slices returned at that moment, or the error -/
  returned : Option (Outcome (List (List Byte)))

/-- The program. -/
structure Program where
  shared : Shared
  /-- arrays the program knows -/
  known : Set Arr
  /-- the calls it has made, oldest first -/
  calls : List CallState

/-- What can happen. -/
inductive Event where
  | alloc (bytes : List Byte)
  | store (a : Arr) (k : Nat) (v : Byte)
  | call (job : Job)
  | step (i : Nat)
  | ret (i : Nat)

/-- One step of the program. -/
inductive PStep (arch : Arch) : Program → Event → Program → Prop where
  /-- the program allocates an array with the given contents -/
  | alloc (s : Program) (bytes : List Byte) :
      PStep arch s (.alloc bytes) ⟨Shared.push s.shared bytes, insert s.shared.next s.known, s.calls⟩
  /-- the program stores a byte -/
  | store (s : Program) (a : Arr) (k : Nat) (v : Byte) (hk : a ∈ s.known) (hl : k < (s.shared.heap a).length)
      (hfree : ∀ c ∈ s.calls, c.returned = none → ∀ sl ∈ c.job.inputs, sl.arr = a → k < sl.off ∨ sl.off + sl.len ≤ k) :
      PStep arch s (.store a k v)
        ⟨{ s.shared with heap := Function.update s.shared.heap a ((s.shared.heap a).set k v) }, s.known, s.calls⟩
  /-- the program makes a call -/
  | call (s : Program) (job : Job) (hadm : JobAdmissible job)
      (hin : ∀ sl ∈ job.inputs, sl.arr ∈ s.known ∧ InBounds s.shared.heap sl ∧ sl.len ≤ sl.cap) :
      PStep arch s (.call job) ⟨s.shared, s.known,
        s.calls ++ [⟨job, job.inputs.map (contents s.shared.heap), ⟨.sequential, ⟨job.prog arch, []⟩, []⟩, none⟩]⟩
  /-- a goroutine of call `i` makes a step -/
  | step (s : Program) (i : Nat) (c : CallState) (σ' : Shared) (p' : Proc) (hc : s.calls[i]? = some c)
      (hn : c.returned = none) (h : ProcStep c.job s.shared c.proc σ' p') :
      PStep arch s (.step i) ⟨σ', s.known, s.calls.set i { c with proc := p' }⟩
  /-- the program gets the result of call `i` -/
  | ret (s : Program) (i : Nat) (c : CallState) (r : Outcome (List Slice)) (hc : s.calls[i]? = some c)
      (hn : c.returned = none) (hd : c.proc.phase = .done r) :
      PStep arch s (.ret i) ⟨s.shared, s.known ∪ {a | ∃ outs, r = ok outs ∧ ∃ sl ∈ outs, a = sl.arr},
        s.calls.set i { c with returned := some ((fun outs => outs.map (contents s.shared.heap)) <$> r) }⟩

/-- The program can get from one state to the other. -/
def Runs (arch : Arch) : Program → Program → Prop := Relation.ReflTransGen fun s s' => ∃ e, PStep arch s e s'

/-- The program when it starts: it knows what is allocated and not in a pool. -/
def Program.start (σ : Shared) : Program := ⟨σ, {a | a < σ.next ∧ ∀ p, a ∉ σ.pool p}, []⟩

/-- Only the calls run on and return; the program makes no new calls and does not touch memory. -/
def Finishes (arch : Arch) : Program → Program → Prop :=
  Relation.ReflTransGen fun s s' => ∃ i, PStep arch s (.step i) s' ∨ PStep arch s (.ret i) s'

/-- `t` is a goroutine of call `i`, which has not returned: the one that made the call (`w = none`) or one started by it. -/
def Program.Goes (s : Program) (i : Nat) (w : Option Nat) (t : Goroutine) : Prop :=
  ∃ c, s.calls[i]? = some c ∧ c.returned = none ∧
    match w with
    | none => c.proc.main = t
    | some j => c.proc.workers[j]? = some t

/-- The number of calls that have been made and have not returned. -/
def Program.openCalls (s : Program) : Nat := s.calls.countP fun c => c.returned.isNone

/-- The program can get from one state to the other without ever having more than `k` calls under way at one time. -/
def RunsWith (arch : Arch) (k : Nat) : Program → Program → Prop :=
  Relation.ReflTransGen fun s s' => (∃ e, PStep arch s e s') ∧ s'.openCalls ≤ k

end Verif.Spec
