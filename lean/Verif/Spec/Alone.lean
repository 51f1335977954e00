import Verif.Spec.Async

/-! # Specification: a program that makes one call at a time

The functions of the sequential model get the contents of the two buffer pools and return them; here these are the pools of
the shared memory. -/

namespace Verif.Spec
open Verif Outcome Galois Shamir Pool Verif.Heap

/-- A pool with the contents of its buffers. -/
def bufs (σ : Shared) (p : PoolId) : BytesBufferPool := ⟨(σ.pool p).map fun a => ⟨σ.heap a⟩, σ.size⟩

/-- Both pools with the contents of their buffers. -/
def poolsOf (σ : Shared) : Pools := ⟨bufs σ .bPool, bufs σ .polyPool⟩

/-- The sequential function has the result `o` and leaves the pools `ps'`; when it does not succeed it leaves them as they
were. -/
def Yields (x : Outcome (List (List Byte) × Pools)) (ps : Pools) (o : Outcome (List (List Byte))) (ps' : Pools) : Prop :=
  o = Prod.fst <$> x ∧ ps' = match x with
    | ok v => v.2
    | _ => ps

/-- `o` and `ps'` are what the call `c` returns and leaves in the pools when the argument slices show `ins`, the random
source delivered `drawn` and the pools were `ps`: the sequential model, with these pools. -/
def Alone (arch : Arch) (c : Call) (ins : List (List Byte)) (drawn : List Byte) (ps : Pools)
    (o : Outcome (List (List Byte))) (ps' : Pools) : Prop :=
  match c with
  | .split _ parts threshold perm =>
      ∀ src, Delivers src drawn → Yields (split arch (ins.headD []) parts threshold perm src ps) ps o ps'
  | .splitWithRandomizer fuel _ parts threshold r =>
      Yields (splitWithRandomizer arch fuel (ins.headD []) parts threshold r ps) ps o ps'
  | .splitWithRandomizerOld _ parts threshold r =>
      Yields (splitWithRandomizerOld arch (ins.headD []) parts threshold r ps) ps o ps'
  | .krawczykSplit env _ parts threshold perm =>
      ∀ src, Delivers src drawn → Yields (Krawczyk.split { env with arch } (ins.headD []) parts threshold src perm
        (fun k => src (16 + k)) ps) ps o ps'
  | .krawczykSplitWithRandomizer env fuel _ parts threshold r =>
      Yields (Krawczyk.splitWithRandomizer { env with arch } fuel (ins.headD []) parts threshold r ps) ps o ps'
  | c => Correct arch c ins drawn o ∧ ps' = ps

/-- The same for SplitP, which does not use the pools. -/
def JobAlone (arch : Arch) (j : Job) (ins : List (List Byte)) (drawn : List Byte) (wdrawn : Nat → List Byte) (ps : Pools)
    (o : Outcome (List (List Byte))) (ps' : Pools) : Prop :=
  match j with
  | .seq c => Alone arch c ins drawn ps o ps'
  | .splitP .. => JobCorrect arch j ins drawn wdrawn o ∧ ps' = ps

/-- A slice without its place in memory. -/
def anonSlice (s : Slice) : Slice := ⟨0, 0, s.len, s.cap⟩

/-- A call without the places of its arguments in memory. -/
def anonCall : Call → Call
  | .split s parts threshold perm => .split (anonSlice s) parts threshold perm
  | .splitWithRandomizer fuel s parts threshold r => .splitWithRandomizer fuel (anonSlice s) parts threshold r
  | .splitWithRandomizerOld s parts threshold r => .splitWithRandomizerOld (anonSlice s) parts threshold r
  | .splitGeneric s parts threshold perm => .splitGeneric (anonSlice s) parts threshold perm
  | .combine parts => .combine (parts.map anonSlice)
  | .regenerate fuel parts n => .regenerate fuel (parts.map anonSlice) n
  | .krawczykSplit env s parts threshold perm => .krawczykSplit env (anonSlice s) parts threshold perm
  | .krawczykSplitWithRandomizer env fuel s parts threshold r =>
      .krawczykSplitWithRandomizer env fuel (anonSlice s) parts threshold r
  | .krawczykCombine env ss parts threshold => .krawczykCombine env (ss.map (·.map anonSlice)) parts threshold

/-- The same for SplitP. -/
def anonJob : Job → Job
  | .seq c => .seq (anonCall c)
  | .splitP s parts threshold perm => .splitP (anonSlice s) parts threshold perm

/-- Two calls of two programs that ask for the same and get the same random bytes: only the places of the arguments in
memory may differ. -/
def AskSame (c d : CallState) : Prop :=
  anonJob c.job = anonJob d.job ∧ c.ins = d.ins ∧ c.proc.main.drawn = d.proc.main.drawn ∧
    match c.job with
    | .seq _ => True
    | .splitP .. => workerDraws c.proc = workerDraws d.proc

/-- What a program with one goroutine can do: it makes a call only when none is under way, and while a call is under way
it does nothing but wait for it. (A call of SplitP still runs its own goroutines.) -/
def RunsAlone (arch : Arch) : Program → Program → Prop :=
  Relation.ReflTransGen fun s s' => ∃ e, PStep arch s e s' ∧ (s.openCalls = 0 ∨ ∃ i, e = .step i ∨ e = .ret i)

end Verif.Spec
