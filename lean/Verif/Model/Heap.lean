import Verif.Model.Krawczyk
import Mathlib.Logic.Function.Basic
import Mathlib.Logic.Relation

/-! # Shared memory: arrays, slices, buffer pools used by concurrently running calls

The other model files treat slices as values.  Here the same calls are modelled as programs over one
shared heap, executed by any number of threads (goroutines) in an arbitrary interleaving of their
individual memory accesses, pool operations and draws from the random source.  This is what the
properties about aliasing, recycling of buffers and concurrency are stated about. -/

namespace Verif.Heap
open Verif Outcome Galois Pool Csprng Shamir

/-- Identity of an allocated array. -/
abbrev Arr := Nat

/-- A Go slice: a window of an array. `cap` counts from `off`. -/
structure Slice where
  arr : Arr
  off : Nat
  len : Nat
  cap : Nat
  deriving DecidableEq, Repr, Inhabited

/-- The two process-wide pools: shamir.go:19 `bPool`, polynomial.go:11 `polynomialBufferPool`. -/
inductive PoolId where
  | bPool
  | polyPool
  deriving DecidableEq, Repr

/-- What a thread is going to do next.  A `*bytes.Buffer` is identified with its backing array. -/
inductive Prog (α : Type) where
  /-- finished -/
  | ret (a : α)
  /-- run-time panic -/
  | panic
  /-- `make([]byte, n)` -/
  | alloc (n : Nat) (k : Arr → Prog α)
  /-- load one byte -/
  | read (a : Arr) (i : Nat) (k : Byte → Prog α)
  /-- store one byte -/
  | write (a : Arr) (i : Nat) (v : Byte) (k : Prog α)
  /-- `pool.Get()`; the continuation also learns the capacity of the buffer -/
  | get (p : PoolId) (k : Arr → Nat → Prog α)
  /-- `pool.Put(b)` -/
  | put (p : PoolId) (a : Arr) (k : Prog α)
  /-- one byte of the global random source -/
  | rand (k : Byte → Prog α)

namespace Prog

/-- Sequencing. -/
def bind {α β : Type} : Prog α → (α → Prog β) → Prog β
  | ret a, f => f a
  | panic, _ => panic
  | alloc n k, f => alloc n fun a => (k a).bind f
  | read a i k, f => read a i fun v => (k v).bind f
  | write a i v k, f => write a i v (k.bind f)
  | get p k, f => get p fun a n => (k a n).bind f
  | put p a k, f => put p a (k.bind f)
  | rand k, f => rand fun v => (k v).bind f

instance : Monad Prog where
  pure := ret
  bind := bind

/-- Embedding of a pure computation that cannot return an error. -/
def lift {α : Type} : Outcome α → Prog α
  | .ok a => ret a
  | _ => panic

/-- `for i := 0; i < n; i++ { s = body(i, s) }` -/
def forUp {σ : Type} (n : Nat) (body : Nat → σ → Prog σ) (s : σ) : Prog σ :=
  match n with
  | 0 => ret s
  | n + 1 => (forUp n body s).bind (body n)

/-- `for i := n-1; i >= 0; i-- { s = body(i, s) }` -/
def forDown {σ : Type} (n : Nat) (body : Nat → σ → Prog σ) (s : σ) : Prog σ :=
  match n with
  | 0 => ret s
  | n + 1 => (body n s).bind (forDown n body)

/-- load `a[off], ..., a[off+n-1]` -/
def readAll (a : Arr) (off n : Nat) : Prog (List Byte) :=
  forUp n (fun i l => read a (off + i) fun v => ret (l ++ [v])) []

/-- store the bytes of `l` at `a[off], a[off+1], ...` -/
def writeAll (a : Arr) (off : Nat) (l : List Byte) : Prog Unit :=
  forUp l.length (fun i _ => write a (off + i) (l.getD i 0) (ret ())) ()

end Prog

/-- The state shared by all threads. Arrays below `next` are allocated. -/
structure Shared where
  heap : Arr → List Byte
  next : Arr
  /-- the buffers in each pool, oldest first (utils/bufferpool.go:8-10) -/
  pool : PoolId → List Arr
  /-- capacity of the pools' channels -/
  size : Nat

/-- One step of a thread. The last argument lists the random bytes drawn by the step. -/
inductive Step {α : Type} : Shared → Prog α → Shared → Prog α → List Byte → Prop where
  /-- `make` returns a zeroed array nobody has seen before -/
  | alloc (σ : Shared) (n : Nat) (k : Arr → Prog α) :
      Step σ (.alloc n k) { σ with heap := Function.update σ.heap σ.next (List.replicate n 0), next := σ.next + 1 }
        (k σ.next) []
  | read (σ : Shared) (a : Arr) (i : Nat) (k : Byte → Prog α) (v : Byte) (h : (σ.heap a)[i]? = some v) :
      Step σ (.read a i k) σ (k v) []
  /-- index out of range -/
  | readPanic (σ : Shared) (a : Arr) (i : Nat) (k : Byte → Prog α) (h : (σ.heap a)[i]? = none) :
      Step σ (.read a i k) σ .panic []
  | write (σ : Shared) (a : Arr) (i : Nat) (v : Byte) (k : Prog α) (h : i < (σ.heap a).length) :
      Step σ (.write a i v k) { σ with heap := Function.update σ.heap a ((σ.heap a).set i v) } k []
  /-- index out of range -/
  | writePanic (σ : Shared) (a : Arr) (i : Nat) (v : Byte) (k : Prog α) (h : ¬ i < (σ.heap a).length) :
      Step σ (.write a i v k) σ .panic []
  /-- utils/bufferpool.go:22-24: receive from the channel -/
  | get (σ : Shared) (p : PoolId) (k : Arr → Nat → Prog α) (a : Arr) (rest : List Arr) (h : σ.pool p = a :: rest) :
      Step σ (.get p k) { σ with pool := Function.update σ.pool p rest } (k a (σ.heap a).length) []
  /-- utils/bufferpool.go:25-27: channel empty, `&bytes.Buffer{}` -/
  | getNew (σ : Shared) (p : PoolId) (k : Arr → Nat → Prog α) (h : σ.pool p = []) :
      Step σ (.get p k) { σ with heap := Function.update σ.heap σ.next [], next := σ.next + 1 } (k σ.next 0) []
  /-- utils/bufferpool.go:31-33: send to the channel -/
  | put (σ : Shared) (p : PoolId) (a : Arr) (k : Prog α) (h : (σ.pool p).length < σ.size) :
      Step σ (.put p a k) { σ with pool := Function.update σ.pool p (σ.pool p ++ [a]) } k []
  /-- utils/bufferpool.go:34-37: channel full, the buffer is dropped -/
  | putDrop (σ : Shared) (p : PoolId) (a : Arr) (k : Prog α) (h : ¬ (σ.pool p).length < σ.size) :
      Step σ (.put p a k) σ k []
  | rand (σ : Shared) (k : Byte → Prog α) (v : Byte) : Step σ (.rand k) σ (k v) [v]

/-- A thread: what it still has to do and the random bytes it has drawn so far. -/
structure Thread (α : Type) where
  prog : Prog α
  drawn : List Byte

/-- A system of threads over one shared state. -/
structure Config (ι α : Type) where
  shared : Shared
  thread : ι → Thread α

/-- One step of the system: some thread takes a step (any interleaving). -/
inductive SysStep {ι α : Type} [DecidableEq ι] : Config ι α → Config ι α → Prop where
  | mk (c : Config ι α) (i : ι) (σ' : Shared) (p' : Prog α) (bs : List Byte)
      (h : Step c.shared (c.thread i).prog σ' p' bs) :
      SysStep c ⟨σ', Function.update c.thread i ⟨p', (c.thread i).drawn ++ bs⟩⟩

/-- Reachability under every schedule. -/
def Reach {ι α : Type} [DecidableEq ι] : Config ι α → Config ι α → Prop := Relation.ReflTransGen SysStep

/-! ## The Split variants and Combine as programs -/

/-- bytes.Buffer.Grow(n) after Reset (see `Verif.Pool.Buf.grow`): a new array is allocated when the capacity
does not suffice, the old one is garbage. -/
def grow (a : Arr) (cap n : Nat) : Prog Arr :=
  if n ≤ cap then .ret a
  else if cap = 0 ∧ n ≤ 64 then .alloc 64 .ret
  else .alloc (2 * cap + n) .ret

/-- polynomial.go:24-31 (also 46-53, 87-93): the first coefficient of polynomial `p` is byte `p` of the secret. -/
def setInterceptsP (secret : Slice) (pb : Arr) (N t : Nat) : Prog Unit :=
  Prog.forUp N (fun p _ => .read secret.arr (secret.off + p) fun v => .write pb (t * p) v (.ret ())) ()

/-- polynomial.go:17-34 `makePolynomialsWithBuff` on the buffer `pb`: every byte is overwritten by `rand.Read`. -/
def makePolynomialsP (secret : Slice) (N t : Nat) (pb : Arr) : Prog Unit := do
  Prog.forUp (t * N) (fun j _ => .rand fun v => .write pb j v (.ret ())) ()
  setInterceptsP secret pb N t

/-- polynomial.go:36-55 `makePolynomialsWithBuffAndRandomizer` and 77-96 `makePolynomialsWithRandomizer` (there `pb`
is new): the content of `pb` is xored with the key stream. -/
def makePolynomialsRandomizerP (r : CSPRNG) (secret : Slice) (N t : Nat) (pb : Arr) : Prog Unit := do
  Prog.forUp (t * N) (fun j _ => .read pb j fun v => .write pb j (v ^^^ r.ks j) (.ret ())) ()
  setInterceptsP secret pb N t

/-- polynomial.go:110-122 `transposeMatrixBuffer` from `src` to `dst` (`rowLen` = t, `len(source)` = t*N). -/
def transposeP (src dst : Arr) (N t : Nat) : Prog Unit := do
  let _ ← Prog.forUp (t * N) (fun i (st : Nat × Nat) =>
    .read src (t * st.1 + st.2) fun v => .write dst i v (.ret
      (if st.1 + 1 = N then (0, st.2 + 1) else (st.1 + 1, st.2)))) (0, 0)
  .ret ()

/-- `gf.MulConstVector(x, result)`: in place on the pure-Go build, into a new array otherwise
(vector_noasm.go:27-32, vector_amd64.go:66-68, vector_arm64.go).  Simplification: all bytes are loaded before the
first one is stored (source and destination belong to the calling thread). -/
def mulP (arch : Arch) (x : Byte) (a : Arr) (N : Nat) : Prog Arr := do
  let l ← Prog.readAll a 0 N
  let m ← Prog.lift (mulConstVector arch x l)
  let d ← if Arch.inPlace arch then .ret a else .alloc N .ret
  Prog.writeAll d 0 m
  .ret d

/-- `gf.AddVector(coefficients[s:e], m)`: in place on `m` on every build. -/
def addP (arch : Arch) (coef : Arr) (off : Nat) (m : Arr) (N : Nat) : Prog Unit := do
  let r ← Prog.readAll coef off N
  let l ← Prog.readAll m 0 N
  let s ← Prog.lift (addVector arch r l)
  Prog.writeAll m 0 s

/-- polynomial.go:155-174 `evaluatePolynomialsAtWithCoefficientsBuffer`, storing at `out[off:off+N]`; the
coefficients are `t` rows of length `N` in `coef`. -/
def evaluateP (arch : Arch) (coef : Arr) (N t : Nat) (x : Byte) (out : Arr) (off : Nat) : Prog Unit :=
  .get .polyPool fun rb cap => do
    let rb ← grow rb cap N
    let top ← Prog.readAll coef ((t - 1) * N) N
    Prog.writeAll rb 0 top
    let res ← Prog.forDown (t - 1) (fun i res => do
      let m ← mulP arch x res N
      addP arch coef (i * N) m N
      .ret m) rb
    let l ← Prog.readAll res 0 N
    Prog.writeAll out off l
    .put .polyPool rb (.ret ())

/-- A temporary buffer of `n` bytes: from `bPool` (shamir.go:71-75, 85-92) or a new one (polynomial.go:83, 101). -/
def acquireP (pooled : Bool) (n : Nat) : Prog Arr :=
  if pooled then .get .bPool fun a cap => grow a cap n else .alloc n .ret

/-- The deferred `bPool.Put` (shamir.go:72, 87). -/
def releaseP (pooled : Bool) (a : Arr) : Prog Unit :=
  if pooled then .put .bPool a (.ret ()) else .ret ()

/-- shamir.go:59-103 (also 136-159, 191-235), the part common to Split, SplitWithRandomizer and SplitWithRandomizerOld:
`N` = len(secret), `n` = parts, `t` = threshold, `xs` the x coordinates before 1 is added, `mk` fills the polynomial buffer. -/
def sharesP (arch : Arch) (N n t : Nat) (xs : List Byte) (pooled : Bool) (mk : Arr → Prog Unit) :
    Prog (Outcome (List Slice)) :=
  .alloc ((N + 1) * n) fun buff => do
  Prog.forUp n (fun i _ => .write buff ((N + 1) * i + N) (xs.getD i 0 + 1#8) (.ret ())) ()
  let pb ← acquireP pooled (t * N)
  mk pb
  let tb ← acquireP pooled (t * N)
  transposeP pb tb N t
  Prog.forUp n (fun i _ => evaluateP arch tb N t (xs.getD i 0 + 1#8) buff ((N + 1) * i)) ()
  releaseP pooled tb
  releaseP pooled pb
  .ret (ok
    -- shamir.go:62 `out[idx] = buff[s:e]`: the capacity extends to the end of `buff`
    ((List.range n).map fun i => ⟨buff, (N + 1) * i, N + 1, (N + 1) * n - (N + 1) * i⟩))

/-- shamir.go:32-46 (also 109-123, 164-178): the argument checks. -/
def checkP (N : Nat) (parts threshold : Int) (k : Prog (Outcome (List Slice))) : Prog (Outcome (List Slice)) :=
  if parts < threshold then .ret (err .partsLtThreshold)
  else if parts > 255 then .ret (err .partsExceed255)
  else if threshold < 2 then .ret (err .thresholdLt2)
  else if threshold > 255 then .ret (err .thresholdExceed255)
  else if N = 0 then .ret (err .emptySecret)
  else k

/-- shamir.go:30-104 `Split`.  `perm` is the result of `rand.Perm(255)`. -/
def splitP (arch : Arch) (secret : Slice) (parts threshold : Int) (perm : List Nat) : Prog (Outcome (List Slice)) :=
  checkP secret.len parts threshold <|
  sharesP arch secret.len parts.toNat threshold.toNat (perm.map (BitVec.ofNat 8)) true
    (makePolynomialsP secret secret.len threshold.toNat)

/-- shamir.go:162-236 `SplitWithRandomizer`.  The tags are computed on memory private to the call, in one step. -/
def splitWithRandomizerP (arch : Arch) (fuel : Nat) (secret : Slice) (parts threshold : Int) (r : CSPRNG) :
    Prog (Outcome (List Slice)) :=
  checkP secret.len parts threshold <| do
  let xs ← Prog.lift (r.getUniqueBytes fuel (BitVec.ofInt 8 parts))
  sharesP arch secret.len parts.toNat threshold.toNat xs true
    (makePolynomialsRandomizerP r secret secret.len threshold.toNat)

/-- shamir.go:107-160 `SplitWithRandomizerOld`.  The tags are computed on memory private to the call, in one step. -/
def splitWithRandomizerOldP (arch : Arch) (secret : Slice) (parts threshold : Int) (r : CSPRNG) :
    Prog (Outcome (List Slice)) :=
  checkP secret.len parts threshold <| do
  let xs ← Prog.lift (r.perm 255#8)
  sharesP arch secret.len parts.toNat threshold.toNat xs false
    (makePolynomialsRandomizerP r secret secret.len threshold.toNat)

/-- Continue with the value of a computation that may return an error; a panic ends the call too (the goroutine may
recover from it). -/
def Prog.call {α β : Type} (o : Outcome α) (k : α → Prog (Outcome β)) : Prog (Outcome β) :=
  match o with
  | .ok a => k a
  | .err e => .ret (err e)
  | .panic => .ret Outcome.panic
  | .corrupt => .ret corrupt
  | .spin => .ret spin

/-- shamir.go:370-383 (also 426-439): the checks of `Combine` and `Regenerate` on the lengths; they load nothing.
Returns `firstPartLen`. -/
def checkPartsP (parts : List Slice) : Outcome Nat := do
  if parts.length < 2 then err .lessThanTwoParts
  let p0 ← idx parts 0
  if p0.len < 2 then err .partTooShort
  forUp (parts.length - 1) (fun i _ => do
    let p ← idx parts (i + 1)
    if p.len ≠ p0.len then err .partLengthMismatch
    pure ()) ()
  return p0.len

/-- shamir.go:394-402 (also 450-457): the tags are loaded one after the other, up to the first duplicate; `seen` holds
those seen before, newest first. -/
def readTagsP (firstPartLen : Nat) : List Slice → List Byte → Prog (Outcome (List Byte))
  | [], seen => .ret (ok seen.reverse)
  | s :: rest, seen => .read s.arr (s.off + (firstPartLen - 1)) fun samp =>
      if samp ∈ seen then .ret (err .duplicatePart) else readTagsP firstPartLen rest (samp :: seen)

/-- shamir.go:407-409 (also 473-475, 480-482): byte `j` of every part. -/
def readColumnP (j : Nat) : List Slice → Prog (List Byte)
  | [] => .ret []
  | s :: rest => .read s.arr (s.off + j) fun v => do
    let l ← readColumnP j rest
    .ret (v :: l)

/-- shamir.go:405-416 (also 479-484): byte `j` of all parts is loaded, interpolated at `x` and stored as byte `j` of the
array `a`, for every `j` < `N`. -/
def interpolateRowP (parts : List Slice) (xs : List Byte) (x : Byte) (a : Arr) (N : Nat) : Prog Unit :=
  Prog.forUp N (fun j _ => do
    let ys ← readColumnP j parts
    let v ← Prog.lift (interpolatePolynomial xs ys x)
    .write a j v (.ret ())) ()

/-- shamir.go:368-418 `Combine`. -/
def combineP (parts : List Slice) : Prog (Outcome (List Slice)) :=
  Prog.call (checkPartsP parts) fun firstPartLen =>
  .alloc (firstPartLen - 1) fun secret => do
  let tags ← readTagsP firstPartLen parts []
  Prog.call tags fun xs => do
  interpolateRowP parts xs 0 secret (firstPartLen - 1)
  .ret (ok [⟨secret, 0, firstPartLen - 1, firstPartLen - 1⟩])

/-- `rand.Read` of `n` bytes into memory private to the call. -/
def Prog.drawAll (n : Nat) : Prog (List Byte) :=
  forUp n (fun _ l => rand fun v => ret (l ++ [v])) []

/-- Every row in a new array of its own, `make([]byte, len(row))`. -/
def storeRows : List (List Byte) → Prog (List Slice)
  | [] => .ret []
  | row :: rest => .alloc row.length fun a => do
    Prog.writeAll a 0 row
    let l ← storeRows rest
    .ret (⟨a, 0, row.length, row.length⟩ :: l)

/-- shamir.go:238-288 `SplitGeneric`.  Simplification: the shares are computed on memory private to the call and stored
at the end (shamir.go:268 allocates them separately). -/
def splitGenericP (secret : Slice) (parts threshold : Int) (perm : List Nat) : Prog (Outcome (List Slice)) :=
  checkP secret.len parts threshold <| do
  let rs ← Prog.drawAll ((threshold.toNat - 1) * secret.len)          -- polynomial.go:63
  let bs ← Prog.readAll secret.arr secret.off secret.len
  Prog.call (splitGeneric bs parts threshold perm fun k => rs.getD k 0) fun rows => do
  let slices ← storeRows rows
  .ret (ok slices)

/-- shamir.go:466-469: draws until a byte is found that is not in `checkMap`, `spin` after `fuel` attempts. -/
def regenLoopP (checkMap : List Byte) : Nat → Byte → Prog (Outcome Byte)
  | 0, _ => .ret spin
  | fuel + 1, nx => if nx ∈ checkMap then .rand fun v => regenLoopP checkMap fuel v else .ret (ok nx)

/-- shamir.go:464-471: the loop over `newXs`; the bytes it draws end up in `checkMap` only. -/
def regenDedupeP (fuel : Nat) : List Byte → List Byte → Prog (Outcome Unit)
  | _, [] => .ret (ok ())
  | checkMap, nx :: rest => do
    let r ← regenLoopP checkMap fuel nx
    Prog.call r fun nx' => regenDedupeP fuel (nx' :: checkMap) rest

/-- shamir.go:476-485: a new array for every new share, the tag first. -/
def regenRowsP (firstPartLen : Nat) (parts : List Slice) (xs : List Byte) : List Byte → Prog (List Slice)
  | [] => .ret []
  | nx :: rest => .alloc firstPartLen fun a => .write a (firstPartLen - 1) nx do
    interpolateRowP parts xs nx a (firstPartLen - 1)
    let l ← regenRowsP firstPartLen parts xs rest
    .ret (⟨a, 0, firstPartLen, firstPartLen⟩ :: l)

/-- shamir.go:424-488 `Regenerate`. -/
def regenerateP (fuel : Nat) (parts : List Slice) (numNewShares : Int) : Prog (Outcome (List Slice)) :=
  Prog.call (checkPartsP parts) fun firstPartLen =>
  if numNewShares < 0 then .ret Outcome.panic                          -- make: negative length
  else do
  let tags ← readTagsP firstPartLen parts []
  Prog.call tags fun checkMap => do
  let newXs ← Prog.drawAll numNewShares.toNat
  let r ← regenDedupeP fuel checkMap newXs
  Prog.call r fun _ => do
  let xs ← readColumnP (firstPartLen - 1) parts                        -- shamir.go:473-475: loaded again
  let slices ← regenRowsP firstPartLen parts xs newXs
  .ret (ok slices)

/-- krawczyk.go:78-86 (also 150-158): the result matrix is one array; the capacity of row `i` ends with the row
(krawczyk.go:168 `a[lo:hi:hi]`). -/
def assembleP (parts : Nat) (encodedSecret : List (List Byte)) (ssKeyLenPair : List Slice) :
    Prog (Outcome (List Slice)) :=
  Prog.call (idx encodedSecret 0) fun e0 =>
  Prog.call (idx ssKeyLenPair 0) fun m0 =>
  .alloc (parts * (e0.length + m0.len)) fun a => do
  Prog.forUp parts (fun i _ => do
    let m ← Prog.lift (idx ssKeyLenPair i)
    let e ← Prog.lift (idx encodedSecret i)
    let bytes ← Prog.readAll m.arr m.off m.len
    Prog.writeAll a ((e0.length + m0.len) * i) (bytes.take m0.len)
    Prog.writeAll a ((e0.length + m0.len) * i + m0.len) (e.take e0.length)) ()
  .ret (ok ((List.range parts).map fun i =>
    ⟨a, (e0.length + m0.len) * i, e0.length + m0.len, e0.length + m0.len⟩))

/-- krawczyk.go:45-88 (also 116-160): encrypt, encode, share the metadata with `share`, assemble.  Simplification: the
ciphertext and the shards are memory private to the call and computed in one step after the secret was loaded. -/
def krawczykTailP (env : Krawczyk.Env) (secret : Slice) (key : List Byte) (parts threshold : Int)
    (share : Slice → Prog (Outcome (List Slice))) : Prog (Outcome (List Slice)) := do
  let bs ← Prog.readAll secret.arr secret.off secret.len
  Prog.call (Krawczyk.encode env bs key parts threshold) fun es =>
  .alloc 20 fun kl => do
  Prog.writeAll kl 0 (Krawczyk.keyLenPair key es.1)
  let ss ← share ⟨kl, 0, 20, 20⟩
  Prog.call ss fun ss => assembleP parts.toNat es.2 ss

/-- krawczyk.go:21-89 `Split`. -/
def krawczykSplitP (env : Krawczyk.Env) (secret : Slice) (parts threshold : Int) (perm : List Nat) :
    Prog (Outcome (List Slice)) :=
  Prog.call (Krawczyk.checkArgs secret.len parts threshold) fun _ => do
  let key ← Prog.drawAll 16
  krawczykTailP env secret key parts threshold fun kl => splitP env.arch kl parts threshold perm

/-- krawczyk.go:92-161 `SplitWithRandomizer`. -/
def krawczykSplitWithRandomizerP (env : Krawczyk.Env) (fuel : Nat) (secret : Slice) (parts threshold : Int) (r : CSPRNG) :
    Prog (Outcome (List Slice)) :=
  Prog.call (Krawczyk.checkArgs secret.len parts threshold) fun _ =>
  krawczykTailP env secret (r.read (List.replicate 16 0)) parts threshold fun kl =>
    splitWithRandomizerP env.arch fuel kl parts threshold r

/-- Load the bytes of the slices that are not nil. -/
def readOptSlices : List (Option Slice) → Prog (List (Option (List Byte)))
  | [] => .ret []
  | none :: rest => do
    let l ← readOptSlices rest
    .ret (none :: l)
  | some s :: rest => do
    let b ← Prog.readAll s.arr s.off s.len
    let l ← readOptSlices rest
    .ret (some b :: l)

/-- krawczyk.go:214-224: the slice headers `encodedData` (`none` is nil) and `ssMetadata`.  Of every share only the last
byte is loaded, twice (krawczyk.go:219, 223). -/
def separateP (parts : Int) : List Slice → List (Option Slice) × List Slice →
    Prog (Outcome (List (Option Slice) × List Slice))
  | [], st => .ret (ok st)
  | s :: rest, (encodedData, ssMetadata) =>
    if s.cap < 21 then .ret Outcome.panic                              -- ssData[i][:secretStartIdx]
    else if s.len = 0 then .ret Outcome.panic                          -- index -1
    else .read s.arr (s.off + (s.len - 1)) fun partID =>
    if partID > BitVec.ofInt 8 parts then .ret (err .partIdTooLarge)
    else .read s.arr (s.off + (s.len - 1)) fun i =>
    if s.len - 1 < 21 then .ret Outcome.panic                          -- ssData[i][secretStartIdx : len(ssData[i])-1]
    else Prog.call (setIdx encodedData i.toNat (some ⟨s.arr, s.off + 21, s.len - 22, s.cap - 21⟩)) fun encodedData =>
    separateP parts rest (encodedData, ssMetadata ++ [⟨s.arr, s.off, 21, s.cap⟩])

/-- `ReconstructData` (krawczyk.go:241) as documented: "If a shard is zero-length but has sufficient capacity, that
memory will be used, otherwise a new []byte will be allocated."  `rec` are the shards after the call, `size` is the
length of the shards, `k` the number of data shards. -/
def reconstructStoresP (k size : Nat) (headers : List (Option Slice)) (rec : List (List Byte)) : Prog Unit :=
  Prog.forUp k (fun i _ =>
    match headers.getD i none with
    | some s => if s.len = 0 ∧ size ≤ s.cap then Prog.writeAll s.arr s.off (rec.getD i []) else .ret ()
    | none => .ret ()) ()

/-- The first `k` shards as `Join` (krawczyk.go:244) finds them in memory when `ReconstructData` has returned: the window of
the share, the memory behind a zero-length window if it was used, or else the new array allocated by `ReconstructData`
(private to the call: `rec`). -/
def readShardsP (k size : Nat) (headers : List (Option Slice)) (rec : List (List Byte)) : Prog (List (List Byte)) :=
  Prog.forUp k (fun i acc =>
    match headers.getD i none with
    | some s =>
      if s.len ≠ 0 then (Prog.readAll s.arr s.off s.len).bind fun l => .ret (acc ++ [l])
      else if size ≤ s.cap then (Prog.readAll s.arr s.off size).bind fun l => .ret (acc ++ [l])
      else .ret (acc ++ [rec.getD i []])
    | none => .ret (acc ++ [rec.getD i []])) []

/-- krawczyk.go:237-256, after the metadata was recovered: `ReconstructData`, `Join` and `decrypt`.  Simplifications:
`ReconstructData` loads the shards before it computes, and computes all missing shards before it stores the first one
(this matters only for shares that overlap in memory); the memory it allocates for missing shards and the ciphertext
are private to the call. -/
def krawczykDecodeP (env : Krawczyk.Env) (headers : List (Option Slice)) (key : List Byte) (length : BitVec 32)
    (parts threshold : Int) : Prog (Outcome (List Slice)) :=
  Prog.call (RS.new env.lib threshold (parts - threshold)) fun decoder => do
  let l ← readOptSlices headers
  Prog.call (decoder.reconstructData env.lib (l.map (·.getD []))) fun encodedData => do
  reconstructStoresP decoder.k (RS.shardSize (l.map (·.getD []))) headers encodedData
  let held ← readShardsP decoder.k (RS.shardSize (l.map (·.getD []))) headers encodedData
  Prog.call (decoder.join (held ++ encodedData.drop decoder.k) length.toNat) fun ciphertext =>
  Prog.call (Krawczyk.decrypt env ciphertext key) fun secret => .alloc secret.length fun a => do
  Prog.writeAll a 0 secret
  .ret (ok [⟨a, 0, secret.length, secret.length⟩])

/-- krawczyk.go:174-256 `Combine`; nil entries of the list are `none`.  `metadata` is private to the call; simplification:
it is loaded at once (krawczyk.go:232-233 takes the length from it, `decrypt` the key). -/
def krawczykCombineP (env : Krawczyk.Env) (ssData : List (Option Slice)) (parts threshold : Int) :
    Prog (Outcome (List Slice)) :=
  Prog.call (idx ssData 0) fun d0 =>
  Prog.call (Krawczyk.checkArgs (d0.elim 0 (·.len)) parts threshold) fun _ =>
  Prog.call (Krawczyk.clean ssData) fun slices =>
  if parts < 0 then .ret Outcome.panic                                 -- make: negative length
  else do
  let em ← separateP parts slices (List.replicate parts.toNat none, [])
  Prog.call em fun em => do
  let md ← combineP em.2
  Prog.call md fun md =>
  Prog.call (idx md 0) fun m => do
  let metadata ← Prog.readAll m.arr m.off m.len
  Prog.call (slice metadata 0 16) fun key =>
  Prog.call (slice metadata 16 metadata.length) fun lengthBytes =>
  if lengthBytes.length < 4 then .ret Outcome.panic                    -- LittleEndian.Uint32
  else krawczykDecodeP env em.1 key (leUint32 (lengthBytes.take 4)) parts threshold

/-- A call a goroutine makes. -/
inductive Call where
  | split (secret : Slice) (parts threshold : Int) (perm : List Nat)
  | splitWithRandomizer (fuel : Nat) (secret : Slice) (parts threshold : Int) (r : CSPRNG)
  | splitWithRandomizerOld (secret : Slice) (parts threshold : Int) (r : CSPRNG)
  | splitGeneric (secret : Slice) (parts threshold : Int) (perm : List Nat)
  | combine (parts : List Slice)
  | regenerate (fuel : Nat) (parts : List Slice) (numNewShares : Int)
  | krawczykSplit (env : Krawczyk.Env) (secret : Slice) (parts threshold : Int) (perm : List Nat)
  | krawczykSplitWithRandomizer (env : Krawczyk.Env) (fuel : Nat) (secret : Slice) (parts threshold : Int) (r : CSPRNG)
  | krawczykCombine (env : Krawczyk.Env) (ssData : List (Option Slice)) (parts threshold : Int)

/-- The program of a call. -/
def Call.prog (arch : Arch) : Call → Prog (Outcome (List Slice))
  | .split secret parts threshold perm => splitP arch secret parts threshold perm
  | .splitWithRandomizer fuel secret parts threshold r => splitWithRandomizerP arch fuel secret parts threshold r
  | .splitWithRandomizerOld secret parts threshold r => splitWithRandomizerOldP arch secret parts threshold r
  | .splitGeneric secret parts threshold perm => splitGenericP secret parts threshold perm
  | .combine parts => combineP parts
  | .regenerate fuel parts numNewShares => regenerateP fuel parts numNewShares
  | .krawczykSplit env secret parts threshold perm => krawczykSplitP { env with arch } secret parts threshold perm
  | .krawczykSplitWithRandomizer env fuel secret parts threshold r =>
      krawczykSplitWithRandomizerP { env with arch } fuel secret parts threshold r
  | .krawczykCombine env ssData parts threshold => krawczykCombineP { env with arch } ssData parts threshold

/-- The slices a call gets as arguments. -/
def Call.inputs : Call → List Slice
  | .split secret _ _ _ => [secret]
  | .splitWithRandomizer _ secret _ _ _ => [secret]
  | .splitWithRandomizerOld secret _ _ _ => [secret]
  | .splitGeneric secret _ _ _ => [secret]
  | .combine parts => parts
  | .regenerate _ parts _ => parts
  | .krawczykSplit _ secret _ _ _ => [secret]
  | .krawczykSplitWithRandomizer _ _ secret _ _ _ => [secret]
  | .krawczykCombine _ ssData _ _ => ssData.filterMap id

end Verif.Heap
