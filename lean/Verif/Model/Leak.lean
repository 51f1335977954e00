import Verif.Model.Shamir
import Verif.Spec.Leak

/-! # The model of Split and Combine, with what an observer of the processor sees

The functions of `Model/{Galois,Vector,Polynomial,Shamir}.lean` again, statement by statement, in a monad that records every
branch decision, every number of iterations of a loop, every position of a slice and every table entry that is accessed: what a program
shows through time and caches.  `Proofs/Leak.lean` proves that they compute the same as the functions without observations.

Simplifications: the pools (whose branches depend on the numbers and capacities of buffers only), `rand.Perm`,
`rand.Read` and the allocator show nothing. -/

namespace Verif.Leak
open Verif Outcome Galois Pool

/-- One observation. -/
inductive Ev where
  /-- the outcome of a condition -/
  | branch (b : Bool)
  /-- a loop with this many iterations begins -/
  | loop (n : Nat)
  /-- element `i` of a slice is read or written -/
  | elem (i : Nat)
  /-- a slice `l[s:e]` is made -/
  | window (s e : Nat)
  /-- a slice of `n` bytes is written by `copy` -/
  | copy (n : Nat)
  /-- an entry of the table of logarithms is read -/
  | log (a : Byte)
  /-- an entry of the table of powers is read -/
  | exp (i : Int)
  /-- an entry of the multiplication table is read -/
  | mul (row col : Byte)
  /-- a key is looked up in a map, and inserted -/
  | key (k : Byte)
  /-- an assembly routine with blocks of `w` bytes is called on the `n` bytes from position `d` on, with the tables of `c`
  (what it shows is a function of its addresses and lengths: C74_routines) -/
  | routine (w d n : Nat) (c : Byte)
  deriving DecidableEq, Repr

/-- What is left of an observation for someone who does not see which entry of a table is read. -/
def Ev.hide : Ev → Ev
  | .log _ => .log 0
  | .exp _ => .exp 0
  | .mul _ _ => .mul 0 0
  | e => e

/-- A call: what it shows, and how it ends. -/
structure Traced (α : Type) where
  trace : List Ev
  out : Outcome α

instance : Monad Traced where
  pure a := ⟨[], ok a⟩
  bind x f := ⟨x.trace ++ match x.out with
    | ok a => (f a).trace
    | _ => [], x.out >>= fun a => (f a).out⟩

/-- Something that shows one thing. -/
def shows {α : Type} (e : Ev) (o : Outcome α) : Traced α := ⟨[e], o⟩

/-- Something that shows nothing. -/
def quiet {α : Type} (o : Outcome α) : Traced α := ⟨[], o⟩

/-- A condition of an `if`. -/
def test (c : Prop) [Decidable c] : Traced Bool := ⟨[.branch (decide c)], ok (decide c)⟩

/-- `for i := 0; i < n; i++ { s = body(i, s) }` -/
def iterUp {σ : Type} (n : Nat) (body : Nat → σ → Traced σ) (s : σ) : Traced σ :=
  match n with
  | 0 => pure s
  | n + 1 => iterUp n body s >>= body n

/-- `for i := n-1; i >= 0; i-- { s = body(i, s) }` -/
def iterDown {σ : Type} (n : Nat) (body : Nat → σ → Traced σ) (s : σ) : Traced σ :=
  match n with
  | 0 => pure s
  | n + 1 => body n s >>= iterDown n body

def forUp {σ : Type} (n : Nat) (body : Nat → σ → Traced σ) (s : σ) : Traced σ := do
  shows (.loop n) (ok ())
  iterUp n body s

def forDown {σ : Type} (n : Nat) (body : Nat → σ → Traced σ) (s : σ) : Traced σ := do
  shows (.loop n) (ok ())
  iterDown n body s

def idx {α : Type} (l : List α) (i : Nat) : Traced α := shows (.elem i) (Verif.idx l i)
def setIdx {α : Type} (l : List α) (i : Nat) (v : α) : Traced (List α) := shows (.elem i) (Verif.setIdx l i v)
def slice {α : Type} (l : List α) (s e : Nat) : Traced (List α) := shows (.window s e) (Verif.slice l s e)
def copyInto (dst src : List Byte) : Traced (List Byte) := shows (.copy dst.length) (ok (Verif.copyInto dst src))

/-! ## shamir/polynomial.go, Combine -/

/-- polynomial.go:222-238 `div`; the final selection is without a branch. -/
def div (a b : Byte) : Traced Byte := do
  if ← test (b = 0) then quiet Outcome.panic
  let logA ← shows (.log a) (ok (Shamir.logTable a))
  let logB ← shows (.log b) (ok (Shamir.logTable b))
  let diff := ((logA - logB) + 255).tmod 255
  let ret ← shows (.exp diff) (Shamir.expTable diff)
  return if a = 0 then 0 else ret

/-- polynomial.go:241-254 `mult`; the final selections are without a branch. -/
def mult (a b : Byte) : Traced Byte := do
  let logA ← shows (.log a) (ok (Shamir.logTable a))
  let logB ← shows (.log b) (ok (Shamir.logTable b))
  let sum := (logA + logB).tmod 255
  let ret ← shows (.exp sum) (Shamir.expTable sum)
  let ret := if a = 0 then 0 else ret
  let ret := if b = 0 then 0 else ret
  return ret

/-- polynomial.go:275-293 `interpolatePolynomial` -/
def interpolatePolynomial (x_samples y_samples : List Byte) (x : Byte) : Traced Byte :=
  forUp x_samples.length (fun i result => do
    let basis ← forUp x_samples.length (fun j basis => do
      if ← test (i = j) then pure basis
      else do
        let xj ← idx x_samples j
        let num := Shamir.add x xj
        let xi ← idx x_samples i
        let denom := Shamir.add xi xj
        let term ← div num denom
        mult basis term) (1 : Byte)
    let yi ← idx y_samples i
    let group ← mult yi basis
    return Shamir.add result group) (0 : Byte)

/-- shamir.go:379-383 -/
def checkLengths (parts : List (List Byte)) (firstPartLen : Nat) : Traced Unit :=
  forUp (parts.length - 1) (fun i _ => do
    let p ← idx parts (i + 1)
    if ← test (p.length ≠ firstPartLen) then quiet (err .partLengthMismatch)
    pure ()) ()

/-- shamir.go:394-402 -/
def collectTags (parts : List (List Byte)) (firstPartLen : Nat) (x_samples : List Byte) :
    Traced (List Byte × List Byte) :=
  forUp parts.length (fun i (st : List Byte × List Byte) => do
    let (x_samples, checkMap) := st
    let part ← idx parts i
    let samp ← idx part (firstPartLen - 1)
    shows (.key samp) (ok ())
    if ← test (samp ∈ checkMap) then quiet (err .duplicatePart)
    let x_samples ← setIdx x_samples i samp
    pure (x_samples, samp :: checkMap)) (x_samples, [])

/-- shamir.go:407-409 -/
def collectY (parts : List (List Byte)) (j : Nat) (y_samples : List Byte) : Traced (List Byte) :=
  forUp parts.length (fun i y_samples => do
    let part ← idx parts i
    let v ← idx part j
    setIdx y_samples i v) y_samples

/-- shamir.go:368-418 `Combine`. -/
def combine (parts : List (List Byte)) : Traced (List Byte) := do
  if ← test (parts.length < 2) then quiet (err .lessThanTwoParts)
  let p0 ← idx parts 0
  let firstPartLen := p0.length
  if ← test (firstPartLen < 2) then quiet (err .partTooShort)
  checkLengths parts firstPartLen
  let secret := List.replicate (firstPartLen - 1) (0 : Byte)
  let x_samples := List.replicate parts.length (0 : Byte)
  let y_samples := List.replicate parts.length (0 : Byte)
  let (x_samples, _) ← collectTags parts firstPartLen x_samples
  let (secret, _) ← forUp secret.length (fun j (st : List Byte × List Byte) => do
    let (secret, y_samples) := st
    let y_samples ← collectY parts j y_samples
    let val ← interpolatePolynomial x_samples y_samples 0
    let secret ← setIdx secret j val
    pure (secret, y_samples)) (secret, y_samples)
  return secret

/-! ## galois/vector_*.go -/

/-- vector_amd64.go:97-101 and vector_arm64.go:29-34 -/
def mulTail (c : Byte) (d : Nat) (inp out : List Byte) : Traced (List Byte) :=
  forUp (inp.length - d) (fun i out => do
    let x ← idx inp (d + i)
    let v ← shows (.mul c x) (ok (mulTable c x))
    setIdx out (d + i) v) out

/-- vector_amd64.go:124-127 and vector_arm64.go:47-51 -/
def xorTail (d : Nat) (inp out : List Byte) : Traced (List Byte) :=
  forUp (inp.length - d) (fun i out => do
    let x ← idx inp (d + i)
    let y ← idx out (d + i)
    setIdx out (d + i) (y ^^^ x)) out

/-- vector_amd64.go:68-104 `MulConstVector` -/
def mulConstVectorAmd64 (cpu : Cpu) (c : Byte) (inp : List Byte) : Traced (List Byte) := do
  let out := List.replicate inp.length (0 : Byte)
  if ← test (c = 1) then
    copyInto out inp
  else if ← test (cpu.avx2 = true) then do
    let (d, out) ← (do
      if ← test (bigSwitchover ≤ inp.length) then do
        let o ← shows (.routine 64 0 inp.length c) (galMulBlocks 64 (mulTableLow c) (mulTableHigh c) inp out)
        pure ((inp.length >>> 6) <<< 6, o)
      else pure (0, out))
    let in1 ← slice inp d inp.length
    let out1 ← slice out d out.length
    let (d, out) ← (do
      if ← test (32 < in1.length) then do
        let o ← shows (.routine 32 d in1.length c) (galMulBlocks 32 (mulTableLow c) (mulTableHigh c) in1 out1)
        pure (d + ((in1.length >>> 5) <<< 5), writeAt out d o)
      else pure (d, out))
    mulTail c d inp out
  else if ← test (cpu.ssse3 = true) then do
    let o ← shows (.routine 16 0 inp.length c) (galMulBlocks 16 (mulTableLow c) (mulTableHigh c) inp out)
    let done := (inp.length >>> 4) <<< 4
    let b ← test (done < o.length)
    let d := if b then done else 0
    mulTail c d inp o
  else
    mulTail c 0 inp out

/-- vector_amd64.go:107-130 `AddVector` -/
def addVectorAmd64 (cpu : Cpu) (inp out : List Byte) : Traced (List Byte) := do
  if ← test (cpu.sse2 = true) then do
    let (d, out) ← (do
      if ← test (bigSwitchover ≤ inp.length) then do
        let o ← shows (.routine 64 0 inp.length 0) (xorBlocks 64 inp out)
        pure ((inp.length >>> 6) <<< 6, o)
      else pure (0, out))
    let in1 ← slice inp d inp.length
    let out1 ← slice out d out.length
    let (d, out) ← (do
      if ← test (16 ≤ in1.length) then do
        let o ← shows (.routine 16 d in1.length 0) (xorBlocks 16 in1 out1)
        pure (d + ((in1.length >>> 4) <<< 4), writeAt out d o)
      else pure (d, out))
    let _ ← slice out d inp.length
    xorTail d inp out
  else do
    let _ ← slice out 0 inp.length
    xorTail 0 inp out

/-- vector_arm64.go:17-37 `MulConstVector` -/
def mulConstVectorArm64 (c : Byte) (inp : List Byte) : Traced (List Byte) := do
  let out := List.replicate inp.length (0 : Byte)
  if ← test (c = 1) then
    copyInto out inp
  else do
    let out ← shows (.routine 32 0 inp.length c) (galMulBlocks 32 (mulTableLow c) (mulTableHigh c) inp out)
    let done := (inp.length >>> 5) <<< 5
    let remain := inp.length - done
    if ← test (0 < remain) then mulTail c done inp out else pure out

/-- vector_arm64.go:40-54 `AddVector` -/
def addVectorArm64 (inp out : List Byte) : Traced (List Byte) := do
  let out ← shows (.routine 32 0 inp.length 0) (xorBlocks 32 inp out)
  let done := (inp.length >>> 5) <<< 5
  let remain := inp.length - done
  if ← test (0 < remain) then xorTail done inp out else pure out

/-- vector_noasm.go:44-59; the words of 8 bytes as one access each. -/
def addVectorBatchLoop (a b : List Byte) : Traced (List Byte) :=
  if _h : 32 ≤ b.length then do
    shows (.branch true) (ok ())
    let inS ← slice a 0 32
    let w := fun k => leUint64 ((b.drop (8 * k)).take 8) ^^^ leUint64 ((inS.drop (8 * k)).take 8)
    let v0 ← shows (.window 0 8) (ok (w 0))
    let v1 ← shows (.window 8 16) (ok (w 1))
    let v2 ← shows (.window 16 24) (ok (w 2))
    let v3 ← shows (.window 24 32) (ok (w 3))
    let blk := lePutUint64 v0 ++ lePutUint64 v1 ++ lePutUint64 v2 ++ lePutUint64 v3
    let a' ← slice a 32 a.length
    let rest ← addVectorBatchLoop a' (b.drop 32)
    return blk ++ rest
  else do
    shows (.branch false) (ok ())
    forUp a.length (fun n b => do
      let input ← idx a n
      let bn ← idx b n
      setIdx b n (bn ^^^ input)) b
termination_by b.length
decreasing_by simp; omega

/-- vector_noasm.go:38-61 -/
def addVectorBatchGeneric (a b : List Byte) : Traced (List Byte) := do
  if ← test (a.length ≠ b.length) then quiet Outcome.panic else addVectorBatchLoop a b

/-- vector_noasm.go:10-25 -/
def addVectorGeneric (a b : List Byte) : Traced (List Byte) := do
  if ← test (a.length ≠ b.length) then quiet Outcome.panic
  else if ← test (256 ≤ a.length) then addVectorBatchGeneric a b
  else forUp a.length (fun i b => do
    let val ← idx a i
    let bi ← idx b i
    setIdx b i (galAdd val bi)) b

/-- vector_noasm.go:29-34 -/
def mulConstVectorGeneric (c : Byte) (a : List Byte) : Traced (List Byte) :=
  forUp a.length (fun i a => do
    let val ← idx a i
    let v ← shows (.mul val c) (ok (galMultiply val c))
    setIdx a i v) a

/-- `MulConstVector` of the given build. -/
def mulConstVector : Arch → Byte → List Byte → Traced (List Byte)
  | .amd64 cpu, c, a => mulConstVectorAmd64 cpu c a
  | .arm64, c, a => mulConstVectorArm64 c a
  | .noasm, c, a => mulConstVectorGeneric c a

/-- `AddVector` of the given build. -/
def addVector : Arch → List Byte → List Byte → Traced (List Byte)
  | .amd64 cpu, a, b => addVectorAmd64 cpu a b
  | .arm64, a, b => addVectorArm64 a b
  | .noasm, a, b => addVectorGeneric a b

/-! ## Split -/

/-- polynomial.go:23-31 -/
def setIntercepts (intercepts : List Byte) (degree : Nat) (buffer : List Byte) : Traced (List Byte) :=
  forUp intercepts.length (fun p buffer => do
    let s := (degree + 1) * p
    let e := s + degree + 1
    let polynomialP ← slice buffer s e
    let v ← idx intercepts p
    let polynomialP ← setIdx polynomialP 0 v
    pure (writeAt buffer s polynomialP)) buffer

/-- polynomial.go:110-122 `transposeMatrixBuffer` -/
def transposeMatrixBuffer (dest source : List Byte) (rowLen : Nat) : Traced (List Byte) := do
  if ← test (rowLen = 0) then quiet Outcome.panic
  let colLen := source.length / rowLen
  let (dest, _, _) ← forUp source.length (fun i (st : List Byte × Nat × Nat) => do
    let (dest, curSourceRow, curSourceCol) := st
    let v ← idx source (rowLen * curSourceRow + curSourceCol)
    let dest ← setIdx dest i v
    let curSourceRow := curSourceRow + 1
    if ← test (curSourceRow = colLen) then pure (dest, 0, curSourceCol + 1)
    else pure (dest, curSourceRow, curSourceCol)) (dest, 0, 0)
  return dest

/-- polynomial.go:155-174 `evaluatePolynomialsAtWithCoefficientsBuffer` -/
def evaluatePolynomialsAtWithCoefficientsBuffer (arch : Arch) (coefficientsBuff : List Byte)
    (rowLen : Nat) (x : Byte) (out : List Byte) (pool : BytesBufferPool) :
    Traced (List Byte × BytesBufferPool) := do
  if rowLen = 0 then quiet Outcome.panic
  if coefficientsBuff.length / rowLen = 0 then quiet Outcome.panic
  let degree := coefficientsBuff.length / rowLen - 1
  let (resultBuff, pool) := pool.get
  let resultBuff := resultBuff.grow rowLen
  let result ← slice resultBuff.mem 0 rowLen
  let top ← slice coefficientsBuff (degree * rowLen) (degree * rowLen + rowLen)
  let result ← copyInto result top
  let final ← forDown degree (fun i result => do
    let row ← slice coefficientsBuff (i * rowLen) (i * rowLen + rowLen)
    let m ← mulConstVector arch x result
    addVector arch row m) result
  let dst ← slice out 0 rowLen
  let dst ← copyInto dst final
  let out := writeAt out 0 dst
  let left := if Shamir.Arch.inPlace arch then final else result
  return (out, pool.put ⟨writeAt resultBuff.mem 0 left⟩)

/-- shamir.go:58-65 -/
def allocShares (secretLen parts : Nat) (xs : List Byte) : Traced (List (List Byte)) := do
  let out : List (List Byte) := List.replicate parts []
  let buff := List.replicate ((secretLen + 1) * parts) (0 : Byte)
  forUp parts (fun i out => do
    let s := (secretLen + 1) * i
    let e := s + secretLen + 1
    let row ← slice buff s e
    let xc ← idx xs i
    let row ← setIdx row secretLen (xc + 1#8)
    setIdx out i row) out

/-- shamir.go:98-100 -/
def fillShares (arch : Arch) (coefficientBuff : List Byte) (N parts : Nat) (xs : List Byte)
    (out : List (List Byte)) (pool : BytesBufferPool) : Traced (List (List Byte) × BytesBufferPool) :=
  forUp parts (fun i (st : List (List Byte) × BytesBufferPool) => do
    let (out, pool) := st
    let xc ← idx xs i
    let row ← idx out i
    let dst ← slice row 0 N
    let (dst, pool) ← evaluatePolynomialsAtWithCoefficientsBuffer arch coefficientBuff N (xc + 1#8) dst pool
    let out ← setIdx out i (writeAt row 0 dst)
    pure (out, pool)) (out, pool)

/-- shamir.go:30-104 `Split` -/
def split (arch : Arch) (secret : List Byte) (parts threshold : Int) (perm : List Nat)
    (rnd : Nat → Byte) (ps : Shamir.Pools) : Traced (List (List Byte) × Shamir.Pools) := do
  if ← test (parts < threshold) then quiet (err .partsLtThreshold)
  if ← test (parts > 255) then quiet (err .partsExceed255)
  if ← test (threshold < 2) then quiet (err .thresholdLt2)
  if ← test (threshold > 255) then quiet (err .thresholdExceed255)
  if ← test (secret.length = 0) then quiet (err .emptySecret)
  let xCoordinates : List Byte := perm.map fun v => BitVec.ofNat 8 v
  let out ← allocShares secret.length parts.toNat xCoordinates
  let N := secret.length
  let degree := threshold.toNat - 1
  let (polBytesBuff, bPool) := ps.bPool.get
  let polBytesBuff := polBytesBuff.grow ((degree + 1) * N)
  let polBuff ← slice polBytesBuff.mem 0 ((degree + 1) * N)
  let polynomials ← setIntercepts secret degree (Shamir.randRead rnd 0 polBuff)
  let (polTransposeBytesBuff, bPool) := bPool.get
  let polTransposeBytesBuff := polTransposeBytesBuff.grow polynomials.length
  let coefficientBuff ← slice polTransposeBytesBuff.mem 0 polynomials.length
  let coefficientBuff ← transposeMatrixBuffer coefficientBuff polynomials (degree + 1)
  let (out, polyPool) ← fillShares arch coefficientBuff N parts.toNat xCoordinates out ps.polyPool
  let bPool := bPool.put ⟨writeAt polTransposeBytesBuff.mem 0 coefficientBuff⟩
  let bPool := bPool.put ⟨writeAt polBytesBuff.mem 0 polynomials⟩
  return (out, ⟨bPool, polyPool⟩)

end Verif.Leak
