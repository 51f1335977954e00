/-!
# Basic vocabulary of the model

Go `uint8`/`byte` values, the ways a Go call can end, checked slice operations and loops.
Nothing here is specific to /repo; these are the Go language constructs the model is written in.
-/

namespace Verif

/-- Go `uint8` / `byte` (arithmetic wraps modulo 256). -/
abbrev Byte := BitVec 8

/-- The distinct non-nil errors the modelled functions return. -/
inductive Err where
  /-- shamir.go:33 "parts cannot be less than threshold" -/
  | partsLtThreshold
  /-- shamir.go:36 "parts cannot exceed 255" -/
  | partsExceed255
  /-- shamir.go:39 "threshold must be at least 2" -/
  | thresholdLt2
  /-- shamir.go:42 "threshold cannot exceed 255" -/
  | thresholdExceed255
  /-- shamir.go:45 "cannot split an empty secret" -/
  | emptySecret
  /-- shamir.go:371 "less than two parts cannot be used to reconstruct the secret" -/
  | lessThanTwoParts
  /-- shamir.go:377 "parts must be at least two bytes" -/
  | partTooShort
  /-- shamir.go:381 "all parts must be the same length" -/
  | partLengthMismatch
  /-- shamir.go:398 "duplicate part detected" -/
  | duplicatePart
  /-- krawczyk.go:23 / :176 "the provided secret is to large" -/
  | secretTooLarge
  /-- krawczyk.go:27 "#parts and #threshold can not be zero" -/
  | zeroPartsOrThreshold
  /-- krawczyk.go:30 "threshold should be less to the number of parts" -/
  | thresholdGtParts
  /-- krawczyk.go:34 "#parts and #threshold should be less than 256" -/
  | partsOrThresholdGt255
  /-- krawczyk.go:48 "failed to initialize aes" (crypto/aes.NewCipher: invalid key size) -/
  | aesKeySize
  /-- krawczyk.go:54 / :238 "failed to initialize reed-solomon encoder" -/
  | rsInit
  /-- krawczyk.go:58 / :61 "failed to encode the secret" -/
  | rsEncode
  /-- krawczyk.go:221 "part-id should be less than the number of parts" -/
  | partIdTooLarge
  /-- krawczyk.go:242 "failed to reconstruct data" -/
  | rsReconstruct
  /-- krawczyk.go:246 "failed to decode the data" -/
  | rsJoin
  /-- worker.go:26 / :36 "invalid secret-sharing algorithm" -/
  | invalidAlgorithm
  deriving DecidableEq, Repr

/-- How a Go call can end. -/
inductive Outcome (α : Type) where
  /-- returned normally with a nil error -/
  | ok (a : α)
  /-- returned a non-nil error -/
  | err (e : Err)
  /-- run-time panic (index/slice out of range, division by zero, explicit `panic`, `log.Fatal`) -/
  | panic
  /-- assembly code accessed memory outside of the slices it was given (no panic in Go: memory is corrupted) -/
  | corrupt
  /-- a loop did not finish within the fuel supplied to the model -/
  | spin
  deriving DecidableEq, Repr

namespace Outcome

/-- Sequencing: anything but a normal return ends the call. -/
def bind {α β : Type} : Outcome α → (α → Outcome β) → Outcome β
  | ok a, f => f a
  | err e, _ => err e
  | panic, _ => panic
  | corrupt, _ => corrupt
  | spin, _ => spin

instance : Monad Outcome where
  pure := ok
  bind := bind

@[simp] theorem pure_eq {α : Type} (a : α) : (pure a : Outcome α) = ok a := rfl
@[simp] theorem ok_bind {α β : Type} (a : α) (f : α → Outcome β) : (ok a >>= f) = f a := rfl
@[simp] theorem err_bind {α β : Type} (e : Err) (f : α → Outcome β) : (err e >>= f) = err e := rfl
@[simp] theorem panic_bind {α β : Type} (f : α → Outcome β) : ((panic : Outcome α) >>= f) = panic := rfl
@[simp] theorem corrupt_bind {α β : Type} (f : α → Outcome β) :
    ((corrupt : Outcome α) >>= f) = corrupt := rfl
@[simp] theorem spin_bind {α β : Type} (f : α → Outcome β) : ((spin : Outcome α) >>= f) = spin := rfl
@[simp] theorem map_ok {α β : Type} (a : α) (f : α → β) : (f <$> ok a) = ok (f a) := rfl

theorem bind_eq_ok {α β : Type} {x : Outcome α} {f : α → Outcome β} {b : β} :
    (x >>= f) = ok b ↔ ∃ a, x = ok a ∧ f a = ok b := by
  cases x <;> simp

theorem bind_assoc {α β γ : Type} (x : Outcome α) (f : α → Outcome β) (g : β → Outcome γ) :
    ((x >>= f) >>= g) = (x >>= fun a => f a >>= g) := by
  cases x <;> rfl

@[simp] theorem bind_ok_right {α : Type} (x : Outcome α) : (x >>= fun a => ok a) = x := by
  cases x <;> rfl

instance : LawfulMonad Outcome := LawfulMonad.mk'
  (id_map := by intro α x; cases x <;> rfl)
  (pure_bind := by intros; rfl)
  (bind_assoc := by intro α β γ x f g; cases x <;> rfl)

/-- The call returned to its caller (with a value or an error). -/
def Returns {α : Type} (o : Outcome α) : Prop := (∃ a, o = ok a) ∨ (∃ e, o = err e)

end Outcome

open Outcome

/-! ## Checked slice operations

A Go slice is modelled as the list of its elements (capacity = length); the aliasing-sensitive
properties use the separate heap model in `Verif.Model.Heap`. -/

/-- `l[i]`; panics when out of range. -/
def idx {α : Type} (l : List α) (i : Nat) : Outcome α :=
  match l[i]? with
  | some a => ok a
  | none => panic

/-- `l[i]` for a possibly negative index. -/
def idxInt {α : Type} (l : List α) (i : Int) : Outcome α :=
  if i < 0 then panic else idx l i.toNat

/-- `l[i] = v`; panics when out of range. -/
def setIdx {α : Type} (l : List α) (i : Nat) (v : α) : Outcome (List α) :=
  if i < l.length then ok (l.set i v) else panic

/-- `l[s:e]`; panics unless `s ≤ e ≤ len(l)`. -/
def slice {α : Type} (l : List α) (s e : Nat) : Outcome (List α) :=
  if s ≤ e ∧ e ≤ l.length then ok ((l.drop s).take (e - s)) else panic

/-- The content of `dst` after `copy(dst, src)`. -/
def copyInto {α : Type} (dst src : List α) : List α :=
  src.take dst.length ++ dst.drop src.length

/-- The content of `l` after its window `l[s:s+len(w)]` was overwritten with `w`. -/
def writeAt {α : Type} (l : List α) (s : Nat) (w : List α) : List α :=
  l.take s ++ w ++ l.drop (s + w.length)

/-! ## Loops -/

/-- `for i := 0; i < n; i++ { s = body(i, s) }` -/
def forUp {σ : Type} (n : Nat) (body : Nat → σ → Outcome σ) (s : σ) : Outcome σ :=
  match n with
  | 0 => ok s
  | n + 1 => forUp n body s >>= body n

/-- `for i := n-1; i >= 0; i-- { s = body(i, s) }` -/
def forDown {σ : Type} (n : Nat) (body : Nat → σ → Outcome σ) (s : σ) : Outcome σ :=
  match n with
  | 0 => ok s
  | n + 1 => body n s >>= forDown n body

/-! ## Little-endian words (`encoding/binary.LittleEndian`) -/

/-- `binary.LittleEndian.Uint64` of the 8 bytes `bs` (byte 0 least significant). -/
def leUint64 (bs : List Byte) : BitVec 64 :=
  bs.foldr (fun b acc => (acc <<< 8) ||| b.setWidth 64) 0

/-- `binary.LittleEndian.PutUint64`: the 8 bytes of `w`, least significant first. -/
def lePutUint64 (w : BitVec 64) : List Byte :=
  (List.range 8).map fun k => (w >>> (8 * k)).setWidth 8

/-- `binary.LittleEndian.Uint32`. -/
def leUint32 (bs : List Byte) : BitVec 32 :=
  bs.foldr (fun b acc => (acc <<< 8) ||| b.setWidth 32) 0

/-- `binary.LittleEndian.PutUint32`. -/
def lePutUint32 (w : BitVec 32) : List Byte :=
  (List.range 4).map fun k => (w >>> (8 * k)).setWidth 8

/-! ## Packed table rows -/

/-- Byte `i` of a row of `n` bytes packed most significant byte first (see Tables/*.lean). -/
def rowByte (row n i : Nat) : Byte := BitVec.ofNat 8 (row >>> (8 * (n - 1 - i)))

/-- The row as a byte slice. -/
def rowBytes (row n : Nat) : List Byte := (List.range n).map (rowByte row n)

end Verif
