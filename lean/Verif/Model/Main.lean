import Verif.Model.Krawczyk

/-! # Model of main.go

The program prints lines and ends normally, by `log.Fatalf` (here: `err`) or by a panic, or never.  The durations it
measures and prints are not modelled.  DEBUG is false. -/

namespace Verif.Main
open Verif Outcome Galois

/-- A line on standard output: a text (main.go:39-40), or the latency for messages of some length (main.go:60, 91; the
measured duration is left out). -/
inductive Line where
  | text (s : List Byte)
  | latency (msgLen : Nat)
  deriving DecidableEq, Repr

/-- A run of a piece of the program: what it printed and how it ended.  `err e` stands for a call of `log.Fatalf` because
of the error `e`. -/
structure Run (α : Type) where
  out : List Line
  res : Outcome α

/-- `p; q`: `q` runs only if `p` came to its end. -/
def Run.andThen {α β : Type} (p : Run α) (q : α → Run β) : Run β :=
  match p.res with
  | ok a => ⟨p.out ++ (q a).out, (q a).res⟩
  | err e => ⟨p.out, err e⟩
  | .panic => ⟨p.out, .panic⟩
  | corrupt => ⟨p.out, corrupt⟩
  | spin => ⟨p.out, spin⟩

instance : Monad Run where
  pure a := ⟨[], ok a⟩
  bind := Run.andThen

/-- `fmt.Println`, `fmt.Printf` -/
def print (l : Line) : Run Unit := ⟨[l], ok ()⟩

/-- A call that prints nothing, followed by `if err != nil { log.Fatalf(...) }`. -/
def orFatal {α : Type} (o : Outcome α) : Run α := ⟨[], o⟩

/-- The randomness of one call of `shamir.Split`. -/
structure Draw where
  perm : List Nat
  rnd : Nat → Byte

/-- Number of calls of `shamir.Split` so far, and the buffer pools. -/
structure St where
  calls : Nat
  ps : Shamir.Pools

/-- `shamir.Split` in the state of the program; `draws n` is the randomness of the call number `n`. -/
def splitCall (arch : Arch) (draws : Nat → Draw) (msg : List Byte) (part threshold : Int) (st : St) :
    Outcome (List (List Byte) × St) := do
  let (shares, ps) ← Shamir.split arch msg part threshold (draws st.calls).perm (draws st.calls).rnd st.ps
  pure (shares, ⟨st.calls + 1, ps⟩)

/-- main.go:26-41 `checkSecretSharing` -/
def checkSecretSharing (arch : Arch) (draws : Nat → Draw) (msg : List Byte) (part threshold : Int) (st : St) :
    Run St := do
  let (shares, st) ← orFatal (splitCall arch draws msg part threshold st)
  let origMsg ← orFatal (Shamir.combine shares)
  print (.text msg)
  print (.text origMsg)
  pure st

/-- main.go:44-65 `measureSecretSharingLatency`.  `fuel` bounds the number of iterations of the outer loop. -/
def measureSecretSharingLatency (arch : Arch) (draws : Nat → Draw) (msgLenMax repetition : Int) :
    Nat → List Byte → St → Run St
  | 0, _, _ => ⟨[], spin⟩
  | fuel + 1, msg, st =>
    if (msg.length : Int) ≤ msgLenMax then do
      let st ← orFatal (forUp repetition.toNat (fun _ st => do
        let (_, st) ← splitCall arch draws msg 4 2 st
        pure st) st)
      print (.latency msg.length)
      measureSecretSharingLatency arch draws msgLenMax repetition fuel (msg ++ msg) st
    else pure st

/-- main.go:78-90: the repetitions for one message length.  `ivs n` is the result of `io.ReadFull(rand.Reader, iv)` in
the call number `n`: 16 bytes, or an error; then `measureEncryptionLatency` returns silently (`none`).  The state is the
number of reads so far.  The ciphertext is thrown away and not modelled; what is left of
`cipher.NewCFBEncrypter(...).XORKeyStream` is that it panics unless the destination is as long as the message. -/
def encryptLoop (ivs : Nat → Option (List Byte)) (msg : List Byte) (repetition : Int) (n : Nat) : Outcome (Option Nat) :=
  forUp repetition.toNat (fun _ (st : Option Nat) => do
    match st with
    | none => pure none
    | some n => do
      let cipherText := List.replicate (16 + msg.length) (0 : Byte)
      let _iv ← slice cipherText 0 16
      match ivs n with
      | none => pure none
      | some _ => do
        let dst ← slice cipherText 16 cipherText.length
        if dst.length < msg.length then Outcome.panic
        pure (some (n + 1))) (some n)

/-- main.go:76-96: the outer loop of `measureEncryptionLatency`. -/
def encryptLengths (ivs : Nat → Option (List Byte)) (msgLenMax repetition : Int) : Nat → List Byte → Nat → Run Unit
  | 0, _, _ => ⟨[], spin⟩
  | fuel + 1, msg, n =>
    if (msg.length : Int) ≤ msgLenMax then do
      let r ← orFatal (encryptLoop ivs msg repetition n)
      match r with
      | none => pure ()
      | some n => do
        print (.latency msg.length)
        encryptLengths ivs msgLenMax repetition fuel (msg ++ msg) n
    else pure ()

/-- A string constant of ASCII characters. -/
def ascii (s : String) : List Byte := s.toList.map fun c => BitVec.ofNat 8 c.toNat

/-- main.go:68-97 `measureEncryptionLatency` -/
def measureEncryptionLatency (env : Krawczyk.Env) (ivs : Nat → Option (List Byte)) (msgLenMax repetition : Int)
    (fuel : Nat) (initMsg : List Byte) : Run Unit := do
  let _block ← orFatal (Krawczyk.newCipher env (ascii "0123456789012345"))
  encryptLengths ivs msgLenMax repetition fuel initMsg 0

/-- main.go:16-24 `main`, started with fresh pools on a machine with `numCPU` processors. -/
def main (env : Krawczyk.Env) (draws : Nat → Draw) (ivs : Nat → Option (List Byte)) (numCPU fuel : Nat) : Run Unit := do
  let msg := ascii "A quick brown fox jumped over the lazy dog.aaaaaaaaaaaaaaaaaaaaa"
  let repetition := 1000
  let msgLenMax := 32768
  let st ← checkSecretSharing env.arch draws msg 4 2 ⟨0, Shamir.Pools.init numCPU⟩
  let _st ← measureSecretSharingLatency env.arch draws msgLenMax repetition fuel msg st
  measureEncryptionLatency env ivs msgLenMax repetition fuel msg

end Verif.Main
