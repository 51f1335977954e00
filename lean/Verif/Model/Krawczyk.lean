import Verif.Model.Shamir
import Verif.Model.ReedSolomon
import Mathlib.Logic.Function.Iterate

/-! # Model of krawczyk/aes.go and krawczyk/krawczyk.go -/

namespace Verif.Krawczyk
open Verif Outcome Galois Csprng RS

/-- How `io.Copy` cuts a stream into pieces: any way. -/
structure Chunking where
  cut : List Byte → List (List Byte)
  flatten_cut : ∀ l, (cut l).flatten = l

/-- The world the package runs in: CPU, AES block function (key, block), Reed-Solomon package, `io.Copy`. -/
structure Env where
  arch : Arch
  aes : List Byte → List Byte → List Byte
  lib : RSLib
  encChunks : Chunking
  decChunks : Chunking

/-! ## aes.go -/

/-- crypto/aes.NewCipher accepts keys of 16, 24 and 32 bytes. -/
def newCipher (env : Env) (key : List Byte) : Outcome (List Byte → List Byte) :=
  if key.length = 16 ∨ key.length = 24 ∨ key.length = 32 then ok (env.aes key) else err .aesKeySize

/-- cipher.NewOFB: byte `i` of the key stream: the block function applied `i/16 + 1` times to the IV. -/
def ofb (block : List Byte → List Byte) (iv : List Byte) (i : Nat) : Byte :=
  (block^[i / 16 + 1] iv).getD (i % 16) 0

/-- A cipher.StreamWriter/StreamReader processing pieces one after another; `pos` bytes of the key stream are used. -/
def xorChunks (ks : Nat → Byte) : Nat → List (List Byte) → List Byte
  | _, [] => []
  | pos, c :: rest => (c.mapIdx fun i b => b ^^^ ks (pos + i)) ++ xorChunks ks (pos + c.length) rest

/-- aes.go:10-26 `encrypt`; the IV is 16 zero bytes. -/
def encrypt (env : Env) (plaintext key : List Byte) : Outcome (List Byte) := do
  let block ← newCipher env key
  pure (xorChunks (ofb block (List.replicate 16 0)) 0 (env.encChunks.cut plaintext))

/-- aes.go:28-44 `decrypt` -/
def decrypt (env : Env) (ciphertext key : List Byte) : Outcome (List Byte) := do
  let block ← newCipher env key
  pure (xorChunks (ofb block (List.replicate 16 0)) 0 (env.decChunks.cut ciphertext))

/-! ## krawczyk.go -/

/-- krawczyk.go:22-36 (also 93-107, 175-189 with the length of the first share): argument checks. -/
def checkArgs (len : Nat) (parts threshold : Int) : Outcome Unit := do
  if len > 4294967295 then err .secretTooLarge
  if threshold = 0 ∨ parts = 0 then err .zeroPartsOrThreshold
  if threshold > parts then err .thresholdGtParts
  if threshold > 255 ∨ parts > 255 then err .partsOrThresholdGt255

/-- krawczyk.go:45-66 (also 116-137): encrypt the secret, encode the ciphertext, append the part ids.
Returns the ciphertext and the encoded shards. -/
def encode (env : Env) (secret key : List Byte) (parts threshold : Int) :
    Outcome (List Byte × List (List Byte)) := do
  let encryptedSecret ← encrypt env secret key
  let encoder ← RS.new env.lib threshold (parts - threshold)
  let encodedSecret ← encoder.split env.lib encryptedSecret
  let encodedSecret ← encoder.encode env.lib encodedSecret
  let encodedSecret ← forUp encodedSecret.length (fun i es => do
    let s ← idx es i
    setIdx es i (s ++ [BitVec.ofNat 8 i])) encodedSecret
  pure (encryptedSecret, encodedSecret)

/-- krawczyk.go:70-73 (also 142-145): the key followed by the length of the ciphertext. -/
def keyLenPair (key encryptedSecret : List Byte) : List Byte :=
  key ++ lePutUint32 (BitVec.ofNat 32 encryptedSecret.length)

/-- krawczyk.go:163-172 `newByteMatrix`: the rows are consecutive windows of one zeroed array (their capacity ends
with the row, which is modelled in `Verif.Model.Heap`). -/
def newByteMatrix (r c : Nat) : Outcome (List (List Byte)) := do
  let a := List.replicate (r * c) (0 : Byte)
  let m : List (List Byte) := List.replicate r []
  let (m, _, _) ← forUp r (fun i (st : List (List Byte) × Nat × Nat) => do
    let (m, lo, hi) := st
    let row ← slice a lo hi
    let m ← setIdx m i row
    pure (m, hi, hi + c)) (m, 0, c)
  pure m

/-- krawczyk.go:80-86 (also 152-158): a share is a metadata share followed by an encoded shard. -/
def assemble (parts : Nat) (encodedSecret ssKeyLenPair : List (List Byte)) : Outcome (List (List Byte)) := do
  let e0 ← idx encodedSecret 0
  let m0 ← idx ssKeyLenPair 0
  let lenEncodedSecret := e0.length
  let lenEncodedMetadata := m0.length
  let results ← newByteMatrix parts (lenEncodedSecret + lenEncodedMetadata)
  forUp parts (fun i results => do
    let row ← idx results i
    let win ← slice row 0 lenEncodedMetadata
    let m ← idx ssKeyLenPair i
    let row := writeAt row 0 (copyInto win m)
    let win ← slice row lenEncodedMetadata row.length
    let e ← idx encodedSecret i
    let row := writeAt row lenEncodedMetadata (copyInto win e)
    setIdx results i row) results

/-- krawczyk.go:21-89 `Split`. `keyRnd` are the bytes of `rand.Read(key)`; `perm` and `rnd` are the randomness of
`shamir.Split`. -/
def split (env : Env) (secret : List Byte) (parts threshold : Int) (keyRnd : Nat → Byte) (perm : List Nat)
    (rnd : Nat → Byte) (ps : Shamir.Pools) : Outcome (List (List Byte) × Shamir.Pools) := do
  checkArgs secret.length parts threshold
  let key := Shamir.randRead keyRnd 0 (List.replicate 16 0)
  let (encryptedSecret, encodedSecret) ← encode env secret key parts threshold
  let (ssKeyLenPair, ps) ← Shamir.split env.arch (keyLenPair key encryptedSecret) parts threshold perm rnd ps
  let results ← assemble parts.toNat encodedSecret ssKeyLenPair
  return (results, ps)

/-- krawczyk.go:91-161 `SplitWithRandomizer`. -/
def splitWithRandomizer (env : Env) (fuel : Nat) (secret : List Byte) (parts threshold : Int) (r : CSPRNG)
    (ps : Shamir.Pools) : Outcome (List (List Byte) × Shamir.Pools) := do
  checkArgs secret.length parts threshold
  let key := r.read (List.replicate 16 0)
  let (encryptedSecret, encodedSecret) ← encode env secret key parts threshold
  let (ssKeyLenPair, ps) ←
    Shamir.splitWithRandomizer env.arch fuel (keyLenPair key encryptedSecret) parts threshold r ps
  let results ← assemble parts.toNat encodedSecret ssKeyLenPair
  return (results, ps)

/-- krawczyk.go:191-209: drop the nil entries.  An entry that is not nil is known by its bytes here, by its slice header
in `Heap.krawczykCombineP`; `default` is the nil slice. -/
def clean {α : Type} [Inhabited α] (ssData : List (Option α)) : Outcome (List α) := do
  let numCleanParts ← forUp ssData.length (fun i n => do
    let d ← idx ssData i
    pure (if d.isSome then n + 1 else n)) 0
  if numCleanParts ≠ ssData.length then do
    let (cleanSSData, _) ← forUp ssData.length (fun i (st : List α × Nat) => do
      let (cleanSSData, j) := st
      let d ← idx ssData i
      match d with
      | none => pure (cleanSSData, j)
      | some x => do
        let cleanSSData ← setIdx cleanSSData j x
        pure (cleanSSData, j + 1)) (List.replicate numCleanParts default, 0)
    pure cleanSSData
  else pure (ssData.map (·.getD default))                        -- no entry is nil

/-- krawczyk.go:211-224: cut the shares into metadata and encoded shards, which are placed by part id.
Returns `encodedData` and `ssMetadata`. -/
def separate (ssData : List (List Byte)) (parts : Int) : Outcome (List (List Byte) × List (List Byte)) := do
  let secretStartIdx := 16 + 4 + 1
  if parts < 0 then panic                                        -- make: negative length
  forUp ssData.length (fun i (st : List (List Byte) × List (List Byte)) => do
    let (encodedData, ssMetadata) := st
    let d ← idx ssData i
    let m ← slice d 0 secretStartIdx
    let ssMetadata ← setIdx ssMetadata i m
    let partID ← idxInt d ((d.length : Int) - 1)
    if partID > BitVec.ofInt 8 parts then err .partIdTooLarge
    let s ← slice d secretStartIdx (d.length - 1)
    let encodedData ← setIdx encodedData partID.toNat s
    pure (encodedData, ssMetadata))
    (List.replicate parts.toNat [], List.replicate ssData.length [])

/-- krawczyk.go:211-224 again, for shares whose capacity may exceed their length: `ssData[i][:secretStartIdx]` is
checked against the capacity of the share, all other operations against its length.  `caps` are the capacities.
Simplification: the bytes between length and capacity are not represented; they are part of `ssMetadata[i]` only for
a share of less than 21 bytes, for which the following lines never succeed. -/
def separateCap (ssData : List (List Byte)) (caps : List Nat) (parts : Int) :
    Outcome (List (List Byte) × List (List Byte)) := do
  let secretStartIdx := 16 + 4 + 1
  if parts < 0 then panic                                        -- make: negative length
  forUp ssData.length (fun i (st : List (List Byte) × List (List Byte)) => do
    let (encodedData, ssMetadata) := st
    let d ← idx ssData i
    let c ← idx caps i
    if c < secretStartIdx then panic
    let ssMetadata ← setIdx ssMetadata i (d.take secretStartIdx)
    let partID ← idxInt d ((d.length : Int) - 1)
    if partID > BitVec.ofInt 8 parts then err .partIdTooLarge
    let s ← slice d secretStartIdx (d.length - 1)
    let encodedData ← setIdx encodedData partID.toNat s
    pure (encodedData, ssMetadata))
    (List.replicate parts.toNat [], List.replicate ssData.length [])

/-- krawczyk.go:174-256 `Combine`.  nil entries of the list are `none`; simplification: the capacity of every share is its
length (`combineCap` is without this simplification; C53 says when it matters). -/
def combine (env : Env) (ssData : List (Option (List Byte))) (parts threshold : Int) : Outcome (List Byte) := do
  let d0 ← idx ssData 0
  checkArgs (d0.getD []).length parts threshold
  let ssData ← clean ssData
  let (encodedData, ssMetadata) ← separate ssData parts
  let metadata ← Shamir.combine ssMetadata
  let key ← slice metadata 0 16
  let lengthBytes ← slice metadata 16 metadata.length
  if lengthBytes.length < 4 then panic                           -- LittleEndian.Uint32
  let length := leUint32 (lengthBytes.take 4)
  let decoder ← RS.new env.lib threshold (parts - threshold)
  let encodedData ← decoder.reconstructData env.lib encodedData
  let ciphertext ← decoder.join encodedData length.toNat
  decrypt env ciphertext key

/-- krawczyk.go:174-256 `Combine` for shares of the given capacities (those of the entries that are not nil). -/
def combineCap (env : Env) (ssData : List (Option (List Byte))) (caps : List Nat) (parts threshold : Int) :
    Outcome (List Byte) := do
  let d0 ← idx ssData 0
  checkArgs (d0.getD []).length parts threshold
  let ssData ← clean ssData
  let (encodedData, ssMetadata) ← separateCap ssData caps parts
  let metadata ← Shamir.combine ssMetadata
  let key ← slice metadata 0 16
  let lengthBytes ← slice metadata 16 metadata.length
  if lengthBytes.length < 4 then panic                           -- LittleEndian.Uint32
  let length := leUint32 (lengthBytes.take 4)
  let decoder ← RS.new env.lib threshold (parts - threshold)
  let encodedData ← decoder.reconstructData env.lib encodedData
  let ciphertext ← decoder.join encodedData length.toNat
  decrypt env ciphertext key

end Verif.Krawczyk
