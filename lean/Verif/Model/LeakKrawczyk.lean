import Verif.Model.LeakCalls
import Verif.Model.Krawczyk

/-! # Package krawczyk, with what an observer of the processor sees of the calls into package shamir

As in `Model/Leak.lean`.  Simplification: only the calls of `shamir.Split`, `shamir.SplitWithRandomizer` and `shamir.Combine` show
something; checking the arguments, AES, Reed-Solomon coding and the copying of shares show nothing. -/

namespace Verif.Leak
open Verif Outcome Csprng Krawczyk

/-- krawczyk.go:21-89 `Split` -/
def krawczykSplit (env : Env) (secret : List Byte) (parts threshold : Int) (keyRnd : Nat → Byte) (perm : List Nat)
    (rnd : Nat → Byte) (ps : Shamir.Pools) : Traced (List (List Byte) × Shamir.Pools) := do
  quiet (checkArgs secret.length parts threshold)
  let key := Shamir.randRead keyRnd 0 (List.replicate 16 0)
  let (encryptedSecret, encodedSecret) ← quiet (encode env secret key parts threshold)
  let (ssKeyLenPair, ps) ← split env.arch (keyLenPair key encryptedSecret) parts threshold perm rnd ps
  let results ← quiet (assemble parts.toNat encodedSecret ssKeyLenPair)
  return (results, ps)

/-- krawczyk.go:91-161 `SplitWithRandomizer` -/
def krawczykSplitWithRandomizer (env : Env) (fuel : Nat) (secret : List Byte) (parts threshold : Int) (r : CSPRNG)
    (ps : Shamir.Pools) : Traced (List (List Byte) × Shamir.Pools) := do
  quiet (checkArgs secret.length parts threshold)
  let key := r.read (List.replicate 16 0)
  let (encryptedSecret, encodedSecret) ← quiet (encode env secret key parts threshold)
  let (ssKeyLenPair, ps) ← splitWithRandomizer env.arch fuel (keyLenPair key encryptedSecret) parts threshold r ps
  let results ← quiet (assemble parts.toNat encodedSecret ssKeyLenPair)
  return (results, ps)

/-- krawczyk.go:174-256 `Combine` -/
def krawczykCombine (env : Env) (ssData : List (Option (List Byte))) (parts threshold : Int) : Traced (List Byte) := do
  let d0 ← quiet (Verif.idx ssData 0)
  quiet (checkArgs (d0.getD []).length parts threshold)
  let ssData ← quiet (clean ssData)
  let (encodedData, ssMetadata) ← quiet (separate ssData parts)
  let metadata ← combine ssMetadata
  let key ← quiet (Verif.slice metadata 0 16)
  let lengthBytes ← quiet (Verif.slice metadata 16 metadata.length)
  if lengthBytes.length < 4 then quiet Outcome.panic                           -- LittleEndian.Uint32
  let length := leUint32 (lengthBytes.take 4)
  let decoder ← quiet (RS.new env.lib threshold (parts - threshold))
  let encodedData ← quiet (decoder.reconstructData env.lib encodedData)
  let ciphertext ← quiet (decoder.join encodedData length.toNat)
  quiet (decrypt env ciphertext key)

end Verif.Leak
