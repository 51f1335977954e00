import Verif.Model.ReedSolomon
import Verif.Spec.Sharing

/-! # Specification: krawczyk shares -/

namespace Verif.Spec
open Verif RS

/-- The argument checks common to krawczyk.Split (`len` is the length of the secret) and krawczyk.Combine (`len` is the
length of the first share): the first violated condition, if any. -/
def kArgError (len : Nat) (parts threshold : Int) : Option Err :=
  if len > 2 ^ 32 - 1 then some .secretTooLarge
  else if threshold = 0 ∨ parts = 0 then some .zeroPartsOrThreshold
  else if threshold > parts then some .thresholdGtParts
  else if threshold > 255 ∨ parts > 255 then some .partsOrThresholdGt255
  else none

/-- The error krawczyk.Split returns, if any: the documented checks first, then the errors of the Reed-Solomon package
(number of shards, empty data) and of shamir.Split. -/
def kSplitError (lib : RSLib) (secret : List Byte) (parts threshold : Int) : Option Err :=
  (kArgError secret.length parts threshold).or
    (if threshold < 0 ∨ (parts = threshold ∧ lib.allowsNoParity = false) then some .rsInit
    else if secret = [] then some .rsEncode
    else if threshold = 1 then some .thresholdLt2
    else none)

/-- The index of a krawczyk share: its last byte. -/
def partNo (share : List Byte) : Nat := (share.getD (share.length - 1) 0).toNat

/-- A share `Combine` can process: 21 bytes of metadata, the shard, the index. -/
def WellFormed (parts : Int) (share : List Byte) : Prop := 22 ≤ share.length ∧ (partNo share : Int) < parts

/-- Output feedback mode with 16-byte blocks: `o` is the previous output block (at the start: the IV); each output
block is the encryption of the previous one, and is added to the next block of the message. -/
def outputFeedback (E : List Byte → List Byte) (o : List Byte) (m : List Byte) : List Byte :=
  if m = [] then []
  else List.zipWith (· ^^^ ·) (m.take 16) (E o) ++ outputFeedback E (E o) (m.drop 16)
termination_by m.length
decreasing_by
  rename_i h
  have := List.length_pos_iff.2 h
  simp; omega

/-- Length divided by the number of data shards, rounded up. -/
def ceilDiv (len k : Nat) : Nat := (len + k - 1) / k

/-- A krawczyk share whose shard was changed by adding `mask`, byte by byte; its 21 bytes of metadata and its index (the
last byte) are unchanged. -/
def tamper (share mask : List Byte) : List Byte :=
  List.zipWith (· ^^^ ·) share (List.replicate 21 0 ++ mask ++ [0])

/-- Byte 20 of a krawczyk share: the tag of the Shamir share that its first 21 bytes (the metadata) are. -/
def metaTag (share : List Byte) : Byte := share.getD 20 0

/-- A krawczyk share to whose first 20 bytes (the payload of the metadata share) the 20 bytes `mask` were added. -/
def tamperMeta (share mask : List Byte) : List Byte :=
  List.zipWith (· ^^^ ·) (share.take 20) mask ++ share.drop 20

end Verif.Spec
