import Verif.Basic

/-! # The external package github.com/klauspost/reedsolomon v1.9.15, as far as krawczyk.go uses it

The package is not part of /repo and its source is not available here.  The control flow (argument checks, which
shards are touched) is modelled from its documented behaviour; the arithmetic is a parameter `RSLib` about which
`RSLib.Contract` states the documented guarantee: from any `k` of the `k + m` shards the data can be recovered.
`Verif.Spec.ReedSolomon` contains an implementation (polynomial interpolation) that satisfies the contract.

A shard is a list of bytes; nil and empty slices both mean "missing" to the package and are both `[]`. -/

namespace Verif.RS
open Verif Outcome

/-- The parts of the package that are left open. -/
structure RSLib where
  /-- whether `New` accepts zero parity shards (this changed between releases) -/
  allowsNoParity : Bool
  /-- `Split` extends its argument by bytes it finds in the spare capacity of the slice, or zeros -/
  stale : List Byte → Nat → Byte
  /-- parity shard `r` computed by `Encode` from the data shards -/
  parity : (k m : Nat) → (data : List (List Byte)) → (r : Nat) → List Byte
  /-- missing data shard `i` computed by `ReconstructData` from the other shards -/
  missing : (k m : Nat) → (shards : List (List Byte)) → (i : Nat) → List Byte

/-- An encoder: `k` data shards and `m` parity shards. -/
structure Encoder where
  k : Nat
  m : Nat
  deriving DecidableEq, Repr

/-- `reedsolomon.New(dataShards, parityShards)`: called at krawczyk.go:52, 123, 236. -/
def new (lib : RSLib) (dataShards parityShards : Int) : Outcome Encoder :=
  if dataShards ≤ 0 ∨ parityShards < 0 ∨ (parityShards = 0 ∧ lib.allowsNoParity = false) then err .rsInit
  else if dataShards + parityShards > 256 then err .rsInit
  else ok ⟨dataShards.toNat, parityShards.toNat⟩

/-- Bytes per shard: the length divided by the number of data shards, rounded up. -/
def perShard (len k : Nat) : Nat := (len + k - 1) / k

/-- `encoder.Split(data)`: called at krawczyk.go:56, 127.  Consecutive pieces of `data` followed by stale bytes; the
last `m` pieces are the parity shards, not yet computed. -/
def Encoder.split (e : Encoder) (lib : RSLib) (data : List Byte) : Outcome (List (List Byte)) :=
  if data.length = 0 then err .rsEncode
  else
    let per := perShard data.length e.k
    ok ((List.range (e.k + e.m)).map fun i => (List.range per).map fun j =>
      if i * per + j < data.length then data.getD (i * per + j) 0 else lib.stale data (i * per + j))

/-- The length of the first shard that is not missing, 0 if all are. -/
def shardSize : List (List Byte) → Nat
  | [] => 0
  | s :: rest => if s.length ≠ 0 then s.length else shardSize rest

/-- The parity shards of the data shards. -/
def parityShards (lib : RSLib) (k m : Nat) (data : List (List Byte)) : List (List Byte) :=
  (List.range m).map (lib.parity k m data)

/-- `encoder.Encode(shards)`: called at krawczyk.go:60, 131. The shards after the call. -/
def Encoder.encode (e : Encoder) (lib : RSLib) (shards : List (List Byte)) : Outcome (List (List Byte)) :=
  if shards.length ≠ e.k + e.m then err .rsEncode
  else if shardSize shards = 0 then err .rsEncode
  else if ∃ s ∈ shards, s.length ≠ shardSize shards then err .rsEncode
  else ok (shards.take e.k ++ parityShards lib e.k e.m (shards.take e.k))

/-- `decoder.ReconstructData(shards)`: called at krawczyk.go:241. The shards after the call. -/
def Encoder.reconstructData (e : Encoder) (lib : RSLib) (shards : List (List Byte)) : Outcome (List (List Byte)) :=
  if shards.length ≠ e.k + e.m then err .rsReconstruct
  else if shardSize shards = 0 then err .rsReconstruct
  else if ∃ s ∈ shards, s ≠ [] ∧ s.length ≠ shardSize shards then err .rsReconstruct
  else if [] ∉ shards.take e.k then ok shards
  else if (shards.filter (· ≠ [])).length < e.k then err .rsReconstruct
  else ok (shards.mapIdx fun i s => if i < e.k ∧ s = [] then lib.missing e.k e.m shards i else s)

/-- `decoder.Join(dst, shards, outSize)`: called at krawczyk.go:244. The bytes written to `dst`.  (A missing data shard
cannot occur after `ReconstructData` and is not modelled.) -/
def Encoder.join (e : Encoder) (shards : List (List Byte)) (outSize : Nat) : Outcome (List Byte) :=
  if shards.length < e.k then err .rsJoin
  else if (shards.take e.k).flatten.length < outSize then err .rsJoin
  else ok ((shards.take e.k).flatten.take outSize)

/-- What the package documents: parity shards are as long as data shards, reconstructed shards are as long as the others,
and any `k` shards suffice to recover the missing data shards. -/
structure RSLib.Contract (lib : RSLib) : Prop where
  parity_length : ∀ (k m L : Nat) (data : List (List Byte)), 0 < k → k + m ≤ 256 → data.length = k →
    (∀ d ∈ data, d.length = L) → ∀ r < m, (lib.parity k m data r).length = L
  missing_length : ∀ (k m : Nat) (shards : List (List Byte)), 0 < k → k + m ≤ 256 → shards.length = k + m →
    (∀ s ∈ shards, s = [] ∨ s.length = shardSize shards) → k ≤ (shards.filter (· ≠ [])).length →
    ∀ i < k, (lib.missing k m shards i).length = shardSize shards
  recovers : ∀ (k m L : Nat) (data shards : List (List Byte)), 0 < k → k + m ≤ 256 → 0 < L → data.length = k →
    (∀ d ∈ data, d.length = L) → shards.length = k + m →
    (∀ i < k + m, shards.getD i [] = (data ++ parityShards lib k m data).getD i [] ∨ shards.getD i [] = []) →
    k ≤ (shards.filter (· ≠ [])).length →
    ∀ i < k, shards.getD i [] = [] → lib.missing k m shards i = data.getD i []

end Verif.RS
