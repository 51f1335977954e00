import Verif.Model.Heap
import Verif.Spec.Sharing
import Mathlib.Data.Fintype.Basic

/-! # Specification: concurrent calls over shared memory -/

namespace Verif.Spec
open Verif Outcome Galois Shamir Verif.Heap

/-- The bytes a slice shows. -/
def contents (h : Arr → List Byte) (s : Slice) : List Byte := ((h s.arr).drop s.off).take s.len

/-- The slice lies inside its array. -/
def InBounds (h : Arr → List Byte) (s : Slice) : Prop := s.off + s.len ≤ (h s.arr).length

/-- The list with nil entries whose other entries are the given ones, in order. -/
def withNils {α β : Type} : List (Option α) → List β → List (Option β)
  | [], _ => []
  | none :: rest, l => none :: withNils rest l
  | some _ :: rest, [] => none :: withNils rest []
  | some _ :: rest, b :: l => some b :: withNils rest l

/-- `src` is a possible output of the random source whose first bytes are the given ones. -/
def Delivers (src : Nat → Byte) (drawn : List Byte) : Prop := ∀ k < drawn.length, src k = drawn.getD k 0

/-- `o` is a correct result (error, or the bytes of the returned slices) of the call `c` executed alone, when the
argument slices show `ins` and the random source delivered `drawn` (and whatever it would deliver afterwards: the result
depends on the bytes drawn only); for `SplitWithRandomizer`, whose result depends
on what a recycled buffer contains (see C30), for some content of the pools.  A panic of `krawczyk.Combine` or
`Regenerate` is a result, too. -/
def Correct (arch : Arch) (c : Call) (ins : List (List Byte)) (drawn : List Byte) (o : Outcome (List (List Byte))) : Prop :=
  match c with
  | .split _ parts threshold perm =>
      ∀ src, Delivers src drawn → ∀ ps, o = Prod.fst <$> split arch (ins.headD []) parts threshold perm src ps
  | .splitWithRandomizer fuel _ parts threshold r =>
      ∃ ps, o = Prod.fst <$> splitWithRandomizer arch fuel (ins.headD []) parts threshold r ps
  | .splitWithRandomizerOld _ parts threshold r =>
      ∀ ps, o = Prod.fst <$> splitWithRandomizerOld arch (ins.headD []) parts threshold r ps
  | .splitGeneric _ parts threshold perm =>
      ∀ src, Delivers src drawn → o = splitGeneric (ins.headD []) parts threshold perm src
  | .combine _ => o = (fun s => [s]) <$> combine ins
  | .regenerate fuel _ n =>
      -- `numNewShares` bytes are drawn first
      ∀ src, Delivers src drawn → o = regenerate fuel ins n src (fun k => src (n.toNat + k))
  | .krawczykSplit env _ parts threshold perm =>
      -- the key is drawn first
      ∀ src, Delivers src drawn → ∀ ps, o = Prod.fst <$> Krawczyk.split { env with arch } (ins.headD []) parts threshold
        src perm (fun k => src (16 + k)) ps
  | .krawczykSplitWithRandomizer env fuel _ parts threshold r =>
      ∃ ps, o = Prod.fst <$> Krawczyk.splitWithRandomizer { env with arch } fuel (ins.headD []) parts threshold r ps
  | .krawczykCombine env ssData parts threshold =>
      o = (fun s => [s]) <$> Krawczyk.combineCap { env with arch } (withNils ssData ins) ((ssData.filterMap id).map (·.cap))
        parts threshold

theorem delivers_getD (drawn : List Byte) : Delivers (fun k => drawn.getD k 0) drawn := fun _ _ => rfl

/-- The result of `rand.Perm(255)` is a permutation, and the tags of the randomizer variants can be generated
(C27, C28 say when they cannot); the Reed-Solomon package keeps its contract; `krawczyk.Combine` gets
no share without payload among shares with payload. -/
def Admissible : Call → Prop
  | .split _ _ _ perm => perm.Perm (List.range 255)
  | .splitWithRandomizer fuel _ parts _ r => ∃ xs, r.getUniqueBytes fuel (BitVec.ofInt 8 parts) = ok xs
  | .splitWithRandomizerOld _ _ _ r => r.perm 255#8 ≠ panic
  | .splitGeneric _ _ _ perm => perm.Perm (List.range 255)
  | .combine _ => True
  | .regenerate _ _ _ => True
  | .krawczykSplit env _ _ _ perm => perm.Perm (List.range 255) ∧ env.lib.Contract
  | .krawczykSplitWithRandomizer env fuel _ parts _ r => env.lib.Contract ∧
      ∃ xs, r.getUniqueBytes fuel (BitVec.ofInt 8 parts) = ok xs
  | .krawczykCombine _ ssData _ _ =>
      -- a share of 22 bytes has no payload; `Combine` uses its spare capacity to store the missing one (C52)
      ∀ s ∈ ssData.filterMap id, s.len = 22 → ∀ s' ∈ ssData.filterMap id, s'.len ≤ 22 ∨ s.cap + 1 < s'.len

/-- A state in which calls can be made: no buffer is in the pools twice, and the arguments are allocated memory
that is not in a pool. -/
structure Start {ι : Type} (σ : Shared) (calls : ι → Call) : Prop where
  poolNodup : (σ.pool .bPool ++ σ.pool .polyPool).Nodup
  poolLt : ∀ p, ∀ a ∈ σ.pool p, a < σ.next
  inputs : ∀ i, ∀ s ∈ (calls i).inputs, InBounds σ.heap s ∧ s.len ≤ s.cap ∧ s.arr < σ.next ∧ ∀ p, s.arr ∉ σ.pool p

/-- All calls about to start. -/
def initial {ι : Type} (arch : Arch) (σ : Shared) (calls : ι → Call) : Config ι (Outcome (List Slice)) :=
  ⟨σ, fun i => ⟨(calls i).prog arch, []⟩⟩

/-- Cell accessed by the next operation of a program, and whether it is a store. -/
def nextAccess {α : Type} : Prog α → Option (Arr × Nat × Bool)
  | .read a i _ => some (a, i, false)
  | .write a i _ _ => some (a, i, true)
  | _ => none

/-- Two threads are about to access the same cell, at least one of them storing. -/
def Race {ι α : Type} (c : Config ι α) : Prop :=
  ∃ i j a k w w', i ≠ j ∧ nextAccess (c.thread i).prog = some (a, k, w) ∧
    nextAccess (c.thread j).prog = some (a, k, w') ∧ (w = true ∨ w' = true)

/-- The number of buffers of each pool that one call may have in use at one time. -/
def atMost : PoolId → Nat
  | .bPool => 2
  | .polyPool => 1

/-- The calls that have not returned. -/
noncomputable def running {ι α : Type} [Fintype ι] (c : Config ι α) : Finset ι :=
  letI := Classical.decPred fun i => ∀ r, (c.thread i).prog ≠ .ret r
  Finset.univ.filter fun i => ∀ r, (c.thread i).prog ≠ .ret r

end Verif.Spec
