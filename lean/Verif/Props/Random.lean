import Verif.Proofs.Payload
import Verif.Proofs.CombineAlg

/-! # C26–C32: the pseudo-random sources and SplitWithRandomizer

`r.ks i` is byte `i` of the AES-CTR key stream of the randomizer's key and IV. -/

namespace Verif.Props
open Verif Outcome Galois Spec Proofs Shamir Pool Csprng Randomizer Polynomial

/-- C26: `CSPRNG.Read` xors the key stream, from its start, into the buffer. -/
theorem C26_read (r : CSPRNG) (b : List Byte) :
    (r.read b).length = b.length ∧ ∀ i, (h : i < b.length) → (r.read b)[i]? = some (b[i] ^^^ r.ks i) := by
  refine ⟨length_read r b, fun i h => ?_⟩
  simp [CSPRNG.read, h]

example : (⟨fun i => BitVec.ofNat 8 (3 * i + 1)⟩ : CSPRNG).read [7, 7] = [6, 3] := by decide

/-- C26: reading into zeroed buffers always gives a prefix of the same stream, however often one reads. -/
theorem C26_read_prefix (r : CSPRNG) (m n : Nat) (h : m ≤ n) :
    r.read (List.replicate m 0) = (r.read (List.replicate n 0)).take m := by
  rw [read_zeros, read_zeros, ← List.map_take, List.take_range, Nat.min_eq_left h]

/-- C26: reading twice into the same buffer restores it. -/
theorem C26_read_twice (r : CSPRNG) (b : List Byte) : r.read (r.read b) = b := by
  apply List.ext_getElem
  · simp [CSPRNG.read]
  · intro i h1 h2
    simp [CSPRNG.read, BitVec.xor_assoc]

example : (⟨fun i => BitVec.ofNat 8 (3 * i + 1)⟩ : CSPRNG).read [0, 0, 5] = [1, 4, 2] := by decide

/-- C27: `CSPRNG.Perm(n)` panics exactly for n < 2 and, for n ≥ 3, when the first key stream byte is n-1
modulo n; in all other cases the result is a permutation of 0..n-1. -/
theorem C27_perm (r : CSPRNG) (n : Byte) :
    (r.perm n = panic ↔ n.toNat < 2 ∨ 3 ≤ n.toNat ∧ (r.ks 0).toNat % n.toNat = n.toNat - 1) ∧
    (r.perm n ≠ panic → ∃ l, r.perm n = ok l ∧ l.Perm ((List.range n.toNat).map (BitVec.ofNat 8))) := by
  rcases perm_cases r n with ⟨h1, h2⟩ | ⟨⟨l, h1, h2⟩, h3⟩
  · exact ⟨⟨fun _ => h2, fun _ => h1⟩, fun h => absurd h1 h⟩
  · exact ⟨⟨fun h => (by rw [h1] at h; exact absurd h (by simp)), fun h => absurd h h3⟩, fun _ => ⟨l, h1, h2⟩⟩

theorem C27_perm255 (r : CSPRNG) : r.perm 255#8 = panic ↔ r.ks 0 = 254#8 := perm255_panic_iff r

example : (⟨fun _ => 254⟩ : CSPRNG).perm 255 = panic := (C27_perm255 _).2 rfl
example : (⟨fun i => BitVec.ofNat 8 (3 * i)⟩ : CSPRNG).perm 5 = ok [1, 2, 4, 3, 0] := by decide +kernel

/-- C28: whenever `GetUniqueBytes(n)` returns, it returns n pairwise distinct bytes. -/
theorem C28_distinct (r : CSPRNG) (n : Byte) (fuel : Nat) (l : List Byte) (h : r.getUniqueBytes fuel n = ok l) :
    l.length = n.toNat ∧ l.Nodup := getUnique_ok_spec h

/-- How many of the first n key stream bytes are `v` or `v xor k0`. -/
def classCount (r : CSPRNG) (n : Nat) (v : Byte) : Nat :=
  ((List.range n).filter fun i => r.ks i = v ∨ r.ks i = v ^^^ r.ks 0).length

/-- The size of the class {v, v xor k0}. -/
def classSize (r : CSPRNG) : Nat := if r.ks 0 = 0 then 1 else 2

theorem orbit_card (r : CSPRNG) (v : Byte) : (orbit r v).card = classSize r := by
  unfold orbit classSize
  split
  · rename_i h; rw [h]; simp
  · rename_i h
    apply Finset.card_pair
    intro e
    apply h
    have : v ^^^ v = v ^^^ (v ^^^ r.ks 0) := congrArg (v ^^^ ·) e
    rw [← BitVec.xor_assoc, BitVec.xor_self, BitVec.zero_xor] at this
    exact this.symm

theorem orbitsFit_iff (r : CSPRNG) (n : Nat) : OrbitsFit r n ↔ ∀ v, classCount r n v ≤ classSize r := by
  unfold OrbitsFit
  constructor <;> intro h v <;> have := h v <;> rw [← orbit_card r v] at * <;>
    simpa [orbitCount, classCount, orbit] using this

/-- C28: for n < 20, `GetUniqueBytes(n)` returns iff no class {v, v xor k0} occurs more often among the first
n key stream bytes than it has members; otherwise it loops forever (no amount of fuel suffices). -/
theorem C28_small (r : CSPRNG) (n : Byte) (hn : n.toNat < 20) :
    ((∀ v, classCount r n.toNat v ≤ classSize r) → ∃ l, ∀ fuel, 2 ≤ fuel → r.getUniqueBytes fuel n = ok l) ∧
    ((∃ v, classSize r < classCount r n.toNat v) → ∀ fuel, r.getUniqueBytes fuel n = spin) := by
  refine ⟨fun h => ?_, fun ⟨v, hv⟩ fuel => ?_⟩
  · have hf := (orbitsFit_iff r n.toNat).2 h
    obtain ⟨l, hl, -⟩ := getUnique_small_ok hn hf 0
    refine ⟨l, fun fuel h2 => ?_⟩
    obtain ⟨f, rfl⟩ : ∃ f, fuel = f + 2 := ⟨fuel - 2, by omega⟩
    exact getUnique_mono hn hl f
  · apply getUnique_small_spin hn
    intro hf
    have := (orbitsFit_iff r n.toNat).1 hf v
    omega

/-- C28: for n ≥ 20, `GetUniqueBytes(n)` panics iff the first key stream byte is 254, and otherwise returns
n distinct bytes below 255. -/
theorem C28_large (r : CSPRNG) (n : Byte) (hn : 20 ≤ n.toNat) (fuel : Nat) :
    (r.ks 0 = 254#8 → r.getUniqueBytes fuel n = panic) ∧
    (r.ks 0 ≠ 254#8 → ∃ l, r.getUniqueBytes fuel n = ok l ∧ l.length = n.toNat ∧ l.Nodup ∧ 255#8 ∉ l) :=
  ⟨fun h => getUnique_big_panic hn h fuel, fun h => getUnique_big_ok hn h fuel⟩

example : ∀ fuel, (⟨fun _ => 7⟩ : CSPRNG).getUniqueBytes fuel 3 = spin :=
  (C28_small _ 3 (by decide)).2 ⟨7, by decide⟩
example : (⟨fun i => BitVec.ofNat 8 (i / 2)⟩ : CSPRNG).getUniqueBytes 5 2 = spin := by decide
example : (⟨fun i => BitVec.ofNat 8 (i / 2 + 5)⟩ : CSPRNG).getUniqueBytes 2 3 = ok [5, 0, 6] := by decide

example : [5, 0, 6].length = (3 : Byte).toNat ∧ ([5, 0, 6] : List Byte).Nodup :=
  C28_distinct ⟨fun i => BitVec.ofNat 8 (i / 2 + 5)⟩ 3 2 [5, 0, 6] (by decide)
example : ∃ l, (⟨fun i => BitVec.ofNat 8 (17 * i)⟩ : CSPRNG).getUniqueBytes 0 200 = ok l ∧ l.length = 200 ∧ l.Nodup ∧ 255#8 ∉ l :=
  (C28_large _ 200 (by decide) 0).2 (by decide)
example : (⟨fun _ => 254⟩ : CSPRNG).getUniqueBytes 7 20 = panic := (C28_large _ 20 (by decide) 7).1 rfl

/-- C13, C28: with fewer than 20 parts and otherwise valid arguments, `SplitWithRandomizer` returns shares iff no
class {v, v xor k0} occurs too often among the first `parts` key stream bytes; otherwise it never returns. -/
theorem C13_C28_splitWithRandomizer_returns (arch : Arch) (secret : List Byte) (parts threshold : Int)
    (r : CSPRNG) (ps : Pools) (hv : ValidArgs secret parts threshold) (h20 : parts < 20) :
    ((∀ v, classCount r parts.toNat v ≤ classSize r) → ∃ res, ∀ fuel, 2 ≤ fuel →
      splitWithRandomizer arch fuel secret parts threshold r ps = ok res) ∧
    ((∃ v, classSize r < classCount r parts.toNat v) → ∀ fuel,
      splitWithRandomizer arch fuel secret parts threshold r ps = spin) := by
  have ⟨v1, v2, v3, v4⟩ := hv
  have hn := ofInt_toNat (parts := parts) (by omega) v2
  have h := C28_small r (BitVec.ofInt 8 parts) (by omega)
  rw [hn] at h
  refine ⟨fun hc => ?_, fun hc fuel => ?_⟩
  · obtain ⟨l, hl⟩ := h.1 hc
    have hlen := (getUnique_ok_spec (hl 2 (le_refl _))).1
    obtain ⟨pp, e⟩ := splitWithRandomizer_payload arch 2 r ps hv l (hl 2 (le_refl _))
    refine ⟨_, fun fuel hf => Eq.trans ?_ e⟩
    unfold splitWithRandomizer
    rw [hl fuel hf, hl 2 (le_refl _)]
  · rw [splitWithRandomizer_noTags arch fuel r ps hv (h.2 hc fuel) (by simp)]; rfl

/-- C13, C28: with at least 20 parts and otherwise valid arguments, `SplitWithRandomizer` panics iff the first key
stream byte is 254, and returns shares otherwise. -/
theorem C13_C28_splitWithRandomizer_returns_large (arch : Arch) (secret : List Byte) (parts threshold : Int)
    (r : CSPRNG) (ps : Pools) (hv : ValidArgs secret parts threshold) (h20 : 20 ≤ parts) :
    (r.ks 0 ≠ 254#8 → ∃ res, ∀ fuel, splitWithRandomizer arch fuel secret parts threshold r ps = ok res) ∧
    (r.ks 0 = 254#8 → ∀ fuel, splitWithRandomizer arch fuel secret parts threshold r ps = panic) := by
  have ⟨v1, v2, v3, v4⟩ := hv
  have hn := ofInt_toNat (parts := parts) (by omega) v2
  have h20' : 20#8 ≤ BitVec.ofInt 8 parts := by rw [BitVec.le_def, hn]; simp; omega
  have h := fun fuel => C28_large r (BitVec.ofInt 8 parts) (by omega) fuel
  refine ⟨fun hc => ?_, fun hc fuel => ?_⟩
  · obtain ⟨l, hl, -⟩ := (h 0).2 hc
    obtain ⟨pp, e⟩ := splitWithRandomizer_payload arch 0 r ps hv l hl
    refine ⟨_, fun fuel => Eq.trans ?_ e⟩
    have : r.getUniqueBytes fuel (BitVec.ofInt 8 parts) = r.getUniqueBytes 0 (BitVec.ofInt 8 parts) := by
      unfold CSPRNG.getUniqueBytes
      rw [if_pos h20', if_pos h20']
    unfold splitWithRandomizer
    rw [this]
  · rw [splitWithRandomizer_noTags arch fuel r ps hv ((h fuel).1 hc) (by simp)]; rfl

example : ∀ fuel, splitWithRandomizer .noasm fuel [1, 2] 20 2 ⟨fun _ => 254⟩ (Pools.init 1) = panic :=
  (C13_C28_splitWithRandomizer_returns_large .noasm [1, 2] 20 2 _ _ (by decide) (by decide)).2 rfl
example : ∃ res, ∀ fuel, splitWithRandomizer .noasm fuel [1, 2] 20 2 ⟨fun _ => 7⟩ (Pools.init 1) = ok res :=
  (C13_C28_splitWithRandomizer_returns_large .noasm [1, 2] 20 2 _ _ (by decide) (by decide)).1 (by decide)

example : ∃ res, ∀ fuel, 2 ≤ fuel →
    splitWithRandomizer .noasm fuel [1, 2] 3 2 ⟨fun i => BitVec.ofNat 8 (i / 2 + 5)⟩ (Pools.init 1) = ok res :=
  (C13_C28_splitWithRandomizer_returns .noasm [1, 2] 3 2 _ _ (by decide) (by decide)).1 (by decide +kernel)
example : ∀ fuel, splitWithRandomizer .noasm fuel [1, 2] 3 2 ⟨fun _ => 7⟩ (Pools.init 1) = spin :=
  (C13_C28_splitWithRandomizer_returns .noasm [1, 2] 3 2 _ _ (by decide) (by decide)).2 ⟨7, by decide⟩

/-- C29: a share with tag 0 carries the secret in clear. -/
theorem C29_tag_zero_is_secret (arch : Arch) (fuel : Nat) (secret : List Byte) (parts threshold : Int)
    (r : CSPRNG) (ps ps' : Pools) (shares : List (List Byte))
    (h : splitWithRandomizer arch fuel secret parts threshold r ps = ok (shares, ps'))
    (s : List Byte) (hs : s ∈ shares) (h0 : tag s = 0) : s = secret ++ [0] := by
  obtain ⟨hv, ⟨-, f, hf, hsh⟩, -⟩ := splitWithRandomizer_ok arch fuel h
  obtain ⟨hl, hj⟩ := hsh s hs
  apply List.ext_getElem
  · simp [hl]
  · intro i h1 h2
    rcases Nat.lt_or_ge i secret.length with hi | hi
    · have e1 := hj i hi
      rw [h0] at e1
      have e2 := (hf i hi).2
      have e3 : (⟨s.getD i 0⟩ : GF) = ⟨secret.getD i 0⟩ := e1.trans e2
      have e4 := congrArg GF.val e3
      simp only at e4
      rw [getD_getElem h1, getD_getElem hi] at e4
      rw [List.getElem_append_left hi]; exact e4
    · have hi : i = secret.length := by simp at h2; omega
      subst hi
      have : tag s = s[secret.length] := by
        unfold tag
        rw [hl, Nat.add_sub_cancel, getD_getElem h1]
      rw [← this, h0]
      simp

/-- C29: with fewer than 20 parts and distinct leading key stream bytes, a key stream byte 255 at position
i < parts makes share i the secret in clear. -/
theorem C29_leak (arch : Arch) (fuel : Nat) (secret : List Byte) (parts threshold : Int) (r : CSPRNG) (ps : Pools)
    (hv : ValidArgs secret parts threshold) (h20 : parts < 20)
    (hd : ((List.range parts.toNat).map r.ks).Nodup) (i : Nat) (hi : (i : Int) < parts) (h255 : r.ks i = 255#8) :
    ∃ shares ps', splitWithRandomizer arch (fuel + 1) secret parts threshold r ps = ok (shares, ps') ∧
      shares[i]? = some (secret ++ [0]) := by
  have ⟨v1, v2, v3, v4⟩ := hv
  have hn := ofInt_toNat (parts := parts) (by omega) v2
  have hx := getUnique_distinct (r := r) (n := BitVec.ofInt 8 parts) (by omega) (by rw [hn]; exact hd) fuel
  rw [hn] at hx
  obtain ⟨pp, e⟩ := splitWithRandomizer_payload arch (fuel + 1) r ps hv _ hx
  refine ⟨_, _, e, ?_⟩
  have hi' : i < parts.toNat := by omega
  have hs : (((List.range parts.toNat).map r.ks).map (rShare secret (r.read (staleBuf ps.bPool
      (threshold.toNat * secret.length))) threshold.toNat))[i]? = some (rShare secret (r.read (staleBuf ps.bPool
      (threshold.toNat * secret.length))) threshold.toNat (r.ks i)) := by
    simp [hi']
  rw [hs]
  congr 1
  refine C29_tag_zero_is_secret arch _ secret parts threshold r ps _ _ e _ (List.mem_of_getElem? hs) ?_
  rw [h255]
  simp [rShare, tag, List.getD_eq_getElem?_getD]

/-- C29, exactly when: the tags are the bytes selected by `GetUniqueBytes` plus one, and some share is the secret in
clear with tag 0 iff 255 is among these bytes. -/
theorem C29_iff (arch : Arch) (fuel : Nat) (secret : List Byte) (parts threshold : Int)
    (r : CSPRNG) (ps ps' : Pools) (shares : List (List Byte))
    (h : splitWithRandomizer arch fuel secret parts threshold r ps = ok (shares, ps')) :
    ∃ xs, r.getUniqueBytes fuel (BitVec.ofInt 8 parts) = ok xs ∧ shares.map tag = xs.map (· + 1#8) ∧
      (255#8 ∈ xs ↔ secret ++ [0] ∈ shares) := by
  obtain ⟨-, -, -, xs, hx, ht⟩ := splitWithRandomizer_ok arch fuel h
  refine ⟨xs, hx, ht, fun hm => ?_, fun hm => ?_⟩
  · have : (0 : Byte) ∈ shares.map tag := by rw [ht]; exact List.mem_map.2 ⟨_, hm, rfl⟩
    obtain ⟨s, hs, h0⟩ := List.mem_map.1 this
    rw [← C29_tag_zero_is_secret arch fuel secret parts threshold r ps ps' shares h s hs h0]
    exact hs
  · have : tag (secret ++ [0]) ∈ xs.map (· + 1#8) := ht ▸ List.mem_map_of_mem (f := tag) hm
    obtain ⟨b, hb, e⟩ := List.mem_map.1 this
    have : b = 255#8 := by
      have e0 : tag (secret ++ [0]) = 0#8 := by simp [tag, List.getD_eq_getElem?_getD]
      rw [e0] at e
      revert e; clear * -; revert b; decide
    exact this ▸ hb

/-- C29: with 20 or more parts no share has tag 0. -/
theorem C29_large (arch : Arch) (fuel : Nat) (secret : List Byte) (parts threshold : Int)
    (r : CSPRNG) (ps ps' : Pools) (shares : List (List Byte)) (h20 : 20 ≤ parts)
    (h : splitWithRandomizer arch fuel secret parts threshold r ps = ok (shares, ps')) :
    ∀ s ∈ shares, tag s ≠ 0 := by
  obtain ⟨⟨v1, v2, v3, v4⟩, -, -, xs, hx, ht⟩ := splitWithRandomizer_ok arch fuel h
  have hn := ofInt_toNat (parts := parts) (by omega) v2
  have h255 : 255#8 ∉ xs := by
    by_cases hk : r.ks 0 = 254#8
    · rw [getUnique_big_panic (by omega) hk fuel] at hx; cases hx
    · obtain ⟨l, h1, -, -, h2⟩ := getUnique_big_ok (r := r) (n := BitVec.ofInt 8 parts) (by omega) hk fuel
      rw [h1] at hx; cases hx; exact h2
  intro s hs
  have hm : tag s ∈ xs.map (· + 1#8) := ht ▸ List.mem_map_of_mem (f := tag) hs
  obtain ⟨b, hb, e⟩ := List.mem_map.1 hm
  rw [← e]
  exact plus_one_ne_zero (fun hb' => h255 (hb' ▸ hb))

example : ∃ shares ps', splitWithRandomizer .noasm 1 [42, 43] 3 2 ⟨fun i => 254 + BitVec.ofNat 8 i⟩ (Pools.init 1)
    = ok (shares, ps') ∧ shares[1]? = some [42, 43, 0] :=
  C29_leak .noasm 0 [42, 43] 3 2 _ _ (by decide) (by decide) (by decide) 1 (by decide) (by decide)

/-- With these key-stream bytes (254, 255, 0) the tags are 255, 0 and 1, and the second share is the secret. -/
example : ∃ shares ps', ∃ xs : List Byte, splitWithRandomizer .noasm 1 [42, 43] 3 2 ⟨fun i => 254 + BitVec.ofNat 8 i⟩ (Pools.init 1)
    = ok (shares, ps') ∧ shares.map tag = xs.map (· + 1#8) ∧ 255#8 ∈ xs := by
  obtain ⟨shares, ps', h, h1⟩ := C29_leak .noasm 0 [42, 43] 3 2 ⟨fun i => 254 + BitVec.ofNat 8 i⟩ (Pools.init 1) (by decide)
    (by decide) (by decide) 1 (by decide) (by decide)
  obtain ⟨xs, -, ht, hx⟩ := C29_iff _ _ _ _ _ _ _ _ _ h
  exact ⟨shares, ps', xs, h, ht, hx.2 (List.mem_of_getElem? h1)⟩

/-- C29_large: with 20 parts no tag is zero. -/
example : ∃ shares ps', splitWithRandomizer .noasm 0 [42, 43] 20 2 ⟨fun i => BitVec.ofNat 8 i⟩ (Pools.init 1) = ok (shares, ps') ∧
    ∀ s ∈ shares, tag s ≠ 0 := by
  obtain ⟨l, hl, -⟩ := (C28_large ⟨fun i => BitVec.ofNat 8 i⟩ (BitVec.ofInt 8 20) (by decide) 0).2 (by decide)
  obtain ⟨ps', e⟩ := splitWithRandomizer_payload .noasm 0 ⟨fun i => BitVec.ofNat 8 i⟩ (Pools.init 1)
    (show ValidArgs [42, 43] 20 2 by decide) l hl
  exact ⟨_, _, e, C29_large .noasm 0 [42, 43] 20 2 _ _ _ _ (by decide) e⟩

/-- C30 (a): when no recycled buffer is available, two secrets of equal length split with the same randomizer
get the same tags and the same masks: the xor of the i-th shares is the xor of the secrets. -/
theorem C30_same_masks (arch : Arch) (fuel : Nat) (s1 s2 : List Byte) (parts threshold : Int) (r : CSPRNG)
    (ps1 ps2 ps1' ps2' : Pools) (sh1 sh2 : List (List Byte)) (hl : s1.length = s2.length)
    (hp1 : ps1.bPool.ch = []) (hp2 : ps2.bPool.ch = [])
    (h1 : splitWithRandomizer arch fuel s1 parts threshold r ps1 = ok (sh1, ps1'))
    (h2 : splitWithRandomizer arch fuel s2 parts threshold r ps2 = ok (sh2, ps2')) :
    sh1.length = sh2.length ∧ ∀ i, (hi1 : i < sh1.length) → (hi2 : i < sh2.length) →
      tag sh1[i] = tag sh2[i] ∧
      ∀ p < s1.length, (sh1[i].getD p 0) ^^^ (sh2[i].getD p 0) = (s1.getD p 0) ^^^ (s2.getD p 0) := by
  obtain ⟨hv1, -, -, xs, hx, -⟩ := splitWithRandomizer_ok arch fuel h1
  obtain ⟨hv2, -, -, -⟩ := splitWithRandomizer_ok arch fuel h2
  obtain ⟨pp1, e1⟩ := splitWithRandomizer_payload arch fuel r ps1 hv1 xs hx
  obtain ⟨pp2, e2⟩ := splitWithRandomizer_payload arch fuel r ps2 hv2 xs hx
  rw [h1, staleBuf_empty hp1] at e1
  rw [h2, staleBuf_empty hp2, ← hl] at e2
  obtain ⟨rfl, -⟩ := Prod.mk.inj (Outcome.ok.inj e1)
  obtain ⟨rfl, -⟩ := Prod.mk.inj (Outcome.ok.inj e2)
  refine ⟨by simp, fun i hi1 hi2 => ?_⟩
  simp only [List.getElem_map]
  refine ⟨by simp [rShare, tag, List.getD_eq_getElem?_getD], fun p hp => ?_⟩
  have key : ∀ s : List Byte, s.length = s1.length → ∀ b buf t, (rShare s buf t b).getD p 0
      = s.getD p 0 ^^^ (mask t buf p (b + 1#8)).val := by
    intro s hs b buf t
    unfold rShare
    rw [List.getD_eq_getElem?_getD, List.getElem?_append_left (by simp; omega)]
    simp [hs, hp]
  rw [key s1 rfl, key s2 hl.symm]
  generalize (mask _ _ _ _).val = m
  rw [BitVec.xor_assoc, BitVec.xor_comm (s2.getD p 0) m, ← BitVec.xor_assoc m m, BitVec.xor_self, BitVec.zero_xor]

/-- What a second, equally sized SplitWithRandomizer gets as polynomial buffer. -/
theorem second_buffer (arch : Arch) (fuel : Nat) {s1 : List Byte} {parts threshold : Int} {r : CSPRNG}
    {ps ps' : Pools} {sh1 : List (List Byte)} (hp : ps.bPool.ch = []) (hs : 0 < ps.bPool.size)
    (h1 : splitWithRandomizer arch fuel s1 parts threshold r ps = ok (sh1, ps')) :
    staleBuf ps'.bPool (threshold.toNat * s1.length)
      = transposed (withIntercepts s1 threshold.toNat ((List.range (threshold.toNat * s1.length)).map r.ks) s1.length)
          threshold.toNat s1.length := by
  obtain ⟨hv1, -, -, xs, hx, -⟩ := splitWithRandomizer_ok arch fuel h1
  obtain ⟨pp1, e1⟩ := splitWithRandomizer_payload arch fuel r ps hv1 xs hx
  rw [h1, staleBuf_empty hp, read_zeros] at e1
  obtain ⟨-, rfl⟩ := Prod.mk.inj (Outcome.ok.inj e1)
  have := staleBuf_after hp hs (withIntercepts s1 threshold.toNat
    ((List.range (threshold.toNat * s1.length)).map r.ks) s1.length)
    (transposed (withIntercepts s1 threshold.toNat ((List.range (threshold.toNat * s1.length)).map r.ks) s1.length)
          threshold.toNat s1.length) (by simp [transposed, withIntercepts])
  rw [length_withIntercepts] at this
  simpa using this

/-- C30 (b): after one call on an empty pool, the next call with a secret of the same length and the same
threshold uses, for the last byte, a polynomial of degree below threshold-1: already threshold-1 shares
(at least two) recover the last byte of the second secret. -/
theorem C30_reuse_lowers_threshold (arch : Arch) (fuel fuel' : Nat) (s1 s2 : List Byte) (parts parts' threshold : Int)
    (r : CSPRNG) (ps ps' ps'' : Pools) (sh1 sh2 sub : List (List Byte)) (hl : s1.length = s2.length)
    (hp : ps.bPool.ch = []) (hs : 0 < ps.bPool.size)
    (h1 : splitWithRandomizer arch fuel s1 parts threshold r ps = ok (sh1, ps'))
    (h2 : splitWithRandomizer arch fuel' s2 parts' threshold r ps' = ok (sh2, ps''))
    (hsub : sub.Subperm sh2) (hlen : threshold - 1 ≤ sub.length) (h2' : 2 ≤ sub.length) :
    ∃ s, combine sub = ok s ∧ s.length = s2.length ∧ s.getLast? = s2.getLast? := by
  obtain ⟨⟨v1, v2, v3, v4⟩, hsharing, -, xs, hx, -⟩ := splitWithRandomizer_ok arch fuel' h2
  have hst := second_buffer arch fuel hp hs h1
  obtain ⟨pp2, e2⟩ := splitWithRandomizer_payload arch fuel' r ps' ⟨v1, v2, v3, v4⟩ xs hx
  rw [h2, ← hl, hst] at e2
  obtain ⟨e2, -⟩ := Prod.mk.inj (Outcome.ok.inj e2)
  generalize ht : threshold.toNat = t at *
  have ht2 : 2 ≤ t := by omega
  have hN : 0 < s1.length := by rw [hl]; exact List.length_pos_iff.2 v4
  -- the top coefficient of the last byte vanishes
  have hpe : s1.length - 1 < s1.length := by omega
  have hidx : t * (s1.length - 1) + (t - 1) = (t - 1) * s1.length + (s1.length - 1) := by
    obtain ⟨a, ha⟩ : ∃ a, s1.length = a + 1 := ⟨s1.length - 1, by omega⟩
    obtain ⟨b, hb⟩ : ∃ b, t = b + 1 := ⟨t - 1, by omega⟩
    rw [ha, hb]; simp only [Nat.add_sub_cancel]; ring
  have hlt : t * (s1.length - 1) + (t - 1) < t * s1.length := by
    obtain ⟨a, ha⟩ : ∃ a, s1.length = a + 1 := ⟨s1.length - 1, by omega⟩
    rw [ha, Nat.add_sub_cancel, Nat.mul_succ]; omega
  set pol := withIntercepts s1 t ((List.range (t * s1.length)).map r.ks) s1.length with hpol
  have htop : (r.read (transposed pol t s1.length)).getD (t * (s1.length - 1) + (t - 1)) 0 = 0 := by
    rw [read_getD _ _ (by simpa [transposed] using hlt)]
    have e3 : (transposed pol t s1.length).getD (t * (s1.length - 1) + (t - 1)) 0
        = r.ks (t * (s1.length - 1) + (t - 1)) := by
      conv_lhs => rw [hidx]
      rw [transposed_get (by omega) hpe, hpol, withIntercepts_get (by omega) hpe (by simp), if_neg (by omega),
        getD_getElem (by simpa using hlt)]
      simp
    rw [e3, BitVec.xor_self]; rfl
  -- all shares are on this polynomial
  generalize hB : r.read (transposed pol t s1.length) = B at *
  have htags : (tags sub).Nodup := by
    obtain ⟨l, h3, h4⟩ := hsub
    exact (h3.map tag).nodup_iff.1 (List.Nodup.sublist (h4.map tag) hsharing.1)
  have hlens : ∀ s ∈ sub, s.length = s2.length + 1 := fun s h =>
    (hsharing.2.choose_spec.2 s (hsub.subset h)).1
  have hN2 : 1 ≤ s2.length := by omega
  refine ⟨_, combine_ok h2' hN2 hlens htags, by simp [recover], ?_⟩
  let p := s2.length - 1
  have hpp : p < s2.length := by simp only [p]; omega
  let cs : List Byte := (List.range (t - 1)).map fun k => if k = 0 then s2.getD p 0 else B.getD (t * p + k) 0
  have hval : ∀ s ∈ sub, s.getD p 0 = evalC cs (tag s) := by
    intro s hs
    have hm : s ∈ sh2 := hsub.subset hs
    rw [e2] at hm
    obtain ⟨b, -, rfl⟩ := List.mem_map.1 hm
    have et : tag (rShare s2 B t b) = b + 1#8 := by simp [rShare, tag, List.getD_eq_getElem?_getD]
    rw [et]
    have e4 : (rShare s2 B t b).getD p 0 = s2.getD p 0 ^^^ (mask t B p (b + 1#8)).val := by
      unfold rShare
      rw [List.getD_eq_getElem?_getD, List.getElem?_append_left (by simp; omega)]
      simp [hpp]
    rw [e4, evalC_eq]
    have e5 : cs.length = t - 1 := by simp [cs]
    rw [e5]
    change ((⟨s2.getD p 0⟩ : GF) + mask t B p (b + 1#8)).val = _
    congr 1
    obtain ⟨d, rfl⟩ : ∃ d, t = d + 2 := ⟨t - 2, by omega⟩
    unfold mask
    have e6 : d + 2 - 1 = d + 1 := by omega
    rw [Finset.sum_Ico_succ_top (by omega), e6]
    have e7 : B.getD ((d + 2) * p + (d + 1)) 0 = 0 := by
      have : p = s1.length - 1 := by simp only [p]; omega
      rw [this]
      rw [e6] at htop; exact htop
    rw [e7]
    have e8 : (⟨0⟩ : GF) = 0 := rfl
    rw [e8, zero_mul, add_zero, Finset.range_eq_Ico, Finset.sum_eq_sum_Ico_succ_bot (a := 0) (by omega)]
    have hcs : ∀ k < d + 1, cs.getD k 0 = if k = 0 then s2.getD p 0 else B.getD ((d + 2) * p + k) 0 := by
      intro k hk
      rw [getD_getElem (by rw [e5]; omega)]
      simp [cs]
    congr 1
    · rw [hcs 0 (by omega), if_pos rfl, pow_zero, mul_one]
    · apply Finset.sum_congr rfl
      intro k hk
      simp only [Finset.mem_Ico] at hk
      rw [hcs k (by omega), if_neg (by omega)]
  have hrec : (recover sub s2.length)[p]? = some (s2.getD p 0) := by
    rw [recover_get _ _ hpp, lagrangeAt_of_poly htags (ofCoeffs cs)]
    · have := evalC_zero (cs := cs) (by simp [cs]; omega)
      have e9 : cs.getD 0 0 = s2.getD p 0 := by
        rw [getD_getElem (by simp [cs]; omega)]; simp [cs]
      rw [e9] at this
      exact congrArg some this
    · refine lt_of_lt_of_le (ofCoeffs_degree cs) ?_
      simp only [cs, List.length_map, List.length_range, length_tags, Nat.cast_le]
      omega
    · intro i hi
      have hi : i < sub.length := by simpa using hi
      rw [getD_getElem (by simpa using hi), getD_getElem (by simpa using hi)]
      have := hval _ (List.getElem_mem hi)
      apply GF.ext'
      simpa [column, tags, evalC] using this
  rw [List.getLast?_eq_getElem?, List.getLast?_eq_getElem?]
  simp only [recover, List.length_map, List.length_range] at hrec ⊢
  rw [hrec, List.getElem?_eq_getElem (by omega), getD_getElem (by omega)]

/-- C30 (b): for threshold 2 the last byte of the second secret is in clear in every share. -/
theorem C30_reuse_threshold_two (arch : Arch) (fuel fuel' : Nat) (s1 s2 : List Byte) (parts parts' : Int)
    (r : CSPRNG) (ps ps' ps'' : Pools) (sh1 sh2 : List (List Byte)) (hl : s1.length = s2.length)
    (hp : ps.bPool.ch = []) (hs : 0 < ps.bPool.size)
    (h1 : splitWithRandomizer arch fuel s1 parts 2 r ps = ok (sh1, ps'))
    (h2 : splitWithRandomizer arch fuel' s2 parts' 2 r ps' = ok (sh2, ps'')) :
    ∀ s ∈ sh2, s.getD (s2.length - 1) 0 = s2.getD (s2.length - 1) 0 := by
  obtain ⟨⟨v1, v2, v3, v4⟩, hsharing, -, xs, hx, -⟩ := splitWithRandomizer_ok arch fuel' h2
  have hst := second_buffer arch fuel hp hs h1
  obtain ⟨pp2, e2⟩ := splitWithRandomizer_payload arch fuel' r ps' ⟨v1, v2, v3, v4⟩ xs hx
  rw [h2, ← hl, hst] at e2
  obtain ⟨e2, -⟩ := Prod.mk.inj (Outcome.ok.inj e2)
  have hN : 0 < s1.length := by rw [hl]; exact List.length_pos_iff.2 v4
  have e0 : (2 : Int).toNat = 2 := rfl
  rw [e0] at e2
  intro s hsm
  rw [e2] at hsm
  obtain ⟨b, -, rfl⟩ := List.mem_map.1 hsm
  unfold rShare
  rw [List.getD_eq_getElem?_getD, List.getElem?_append_left (by simp; omega)]
  simp only [List.getElem?_map]
  rw [List.getElem?_range (by omega)]
  simp only [Option.map_some, Option.getD_some]
  have hm : ∀ x, mask 2 (r.read (transposed (withIntercepts s1 2 ((List.range (2 * s1.length)).map r.ks) s1.length) 2
      s1.length)) (s2.length - 1) x = 0 := by
    intro x
    unfold mask
    rw [Finset.sum_Ico_succ_top (by omega), Finset.Ico_self, Finset.sum_empty, zero_add]
    have hidx : 2 * (s2.length - 1) + 1 = 1 * s1.length + (s1.length - 1) := by omega
    have : (r.read (transposed (withIntercepts s1 2 ((List.range (2 * s1.length)).map r.ks) s1.length) 2
      s1.length)).getD (2 * (s2.length - 1) + 1) 0 = 0 := by
      rw [read_getD _ _ (by simp [transposed]; omega)]
      conv_lhs => rw [hidx]
      rw [transposed_get (by omega) (by omega), withIntercepts_get (by omega) (by omega) (by simp),
        if_neg (by omega), getD_getElem (by simp; omega)]
      simp only [List.getElem_map, List.getElem_range]
      have : 2 * (s1.length - 1) + 1 = 1 * s1.length + (s1.length - 1) := by omega
      rw [this, BitVec.xor_self]; rfl
    rw [this]
    exact zero_mul _
  rw [hm]
  exact BitVec.xor_zero

/-- C30 (b): a one-byte second secret is in clear in every share, whatever the threshold. -/
theorem C30_reuse_one_byte (arch : Arch) (fuel fuel' : Nat) (b1 b2 : Byte) (parts parts' threshold : Int)
    (r : CSPRNG) (ps ps' ps'' : Pools) (sh1 sh2 : List (List Byte))
    (hp : ps.bPool.ch = []) (hs : 0 < ps.bPool.size)
    (h1 : splitWithRandomizer arch fuel [b1] parts threshold r ps = ok (sh1, ps'))
    (h2 : splitWithRandomizer arch fuel' [b2] parts' threshold r ps' = ok (sh2, ps'')) :
    ∀ s ∈ sh2, s = [b2, tag s] := by
  obtain ⟨⟨v1, v2, v3, v4⟩, hsharing, -, xs, hx, -⟩ := splitWithRandomizer_ok arch fuel' h2
  have hst := second_buffer arch fuel hp hs h1
  obtain ⟨pp2, e2⟩ := splitWithRandomizer_payload arch fuel' r ps' ⟨v1, v2, v3, v4⟩ xs hx
  have hl1 : ([b2] : List Byte).length = ([b1] : List Byte).length := rfl
  rw [h2, hl1, hst] at e2
  obtain ⟨e2, -⟩ := Prod.mk.inj (Outcome.ok.inj e2)
  generalize ht : threshold.toNat = t at *
  intro s hsm
  rw [e2] at hsm
  obtain ⟨b, -, rfl⟩ := List.mem_map.1 hsm
  have hm : ∀ x, mask t (r.read (transposed (withIntercepts [b1] t ((List.range (t * [b1].length)).map r.ks)
      [b1].length) t [b1].length)) 0 x = 0 := by
    intro x
    unfold mask
    apply Finset.sum_eq_zero
    intro k hk
    simp only [Finset.mem_Ico] at hk
    have : (r.read (transposed (withIntercepts [b1] t ((List.range (t * [b1].length)).map r.ks)
      [b1].length) t [b1].length)).getD (t * 0 + k) 0 = 0 := by
      rw [read_getD _ _ (by simp [transposed]; omega)]
      have hidx : t * 0 + k = k * [b1].length + 0 := by simp
      conv_lhs => rw [hidx]
      rw [transposed_get (by omega) (by simp), withIntercepts_get (by omega) (by simp) (by simp),
        if_neg (by omega), getD_getElem (by simp; omega)]
      simp
    rw [this]
    exact zero_mul _
  have e9 : rShare [b2] (r.read (transposed (withIntercepts [b1] t ((List.range (t * [b1].length)).map r.ks)
      [b1].length) t [b1].length)) t b = [b2, b + 1#8] := by
    unfold rShare
    have : ([b2] : List Byte).length = 1 := rfl
    rw [this]
    simp only [List.range_one, List.map_cons, List.map_nil]
    have h0 := hm (b + 1#8)
    rw [h0]
    change [b2 ^^^ 0#8] ++ _ = _
    rw [BitVec.xor_zero]; rfl
  rw [e9]; rfl

/-- Non-vacuity of C30: from the initial pools, with distinct leading key stream bytes, any two calls succeed. -/
theorem two_calls (arch : Arch) (s1 s2 : List Byte) (parts threshold : Int) (r : CSPRNG)
    (hv1 : ValidArgs s1 parts threshold) (hv2 : ValidArgs s2 parts threshold) (h20 : parts < 20)
    (hd : ((List.range parts.toNat).map r.ks).Nodup) :
    ∃ sh1 sh2 ps' ps'', splitWithRandomizer arch 1 s1 parts threshold r (Pools.init 1) = ok (sh1, ps') ∧
      splitWithRandomizer arch 1 s2 parts threshold r ps' = ok (sh2, ps'') ∧
      (Pools.init 1).bPool.ch = [] ∧ 0 < (Pools.init 1).bPool.size := by
  have ⟨v1, v2, v3, v4⟩ := hv1
  have hn := ofInt_toNat (parts := parts) (by omega) v2
  have hx := getUnique_distinct (r := r) (n := BitVec.ofInt 8 parts) (by omega) (by rw [hn]; exact hd) 0
  obtain ⟨pp, e⟩ := splitWithRandomizer_payload arch 1 r (Pools.init 1) hv1 _ hx
  obtain ⟨pp', e'⟩ := splitWithRandomizer_payload arch 1 r _ hv2 _ hx
  exact ⟨_, _, _, _, e, e', rfl, by decide⟩

example (arch : Arch) : ∃ sh2 : List (List Byte), sh2.length = 4 ∧ ∀ s ∈ sh2, s.getD 2 0 = 77 := by
  obtain ⟨sh1, sh2, ps', ps'', h1, h2, h3, h4⟩ := two_calls arch [1, 2, 3] [5, 6, 77] 4 2
    ⟨fun i => BitVec.ofNat 8 (i * i + 9)⟩ (by decide) (by decide) (by decide) (by decide)
  exact ⟨sh2, (splitWithRandomizer_ok arch 1 h2).2.2.1,
    C30_reuse_threshold_two arch 1 1 [1, 2, 3] [5, 6, 77] _ _ _ _ _ _ _ _ rfl h3 h4 h1 h2⟩

/-- C31: with fewer than 20 parts, distinct leading key stream bytes and no recycled buffer, the threshold-1
shares number 1..threshold-1 determine the first byte of the secret: it is the payload byte of any one of
them minus the sum of (tag_k - 1) * tag^k. -/
theorem C31_first_byte_leaks (arch : Arch) (fuel : Nat) (secret : List Byte) (parts threshold : Int) (r : CSPRNG)
    (ps : Pools) (hv : ValidArgs secret parts threshold) (h20 : parts < 20)
    (hd : ((List.range parts.toNat).map r.ks).Nodup) (hp : ps.bPool.ch = []) :
    ∃ shares ps', splitWithRandomizer arch (fuel + 1) secret parts threshold r ps = ok (shares, ps') ∧
      ∀ s ∈ shares, (⟨secret.getD 0 0⟩ : GF) = ⟨s.getD 0 0⟩ -
        ∑ k ∈ Finset.Ico 1 threshold.toNat, (⟨tag (shares.getD k []) - 1#8⟩ : GF) * ⟨tag s⟩ ^ k := by
  have ⟨v1, v2, v3, v4⟩ := hv
  have hn := ofInt_toNat (parts := parts) (by omega) v2
  have hN : 0 < secret.length := List.length_pos_iff.2 v4
  have hx := getUnique_distinct (r := r) (n := BitVec.ofInt 8 parts) (by omega) (by rw [hn]; exact hd) fuel
  rw [hn] at hx
  obtain ⟨pp, e⟩ := splitWithRandomizer_payload arch (fuel + 1) r ps hv _ hx
  rw [staleBuf_empty hp, read_zeros] at e
  refine ⟨_, _, e, ?_⟩
  intro s hs
  obtain ⟨b, -, rfl⟩ := List.mem_map.1 hs
  have et : ∀ b buf, tag (rShare secret buf threshold.toNat b) = b + 1#8 := by
    intro b buf; simp [rShare, tag, List.getD_eq_getElem?_getD]
  rw [et]
  have e4 : ∀ buf, (rShare secret buf threshold.toNat b).getD 0 0
      = secret.getD 0 0 ^^^ (mask threshold.toNat buf 0 (b + 1#8)).val := by
    intro buf
    unfold rShare
    rw [List.getD_eq_getElem?_getD, List.getElem?_append_left (by simp; omega)]
    simp [hN]
  rw [e4]
  change _ = ((⟨secret.getD 0 0⟩ : GF) + mask _ _ _ _) - _
  have e5 : mask threshold.toNat ((List.range (threshold.toNat * secret.length)).map r.ks) 0 (b + 1#8)
      = ∑ k ∈ Finset.Ico 1 threshold.toNat, (⟨tag ((((List.range parts.toNat).map r.ks).map (rShare secret
        ((List.range (threshold.toNat * secret.length)).map r.ks) threshold.toNat)).getD k []) - 1#8⟩ : GF)
        * ⟨b + 1#8⟩ ^ k := by
    unfold mask
    apply Finset.sum_congr rfl
    intro k hk
    simp only [Finset.mem_Ico] at hk
    have hk2 : k < threshold.toNat * secret.length := by
      calc k < threshold.toNat * 1 := by omega
        _ ≤ _ := Nat.mul_le_mul_left _ hN
    have hk3 : k < parts.toNat := by omega
    have e6 : ((((List.range parts.toNat).map r.ks).map (rShare secret
        ((List.range (threshold.toNat * secret.length)).map r.ks) threshold.toNat)).getD k [])
        = rShare secret ((List.range (threshold.toNat * secret.length)).map r.ks) threshold.toNat (r.ks k) := by
      simp [List.getD_eq_getElem?_getD, hk3]
    rw [e6, et, Nat.mul_zero, Nat.zero_add, getD_getElem (by simpa using hk2)]
    simp only [List.getElem_map, List.getElem_range, BitVec.add_sub_cancel]
  rw [e5, add_sub_cancel_right]

/-- C31, threshold 2: share number 1 alone determines the first byte of the secret. -/
theorem C31_one_share (arch : Arch) (fuel : Nat) (secret : List Byte) (parts : Int) (r : CSPRNG)
    (ps : Pools) (hv : ValidArgs secret parts 2) (h20 : parts < 20)
    (hd : ((List.range parts.toNat).map r.ks).Nodup) (hp : ps.bPool.ch = []) :
    ∃ shares ps' s, splitWithRandomizer arch (fuel + 1) secret parts 2 r ps = ok (shares, ps') ∧
      shares[1]? = some s ∧
      secret.getD 0 0 = s.getD 0 0 ^^^ galMultiply (tag s - 1#8) (tag s) := by
  obtain ⟨shares, ps', h, hall⟩ := C31_first_byte_leaks arch fuel secret parts 2 r ps hv h20 hd hp
  have hl := (splitWithRandomizer_ok arch (fuel + 1) h).2.2.1
  have := hv.1
  have h1 : 1 < shares.length := by omega
  refine ⟨shares, ps', shares[1], h, List.getElem?_eq_getElem h1, ?_⟩
  have := hall _ (List.getElem_mem h1)
  have e0 : (2 : Int).toNat = 2 := rfl
  rw [e0, Finset.sum_Ico_succ_top (by omega), Finset.Ico_self, Finset.sum_empty, zero_add, pow_one] at this
  have e1 : shares.getD 1 [] = shares[1] := by
    rw [List.getD_eq_getElem?_getD, List.getElem?_eq_getElem h1]; rfl
  rw [e1] at this
  have := congrArg GF.val this
  rw [galMultiply_eq]
  exact this

example (ps : Pools) (hp : ps.bPool.ch = []) : ∃ shares ps' s,
    splitWithRandomizer .noasm 1 [99, 5] 3 2 ⟨fun i => BitVec.ofNat 8 (17 * i + 3)⟩ ps = ok (shares, ps') ∧
      shares[1]? = some s ∧ (99 : Byte) = s.getD 0 0 ^^^ galMultiply (tag s - 1#8) (tag s) :=
  C31_one_share .noasm 0 [99, 5] 3 _ ps (by decide) (by decide) (by decide) hp

/-- C32: `Randomizer.Perm(n)` is never a permutation for n ≥ 2: the value n-1 does not occur. -/
theorem C32_randomizer_perm (r : Randomizer) (n : Byte) (hn : 2 ≤ n.toNat) :
    ∃ l r', r.perm n = ok (l, r') ∧ l.length = n.toNat ∧ n - 1#8 ∉ l ∧
      ¬ l.Perm ((List.range n.toNat).map (BitVec.ofNat 8)) := by
  obtain ⟨l, r', h1, h2, h3⟩ := rperm_spec r (n := n) (by omega)
  refine ⟨l, r', h1, h2, h3 hn, fun hp => h3 hn ?_⟩
  rw [hp.mem_iff, List.mem_map]
  refine ⟨n.toNat - 1, by simp; omega, ?_⟩
  apply BitVec.eq_of_toNat_eq
  have := n.isLt
  rw [BitVec.toNat_ofNat, BitVec.toNat_sub]
  have : (1#8 : Byte).toNat = 1 := rfl
  omega

/-- C32: `Randomizer.Perm(0)` panics. -/
theorem C32_randomizer_perm_zero (r : Randomizer) : r.perm 0#8 = panic := rperm_zero r

example : ∃ l r', (⟨fun i => BitVec.ofNat 8 (7 * i), 3⟩ : Randomizer).perm 5 = ok (l, r') ∧ l.length = 5 ∧ (4 : Byte) ∉ l := by
  obtain ⟨l, r', h1, h2, h3, -⟩ := C32_randomizer_perm ⟨fun i => BitVec.ofNat 8 (7 * i), 3⟩ 5 (by decide)
  exact ⟨l, r', h1, h2, h3⟩

/-- C30: two secrets of two bytes and one randomizer. -/
example : ∃ sh1 sh2 ps1' ps2', splitWithRandomizer .noasm 1 [1, 2] 3 2 ⟨fun i => BitVec.ofNat 8 (i * i + 9)⟩ (Pools.init 1)
      = ok (sh1, ps1') ∧
    splitWithRandomizer .noasm 1 [50, 60] 3 2 ⟨fun i => BitVec.ofNat 8 (i * i + 9)⟩ (Pools.init 4) = ok (sh2, ps2') ∧
    (sh1.getD 2 []).getD 1 0 ^^^ (sh2.getD 2 []).getD 1 0 = 2 ^^^ 60 := by
  obtain ⟨sh1, ps1', h1, -⟩ := C31_first_byte_leaks .noasm 0 [1, 2] 3 2 ⟨fun i => BitVec.ofNat 8 (i * i + 9)⟩ (Pools.init 1)
    (by decide) (by decide) (by decide) rfl
  obtain ⟨sh2, ps2', h2, -⟩ := C31_first_byte_leaks .noasm 0 [50, 60] 3 2 ⟨fun i => BitVec.ofNat 8 (i * i + 9)⟩ (Pools.init 4)
    (by decide) (by decide) (by decide) rfl
  obtain ⟨-, h⟩ := C30_same_masks .noasm 1 [1, 2] [50, 60] 3 2 _ _ _ _ _ _ _ rfl rfl rfl h1 h2
  have l1 : sh1.length = 3 := (splitWithRandomizer_ok .noasm 1 h1).2.2.1
  have l2 : sh2.length = 3 := (splitWithRandomizer_ok .noasm 1 h2).2.2.1
  refine ⟨sh1, sh2, ps1', ps2', h1, h2, ?_⟩
  have := (h 2 (by omega) (by omega)).2 1 (by decide)
  have e1 : sh1.getD 2 [] = sh1[2] := by rw [List.getD_eq_getElem?_getD, List.getElem?_eq_getElem, Option.getD_some]
  have e2 : sh2.getD 2 [] = sh2[2] := by rw [List.getD_eq_getElem?_getD, List.getElem?_eq_getElem, Option.getD_some]
  rw [e1, e2]
  exact this

/-- C30: the second of two sharings with threshold 4 already gives its last byte to any three shares. -/
example (arch : Arch) : ∃ (sh2 : List (List Byte)) (s : List Byte), sh2.length = 5 ∧ combine (sh2.take 3) = ok s ∧ s.getLast? = some 77 := by
  obtain ⟨sh1, sh2, ps', ps'', h1, h2, h3, h4⟩ := two_calls arch [1, 2, 3] [5, 6, 77] 5 4
    ⟨fun i => BitVec.ofNat 8 (i * i + 9)⟩ (by decide) (by decide) (by decide) (by decide)
  have l2 : sh2.length = 5 := (splitWithRandomizer_ok arch 1 h2).2.2.1
  obtain ⟨s, e1, -, e2⟩ := C30_reuse_lowers_threshold arch 1 1 [1, 2, 3] [5, 6, 77] _ _ _ _ _ _ _ _ _ (sh2.take 3) rfl h3 h4 h1 h2
    (List.take_sublist _ _).subperm (by rw [List.length_take]; omega) (by rw [List.length_take]; omega)
  exact ⟨sh2, s, l2, e1, e2⟩

/-- C30: one-byte secrets, threshold 3. -/
example (arch : Arch) : ∃ sh2 : List (List Byte), sh2.length = 4 ∧ ∀ s ∈ sh2, s = [77, tag s] := by
  obtain ⟨sh1, sh2, ps', ps'', h1, h2, h3, h4⟩ := two_calls arch [3] [77] 4 3
    ⟨fun i => BitVec.ofNat 8 (i * i + 9)⟩ (by decide) (by decide) (by decide) (by decide)
  exact ⟨sh2, (splitWithRandomizer_ok arch 1 h2).2.2.1,
    C30_reuse_one_byte arch 1 1 3 77 _ _ _ _ _ _ _ _ _ h3 h4 h1 h2⟩

example (r : CSPRNG) : r.read [0, 0] = (r.read (List.replicate 10 0)).take 2 := C26_read_prefix r 2 10 (by decide)

/-- C29: key stream bytes 255, 254, 253: the first share has tag 0. -/
example (arch : Arch) : ∃ shares ps', splitWithRandomizer arch 1 [1, 2] 3 2 ⟨fun i => 255 - BitVec.ofNat 8 i⟩ (Pools.init 1) = ok (shares, ps') ∧
    (∃ s ∈ shares, tag s = 0) ∧ ∀ s ∈ shares, tag s = 0 → s = [1, 2, 0] := by
  obtain ⟨shares, ps', h, h0⟩ := C29_leak arch 0 [1, 2] 3 2 ⟨fun i => 255 - BitVec.ofNat 8 i⟩ (Pools.init 1) (by decide) (by decide)
    (by decide) 0 (by decide) (by decide)
  exact ⟨shares, ps', h, ⟨_, List.mem_of_getElem? h0, rfl⟩, fun s hs ht => C29_tag_zero_is_secret arch 1 [1, 2] 3 2 _ _ _ _ h s hs ht⟩

end Verif.Props
