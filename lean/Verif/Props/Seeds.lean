import Verif.Spec.Seeds
import Verif.Props.Random
import Verif.Props.KrawczykSecrecy
import Verif.Props.RegenerateOdds
import Verif.Model.CtrMode
import Verif.Proofs.MathRand
import Mathlib.Data.Int.Interval
import Mathlib.Data.Set.Card
import Mathlib.SetTheory.Cardinal.Finite

/-! # C70: secrecy is limited by the number of states of the random source

The results of C17 are about an ideal source.  Here the source is arbitrary: `z : σ` is its state before the call, `perm z`,
`rnd z` (or the CSPRNG `r z`) what it then delivers, `ps z` the buffer pools.  The holder of a single share who knows the
state knows the secret; so at most `σ` many secrets are possible. -/

namespace Verif.Props
open Verif Outcome Galois Spec Proofs Shamir Pool Csprng RS Krawczyk

/-! ## Counting -/

theorem candidates_le {σ : Type} [Finite σ] (run : σ → List Byte → Outcome (List (List Byte))) (n i : Nat) (v : List Byte)
    (huniq : ∀ z s s' sh sh', s.length = n → s'.length = n → run z s = ok sh → run z s' = ok sh' →
      sh[i]? = some v → sh'[i]? = some v → s = s') :
    (Candidates run n i v).encard ≤ Nat.card σ := by
  classical
  have hex : ∀ s : Candidates run n i v, ∃ z sh, run z s.1 = ok sh ∧ sh[i]? = some v := fun s => s.2.2
  choose f hf using hex
  have hinj : Function.Injective f := by
    intro a b hab
    obtain ⟨sh, h1, h2⟩ := hf a
    obtain ⟨sh', h1', h2'⟩ := hf b
    rw [hab] at h1
    exact Subtype.ext (huniq _ _ _ _ _ a.2.1 b.2.1 h1 h1' h2 h2')
  have hfin : Finite (Candidates run n i v) := Finite.of_injective f hinj
  have hfs : (Candidates run n i v).Finite := Set.toFinite _
  rw [← hfs.cast_ncard_eq]
  rw [← Nat.card_coe_set_eq]
  exact_mod_cast Nat.card_le_card_of_injective f hinj

theorem map_eq_ok {α β : Type} {o : Outcome α} {f : α → β} {b : β} (h : f <$> o = ok b) : ∃ a, o = ok a ∧ f a = b := by
  cases o with
  | ok a => exact ⟨a, rfl, Outcome.ok.inj h⟩
  | _ => cases h

/-- There are 256^n byte strings of length n; a set of fewer does not contain them all. -/
theorem exists_excluded {S : Set (List Byte)} {n N : Nat} (hS : S.encard ≤ N) (hN : N < 256 ^ n) :
    ∃ s : List Byte, s.length = n ∧ s ∉ S := by
  by_contra hcon
  push Not at hcon
  let g : (Fin n → Byte) → List Byte := List.ofFn
  have hg : Function.Injective g := List.ofFn_injective
  have h1 : (Set.range g).encard ≤ S.encard := by
    apply Set.encard_le_encard
    rintro _ ⟨a, rfl⟩
    exact hcon _ (by simp [g])
  have h2 : (Set.range g).encard = 256 ^ n := by
    rw [← Set.image_univ, hg.encard_image, Set.encard_univ, ENat.card_eq_coe_natCard, Nat.card_fun, card_byte]
    simp
  rw [h2] at h1
  have h3 := h1.trans hS
  have h4 : 256 ^ n ≤ N := by exact_mod_cast h3
  omega

/-! ## shamir.Split, shamir.SplitGeneric -/

theorem sum_cShare (s : List Byte) (t : Nat) (c : Nat → Nat → Byte) (x : Byte) :
    sumOfPayloads (cShare s t c x) (cShare (List.replicate s.length 0) t c x) = s := by
  unfold sumOfPayloads cShare
  rw [List.dropLast_concat, List.dropLast_concat, List.length_replicate, List.zipWith_map, List.zipWith_self]
  apply List.ext_getElem (by simp)
  intro p h1 h2
  simp only [List.getElem_map, List.getElem_range, List.getD_eq_getElem?_getD, List.getElem?_replicate, h2, if_true,
    List.getElem?_eq_getElem, Option.getD_some]
  generalize (Finset.sum _ _ : GF).val = m
  rw [show (0 : Byte) ^^^ m = m from BitVec.zero_xor, BitVec.xor_assoc, BitVec.xor_self, BitVec.xor_zero]

theorem validArgs_length {s s' : List Byte} {parts threshold : Int} (hl : s'.length = s.length)
    (hv : ValidArgs s parts threshold) : ValidArgs s' parts threshold := by
  refine ⟨hv.1, hv.2.1, hv.2.2.1, ?_⟩
  have := List.length_pos_iff.2 hv.2.2.2
  exact List.length_pos_iff.1 (by omega)

/-- The secret from one share and the randomness of the call: split the secret that consists of zeros with the same
randomness, and add the two shares. -/
theorem C70_split_recover (arch : Arch) (secret : List Byte) (parts threshold : Int) (perm : List Nat)
    (hperm : perm.Perm (List.range 255)) (rnd : Nat → Byte) (ps ps' qs : Pools) (shares : List (List Byte)) (i : Nat)
    (v : List Byte) (h : split arch secret parts threshold perm rnd ps = ok (shares, ps')) (hi : shares[i]? = some v) :
    ∃ zeros qs' w, split arch (List.replicate secret.length 0) parts threshold perm rnd qs = ok (zeros, qs') ∧
      zeros[i]? = some w ∧ sumOfPayloads v w = secret := by
  have hv := (split_ok arch hperm h).1
  obtain ⟨p1, e1⟩ := split_layout arch rnd ps hv hperm
  obtain ⟨p2, e2⟩ := split_layout arch rnd qs (validArgs_length (s' := List.replicate secret.length 0) (by simp) hv) hperm
  rw [h] at e1
  obtain ⟨rfl, -⟩ := Prod.mk.inj (Outcome.ok.inj e1)
  rw [List.length_replicate] at e2
  rw [List.getElem?_map] at hi
  obtain ⟨x, hx, rfl⟩ := Option.map_eq_some_iff.1 hi
  exact ⟨_, _, _, e2, by rw [List.getElem?_map, hx, Option.map_some], sum_cShare _ _ _ _⟩

/-- One share leaves at most as many secrets possible as the source has states. -/
theorem C70_split_candidates (arch : Arch) (parts threshold : Int) {σ : Type} [Finite σ] (perm : σ → List Nat)
    (hperm : ∀ z, (perm z).Perm (List.range 255)) (rnd : σ → Nat → Byte) (ps : σ → Pools) (n i : Nat) (v : List Byte) :
    (Candidates (fun z s => Prod.fst <$> split arch s parts threshold (perm z) (rnd z) (ps z)) n i v).encard
      ≤ Nat.card σ := by
  refine candidates_le _ n i v fun z s s' sh sh' hs hs' h h' hi hi' => ?_
  obtain ⟨⟨a, p⟩, e, rfl⟩ := map_eq_ok h
  obtain ⟨⟨a', p'⟩, e', rfl⟩ := map_eq_ok h'
  obtain ⟨z1, q1, w1, r1, g1, f1⟩ := C70_split_recover arch s parts threshold _ (hperm z) _ _ _ (ps z) _ i v e hi
  obtain ⟨z2, q2, w2, r2, g2, f2⟩ := C70_split_recover arch s' parts threshold _ (hperm z) _ _ _ (ps z) _ i v e' hi'
  rw [hs', ← hs, r1] at r2
  cases r2
  rw [g1] at g2
  cases g2
  rw [← f1, ← f2]

/-- If the source has fewer states than there are secrets of this length, every share excludes some secret. -/
theorem C70_split_excluded (arch : Arch) (parts threshold : Int) {σ : Type} [Finite σ] (perm : σ → List Nat)
    (hperm : ∀ z, (perm z).Perm (List.range 255)) (rnd : σ → Nat → Byte) (ps : σ → Pools) (n i : Nat) (v : List Byte)
    (hσ : Nat.card σ < 256 ^ n) :
    ∃ s : List Byte, s.length = n ∧ ∀ z shares ps',
      split arch s parts threshold (perm z) (rnd z) (ps z) = ok (shares, ps') → shares[i]? ≠ some v := by
  obtain ⟨s, hs, hn⟩ := exists_excluded (C70_split_candidates arch parts threshold perm hperm rnd ps n i v) hσ
  refine ⟨s, hs, fun z shares ps' h hi => hn ⟨hs, z, shares, ?_, hi⟩⟩
  show Prod.fst <$> split _ _ _ _ _ _ _ = _
  rw [h]; rfl

/-- With an ideal source (all fillings of the `threshold * n` random bytes) no secret is excluded by one share. -/
theorem C70_ideal (arch : Arch) (parts threshold : Int) (perm : List Nat) (hperm : perm.Perm (List.range 255)) (ps : Pools)
    (n i : Nat) (v : List Byte) (s : List Byte) (hs : s.length = n) (hv : ValidArgs s parts threshold) (hi : (i : Int) < parts)
    (hw : v.length = n + 1 ∧ tag v = BitVec.ofNat 8 (perm.getD i 0) + 1#8) :
    s ∈ Candidates (fun (ρ : Fin (threshold.toNat * n) → Byte) s =>
      Prod.fst <$> split arch s parts threshold perm (stream ρ) ps) n i v := by
  subst hs
  have ⟨v1, v2, v3, v4⟩ := hv
  have hpl := (permBytes_nodup hperm).2.1
  obtain ⟨p1, e1⟩ := split_layout arch (stream fun _ : Fin (threshold.toNat * s.length) => 0) ps hv hperm
  have hx : i < ((perm.take parts.toNat).map fun v => BitVec.ofNat 8 v + 1#8).length := by
    simp only [List.length_map, List.length_take]; omega
  have htag : ((perm.take parts.toNat).map fun v => BitVec.ofNat 8 v + 1#8)[i] = BitVec.ofNat 8 (perm.getD i 0) + 1#8 := by
    simp [List.getD_eq_getElem?_getD, show i < perm.length by omega]
  have h1 := List.getElem?_map (i := i) (f := cShare s threshold.toNat fun p k =>
      stream (fun _ : Fin (threshold.toNat * s.length) => 0) ((layoutSplit threshold.toNat s.length).ix p k))
    (l := (perm.take parts.toNat).map fun v => BitVec.ofNat 8 v + 1#8)
  rw [List.getElem?_eq_getElem hx, Option.map_some] at h1
  have key := C17_uniform arch s s rfl parts threshold hv perm hperm ps {i} (by simp; omega) (by simpa using hi)
    (fun _ => _) (fun _ => v)
    (fun j hj => by
      rw [Finset.mem_singleton.1 hj]
      exact ⟨length_cShare s threshold.toNat (fun p k =>
        stream (fun _ : Fin (threshold.toNat * s.length) => 0) ((layoutSplit threshold.toNat s.length).ix p k)) _,
        (tag_cShare _ _ _ _).trans htag⟩)
    (fun j hj => by rw [Finset.mem_singleton.1 hj]; exact hw)
  have hpos : 0 < count (m := threshold.toNat * s.length) (fun ρ => ∃ shares ps',
      split arch s parts threshold perm (stream ρ) ps = ok (shares, ps') ∧ Seen {i} (fun _ => v) shares) := by
    rw [← key]
    exact @Nat.card_pos _ ⟨⟨fun _ => 0, _, _, e1, fun j hj => by rw [Finset.mem_singleton.1 hj]; exact h1⟩⟩ _
  obtain ⟨⟨ρ, sh, p, h, hse⟩⟩ := (Nat.card_pos_iff.1 hpos).1
  refine ⟨rfl, ρ, sh, ?_, hse i (by simp)⟩
  show Prod.fst <$> split _ _ _ _ _ _ _ = _
  rw [h]; rfl

/-- The same for SplitGeneric: the secret from one share and the randomness. -/
theorem C70_splitGeneric_recover (secret : List Byte) (parts threshold : Int) (perm : List Nat)
    (hperm : perm.Perm (List.range 255)) (rnd : Nat → Byte) (shares : List (List Byte)) (i : Nat)
    (v : List Byte) (h : splitGeneric secret parts threshold perm rnd = ok shares) (hi : shares[i]? = some v) :
    ∃ zeros w, splitGeneric (List.replicate secret.length 0) parts threshold perm rnd = ok zeros ∧
      zeros[i]? = some w ∧ sumOfPayloads v w = secret := by
  have hv := (splitGeneric_ok hperm h).1
  have e1 := splitGeneric_layout rnd hv hperm
  have e2 := splitGeneric_layout rnd (validArgs_length (s' := List.replicate secret.length 0) (by simp) hv) hperm
  rw [h] at e1
  obtain rfl := Outcome.ok.inj e1
  rw [List.length_replicate] at e2
  rw [List.getElem?_map] at hi
  obtain ⟨x, hx, rfl⟩ := Option.map_eq_some_iff.1 hi
  exact ⟨_, _, e2, by rw [List.getElem?_map, hx, Option.map_some], sum_cShare _ _ _ _⟩

theorem C70_splitGeneric_candidates (parts threshold : Int) {σ : Type} [Finite σ] (perm : σ → List Nat)
    (hperm : ∀ z, (perm z).Perm (List.range 255)) (rnd : σ → Nat → Byte) (n i : Nat) (v : List Byte) :
    (Candidates (fun z s => splitGeneric s parts threshold (perm z) (rnd z)) n i v).encard ≤ Nat.card σ := by
  refine candidates_le _ n i v fun z s s' sh sh' hs hs' h h' hi hi' => ?_
  obtain ⟨z1, w1, r1, g1, f1⟩ := C70_splitGeneric_recover s parts threshold _ (hperm z) _ _ i v h hi
  obtain ⟨z2, w2, r2, g2, f2⟩ := C70_splitGeneric_recover s' parts threshold _ (hperm z) _ _ i v h' hi'
  rw [hs', ← hs, r1] at r2
  cases r2
  rw [g1] at g2
  cases g2
  rw [← f1, ← f2]

/-! ## shamir.SplitWithRandomizer -/

theorem C70_splitWithRandomizer_recover (arch : Arch) (fuel : Nat) (secret : List Byte) (parts threshold : Int)
    (r : CSPRNG) (ps ps' : Pools) (shares : List (List Byte)) (i : Nat) (v : List Byte)
    (h : splitWithRandomizer arch fuel secret parts threshold r ps = ok (shares, ps')) (hi : shares[i]? = some v) :
    ∃ zeros qs' w, splitWithRandomizer arch fuel (List.replicate secret.length 0) parts threshold r ps = ok (zeros, qs') ∧
      zeros[i]? = some w ∧ sumOfPayloads v w = secret := by
  obtain ⟨hv, -, -, xs, hx, -⟩ := splitWithRandomizer_ok arch fuel h
  obtain ⟨p1, e1⟩ := splitWithRandomizer_payload arch fuel r ps hv xs hx
  obtain ⟨p2, e2⟩ := splitWithRandomizer_payload arch fuel r ps
    (validArgs_length (s' := List.replicate secret.length 0) (by simp) hv) xs hx
  rw [h] at e1
  obtain ⟨rfl, -⟩ := Prod.mk.inj (Outcome.ok.inj e1)
  rw [List.length_replicate] at e2
  rw [List.getElem?_map] at hi
  obtain ⟨x, hx, rfl⟩ := Option.map_eq_some_iff.1 hi
  exact ⟨_, _, _, e2, by rw [List.getElem?_map, hx, Option.map_some]; rfl,
    sum_cShare secret threshold.toNat (fun p k =>
      (r.read (staleBuf ps.bPool (threshold.toNat * secret.length))).getD (threshold.toNat * p + k) 0) (x + 1#8)⟩

theorem C70_splitWithRandomizer_candidates (arch : Arch) (fuel : Nat) (parts threshold : Int) {σ : Type} [Finite σ]
    (r : σ → CSPRNG) (ps : σ → Pools) (n i : Nat) (v : List Byte) :
    (Candidates (fun z s => Prod.fst <$> splitWithRandomizer arch fuel s parts threshold (r z) (ps z)) n i v).encard
      ≤ Nat.card σ := by
  refine candidates_le _ n i v fun z s s' sh sh' hs hs' h h' hi hi' => ?_
  obtain ⟨⟨a, p⟩, e, rfl⟩ := map_eq_ok h
  obtain ⟨⟨a', p'⟩, e', rfl⟩ := map_eq_ok h'
  obtain ⟨z1, q1, w1, r1, g1, f1⟩ := C70_splitWithRandomizer_recover arch fuel s parts threshold _ _ _ _ i v e hi
  obtain ⟨z2, q2, w2, r2, g2, f2⟩ := C70_splitWithRandomizer_recover arch fuel s' parts threshold _ _ _ _ i v e' hi'
  rw [hs', ← hs, r1] at r2
  cases r2
  rw [g1] at g2
  cases g2
  rw [← f1, ← f2]

/-- A CSPRNG made by NewCSPRNG or NewCSPRNGWithKeyIV from 32 bytes: whatever the AES function and however the 32 bytes are
chosen, one share of a secret of more than 32 bytes excludes some secret (while the pools are `ps`). -/
theorem C70_csprng_excluded (arch : Arch) (fuel : Nat) (parts threshold : Int) (aes : List Byte → List Byte → List Byte)
    (ps : Pools) (n i : Nat) (v : List Byte) (hn : 32 < n) :
    ∃ s : List Byte, s.length = n ∧ ∀ (h : Heap.Arr → List Byte) (a : Heap.Arr) (rnd : Nat → Byte) h' r shares ps',
      newCSPRNG h a rnd = ok (h', r) →
      splitWithRandomizer arch fuel s parts threshold (r.source aes h') ps = ok (shares, ps') → shares[i]? ≠ some v := by
  let src : (Fin 32 → Byte) → CSPRNG := fun κ =>
    ⟨ctrAt (aes ((List.ofFn κ).take 16)) ((List.ofFn κ).drop 16)⟩
  have hb := C70_splitWithRandomizer_candidates arch fuel parts threshold src (fun _ => ps) n i v
  obtain ⟨s, hs, hno⟩ := exists_excluded hb (by
    rw [Nat.card_fun, card_byte, Nat.card_eq_fintype_card, Fintype.card_fin]
    exact Nat.pow_lt_pow_right (by norm_num) hn)
  refine ⟨s, hs, fun h a rnd h' r shares ps' hnew hsp hi => hno ⟨hs, fun k => rnd k, shares, ?_, hi⟩⟩
  have hsrc : r.source aes h' = src fun k => rnd k := by
    unfold newCSPRNG newCSPRNGWithKeyIV at hnew
    simp at hnew
    obtain ⟨rfl, rfl⟩ := hnew
    have : (List.ofFn fun k : Fin 32 => rnd k) = (List.range 32).map rnd := by
      apply List.ext_getElem (by simp)
      intro k _ _
      rw [List.getElem_ofFn, List.getElem_map, List.getElem_range]
    simp only [src, this, Handle.source, Function.update_self]
    congr 2
  show Prod.fst <$> Shamir.splitWithRandomizer _ _ _ _ _ _ _ = _
  rw [← hsrc, hsp]; rfl

/-! ## math/rand, seeded with the time -/

/-- `rand.Seed` leads to at most 2^31 - 2 states. -/
theorem C70_seed_states (cooked : Nat → BitVec 64) (t t' : Int) (r : MathRand.Rand) :
    (1 ≤ MathRand.seedWord t ∧ MathRand.seedWord t ≤ 2147483646) ∧
    (MathRand.seedWord t = MathRand.seedWord t' → MathRand.seed cooked t r = MathRand.seed cooked t' r) := by
  refine ⟨?_, fun h => ?_⟩
  · unfold MathRand.seedWord
    have h1 := Int.tmod_lt_of_pos t (show (0 : Int) < 2147483647 by norm_num)
    have h2 : -2147483647 < t.tmod 2147483647 := by
      have := Int.tmod_lt_of_pos (-t) (show (0 : Int) < 2147483647 by norm_num)
      rw [Int.neg_tmod] at this
      omega
    simp only []
    split <;> split <;> omega
  · unfold MathRand.seed; rw [h]

/-- `shamir.Split` in a program that seeds math/rand with `rand.Seed(t)` and then does anything with it (`hist`) before the
call: whatever the time `t`, one share leaves at most 2^31 - 2 secrets possible. -/
theorem C70_time_seed (arch : Arch) (fuel : Nat) (parts threshold : Int) (cooked : Nat → BitVec 64) (r : MathRand.Rand)
    (hist : MathRand.Rand → MathRand.Rand) (ps : Pools) (n i : Nat) (v : List Byte) :
    (Candidates (fun (t : Int) s => Prod.fst <$> MathRand.split arch fuel s parts threshold
      (hist (MathRand.seed cooked t r)) ps) n i v).encard ≤ 2147483646 := by
  classical
  let σ : Type := ↥(Finset.Icc (1 : Int) 2147483646)
  have hfin : Finite σ := inferInstanceAs (Finite ↥(Finset.Icc (1 : Int) 2147483646))
  let src : σ → MathRand.Rand := fun w => hist (MathRand.seed cooked w.1 r)
  have hw : ∀ t : Int, ∃ w : σ, MathRand.seed cooked t r = MathRand.seed cooked w.1 r := by
    intro t
    obtain ⟨⟨h1, h2⟩, -⟩ := C70_seed_states cooked t t r
    refine ⟨⟨MathRand.seedWord t, Finset.mem_Icc.2 ⟨h1, h2⟩⟩, (C70_seed_states cooked _ _ r).2 ?_⟩
    generalize MathRand.seedWord t = w at h1 h2 ⊢
    unfold MathRand.seedWord
    simp only []
    rw [Int.tmod_eq_of_lt (by omega) (by omega), if_neg (by omega), if_neg (by omega)]
  have hcard : Nat.card σ = 2147483646 := by
    show Nat.card ↥(Finset.Icc (1 : Int) 2147483646) = _
    rw [Nat.card_eq_fintype_card, Fintype.card_coe, Int.card_Icc]
    rfl
  have hsub : Candidates (fun (t : Int) s => Prod.fst <$> MathRand.split arch fuel s parts threshold
      (hist (MathRand.seed cooked t r)) ps) n i v
      ⊆ Candidates (fun (w : σ) s => Prod.fst <$> MathRand.split arch fuel s parts threshold (src w) ps) n i v := by
    rintro s ⟨hs, t, sh, h1, h2⟩
    obtain ⟨w, hw⟩ := hw t
    refine ⟨hs, w, sh, ?_, h2⟩
    simp only [src, ← hw]
    exact h1
  refine (Set.encard_le_encard hsub).trans ?_
  have key := candidates_le (σ := σ) (fun w s => Prod.fst <$> MathRand.split arch fuel s parts threshold (src w) ps) n i v ?_
  · rw [hcard] at key; exact_mod_cast key
  · intro z s s' sh sh' hs hs' h h' hi hi'
    obtain ⟨⟨a, g, p⟩, e, rfl⟩ := map_eq_ok h
    obtain ⟨⟨a', g', p'⟩, e', rfl⟩ := map_eq_ok h'
    unfold MathRand.split at e e'
    obtain ⟨⟨π, r1⟩, hp, e⟩ := bind_eq_ok.1 e
    rw [hp, ok_bind] at e'
    obtain ⟨⟨b, q⟩, e, f⟩ := bind_eq_ok.1 e
    obtain ⟨⟨b', q'⟩, e', f'⟩ := bind_eq_ok.1 e'
    cases f
    cases f'
    obtain ⟨z1, q1, w1, c1, g1, f1⟩ := C70_split_recover arch s parts threshold _ (perm_perm hp) _ _ _ ps _ i v e hi
    obtain ⟨z2, q2, w2, c2, g2, f2⟩ := C70_split_recover arch s' parts threshold _ (perm_perm hp) _ _ _ ps _ i v e' hi'
    rw [hs', ← hs, c1] at c2
    cases c2
    rw [g1] at g2
    cases g2
    rw [← f1, ← f2]

/-- So every share of a secret of at least four bytes excludes some secret, whatever the time of the seed. -/
theorem C70_time_seed_excluded (arch : Arch) (fuel : Nat) (parts threshold : Int) (cooked : Nat → BitVec 64)
    (r : MathRand.Rand) (hist : MathRand.Rand → MathRand.Rand) (ps : Pools) (n i : Nat) (v : List Byte) (hn : 4 ≤ n) :
    ∃ s : List Byte, s.length = n ∧ ∀ (t : Int) shares r' ps',
      MathRand.split arch fuel s parts threshold (hist (MathRand.seed cooked t r)) ps = ok (shares, r', ps') →
      shares[i]? ≠ some v := by
  have hb : (2147483646 : Nat) < 256 ^ n :=
    lt_of_lt_of_le (by norm_num : 2147483646 < 256 ^ 4) (Nat.pow_le_pow_right (by norm_num) hn)
  obtain ⟨s, hs, hno⟩ := exists_excluded (C70_time_seed arch fuel parts threshold cooked r hist ps n i v) hb
  refine ⟨s, hs, fun t shares r' ps' h hi => hno ⟨hs, t, shares, ?_, hi⟩⟩
  show Prod.fst <$> MathRand.split _ _ _ _ _ _ _ = _
  rw [h]; rfl

/-- `rand.Perm(255)` returns a permutation, as the other theorems assume. -/
theorem C70_perm (fuel n : Nat) (r r' : MathRand.Rand) (π : List Nat) (h : r.perm fuel n = ok (π, r')) :
    π.Perm (List.range n) := perm_perm h

/-! ## krawczyk.Split -/

/-- The part of a secret of length `n` that goes into share `i < k`: bytes `i*c`, ..., `i*c + c - 1` where `c = ⌈n/k⌉`. -/
def chunk (k i : Nat) (s : List Byte) : List Byte := (s.drop (i * ceilDiv s.length k)).take (ceilDiv s.length k)

/-- Two calls of krawczyk.Split with the same key whose share `i < threshold` carries the same shard were given secrets with
the same chunk `i`. -/
theorem C70_krawczyk_same_chunk (env : Env) (hc : env.lib.Contract) (parts threshold : Int) (κ κ' : Nat → Byte)
    (perm perm' : List Nat) (hperm : perm.Perm (List.range 255)) (hperm' : perm'.Perm (List.range 255))
    (rnd rnd' : Nat → Byte) (ps ps' qs qs' : Pools) (s s' : List Byte) (hl : s.length = s'.length)
    (shares shares' : List (List Byte)) (i : Nat) (hi : (i : Int) < threshold) (v v' : List Byte)
    (hκ : ∀ j < 16, κ j = κ' j)
    (h : Krawczyk.split env s parts threshold κ perm rnd ps = ok (shares, qs)) (hv : shares[i]? = some v)
    (h' : Krawczyk.split env s' parts threshold κ' perm' rnd' ps' = ok (shares', qs')) (hv' : shares'[i]? = some v')
    (hvv : v.drop 21 = v'.drop 21) :
    chunk threshold.toNat i s = chunk threshold.toNat i s' := by
  have hkey : keyOf κ = keyOf κ' := List.map_congr_left fun j hj => hκ j (List.mem_range.1 hj)
  have e := ((kView_iff env hc parts threshold hperm ps {i} (fun _ => v) s κ rnd).1
    ⟨shares, qs, h, fun j hj => by rw [Finset.mem_singleton.1 hj]; exact hv⟩).2.1 i (by simp)
  have e' := ((kView_iff env hc parts threshold hperm' ps' {i} (fun _ => v') s' κ' rnd').1
    ⟨shares', qs', h', fun j hj => by rw [Finset.mem_singleton.1 hj]; exact hv'⟩).2.1 i (by simp)
  rw [hvv, e', hkey] at e
  have e := List.append_cancel_right e
  have hik : i < threshold.toNat := by omega
  have hd : ∀ data : List Byte, (codeword env.lib threshold.toNat (parts - threshold).toNat data).getD i []
      = (List.range (perShard data.length threshold.toNat)).map fun j =>
        padded env.lib data (i * perShard data.length threshold.toNat + j) := by
    intro data
    simp only [codeword, List.getD_eq_getElem?_getD]
    rw [List.getElem?_append_left (by simpa using hik)]
    simp [dataShards, hik]
  rw [hd, hd, length_cipherOf, length_cipherOf, ← hl] at e
  unfold chunk
  rw [← hl]
  have hper : ceilDiv s.length threshold.toNat = perShard s.length threshold.toNat := rfl
  rw [hper]
  apply List.ext_getElem (by simp [hl])
  intro j h1 h2
  simp only [List.length_take, List.length_drop] at h1 h2
  have hj : j < perShard s.length threshold.toNat := by omega
  have hq : i * perShard s.length threshold.toNat + j < s.length := by omega
  have hq' : i * perShard s.length threshold.toNat + j < s'.length := hl ▸ hq
  have := congrArg (fun l => l.getD j 0) e
  simp only [List.getD_eq_getElem?_getD, List.getElem?_map, List.getElem?_range hj, Option.map_some, Option.getD_some,
    padded, length_cipherOf, if_pos hq, if_pos hq'] at this
  simp only [cipherOf, xorKs, List.getElem?_mapIdx, List.getElem?_eq_getElem hq, List.getElem?_eq_getElem hq',
    Option.map_some, Option.getD_some] at this
  simp only [List.getElem_take, List.getElem_drop]
  exact ((BitVec.xor_left_inj _).1 this).symm

/-- The chunks `i` that some run of krawczyk.Split on a secret of length `n` explains, whatever randomness the run draws: it
returns a share number `i` that ends (after the metadata) like `v`. -/
def ChunkCandidates (env : Env) (parts threshold : Int) (n i : Nat) (v : List Byte) : Set (List Byte) :=
  {c | ∃ (s : List Byte) (κ : Nat → Byte) (perm : List Nat) (rnd : Nat → Byte) (ps ps' : Pools) (shares : List (List Byte))
      (w : List Byte), s.length = n ∧ perm.Perm (List.range 255) ∧
    Krawczyk.split env s parts threshold κ perm rnd ps = ok (shares, ps') ∧ shares[i]? = some w ∧ w.drop 21 = v.drop 21 ∧
    c = chunk threshold.toNat i s}

/-- However good the random source: a share of krawczyk.Split leaves at most 256^16 (= 2^128) possibilities for its chunk. -/
theorem C70_krawczyk_candidates (env : Env) (hc : env.lib.Contract) (parts threshold : Int) (n i : Nat)
    (hi : (i : Int) < threshold) (v : List Byte) :
    (ChunkCandidates env parts threshold n i v).encard ≤ (256 ^ 16 : Nat) := by
  choose f hf using fun c : ChunkCandidates env parts threshold n i v => c.2
  choose κ hκ using hf
  let g : ChunkCandidates env parts threshold n i v → (Fin 16 → Byte) := fun c j => κ c j
  have hinj : Function.Injective g := by
    intro a b hab
    obtain ⟨perm, rnd, ps, ps', shares, w, h1, h2, h3, h4, h5, h6⟩ := hκ a
    obtain ⟨perm', rnd', qs, qs', shares', w', h1', h2', h3', h4', h5', h6'⟩ := hκ b
    apply Subtype.ext
    rw [h6, h6']
    exact C70_krawczyk_same_chunk env hc parts threshold (κ a) (κ b) perm perm' h2 h2' rnd rnd' ps qs ps' qs' _ _
      (h1.trans h1'.symm) shares shares' i hi w w' (fun j hj => congrFun hab ⟨j, hj⟩) h3 h4 h3' h4' (h5.trans h5'.symm)
  have hfin : Finite (ChunkCandidates env parts threshold n i v) := Finite.of_injective g hinj
  have hfs : (ChunkCandidates env parts threshold n i v).Finite := Set.toFinite _
  rw [← hfs.cast_ncard_eq, ← Nat.card_coe_set_eq]
  have := Nat.card_le_card_of_injective g hinj
  rw [Nat.card_fun, card_byte, Nat.card_eq_fintype_card (α := Fin 16), Fintype.card_fin] at this
  exact_mod_cast this

/-- So if the chunks have more than 16 bytes, every share excludes some secrets: those whose chunk is one of these. -/
theorem C70_krawczyk_excluded (env : Env) (hc : env.lib.Contract) (parts threshold : Int) (n i : Nat)
    (hi : (i : Int) < threshold) (v : List Byte) (hn : 16 < ceilDiv n threshold.toNat) :
    ∃ c : List Byte, c.length = ceilDiv n threshold.toNat ∧ ∀ (s : List Byte) (κ : Nat → Byte) (perm : List Nat)
      (rnd : Nat → Byte) (ps ps' : Pools) (shares : List (List Byte)), s.length = n → perm.Perm (List.range 255) →
      Krawczyk.split env s parts threshold κ perm rnd ps = ok (shares, ps') → chunk threshold.toNat i s = c →
      shares[i]? ≠ some v := by
  obtain ⟨c, hl, hno⟩ := exists_excluded (C70_krawczyk_candidates env hc parts threshold n i hi v)
    (Nat.pow_lt_pow_right (by norm_num) hn)
  exact ⟨c, hl, fun s κ perm rnd ps ps' shares hs hp h hch hv =>
    hno ⟨s, κ, perm, rnd, ps, ps', shares, v, hs, hp, h, hv, rfl, hch.symm⟩⟩

/-! ## The hypotheses are met -/

/-- A source with 1000 states; secrets of two bytes: every share excludes one of the 65536 secrets. -/
example (arch : Arch) (v : List Byte) : ∃ s : List Byte, s.length = 2 ∧ ∀ (z : Fin 1000) shares ps',
    Shamir.split arch s 5 3 (List.range 255) (fun j => BitVec.ofNat 8 (z * j + 7)) (Pools.init 1) = ok (shares, ps') →
      shares[4]? ≠ some v :=
  C70_split_excluded arch 5 3 (fun _ : Fin 1000 => List.range 255) (fun _ => List.Perm.refl _)
    (fun z j => BitVec.ofNat 8 (z * j + 7)) (fun _ => Pools.init 1) 2 4 v (by simp)

/-- The holder of the fifth of the shares of [5, 9] computes the secret from the random bytes. -/
example (arch : Arch) (rnd : Nat → Byte) : ∃ shares ps' zeros qs' v w,
    Shamir.split arch [5, 9] 5 3 (List.range 255) rnd (Pools.init 1) = ok (shares, ps') ∧ shares[4]? = some v ∧
    Shamir.split arch [0, 0] 5 3 (List.range 255) rnd (Pools.init 1) = ok (zeros, qs') ∧ zeros[4]? = some w ∧
    sumOfPayloads v w = [5, 9] := by
  obtain ⟨ps', e⟩ := split_layout arch rnd (Pools.init 1) (secret := [5, 9]) (parts := 5) (threshold := 3) (by decide)
    (List.Perm.refl (List.range 255))
  have hl := (split_ok arch (List.Perm.refl _) e).2.2.1
  have h4 := List.getElem?_eq_getElem (i := 4) (lt_of_lt_of_eq (by decide) hl.symm)
  obtain ⟨zeros, qs', w, h1, h2, h3⟩ := C70_split_recover arch [5, 9] 5 3 _ (List.Perm.refl _) rnd _ _ (Pools.init 1) _ 4 _ e h4
  exact ⟨_, _, _, _, _, w, e, h4, h1, h2, h3⟩

/-- With ideal bytes the share [1, 2, 5] is explained by the secret [200, 100], as by any other. -/
example (arch : Arch) : [200, 100] ∈ Candidates (fun (ρ : Fin (3 * 2) → Byte) s =>
    Prod.fst <$> Shamir.split arch s 5 3 (List.range 255) (stream ρ) (Pools.init 1)) 2 4 [1, 2, 5] :=
  C70_ideal arch 5 3 (List.range 255) (List.Perm.refl _) (Pools.init 1) 2 4 [1, 2, 5] [200, 100] rfl (by decide) (by decide)
    (by decide)

/-- SplitGeneric with a source of 255 states: at most 255 secrets of one byte. -/
example (v : List Byte) : (Candidates (fun (z : Fin 255) s =>
    splitGeneric s 5 3 (List.range 255) (fun j => BitVec.ofNat 8 (z * j + 7))) 1 4 v).encard ≤ 255 := by
  have := C70_splitGeneric_candidates 5 3 (fun _ : Fin 255 => List.range 255) (fun _ => List.Perm.refl _)
    (fun z j => BitVec.ofNat 8 (z * j + 7)) 1 4 v
  simpa using this

/-- A secret of 40 bytes, shared with a CSPRNG. -/
example (aes : List Byte → List Byte → List Byte) (v : List Byte) : ∃ s : List Byte, s.length = 40 ∧
    ∀ (h : Heap.Arr → List Byte) (a : Heap.Arr) (rnd : Nat → Byte) h' r shares ps', newCSPRNG h a rnd = ok (h', r) →
      Shamir.splitWithRandomizer .noasm 0 s 20 2 (r.source aes h') (Pools.init 1) = ok (shares, ps') → shares[3]? ≠ some v :=
  C70_csprng_excluded .noasm 0 20 2 aes (Pools.init 1) 40 3 v (by decide)

/-- krawczyk.Split of 100 bytes with threshold 2: the chunks have 50 bytes. -/
example (v : List Byte) : ∃ c : List Byte, c.length = 50 ∧ ∀ (s : List Byte) (κ : Nat → Byte) (perm : List Nat)
      (rnd : Nat → Byte) (ps ps' : Pools) (shares : List (List Byte)), s.length = 100 → perm.Perm (List.range 255) →
      Krawczyk.split exEnv s 4 2 κ perm rnd ps = ok (shares, ps') → (s.drop 50).take 50 = c → shares[1]? ≠ some v := by
  obtain ⟨c, hc, h⟩ := C70_krawczyk_excluded exEnv exEnv_contract 4 2 100 1 (by decide) v (by decide)
  refine ⟨c, hc, fun s κ perm rnd ps ps' shares hs hp hk hch => h s κ perm rnd ps ps' shares hs hp hk ?_⟩
  rw [← hch]
  unfold chunk
  rw [hs]
  rfl

/-- Two krawczyk splits with the same key: equal data shards, equal chunks; here a split repeated with other metadata. -/
example : ∃ shares shares' v v' ps ps' κ κ',
    Krawczyk.split exEnv [5, 9, 1] 4 2 κ (List.range 255) (fun _ => 7) (Pools.init 1) = ok (shares, ps) ∧
    Krawczyk.split exEnv [5, 9, 1] 4 2 κ' (List.range 255) (fun _ => 8) (Pools.init 1) = ok (shares', ps') ∧
    shares[1]? = some v ∧ shares'[1]? = some v' ∧ v.drop 21 = v'.drop 21 ∧ (∀ j < 16, κ j = κ' j) ∧ κ ≠ κ' := by
  let κ : Nat → Byte := fun j => BitVec.ofNat 8 j
  let κ' : Nat → Byte := fun j => if j < 16 then BitVec.ofNat 8 j else 77
  obtain ⟨⟨sh, ps⟩, h⟩ := (C37_split_accepts exEnv exEnv_contract [5, 9, 1] 4 2 κ (List.range 255) (List.Perm.refl _)
    (fun _ => 7) (Pools.init 1)).2 (by decide)
  obtain ⟨⟨sh', ps'⟩, h'⟩ := (C37_split_accepts exEnv exEnv_contract [5, 9, 1] 4 2 κ' (List.range 255) (List.Perm.refl _)
    (fun _ => 8) (Pools.init 1)).2 (by decide)
  have hl := (C36_split_format exEnv exEnv_contract _ _ _ _ _ (List.Perm.refl _) _ _ _ _ h).1
  have hl' := (C36_split_format exEnv exEnv_contract _ _ _ _ _ (List.Perm.refl _) _ _ _ _ h').1
  have h1 := List.getElem?_eq_getElem (l := sh) (i := 1) (by omega)
  have h1' := List.getElem?_eq_getElem (l := sh') (i := 1) (by omega)
  have hkey : keyOf κ = keyOf κ' := List.map_congr_left fun j hj => (if_pos (List.mem_range.1 hj)).symm
  have e := ((kView_iff exEnv exEnv_contract 4 2 (List.Perm.refl _) _ {1} (fun _ => sh[1]) _ κ _).1
    ⟨sh, ps, h, fun j hj => by rw [Finset.mem_singleton.1 hj]; exact h1⟩).2.1 1 (by simp)
  have e' := ((kView_iff exEnv exEnv_contract 4 2 (List.Perm.refl _) _ {1} (fun _ => sh'[1]) _ κ' _).1
    ⟨sh', ps', h', fun j hj => by rw [Finset.mem_singleton.1 hj]; exact h1'⟩).2.1 1 (by simp)
  refine ⟨sh, sh', _, _, ps, ps', κ, κ', h, h', h1, h1', ?_, fun j hj => (if_pos hj).symm, fun hc => ?_⟩
  · rw [e, e', hkey]
  · have := congrFun hc 16
    revert this
    simp only [κ, κ']
    decide

end Verif.Props
