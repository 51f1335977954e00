import Verif.Proofs.CtrMode
import Verif.Proofs.Csprng
import Verif.Spec.Heap

/-! # C56, C57: construction of the random sources

`aes key` is an arbitrary function on blocks; where it matters that blocks have 16 bytes, or that AES is injective, this is
a hypothesis.  `counterMode` is the specification of counter mode in `Spec/CtrMode.lean`. -/

namespace Verif.Props
open Verif Outcome Spec Proofs Csprng Randomizer Heap

/-- A slice as Go makes them: its length does not exceed its capacity, and it lies in its array. -/
def GoSlice (h : Arr → List Byte) (s : Slice) : Prop := s.len ≤ s.cap ∧ s.off + s.cap ≤ (h s.arr).length

/-- C56: `NewCSPRNGWithKeyIV` panics exactly on slices of fewer than 16 bytes. -/
theorem C56_constructor (h : Arr → List Byte) (keyIv : Slice) (hs : GoSlice h keyIv) :
    (newCSPRNGWithKeyIV h keyIv = panic ↔ keyIv.len < 16) ∧ (16 ≤ keyIv.len → ∃ r, newCSPRNGWithKeyIV h keyIv = ok r) := by
  have hle := hs.1
  unfold newCSPRNGWithKeyIV
  by_cases h1 : keyIv.cap < 16
  · rw [if_pos h1]
    exact ⟨⟨fun _ => by omega, fun _ => rfl⟩, fun _ => by omega⟩
  · rw [if_neg h1]
    by_cases h2 : keyIv.len < 16
    · simp only [if_pos h2]
      exact ⟨⟨fun _ => h2, fun _ => rfl⟩, fun _ => by omega⟩
    · simp only [if_neg h2]
      exact ⟨⟨fun c => (nomatch c), fun c => absurd c h2⟩, fun _ => ⟨_, rfl⟩⟩

/-- The bytes a source delivers for a zeroed buffer of `n` bytes. -/
def firstBytes (r : CSPRNG) (n : Nat) : List Byte := r.read (List.replicate n 0)

theorem firstBytes_eq (r : CSPRNG) (n : Nat) : firstBytes r n = (List.range n).map r.ks := read_zeros r n

theorem counterMode_take (E : List Byte → List Byte) (hE : ∀ b, b.length = 16 → (E b).length = 16) {iv : List Byte}
    (hiv : iv.length = 16) (n : Nat) : (counterMode E (n / 16 + 1) iv).take n = (List.range n).map (ctrAt E iv) := by
  rw [counterMode_eq E hE _ _ hiv, ← List.map_take, List.take_range, Nat.min_eq_left (by omega)]
  exact List.map_congr_left fun i _ => ctrStream_eq E hiv i

theorem newCSPRNGWithKeyIV_ok {h : Arr → List Byte} {keyIv : Slice} {r : Handle} (hn : newCSPRNGWithKeyIV h keyIv = ok r) :
    16 ≤ keyIv.len ∧ r.key = ((h keyIv.arr).drop keyIv.off).take 16 ∧
      r.iv = ⟨keyIv.arr, keyIv.off + 16, keyIv.len - 16, keyIv.cap - 16⟩ := by
  unfold newCSPRNGWithKeyIV at hn
  by_cases h1 : keyIv.cap < 16
  · rw [if_pos h1] at hn; cases hn
  · rw [if_neg h1] at hn
    by_cases h2 : keyIv.len < 16
    · simp only [if_pos h2] at hn; cases hn
    · simp only [if_neg h2] at hn
      have : ok _ = ok r := hn
      injection this with this
      subst this
      exact ⟨by omega, rfl, rfl⟩

theorem source_eq (aes : List Byte → List Byte → List Byte) {h h' : Arr → List Byte} {keyIv : Slice} {r : Handle}
    (hl : keyIv.len = 32) (hn : newCSPRNGWithKeyIV h keyIv = ok r) :
    r.source aes h' = ⟨ctrAt (aes ((contents h keyIv).take 16)) ((contents h' keyIv).drop 16)⟩ := by
  obtain ⟨-, h1, h2⟩ := newCSPRNGWithKeyIV_ok hn
  unfold Handle.source contents
  rw [h1, h2, hl, List.take_take, List.drop_take, List.drop_drop]
  simp

theorem length_key {h : Arr → List Byte} {keyIv : Slice} (hl : keyIv.len = 32) (hs : GoSlice h keyIv) :
    ((contents h keyIv).take 16).length = 16 := by
  have := hs.1; have := hs.2
  simp [contents]; omega

/-- C56: from 32 bytes, the source delivers AES in counter mode.  The key is the first half of the bytes the slice showed
when the source was made; the initial counter is what the second half shows *when the source is read*: the caller's
slice is retained, and writing to it changes the source. -/
theorem C56_stream (aes : List Byte → List Byte → List Byte) (hE : ∀ key b, key.length = 16 → b.length = 16 → (aes key b).length = 16)
    (h h' : Arr → List Byte) (keyIv : Slice) (hl : keyIv.len = 32) (hs : GoSlice h keyIv) (hs' : GoSlice h' keyIv)
    (r : Handle) (hn : newCSPRNGWithKeyIV h keyIv = ok r) (n : Nat) :
    firstBytes (r.source aes h') n
      = (counterMode (aes ((contents h keyIv).take 16)) (n / 16 + 1) ((contents h' keyIv).drop 16)).take n := by
  have hiv : ((contents h' keyIv).drop 16).length = 16 := by
    have := hs'.1; have := hs'.2
    simp [contents]; omega
  rw [counterMode_take _ (fun b => hE _ b (length_key hl hs)) hiv, source_eq aes hl hn, firstBytes_eq]

/-- C56: ... while writing to the first half, or to anything but the second half, has no effect. -/
theorem C56_key_copied (aes : List Byte → List Byte → List Byte) (h h' : Arr → List Byte) (keyIv : Slice)
    (hl : keyIv.len = 32) (r : Handle) (hn : newCSPRNGWithKeyIV h keyIv = ok r)
    (he : (contents h' keyIv).drop 16 = (contents h keyIv).drop 16) : r.source aes h' = r.source aes h := by
  rw [source_eq aes hl hn, source_eq aes hl hn, he]

/-- C56: `NewCSPRNG` never fails, uses 32 bytes of `math/rand` as key and IV, and touches no memory but the new array;
as long as nobody else writes to that array its source is the counter mode stream of these bytes. -/
theorem C56_newCSPRNG (aes : List Byte → List Byte → List Byte) (hE : ∀ key b, key.length = 16 → b.length = 16 → (aes key b).length = 16)
    (h : Arr → List Byte) (a : Arr) (rnd : Nat → Byte) :
    ∃ h' r, newCSPRNG h a rnd = ok (h', r) ∧ (∀ b, b ≠ a → h' b = h b) ∧
      ∀ h'', h'' a = h' a → ∀ n, firstBytes (r.source aes h'') n
        = (counterMode (aes ((List.range 16).map rnd)) (n / 16 + 1) ((List.range 16).map fun i => rnd (16 + i))).take n := by
  let h' := Function.update (Function.update h a (List.replicate 32 (0 : Byte))) a ((List.range 32).map rnd)
  have ha : h' a = (List.range 32).map rnd := Function.update_self ..
  obtain ⟨r, hr⟩ : ∃ r, newCSPRNGWithKeyIV h' ⟨a, 0, 32, 32⟩ = ok r :=
    (C56_constructor h' _ ⟨le_rfl, by simp [ha]⟩).2 (by simp)
  refine ⟨h', r, ?_, ?_, ?_⟩
  · show (newCSPRNGWithKeyIV h' ⟨a, 0, 32, 32⟩ >>= fun r => pure (h', r)) = _
    rw [hr]; rfl
  · intro b hb
    simp [h', hb]
  · intro h'' he n
    rw [C56_stream aes hE h' h'' _ rfl ⟨le_rfl, by simp [ha]⟩ ⟨le_rfl, by simp [he, ha]⟩ r hr n]
    have e : contents h'' ⟨a, 0, 32, 32⟩ = (List.range 32).map rnd := by simp [contents, he, ha]
    have e' : contents h' ⟨a, 0, 32, 32⟩ = (List.range 32).map rnd := by simp [contents, ha]
    rw [e, e']
    rfl

/-- C56: sources with the same key and counters that are `d` apart deliver overlapping streams. -/
theorem C56_overlap (aes : List Byte → List Byte → List Byte) (h h' : Arr → List Byte) (keyIv keyIv' : Slice)
    (hl : keyIv.len = 32) (hl' : keyIv'.len = 32) (hs : GoSlice h keyIv) (r r' : Handle)
    (hn : newCSPRNGWithKeyIV h keyIv = ok r) (hn' : newCSPRNGWithKeyIV h keyIv' = ok r') (d : Nat)
    (hk : (contents h keyIv').take 16 = (contents h keyIv).take 16)
    (hd : (contents h' keyIv').drop 16 = nextCounter^[d] ((contents h keyIv).drop 16)) (n : Nat) :
    firstBytes (r'.source aes h') n = (firstBytes (r.source aes h) (16 * d + n)).drop (16 * d) := by
  have hiv : ((contents h keyIv).drop 16).length = 16 := by
    have := hs.1; have := hs.2
    simp [contents]; omega
  rw [source_eq aes hl' hn', source_eq aes hl hn, firstBytes_eq, firstBytes_eq, hk, hd, List.range_add, List.map_append,
    List.drop_left' (by simp), List.map_map]
  apply List.map_congr_left
  intro i _
  show ctrAt _ _ i = ctrAt _ _ (16 * d + i)
  generalize (contents h keyIv).drop 16 = iv at *
  have e : nextCounter^[d] iv = ctrBlock (beNat iv + d) := by
    conv_lhs => rw [← ctrBlock_beNat hiv, show nextCounter = fun c => (incr c).1 from funext nextCounter_eq]
    exact incr_iterate _ _
  unfold ctrAt
  rw [show (16 * d + i) / 16 = d + i / 16 by omega, show (16 * d + i) % 16 = i % 16 by omega, e, beNat_ctrBlock, ← Nat.add_assoc]
  congr 2
  apply beNat_inj (by simp)
  rw [beNat_ctrBlock, beNat_ctrBlock, Nat.mod_add_mod]

/-- C56: as AES is injective, the blocks of a stream differ from each other (up to 2^128 blocks). -/
theorem C56_blocks_differ (aes : List Byte → List Byte → List Byte) (hE : ∀ key b, key.length = 16 → b.length = 16 → (aes key b).length = 16)
    (hinj : ∀ key b b', key.length = 16 → b.length = 16 → b'.length = 16 → aes key b = aes key b' → b = b')
    (h : Arr → List Byte) (keyIv : Slice) (hl : keyIv.len = 32) (hs : GoSlice h keyIv) (r : Handle)
    (hn : newCSPRNGWithKeyIV h keyIv = ok r) (h' : Arr → List Byte) (p q : Nat) (hpq : p < q) (hq : q < 2 ^ 128) :
    ((firstBytes (r.source aes h') (16 * (q + 1))).drop (16 * p)).take 16
      ≠ (firstBytes (r.source aes h') (16 * (q + 1))).drop (16 * q) := by
  have hblock : ∀ p, p ≤ q → ((firstBytes (r.source aes h') (16 * (q + 1))).drop (16 * p)).take 16
      = aes ((contents h keyIv).take 16) (ctrBlock (beNat ((contents h' keyIv).drop 16) + p)) := by
    intro p hp
    have hE := hE _ (ctrBlock (beNat ((contents h' keyIv).drop 16) + p)) (length_key hl hs) (by simp)
    rw [source_eq aes hl hn, firstBytes_eq]
    apply List.ext_getElem
    · simp [hE]; omega
    · intro i h1 h2
      rw [hE] at h2
      simp only [List.getElem_take, List.getElem_drop, List.getElem_map, List.getElem_range]
      unfold ctrAt
      rw [show (16 * p + i) / 16 = p by omega, show (16 * p + i) % 16 = i by omega,
        List.getD_eq_getElem?_getD, List.getElem?_eq_getElem (by rw [hE]; exact h2)]
      rfl
  have hlast : (firstBytes (r.source aes h') (16 * (q + 1))).drop (16 * q)
      = ((firstBytes (r.source aes h') (16 * (q + 1))).drop (16 * q)).take 16 := by
    rw [List.take_of_length_le]
    simp [firstBytes_eq]; omega
  rw [hlast, hblock p (by omega), hblock q le_rfl]
  intro c
  have := congrArg beNat (hinj _ _ _ (length_key hl hs) (by simp) (by simp) c)
  rw [beNat_ctrBlock, beNat_ctrBlock] at this
  have e : (256 ^ 16 : Nat) = 2 ^ 128 := by norm_num
  rw [e] at this
  generalize (2 ^ 128 : Nat) = M at *
  have h2 := (Nat.ModEq.add_left_cancel' _ (show Nat.ModEq M _ _ from this))
  rw [Nat.ModEq, Nat.mod_eq_of_lt (by omega), Nat.mod_eq_of_lt hq] at h2
  omega

/-! ## C57 -/

/-- Successive calls of `Randomizer.Read` on the given buffers: their new contents. -/
def readSeq (r : Randomizer) : List (List Byte) → List (List Byte)
  | [] => []
  | b :: rest => (r.read b).1 :: readSeq (r.read b).2 rest

theorem readSeq_eq (r : Randomizer) (bs : List (List Byte)) :
    (readSeq r bs).flatten = bs.flatten.mapIdx fun i b => b ^^^ r.ks (r.pos + i) := by
  induction bs generalizing r with
  | nil => rfl
  | cons b bs ih =>
    rw [readSeq, List.flatten_cons, List.flatten_cons, ih, List.mapIdx_append]
    congr 1
    simp only [Randomizer.read]
    congr 1
    funext i x
    rw [Nat.add_assoc, Nat.add_comm b.length]

/-- C57: unlike the CSPRNG, a `Randomizer` advances: however a sequence of reads is cut into calls, the buffers together
are xored with the counter mode stream of the 32 bytes drawn by `NewRandomizer`. -/
theorem C57_stream (aes : List Byte → List Byte → List Byte) (hE : ∀ key b, key.length = 16 → b.length = 16 → (aes key b).length = 16) (rnd : Nat → Byte)
    (bs : List (List Byte)) :
    (readSeq (newRandomizer aes rnd) bs).map List.length = bs.map List.length ∧
    (readSeq (newRandomizer aes rnd) bs).flatten = List.zipWith (· ^^^ ·) bs.flatten
      (counterMode (aes ((List.range 16).map rnd)) (bs.flatten.length / 16 + 1) ((List.range 16).map fun i => rnd (16 + i))) := by
  constructor
  · generalize newRandomizer aes rnd = r
    induction bs generalizing r with
    | nil => rfl
    | cons b bs ih => simp [readSeq, ih, Randomizer.read]
  · rw [readSeq_eq, counterMode_eq _ (fun b => hE _ b (by simp)) _ _ (by simp)]
    apply List.ext_getElem
    · simp; omega
    · intro i h1 h2
      have hk : (((List.range 32).map rnd).take 16 = (List.range 16).map rnd) ∧
        (((List.range 32).map rnd).drop 16 = (List.range 16).map fun i => rnd (16 + i)) := ⟨rfl, rfl⟩
      simp [newRandomizer, hk.1, hk.2]

/-- C57: a `Randomizer` and a CSPRNG made from the same 32 bytes agree on the first read. -/
theorem C57_same_first_read (aes : List Byte → List Byte → List Byte) (rnd : Nat → Byte) (h : Arr → List Byte) (a : Arr)
    (h' : Arr → List Byte) (r : Handle) (hn : newCSPRNG h a rnd = ok (h', r)) (b : List Byte) :
    ((newRandomizer aes rnd).read b).1 = (r.source aes h').read b := by
  have hn' : newCSPRNGWithKeyIV h' ⟨a, 0, 32, 32⟩ = ok r ∧ h' a = (List.range 32).map rnd := by
    unfold newCSPRNG at hn
    rw [bind_eq_ok] at hn
    obtain ⟨r', h1, h2⟩ := hn
    obtain ⟨h3, h4⟩ := Prod.mk.inj (Outcome.ok.inj h2)
    subst h4; subst h3
    exact ⟨h1, Function.update_self ..⟩
  rw [source_eq aes rfl hn'.1]
  have e : contents h' ⟨a, 0, 32, 32⟩ = (List.range 32).map rnd := by simp [contents, hn'.2]
  rw [e]
  simp only [newRandomizer, Randomizer.read, CSPRNG.read, Nat.zero_add]
  congr 1
  funext i x
  rw [ctrStream_eq _ (by simp)]

/-! Non-vacuity -/

/-- A block function that adds the key to the block, byte by byte. -/
def exAes (key b : List Byte) : List Byte := (List.range 16).map fun i => key.getD i 0 + b.getD i 0

/-- An array of 40 bytes in which `keyIv` has 32. -/
def exKeyMem : Arr → List Byte := fun a => if a = 0 then (List.range 40).map (BitVec.ofNat 8) else []

/-- C56: overwriting the last byte of the counter after construction (the least significant one) shifts the stream. -/
example : ∃ r, newCSPRNGWithKeyIV exKeyMem ⟨0, 3, 32, 37⟩ = ok r ∧
    firstBytes (r.source exAes exKeyMem) 18 = [22, 24, 26, 28, 30, 32, 34, 36, 38, 40, 42, 44, 46, 48, 50, 52, 22, 24] ∧
    firstBytes (r.source exAes (Function.update exKeyMem 0 ((exKeyMem 0).set 34 255))) 18
      = [22, 24, 26, 28, 30, 32, 34, 36, 38, 40, 42, 44, 46, 48, 50, 17, 22, 24] := by
  obtain ⟨r, hr⟩ := (C56_constructor exKeyMem ⟨0, 3, 32, 37⟩ (by unfold GoSlice; decide)).2 (by decide)
  refine ⟨r, hr, ?_, ?_⟩
  · rw [C56_stream exAes (by simp [exAes]) exKeyMem exKeyMem ⟨0, 3, 32, 37⟩ rfl (by unfold GoSlice; decide) (by unfold GoSlice; decide) r hr]
    decide
  · rw [C56_stream exAes (by simp [exAes]) exKeyMem _ ⟨0, 3, 32, 37⟩ rfl (by unfold GoSlice; decide) (by unfold GoSlice; decide) r hr]
    decide

example : newCSPRNGWithKeyIV exKeyMem ⟨0, 3, 15, 37⟩ = panic := (C56_constructor _ _ (by unfold GoSlice; decide)).1.2 (by decide)

/-- the hypotheses of `C56_blocks_differ` are met by `exAes` -/
example (r : Handle) (hn : newCSPRNGWithKeyIV exKeyMem ⟨0, 3, 32, 37⟩ = ok r) :
    ((firstBytes (r.source exAes exKeyMem) (16 * 8)).drop 32).take 16 ≠ (firstBytes (r.source exAes exKeyMem) (16 * 8)).drop (16 * 7) := by
  refine C56_blocks_differ exAes (by simp [exAes]) (fun key b b' _ hb hb' e => ?_) _ _ rfl (by unfold GoSlice; decide) r hn exKeyMem 2 7 (by decide) (by norm_num)
  apply List.ext_getElem (by rw [hb, hb'])
  intro i h1 h2
  have := congrArg (fun l => l.getD i 0) e
  rw [hb] at h1
  rw [hb'] at h2
  simpa [exAes, List.getD_eq_getElem?_getD, h1, h2, hb, hb'] using this

/-- C57: two reads of three bytes give the first six bytes of the stream (here: key bytes 10, 11, ... and counter bytes
26, 27, ...). -/
example : (readSeq (newRandomizer exAes fun i => BitVec.ofNat 8 (i + 10)) [[0, 0, 0], [0, 0, 1]]).flatten
    = [36, 38, 40, 42, 44, 47] := by
  rw [(C57_stream exAes (by simp [exAes]) _ _).2]; decide

/-- ... while the CSPRNG made from the same bytes agrees on the first three only (C26). -/
example : ∃ h' r, newCSPRNG (fun _ => []) 5 (fun i => BitVec.ofNat 8 (i + 10)) = ok (h', r) ∧
    (r.source exAes h').read [0, 0, 0] = [36, 38, 40] := by
  obtain ⟨h', r, h, -⟩ := C56_newCSPRNG exAes (by simp [exAes]) (fun _ => []) 5 (fun i => BitVec.ofNat 8 (i + 10))
  refine ⟨h', r, h, ?_⟩
  rw [← C57_same_first_read exAes _ _ _ _ _ h]
  decide

/-- C56: the key bytes may be overwritten after construction. -/
example (r : Handle) (hn : newCSPRNGWithKeyIV exKeyMem ⟨0, 3, 32, 37⟩ = ok r) :
    r.source exAes (Function.update exKeyMem 0 ((exKeyMem 0).set 5 99)) = r.source exAes exKeyMem :=
  C56_key_copied exAes _ _ _ rfl r hn (by decide)

/-- C56: two generators with the same key and adjacent counters: the second one's stream is the first one's, 16 bytes on. -/
example (r r' : Handle) (h : Arr → List Byte)
    (hm : h = fun a => if a = 0 then List.replicate 31 7 ++ [8] else List.replicate 31 7 ++ [9])
    (hn : newCSPRNGWithKeyIV h ⟨0, 0, 32, 32⟩ = ok r) (hn' : newCSPRNGWithKeyIV h ⟨1, 0, 32, 32⟩ = ok r') :
    firstBytes (r'.source exAes h) 40 = (firstBytes (r.source exAes h) (16 * 1 + 40)).drop (16 * 1) := by
  subst hm
  exact C56_overlap exAes _ _ ⟨0, 0, 32, 32⟩ ⟨1, 0, 32, 32⟩ rfl rfl (by unfold GoSlice; decide) r r' hn hn' 1 (by decide)
    (by decide) 40

end Verif.Props
