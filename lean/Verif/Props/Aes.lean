import Verif.Proofs.Aes
import Verif.Props.CtrMode
import Verif.Props.RegenerateOdds
import Verif.Props.Krawczyk
import Mathlib.Dynamics.PeriodicPts.Lemmas
import Mathlib.Data.Fintype.BigOperators
import Mathlib.Data.Fintype.Vector

/-! # C72: the random sources and krawczyk's encryption with AES as the standard defines it

`Spec.Aes.cipher` is FIPS 197; in C41, C56 and C57 the block function was arbitrary. -/

namespace Verif.Props
open Verif Outcome Spec Proofs Proofs.Aes Csprng Randomizer Heap Krawczyk

/-! ## Known answers: FIPS 197, appendix C -/

/-- The `n` bytes written as a hexadecimal number. -/
def hexBytes (n x : Nat) : List Byte := (List.range n).map fun i => BitVec.ofNat 8 (x / 256 ^ (n - 1 - i))

set_option maxRecDepth 100000 in
example : Aes.cipher (hexBytes 16 0x000102030405060708090a0b0c0d0e0f) (hexBytes 16 0x00112233445566778899aabbccddeeff)
    = hexBytes 16 0x69c4e0d86a7b0430d8cdb78070b4c55a := by decide +kernel

set_option maxRecDepth 100000 in
example : Aes.cipher (hexBytes 24 0x000102030405060708090a0b0c0d0e0f1011121314151617)
    (hexBytes 16 0x00112233445566778899aabbccddeeff) = hexBytes 16 0xdda97ca4864cdfe06eaf70a0ec0d7191 := by decide +kernel

set_option maxRecDepth 100000 in
example : Aes.cipher (hexBytes 32 0x000102030405060708090a0b0c0d0e0f101112131415161718191a1b1c1d1e1f)
    (hexBytes 16 0x00112233445566778899aabbccddeeff) = hexBytes 16 0x8ea2b7ca516745bfeafc49904b496089 := by decide +kernel

/-! ## Theorems -/

/-- The blocks of 16 bytes. -/
abbrev Block := List.Vector Byte 16

/-- AES with a fixed key on blocks. -/
def onBlocks (key : List Byte) (hk : goodKey key) (b : Block) : Block := ⟨Aes.cipher key b.1, length_cipher hk⟩

theorem onBlocks_injective (key : List Byte) (hk : goodKey key) : Function.Injective (onBlocks key hk) := fun a b h =>
  Subtype.ext (cipher_inj hk a.2 b.2 (congrArg Subtype.val h))

/-- C72: for every key of 16, 24 or 32 bytes AES permutes the blocks of 16 bytes. -/
theorem C72_permutation (key : List Byte) (hk : key.length = 16 ∨ key.length = 24 ∨ key.length = 32) :
    (∀ b : List Byte, b.length = 16 → (Aes.cipher key b).length = 16) ∧
    ∀ c : List Byte, c.length = 16 → ∃! b : List Byte, b.length = 16 ∧ Aes.cipher key b = c := by
  refine ⟨fun b _ => length_cipher hk, fun c hc => ?_⟩
  obtain ⟨b, hb⟩ := (Finite.injective_iff_surjective.1 (onBlocks_injective key hk)) ⟨c, hc⟩
  have hb' : Aes.cipher key b.1 = c := congrArg Subtype.val hb
  refine ⟨b.1, ⟨b.2, hb'⟩, fun b' h => cipher_inj hk h.1 b.2 (h.2.trans hb'.symm)⟩

/-- C72: a CSPRNG made from 32 bytes delivers AES-128 in counter mode ... -/
theorem C72_csprng_stream (h h' : Arr → List Byte) (keyIv : Slice) (hl : keyIv.len = 32) (hs : GoSlice h keyIv)
    (hs' : GoSlice h' keyIv) (r : Handle) (hn : newCSPRNGWithKeyIV h keyIv = ok r) (n : Nat) :
    firstBytes (r.source Aes.cipher h') n
      = (counterMode (Aes.cipher ((contents h keyIv).take 16)) (n / 16 + 1) ((contents h' keyIv).drop 16)).take n :=
  C56_stream Aes.cipher (fun _ _ hk _ => length_cipher (.inl hk)) h h' keyIv hl hs hs' r hn n

/-- C72: ... and two blocks of its stream, less than 2^128 blocks apart, are never equal. -/
theorem C72_csprng_blocks_differ (h h' : Arr → List Byte) (keyIv : Slice) (hl : keyIv.len = 32) (hs : GoSlice h keyIv)
    (r : Handle) (hn : newCSPRNGWithKeyIV h keyIv = ok r) (p q : Nat) (hpq : p < q) (hq : q < 2 ^ 128) :
    ((firstBytes (r.source Aes.cipher h') (16 * (q + 1))).drop (16 * p)).take 16
      ≠ (firstBytes (r.source Aes.cipher h') (16 * (q + 1))).drop (16 * q) :=
  C56_blocks_differ Aes.cipher (fun _ _ hk _ => length_cipher (.inl hk))
    (fun _ _ _ hk hb hb' e => cipher_inj (.inl hk) hb hb' e) h keyIv hl hs r hn h' p q hpq hq

/-- C72: a `Randomizer` delivers AES-128 in counter mode. -/
theorem C72_randomizer_stream (rnd : Nat → Byte) (bs : List (List Byte)) :
    (readSeq (newRandomizer Aes.cipher rnd) bs).map List.length = bs.map List.length ∧
    (readSeq (newRandomizer Aes.cipher rnd) bs).flatten = List.zipWith (· ^^^ ·) bs.flatten
      (counterMode (Aes.cipher ((List.range 16).map rnd)) (bs.flatten.length / 16 + 1)
        ((List.range 16).map fun i => rnd (16 + i))) :=
  C57_stream Aes.cipher (fun _ _ hk _ => length_cipher (.inl hk)) rnd bs

/-- C72: krawczyk's `encrypt` and `decrypt` are AES in output feedback mode with zero IV. -/
theorem C72_output_feedback (env : Env) (ha : env.aes = Aes.cipher) (m key : List Byte)
    (hk : key.length = 16 ∨ key.length = 24 ∨ key.length = 32) :
    encrypt env m key = ok (outputFeedback (Aes.cipher key) (List.replicate 16 0) m) ∧
    decrypt env m key = ok (outputFeedback (Aes.cipher key) (List.replicate 16 0) m) := by
  have := C41_output_feedback env m key (fun b _ => by rw [ha]; exact length_cipher hk) hk
  rwa [ha] at this

theorem iterate_onBlocks (key : List Byte) (hk : goodKey key) (b : Block) (n : Nat) :
    ((onBlocks key hk)^[n] b).1 = (Aes.cipher key)^[n] b.1 := by
  induction n generalizing b with
  | zero => rfl
  | succ n ih => rw [Function.iterate_succ_apply, Function.iterate_succ_apply, ih]; rfl

/-- C72: the key stream of `encrypt` is purely periodic: for every key there is a number `c` of blocks, at most 2^128, after
which it starts again, so that message bytes whose positions differ by a multiple of `16 * c` are encrypted with the same
byte and the ciphertext shows their difference; the first `c` blocks of the stream (the ciphertext of zeros) are
pairwise different. -/
theorem C72_period (env : Env) (ha : env.aes = Aes.cipher) (key : List Byte)
    (hk : key.length = 16 ∨ key.length = 24 ∨ key.length = 32) : ∃ c, 0 < c ∧ c ≤ 2 ^ 128 ∧
    (∀ m ct, encrypt env m key = ok ct → ∀ i j, i < m.length → j < m.length → i % (16 * c) = j % (16 * c) →
      ct.getD i 0 ^^^ ct.getD j 0 = m.getD i 0 ^^^ m.getD j 0) ∧
    ∀ n ct, encrypt env (List.replicate n 0) key = ok ct → ∀ p q, p < q → q < c → 16 * (q + 1) ≤ n →
      (ct.drop (16 * p)).take 16 ≠ (ct.drop (16 * q)).take 16 := by
  let iv : Block := ⟨List.replicate 16 0, by simp⟩
  let f := onBlocks key hk
  have hper := (onBlocks_injective key hk).mem_periodicPts iv
  have hcard : Function.minimalPeriod f iv ≤ 2 ^ 128 := by
    have := Function.minimalPeriod_le_card (f := f) (x := iv)
    rw [card_vector, byte_card] at this
    calc _ ≤ 256 ^ 16 := this
      _ = 2 ^ 128 := by norm_num
  have hpos := Function.minimalPeriod_pos_of_mem_periodicPts hper
  have hks : ∀ i, keyStream env key i = (f^[i / 16 + 1] iv).1.getD (i % 16) 0 := by
    intro i
    rw [iterate_onBlocks, keyStream, ofb, ha]
  refine ⟨Function.minimalPeriod f iv, hpos, hcard, ?_, ?_⟩
  · intro m ct he i j hi hj hij
    rw [encrypt_ok env m hk] at he
    have he := Outcome.ok.inj he
    subst he
    have hq : keyStream env key i = keyStream env key j := by
      rw [hks, hks]
      generalize hc : Function.minimalPeriod f iv = c at *
      have h1 : i % 16 = j % 16 := by
        rw [← Nat.mod_mul_right_mod i 16 c, hij, Nat.mod_mul_right_mod]
      have h2 : (i / 16) % c = (j / 16) % c := by
        rw [← Nat.mod_mul_right_div_self, hij, Nat.mod_mul_right_div_self]
      have h3 : f^[i / 16 + 1] iv = f^[j / 16 + 1] iv := by
        rw [← Function.iterate_mod_minimalPeriod_eq (n := i / 16 + 1), ← Function.iterate_mod_minimalPeriod_eq (n := j / 16 + 1),
          hc, Nat.add_mod, h2, ← Nat.add_mod]
      rw [h1, h3]
    simp only [xorKs, List.getD_eq_getElem?_getD, List.getElem?_mapIdx, List.getElem?_eq_getElem hi, List.getElem?_eq_getElem hj,
      Option.map_some, Option.getD_some, hq]
    generalize keyStream env key j = k
    rw [show m[i] ^^^ k ^^^ (m[j] ^^^ k) = m[i] ^^^ m[j] ^^^ (k ^^^ k) by ac_rfl]
    simp
  · intro n ct he p q hpq hq hn
    rw [encrypt_ok env _ hk] at he
    have he := Outcome.ok.inj he
    subst he
    have hblock : ∀ p, p ≤ q → ((xorKs (keyStream env key) (List.replicate n 0)).drop (16 * p)).take 16 = (f^[p + 1] iv).1 := by
      intro p hp
      apply List.ext_getElem
      · simp [xorKs]; omega
      · intro i h1 h2
        have hi : i < 16 := by simpa using h2
        simp only [List.getElem_take, List.getElem_drop, xorKs, List.getElem_mapIdx, List.getElem_replicate]
        rw [hks, show (16 * p + i) / 16 = p by omega, show (16 * p + i) % 16 = i by omega, List.getD_eq_getElem?_getD,
          List.getElem?_eq_getElem h2]
        simp
    rw [hblock p (by omega), hblock q le_rfl]
    intro e
    have e : f (f^[p] iv) = f (f^[q] iv) := by
      rw [← Function.iterate_succ_apply' f, ← Function.iterate_succ_apply' f]
      exact Subtype.ext e
    have := (Function.iterate_eq_iterate_iff_of_lt_minimalPeriod (by omega) hq).1 (onBlocks_injective key hk e)
    omega

/-! ## Non-vacuity -/

/-- NIST SP 800-38A, F.5.1 (CTR-AES128): key and first counter in memory. -/
def nistMem : Arr → List Byte := fun _ =>
  hexBytes 32 0x2b7e151628aed2a6abf7158809cf4f3cf0f1f2f3f4f5f6f7f8f9fafbfcfdfeff

set_option maxRecDepth 100000 in
/-- the first two output blocks of the example in the standard -/
example : ∃ r, newCSPRNGWithKeyIV nistMem ⟨0, 0, 32, 32⟩ = ok r ∧ firstBytes (r.source Aes.cipher nistMem) 32
    = hexBytes 32 0xec8cdf7398607cb0f2d21675ea9ea1e4362b7c3c6773516318a077d7fc5073ae := by
  obtain ⟨r, hr⟩ := (C56_constructor nistMem ⟨0, 0, 32, 32⟩ (by simp [GoSlice, nistMem, hexBytes])).2 (by decide)
  refine ⟨r, hr, ?_⟩
  rw [C72_csprng_stream nistMem nistMem ⟨0, 0, 32, 32⟩ rfl (by simp [GoSlice, nistMem, hexBytes])
    (by simp [GoSlice, nistMem, hexBytes]) r hr]
  decide +kernel

set_option maxRecDepth 100000 in
/-- C72: the hypotheses of `C72_period` and `C72_output_feedback` are met in every world whose block function is AES, and
more than one block is encrypted: a message of 20 bytes. -/
example (env : Env) : ∃ ct, encrypt { env with aes := Aes.cipher } ((List.range 20).map (BitVec.ofNat 8)) (List.replicate 16 0) = ok ct ∧
    ct = hexBytes 20 0x66e849d7eb8f2a3c8045f052c6392521e784af59 := by
  refine ⟨_, (C72_output_feedback { env with aes := Aes.cipher } rfl _ _ (by simp)).1, ?_⟩
  decide +kernel

end Verif.Props
