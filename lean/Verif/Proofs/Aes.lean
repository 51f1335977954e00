import Verif.Spec.Aes
import Mathlib.Data.List.Basic

/-! # AES: blocks have 16 bytes, and different blocks have different encryptions -/

namespace Verif.Proofs.Aes
open Verif Spec.Aes

/-! ## The S-box -/

/-- 5.3.2 of FIPS 197. -/
def invSbox (a : Byte) : Byte := inverse (a.rotateLeft 1 ^^^ a.rotateLeft 3 ^^^ a.rotateLeft 6 ^^^ 0x05#8)

theorem invSbox_sbox : ∀ a : Byte, invSbox (sbox a) = a := by decide +kernel

theorem sbox_injective : Function.Injective sbox := Function.LeftInverse.injective invSbox_sbox

/-! ## MixColumns -/

theorem xor_cancel (a b : Byte) : a ^^^ (a ^^^ b) = b := by
  rw [← BitVec.xor_assoc, BitVec.xor_self, BitVec.zero_xor]

theorem xor_left_comm (a b c : Byte) : a ^^^ (b ^^^ c) = b ^^^ (a ^^^ c) := by ac_rfl

theorem xtime_xor (a b : Byte) : xtime (a ^^^ b) = xtime a ^^^ xtime b := by
  unfold xtime
  rw [BitVec.shiftLeft_xor_distrib, BitVec.getLsbD_xor]
  cases a.getLsbD 7 <;> cases b.getLsbD 7 <;> simp [BitVec.xor_assoc, BitVec.xor_comm, xor_left_comm, xor_cancel]

/-- The first byte of the column whose image is `p q r s`. -/
def unmix (p q r s : Byte) : Byte :=
  let y0 := xtime p ^^^ (xtime q ^^^ q) ^^^ r ^^^ s
  let y2 := p ^^^ q ^^^ xtime r ^^^ (xtime s ^^^ s)
  xtime (xtime (y0 ^^^ y2)) ^^^ y0

theorem mix_mix (a b c d : Byte) :
    xtime (xtime a ^^^ (xtime b ^^^ b) ^^^ c ^^^ d)
      ^^^ (xtime (a ^^^ xtime b ^^^ (xtime c ^^^ c) ^^^ d) ^^^ (a ^^^ xtime b ^^^ (xtime c ^^^ c) ^^^ d))
      ^^^ (a ^^^ b ^^^ xtime c ^^^ (xtime d ^^^ d)) ^^^ ((xtime a ^^^ a) ^^^ b ^^^ c ^^^ xtime d)
      = xtime (xtime a) ^^^ a ^^^ xtime (xtime c) := by
  simp only [xtime_xor]
  generalize xtime (xtime a) = a2
  generalize xtime (xtime b) = b2
  generalize xtime (xtime c) = c2
  generalize xtime a = a1
  generalize xtime b = b1
  generalize xtime c = c1
  generalize xtime d = d1
  apply BitVec.eq_of_getLsbD_eq
  intro i _
  simp only [BitVec.getLsbD_xor]
  generalize a.getLsbD i = a
  generalize b.getLsbD i = b
  generalize c.getLsbD i = c
  generalize d.getLsbD i = d
  generalize a1.getLsbD i = a1
  generalize b1.getLsbD i = b1
  generalize c1.getLsbD i = c1
  generalize d1.getLsbD i = d1
  generalize a2.getLsbD i = a2
  generalize b2.getLsbD i = b2
  generalize c2.getLsbD i = c2
  revert a b c d a1 b1 c1 d1 a2 b2 c2
  decide +kernel

theorem unmix_mix (a b c d : Byte) :
    unmix (xtime a ^^^ (xtime b ^^^ b) ^^^ c ^^^ d) (a ^^^ xtime b ^^^ (xtime c ^^^ c) ^^^ d)
      (a ^^^ b ^^^ xtime c ^^^ (xtime d ^^^ d)) ((xtime a ^^^ a) ^^^ b ^^^ c ^^^ xtime d) = a := by
  unfold unmix
  rw [mix_mix]
  have h := mix_mix c d a b
  rw [show ∀ p q r s p' q' r' s' : Byte, p = r' → q = s' → r = p' → s = q' →
    p ^^^ q ^^^ xtime r ^^^ (xtime s ^^^ s) = xtime p' ^^^ (xtime q' ^^^ q') ^^^ r' ^^^ s' by
      rintro p q r s _ _ _ _ rfl rfl rfl rfl; ac_rfl, h]
  · dsimp only
    rw [show xtime (xtime a) ^^^ a ^^^ xtime (xtime c) ^^^ (xtime (xtime c) ^^^ c ^^^ xtime (xtime a)) = a ^^^ c by
      rw [show ∀ p q : Byte, p ^^^ a ^^^ q ^^^ (q ^^^ c ^^^ p) = (p ^^^ p) ^^^ (q ^^^ q) ^^^ (a ^^^ c) by intros; ac_rfl]
      simp]
    rw [xtime_xor, xtime_xor,
      show ∀ p q : Byte, p ^^^ q ^^^ (p ^^^ a ^^^ q) = (p ^^^ p) ^^^ (q ^^^ q) ^^^ a by intros; ac_rfl]
    simp
  all_goals ac_rfl

theorem mixColumn_inj {a b c d a' b' c' d' : Byte} (h : mixColumn a b c d = mixColumn a' b' c' d') :
    a = a' ∧ b = b' ∧ c = c' ∧ d = d' := by
  have key : ∀ a b c d : Byte, ∃ p q r s, mixColumn a b c d = [p, q, r, s] ∧ unmix p q r s = a ∧ unmix q r s p = b ∧
      unmix r s p q = c ∧ unmix s p q r = d := by
    intro a b c d
    refine ⟨_, _, _, _, rfl, unmix_mix a b c d, ?_, ?_, ?_⟩
    · conv_rhs => rw [← unmix_mix b c d a]
      congr 1 <;> ac_rfl
    · conv_rhs => rw [← unmix_mix c d a b]
      congr 1 <;> ac_rfl
    · conv_rhs => rw [← unmix_mix d a b c]
      congr 1 <;> ac_rfl
  obtain ⟨p, q, r, s, h0, h1, h2, h3, h4⟩ := key a b c d
  obtain ⟨p', q', r', s', h0', h1', h2', h3', h4'⟩ := key a' b' c' d'
  rw [h0, h0'] at h
  simp only [List.cons.injEq, and_true] at h
  obtain ⟨rfl, rfl, rfl, rfl⟩ := h
  exact ⟨h1.symm.trans h1', h2.symm.trans h2', h3.symm.trans h3', h4.symm.trans h4'⟩

/-- A list of 16 bytes. -/
theorem sixteen {s : List Byte} (h : s.length = 16) : ∃ a0 a1 a2 a3 a4 a5 a6 a7 a8 a9 a10 a11 a12 a13 a14 a15,
    s = [a0, a1, a2, a3, a4, a5, a6, a7, a8, a9, a10, a11, a12, a13, a14, a15] := by
  match s, h with
  | [a0, a1, a2, a3, a4, a5, a6, a7, a8, a9, a10, a11, a12, a13, a14, a15], _ => exact ⟨_, _, _, _, _, _, _, _, _, _, _, _, _, _, _, _, rfl⟩

theorem length_mixColumns {s : List Byte} (h : s.length = 16) : (mixColumns s).length = 16 := by
  obtain ⟨a0, a1, a2, a3, a4, a5, a6, a7, a8, a9, a10, a11, a12, a13, a14, a15, rfl⟩ := sixteen h
  simp [mixColumns, mixColumn]

theorem mixColumns_inj {s t : List Byte} (hs : s.length = 16) (ht : t.length = 16) (h : mixColumns s = mixColumns t) : s = t := by
  obtain ⟨a0, a1, a2, a3, a4, a5, a6, a7, a8, a9, a10, a11, a12, a13, a14, a15, rfl⟩ := sixteen hs
  obtain ⟨b0, b1, b2, b3, b4, b5, b6, b7, b8, b9, b10, b11, b12, b13, b14, b15, rfl⟩ := sixteen ht
  simp only [mixColumns] at h
  obtain ⟨h0, h⟩ := List.append_inj h (by simp [mixColumn])
  obtain ⟨h1, h⟩ := List.append_inj h (by simp [mixColumn])
  obtain ⟨h2, h⟩ := List.append_inj h (by simp [mixColumn])
  obtain ⟨h3, -⟩ := List.append_inj h (by simp [mixColumn])
  simp [mixColumn_inj h0, mixColumn_inj h1, mixColumn_inj h2, mixColumn_inj h3]

/-! ## The other steps -/

@[simp] theorem length_shiftRows (s : List Byte) : (shiftRows s).length = 16 := by simp [shiftRows]

theorem shiftRows_inj {s t : List Byte} (hs : s.length = 16) (ht : t.length = 16) (h : shiftRows s = shiftRows t) : s = t := by
  obtain ⟨a0, a1, a2, a3, a4, a5, a6, a7, a8, a9, a10, a11, a12, a13, a14, a15, rfl⟩ := sixteen hs
  obtain ⟨b0, b1, b2, b3, b4, b5, b6, b7, b8, b9, b10, b11, b12, b13, b14, b15, rfl⟩ := sixteen ht
  have h' : [a0, a5, a10, a15, a4, a9, a14, a3, a8, a13, a2, a7, a12, a1, a6, a11]
    = [b0, b5, b10, b15, b4, b9, b14, b3, b8, b13, b2, b7, b12, b1, b6, b11] := h
  simp only [List.cons.injEq, and_true] at h' ⊢
  tauto

theorem length_addRoundKey {k s : List Byte} (hk : k.length = 16) (hs : s.length = 16) : (addRoundKey k s).length = 16 := by
  simp [addRoundKey, hk, hs]

theorem addRoundKey_inj {k s t : List Byte} (hk : k.length = 16) (hs : s.length = 16) (ht : t.length = 16)
    (h : addRoundKey k s = addRoundKey k t) : s = t := by
  apply List.ext_getElem (by rw [hs, ht])
  intro i h1 h2
  have h3 : i < k.length := by omega
  have := congrArg (fun l => l.getD i 0) h
  simp only [addRoundKey, List.getD_eq_getElem?_getD, List.getElem?_zipWith, List.getElem?_eq_getElem h1,
    List.getElem?_eq_getElem h2, List.getElem?_eq_getElem h3, Option.getD_some] at this
  exact BitVec.xor_left_inj _ |>.1 this

/-! ## The key schedule -/

theorem length_nextWord {nk : Nat} {w : List (List Byte)} (hw : ∀ v ∈ w, v.length = 4) (hnk : 0 < nk) (hl : nk ≤ w.length) :
    (nextWord nk w).length = 4 := by
  have hget : ∀ i, i < w.length → (w.getD i []).length = 4 := by
    intro i hi
    rw [List.getD_eq_getElem?_getD, List.getElem?_eq_getElem hi]
    exact hw _ (List.getElem_mem hi)
  have h1 := hget (w.length - 1) (by omega)
  have h2 := hget (w.length - nk) (by omega)
  unfold nextWord
  rw [List.length_zipWith, h2]
  generalize w.getD (w.length - 1) [] = temp at h1
  match temp, h1 with
  | [a, b, c, d], _ =>
    split
    · rfl
    · split <;> rfl

theorem extend_spec {nk : Nat} (hnk : 0 < nk) (n : Nat) : ∀ w : List (List Byte), (∀ v ∈ w, v.length = 4) → nk ≤ w.length →
    (∀ v ∈ extend nk n w, v.length = 4) ∧ (extend nk n w).length = w.length + n := by
  induction n with
  | zero => intro w hw _; exact ⟨hw, rfl⟩
  | succ n ih =>
    intro w hw hl
    have := ih (w ++ [nextWord nk w]) (by
      intro v hv
      rcases List.mem_append.1 hv with hv | hv
      · exact hw v hv
      · rw [List.mem_singleton.1 hv]; exact length_nextWord hw hnk hl) (by simp; omega)
    refine ⟨this.1, ?_⟩
    rw [extend, this.2]
    simp; omega

theorem keyExpansion_spec {key : List Byte} (hk : key.length = 16 ∨ key.length = 24 ∨ key.length = 32) :
    (∀ v ∈ keyExpansion key, v.length = 4) ∧ (keyExpansion key).length = 4 * (rounds key + 1) := by
  have h0 : 0 < keyWords key := by unfold keyWords; omega
  have h := extend_spec h0 (4 * (rounds key + 1) - keyWords key) ((List.range (keyWords key)).map fun i => (key.drop (4 * i)).take 4)
    (by
      intro v hv
      obtain ⟨i, hi, rfl⟩ := List.mem_map.1 hv
      have : i < keyWords key := by simpa using hi
      unfold keyWords at this
      simp; omega) (by simp)
  refine ⟨h.1, ?_⟩
  rw [keyExpansion, h.2]
  simp [rounds]; omega

theorem length_roundKey {w : List (List Byte)} (hw : ∀ v ∈ w, v.length = 4) {i : Nat} (hi : 4 * (i + 1) ≤ w.length) :
    (roundKey w i).length = 16 := by
  have h4 : ((w.drop (4 * i)).take 4).length = 4 := by simp; omega
  have hm : ∀ v ∈ (w.drop (4 * i)).take 4, v.length = 4 := fun v hv => hw v (List.mem_of_mem_drop (List.mem_of_mem_take hv))
  unfold roundKey
  generalize (w.drop (4 * i)).take 4 = l at *
  match l, h4 with
  | [a, b, c, d], _ =>
    simp [hm a (by simp), hm b (by simp), hm c (by simp), hm d (by simp)]

/-! ## The cipher -/

theorem middleRounds_spec {w : List (List Byte)} (hw : ∀ v ∈ w, v.length = 4) (n : Nat) : ∀ i, 4 * (i + n) ≤ w.length →
    ∀ s : List Byte, s.length = 16 → (middleRounds w n i s).length = 16 ∧
      ∀ t : List Byte, t.length = 16 → middleRounds w n i s = middleRounds w n i t → s = t := by
  induction n with
  | zero => intro i _ s hs; exact ⟨hs, fun t _ h => h⟩
  | succ n ih =>
    intro i hi s hs
    have hk := length_roundKey hw (i := i) (by omega)
    have hl : ∀ s : List Byte, s.length = 16 → (addRoundKey (roundKey w i) (mixColumns (shiftRows (s.map sbox)))).length = 16 :=
      fun s _ => length_addRoundKey hk (length_mixColumns (length_shiftRows _))
    have := ih (i + 1) (by omega) _ (hl s hs)
    refine ⟨this.1, fun t ht h => ?_⟩
    have h1 := this.2 _ (hl t ht) h
    have h2 := addRoundKey_inj hk (length_mixColumns (length_shiftRows _)) (length_mixColumns (length_shiftRows _)) h1
    have h3 := mixColumns_inj (length_shiftRows _) (length_shiftRows _) h2
    have h4 := shiftRows_inj (by simpa using hs) (by simpa using ht) h3
    exact List.map_injective_iff.2 sbox_injective h4

theorem length_cipher {key b : List Byte} (hk : key.length = 16 ∨ key.length = 24 ∨ key.length = 32) :
    (cipher key b).length = 16 := by
  obtain ⟨h1, h2⟩ := keyExpansion_spec hk
  exact length_addRoundKey (length_roundKey h1 (by omega)) (length_shiftRows _)

theorem cipher_inj {key b b' : List Byte} (hk : key.length = 16 ∨ key.length = 24 ∨ key.length = 32) (hb : b.length = 16)
    (hb' : b'.length = 16) (h : cipher key b = cipher key b') : b = b' := by
  obtain ⟨h1, h2⟩ := keyExpansion_spec hk
  have hk0 := length_roundKey h1 (i := 0) (by omega)
  have hm := fun s hs => middleRounds_spec h1 (rounds key - 1) 1 (by unfold rounds at *; omega) s hs
  have hs := length_addRoundKey hk0 hb
  have hs' := length_addRoundKey hk0 hb'
  have e1 := addRoundKey_inj (length_roundKey h1 (by omega)) (length_shiftRows _) (length_shiftRows _) h
  have e2 := shiftRows_inj (by simpa using (hm _ hs).1) (by simpa using (hm _ hs').1) e1
  have e3 := (hm _ hs).2 _ hs' (List.map_injective_iff.2 sbox_injective e2)
  exact addRoundKey_inj hk0 hb hb' e3

end Verif.Proofs.Aes
