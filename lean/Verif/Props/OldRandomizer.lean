import Verif.Props.Random
import Verif.Props.Sharing

/-! # C30 for SplitWithRandomizerOld -/

namespace Verif.Props
open Verif Outcome Galois Spec Proofs Csprng Shamir

/-- One byte of a share made by SplitWithRandomizerOld: the byte of the secret plus a mask that the source, the threshold, the
position and the tag determine. -/
noncomputable def oldMask (t : Nat) (r : CSPRNG) (p : Nat) (x : Byte) : Byte :=
  (∑ k ∈ Finset.Ico 1 t, (⟨r.ks (t * p + k)⟩ : GF) * ⟨x⟩ ^ k).val

theorem oldShare_byte {s : List Byte} {t : Nat} (ht : 0 < t) (r : CSPRNG) (x : Byte) {p : Nat} (hp : p < s.length) :
    (shareOf (rowsF (oldCoeff s t r) t s.length) x).getD p 0 = s.getD p 0 ^^^ oldMask t r p x := by
  rw [shareOf_rowsF, List.getD_eq_getElem?_getD, List.getElem?_append_left (by simpa using hp), List.getElem?_map,
    List.getElem?_range hp]
  simp only [Option.map_some, Option.getD_some]
  rw [Finset.range_eq_Ico, Finset.sum_eq_sum_Ico_succ_bot ht]
  have h0 : oldCoeff s t r p 0 = s.getD p 0 := rfl
  have hk : ∀ k ∈ Finset.Ico 1 t, (⟨oldCoeff s t r p k⟩ : GF) * ⟨x⟩ ^ k = ⟨r.ks (t * p + k)⟩ * ⟨x⟩ ^ k := by
    intro k hk
    have : k ≠ 0 := by have := (Finset.mem_Ico.1 hk).1; omega
    simp [oldCoeff, this]
  rw [h0, Finset.sum_congr rfl hk, pow_zero, mul_one]
  rfl

/-- The shares SplitWithRandomizerOld returns. -/
theorem splitOld_shares (arch : Arch) {s : List Byte} {parts threshold : Int} {r : CSPRNG} {ps ps' : Pools}
    {sh : List (List Byte)} (h : splitWithRandomizerOld arch s parts threshold r ps = ok (sh, ps')) :
    ∃ xs : List Byte, r.perm 255#8 = ok xs ∧
      ∀ i w, sh[i]? = some w → w.length = s.length + 1 ∧ tag w = xs.getD i 0 + 1#8 ∧
        ∀ p < s.length, w.getD p 0 = s.getD p 0 ^^^ oldMask threshold.toNat r p (tag w) := by
  have hv := (splitOld_ok arch h).1
  have ⟨v1, v2, v3, v4⟩ := hv
  cases hx : r.perm 255#8 with
  | ok xs =>
    have hl : xs.length = 255 := by
      rcases perm_cases r 255#8 with ⟨h1, -⟩ | ⟨⟨l, h1, h2⟩, -⟩
      · rw [h1] at hx; cases hx
      · rw [h1] at hx; cases hx; simpa using h2.length_eq
    obtain ⟨pp, e⟩ := splitOld_valid arch r ps hv xs hx (by omega)
    rw [h] at e
    obtain ⟨rfl, -⟩ := Prod.mk.inj (Outcome.ok.inj e)
    refine ⟨xs, rfl, fun i w hw => ?_⟩
    rw [List.getElem?_map, shareTags, List.getElem?_map] at hw
    have hi : i < parts.toNat := by
      by_contra hi
      rw [List.getElem?_eq_none (by simpa using hi)] at hw
      cases hw
    rw [List.getElem?_range hi] at hw
    simp only [Option.map_some, Option.some.injEq] at hw
    subst hw
    have ht : tag (shareOf (rowsF (oldCoeff s threshold.toNat r) threshold.toNat s.length) (xs.getD i 0 + 1#8)) = xs.getD i 0 + 1#8 := by
      rw [shareOf_rowsF]; simp [tag, List.getD_eq_getElem?_getD]
    refine ⟨by simp [shareOf_rowsF], ht, fun p hp => ?_⟩
    rw [ht]
    exact oldShare_byte (by omega) r _ hp
  | _ =>
    rw [splitOld_noTags arch r ps hv hx (by simp)] at h
    cases h

/-- C30: with SplitWithRandomizerOld all secrets split with one randomizer and one threshold get the same tags and masks,
whatever the pools hold: the xor of the i-th shares is the xor of the secrets (as far as both reach). -/
theorem C30_old_same_masks (arch : Arch) (s1 s2 : List Byte) (parts1 parts2 threshold : Int) (r : CSPRNG)
    (ps1 ps2 ps1' ps2' : Pools) (sh1 sh2 : List (List Byte))
    (h1 : splitWithRandomizerOld arch s1 parts1 threshold r ps1 = ok (sh1, ps1'))
    (h2 : splitWithRandomizerOld arch s2 parts2 threshold r ps2 = ok (sh2, ps2')) (i : Nat) (w1 w2 : List Byte)
    (hw1 : sh1[i]? = some w1) (hw2 : sh2[i]? = some w2) :
    tag w1 = tag w2 ∧ ∀ p < s1.length, p < s2.length → w1.getD p 0 ^^^ w2.getD p 0 = s1.getD p 0 ^^^ s2.getD p 0 := by
  obtain ⟨xs, hx, a⟩ := splitOld_shares arch h1
  obtain ⟨xs', hx', b⟩ := splitOld_shares arch h2
  rw [hx] at hx'
  cases hx'
  obtain ⟨-, a2, a3⟩ := a i w1 hw1
  obtain ⟨-, b2, b3⟩ := b i w2 hw2
  have ht : tag w1 = tag w2 := a2.trans b2.symm
  refine ⟨ht, fun p hp hp' => ?_⟩
  rw [a3 p hp, b3 p hp', ht]
  generalize oldMask _ _ _ _ = m
  rw [BitVec.xor_assoc, BitVec.xor_comm (s2.getD p 0) m, ← BitVec.xor_assoc m m, BitVec.xor_self, BitVec.zero_xor]

/-- C30: so one share of each tells whether two secrets are equal. -/
theorem C30_old_equal (arch : Arch) (s1 s2 : List Byte) (parts1 parts2 threshold : Int) (r : CSPRNG)
    (ps1 ps2 ps1' ps2' : Pools) (sh1 sh2 : List (List Byte))
    (h1 : splitWithRandomizerOld arch s1 parts1 threshold r ps1 = ok (sh1, ps1'))
    (h2 : splitWithRandomizerOld arch s2 parts2 threshold r ps2 = ok (sh2, ps2')) (i : Nat) (w1 w2 : List Byte)
    (hw1 : sh1[i]? = some w1) (hw2 : sh2[i]? = some w2) : w1 = w2 ↔ s1 = s2 := by
  obtain ⟨xs, hx, a⟩ := splitOld_shares arch h1
  obtain ⟨xs', hx', b⟩ := splitOld_shares arch h2
  rw [hx] at hx'
  cases hx'
  obtain ⟨a1, a2, a3⟩ := a i w1 hw1
  obtain ⟨b1, b2, b3⟩ := b i w2 hw2
  obtain ⟨-, hm⟩ := C30_old_same_masks arch s1 s2 parts1 parts2 threshold r ps1 ps2 ps1' ps2' sh1 sh2 h1 h2 i w1 w2 hw1 hw2
  constructor
  · rintro rfl
    have hl : s1.length = s2.length := by omega
    refine List.ext_getElem hl fun p hp hp' => ?_
    have := hm p hp hp'
    rw [BitVec.xor_self] at this
    simp only [List.getD_eq_getElem?_getD, List.getElem?_eq_getElem hp, List.getElem?_eq_getElem hp', Option.getD_some] at this
    exact (BitVec.xor_eq_zero_iff.1 this.symm)
  · rintro rfl
    refine List.ext_getElem (by omega) fun p hp hp' => ?_
    have e1 : w1[p] = w1.getD p 0 := by simp [List.getD_eq_getElem?_getD, hp]
    have e2 : w2[p] = w2.getD p 0 := by simp [List.getD_eq_getElem?_getD, hp']
    rw [e1, e2]
    rcases Nat.lt_or_ge p s1.length with h | h
    · rw [a3 p h, b3 p h, a2, b2]
    · obtain rfl : p = s1.length := by omega
      have t1 : tag w1 = w1.getD s1.length 0 := by unfold tag; rw [a1]; rfl
      have t2 : tag w2 = w2.getD s1.length 0 := by unfold tag; rw [b1]; rfl
      rw [← t1, ← t2, a2, b2]

/-- C30_old: a 2-of-3 and a 2-of-4 sharing with one source: the second shares differ by the xor of the secrets in the first
byte, and are not equal. -/
example : ∃ sh1 sh2 qs1 qs2 w1 w2,
    splitWithRandomizerOld .noasm [42, 43] 3 2 ⟨fun i => BitVec.ofNat 8 i⟩ (Pools.init 1) = ok (sh1, qs1) ∧
    splitWithRandomizerOld .noasm [40] 4 2 ⟨fun i => BitVec.ofNat 8 i⟩ (Pools.init 1) = ok (sh2, qs2) ∧
    sh1[1]? = some w1 ∧ sh2[1]? = some w2 := by
  have a := C13_splitWithRandomizerOld_validates .noasm [42, 43] 3 2 ⟨fun i => BitVec.ofNat 8 i⟩ (Pools.init 1)
  have b := C13_splitWithRandomizerOld_validates .noasm [40] 4 2 ⟨fun i => BitVec.ofNat 8 i⟩ (Pools.init 1)
  rw [show argError [42, 43] 3 2 = none by decide] at a
  rw [show argError [40] 4 2 = none by decide] at b
  rcases a with ⟨⟨sh1, q1⟩, a, -⟩ | ⟨-, h⟩
  swap
  · exact absurd h (by decide)
  rcases b with ⟨⟨sh2, q2⟩, b, -⟩ | ⟨-, h⟩
  swap
  · exact absurd h (by decide)
  have l1 : sh1.length = 3 := (splitOld_ok _ a).2.2.1
  have l2 : sh2.length = 4 := (splitOld_ok _ b).2.2.1
  exact ⟨sh1, sh2, q1, q2, sh1[1], sh2[1], a, b, List.getElem?_eq_getElem _, List.getElem?_eq_getElem _⟩

end Verif.Props
