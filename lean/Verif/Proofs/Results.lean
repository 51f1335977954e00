import Verif.Proofs.Split
import Verif.Proofs.SplitMatrix
import Verif.Proofs.Combine
import Verif.Proofs.Csprng

/-! # What a successful call of each Split function returns -/

namespace Verif.Proofs
open Verif Spec Outcome Polynomial Shamir Galois Pool Csprng

theorem shares_pack {secret : List Byte} {t : Nat} (ht : 0 < t) {rows : List (List Byte)}
    (h : GoodRows secret t rows) {parts : Nat} {xs : List Byte} (hlen : parts ≤ xs.length) (hx : xs.Nodup) :
    IsSharing secret t ((shareTags parts xs).map (shareOf rows)) ∧
    ((shareTags parts xs).map (shareOf rows)).length = parts ∧
    ((shareTags parts xs).map (shareOf rows)).map tag = (xs.take parts).map (· + 1#8) := by
  refine ⟨shares_isSharing ht h _ (shareTags_nodup hlen (hx.sublist (List.take_sublist _ _))), ?_, ?_⟩
  · simp [shareTags]
  · rw [List.map_map, ← shareTags_eq hlen]
    have : (tag ∘ shareOf rows) = id := by funext x; exact tag_shareOf rows x
    rw [this, List.map_id]

theorem permBytes_nodup {perm : List Nat} (h : perm.Perm (List.range 255)) :
    (perm.map (BitVec.ofNat 8)).Nodup ∧ perm.length = 255 ∧ 255#8 ∉ perm.map (BitVec.ofNat 8) := by
  have e : (perm.map (BitVec.ofNat 8)).Perm (identBytes 255) := h.map _
  refine ⟨e.nodup_iff.2 (identBytes_nodup (by omega)), by simpa using h.length_eq, ?_⟩
  rw [e.mem_iff]
  intro hm
  obtain ⟨a, ha, hb⟩ := List.mem_map.1 hm
  have ha : a < 255 := by simpa using ha
  have := congrArg BitVec.toNat hb
  simp only [BitVec.toNat_ofNat] at this
  omega

theorem plus_one_ne_zero {b : Byte} (h : b ≠ 255#8) : b + 1#8 ≠ 0 := by
  intro e
  apply h
  have e1 : b + 1#8 - 1#8 = (0 : Byte) - 1#8 := by rw [e]
  rw [BitVec.add_sub_cancel] at e1
  rw [e1]; decide

theorem tags_ne_zero {xs : List Byte} (h : 255#8 ∉ xs) (parts : Nat) :
    ∀ x ∈ (xs.take parts).map (· + 1#8), x ≠ 0 := by
  intro x hx
  obtain ⟨b, hb, rfl⟩ := List.mem_map.1 hx
  apply plus_one_ne_zero
  rintro rfl
  exact h (List.mem_of_mem_take hb)

theorem valid_of_ok {α : Type} {secret : List Byte} {parts threshold : Int} {o : Outcome α} {a : α}
    (hinv : ∀ e, argError secret parts threshold = some e → o = err e) (h : o = ok a) :
    ValidArgs secret parts threshold := by
  rw [← argError_none]
  cases he : argError secret parts threshold with
  | none => rfl
  | some e => rw [hinv e he] at h; cases h

theorem split_ok (arch : Arch) {secret : List Byte} {parts threshold : Int} {perm : List Nat}
    {rnd : Nat → Byte} {ps ps' : Pools} {shares : List (List Byte)} (hperm : perm.Perm (List.range 255))
    (h : split arch secret parts threshold perm rnd ps = ok (shares, ps')) :
    ValidArgs secret parts threshold ∧ IsSharing secret threshold.toNat shares ∧
    shares.length = parts.toNat ∧
    shares.map tag = (perm.take parts.toNat).map (fun v => BitVec.ofNat 8 v + 1#8) ∧
    ∀ s ∈ shares, tag s ≠ 0 := by
  have hv : ValidArgs secret parts threshold :=
    valid_of_ok (fun e he => split_invalid arch perm rnd ps he) h
  obtain ⟨hnd, hpl, h255⟩ := permBytes_nodup hperm
  have h255' := hv.2.1
  obtain ⟨pp, e⟩ := split_valid arch perm rnd ps hv (by omega)
  rw [e] at h
  injection h with h
  obtain ⟨rfl, -⟩ := Prod.mk.inj h
  have ht : 0 < threshold.toNat := by have := hv.2.2.1; omega
  obtain ⟨a, b, c⟩ := shares_pack ht (rowsOf_good (s := secret)
    (buf := (List.range (threshold.toNat * secret.length)).map rnd) ht (by simp)) (parts := parts.toNat)
    (xs := perm.map (BitVec.ofNat 8)) (by simp; omega) hnd
  refine ⟨hv, a, b, ?_, ?_⟩
  · refine c.trans ?_
    rw [← List.map_take, List.map_map]; rfl
  · intro s hs
    exact tags_ne_zero h255 parts.toNat (tag s) (c ▸ List.mem_map_of_mem (f := tag) hs)

theorem splitGeneric_ok {secret : List Byte} {parts threshold : Int} {perm : List Nat}
    {rnd : Nat → Byte} {shares : List (List Byte)} (hperm : perm.Perm (List.range 255))
    (h : splitGeneric secret parts threshold perm rnd = ok shares) :
    ValidArgs secret parts threshold ∧ IsSharing secret threshold.toNat shares ∧
    shares.length = parts.toNat ∧
    shares.map tag = (perm.take parts.toNat).map (fun v => BitVec.ofNat 8 v + 1#8) ∧
    ∀ s ∈ shares, tag s ≠ 0 := by
  have hv : ValidArgs secret parts threshold :=
    valid_of_ok (fun e he => splitGeneric_invalid perm rnd he) h
  obtain ⟨hnd, hpl, h255⟩ := permBytes_nodup hperm
  have h255' := hv.2.1
  have e := splitGeneric_valid perm rnd hv (by omega)
  rw [e] at h
  injection h with h
  subst h
  have ht : 0 < threshold.toNat := by have := hv.2.2.1; omega
  obtain ⟨a, b, c⟩ := shares_pack ht (rowsF_good (secret := secret)
    (r := genericCoeff secret (threshold.toNat - 1) rnd) ht (by intro p _; rfl)) (parts := parts.toNat)
    (xs := perm.map (BitVec.ofNat 8)) (by simp; omega) hnd
  refine ⟨hv, a, b, ?_, ?_⟩
  · refine c.trans ?_
    rw [← List.map_take, List.map_map]; rfl
  · intro s hs
    exact tags_ne_zero h255 parts.toNat (tag s) (c ▸ List.mem_map_of_mem (f := tag) hs)

theorem ofInt_toNat {parts : Int} (h0 : 0 ≤ parts) (h : parts ≤ 255) : (BitVec.ofInt 8 parts).toNat = parts.toNat := by
  rw [BitVec.toNat_ofInt]; omega

theorem splitWithRandomizer_ok (arch : Arch) (fuel : Nat) {secret : List Byte} {parts threshold : Int}
    {r : CSPRNG} {ps ps' : Pools} {shares : List (List Byte)}
    (h : splitWithRandomizer arch fuel secret parts threshold r ps = ok (shares, ps')) :
    ValidArgs secret parts threshold ∧ IsSharing secret threshold.toNat shares ∧
    shares.length = parts.toNat ∧
    ∃ xs, r.getUniqueBytes fuel (BitVec.ofInt 8 parts) = ok xs ∧ shares.map tag = xs.map (· + 1#8) := by
  have hv : ValidArgs secret parts threshold :=
    valid_of_ok (fun e he => splitWithRandomizer_invalid arch fuel r ps he) h
  have ⟨v1, v2, v3, v4⟩ := hv
  have ht : 0 < threshold.toNat := by omega
  cases hx : r.getUniqueBytes fuel (BitVec.ofInt 8 parts) with
  | ok xs =>
    obtain ⟨hl, hnd⟩ := getUnique_ok_spec hx
    rw [ofInt_toNat (by omega) v2] at hl
    obtain ⟨pp, e⟩ := splitWithRandomizer_valid arch fuel r ps hv xs hx (by omega)
    rw [e] at h
    injection h with h
    obtain ⟨rfl, -⟩ := Prod.mk.inj h
    obtain ⟨a, b, c⟩ := shares_pack ht (rowsOf_good (s := secret)
      (buf := r.read (staleBuf ps.bPool (threshold.toNat * secret.length))) ht
      (by rw [length_read, length_staleBuf])) (parts := parts.toNat) (xs := xs) (by omega) hnd
    exact ⟨hv, a, b, xs, rfl, c.trans (by rw [List.take_of_length_le (by omega)])⟩
  | _ =>
    rw [splitWithRandomizer_noTags arch fuel r ps hv hx (by simp)] at h
    cases h

theorem splitOld_ok (arch : Arch) {secret : List Byte} {parts threshold : Int}
    {r : CSPRNG} {ps ps' : Pools} {shares : List (List Byte)}
    (h : splitWithRandomizerOld arch secret parts threshold r ps = ok (shares, ps')) :
    ValidArgs secret parts threshold ∧ IsSharing secret threshold.toNat shares ∧
    shares.length = parts.toNat ∧ ∀ s ∈ shares, tag s ≠ 0 := by
  have hv : ValidArgs secret parts threshold :=
    valid_of_ok (fun e he => splitOld_invalid arch r ps he) h
  have ⟨v1, v2, v3, v4⟩ := hv
  have ht : 0 < threshold.toNat := by omega
  cases hx : r.perm 255#8 with
  | ok xs =>
    have hxs : xs.Perm (identBytes 255) := by
      rcases perm_cases r 255#8 with ⟨h1, -⟩ | ⟨⟨l, h1, h2⟩, -⟩
      · rw [h1] at hx; cases hx
      · rw [h1] at hx; cases hx; exact h2
    have hl : xs.length = 255 := by simpa using hxs.length_eq
    obtain ⟨pp, e⟩ := splitOld_valid arch r ps hv xs hx (by omega)
    rw [e] at h
    injection h with h
    obtain ⟨rfl, -⟩ := Prod.mk.inj h
    obtain ⟨a, b, c⟩ := shares_pack ht (rowsF_good (secret := secret)
      (r := oldCoeff secret threshold.toNat r) ht (by intro p _; rfl)) (parts := parts.toNat)
      (xs := xs) (by omega) (hxs.nodup_iff.2 (identBytes_nodup (by omega)))
    have h255 : 255#8 ∉ xs := by
      rw [hxs.mem_iff]
      exact (permBytes_nodup (List.Perm.refl _)).2.2
    refine ⟨hv, a, b, fun s hs => tags_ne_zero h255 parts.toNat (tag s) (c ▸ List.mem_map_of_mem (f := tag) hs)⟩
  | _ =>
    rw [splitOld_noTags arch r ps hv hx (by simp)] at h
    cases h

end Verif.Proofs
