import Verif.Props.Regenerate
import Verif.Spec.Secrecy
import Mathlib.Data.Fintype.CardEmbedding
import Mathlib.Data.Fintype.BigOperators

/-! # C63: how often Regenerate's result is what the caller wants

Counted over all fillings of the `n` bytes `rand.Read(newXs)` delivers, for any later random bytes. -/

namespace Verif.Props
open Verif Outcome Spec Proofs Shamir Galois

instance byteFintype : Fintype Byte := Fintype.ofEquiv (Fin (2 ^ 8)) ⟨BitVec.ofFin, BitVec.toFin, fun _ => rfl, fun _ => rfl⟩

theorem byte_card : Fintype.card Byte = 256 := by
  rw [byteFintype, Fintype.ofEquiv_card, Fintype.card_fin]

theorem card_byte : Nat.card Byte = 256 := by
  rw [Nat.card_eq_fintype_card, byte_card]

theorem range_map_stream {n : Nat} (ρ : Fin n → Byte) : (List.range n).map (stream ρ) = List.ofFn ρ := by
  refine List.ext_getElem (by simp) fun i h1 h2 => ?_
  simp only [List.getElem_map, List.getElem_range, List.getElem_ofFn, stream]
  rw [dif_pos (by simpa using h1)]

/-- C63: of the 256^n fillings exactly 256^n - 255^n make Regenerate return a share that is the secret (with tag 0 behind
it) in clear. -/
theorem C63_reveals (parts : List (List Byte)) (hp : Regenerable parts) (n : Nat) (hle : n + parts.length ≤ 256)
    (u : Nat → Byte) (hu : Fair u) :
    count (m := n) (fun ρ => ∃ fuel new secret, regenerate fuel parts n (stream ρ) u = ok new ∧
        combine parts = ok secret ∧ secret ++ [0] ∈ new) = 256 ^ n - 255 ^ n := by
  have hev : ∀ ρ : Fin n → Byte, (∃ fuel new secret, regenerate fuel parts n (stream ρ) u = ok new ∧
      combine parts = ok secret ∧ secret ++ [0] ∈ new) ↔ ¬ ∀ k, ρ k ≠ 0 := by
    intro ρ
    constructor
    · rintro ⟨fuel, new, secret, h, -, hm⟩ hall
      have ht := C23_tags_are_raw_random_bytes fuel parts new n _ u h
      rw [Int.toNat_natCast, range_map_stream] at ht
      have : tag (secret ++ [0]) ∈ List.ofFn ρ := by rw [← ht]; exact List.mem_map_of_mem hm
      rw [List.mem_ofFn] at this
      obtain ⟨k, hk⟩ := this
      exact hall k (by rw [hk]; simp [tag])
    · intro h
      push Not at h
      obtain ⟨k, hk⟩ := h
      obtain ⟨fuel, new, hr⟩ := C24_returns parts hp n (by omega) (by omega) (stream ρ) u hu
      have h := hr fuel le_rfl
      have ht := C23_tags_are_raw_random_bytes fuel parts new n _ u h
      rw [Int.toNat_natCast, range_map_stream] at ht
      have : (0 : Byte) ∈ new.map tag := by rw [ht, List.mem_ofFn]; exact ⟨k, hk⟩
      obtain ⟨q, hq, hq0⟩ := List.mem_map.1 this
      obtain ⟨s, hs, rfl⟩ := C25_tag_zero fuel parts new n _ u h q hq hq0
      exact ⟨fuel, new, s, h, hs, hq⟩
  unfold count
  simp only [hev]
  have hc : Nat.card {ρ : Fin n → Byte // ∀ k, ρ k ≠ 0} = 255 ^ n := by
    rw [Nat.card_congr (Equiv.subtypePiEquivPi (p := fun _ => (· ≠ (0 : Byte)))), Nat.card_pi]
    have : Nat.card {b : Byte // b ≠ 0} = 255 := by
      rw [Nat.card_eq_fintype_card, Fintype.card_subtype_compl, Fintype.card_subtype_eq, byte_card]
    rw [Finset.prod_const, Finset.card_univ, Fintype.card_fin, this]
  have ht : Nat.card (Fin n → Byte) = 256 ^ n := by
    rw [Nat.card_pi]; simp [byte_card]
  have hsum : Nat.card {ρ : Fin n → Byte // ∀ k, ρ k ≠ 0} + Nat.card {ρ : Fin n → Byte // ¬ ∀ k, ρ k ≠ 0}
      = Nat.card (Fin n → Byte) := by
    classical
    rw [← Nat.card_sum]
    exact Nat.card_congr (Equiv.sumCompl _)
  omega

/-- Functions that are injective and avoid a set. -/
theorem card_inj_avoid (n : Nat) (S : Finset Byte) :
    Nat.card {ρ : Fin n → Byte // Function.Injective ρ ∧ ∀ k, ρ k ∉ S} = (256 - S.card).descFactorial n := by
  have e : {ρ : Fin n → Byte // Function.Injective ρ ∧ ∀ k, ρ k ∉ S} ≃ (Fin n ↪ {b : Byte // b ∉ S}) :=
    { toFun := fun ρ => ⟨fun k => ⟨ρ.1 k, ρ.2.2 k⟩, fun a b h => ρ.2.1 (Subtype.mk.inj h)⟩
      invFun := fun f => ⟨fun k => (f k).1, fun a b h => f.injective (Subtype.ext h), fun k => (f k).2⟩
      left_inv := fun _ => rfl
      right_inv := fun _ => rfl }
  rw [Nat.card_congr e, Nat.card_eq_fintype_card, Fintype.card_embedding_eq, Fintype.card_fin, Fintype.card_subtype_compl,
    Fintype.card_coe, byte_card]

/-- C63: of the 256^n fillings exactly (256-m)(256-m-1)…(256-m-n+1) (for `m` given shares) make the tags of the given and the
new shares all different, and exactly (255-m)…(255-m-n+1) also keep the secret out of the new shares (no given share has
tag 0): only then do the new shares together with the old ones form a sharing with `m + n` shares. -/
theorem C63_usable (parts : List (List Byte)) (hp : Regenerable parts) (n : Nat) (u : Nat → Byte) :
    count (m := n) (fun ρ => ∃ fuel new, regenerate fuel parts n (stream ρ) u = ok new ∧
        ((parts ++ new).map tag).Nodup) = (256 - parts.length).descFactorial n ∧
    ((0 : Byte) ∉ parts.map tag → count (m := n) (fun ρ => ∃ fuel new, regenerate fuel parts n (stream ρ) u = ok new ∧
        ((parts ++ new).map tag).Nodup ∧ (0 : Byte) ∉ new.map tag) = (255 - parts.length).descFactorial n) := by
  have hnd : (parts.map tag).Nodup := (regenerable_iff.1 hp).2.2.2
  have hfwd : ∀ ρ : Fin n → Byte, ∀ fuel new, regenerate fuel parts n (stream ρ) u = ok new → new.map tag = List.ofFn ρ := by
    intro ρ fuel new h
    have ht := C23_tags_are_raw_random_bytes fuel parts new n _ u h
    rwa [Int.toNat_natCast, range_map_stream] at ht
  have hret : ∀ ρ : Fin n → Byte, Function.Injective ρ → (∀ k, ρ k ∉ parts.map tag) →
      ∃ fuel new, regenerate fuel parts n (stream ρ) u = ok new := by
    intro ρ h1 h2
    obtain ⟨new, h⟩ := C24_returns_fresh parts hp n (by omega) (stream ρ) u
      (by rw [Int.toNat_natCast, range_map_stream, List.nodup_ofFn]; exact h1)
      (by
        intro k hk
        rw [Int.toNat_natCast] at hk
        rw [stream, dif_pos hk]
        exact h2 _) 0
    exact ⟨1, new, h⟩
  have hnodup : ∀ (ρ : Fin n → Byte) new, new.map tag = List.ofFn ρ → (((parts ++ new).map tag).Nodup ↔
      Function.Injective ρ ∧ ∀ k, ρ k ∉ parts.map tag) := by
    intro ρ new ht
    rw [List.map_append, ht, List.nodup_append']
    constructor
    · rintro ⟨-, h1, h2⟩
      exact ⟨List.nodup_ofFn.1 h1, fun k hk => h2 hk (List.mem_ofFn.2 ⟨k, rfl⟩)⟩
    · rintro ⟨h1, h2⟩
      refine ⟨hnd, List.nodup_ofFn.2 h1, fun x hx hx' => ?_⟩
      obtain ⟨k, rfl⟩ := List.mem_ofFn.1 hx'
      exact h2 k hx
  have hcard : (parts.map tag).toFinset.card = parts.length := by
    rw [List.toFinset_card_of_nodup hnd, List.length_map]
  constructor
  · rw [← hcard, ← card_inj_avoid]
    unfold count
    apply Nat.card_congr
    apply Equiv.subtypeEquivRight
    intro ρ
    simp only [List.mem_toFinset]
    constructor
    · rintro ⟨fuel, new, h, hh⟩
      exact (hnodup ρ new (hfwd ρ fuel new h)).1 hh
    · rintro ⟨h1, h2⟩
      obtain ⟨fuel, new, h⟩ := hret ρ h1 h2
      exact ⟨fuel, new, h, (hnodup ρ new (hfwd ρ fuel new h)).2 ⟨h1, h2⟩⟩
  · intro h0
    have hcard' : 255 - parts.length = 256 - (insert (0 : Byte) (parts.map tag).toFinset).card := by
      rw [Finset.card_insert_of_notMem (by simpa using h0), hcard]; omega
    rw [hcard', ← card_inj_avoid]
    unfold count
    apply Nat.card_congr
    apply Equiv.subtypeEquivRight
    intro ρ
    simp only [Finset.mem_insert, List.mem_toFinset, not_or]
    constructor
    · rintro ⟨fuel, new, h, hh, hz⟩
      have ht := hfwd ρ fuel new h
      obtain ⟨h1, h2⟩ := (hnodup ρ new ht).1 hh
      refine ⟨h1, fun k => ⟨fun hk => hz ?_, h2 k⟩⟩
      rw [ht, List.mem_ofFn]
      exact ⟨k, hk⟩
    · rintro ⟨h1, h2⟩
      obtain ⟨fuel, new, h⟩ := hret ρ h1 fun k => (h2 k).2
      have ht := hfwd ρ fuel new h
      refine ⟨fuel, new, h, (hnodup ρ new ht).2 ⟨h1, fun k => (h2 k).2⟩, ?_⟩
      rw [ht, List.mem_ofFn]
      rintro ⟨k, hk⟩
      exact (h2 k).1 hk

/-! ## Non-vacuity -/

/-- Two shares, two new ones: 511 of 65536 fillings reveal the secret, 63756 give four shares that can be used together. -/
example (u : Nat → Byte) (hu : Fair u) :
    count (m := 2) (fun ρ => ∃ fuel new secret, regenerate fuel [[4, 1], [1, 2]] 2 (stream ρ) u = ok new ∧
        combine [[4, 1], [1, 2]] = ok secret ∧ secret ++ [0] ∈ new) = 511 ∧
    count (m := 2) (fun ρ => ∃ fuel new, regenerate fuel [[4, 1], [1, 2]] 2 (stream ρ) u = ok new ∧
        (([[4, 1], [1, 2]] ++ new).map tag).Nodup ∧ (0 : Byte) ∉ new.map tag) = 63756 :=
  ⟨C63_reveals _ (by decide) 2 (by decide) u hu, (C63_usable _ (by decide) 2 u).2 (by decide)⟩

end Verif.Props
