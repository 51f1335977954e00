import Verif.Proofs.KrawczykCombine
import Verif.Proofs.CombineAlg

/-! # krawczyk.Combine on arbitrary input -/

namespace Verif.Proofs
open Verif Spec Outcome Galois Csprng RS Krawczyk

/-- krawczyk.go:226-256, after the shares were separated -/
def decode (env : Env) (encodedData ssMetadata : List (List Byte)) (parts threshold : Int) : Outcome (List Byte) := do
  let metadata ← Shamir.combine ssMetadata
  let key ← slice metadata 0 16
  let lengthBytes ← slice metadata 16 metadata.length
  if lengthBytes.length < 4 then panic
  let length := leUint32 (lengthBytes.take 4)
  let decoder ← RS.new env.lib threshold (parts - threshold)
  let encodedData ← decoder.reconstructData env.lib encodedData
  let ciphertext ← decoder.join encodedData length.toNat
  decrypt env ciphertext key

theorem kcombine_eq (env : Env) (d0 : Option (List Byte)) (rest : List (Option (List Byte))) (parts threshold : Int) :
    Krawczyk.combine env (d0 :: rest) parts threshold =
      match kArgError (d0.getD []).length parts threshold with
      | some e => err e
      | none =>
        if parts < 0 then panic
        else match ((d0 :: rest).filterMap id).findSome? (fault parts) with
          | none => decode env (place parts.toNat ((d0 :: rest).filterMap id))
              (((d0 :: rest).filterMap id).map (·.take 21)) parts threshold
          | some (.err e) => err e
          | some _ => panic := by
  unfold Krawczyk.combine
  rw [show idx (d0 :: rest) 0 = ok d0 from rfl, ok_bind, checkArgs_eq]
  cases ha : kArgError (d0.getD []).length parts threshold with
  | some e => rfl
  | none =>
    have ⟨p1, p2, p3, p4, p5⟩ := kArgError_none.1 ha
    simp only [ok_bind, clean_eq]
    by_cases hneg : parts < 0
    · rw [if_pos hneg, separate_neg _ hneg]; rfl
    · rw [if_neg hneg, separate_eq _ ⟨by omega, by omega⟩]
      cases ((d0 :: rest).filterMap id).findSome? (fault parts) with
      | none => rfl
      | some o => cases o <;> rfl

theorem kcombine_nil (env : Env) (parts threshold : Int) : Krawczyk.combine env [] parts threshold = panic := rfl

/-- Combine of well-formed metadata. -/
theorem combine21 {ms : List (List Byte)} (h : ∀ m ∈ ms, m.length = 21) :
    (∃ s, Shamir.combine ms = ok s ∧ s.length = 20) ∨ ∃ e, Shamir.combine ms = err e := by
  rw [combine_eq]
  by_cases h1 : ms.length < 2
  · rw [if_pos h1]; exact Or.inr ⟨_, rfl⟩
  have hh : (ms.headD []).length = 21 := by
    cases ms with
    | nil => simp at h1
    | cons a b => exact h a (by simp)
  rw [if_neg h1, if_neg (by omega), hh, if_neg (not_not.2 h)]
  by_cases h2 : (tags ms).Nodup
  · rw [if_neg (not_not.2 h2)]
    exact Or.inl ⟨_, rfl, by simp [recover]⟩
  · rw [if_pos h2]; exact Or.inr ⟨_, rfl⟩

theorem decode_returns (env : Env) {P ms : List (List Byte)} {parts threshold : Int} (h : ∀ m ∈ ms, m.length = 21) :
    (decode env P ms parts threshold).Returns := by
  unfold decode
  rcases combine21 h with ⟨s, hs, hl⟩ | ⟨e, he⟩
  · rw [hs, ok_bind, slice_ok (by omega) (by omega), ok_bind, slice_ok (by omega) (by omega), ok_bind,
      if_neg (by simp; omega)]
    have hkey : ((s.drop 0).take (16 - 0)).length = 16 := by simp; omega
    unfold RS.new
    split
    · exact Or.inr ⟨_, rfl⟩
    split
    · exact Or.inr ⟨_, rfl⟩
    simp only [pure_eq, ok_bind]
    unfold Encoder.reconstructData Encoder.join
    split
    · exact Or.inr ⟨_, rfl⟩
    split
    · exact Or.inr ⟨_, rfl⟩
    split
    · exact Or.inr ⟨_, rfl⟩
    split
    · rw [ok_bind]
      split
      · exact Or.inr ⟨_, rfl⟩
      split
      · exact Or.inr ⟨_, rfl⟩
      · rw [ok_bind, decrypt_ok env _ (Or.inl hkey)]; exact Or.inl ⟨_, rfl⟩
    split
    · exact Or.inr ⟨_, rfl⟩
    · rw [ok_bind]
      split
      · exact Or.inr ⟨_, rfl⟩
      split
      · exact Or.inr ⟨_, rfl⟩
      · rw [ok_bind, decrypt_ok env _ (Or.inl hkey)]; exact Or.inl ⟨_, rfl⟩
  · rw [he, err_bind]; exact Or.inr ⟨_, rfl⟩

theorem partNo_eq (d : List Byte) : partNo d = (partId d).toNat := rfl

theorem fault_none {parts : Int} {d : List Byte} (hp : 0 < parts) : fault parts d = none ↔ WellFormed parts d := by
  unfold fault WellFormed
  rw [partNo_eq]
  constructor
  · intro h
    split at h
    · cases h
    split at h
    · cases h
    split at h
    · cases h
    · exact ⟨by omega, by omega⟩
  · intro h
    rw [if_neg (by omega), if_neg (by omega), if_neg (by omega)]

theorem fault_values (parts : Int) (d : List Byte) :
    fault parts d = none ∨ fault parts d = some panic ∨ fault parts d = some (err .partIdTooLarge) := by
  unfold fault
  split
  · simp
  split
  · simp
  split <;> simp

theorem fault_panic {parts : Int} {d : List Byte} :
    fault parts d = some panic ↔ d.length < 21 ∨ (partNo d ≤ parts.toNat ∧ (d.length = 21 ∨ partNo d = parts.toNat)) := by
  unfold fault
  rw [partNo_eq]
  split
  · simp [*]
  split
  · simp; omega
  split
  · simp; omega
  · simp; omega

theorem fault_err {parts : Int} {d : List Byte} :
    fault parts d = some (err .partIdTooLarge) ↔ 21 ≤ d.length ∧ parts.toNat < partNo d := by
  unfold fault
  rw [partNo_eq]
  split
  · simp; omega
  split
  · simp; omega
  split
  · simp; omega
  · simp; omega

theorem take21_length {parts : Int} (hp : 0 < parts) {sub : List (List Byte)} (h : ∀ d ∈ sub, WellFormed parts d) :
    ∀ m ∈ sub.map (·.take 21), m.length = 21 := by
  intro m hm
  obtain ⟨d, hd, rfl⟩ := List.mem_map.1 hm
  have := (h d hd).1
  simp; omega

/-! ## Too few shares -/

theorem filter_set_le {p : List Byte → Bool} : ∀ (l : List (List Byte)) (i : Nat) (v : List Byte),
    ((l.set i v).filter p).length ≤ (l.filter p).length + 1
  | [], _, _ => by simp
  | a :: l, 0, v => by
    simp only [List.set_cons_zero, List.filter_cons]
    split <;> split <;> simp <;> omega
  | a :: l, i + 1, v => by
    have := filter_set_le (p := p) l i v
    simp only [List.set_cons_succ, List.filter_cons]
    split <;> simp <;> omega

theorem place_count_le (n : Nat) (sub : List (List Byte)) : ((place n sub).filter (· ≠ [])).length ≤ sub.length := by
  induction sub using List.reverseRecOn with
  | nil => simp [place]
  | append_singleton sub d ih =>
    rw [place_append]
    refine le_trans (filter_set_le _ _ _) ?_
    simp only [List.length_append, List.length_cons, List.length_nil]
    omega

theorem reconstruct_few {lib : RSLib} {k m : Nat} {P : List (List Byte)} (hl : P.length = k + m)
    (h : (P.filter (· ≠ [])).length < k) : Encoder.reconstructData ⟨k, m⟩ lib P = err .rsReconstruct := by
  unfold Encoder.reconstructData
  simp only []
  rw [if_neg (by omega)]
  split
  · rfl
  split
  · rfl
  split
  swap
  · first | rfl | rw [if_pos h]
  rename_i hn
  exfalso
  have e : (P.take k).filter (· ≠ []) = P.take k := by
    rw [List.filter_eq_self]
    intro s hs
    have : s ≠ [] := by rintro rfl; exact hn hs
    simpa using this
  have hsub : ((P.take k).filter (· ≠ [])).length ≤ (P.filter (· ≠ [])).length :=
    List.Sublist.length_le (List.Sublist.filter _ (List.take_sublist _ _))
  rw [e, List.length_take] at hsub
  omega

theorem decode_few (env : Env) {P ms : List (List Byte)} {parts threshold : Int} (hm : ∀ m ∈ ms, m.length = 21)
    (h0 : 0 < parts) (hle : threshold ≤ parts) (hl : P.length = parts.toNat)
    (h : ((P.filter (· ≠ [])).length : Int) < threshold) : ∃ e, decode env P ms parts threshold = err e := by
  unfold decode
  rcases combine21 hm with ⟨s, hs, hsl⟩ | ⟨e, he⟩
  · rw [hs, ok_bind, slice_ok (by omega) (by omega), ok_bind, slice_ok (by omega) (by omega), ok_bind,
      if_neg (by simp; omega)]
    unfold RS.new
    split
    · exact ⟨_, rfl⟩
    split
    · exact ⟨_, rfl⟩
    simp only [pure_eq, ok_bind]
    rw [reconstruct_few (by omega) (by omega)]
    exact ⟨_, rfl⟩
  · rw [he]; exact ⟨_, rfl⟩

/-! ## Order of the shares -/

theorem place_mem {n : Nat} : ∀ {sub : List (List Byte)}, (sub.map partNo).Nodup → ∀ d ∈ sub, partNo d < n →
    (place n sub).getD (partNo d) [] = shardOf d := by
  intro sub
  induction sub using List.reverseRecOn with
  | nil => intro _ d hd; cases hd
  | append_singleton sub a ih =>
    intro hnd d hd hn
    rw [place_append, List.getD_eq_getElem?_getD, List.getElem?_set]
    rw [List.map_append, List.map_cons, List.map_nil, List.nodup_append] at hnd
    rcases List.mem_append.1 hd with hd | hd
    · have hne : ¬ (partId a).toNat = partNo d := by
        intro c
        exact hnd.2.2 _ (List.mem_map_of_mem hd) _ (by simp; rfl) c.symm
      rw [if_neg hne, ← List.getD_eq_getElem?_getD]
      exact ih hnd.1 d hd hn
    · have hd : d = a := by simpa using hd
      subst hd
      simp [partNo_eq, ← partNo_eq, hn]

theorem place_not_mem {n : Nat} : ∀ {sub : List (List Byte)} {p : Nat}, p ∉ sub.map partNo → (place n sub).getD p [] = [] := by
  intro sub
  induction sub using List.reverseRecOn with
  | nil => intro p _; simp only [place, List.foldl_nil, List.getD_eq_getElem?_getD, List.getElem?_replicate]; split <;> rfl
  | append_singleton sub a ih =>
    intro p hp
    rw [List.map_append, List.mem_append] at hp
    push Not at hp
    rw [place_append, List.getD_eq_getElem?_getD, List.getElem?_set, if_neg, ← List.getD_eq_getElem?_getD]
    · exact ih hp.1
    · intro c
      apply hp.2
      simp [partNo_eq, c]

theorem place_perm {n : Nat} {p q : List (List Byte)} (h : p.Perm q) (hn : (p.map partNo).Nodup)
    (hlt : ∀ d ∈ p, partNo d < n) : place n p = place n q := by
  apply List.ext_getElem
  · simp
  · intro i h1 h2
    have e : ∀ {l : List (List Byte)} (hl : i < l.length), l.getD i [] = l[i] := by
      intro l hl; simp [hl]
    rw [← e h1, ← e h2]
    by_cases hm : i ∈ p.map partNo
    · obtain ⟨d, hd, rfl⟩ := List.mem_map.1 hm
      rw [place_mem hn d hd (hlt d hd),
        place_mem ((h.map partNo).nodup_iff.1 hn) d (h.mem_iff.1 hd) (hlt d hd)]
    · rw [place_not_mem hm, place_not_mem (fun c => hm ((h.map partNo).mem_iff.2 c))]

theorem combine21_perm {p q : List (List Byte)} (h : p.Perm q) (hp : ∀ m ∈ p, m.length = 21) :
    Shamir.combine p = Shamir.combine q := by
  have hq : ∀ m ∈ q, m.length = 21 := fun m hm => hp m (h.mem_iff.2 hm)
  rcases combine21 hp with ⟨s, hs, -⟩ | ⟨e, he⟩
  · rw [hs, combine_perm h hs]
  · have e1 := combine_eq p
    have e2 := combine_eq q
    have hl := h.length_eq
    by_cases h1 : p.length < 2
    · rw [e1, e2, if_pos h1, if_pos (by omega)]
    · have hh : ∀ l : List (List Byte), ¬ l.length < 2 → (∀ m ∈ l, m.length = 21) → (l.headD []).length = 21 := by
        intro l h1 h
        cases l with
        | nil => simp at h1
        | cons a b => exact h a (by simp)
      have hn : (tags p).Nodup ↔ (tags q).Nodup := (h.map tag).nodup_iff
      rw [if_neg h1, hh p h1 hp, if_neg (by omega), if_neg (not_not.2 hp)] at e1
      rw [if_neg (by omega), hh q (by omega) hq, if_neg (by omega), if_neg (not_not.2 hq)] at e2
      by_cases hnd : (tags p).Nodup
      · rw [if_neg (not_not.2 hnd)] at e1; rw [e1] at he; cases he
      · rw [if_pos hnd] at e1
        rw [if_pos (fun c => hnd (hn.2 c))] at e2
        rw [e1, e2]

end Verif.Proofs
