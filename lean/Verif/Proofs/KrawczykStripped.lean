import Verif.Proofs.KrawczykCombine
import Verif.Proofs.KrawczykTotal
import Verif.Spec.Stores

/-! # krawczyk.Combine for shares of a sharing of which some lack the payload -/

namespace Verif.Proofs
open Verif Spec Outcome Galois Csprng RS Krawczyk

/-- Share number `e.1`, stripped unless `e.2`. -/
def kEntry (env : Env) (secret key : List Byte) (k m : Nat) (md : List (List Byte)) (e : Nat × Bool) : List Byte :=
  if e.2 then kShare env secret key k m md e.1 else stripped (kShare env secret key k m md e.1)

theorem length_stripped {s : List Byte} (h : 21 ≤ s.length) : (stripped s).length = 22 := by
  simp [stripped]; omega

theorem partId_stripped {s : List Byte} (h : 21 ≤ s.length) : partId (stripped s) = partId s := by
  rw [partId, length_stripped h, stripped, List.getD_eq_getElem?_getD, List.getElem?_append_right (by simp)]
  have : (22 - 1 - (List.take 21 s).length) = 0 := by simp [h]
  rw [this]; rfl

theorem shardOf_stripped {s : List Byte} (h : 21 ≤ s.length) : shardOf (stripped s) = [] := by
  rw [shardOf, length_stripped h]; rfl

theorem take_stripped {s : List Byte} (h : 21 ≤ s.length) : (stripped s).take 21 = s.take 21 := by
  rw [stripped, List.take_append_of_le_length (by simp; omega), List.take_take]; simp

section
variable {env : Env} (hc : env.lib.Contract) {secret key : List Byte} {k m : Nat} {md shares : List (List Byte)}
  (h : KSharing env secret key k m md shares)
include h hc

theorem KSharing.share_ge {i : Nat} (hi : i < k + m) : 21 ≤ (kShare env secret key k m md i).length := by
  rw [h.share_length hc hi]; omega

theorem KSharing.entry_partId {e : Nat × Bool} (hi : e.1 < k + m) : (partId (kEntry env secret key k m md e)).toNat = e.1 := by
  unfold kEntry
  split
  · exact h.partId_toNat hc hi
  · rw [partId_stripped (h.share_ge hc hi)]; exact h.partId_toNat hc hi

theorem KSharing.entry_shard {e : Nat × Bool} (hi : e.1 < k + m) : shardOf (kEntry env secret key k m md e) =
    if e.2 then (codeword env.lib k m (cipherOf env secret key)).getD e.1 [] else [] := by
  unfold kEntry
  split
  · exact h.shard_eq hc hi
  · exact shardOf_stripped (h.share_ge hc hi)

theorem KSharing.entry_md {e : Nat × Bool} (hi : e.1 < k + m) : (kEntry env secret key k m md e).take 21 = md.getD e.1 [] := by
  unfold kEntry
  split
  · exact h.take_md hc hi
  · rw [take_stripped (h.share_ge hc hi)]; exact h.take_md hc hi

theorem KSharing.entry_length {e : Nat × Bool} (hi : e.1 < k + m) :
    (kEntry env secret key k m md e).length = 22 + if e.2 then perShard secret.length k else 0 := by
  unfold kEntry
  split
  · rw [h.share_length hc hi]; omega
  · rw [length_stripped (h.share_ge hc hi)]

theorem KSharing.entry_no_fault {e : Nat × Bool} (hi : e.1 < k + m) :
    fault ((k + m : Nat) : Int) (kEntry env secret key k m md e) = none := by
  unfold fault
  have := h.entry_length hc hi
  rw [h.entry_partId hc hi, if_neg (by omega), if_neg (by omega), if_neg (by omega)]

theorem KSharing.entry_place_get {es : List (Nat × Bool)} (hes : ∀ e ∈ es, e.1 < k + m) (hnd : (es.map (·.1)).Nodup) (p : Nat) :
    (place (k + m) (es.map (kEntry env secret key k m md))).getD p []
      = if (p, true) ∈ es then (codeword env.lib k m (cipherOf env secret key)).getD p [] else [] := by
  induction es using List.reverseRecOn with
  | nil => simp [place, List.getD_eq_getElem?_getD, List.getElem?_replicate]; split <;> rfl
  | append_singleton es e ih =>
    have hi : e.1 < k + m := hes e (by simp)
    rw [List.map_append, List.nodup_append] at hnd
    have ih := ih (fun j hj => hes j (by simp [hj])) hnd.1
    rw [List.map_append, List.map_cons, List.map_nil, place_append, h.entry_partId hc hi, h.entry_shard hc hi,
      List.getD_eq_getElem?_getD, List.getElem?_set]
    by_cases ep : e.1 = p
    · have hn : (p, true) ∉ es := fun hm => hnd.2.2 p (List.mem_map.2 ⟨_, hm, rfl⟩) p (by simp [ep]) rfl
      rw [if_pos ep]
      obtain ⟨i, b⟩ := e
      subst ep
      have hi : i < k + m := hi
      cases b <;> simp [hi, hn]
    · rw [if_neg ep, ← List.getD_eq_getElem?_getD, ih]
      have : (p, true) ≠ e := fun c => ep (by rw [← c])
      simp [this]

theorem KSharing.entry_place_count {es : List (Nat × Bool)} (hes : ∀ e ∈ es, e.1 < k + m) (hnd : (es.map (·.1)).Nodup) :
    ((place (k + m) (es.map (kEntry env secret key k m md))).filter (· ≠ [])).length = (es.filter (·.2)).length := by
  have e1 : place (k + m) (es.map (kEntry env secret key k m md)) = (List.range (k + m)).map fun p =>
      if (p, true) ∈ es then (codeword env.lib k m (cipherOf env secret key)).getD p [] else [] := by
    apply List.ext_getElem
    · simp
    · intro p h1 h2
      have := h.entry_place_get hc hes hnd p
      rw [List.getD_eq_getElem?_getD, List.getElem?_eq_getElem h1, Option.getD_some] at this
      rw [this]; simp
  rw [e1, List.filter_map, List.length_map]
  have e2 : (List.range (k + m)).filter ((fun s => decide (s ≠ [])) ∘ fun p =>
      if (p, true) ∈ es then (codeword env.lib k m (cipherOf env secret key)).getD p [] else []) =
      (List.range (k + m)).filter (· ∈ (es.filter (·.2)).map (·.1)) := by
    apply List.filter_congr
    intro p hp
    have hp : p < k + m := by simpa using hp
    have := h.code_ne hc hp
    have hiff : p ∈ (es.filter (·.2)).map (·.1) ↔ (p, true) ∈ es := by
      simp only [List.mem_map, List.mem_filter]
      constructor
      · rintro ⟨⟨i, b⟩, ⟨h1, h2⟩, h3⟩
        simp only at h2 h3
        rw [← h3, ← h2]; exact h1
      · intro hm; exact ⟨_, ⟨hm, rfl⟩, rfl⟩
    by_cases hm : (p, true) ∈ es
    · simp only [Function.comp, hm, if_true, hiff, decide_true, decide_eq_true_eq]
      exact this
    · simp only [Function.comp, hm, if_false, hiff, decide_false]; simp
  rw [e2, filter_range_mem]
  · simp
  · intro i hi
    obtain ⟨e, he, rfl⟩ := List.mem_map.1 hi
    exact hes e (List.mem_filter.1 he).1
  · exact List.Nodup.sublist (List.Sublist.map _ List.filter_sublist) hnd

theorem KSharing.entry_separate {es : List (Nat × Bool)} (hes : ∀ e ∈ es, e.1 < k + m) :
    ∃ ms, separate (es.map (kEntry env secret key k m md)) (k + m : Nat) =
      ok (place (k + m) (es.map (kEntry env secret key k m md)), ms) := by
  have hk2 := h.k_ge
  have hkm := h.km_le
  rw [separate_eq _ ⟨by omega, by omega⟩]
  have hnf : (es.map (kEntry env secret key k m md)).findSome? (fault ((k + m : Nat) : Int)) = none := by
    rw [List.findSome?_eq_none_iff]
    intro d hd
    obtain ⟨e, he, rfl⟩ := List.mem_map.1 hd
    exact h.entry_no_fault hc (hes e he)
  rw [hnf]
  refine ⟨(es.map (kEntry env secret key k m md)).map (·.take 21), ?_⟩
  simp only [Int.toNat_natCast]

theorem KSharing.entry_reconstruct {es : List (Nat × Bool)} (hes : ∀ e ∈ es, e.1 < k + m) (hnd : (es.map (·.1)).Nodup)
    (hk : k ≤ (es.filter (·.2)).length) :
    ∃ Q, Encoder.reconstructData ⟨k, m⟩ env.lib (place (k + m) (es.map (kEntry env secret key k m md))) = ok Q ∧
      Q.length = k + m ∧ Q.take k = dataShards env.lib k (cipherOf env secret key) := by
  have hk2 := h.k_ge
  have hkm := h.km_le
  refine reconstruct_ok hc (k := k) (m := m) (by omega) (by omega)
    (cipherOf_ne env (key := key) h.secret_ne) (by simp)
    (fun i hi => ?_) (by rw [h.entry_place_count hc hes hnd]; exact hk)
  rw [h.entry_place_get hc hes hnd i]
  split
  · exact Or.inl rfl
  · exact Or.inr rfl

theorem KSharing.entry_shardSize {es : List (Nat × Bool)} (hes : ∀ e ∈ es, e.1 < k + m) (hnd : (es.map (·.1)).Nodup)
    (hk : k ≤ (es.filter (·.2)).length) :
    shardSize (place (k + m) (es.map (kEntry env secret key k m md))) = perShard secret.length k := by
  have hk2 := h.k_ge
  have hex : ∃ s ∈ place (k + m) (es.map (kEntry env secret key k m md)), s ≠ [] := by
    have : 0 < ((place (k + m) (es.map (kEntry env secret key k m md))).filter (· ≠ [])).length := by
      rw [h.entry_place_count hc hes hnd]; omega
    obtain ⟨s, hs⟩ := List.exists_mem_of_length_pos this
    have := List.mem_filter.1 hs
    exact ⟨s, this.1, by simpa using this.2⟩
  refine shardSize_some (fun s hs => ?_) hex
  obtain ⟨p, hp, rfl⟩ := List.getElem_of_mem hs
  have := h.entry_place_get hc hes hnd p
  rw [List.getD_eq_getElem?_getD, List.getElem?_eq_getElem hp, Option.getD_some] at this
  rw [this]
  split
  · right; exact h.code_length hc (by simpa using hp)
  · exact Or.inl rfl

/-- At least `k` shares with payload and any number without it decode to the secret. -/
theorem KSharing.combine_stripped {es : List (Nat × Bool)} (hes : ∀ e ∈ es, e.1 < k + m) (hnd : (es.map (·.1)).Nodup)
    (hk : k ≤ (es.filter (·.2)).length) {ssData : List (Option (List Byte))}
    (hss : ssData.filterMap id = es.map (kEntry env secret key k m md)) :
    Krawczyk.combine env ssData (k + m : Nat) k = ok secret := by
  have hk2 := h.k_ge
  have hkm := h.km_le
  have hle : (es.filter (·.2)).length ≤ es.length := List.length_filter_le _ _
  have hpass : ∀ d ∈ ssData, (d.getD []).length ≤ 4294967295 := by
    intro d hd
    cases d with
    | none => simp
    | some d =>
      have : d ∈ ssData.filterMap id := List.mem_filterMap.2 ⟨some d, hd, rfl⟩
      rw [hss] at this
      obtain ⟨e, he, rfl⟩ := List.mem_map.1 this
      rw [Option.getD_some, h.entry_length hc (hes e he)]
      have := h.secret_le
      have hb : perShard secret.length k ≤ (secret.length + 1) / 2 := by
        unfold perShard
        rw [Nat.div_le_iff_le_mul_add_pred (by omega)]
        have e1 : 2 * ((secret.length + 1) / 2) ≤ k * ((secret.length + 1) / 2) := Nat.mul_le_mul_right _ hk2
        omega
      split <;> omega
  cases hss0 : ssData with
  | nil =>
    rw [hss0] at hss
    have := congrArg List.length hss
    simp at this; omega
  | cons d0 rest =>
    rw [← hss0]
    have hd0 : idx ssData 0 = ok d0 := by rw [hss0]; rfl
    unfold Krawczyk.combine
    rw [hd0, ok_bind, checkArgs_pass ⟨hpass d0 (by rw [hss0]; simp), by omega, by omega, by omega, by omega⟩, ok_bind,
      clean_eq, ok_bind, hss, separate_eq _ ⟨by omega, by omega⟩]
    have hnf : (es.map (kEntry env secret key k m md)).findSome? (fault ((k + m : Nat) : Int)) = none := by
      rw [List.findSome?_eq_none_iff]
      intro d hd
      obtain ⟨i, hi, rfl⟩ := List.mem_map.1 hd
      exact h.entry_no_fault hc (hes i hi)
    rw [hnf]
    simp only [ok_bind, Int.toNat_natCast]
    have hmeta : (es.map (kEntry env secret key k m md)).map (·.take 21) = (es.map (·.1)).map fun i => md.getD i [] := by
      rw [List.map_map, List.map_map]
      exact List.map_congr_left fun i hi => h.entry_md hc (hes i hi)
    have hsubp : ((es.map (·.1)).map fun i => md.getD i []).Subperm md := by
      have : md = (List.range (k + m)).map fun i => md.getD i [] := by
        rw [← h.md_len]
        simpa using (range_map_getElem md id []).symm
      obtain ⟨l, hl, hs⟩ : (es.map (·.1)).Subperm (List.range (k + m)) :=
        List.subperm_of_subset hnd (fun i hi => by
          obtain ⟨e, he, rfl⟩ := List.mem_map.1 hi
          simpa using hes e he)
      have hs' := hs.map fun i => md.getD i []
      rw [← this] at hs'
      exact ⟨_, hl.map _, hs'⟩
    have hcomb := combine_sharing h.md_sharing hsubp (by omega) (by simp; omega)
      (by intro c; have := congrArg List.length c; simp [h.key_len] at this)
    rw [hmeta, hcomb, ok_bind, slice_ok (by omega) (by simp [h.key_len]), ok_bind,
      slice_ok (by simp [h.key_len]) (by omega), ok_bind]
    have e1 : ((key ++ lePutUint32 (BitVec.ofNat 32 secret.length)).drop 0).take (16 - 0) = key := by
      simp [← h.key_len]
    have e2 : ((key ++ lePutUint32 (BitVec.ofNat 32 secret.length)).drop 16).take
        ((key ++ lePutUint32 (BitVec.ofNat 32 secret.length)).length - 16) = lePutUint32 (BitVec.ofNat 32 secret.length) := by
      rw [← h.key_len, List.drop_left, List.take_of_length_le (by simp)]
    have e3 : (lePutUint32 (BitVec.ofNat 32 secret.length)).take 4 = lePutUint32 (BitVec.ofNat 32 secret.length) :=
      List.take_of_length_le (by simp)
    rw [e1, e2, if_neg (by simp), e3, leUint32_put, BitVec.toNat_ofNat,
      Nat.mod_eq_of_lt (by have := h.secret_le; omega),
      show ((k + m : Nat) : Int) - (k : Int) = (m : Int) by omega, new_ok (by omega) h.parity (by omega)]
    simp only [ok_bind]
    obtain ⟨Q, hQ, hQl, hQt⟩ := h.entry_reconstruct hc hes hnd hk
    have hj := join_ok env.lib (by omega) hQl hQt
    rw [length_cipherOf] at hj
    rw [hQ, ok_bind, hj, ok_bind, decrypt_ok env _ (Or.inl h.key_len), cipherOf, xorKs_xorKs]

end

end Verif.Proofs
