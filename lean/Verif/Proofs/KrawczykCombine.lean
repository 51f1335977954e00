import Verif.Proofs.KrawczykSplit

/-! # krawczyk.Combine -/

namespace Verif.Proofs
open Verif Spec Outcome Galois Csprng RS Krawczyk

/-! ## Reed-Solomon decoding -/

theorem take_ext {P : List (List Byte)} {k : Nat} {D : List (List Byte)} (hk : k ≤ P.length) (hD : D.length = k)
    (h : ∀ i < k, P.getD i [] = D.getD i []) : P.take k = D := by
  apply List.ext_getElem
  · simp; omega
  · intro i h1 h2
    have := h i (by omega)
    rw [List.getElem_take]
    simpa [List.getD_eq_getElem?_getD, List.getElem?_eq_getElem (show i < P.length by omega), List.getElem?_eq_getElem h2]
      using this

theorem shardSize_some : ∀ {P : List (List Byte)} {L : Nat}, (∀ s ∈ P, s = [] ∨ s.length = L) → (∃ s ∈ P, s ≠ []) →
    shardSize P = L
  | [], _, _, h => by obtain ⟨s, hs, -⟩ := h; cases hs
  | s :: P, L, h, he => by
    rw [shardSize]
    rcases h s (by simp) with hs | hs
    · subst hs
      simp only [List.length_nil, ne_eq, not_true_eq_false, if_false]
      refine shardSize_some (fun s hs => h s (by simp [hs])) ?_
      obtain ⟨s, hs, hne⟩ := he
      rcases List.mem_cons.1 hs with rfl | hs
      · exact absurd rfl hne
      · exact ⟨s, hs, hne⟩
    · by_cases h0 : s.length ≠ 0
      · rw [if_pos h0, hs]
      · push Not at h0
        have hL : L = 0 := by omega
        obtain ⟨s', hs', hne⟩ := he
        rcases h s' hs' with c | c
        · exact absurd c hne
        · exact absurd (List.length_eq_zero_iff.1 (by omega)) hne

theorem reconstruct_ok {lib : RSLib} (hc : lib.Contract) {k m : Nat} (hk : 0 < k) (hkm : k + m ≤ 256) {data : List Byte}
    (hd : data ≠ []) {P : List (List Byte)} (hl : P.length = k + m)
    (hP : ∀ i < k + m, P.getD i [] = (codeword lib k m data).getD i [] ∨ P.getD i [] = [])
    (hcount : k ≤ (P.filter (· ≠ [])).length) :
    ∃ Q, Encoder.reconstructData ⟨k, m⟩ lib P = ok Q ∧ Q.length = k + m ∧ Q.take k = dataShards lib k data := by
  have hpos := perShard_pos hk (List.length_pos_iff.2 hd)
  have hsz : ∀ s ∈ P, s = [] ∨ s.length = perShard data.length k := by
    intro s hs
    obtain ⟨i, hi, rfl⟩ := List.getElem_of_mem hs
    have e : P.getD i [] = P[i] := by simp [hi]
    have hic : i < (codeword lib k m data).length := by simp only [length_codeword]; omega
    rcases hP i (by omega) with h | h
    · right
      rw [← e, h, List.getD_eq_getElem?_getD, List.getElem?_eq_getElem hic, Option.getD_some]
      exact mem_codeword hc hk hkm (List.getElem_mem _)
    · left; rw [← e, h]
  have hex : ∃ s ∈ P, s ≠ [] := by
    have : 0 < (P.filter (· ≠ [])).length := by omega
    obtain ⟨s, hs⟩ := List.exists_mem_of_length_pos this
    have := List.mem_filter.1 hs
    exact ⟨s, this.1, by simpa using this.2⟩
  have hss := shardSize_some hsz hex
  have hdat : ∀ i < k, (codeword lib k m data).getD i [] = (dataShards lib k data).getD i [] := by
    intro i hi
    simp only [codeword, List.getD_eq_getElem?_getD]
    rw [List.getElem?_append_left (by simpa using hi)]
  unfold Encoder.reconstructData
  simp only []
  rw [if_neg (by omega), hss, if_neg (by omega), if_neg]
  swap
  · rintro ⟨s, hs, h1, h2⟩
    rcases hsz s hs with c | c
    · exact h1 c
    · exact h2 c
  by_cases hn : [] ∈ P.take k
  · rw [if_neg (by simpa using hn), if_neg (by omega)]
    refine ⟨_, rfl, by simp [hl], ?_⟩
    refine take_ext (by simp; omega) (by simp) fun i hi => ?_
    simp only [List.getD_eq_getElem?_getD, List.getElem?_mapIdx, List.getElem?_eq_getElem (show i < P.length by omega),
      Option.map_some, Option.getD_some]
    have e : P.getD i [] = P[i] := by simp [show i < P.length by omega]
    by_cases h0 : P[i] = []
    · rw [if_pos ⟨hi, h0⟩, hc.recovers k m (perShard data.length k) (dataShards lib k data) P hk hkm hpos (by simp)
        (fun d hd => mem_dataShards hd) hl hP hcount i hi (by rw [e, h0])]
      simp [List.getD_eq_getElem?_getD]
    · rw [if_neg (fun c => h0 c.2)]
      rcases hP i (by omega) with c | c
      · rw [e, hdat i hi, List.getD_eq_getElem?_getD] at c; exact c
      · rw [e] at c; exact absurd c h0
  · rw [if_pos hn]
    refine ⟨P, rfl, hl, take_ext (by omega) (by simp) fun i hi => ?_⟩
    rcases hP i (by omega) with c | c
    · rw [c, hdat i hi]
    · exfalso
      apply hn
      have : (P.take k)[i]'(by simp; omega) = [] := by
        rw [List.getElem_take]
        simpa [List.getD_eq_getElem?_getD, List.getElem?_eq_getElem (show i < P.length by omega)] using c
      rw [← this]; exact List.getElem_mem _

theorem join_ok (lib : RSLib) {k m : Nat} (hk : 0 < k) {data : List Byte} {Q : List (List Byte)} (hl : Q.length = k + m)
    (hQ : Q.take k = dataShards lib k data) : Encoder.join ⟨k, m⟩ Q data.length = ok data := by
  unfold Encoder.join
  simp only []
  rw [if_neg (by omega), hQ, if_neg (by have := dataShards_flatten_length lib hk data; omega), dataShards_flatten lib hk]

/-! ## Shares of a sharing -/

/-- Share number `i`. -/
def kShare (env : Env) (secret key : List Byte) (k m : Nat) (md : List (List Byte)) (i : Nat) : List Byte :=
  md.getD i [] ++ ((codeword env.lib k m (cipherOf env secret key)).getD i [] ++ [BitVec.ofNat 8 i])

section
variable {env : Env} (hc : env.lib.Contract) {secret key : List Byte} {k m : Nat} {md shares : List (List Byte)}
  (h : KSharing env secret key k m md shares)
include h

theorem KSharing.eq : shares = (List.range (k + m)).map (kShare env secret key k m md) := h.shares_eq

theorem KSharing.md_length {i : Nat} (hi : i < k + m) : (md.getD i []).length = 21 := by
  have hi' : i < md.length := by have := h.md_len; omega
  obtain ⟨f, -, hf⟩ := h.md_sharing.2
  rw [List.getD_eq_getElem?_getD, List.getElem?_eq_getElem hi', Option.getD_some, (hf _ (List.getElem_mem hi')).1]
  simp [h.key_len]

include hc

theorem KSharing.code_length {i : Nat} (hi : i < k + m) :
    ((codeword env.lib k m (cipherOf env secret key)).getD i []).length = perShard secret.length k := by
  have hi' : i < (codeword env.lib k m (cipherOf env secret key)).length := by simpa using hi
  have := h.k_ge
  have := h.km_le
  rw [List.getD_eq_getElem?_getD, List.getElem?_eq_getElem hi', Option.getD_some,
    mem_codeword hc (by omega) (by omega) (List.getElem_mem hi'), length_cipherOf]

theorem KSharing.share_length {i : Nat} (hi : i < k + m) :
    (kShare env secret key k m md i).length = perShard secret.length k + 22 := by
  simp only [kShare, List.length_append, h.md_length hi, h.code_length hc hi, List.length_cons, List.length_nil]
  omega

theorem KSharing.take_md {i : Nat} (hi : i < k + m) : (kShare env secret key k m md i).take 21 = md.getD i [] := by
  rw [kShare, ← h.md_length hi, List.take_left]

theorem KSharing.partId_eq {i : Nat} (hi : i < k + m) : partId (kShare env secret key k m md i) = BitVec.ofNat 8 i := by
  rw [partId, h.share_length hc hi, kShare, ← List.append_assoc, List.getD_eq_getElem?_getD, List.getElem?_append_right]
  · simp only [List.length_append, h.md_length hi, h.code_length hc hi]
    rw [show perShard secret.length k + 22 - 1 - (21 + perShard secret.length k) = 0 by omega]
    rfl
  · simp only [List.length_append, h.md_length hi, h.code_length hc hi]; omega

theorem KSharing.partId_toNat {i : Nat} (hi : i < k + m) : (partId (kShare env secret key k m md i)).toNat = i := by
  have := h.km_le
  rw [h.partId_eq hc hi, BitVec.toNat_ofNat, Nat.mod_eq_of_lt (by omega)]

theorem KSharing.shard_eq {i : Nat} (hi : i < k + m) :
    shardOf (kShare env secret key k m md i) = (codeword env.lib k m (cipherOf env secret key)).getD i [] := by
  rw [shardOf, h.share_length hc hi, kShare, ← h.md_length hi, List.drop_left,
    show perShard secret.length k + 22 - 1 - (md.getD i []).length = perShard secret.length k by rw [h.md_length hi]; omega,
    ← h.code_length hc hi, List.take_left]

theorem KSharing.no_fault {i : Nat} (hi : i < k + m) :
    fault ((k + m : Nat) : Int) (kShare env secret key k m md i) = none := by
  have hpos := perShard_pos (len := secret.length) (k := k) (by have := h.k_ge; omega) (List.length_pos_iff.2 h.secret_ne)
  unfold fault
  rw [h.share_length hc hi, h.partId_toNat hc hi, if_neg (by omega), if_neg (by omega), if_neg (by omega)]

theorem KSharing.place_get {is : List Nat} (his : ∀ i ∈ is, i < k + m) (p : Nat) :
    (place (k + m) (is.map (kShare env secret key k m md))).getD p []
      = if p ∈ is then (codeword env.lib k m (cipherOf env secret key)).getD p [] else [] := by
  induction is using List.reverseRecOn with
  | nil => simp [place, List.getD_eq_getElem?_getD, List.getElem?_replicate]; split <;> rfl
  | append_singleton is i ih =>
    have hi : i < k + m := his i (by simp)
    have ih := ih (fun j hj => his j (by simp [hj]))
    rw [List.map_append, List.map_cons, List.map_nil, place_append, h.partId_toNat hc hi, h.shard_eq hc hi,
      List.getD_eq_getElem?_getD, List.getElem?_set]
    by_cases e : i = p
    · subst e
      simp [hi]
    · rw [if_neg e, ← List.getD_eq_getElem?_getD, ih]
      simp [show p ≠ i from fun c => e c.symm]

theorem KSharing.code_ne {i : Nat} (hi : i < k + m) :
    (codeword env.lib k m (cipherOf env secret key)).getD i [] ≠ [] := by
  intro c
  have := h.code_length hc hi
  have hpos := perShard_pos (len := secret.length) (k := k) (by have := h.k_ge; omega) (List.length_pos_iff.2 h.secret_ne)
  rw [c] at this
  simp at this; omega

omit hc h in
theorem filter_range_mem {is : List Nat} {n : Nat} (his : ∀ i ∈ is, i < n) (hnd : is.Nodup) :
    ((List.range n).filter (· ∈ is)).length = is.length := by
  apply List.Perm.length_eq
  rw [List.perm_ext_iff_of_nodup (List.Nodup.filter _ List.nodup_range) hnd]
  intro a
  simp only [List.mem_filter, List.mem_range, decide_eq_true_eq]
  exact ⟨fun h => h.2, fun h => ⟨his a h, h⟩⟩

theorem KSharing.place_eq {is : List Nat} (his : ∀ i ∈ is, i < k + m) :
    place (k + m) (is.map (kShare env secret key k m md)) = (List.range (k + m)).map fun p =>
      if p ∈ is then (codeword env.lib k m (cipherOf env secret key)).getD p [] else [] := by
  apply List.ext_getElem
  · simp
  · intro p h1 h2
    have := h.place_get hc his p
    rw [List.getD_eq_getElem?_getD, List.getElem?_eq_getElem h1, Option.getD_some] at this
    rw [this]; simp

theorem KSharing.place_count {is : List Nat} (his : ∀ i ∈ is, i < k + m) :
    ((place (k + m) (is.map (kShare env secret key k m md))).filter (· ≠ [])).length
      = ((List.range (k + m)).filter (· ∈ is)).length := by
  rw [h.place_eq hc his, List.filter_map, List.length_map]
  congr 1
  apply List.filter_congr
  intro p hp
  have hp : p < k + m := by simpa using hp
  have := h.code_ne hc hp
  by_cases hm : p ∈ is
  · simp only [Function.comp, hm, if_true, ne_eq, decide_not, decide_true, Bool.not_eq_true', decide_eq_false_iff_not]
    exact this
  · simp [hm]

/-- Any `k` different shares, in any order, among nil entries, decode to the secret. -/
theorem KSharing.combine_ok {is : List Nat} (his : ∀ i ∈ is, i < k + m) (hnd : is.Nodup) (hk : k ≤ is.length)
    {ssData : List (Option (List Byte))} (hss : ssData.filterMap id = is.map (kShare env secret key k m md)) :
    Krawczyk.combine env ssData (k + m : Nat) k = ok secret := by
  have hk2 := h.k_ge
  have hkm := h.km_le
  have hpass : ∀ d ∈ ssData, (d.getD []).length ≤ 4294967295 := by
    intro d hd
    cases d with
    | none => simp
    | some d =>
      have : d ∈ ssData.filterMap id := List.mem_filterMap.2 ⟨some d, hd, rfl⟩
      rw [hss] at this
      obtain ⟨i, hi, rfl⟩ := List.mem_map.1 this
      rw [Option.getD_some, h.share_length hc (his i hi)]
      have := h.secret_le
      have hb : perShard secret.length k ≤ (secret.length + 1) / 2 := by
        unfold perShard
        rw [Nat.div_le_iff_le_mul_add_pred (by omega)]
        have e1 : 2 * ((secret.length + 1) / 2) ≤ k * ((secret.length + 1) / 2) := Nat.mul_le_mul_right _ hk2
        omega
      omega
  cases hss0 : ssData with
  | nil =>
    rw [hss0] at hss
    have := congrArg List.length hss
    simp at this; omega
  | cons d0 rest =>
    rw [← hss0]
    have hd0 : idx ssData 0 = ok d0 := by rw [hss0]; rfl
    unfold Krawczyk.combine
    rw [hd0, ok_bind, checkArgs_pass ⟨hpass d0 (by rw [hss0]; simp), by omega, by omega, by omega, by omega⟩, ok_bind,
      clean_eq, ok_bind, hss, separate_eq _ ⟨by omega, by omega⟩]
    have hnf : (is.map (kShare env secret key k m md)).findSome? (fault ((k + m : Nat) : Int)) = none := by
      rw [List.findSome?_eq_none_iff]
      intro d hd
      obtain ⟨i, hi, rfl⟩ := List.mem_map.1 hd
      exact h.no_fault hc (his i hi)
    rw [hnf]
    simp only [ok_bind, Int.toNat_natCast]
    have hmeta : (is.map (kShare env secret key k m md)).map (·.take 21) = is.map fun i => md.getD i [] := by
      rw [List.map_map]
      exact List.map_congr_left fun i hi => h.take_md hc (his i hi)
    have hsubp : (is.map fun i => md.getD i []).Subperm md := by
      have : md = (List.range (k + m)).map fun i => md.getD i [] := by
        rw [← h.md_len]
        simpa using (range_map_getElem md id []).symm
      obtain ⟨l, hl, hs⟩ : is.Subperm (List.range (k + m)) :=
        List.subperm_of_subset hnd (fun i hi => by simpa using his i hi)
      have hs' := hs.map fun i => md.getD i []
      rw [← this] at hs'
      exact ⟨_, hl.map _, hs'⟩
    have hcomb := combine_sharing h.md_sharing hsubp (by omega) (by simp; omega)
      (by intro c; have := congrArg List.length c; simp [h.key_len] at this)
    rw [hmeta, hcomb, ok_bind, slice_ok (by omega) (by simp [h.key_len]), ok_bind,
      slice_ok (by simp [h.key_len]) (by omega), ok_bind]
    have e1 : ((key ++ lePutUint32 (BitVec.ofNat 32 secret.length)).drop 0).take (16 - 0) = key := by
      simp [← h.key_len]
    have e2 : ((key ++ lePutUint32 (BitVec.ofNat 32 secret.length)).drop 16).take
        ((key ++ lePutUint32 (BitVec.ofNat 32 secret.length)).length - 16) = lePutUint32 (BitVec.ofNat 32 secret.length) := by
      rw [← h.key_len, List.drop_left, List.take_of_length_le (by simp)]
    have e3 : (lePutUint32 (BitVec.ofNat 32 secret.length)).take 4 = lePutUint32 (BitVec.ofNat 32 secret.length) :=
      List.take_of_length_le (by simp)
    rw [e1, e2, if_neg (by simp), e3, leUint32_put, BitVec.toNat_ofNat,
      Nat.mod_eq_of_lt (by have := h.secret_le; omega),
      show ((k + m : Nat) : Int) - (k : Int) = (m : Int) by omega, new_ok (by omega) h.parity (by omega)]
    simp only [pure_eq, ok_bind]
    obtain ⟨Q, hQ, hQl, hQt⟩ := reconstruct_ok hc (k := k) (m := m) (by omega) (by omega)
      (cipherOf_ne env (key := key) h.secret_ne) (P := place (k + m) (is.map (kShare env secret key k m md))) (by simp)
      (fun i hi => by
        rw [h.place_get hc his i]
        split
        · exact Or.inl rfl
        · exact Or.inr rfl)
      (by rw [h.place_count hc his, filter_range_mem his hnd]; exact hk)
    have hj := join_ok env.lib (by omega) hQl hQt
    rw [length_cipherOf] at hj
    rw [hQ, ok_bind, hj, ok_bind, decrypt_ok env _ (Or.inl h.key_len), cipherOf, xorKs_xorKs]

end

end Verif.Proofs
