import Verif.Proofs.KrawczykTotal
import Verif.Proofs.KrawczykResults

/-! # krawczyk.Combine on shares with modified shards -/

namespace Verif.Proofs
open Verif Spec Outcome Galois Csprng RS Krawczyk

/-! ## A share in three pieces -/

section
variable {a b : List Byte} {c : Byte} (ha : a.length = 21)
include ha

theorem pieces_take : (a ++ (b ++ [c])).take 21 = a := by rw [← ha, List.take_left]

omit ha in
theorem pieces_partId : partId (a ++ (b ++ [c])) = c := by
  rw [partId, ← List.append_assoc, List.getD_eq_getElem?_getD, List.getElem?_append_right (by simp)]
  simp

theorem pieces_shardOf : shardOf (a ++ (b ++ [c])) = b := by
  rw [shardOf, ← ha, List.drop_left]
  simp [List.take_append]

theorem zipWith_zero : List.zipWith (· ^^^ ·) a (List.replicate 21 (0 : Byte)) = a := by
  apply List.ext_getElem
  · simp [ha]
  · intro i h1 h2
    rw [List.getElem_zipWith, List.getElem_replicate]; simp

theorem tamper_pieces {m : List Byte} (hm : m.length = b.length) :
    tamper (a ++ (b ++ [c])) m = a ++ (List.zipWith (· ^^^ ·) b m ++ [c]) := by
  unfold tamper
  rw [List.append_assoc, List.zipWith_append (by simp [ha]), List.zipWith_append (by omega), zipWith_zero ha]
  simp
end

theorem zipWith_flatten : ∀ (D M : List (List Byte)), D.length = M.length → (∀ i, (D.getD i []).length = (M.getD i []).length) →
    (List.zipWith (fun d m => List.zipWith (· ^^^ ·) d m) D M).flatten
      = List.zipWith (· ^^^ ·) D.flatten M.flatten
  | [], [], _, _ => rfl
  | d :: D, m :: M, hl, h => by
    have h0 := h 0
    simp only [List.getD_cons_zero] at h0
    simp only [List.zipWith_cons_cons, List.flatten_cons]
    rw [List.zipWith_append h0, zipWith_flatten D M (by simpa using hl) (fun i => by simpa using h (i + 1))]

theorem xorKs_zipWith (ks : Nat → Byte) (l m : List Byte) :
    xorKs ks (List.zipWith (· ^^^ ·) l m) = List.zipWith (· ^^^ ·) (xorKs ks l) m := by
  apply List.ext_getElem
  · simp
  · intro i h1 h2
    simp only [xorKs, List.getElem_mapIdx, List.getElem_zipWith]
    ac_rfl

section
variable {env : Env} (hc : env.lib.Contract) {secret key : List Byte} {k m : Nat} {md shares : List (List Byte)}
  (h : KSharing env secret key k m md shares)
include hc h

theorem KSharing.combine_tampered {is : List Nat} (his : ∀ i ∈ is, i < k + m) (hnd : is.Nodup) (hk : ∀ i < k, i ∈ is)
    {δ : Nat → List Byte} (hδ : ∀ i, (δ i).length = perShard secret.length k)
    {ssData : List (Option (List Byte))}
    (hss : ssData.filterMap id = is.map fun i => tamper (kShare env secret key k m md i) (δ i)) :
    Krawczyk.combine env ssData (k + m : Nat) k
      = ok (List.zipWith (· ^^^ ·) secret ((List.range k).map δ).flatten) := by
  have hk2 := h.k_ge
  have hkm := h.km_le
  have hpos := perShard_pos (len := secret.length) (k := k) (by omega) (List.length_pos_iff.2 h.secret_ne)
  have hb : perShard secret.length k ≤ (secret.length + 1) / 2 := by
    unfold perShard
    rw [Nat.div_le_iff_le_mul_add_pred (by omega)]
    have e1 : 2 * ((secret.length + 1) / 2) ≤ k * ((secret.length + 1) / 2) := Nat.mul_le_mul_right _ hk2
    omega
  have hsle := h.secret_le
  obtain ⟨C, hC⟩ : ∃ C, C = codeword env.lib k m (cipherOf env secret key) := ⟨_, rfl⟩
  have hlen : ∀ i < k + m, (C.getD i []).length = perShard secret.length k := by
    intro i hi; rw [hC]; exact h.code_length hc hi
  have hf : ∀ i < k + m, tamper (kShare env secret key k m md i) (δ i)
      = md.getD i [] ++ (List.zipWith (· ^^^ ·) (C.getD i []) (δ i) ++ [BitVec.ofNat 8 i]) := by
    intro i hi
    rw [kShare, ← hC, tamper_pieces (h.md_length hi) (by rw [hδ, hlen i hi])]
  obtain ⟨g, hg⟩ : ∃ g : Nat → List Byte, g = fun i =>
    md.getD i [] ++ (List.zipWith (· ^^^ ·) (C.getD i []) (δ i) ++ [BitVec.ofNat 8 i]) := ⟨_, rfl⟩
  have hss : ssData.filterMap id = is.map g := by
    rw [hss]
    exact List.map_congr_left fun i hi => by rw [hf i (his i hi), hg]
  have gl : ∀ i < k + m, (g i).length = perShard secret.length k + 22 := by
    intro i hi
    simp only [hg, List.length_append, h.md_length hi, List.length_zipWith, hlen i hi, hδ, List.length_cons, List.length_nil]
    omega
  have gp : ∀ i < k + m, partNo (g i) = i := by
    intro i hi
    rw [partNo_eq, hg, pieces_partId, BitVec.toNat_ofNat, Nat.mod_eq_of_lt (by omega)]
  have gs : ∀ i < k + m, shardOf (g i) = List.zipWith (· ^^^ ·) (C.getD i []) (δ i) := by
    intro i hi
    rw [hg, pieces_shardOf (h.md_length hi)]
  have gt : ∀ i < k + m, (g i).take 21 = md.getD i [] := by
    intro i hi
    rw [hg, pieces_take (h.md_length hi)]
  have hpn : (is.map g).map partNo = is := by
    rw [List.map_map]
    have : is.map (partNo ∘ g) = is.map id := List.map_congr_left fun i hi => gp i (his i hi)
    rw [this, List.map_id]
  obtain ⟨P, hP⟩ : ∃ P, P = place (k + m) (is.map g) := ⟨_, rfl⟩
  have hPl : P.length = k + m := by rw [hP]; simp
  have hPm : ∀ i ∈ is, P.getD i [] = List.zipWith (· ^^^ ·) (C.getD i []) (δ i) := by
    intro i hi
    have := place_mem (n := k + m) (sub := is.map g) (by rw [hpn]; exact hnd) (g i) (List.mem_map_of_mem hi)
      (by rw [gp i (his i hi)]; exact his i hi)
    rw [gp i (his i hi), gs i (his i hi)] at this
    rw [hP, this]
  have hPn : ∀ i, i ∉ is → P.getD i [] = [] := by
    intro i hi
    rw [hP]
    exact place_not_mem (by rw [hpn]; exact hi)
  have hsz : ∀ s ∈ P, s = [] ∨ s.length = perShard secret.length k := by
    intro s hs
    obtain ⟨i, hi, rfl⟩ := List.getElem_of_mem hs
    have e : P.getD i [] = P[i] := by simp [hi]
    rw [← e]
    by_cases hm : i ∈ is
    · right
      rw [hPm i hm, List.length_zipWith, hlen i (his i hm), hδ, min_self]
    · left; exact hPn i hm
  have hdlen : ∀ i < k, (P.getD i []).length = perShard secret.length k := by
    intro i hi
    rw [hPm i (hk i hi), List.length_zipWith, hlen i (by omega), hδ, min_self]
  have hn : [] ∉ P.take k := by
    intro c
    obtain ⟨i, hi, e⟩ := List.getElem_of_mem c
    have hi' : i < k := by simp at hi; omega
    rw [List.getElem_take] at e
    have := hdlen i hi'
    rw [List.getD_eq_getElem?_getD, List.getElem?_eq_getElem (by omega), Option.getD_some, e] at this
    simp at this; omega
  have hex : ∃ s ∈ P, s ≠ [] := by
    refine ⟨P[0], List.getElem_mem _, fun c => ?_⟩
    have := hdlen 0 (by omega)
    rw [List.getD_eq_getElem?_getD, List.getElem?_eq_getElem (by omega), Option.getD_some, c] at this
    simp at this; omega
  have hss' := shardSize_some hsz hex
  have hrec : Encoder.reconstructData ⟨k, m⟩ env.lib P = ok P := by
    unfold Encoder.reconstructData
    simp only []
    rw [if_neg (by omega), hss', if_neg (by omega), if_neg, if_pos hn]
    rintro ⟨s, hs, h1, h2⟩
    rcases hsz s hs with c | c
    · exact h1 c
    · exact h2 c
  obtain ⟨D, hD⟩ : ∃ D, D = dataShards env.lib k (cipherOf env secret key) := ⟨_, rfl⟩
  have hDC : ∀ i < k, D.getD i [] = C.getD i [] := by
    intro i hi
    rw [hC, hD]
    simp only [codeword, List.getD_eq_getElem?_getD]
    rw [List.getElem?_append_left (by simpa using hi)]
  have hDl : D.length = k := by rw [hD]; simp
  have htake : P.take k = List.zipWith (fun d m => List.zipWith (· ^^^ ·) d m) D ((List.range k).map δ) := by
    apply take_ext (by omega) (by simp [hDl])
    intro i hi
    rw [hPm i (hk i hi), ← hDC i hi]
    simp [List.getD_eq_getElem?_getD, List.getElem?_zipWith, hi, hDl]
  have hflat : (P.take k).flatten = List.zipWith (· ^^^ ·) D.flatten ((List.range k).map δ).flatten := by
    rw [htake]
    apply zipWith_flatten
    · simp [hDl]
    · intro i
      by_cases hi : i < k
      · rw [hDC i hi, hlen i (by omega)]
        simp [hi, hδ]
      · rw [List.getD_eq_getElem?_getD, List.getElem?_eq_none (by omega)]
        simp [hi]
  have hfl : (P.take k).flatten.length = k * perShard secret.length k := by
    have : ∀ s ∈ P.take k, s.length = perShard secret.length k := by
      intro s hs
      rcases hsz s (List.mem_of_mem_take hs) with c | c
      · exact absurd (c ▸ hs) hn
      · exact c
    rw [List.length_flatten, List.map_congr_left this, List.map_const', List.sum_replicate, List.length_take, hPl]
    rw [Nat.min_eq_left (by omega)]; rfl
  have hle : secret.length ≤ k * perShard secret.length k := by
    have := dataShards_flatten_length env.lib (show 0 < k by omega) (cipherOf env secret key)
    rw [length_cipherOf, ← hD] at this
    have e : D.flatten.length = k * perShard secret.length k := by
      have : ∀ s ∈ D, s.length = perShard secret.length k := by
        intro s hs
        rw [mem_dataShards (hD ▸ hs), length_cipherOf]
      rw [List.length_flatten, List.map_congr_left this, List.map_const', List.sum_replicate, hDl]; rfl
    omega
  have hjoin : Encoder.join ⟨k, m⟩ P secret.length
      = ok (List.zipWith (· ^^^ ·) (cipherOf env secret key) ((List.range k).map δ).flatten) := by
    unfold Encoder.join
    simp only []
    rw [if_neg (by omega), if_neg (by omega), hflat]
    congr 1
    have hd := dataShards_flatten env.lib (show 0 < k by omega) (cipherOf env secret key)
    rw [← hD, length_cipherOf] at hd
    rw [List.take_zipWith, hd]
    apply List.ext_getElem
    · simp
    · intro i h1 h2
      simp
  have hpass : ∀ d ∈ ssData, (d.getD []).length ≤ 4294967295 := by
    intro d hd
    cases d with
    | none => simp
    | some d =>
      have : d ∈ ssData.filterMap id := List.mem_filterMap.2 ⟨some d, hd, rfl⟩
      rw [hss] at this
      obtain ⟨i, hi, rfl⟩ := List.mem_map.1 this
      rw [Option.getD_some, gl i (his i hi)]
      omega
  have hisk : k ≤ is.length := by
    have := List.subperm_of_subset (List.nodup_range (n := k)) (l₂ := is) (fun i hi => hk i (by simpa using hi))
    simpa using this.length_le
  cases hss0 : ssData with
  | nil =>
    rw [hss0] at hss
    have := congrArg List.length hss
    simp at this; omega
  | cons d0 rest =>
    rw [kcombine_eq, ← hss0]
    have : kArgError (d0.getD []).length ((k + m : Nat) : Int) (k : Int) = none :=
      kArgError_none.2 ⟨hpass d0 (by rw [hss0]; simp), by omega, by omega, by omega, by omega⟩
    have hnf : (ssData.filterMap id).findSome? (fault ((k + m : Nat) : Int)) = none := by
      rw [hss, List.findSome?_eq_none_iff]
      intro d hd
      obtain ⟨i, hi, rfl⟩ := List.mem_map.1 hd
      rw [fault_none (by omega)]
      exact ⟨by rw [gl i (his i hi)]; omega, by rw [gp i (his i hi)]; have := his i hi; omega⟩
    rw [this, if_neg (by omega), hnf]
    simp only [Int.toNat_natCast]
    have hmeta : (ssData.filterMap id).map (·.take 21) = is.map fun i => md.getD i [] := by
      rw [hss, List.map_map]
      exact List.map_congr_left fun i hi => gt i (his i hi)
    have hsubp : (is.map fun i => md.getD i []).Subperm md := by
      have : md = (List.range (k + m)).map fun i => md.getD i [] := by
        rw [← h.md_len]
        simpa using (range_map_getElem md id []).symm
      obtain ⟨l, hl, hs⟩ : is.Subperm (List.range (k + m)) :=
        List.subperm_of_subset hnd (fun i hi => by simpa using his i hi)
      have hs' := hs.map fun i => md.getD i []
      rw [← this] at hs'
      exact ⟨_, hl.map _, hs'⟩
    have hcomb := combine_sharing h.md_sharing hsubp (by omega) (by simp; omega)
      (by intro c; have := congrArg List.length c; simp [h.key_len] at this)
    unfold decode
    rw [hmeta, hcomb, ok_bind, slice_ok (by omega) (by simp [h.key_len]), ok_bind,
      slice_ok (by simp [h.key_len]) (by omega), ok_bind]
    have e1 : ((key ++ lePutUint32 (BitVec.ofNat 32 secret.length)).drop 0).take (16 - 0) = key := by
      simp [← h.key_len]
    have e2 : ((key ++ lePutUint32 (BitVec.ofNat 32 secret.length)).drop 16).take
        ((key ++ lePutUint32 (BitVec.ofNat 32 secret.length)).length - 16) = lePutUint32 (BitVec.ofNat 32 secret.length) := by
      rw [← h.key_len, List.drop_left, List.take_of_length_le (by simp)]
    have e3 : (lePutUint32 (BitVec.ofNat 32 secret.length)).take 4 = lePutUint32 (BitVec.ofNat 32 secret.length) :=
      List.take_of_length_le (by simp)
    rw [e1, e2, if_neg (by simp), e3, leUint32_put]
    simp only [pure_eq, ok_bind]
    rw [BitVec.toNat_ofNat, Nat.mod_eq_of_lt (by omega),
      show ((k + m : Nat) : Int) - (k : Int) = (m : Int) by omega, new_ok (by omega) h.parity (by omega), ok_bind]
    rw [hss, ← hP, hrec, ok_bind, hjoin, ok_bind, decrypt_ok env _ (Or.inl h.key_len), xorKs_zipWith, cipherOf, xorKs_xorKs]

end

end Verif.Proofs
