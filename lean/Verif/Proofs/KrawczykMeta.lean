import Verif.Proofs.KrawczykTamper

/-! # krawczyk.Combine on shares with modified metadata -/

namespace Verif.Proofs
open Verif Spec Outcome Galois Csprng RS Krawczyk

theorem place_congr {n : Nat} {α : Type} {f g : α → List Byte} : ∀ {is : List α},
    (∀ i ∈ is, partId (f i) = partId (g i) ∧ shardOf (f i) = shardOf (g i)) → place n (is.map f) = place n (is.map g) := by
  intro is
  induction is using List.reverseRecOn with
  | nil => intro _; rfl
  | append_singleton is i ih =>
    intro h
    rw [List.map_append, List.map_append, List.map_cons, List.map_nil, List.map_cons, List.map_nil, place_append,
      place_append, ih (fun j hj => h j (by simp [hj])), (h i (by simp)).1, (h i (by simp)).2]

section
variable {env : Env} (hc : env.lib.Contract) {secret key : List Byte} {k m : Nat} {md shares : List (List Byte)}
  (h : KSharing env secret key k m md shares)
include hc h

/-- Complete shards with any metadata that `shamir.Combine` accepts. -/
theorem KSharing.combine_meta {is : List Nat} (his : ∀ i ∈ is, i < k + m) (hnd : is.Nodup) (hk : k ≤ is.length)
    {μ : Nat → List Byte} (hμ : ∀ i ∈ is, (μ i).length = 21) {key' lenB : List Byte} (hkey' : key'.length = 16)
    (hlenB : lenB.length = 4) (hcomb : Shamir.combine (is.map μ) = ok (key' ++ lenB))
    {ssData : List (Option (List Byte))}
    (hss : ssData.filterMap id = is.map fun i =>
      μ i ++ ((codeword env.lib k m (cipherOf env secret key)).getD i [] ++ [BitVec.ofNat 8 i])) :
    Krawczyk.combine env ssData (k + m : Nat) k =
      if k * perShard secret.length k < (leUint32 lenB).toNat then err .rsJoin
      else ok (xorKs (keyStream env key')
        ((dataShards env.lib k (cipherOf env secret key)).flatten.take (leUint32 lenB).toNat)) := by
  have hk2 := h.k_ge
  have hkm := h.km_le
  have hpos := perShard_pos (len := secret.length) (k := k) (by omega) (List.length_pos_iff.2 h.secret_ne)
  obtain ⟨g, hg⟩ : ∃ g : Nat → List Byte, g = fun i =>
    μ i ++ ((codeword env.lib k m (cipherOf env secret key)).getD i [] ++ [BitVec.ofNat 8 i]) := ⟨_, rfl⟩
  rw [← hg] at hss
  have gl : ∀ i ∈ is, (g i).length = perShard secret.length k + 22 := by
    intro i hi
    simp only [hg, List.length_append, hμ i hi, h.code_length hc (his i hi), List.length_cons, List.length_nil]
    omega
  have gp : ∀ i ∈ is, partId (g i) = BitVec.ofNat 8 i := by
    intro i hi
    rw [hg, pieces_partId]
  have gs : ∀ i ∈ is, shardOf (g i) = (codeword env.lib k m (cipherOf env secret key)).getD i [] := by
    intro i hi
    rw [hg, pieces_shardOf (hμ i hi)]
  have hplace : place (k + m) (is.map g) = place (k + m) (is.map (kShare env secret key k m md)) :=
    place_congr fun i hi => ⟨by rw [gp i hi, h.partId_eq hc (his i hi)], by rw [gs i hi, h.shard_eq hc (his i hi)]⟩
  have hpass : ∀ d ∈ ssData, (d.getD []).length ≤ 4294967295 := by
    intro d hd
    cases d with
    | none => simp
    | some d =>
      have : d ∈ ssData.filterMap id := List.mem_filterMap.2 ⟨some d, hd, rfl⟩
      rw [hss] at this
      obtain ⟨i, hi, rfl⟩ := List.mem_map.1 this
      rw [Option.getD_some, gl i hi]
      have := h.secret_le
      have hb : perShard secret.length k ≤ (secret.length + 1) / 2 := by
        unfold perShard
        rw [Nat.div_le_iff_le_mul_add_pred (by omega)]
        have e1 : 2 * ((secret.length + 1) / 2) ≤ k * ((secret.length + 1) / 2) := Nat.mul_le_mul_right _ hk2
        omega
      omega
  cases hss0 : ssData with
  | nil =>
    rw [hss0] at hss
    have := congrArg List.length hss
    simp at this; omega
  | cons d0 rest =>
    rw [kcombine_eq, ← hss0]
    have : kArgError (d0.getD []).length ((k + m : Nat) : Int) (k : Int) = none :=
      kArgError_none.2 ⟨hpass d0 (by rw [hss0]; simp), by omega, by omega, by omega, by omega⟩
    have hnf : (ssData.filterMap id).findSome? (fault ((k + m : Nat) : Int)) = none := by
      rw [hss, List.findSome?_eq_none_iff]
      intro d hd
      obtain ⟨i, hi, rfl⟩ := List.mem_map.1 hd
      rw [fault_none (by omega)]
      have := his i hi
      refine ⟨by rw [gl i hi]; omega, ?_⟩
      rw [partNo_eq, gp i hi, BitVec.toNat_ofNat, Nat.mod_eq_of_lt (by omega)]
      omega
    rw [this, if_neg (by omega), hnf]
    simp only [Int.toNat_natCast]
    have hmeta : (ssData.filterMap id).map (·.take 21) = is.map μ := by
      rw [hss, List.map_map]
      exact List.map_congr_left fun i hi => by simp only [Function.comp, hg]; exact pieces_take (hμ i hi)
    unfold decode
    rw [hmeta, hcomb, ok_bind, slice_ok (by omega) (by simp [hkey', hlenB]), ok_bind,
      slice_ok (by simp [hkey', hlenB]) (by omega), ok_bind]
    have e1 : ((key' ++ lenB).drop 0).take (16 - 0) = key' := by
      simp [← hkey']
    have e2 : ((key' ++ lenB).drop 16).take ((key' ++ lenB).length - 16) = lenB := by
      rw [← hkey', List.drop_left, List.take_of_length_le (by simp)]
    have e3 : lenB.take 4 = lenB := List.take_of_length_le (by omega)
    rw [e1, e2, if_neg (by omega), e3]
    simp only [pure_eq, ok_bind]
    rw [show ((k + m : Nat) : Int) - (k : Int) = (m : Int) by omega, new_ok (by omega) h.parity (by omega), ok_bind]
    obtain ⟨Q, hQ, hQl, hQt⟩ := reconstruct_ok hc (k := k) (m := m) (by omega) (by omega)
      (cipherOf_ne env (key := key) h.secret_ne) (P := place (k + m) (is.map (kShare env secret key k m md))) (by simp)
      (fun i hi => by
        rw [h.place_get hc his i]
        split
        · exact Or.inl rfl
        · exact Or.inr rfl)
      (by rw [h.place_count hc his, filter_range_mem his hnd]; exact hk)
    have hfl : (dataShards env.lib k (cipherOf env secret key)).flatten.length = k * perShard secret.length k := by
      have : ∀ s ∈ dataShards env.lib k (cipherOf env secret key), s.length = perShard secret.length k := by
        intro s hs
        rw [mem_dataShards hs, length_cipherOf]
      rw [List.length_flatten, List.map_congr_left this, List.map_const', List.sum_replicate, length_dataShards]; rfl
    rw [hss, hplace, hQ, ok_bind]
    unfold Encoder.join
    simp only []
    rw [if_neg (by omega), hQt, hfl]
    split
    · rfl
    · rw [ok_bind, decrypt_ok env _ (Or.inl hkey')]

end

end Verif.Proofs
