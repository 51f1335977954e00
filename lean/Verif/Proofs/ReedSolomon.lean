import Verif.Spec.ReedSolomon
import Verif.Proofs.KrawczykCombine

/-! # The interpolation code satisfies the Reed-Solomon contract -/

namespace Verif.Proofs
open Verif Spec Outcome RS Polynomial

theorem points_nodup {l : List Nat} (hn : l.Nodup) (h : ∀ p ∈ l, p < 256) : (points l).Nodup := by
  refine List.Nodup.map_on (fun a ha b hb e => ?_) hn
  have := congrArg BitVec.toNat e
  simp only [BitVec.toNat_ofNat] at this
  rw [Nat.mod_eq_of_lt (h a ha), Nat.mod_eq_of_lt (h b hb)] at this
  exact this

/-- interpolation polynomial of byte `j` of the data shards -/
noncomputable def dataPoly (k : Nat) (data : List (List Byte)) (j : Nat) : GF[X] :=
  Lagrange.interpolate (Finset.range (points (List.range k)).length) (fun i => (⟨(points (List.range k)).getD i 0⟩ : GF))
    (fun i => (⟨(data.map (·.getD j 0)).getD i 0⟩ : GF))

theorem points_getD {l : List Nat} {i : Nat} (h : i < l.length) : (points l).getD i 0 = BitVec.ofNat 8 l[i] := by
  simp [points, h]

theorem points_range_length (k : Nat) : (points (List.range k)).length = k := by simp [points]

theorem points_range_nodup {k : Nat} (hk : k ≤ 256) : (points (List.range k)).Nodup :=
  points_nodup List.nodup_range fun p hp => by have := List.mem_range.1 hp; omega

theorem dataPoly_degree {k : Nat} (hk : k ≤ 256) (data : List (List Byte)) (j : Nat) : (dataPoly k data j).degree < k := by
  have h := Lagrange.degree_interpolate_lt (r := fun i => (⟨(data.map (·.getD j 0)).getD i 0⟩ : GF))
    (injOn_of_nodup (points_range_nodup hk))
  rw [Finset.card_range, points_range_length] at h
  unfold dataPoly
  rw [points_range_length]
  exact h

theorem dataPoly_eval {k : Nat} (hk : k ≤ 256) {data : List (List Byte)} (j : Nat) (hd : data.length = k) {i : Nat} (hi : i < k) :
    (dataPoly k data j).eval ⟨BitVec.ofNat 8 i⟩ = ⟨(data.getD i []).getD j 0⟩ := by
  have := Lagrange.eval_interpolate_at_node (s := Finset.range (points (List.range k)).length)
    (v := fun i => (⟨(points (List.range k)).getD i 0⟩ : GF)) (fun i => (⟨(data.map (·.getD j 0)).getD i 0⟩ : GF))
    (injOn_of_nodup (points_range_nodup hk)) (i := i) (by simpa [points] using hi)
  rw [points_getD (by simpa using hi)] at this
  simp only [List.getElem_range] at this
  unfold dataPoly
  rw [this]
  simp [hd, hi]

theorem interpolationCode_contract : interpolationCode.Contract where
  parity_length k m L data hk hkm hl hd r hr := by
    have hne : data ≠ [] := by intro c; rw [c] at hl; simp at hl; omega
    rcases Nat.eq_zero_or_pos L with rfl | hL
    · have : ∀ P : List (List Byte), (∀ d ∈ P, d.length = 0) → shardSize P = 0 := by
        intro P
        induction P with
        | nil => intro _; rfl
        | cons s P ih => intro h; rw [shardSize, if_neg (by simp [h s]), ih (fun d hd => h d (by simp [hd]))]
      simp [interpolationCode, this data hd]
    · simp [interpolationCode, shardSize_all hne hL hd]
  missing_length k m shards _ _ _ _ _ i _ := by simp [interpolationCode]
  recovers k m L data shards hk hkm hL hd hdl hsl hsh hcount i hi hmiss := by
    have hne : data ≠ [] := by intro c; rw [c] at hd; simp at hd; omega
    have hsd := shardSize_all hne hL hdl
    -- every shard of the code word is the evaluation of the data polynomials
    have code : ∀ p < k + m, ((data ++ parityShards interpolationCode k m data).getD p []).length = L ∧
        ∀ j < L, (⟨((data ++ parityShards interpolationCode k m data).getD p []).getD j 0⟩ : GF)
          = (dataPoly k data j).eval ⟨BitVec.ofNat 8 p⟩ := by
      intro p hp
      by_cases hpk : p < k
      · have e : (data ++ parityShards interpolationCode k m data).getD p [] = data.getD p [] := by
          simp only [List.getD_eq_getElem?_getD]
          rw [List.getElem?_append_left (by omega)]
        rw [e]
        refine ⟨?_, fun j hj => (dataPoly_eval (by omega) j hd hpk).symm⟩
        rw [List.getD_eq_getElem?_getD, List.getElem?_eq_getElem (by omega), Option.getD_some]
        exact hdl _ (List.getElem_mem _)
      · have e : (data ++ parityShards interpolationCode k m data).getD p []
            = interpolationCode.parity k m data (p - k) := by
          simp only [List.getD_eq_getElem?_getD]
          rw [List.getElem?_append_right (by omega), hd]
          simp [parityShards, show p - k < m by omega]
        rw [e]
        refine ⟨by simp [interpolationCode, hsd], fun j hj => ?_⟩
        simp only [interpolationCode, hsd, List.getD_eq_getElem?_getD, List.getElem?_map,
          List.getElem?_range hj, Option.map_some, Option.getD_some, lagrangeAt]
        rw [show k + (p - k) = p by omega]
        simp only [dataPoly, List.getD_eq_getElem?_getD, List.getElem?_map]
    have hpres : ∀ p < k + m, shards.getD p [] ≠ [] →
        shards.getD p [] = (data ++ parityShards interpolationCode k m data).getD p [] := fun p hp h =>
      (hsh p hp).resolve_right h
    have hmemp : ∀ p ∈ present k m shards, p < k + m ∧ shards.getD p [] ≠ [] := by
      intro p hp
      have := List.mem_filter.1 (List.mem_of_mem_take hp)
      exact ⟨by simpa using this.1, by simpa using this.2⟩
    have hfl : ((List.range (k + m)).filter fun p => shards.getD p [] ≠ []).length = (shards.filter (· ≠ [])).length := by
      have e : shards = (List.range (k + m)).map fun p => shards.getD p [] := by
        rw [← hsl]; simpa using (range_map_getElem shards id []).symm
      conv_rhs => rw [e, List.filter_map, List.length_map]
      rfl
    have hplen : (present k m shards).length = k := by
      unfold present
      rw [List.length_take, hfl]; omega
    have hpnd : (present k m shards).Nodup :=
      (List.nodup_range.filter _).sublist (List.take_sublist _ _)
    have hss : shardSize shards = L := by
      refine shardSize_some ?_ ?_
      · intro s hs
        obtain ⟨p, hp, rfl⟩ := List.getElem_of_mem hs
        have e : shards.getD p [] = shards[p] := by simp [hp]
        rcases hsh p (by omega) with h | h
        · right; rw [← e, h, (code p (by omega)).1]
        · left; rw [← e, h]
      · have : 0 < (shards.filter (· ≠ [])).length := by omega
        obtain ⟨s, hs⟩ := List.exists_mem_of_length_pos this
        have := List.mem_filter.1 hs
        exact ⟨s, this.1, by simpa using this.2⟩
    have hdi : (data.getD i []).length = L := by
      rw [List.getD_eq_getElem?_getD, List.getElem?_eq_getElem (by omega), Option.getD_some]
      exact hdl _ (List.getElem_mem _)
    have key : ∀ j < L, lagrangeAt (points (present k m shards))
        ((present k m shards).map fun p => (shards.getD p []).getD j 0) (BitVec.ofNat 8 i) = (data.getD i []).getD j 0 := by
      intro j hj
      rw [lagrangeAt_of_poly (points_nodup hpnd (fun p hp => by have := (hmemp p hp).1; omega)) (dataPoly k data j)]
      · rw [dataPoly_eval (by omega) j hd hi]
      · have := dataPoly_degree (by omega : k ≤ 256) data j
        simpa [points, hplen] using this
      · intro a ha
        have ha' : a < (present k m shards).length := by simpa [points] using ha
        have hm := hmemp _ (List.getElem_mem ha')
        rw [points_getD ha', ← (code _ hm.1).2 j hj, ← hpres _ hm.1 hm.2]
        simp [ha']
    simp only [interpolationCode, hss]
    rw [← map_getD_range (data.getD i []), hdi]
    exact List.map_congr_left fun j hj => by
      rw [key j (by simpa using hj)]

end Verif.Proofs
