import Verif.Proofs.Secrecy

/-! # Split and SplitGeneric as layouts; consequences for Combine of too few shares -/

namespace Verif.Proofs
open Verif Spec Outcome Polynomial Shamir Galois Pool Csprng

theorem div_mod_of {t p k : Nat} (hk : k < t) : (t * p + k) / t = p ∧ (t * p + k) % t = k := by
  have h0 : 0 < t := by omega
  refine ⟨?_, ?_⟩
  · rw [Nat.mul_add_div h0, Nat.div_eq_of_lt hk, Nat.add_zero]
  · rw [Nat.mul_add_mod]; exact Nat.mod_eq_of_lt hk

theorem lin_lt {t p k N : Nat} (hk : k < t) (hp : p < N) : t * p + k < t * N := by
  calc t * p + k < t * p + t := by omega
    _ = t * (p + 1) := by ring
    _ ≤ t * N := Nat.mul_le_mul_left _ hp

/-- Split: coefficient `k` of byte `p` is random byte `t*p+k` (random byte `t*p` is overwritten by the secret). -/
def layoutSplit (t N : Nat) : Layout t N (t * N) where
  ix p k := t * p + k
  byteOf j := j / t
  coefOf j := j % t
  lt p hp k _ hk := lin_lt hk hp
  byteOf_ix _ _ _ _ hk := (div_mod_of hk).1
  coefOf_ix _ _ _ _ hk := (div_mod_of hk).2

/-- SplitGeneric: coefficient `k` of byte `p` is random byte `(t-1)*p+(k-1)`. -/
def layoutGeneric (t N : Nat) : Layout t N ((t - 1) * N) where
  ix p k := (t - 1) * p + (k - 1)
  byteOf j := j / (t - 1)
  coefOf j := j % (t - 1) + 1
  lt p hp k h1 hk := lin_lt (by omega) hp
  byteOf_ix p _ k h1 hk := (div_mod_of (by omega)).1
  coefOf_ix p _ k h1 hk := by rw [(div_mod_of (t := t - 1) (p := p) (k := k - 1) (by omega)).2]; omega

theorem splitTags_eq {perm : List Nat} {parts : Nat} (h : parts ≤ perm.length) :
    shareTags parts (perm.map (BitVec.ofNat 8)) = (perm.take parts).map fun v => BitVec.ofNat 8 v + 1#8 := by
  rw [shareTags_eq (by simpa using h), ← List.map_take, List.map_map]; rfl

theorem split_layout (arch : Arch) {secret : List Byte} {parts threshold : Int} {perm : List Nat}
    (rnd : Nat → Byte) (ps : Pools) (h : ValidArgs secret parts threshold) (hperm : perm.Perm (List.range 255)) :
    ∃ ps', split arch secret parts threshold perm rnd ps
      = ok (((perm.take parts.toNat).map fun v => BitVec.ofNat 8 v + 1#8).map
          (cShare secret threshold.toNat fun p k => rnd ((layoutSplit threshold.toNat secret.length).ix p k)), ps') := by
  have hl := (permBytes_nodup hperm).2.1
  have ⟨v1, v2, v3, v4⟩ := h
  obtain ⟨pp, e⟩ := split_valid arch perm rnd ps h (by omega)
  refine ⟨_, e.trans (congrArg (fun x => ok (x, _)) ?_)⟩
  rw [splitTags_eq (by omega)]
  apply List.map_congr_left
  intro x _
  unfold polSplit
  rw [shareOf_rowsOf secret _ threshold.toNat (by omega) (by simp)]
  unfold cShare
  congr 1
  apply List.map_congr_left
  intro p hp
  congr 2
  unfold mask
  apply Finset.sum_congr rfl
  intro k hk
  simp only [Finset.mem_Ico] at hk
  congr 2
  have := lin_lt hk.2 (List.mem_range.1 hp)
  rw [getD_getElem (by simpa using this)]
  simp [layoutSplit]

theorem splitGeneric_layout {secret : List Byte} {parts threshold : Int} {perm : List Nat}
    (rnd : Nat → Byte) (h : ValidArgs secret parts threshold) (hperm : perm.Perm (List.range 255)) :
    splitGeneric secret parts threshold perm rnd
      = ok (((perm.take parts.toNat).map fun v => BitVec.ofNat 8 v + 1#8).map
          (cShare secret threshold.toNat fun p k => rnd ((layoutGeneric threshold.toNat secret.length).ix p k))) := by
  have hl := (permBytes_nodup hperm).2.1
  have ⟨v1, v2, v3, v4⟩ := h
  rw [splitGeneric_valid perm rnd h (by omega)]
  congr 1
  rw [splitTags_eq (by omega)]
  apply List.map_congr_left
  intro x _
  rw [shareOf_rowsF]
  unfold cShare
  congr 1
  apply List.map_congr_left
  intro p hp
  rw [Finset.range_eq_Ico, Finset.sum_eq_sum_Ico_succ_bot (by omega), pow_zero, mul_one]
  have : ∑ k ∈ Finset.Ico (0 + 1) threshold.toNat, (⟨genericCoeff secret (threshold.toNat - 1) rnd p k⟩ : GF) * ⟨x⟩ ^ k
      = ∑ k ∈ Finset.Ico 1 threshold.toNat,
        (⟨rnd ((layoutGeneric threshold.toNat secret.length).ix p k)⟩ : GF) * ⟨x⟩ ^ k := by
    apply Finset.sum_congr rfl
    intro k hk
    simp only [Finset.mem_Ico] at hk
    rw [genericCoeff, if_neg (by omega)]
    rfl
  rw [this]; rfl

theorem splitTags_facts {perm : List Nat} (hperm : perm.Perm (List.range 255)) (n : Nat) :
    let xs := (perm.take n).map fun v => BitVec.ofNat 8 v + 1#8
    xs.Nodup ∧ ∀ x ∈ xs, x ≠ 0 := by
  obtain ⟨hnd, hl, h255⟩ := permBytes_nodup hperm
  have e : (perm.take n).map (fun v => BitVec.ofNat 8 v + 1#8)
      = ((perm.map (BitVec.ofNat 8)).take n).map (· + 1#8) := by
    rw [← List.map_take, List.map_map]; rfl
  refine ⟨?_, ?_⟩
  · rw [e]; exact (hnd.sublist (List.take_sublist _ _)).map add_one_injective
  · rw [e]; exact tags_ne_zero h255 n

/-- Adding a constant `d j` to byte `j` of every share adds it to byte `j` of the recovered value. -/
theorem recover_shift {P P' : List (List Byte)} {N : Nat} (d : Nat → Byte) (hn : (tags P).Nodup) (hpos : P ≠ [])
    (ht : tags P' = tags P)
    (h : ∀ i (hi : i < P.length) (hi' : i < P'.length), ∀ j < N, P'[i].getD j 0 = P[i].getD j 0 ^^^ d j) :
    recover P' N = (List.range N).map fun j => (recover P N).getD j 0 ^^^ d j := by
  have hl : P'.length = P.length := by simpa using congrArg List.length ht
  have hpos : 0 < P.length := List.length_pos_iff.2 hpos
  rw [recover_of_poly (ht ▸ hn) (fun j => interp P j + C ⟨d j⟩)]
  · apply List.map_congr_left
    intro j hj
    have hj : j < N := by simpa using hj
    rw [recover_interp hn, eval_add, eval_C]
    simp only [List.getD_eq_getElem?_getD, List.getElem?_map, List.getElem?_range hj, Option.map_some,
      Option.getD_some]
    rfl
  · intro j _
    rw [hl]
    refine lt_of_le_of_lt (degree_add_le _ _) (max_lt (interp_degree hn j) ?_)
    refine lt_of_le_of_lt degree_C_le ?_
    exact_mod_cast hpos
  · intro j hj p hp
    obtain ⟨i, hi, rfl⟩ := List.getElem_of_mem hp
    have hi' : i < P.length := by omega
    have e : tag P'[i] = tag P[i] := by
      have := congrArg (fun l => l[i]?) ht
      simpa [tags, hi, hi'] using this
    rw [e, eval_add, interp_eval hn j (List.getElem_mem hi'), eval_C, h i hi' hi j hj]
    rfl

/-- All fibres of a map are equally large. -/
theorem card_of_fibres {A B : Type} [Finite A] [Finite B] (f : A → B) (b : B)
    (h : ∀ b', Nat.card {a // f a = b'} = Nat.card {a // f a = b}) :
    Nat.card A = Nat.card B * Nat.card {a // f a = b} := by
  have := Fintype.ofFinite B
  rw [← Nat.card_congr (Equiv.sigmaFiberEquiv f), Nat.card_sigma, Finset.sum_congr rfl (fun b' _ => h b'),
    Finset.sum_const, Finset.card_univ, Nat.card_eq_fintype_card (α := B), smul_eq_mul]

end Verif.Proofs
