import Verif.Props.Secrecy
import Verif.Props.Regenerate
import Verif.Props.Sharing

/-! # C58: regenerated shares reveal no more than original ones

`Split` is followed by `Regenerate` on any threshold-many (or more) of the shares.  The view consists of shares of both
kinds: position `i` of `shares ++ new`. -/

namespace Verif.Props
open Verif Outcome Galois Spec Proofs Shamir Pool Csprng Polynomial

/-- The polynomial of byte `p`. -/
noncomputable def polyC (s : List Byte) (t : Nat) (c : Nat → Nat → Byte) (p : Nat) : GF[X] :=
  C ⟨s.getD p 0⟩ + ∑ k ∈ Finset.Ico 1 t, C (⟨c p k⟩ : GF) * X ^ k

theorem polyC_degree {s : List Byte} {t : Nat} (ht : 0 < t) (c : Nat → Nat → Byte) (p : Nat) :
    (polyC s t c p).degree < t := by
  unfold polyC
  refine lt_of_le_of_lt (degree_add_le _ _) (max_lt (lt_of_le_of_lt degree_C_le (by exact_mod_cast ht)) ?_)
  refine lt_of_le_of_lt (degree_sum_le _ _) ?_
  rw [Finset.sup_lt_iff (WithBot.bot_lt_coe _)]
  intro k hk
  exact lt_of_le_of_lt (degree_C_mul_X_pow_le _ _) (by exact_mod_cast (Finset.mem_Ico.1 hk).2)

theorem polyC_eval (s : List Byte) (t : Nat) (c : Nat → Nat → Byte) (p : Nat) (x : Byte) :
    (polyC s t c p).eval ⟨x⟩ = ⟨s.getD p 0⟩ + ∑ k ∈ Finset.Ico 1 t, (⟨c p k⟩ : GF) * ⟨x⟩ ^ k := by
  unfold polyC
  rw [eval_add, eval_C, eval_finset_sum]
  congr 1
  apply Finset.sum_congr rfl
  intro k _
  rw [eval_mul, eval_C, eval_pow, eval_X]

theorem cShare_isShareOf (s : List Byte) (t : Nat) (c : Nat → Nat → Byte) (x : Byte) :
    IsShareOf (polyC s t c) s.length (cShare s t c x) := by
  refine ⟨length_cShare _ _ _ _, fun p hp => ?_⟩
  rw [tag_cShare, polyC_eval, cShare_getD _ _ _ _ hp]
  rfl

/-- Whether Regenerate returns depends only on the number, the length and the tags of the parts. -/
theorem regenerate_returns_congr {fuel : Nat} {P P' : List (List Byte)} {n : Int} {rnd u : Nat → Byte} {N : Nat}
    (ht : tags P = tags P') (hl : ∀ p ∈ P, p.length = N + 1) (hl' : ∀ p ∈ P', p.length = N + 1)
    (h : ∃ new, regenerate fuel P n rnd u = ok new) : ∃ new, regenerate fuel P' n rnd u = ok new := by
  obtain ⟨new, h⟩ := h
  obtain ⟨⟨h1, h2, h3, h4⟩, hn, -, -⟩ := regenerate_ok h
  have hlen : P'.length = P.length := by simpa using (congrArg List.length ht).symm
  have hN := hl _ (headD_mem h1)
  have hN' := hl' _ (headD_mem (show 2 ≤ P'.length by omega))
  rw [regenerate_eq, if_neg (by omega), if_neg (by omega), if_neg (not_not.2 h3), if_neg (by omega),
    if_neg (not_not.2 h4)] at h
  rw [regenerate_eq, if_neg (by omega), if_neg (by omega),
    if_neg (not_not.2 fun p hp => by rw [hl' p hp, hN']), if_neg (by omega), if_neg (not_not.2 (ht ▸ h4)), ← ht]
  rw [bind_eq_ok] at h
  obtain ⟨a, ha, -⟩ := h
  exact ⟨_, by rw [ha, ok_bind]⟩

/-- Regenerating from at least `t` shares evaluates the same polynomials at the raw random bytes. -/
theorem regenerate_cShares {fuel : Nat} {s : List Byte} {t : Nat} (ht : 0 < t) {c : Nat → Nat → Byte}
    {xs : List Byte} (hx : t ≤ xs.length) {n : Int} {rnd u : Nat → Byte} {new : List (List Byte)}
    (h : regenerate fuel (xs.map (cShare s t c)) n rnd u = ok new) :
    new = (List.range n.toNat).map fun k => cShare s t c (rnd k) := by
  have hs := C22_regenerate_same_polynomials (polyC s t c) s.length fuel _ new n rnd u
    (fun j _ => lt_of_lt_of_le (polyC_degree ht c j) (by simpa using hx))
    (fun p hp => by obtain ⟨x, -, rfl⟩ := List.mem_map.1 hp; exact cShare_isShareOf s t c x) h
  have htg := C23_tags_are_raw_random_bytes _ _ _ _ _ _ h
  have hlen : new.length = n.toNat := by simpa using congrArg List.length htg
  apply List.ext_getElem
  · simp [hlen]
  · intro k h1 h2
    have hsk := hs.2 _ (List.getElem_mem h1)
    have htk : tag new[k] = rnd k := by
      have := congrArg (fun l => l[k]?) htg
      simpa [h1, ← hlen] using this
    simp only [List.getElem_map, List.getElem_range]
    refine share_ext hsk.1 (length_cShare _ _ _ _) (by rw [htk, tag_cShare]) fun p hp => ?_
    have e1 := hsk.2 p hp
    have e2 := (cShare_isShareOf s t c (rnd k)).2 p hp
    rw [tag_cShare] at e2
    rw [htk] at e1
    exact congrArg GF.val (e1.trans e2.symm)

/-- C58: fewer than `threshold` shares, original or regenerated, reveal nothing about the secret, as long as no
regenerated share of the view has tag 0: the view is produced by equally many fillings from any two secrets of the same
length.  `is` are the positions of the shares Regenerate was given, `rnd'` and `u` its random bytes. -/
theorem C58_regenerated_secrecy (arch : Arch) (s s' : List Byte) (hs : s.length = s'.length) (parts threshold : Int)
    (perm : List Nat) (hperm : perm.Perm (List.range 255)) (ps : Pools)
    (is : List Nat) (his : ∀ i ∈ is, (i : Int) < parts) (hlen : threshold ≤ is.length)
    (fuel : Nat) (n : Int) (rnd' u : Nat → Byte)
    (I : Finset Nat) (hI : (I.card : Int) < threshold) (h0 : ∀ i ∈ I, parts ≤ i → rnd' (i - parts.toNat) ≠ 0)
    (v : Nat → List Byte) :
    count (m := threshold.toNat * s.length) (fun ρ => ∃ shares ps' new,
        split arch s parts threshold perm (stream ρ) ps = ok (shares, ps') ∧
        regenerate fuel (pick is shares) n rnd' u = ok new ∧ Seen I v (shares ++ new))
      = count (m := threshold.toNat * s.length) (fun ρ => ∃ shares ps' new,
        split arch s' parts threshold perm (stream ρ) ps = ok (shares, ps') ∧
        regenerate fuel (pick is shares) n rnd' u = ok new ∧ Seen I v (shares ++ new)) := by
  by_cases hv : ValidArgs s parts threshold
  · have hv' : ValidArgs s' parts threshold := by
      refine ⟨hv.1, hv.2.1, hv.2.2.1, ?_⟩
      have := List.length_pos_iff.2 hv.2.2.2
      exact List.length_pos_iff.1 (by omega)
    have ⟨v1, v2, v3, v4⟩ := hv
    have hpl := (permBytes_nodup hperm).2.1
    obtain ⟨hnd, hx0⟩ := splitTags_facts hperm parts.toNat
    set t := threshold.toNat
    set L := layoutSplit t s.length
    set xs := (perm.take parts.toNat).map fun v => BitVec.ofNat 8 v + 1#8 with hxs
    have hxl : xs.length = parts.toNat := by simp [hxs]; omega
    let ys : List Byte := xs ++ (List.range n.toNat).map rnd'
    let fix : Byte → Byte := fun x => if x = 0 then 1 else x
    obtain ⟨e, he⟩ := L.secrecy rfl hs.symm (ys.map fix)
      (by
        intro x hx
        obtain ⟨y, -, rfl⟩ := List.mem_map.1 hx
        simp only [fix]
        split
        · decide
        · assumption) I (by omega)
    -- the view on the extended list of shares
    have hshow : ∀ (σ : List Byte) (ρ : Fin (t * s.length) → Byte), ∀ i ∈ I,
        (L.shares σ (ys.map fix) ρ)[i]? = (L.shares σ ys ρ)[i]? := by
      intro σ ρ i hi
      unfold Layout.shares
      simp only [List.getElem?_map, Option.map_map]
      rcases Nat.lt_or_ge i ys.length with hiy | hiy
      swap
      · rw [List.getElem?_eq_none hiy]; rfl
      rw [List.getElem?_eq_getElem hiy]
      simp only [Option.map_some, Function.comp_apply]
      congr 2
      have : ys[i] ≠ 0 := by
        simp only [ys]
        rw [List.getElem_append]
        split
        · exact hx0 _ (List.getElem_mem _)
        · rename_i hge
          simp only [List.getElem_map, List.getElem_range, hxl]
          exact h0 i hi (by omega)
      simp only [fix, if_neg this]
    have key : ∀ (σ : List Byte), σ.length = s.length → ValidArgs σ parts threshold → ∀ ρ : Fin (t * s.length) → Byte,
        ((∃ shares ps' new, split arch σ parts threshold perm (stream ρ) ps = ok (shares, ps') ∧
          regenerate fuel (pick is shares) n rnd' u = ok new ∧ Seen I v (shares ++ new)) ↔
        (∃ new, regenerate fuel (pick is (L.shares σ xs ρ)) n rnd' u = ok new) ∧ Seen I v (L.shares σ ys ρ)) := by
      intro σ hσ hvσ ρ
      obtain ⟨p1, e1⟩ := split_layout arch (stream ρ) ps hvσ hperm
      rw [hσ] at e1
      have hpick : pick is (L.shares σ xs ρ)
          = (is.map fun i => xs.getD i 0).map (cShare σ t fun p k => stream ρ (L.ix p k)) := by
        refine Eq.trans (List.map_congr_left fun i hi => ?_) (List.map_map ..).symm
        have := his i hi
        have hlt : i < xs.length := by omega
        simp [List.getD_eq_getElem?_getD, hlt, Layout.shares]
      have hnew : ∀ new, regenerate fuel (pick is (L.shares σ xs ρ)) n rnd' u = ok new →
          L.shares σ ys ρ = L.shares σ xs ρ ++ new := by
        intro new hnew
        rw [hpick] at hnew
        have := regenerate_cShares (by omega) (by rw [List.length_map]; omega) hnew
        rw [this]
        simp only [Layout.shares, ys, List.map_append, List.map_map]
        rfl
      constructor
      · rintro ⟨sh, p, new, h1, h2, h3⟩
        rw [e1] at h1
        obtain ⟨rfl, rfl⟩ := Prod.mk.inj (Outcome.ok.inj h1)
        exact ⟨⟨new, h2⟩, by rw [hnew new h2]; exact h3⟩
      · rintro ⟨⟨new, h2⟩, h3⟩
        exact ⟨_, _, new, e1, h2, by rw [hnew new h2] at h3; exact h3⟩
    refine count_congr e fun ρ => ?_
    rw [key s rfl hv ρ, key s' hs.symm hv' (e ρ)]
    have htags : ∀ (σ : List Byte) (ρ : Fin (t * s.length) → Byte), tags (pick is (L.shares σ xs ρ))
        = is.map fun i => xs.getD i 0 := by
      intro σ ρ
      unfold tags pick Layout.shares
      rw [List.map_map]
      apply List.map_congr_left
      intro i hi
      have := his i hi
      have hlt : i < xs.length := by omega
      simp [List.getD_eq_getElem?_getD, hlt, tag_cShare]
    have hlens : ∀ (σ : List Byte) (ρ : Fin (t * s.length) → Byte), σ.length = s.length →
        ∀ p ∈ pick is (L.shares σ xs ρ), p.length = s.length + 1 := by
      intro σ ρ hσ p hp
      obtain ⟨i, hi, rfl⟩ := List.mem_map.1 hp
      have := his i hi
      have hlt : i < xs.length := by omega
      simp [List.getD_eq_getElem?_getD, hlt, Layout.shares, hσ]
    refine and_congr ⟨fun h => ?_, fun h => ?_⟩ ?_
    · exact regenerate_returns_congr (by rw [htags, htags]) (hlens s ρ rfl) (hlens s' (e ρ) hs.symm) h
    · exact regenerate_returns_congr (by rw [htags, htags]) (hlens s' (e ρ) hs.symm) (hlens s ρ rfl) h
    · refine forall₂_congr fun i hi => ?_
      have := he ρ i hi
      rw [hshow s ρ i hi, hshow s' (e ρ) i hi] at this
      rw [this]
  · have hinv : ∀ s'' : List Byte, s''.length = s.length → ∀ rnd : Nat → Byte, ¬ ∃ shares ps' new,
        split arch s'' parts threshold perm rnd ps = ok (shares, ps') ∧
        regenerate fuel (pick is shares) n rnd' u = ok new ∧ Seen I v (shares ++ new) := by
      rintro s'' hl rnd ⟨sh, p, new, h, -⟩
      have := (split_ok arch hperm h).1
      refine hv ⟨this.1, this.2.1, this.2.2.1, ?_⟩
      have := List.length_pos_iff.2 this.2.2.2
      exact List.length_pos_iff.1 (by omega)
    exact count_congr (Equiv.refl _) fun ρ => iff_of_false (hinv s rfl _) (hinv s' hs.symm _)

/-- The view counted in C58 does occur: one original and one regenerated share of a 3-of-5 sharing. -/
example (arch : Arch) : ∃ v : Nat → List Byte, 0 < count (m := 3 * 2) (fun ρ => ∃ shares ps' new,
    split arch [5, 9] 5 3 (List.range 255) (stream ρ) (Pools.init 1) = ok (shares, ps') ∧
    regenerate 1 (pick [4, 0, 2] shares) 2 (fun k => 200 + BitVec.ofNat 8 k) (fun _ => 0) = ok new ∧
    Seen {1, 6} v (shares ++ new)) := by
  obtain ⟨ps', e⟩ := split_layout arch (stream (fun _ : Fin (3 * 2) => (7 : Byte))) (Pools.init 1)
    (secret := [5, 9]) (parts := 5) (threshold := 3) (by decide) (List.Perm.refl (List.range 255))
  generalize hsh : List.map _ (List.map _ _) = shares at e
  have htg : shares.map tag = [1, 2, 3, 4, 5] := by
    rw [(C12_split_format arch _ _ _ _ (List.Perm.refl _) _ _ _ _ e).2.2.2.2]; decide
  have hlen := (C12_split_format arch _ _ _ _ (List.Perm.refl _) _ _ _ _ e).2.1
  match shares, htg, hlen, e with
  | [a, b, c, d, f], htg, hlen, e =>
    simp only [List.map_cons, List.map_nil, List.cons.injEq, and_true] at htg
    obtain ⟨ta, -, tc, -, tf⟩ := htg
    have hp : pick [4, 0, 2] [a, b, c, d, f] = [f, a, c] := rfl
    have hr : Regenerable [f, a, c] := by
      rw [regenerable_iff]
      have hf := hlen f (by simp)
      have ha := hlen a (by simp)
      have hc := hlen c (by simp)
      simp only [List.length_cons, List.length_nil] at hf ha hc
      refine ⟨by simp, by simp [hf], by simp [hf, ha, hc], ?_⟩
      simp only [tags, List.map_cons, List.map_nil, ta, tc, tf]
      decide
    obtain ⟨new, hnew⟩ := C24_returns_fresh [f, a, c] hr 2 (by decide) (fun k => 200 + BitVec.ofNat 8 k) (fun _ => 0)
      (by decide) (by simp only [List.map_cons, List.map_nil, ta, tc, tf]; decide) 0
    have hnl : new.length = 2 := by
      simpa using congrArg List.length (C23_tags_are_raw_random_bytes _ _ _ _ _ _ hnew)
    refine ⟨fun i => ([a, b, c, d, f] ++ new).getD i [],
      @Nat.card_pos _ ⟨⟨fun _ => 7, _, ps', new, e, by rw [hp]; exact hnew, fun i hi => ?_⟩⟩ inferInstance⟩
    have h4 : i < ([a, b, c, d, f] ++ new).length := by
      simp only [Finset.mem_insert, Finset.mem_singleton] at hi
      simp only [List.length_append, List.length_cons, List.length_nil]; omega
    show _ = some (([a, b, c, d, f] ++ new).getD i [])
    rw [List.getD_eq_getElem?_getD, List.getElem?_eq_getElem h4]; rfl

/-- C58: the second of five shares and the second of two new ones, threshold 3. -/
example (arch : Arch) (v : Nat → List Byte) :
    count (m := 3 * 2) (fun ρ => ∃ shares ps' new,
        split arch [5, 9] 5 3 (List.range 255) (stream ρ) (Pools.init 1) = ok (shares, ps') ∧
        regenerate 1 (pick [4, 0, 2] shares) 2 (fun k => 200 + BitVec.ofNat 8 k) (fun _ => 0) = ok new ∧ Seen {1, 6} v (shares ++ new))
      = count (m := 3 * 2) (fun ρ => ∃ shares ps' new,
        split arch [77, 0] 5 3 (List.range 255) (stream ρ) (Pools.init 1) = ok (shares, ps') ∧
        regenerate 1 (pick [4, 0, 2] shares) 2 (fun k => 200 + BitVec.ofNat 8 k) (fun _ => 0) = ok new ∧ Seen {1, 6} v (shares ++ new)) :=
  C58_regenerated_secrecy arch [5, 9] [77, 0] rfl 5 3 _ (List.Perm.refl _) _ [4, 0, 2] (by decide) (by decide) 1 2 _ _ {1, 6} (by decide)
    (by decide) v

end Verif.Props
