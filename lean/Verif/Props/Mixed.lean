import Verif.Props.RegenerateSecrecy
import Verif.Props.Combine

/-! # C78: shares that do not belong together

What Combine and Regenerate do with shares of different sharings, with forged shares, and with too few shares. -/

namespace Verif.Props
open Verif Outcome Galois Spec Proofs Shamir Pool Csprng Polynomial

/-! ## Chains of regenerations -/

/-- The shares of a `t`-out-of-n sharing that can be made from `shares` by calls of Regenerate, each given at least `t` shares
obtained before. -/
inductive Obtained (t : Nat) (shares : List (List Byte)) : List Byte → Prop
  | original (w : List Byte) : w ∈ shares → Obtained t shares w
  | renewed (fuel : Nat) (parts new : List (List Byte)) (n : Int) (rnd u : Nat → Byte) (w : List Byte) :
      (∀ p ∈ parts, Obtained t shares p) → t ≤ parts.length → regenerate fuel parts n rnd u = ok new → w ∈ new →
      Obtained t shares w

/-- C22: however many calls of Regenerate led to them, any `t` shares with different tags combine to the secret. -/
theorem C22_chain (secret : List Byte) (hN : secret ≠ []) (t : Nat) (h2 : 2 ≤ t) (shares : List (List Byte))
    (hs : IsSharing secret t shares) (mix : List (List Byte)) (hm : ∀ w ∈ mix, Obtained t shares w)
    (hn : (mix.map tag).Nodup) (ht : t ≤ mix.length) : combine mix = ok secret := by
  obtain ⟨-, f, hf, hall⟩ := hs
  have key : ∀ w, Obtained t shares w → IsShareOf f secret.length w := ?_
  · exact combine_shares hf (fun s hs => key s (hm s hs)) hn (by omega) ht hN
  intro w hw
  induction hw with
  | original w h => exact hall w h
  | renewed fuel parts new n rnd u w _ hl h hw ih =>
    exact (C22_regenerate_same_polynomials f secret.length fuel parts new n rnd u
      (fun j hj => lt_of_lt_of_le (hf j hj).1 (by exact_mod_cast hl)) ih h).2 w hw

/-! ## Regenerate on too few shares -/

/-- C78: Regenerate never notices what the shares it is given belong to: the new shares are consistent with the given ones.
Any of them, old and new, as many as were given and with different tags, combine to the value the given ones combine to. -/
theorem C78_regenerate_consistent (fuel : Nat) (parts new : List (List Byte)) (n : Int) (rnd u : Nat → Byte)
    (h : regenerate fuel parts n rnd u = ok new) (mix : List (List Byte)) (hmix : mix ⊆ parts ++ new)
    (hn : (mix.map tag).Nodup) (hl : parts.length ≤ mix.length) :
    ∃ w, combine parts = ok w ∧ combine mix = ok w := by
  obtain ⟨⟨h1, h2, h3, h4⟩, -, -, -⟩ := regenerate_ok h
  obtain ⟨N, hN⟩ : ∃ N, (parts.headD []).length = N + 1 := ⟨(parts.headD []).length - 1, by omega⟩
  have hp : ∀ p ∈ parts, IsShareOf (interp parts) N p := fun p hp =>
    ⟨by rw [h3 p hp, hN], fun j _ => (interp_eval h4 j hp).symm⟩
  have hnew := (C22_regenerate_same_polynomials (interp parts) N fuel parts new n rnd u
    (fun j _ => interp_degree h4 j) hp h).2
  have hm : ∀ p ∈ mix, IsShareOf (interp parts) N p := fun p hp' =>
    (List.mem_append.1 (hmix hp')).elim (hp p) (hnew p)
  have := C16_qualified_sets_agree parts.length N (interp parts) (fun j _ => interp_degree h4 j) (by omega) parts mix hp hm h4 hn
    (by omega) (by omega)
  exact ⟨_, this.2, this.1 ▸ this.2⟩

/-! ## Fewer than threshold shares among others -/

theorem recover_shift_one {P P' : List (List Byte)} {N k : Nat} (d : Nat → Byte) (hn : (tags P).Nodup) (hk : k < P.length)
    (h0 : ∀ i < P.length, i ≠ k → (tags P).getD i 0 ≠ 0) (ht : tags P' = tags P)
    (h : ∀ i (hi : i < P.length) (hi' : i < P'.length), ∀ j < N,
      P'[i].getD j 0 = P[i].getD j 0 ^^^ if i = k then ((⟨d j⟩ : GF) / weight (tags P) k).val else 0) :
    recover P' N = (List.range N).map fun j => (recover P N).getD j 0 ^^^ d j := by
  have hl : P'.length = P.length := by simpa using congrArg List.length ht
  have hw : weight (tags P) k ≠ 0 := weight_ne_zero hn (by simpa using hk) (by simpa using h0)
  unfold recover
  refine List.map_congr_left fun j hj => ?_
  have hj : j < N := by simpa using hj
  rw [List.getD_eq_getElem?_getD, List.getElem?_map, List.getElem?_range hj]
  simp only [Option.map_some, Option.getD_some]
  rw [ht, lagrangeAt_zero, lagrangeAt_zero]
  have hterm : ∀ i ∈ Finset.range (tags P).length, (⟨(column P' j).getD i 0⟩ : GF) * weight (tags P) i
      = ⟨(column P j).getD i 0⟩ * weight (tags P) i + if i = k then ⟨d j⟩ else 0 := by
    intro i hi
    have hi : i < P.length := by simpa using hi
    have e : (column P' j).getD i 0 = (column P j).getD i 0 ^^^ if i = k then ((⟨d j⟩ : GF) / weight (tags P) k).val else 0 := by
      have := h i hi (by omega) j hj
      rw [getD_getElem (by simpa using (by omega : i < P'.length)), getD_getElem (by simpa using hi)]
      simpa [column] using this
    have e' : (⟨(column P' j).getD i 0⟩ : GF) = ⟨(column P j).getD i 0⟩ + if i = k then (⟨d j⟩ : GF) / weight (tags P) k else 0 := by
      apply GF.ext'
      rw [GF.val_add, e]
      split <;> rfl
    rw [e', add_mul]
    congr 1
    split
    · rename_i hik
      rw [hik, div_mul_cancel₀ _ hw]
    · rw [zero_mul]
  rw [Finset.sum_congr rfl hterm, Finset.sum_add_distrib, Finset.sum_ite_eq' _ k, if_pos (by simpa using hk), GF.val_add]

/-- The count behind C78_mixed_uniform, for any layout of the random bytes. -/
theorem layout_mixed {t m : Nat} {s : List Byte} (L : Layout t s.length m) (v4 : s ≠ []) (xs : List Byte) (hnd : xs.Nodup)
    (h0 : ∀ x ∈ xs, x ≠ 0) (is : List Nat) (hn : is.Nodup) (h1 : 1 ≤ is.length) (hlt : is.length < t)
    (hix : ∀ i ∈ is, i < xs.length) (others : List (List Byte)) (ho : ∀ o ∈ others, o.length = s.length + 1)
    (hon : (others.map tag).Nodup) (hoz : ∀ o ∈ others, tag o ≠ 0)
    (hod : ∀ o ∈ others, ∀ i ∈ is, tag o ≠ xs.getD i 0) (h2 : 2 ≤ is.length + others.length)
    (w : List Byte) (hw : w.length = s.length) :
    256 ^ s.length * Nat.card {ρ : Fin m → Byte // combine (pick is (L.shares s xs ρ) ++ others) = ok w} = 256 ^ m := by
  classical
  -- the shares combined, for a filling
  let P : (Fin m → Byte) → List (List Byte) := fun ρ => pick is (L.shares s xs ρ) ++ others
  have hP : ∀ ρ, P ρ = (is.map fun i => cShare s t (fun p k => stream ρ (L.ix p k)) (xs.getD i 0)) ++ others := by
    intro ρ
    simp only [P, pick]
    congr 1
    apply List.map_congr_left
    intro i hi
    have := hix i hi
    simp [Layout.shares, List.getD_eq_getElem?_getD, this]
  have htags : ∀ ρ, tags (P ρ) = (is.map fun i => xs.getD i 0) ++ others.map tag := by
    intro ρ
    rw [hP ρ, tags, List.map_append, List.map_map]
    congr 1
    apply List.map_congr_left
    intro i _
    exact tag_cShare _ _ _ _
  have htn : ((is.map fun i => xs.getD i 0) ++ others.map tag).Nodup := by
    refine List.nodup_append.2 ⟨(List.nodup_map_iff_inj_on hn).2 fun i hi j hj e => ?_, hon, ?_⟩
    · by_contra hij
      exact nodup_ne hnd (hix i hi) (hix j hj) hij e
    · intro a ha b hb
      obtain ⟨i, hi, rfl⟩ := List.mem_map.1 ha
      obtain ⟨o, ho', rfl⟩ := List.mem_map.1 hb
      exact (hod o ho' i hi).symm
  have htz : ∀ x ∈ (is.map fun i => xs.getD i 0) ++ others.map tag, x ≠ 0 := by
    intro x hx
    rcases List.mem_append.1 hx with h | h
    · obtain ⟨i, hi, rfl⟩ := List.mem_map.1 h
      rw [getD_getElem (hix i hi)]
      exact h0 _ (List.getElem_mem _)
    · obtain ⟨o, ho', rfl⟩ := List.mem_map.1 h
      exact hoz o ho'
  have hlen : ∀ ρ, ∀ p ∈ P ρ, p.length = s.length + 1 := by
    intro ρ p hp
    rw [hP ρ] at hp
    rcases List.mem_append.1 hp with h | h
    · obtain ⟨i, -, rfl⟩ := List.mem_map.1 h
      simp
    · exact ho p h
  have hPl : ∀ ρ, (P ρ).length = is.length + others.length := by intro ρ; simp [P, pick]
  have hcomb : ∀ ρ, ∀ w, combine (P ρ) = ok w ↔ w = recover (P ρ) s.length := by
    intro ρ w
    have hh : ((P ρ).headD []).length = s.length + 1 := hlen ρ _ (headD_mem (by rw [hPl]; exact h2))
    have hpos := List.length_pos_iff.2 v4
    rw [combine_ok_iff, hh]
    constructor
    · rintro ⟨-, h⟩; exact h
    · intro h
      exact ⟨⟨by rw [hPl]; exact h2, by omega, hlen ρ, by rw [htags]; exact htn⟩, h⟩
  have hcount : ∀ w, Nat.card {ρ : Fin m → Byte // combine (pick is (L.shares s xs ρ) ++ others) = ok w}
      = Nat.card {ρ // recover (P ρ) s.length = w} := fun w =>
    Nat.card_congr (Equiv.subtypeEquivRight fun ρ => ((hcomb ρ w).trans eq_comm))
  -- fibres over equally long values are equally large
  let f : (Fin m → Byte) → (Fin s.length → Byte) := fun ρ j => (recover (P ρ) s.length).getD j 0
  have hfib : ∀ b, Nat.card {ρ // recover (P ρ) s.length = List.ofFn b} = Nat.card {ρ // f ρ = b} := by
    intro b
    refine Nat.card_congr (Equiv.subtypeEquivRight fun ρ => ?_)
    have hl : (recover (P ρ) s.length).length = s.length := by simp [recover]
    constructor
    · intro h
      funext j
      simp [f, h, List.getD_eq_getElem?_getD]
    · rintro rfl
      apply List.ext_getElem
      · simp [hl]
      · intro i h1 h2
        simp [f, List.getD_eq_getElem?_getD, h1]
  have hconst : ∀ b b', Nat.card {ρ // f ρ = b'} = Nat.card {ρ // f ρ = b} := by
    intro b b'
    let d : Nat → Byte := fun j => if h : j < s.length then b ⟨j, h⟩ ^^^ b' ⟨j, h⟩ else 0
    let all := (is.map fun i => xs.getD i 0) ++ others.map tag
    let x0 := xs.getD is[0] 0
    obtain ⟨e, he⟩ := L.exists_equiv (s := s) (s' := s) rfl rfl xs h0 is.toFinset
      (by rw [List.toFinset_card_of_nodup hn]; omega)
      (fun p x => if x = x0 then ((⟨d p⟩ : GF) / weight all 0).val else 0)
    refine (Nat.card_congr (e.subtypeEquiv fun ρ => ?_)).symm
    have hsh : recover (P (e ρ)) s.length
        = (List.range s.length).map fun j => (recover (P ρ) s.length).getD j 0 ^^^ d j := by
      refine recover_shift_one (k := 0) d (by rw [htags]; exact htn) (by rw [hPl]; omega) ?_ (by rw [htags, htags]) ?_
      · intro i hi _
        rw [htags, getD_getElem (by simp only [List.length_append, List.length_map]; rw [← hPl ρ]; exact hi)]
        exact htz _ (List.getElem_mem _)
      · intro i hi hi' j hj
        rw [htags]
        simp only [hP]
        rcases Nat.lt_or_ge i is.length with hil | hil
        · have hmem : is[i] ∈ is := List.getElem_mem _
          have hx := hix _ hmem
          have := he ρ is[i] (by simp) hx j hj
          rw [List.getElem_append_left (by simpa using hil), List.getElem_append_left (by simpa using hil)]
          simp only [List.getElem_map]
          rw [getD_getElem hx]
          refine this.trans ?_
          congr 1
          have hiff : xs[is[i]] = x0 ↔ i = 0 := by
            have hx' := hix is[0] (List.getElem_mem _)
            simp only [x0]
            rw [getD_getElem hx']
            constructor
            · intro e'
              by_contra hne
              refine nodup_ne hnd hx hx' (fun e'' => hne ((List.Nodup.getElem_inj_iff hn).1 e'')) ?_
              rw [getD_getElem hx, getD_getElem hx']
              exact e'
            · intro e'
              subst e'
              rfl
          simp only [hiff]
          rfl
        · rw [List.getElem_append_right (by simpa using hil), List.getElem_append_right (by simpa using hil),
            if_neg (by omega)]
          simp
    have hval : ∀ j, f (e ρ) j = f ρ j ^^^ (b j ^^^ b' j) := by
      intro j
      simp only [f, hsh]
      simp [List.getD_eq_getElem?_getD, d]
    constructor
    · intro h
      funext j
      rw [hval, h, ← BitVec.xor_assoc, BitVec.xor_self, BitVec.zero_xor]
    · intro h
      funext j
      have := hval j
      rw [h] at this
      generalize f ρ j = y at *
      generalize b j = y1 at *
      generalize b' j = y2 at *
      have h3 : y ^^^ (y1 ^^^ y2) ^^^ y2 = y2 ^^^ y2 := by rw [← this]
      rw [BitVec.xor_self, BitVec.xor_assoc, BitVec.xor_assoc, BitVec.xor_self, BitVec.xor_zero] at h3
      exact BitVec.xor_eq_zero_iff.1 h3
  have hwb : List.ofFn (fun j : Fin s.length => w.getD j 0) = w := by
    apply List.ext_getElem
    · simp [hw]
    · intro i h1 h2
      simp [List.getD_eq_getElem?_getD, h2]
  have := card_of_fibres f (fun j => w.getD j 0) (fun b' => hconst _ b')
  rw [hcount, ← hwb, hfib]
  have hB : ∀ n, Nat.card (Fin n → Byte) = 256 ^ n := by
    intro n
    rw [Nat.card_pi]
    simp [Nat.card_congr byteEquiv]
  rw [← hB s.length, ← hB m, ← this]

theorem positions_lt {perm : List Nat} (hperm : perm.Perm (List.range 255)) {parts : Int} (v2 : parts ≤ 255) {is : List Nat}
    (hp : ∀ i ∈ is, (i : Int) < parts) :
    ∀ i ∈ is, i < ((perm.take parts.toNat).map fun v => BitVec.ofNat 8 v + 1#8).length := by
  intro i hi
  have hpl := (permBytes_nodup hperm).2.1
  have := hp i hi
  simp only [List.length_map, List.length_take]
  omega

theorem positions_tag {perm : List Nat} (hperm : perm.Perm (List.range 255)) {parts : Int} (v2 : parts ≤ 255) {i : Nat}
    (hp : (i : Int) < parts) :
    ((perm.take parts.toNat).map fun v => BitVec.ofNat 8 v + 1#8).getD i 0 = BitVec.ofNat 8 (perm.getD i 0) + 1#8 := by
  have hpl := (permBytes_nodup hperm).2.1
  have h : i < perm.length := by omega
  have h' : i < parts.toNat := by omega
  simp [List.getD_eq_getElem?_getD, List.getElem?_take_of_lt h', h]

/-- C78: fewer than `threshold` shares of a sharing (at least one), combined together with any other shares: shares of other
sharings or forged ones, of the same length, with tags that differ from each other and from those of the first and are not 0.
Combine succeeds, and every value is returned for exactly one in 256^len(secret) of the fillings, whatever the secret and the
other shares: the result says nothing about the secret and is the secret by chance only. -/
theorem C78_mixed_uniform (arch : Arch) (s : List Byte) (parts threshold : Int)
    (hv : ValidArgs s parts threshold) (perm : List Nat) (hperm : perm.Perm (List.range 255)) (ps : Pools)
    (is : List Nat) (hn : is.Nodup) (h1 : 1 ≤ is.length) (hlt : (is.length : Int) < threshold)
    (hp : ∀ i ∈ is, (i : Int) < parts) (others : List (List Byte)) (ho : ∀ o ∈ others, o.length = s.length + 1)
    (hon : (others.map tag).Nodup) (hoz : ∀ o ∈ others, tag o ≠ 0)
    (hod : ∀ o ∈ others, ∀ i ∈ is, tag o ≠ BitVec.ofNat 8 (perm.getD i 0) + 1#8) (h2 : 2 ≤ is.length + others.length)
    (w : List Byte) (hw : w.length = s.length) :
    256 ^ s.length * count (m := threshold.toNat * s.length) (fun ρ => ∃ shares ps',
        split arch s parts threshold perm (stream ρ) ps = ok (shares, ps') ∧ combine (pick is shares ++ others) = ok w)
      = 256 ^ (threshold.toNat * s.length) := by
  have ⟨v1, v2, v3, v4⟩ := hv
  have hpl := (permBytes_nodup hperm).2.1
  obtain ⟨hnd, h0⟩ := splitTags_facts hperm parts.toNat
  rw [← layout_mixed (layoutSplit threshold.toNat s.length) v4 _ hnd h0 is hn h1 (by omega) (positions_lt hperm v2 hp) others ho
    hon hoz (fun o ho i hi => by rw [positions_tag hperm v2 (hp i hi)]; exact hod o ho i hi) h2 w hw]
  congr 1
  refine Nat.card_congr (Equiv.subtypeEquivRight fun ρ => ?_)
  obtain ⟨p1, e1⟩ := split_layout arch (stream ρ) ps hv hperm
  constructor
  · rintro ⟨sh, p, h, hc⟩
    rw [e1] at h
    cases h
    exact hc
  · intro h
    exact ⟨_, _, e1, h⟩

/-- C78 for SplitGeneric. -/
theorem C78_splitGeneric_mixed_uniform (s : List Byte) (parts threshold : Int)
    (hv : ValidArgs s parts threshold) (perm : List Nat) (hperm : perm.Perm (List.range 255))
    (is : List Nat) (hn : is.Nodup) (h1 : 1 ≤ is.length) (hlt : (is.length : Int) < threshold)
    (hp : ∀ i ∈ is, (i : Int) < parts) (others : List (List Byte)) (ho : ∀ o ∈ others, o.length = s.length + 1)
    (hon : (others.map tag).Nodup) (hoz : ∀ o ∈ others, tag o ≠ 0)
    (hod : ∀ o ∈ others, ∀ i ∈ is, tag o ≠ BitVec.ofNat 8 (perm.getD i 0) + 1#8) (h2 : 2 ≤ is.length + others.length)
    (w : List Byte) (hw : w.length = s.length) :
    256 ^ s.length * count (m := (threshold.toNat - 1) * s.length) (fun ρ => ∃ shares,
        splitGeneric s parts threshold perm (stream ρ) = ok shares ∧ combine (pick is shares ++ others) = ok w)
      = 256 ^ ((threshold.toNat - 1) * s.length) := by
  have ⟨v1, v2, v3, v4⟩ := hv
  have hpl := (permBytes_nodup hperm).2.1
  obtain ⟨hnd, h0⟩ := splitTags_facts hperm parts.toNat
  rw [← layout_mixed (layoutGeneric threshold.toNat s.length) v4 _ hnd h0 is hn h1 (by omega) (positions_lt hperm v2 hp) others ho
    hon hoz (fun o ho i hi => by rw [positions_tag hperm v2 (hp i hi)]; exact hod o ho i hi) h2 w hw]
  congr 1
  refine Nat.card_congr (Equiv.subtypeEquivRight fun ρ => ?_)
  rw [splitGeneric_layout (stream ρ) hv hperm]
  constructor
  · rintro ⟨sh, h, hc⟩
    cases h
    exact hc
  · intro h
    exact ⟨_, rfl, h⟩

/-- C78: Split, then Regenerate on fewer than `threshold` of the shares, then Combine on (at least as many) of the shares it
was given and returned: every value is returned for exactly one in 256^len(secret) of the fillings, whatever the secret.
(`rnd'` are the random bytes of Regenerate, with which it returns: they differ from each other and the tags it was given.) -/
theorem C78_regenerate_too_few_uniform (arch : Arch) (s : List Byte) (parts threshold : Int)
    (hv : ValidArgs s parts threshold) (perm : List Nat) (hperm : perm.Perm (List.range 255)) (ps : Pools)
    (is : List Nat) (hn : is.Nodup) (h2 : 2 ≤ is.length) (hlt : (is.length : Int) < threshold)
    (hp : ∀ i ∈ is, (i : Int) < parts) (fuel : Nat) (n : Int) (hn0 : 0 ≤ n) (rnd' u : Nat → Byte)
    (hr : ((List.range n.toNat).map rnd').Nodup)
    (hrd : ∀ k < n.toNat, ∀ i ∈ is, rnd' k ≠ BitVec.ofNat 8 (perm.getD i 0) + 1#8)
    (js : List Nat) (hj : js.Nodup) (hjp : ∀ j ∈ js, j < is.length + n.toNat) (hjl : is.length ≤ js.length)
    (w : List Byte) (hw : w.length = s.length) :
    256 ^ s.length * count (m := threshold.toNat * s.length) (fun ρ => ∃ shares ps' new,
        split arch s parts threshold perm (stream ρ) ps = ok (shares, ps') ∧
        regenerate (fuel + 1) (pick is shares) n rnd' u = ok new ∧ combine (pick js (pick is shares ++ new)) = ok w)
      = 256 ^ (threshold.toNat * s.length) := by
  rw [← C18_combine_too_few_uniform arch s parts threshold hv perm hperm ps is hn h2 hlt hp w hw]
  congr 1
  refine Nat.card_congr (Equiv.subtypeEquivRight fun ρ => exists_congr fun shares => exists_congr fun ps' => ?_)
  rw [exists_and_left]
  refine and_congr_right fun hs => ?_
  obtain ⟨-, hsh, hl, htag, -⟩ := split_ok arch hperm hs
  have ⟨v1, v2, v3, v4⟩ := hv
  have hil : ∀ i ∈ is, i < shares.length := fun i hi => by have := hp i hi; omega
  obtain ⟨v, hc, -⟩ := C18_combine_too_few_ok arch s parts threshold perm hperm (stream ρ) ps ps' shares hs is hn h2 hp
  have hreg : Regenerable (pick is shares) := by
    obtain ⟨h, -⟩ := combine_ok_iff.1 hc
    exact regenerable_iff.2 h
  have htags : ∀ i ∈ is, tag (shares.getD i []) = BitVec.ofNat 8 (perm.getD i 0) + 1#8 := by
    intro i hi
    have h := congrArg (fun l : List Byte => l[i]?) htag
    have hi' := hil i hi
    have hpl := (permBytes_nodup hperm).2.1
    have h3 : i < perm.length := by omega
    have h4 : i < parts.toNat := by omega
    simp only [List.getElem?_map, List.getElem?_eq_getElem hi', List.getElem?_take_of_lt h4, List.getElem?_eq_getElem h3,
      Option.map_some, Option.some.injEq] at h
    rw [List.getD_eq_getElem?_getD, List.getElem?_eq_getElem hi', Option.getD_some, h, List.getD_eq_getElem?_getD,
      List.getElem?_eq_getElem h3, Option.getD_some]
  have hfresh : ∀ k < n.toNat, rnd' k ∉ (pick is shares).map tag := by
    intro k hk hm
    obtain ⟨p, hp', e⟩ := List.mem_map.1 hm
    obtain ⟨i, hi, rfl⟩ := List.mem_map.1 hp'
    exact hrd k hk i hi (by rw [← e, htags i hi])
  obtain ⟨new, hnew⟩ := C24_returns_fresh (pick is shares) hreg n hn0 rnd' u hr hfresh fuel
  have hnt := C23_tags_are_raw_random_bytes _ _ _ _ _ _ hnew
  have hnl : new.length = n.toNat := by simpa using congrArg List.length hnt
  have hall : ((pick is shares ++ new).map tag).Nodup := by
    rw [List.map_append, hnt]
    refine List.nodup_append.2 ⟨(regenerable_iff.1 hreg).2.2.2, hr, ?_⟩
    rintro a ha b hb rfl
    obtain ⟨k, hk, rfl⟩ := List.mem_map.1 hb
    exact hfresh k (by simpa using hk) ha
  have hjl' : ∀ j ∈ js, j < (pick is shares ++ new).length := by
    intro j hj'
    have := hjp j hj'
    simp only [List.length_append, pick, List.length_map, hnl]
    exact this
  have hmix : pick js (pick is shares ++ new) ⊆ pick is shares ++ new := by
    intro p hp'
    obtain ⟨j, hj', rfl⟩ := List.mem_map.1 hp'
    rw [List.getD_eq_getElem?_getD, List.getElem?_eq_getElem (hjl' j hj')]
    exact List.getElem_mem _
  have hmn : ((pick js (pick is shares ++ new)).map tag).Nodup := by
    generalize pick is shares ++ new = l at hall hjl'
    unfold pick
    rw [List.map_map]
    refine (List.nodup_map_iff_inj_on hj).2 fun i hi j hj' e => ?_
    have hi' := hjl' i hi
    have hj'' := hjl' j hj'
    simp only [Function.comp_apply, List.getD_eq_getElem?_getD, List.getElem?_eq_getElem hi', List.getElem?_eq_getElem hj'',
      Option.getD_some] at e
    have hi2 : i < (l.map tag).length := by simpa using hi'
    have hj2 : j < (l.map tag).length := by simpa using hj''
    exact (List.Nodup.getElem_inj_iff hall (hi := hi2) (hj := hj2)).1 (by simpa using e)
  obtain ⟨v', hv1, hv2⟩ := C78_regenerate_consistent (fuel + 1) _ new n rnd' u hnew _ hmix hmn (by simpa [pick] using hjl)
  constructor
  · rintro ⟨new', h1, h2⟩
    rw [hnew] at h1
    cases h1
    rw [hv2] at h2
    cases h2
    exact hv1
  · intro h
    rw [hv1] at h
    cases h
    exact ⟨new, hnew, hv2⟩

/-! ## Non-vacuity -/

/-- C22_chain: a new share made from a new and an old one. -/
example : Obtained 2 [[4, 1], [1, 2]] [7, 0] := by
  refine .renewed 1 [[2, 3], [4, 1]] [[7, 0]] 1 (fun _ => 0) (fun _ => 0) _ ?_ (by decide) (by decide +kernel) (by simp)
  intro p hp
  simp only [List.mem_cons, List.not_mem_nil, or_false] at hp
  rcases hp with rfl | rfl
  · refine .renewed 1 [[4, 1], [1, 2]] [[7, 0], [2, 3]] 2 (fun i => [0, 3].getD i 0) (fun _ => 0) _ (fun p hp => .original p hp)
      (by decide) ex_regen (by simp)
  · exact .original _ (by simp)

/-- C78_regenerate_consistent: two shares, two new ones, and one of each combined. -/
example : ∃ w, combine [[4, 1], [1, 2]] = ok w ∧ combine [[2, 3], [4, 1]] = ok w :=
  C78_regenerate_consistent 1 _ _ 2 _ _ ex_regen _ (by decide) (by decide) (by decide)

/-- C78_mixed_uniform: one share of a 3-of-5 sharing and two forged ones. -/
example (arch : Arch) : 256 ^ 2 * count (m := 3 * 2) (fun ρ => ∃ shares ps',
      split arch [5, 9] 5 3 (List.range 255) (stream ρ) (Pools.init 1) = ok (shares, ps') ∧
      combine (pick [4] shares ++ [[1, 2, 7], [3, 4, 9]]) = ok [5, 9]) = 256 ^ 6 :=
  C78_mixed_uniform arch [5, 9] 5 3 (by decide) (List.range 255) (List.Perm.refl _) (Pools.init 1) [4] (by decide) (by decide)
    (by decide) (by decide) [[1, 2, 7], [3, 4, 9]] (by decide) (by decide) (by decide) (by decide) (by decide) _ rfl

/-- C78_regenerate_too_few_uniform: two new shares from two shares of a 3-of-5 sharing. -/
example (arch : Arch) : 256 ^ 2 * count (m := 3 * 2) (fun ρ => ∃ shares ps' new,
      split arch [5, 9] 5 3 (List.range 255) (stream ρ) (Pools.init 1) = ok (shares, ps') ∧
      regenerate 1 (pick [0, 1] shares) 2 (fun k => BitVec.ofNat 8 (200 + k)) (fun _ => 0) = ok new ∧
      combine (pick [2, 3] (pick [0, 1] shares ++ new)) = ok [5, 9]) = 256 ^ 6 :=
  C78_regenerate_too_few_uniform arch [5, 9] 5 3 (by decide) (List.range 255) (List.Perm.refl _) (Pools.init 1) [0, 1] (by decide)
    (by decide) (by decide) (by decide) 0 2 (by decide) _ _ (by decide) (by decide) [2, 3] (by decide) (by decide) (by decide) _ rfl

end Verif.Props
