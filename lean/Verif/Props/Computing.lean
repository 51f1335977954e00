import Verif.Spec.Computing
import Verif.Props.Combine
import Verif.Proofs.SecrecySplit

/-! # C84: computing on shares

Package galois exports its arithmetic; a client can apply it to the payloads of shares. -/

namespace Verif.Props
open Verif Outcome Galois Spec Proofs Shamir Pool Csprng Polynomial

/-- Combine evaluates at 0 any polynomials of small degree through the shares. -/
theorem combine_of_poly {q : List (List Byte)} {N : Nat} (h2 : 2 ≤ q.length) (hN : 1 ≤ N) (hlen : ∀ x ∈ q, x.length = N + 1)
    (hn : (tags q).Nodup) (f : Nat → GF[X]) (hd : ∀ j < N, (f j).degree < q.length)
    (hf : ∀ j < N, ∀ x ∈ q, (f j).eval ⟨tag x⟩ = ⟨x.getD j 0⟩) :
    combine q = ok ((List.range N).map fun j => ((f j).eval 0).val) := by
  rw [combine_ok h2 hN hlen hn, recover_of_poly hn f hd hf]

theorem tag_append (v : List Byte) (x : Byte) : tag (v ++ [x]) = x := by
  simp [tag, List.getD_eq_getElem?_getD]

theorem payload_getD {v : List Byte} {x : Byte} {j : Nat} (h : j < v.length) : (v ++ [x]).getD j 0 = v.getD j 0 := by
  rw [List.getD_eq_getElem?_getD, List.getElem?_append_left h, ← List.getD_eq_getElem?_getD]

theorem dropLast_getD {v : List Byte} {j : Nat} (h : j < v.length - 1) : v.dropLast.getD j 0 = v.getD j 0 := by
  rw [List.getD_eq_getElem?_getD, List.getElem?_dropLast, if_pos h, ← List.getD_eq_getElem?_getD]

/-- What `Forall₂` gives for Combine: shares changed one by one, keeping tags and lengths. -/
theorem combine_changed {p q : List (List Byte)} {s : List Byte} (hp : combine p = ok s) {R : List Byte → List Byte → Prop}
    (hpq : List.Forall₂ R p q) (hR : ∀ a b, a.length = s.length + 1 → R a b → b.length = s.length + 1 ∧ tag b = tag a)
    (F : Nat → GF[X]) (hd : ∀ j < s.length, (F j).degree < p.length)
    (hF : ∀ a b, a ∈ p → a.length = s.length + 1 → R a b → ∀ j < s.length, (F j).eval ⟨tag a⟩ = ⟨b.getD j 0⟩) :
    combine q = ok ((List.range s.length).map fun j => ((F j).eval 0).val) := by
  obtain ⟨⟨h1, h2, h3, h4⟩, es⟩ := combine_ok_iff.1 hp
  have hs : s.length + 1 = (p.headD []).length := by
    have := congrArg List.length es
    simp only [recover, List.length_map, List.length_range] at this
    omega
  have hl : p.length = q.length := hpq.length_eq
  have hrel : ∀ b ∈ q, ∃ a ∈ p, R a b := by
    intro b hb
    obtain ⟨i, hi, rfl⟩ := List.getElem_of_mem hb
    exact ⟨p[i], List.getElem_mem _, hpq.get (by omega) hi⟩
  have htags : tags q = tags p := by
    unfold tags
    apply List.ext_getElem (by simp [hl])
    intro i h1 h2
    simp only [List.getElem_map]
    simp only [List.length_map] at h1 h2
    exact (hR _ _ (by rw [hs]; exact h3 _ (List.getElem_mem _)) (hpq.get h2 h1)).2
  refine combine_of_poly (by omega) (by omega) ?_ (by rw [htags]; exact h4) F (by rw [← hl]; exact hd) ?_
  · intro b hb
    obtain ⟨a, ha, hab⟩ := hrel b hb
    exact (hR a b (by rw [hs]; exact h3 a ha) hab).1
  · intro j hj b hb
    obtain ⟨a, ha, hab⟩ := hrel b hb
    have hal : a.length = s.length + 1 := by rw [hs]; exact h3 a ha
    rw [(hR a b hal hab).2]
    exact hF a b ha hal hab j hj

theorem combine_interp {p : List (List Byte)} {s : List Byte} (hp : combine p = ok s) {j : Nat} (hj : j < s.length) :
    ((interp p j).eval 0) = ⟨s.getD j 0⟩ ∧ (interp p j).degree < p.length ∧ ∀ a ∈ p, (interp p j).eval ⟨tag a⟩ = ⟨a.getD j 0⟩ := by
  obtain ⟨⟨h1, h2, h3, h4⟩, es⟩ := combine_ok_iff.1 hp
  refine ⟨?_, interp_degree h4 j, fun a ha => interp_eval h4 j ha⟩
  rw [recover_interp h4] at es
  have e : s.getD j 0 = ((interp p j).eval 0).val := by
    rw [es] at hj ⊢
    simp only [List.length_map, List.length_range] at hj
    rw [List.getD_eq_getElem?_getD, List.getElem?_map, List.getElem?_range hj]
    rfl
  rw [e]

/-- C84: MulConstVector on the payloads multiplies the secret. -/
theorem C84_scale (arch : Arch) (c : Byte) (p q : List (List Byte)) (s : List Byte) (hp : combine p = ok s)
    (hpq : List.Forall₂ (fun a b => ∃ v, mulConstVector arch c a.dropLast = ok v ∧ b = v ++ [tag a]) p q) :
    ∃ r, mulConstVector arch c s = ok r ∧ combine q = ok r := by
  refine ⟨_, mulConstVector_eq arch c s, ?_⟩
  rw [combine_changed hp hpq ?_ (fun j => C ⟨c⟩ * interp p j) ?_ ?_]
  · congr 1
    apply List.ext_getElem (by simp)
    intro j h1 h2
    have hj : j < s.length := by simpa using h1
    simp only [List.getElem_map, List.getElem_range, eval_mul, eval_C, (combine_interp hp hj).1]
    rw [getD_getElem hj]
    rfl
  · rintro a b ha ⟨v, hv, rfl⟩
    rw [mulConstVector_eq] at hv
    cases hv
    exact ⟨by simp [ha], tag_append _ _⟩
  · intro j hj
    exact lt_of_le_of_lt (by rw [← smul_eq_C_mul]; exact degree_smul_le _ _) (combine_interp hp hj).2.1
  · rintro a b hm ha ⟨v, hv, rfl⟩ j hj
    rw [mulConstVector_eq] at hv
    cases hv
    rw [eval_mul, eval_C, (combine_interp hp hj).2.2 a hm, payload_getD (by simp [ha, hj])]
    have e : (a.dropLast.map (mulSpec c)).getD j 0 = mulSpec c (a.getD j 0) := by
      rw [← dropLast_getD (by omega : j < a.length - 1), getD_getElem (by simp [ha, hj]), getD_getElem (by simp [ha, hj])]
      simp
    rw [e]
    rfl

/-- C84: adding the same vector to all payloads with AddVector adds it to the secret. -/
theorem C84_add_public (arch : Arch) (u : List Byte) (p q : List (List Byte)) (s : List Byte) (hp : combine p = ok s)
    (hu : u.length = s.length)
    (hpq : List.Forall₂ (fun a b => ∃ v, addVector arch u a.dropLast = ok v ∧ b = v ++ [tag a]) p q) :
    ∃ r, addVector arch u s = ok r ∧ combine q = ok r := by
  refine ⟨_, addVector_eq arch hu, ?_⟩
  have hp2 : 2 ≤ p.length := (combine_ok_iff.1 hp).1.1
  have hx : ∀ {a b : List Byte} {j : Nat}, a.length = b.length → j < a.length → (xorBytes a b).getD j 0 = a.getD j 0 ^^^ b.getD j 0 := by
    intro a b j h hj
    rw [getD_getElem (by simp [xorBytes]; omega), getD_getElem hj, getD_getElem (by omega)]
    simp [xorBytes]
  rw [combine_changed hp hpq ?_ (fun j => C ⟨u.getD j 0⟩ + interp p j) ?_ ?_]
  · congr 1
    apply List.ext_getElem (by simp [xorBytes, hu])
    intro j h1 h2
    have hj : j < s.length := by simpa using h1
    have := hx hu (j := j) (by omega)
    rw [getD_getElem h2] at this
    simp only [List.getElem_map, List.getElem_range, eval_add, eval_C, (combine_interp hp hj).1]
    rw [this]
    rfl
  · rintro a b ha ⟨v, hv, rfl⟩
    rw [addVector_eq arch (by simp [ha, hu])] at hv
    cases hv
    exact ⟨by simp [xorBytes, ha, hu], tag_append _ _⟩
  · intro j hj
    refine lt_of_le_of_lt (degree_add_le _ _) (max_lt ?_ (combine_interp hp hj).2.1)
    exact lt_of_le_of_lt degree_C_le (by exact_mod_cast (by omega : 0 < p.length))
  · rintro a b hm ha ⟨v, hv, rfl⟩ j hj
    rw [addVector_eq arch (by simp [ha, hu])] at hv
    cases hv
    rw [eval_add, eval_C, (combine_interp hp hj).2.2 a hm, payload_getD (by simp [xorBytes, ha, hu, hj]),
      hx (by simp [ha, hu]) (by omega), dropLast_getD (by omega)]
    rfl

/-! ## Products -/

/-- Combine on products of shares: any polynomials of small degree with the values of the products. -/
theorem combine_products {N : Nat} (hN : 1 ≤ N) {f g : Nat → GF[X]} {p q : List (List Byte)} (hp : ∀ a ∈ p, IsShareOf f N a)
    (hq : ∀ b ∈ q, IsShareOf g N b) (htags : p.map tag = q.map tag) (hn : (p.map tag).Nodup) (h2 : 2 ≤ p.length)
    (H : Nat → GF[X]) (hd : ∀ j < N, (H j).degree < p.length)
    (hH : ∀ j < N, ∀ a ∈ p, (H j).eval ⟨tag a⟩ = (f j).eval ⟨tag a⟩ * (g j).eval ⟨tag a⟩) :
    combine (List.zipWith mulShares p q) = ok ((List.range N).map fun j => ((H j).eval 0).val) := by
  have hl : p.length = q.length := by simpa using congrArg List.length htags
  have hz : (List.zipWith mulShares p q).length = p.length := by simp [hl]
  have hm : ∀ x ∈ List.zipWith mulShares p q, ∃ a ∈ p, ∃ b ∈ q, tag b = tag a ∧ x = mulShares a b := by
    intro x hx
    obtain ⟨i, hi, rfl⟩ := List.getElem_of_mem hx
    rw [hz] at hi
    refine ⟨p[i], List.getElem_mem _, q[i]'(by omega), List.getElem_mem _, ?_, by rw [List.getElem_zipWith]⟩
    have := congrArg (fun l => l[i]?) htags
    simp only [List.getElem?_map, List.getElem?_eq_getElem hi, List.getElem?_eq_getElem (show i < q.length by omega),
      Option.map_some, Option.some.injEq] at this
    exact this.symm
  have ht : tags (List.zipWith mulShares p q) = p.map tag := by
    unfold tags
    apply List.ext_getElem (by simp [hl])
    intro i h1 h2
    simp only [List.getElem_map, List.getElem_zipWith]
    exact tag_append _ _
  refine combine_of_poly (by omega) hN ?_ (by rw [ht]; exact hn) H (by rw [hz]; exact hd) ?_
  · intro x hx
    obtain ⟨a, ha, b, hb, -, rfl⟩ := hm x hx
    simp [mulShares, (hp a ha).1, (hq b hb).1]
  · intro j hj x hx
    obtain ⟨a, ha, b, hb, e, rfl⟩ := hm x hx
    have et : tag (mulShares a b) = tag a := tag_append _ _
    have la := (hp a ha).1
    have lb := (hq b hb).1
    have e2 : (⟨b.getD j 0⟩ : GF) = (g j).eval ⟨tag a⟩ := by rw [← e]; exact (hq b hb).2 j hj
    rw [et, hH j hj a ha, ← (hp a ha).2 j hj, ← e2]
    have e3 : (mulShares a b).getD j 0 = mulSpec (a.getD j 0) (b.getD j 0) := by
      unfold mulShares
      rw [payload_getD (by simp [la, lb, hj]), getD_getElem (by simp [la, lb, hj]), List.getElem_zipWith, galMultiply_eq,
        ← dropLast_getD (by omega : j < a.length - 1), ← dropLast_getD (by omega : j < b.length - 1),
        getD_getElem (by simp [la, hj]), getD_getElem (by simp [lb, hj])]
    rw [e3]
    rfl

theorem degree_mul_small {f g : GF[X]} {t t' : Nat} (hf : f.degree < t) (hg : g.degree < t') :
    (f * g).degree < ((t + t' - 1 : Nat) : WithBot Nat) := by
  by_cases h : f = 0 ∨ g = 0
  · have : f * g = 0 := mul_eq_zero.2 h
    rw [this, degree_zero]
    exact WithBot.bot_lt_coe _
  · obtain ⟨h1, h2⟩ := not_or.1 h
    rw [degree_eq_natDegree h1] at hf
    rw [degree_eq_natDegree h2] at hg
    rw [degree_mul, degree_eq_natDegree h1, degree_eq_natDegree h2]
    norm_cast at hf hg ⊢
    omega

theorem products_at_zero {s s' : List Byte} {N : Nat} (hs : s.length = N) (hs' : s'.length = N) :
    ((List.range N).map fun j => ((⟨s.getD j 0⟩ : GF) * ⟨s'.getD j 0⟩).val) = List.zipWith galMultiply s s' := by
  apply List.ext_getElem (by simp [hs, hs'])
  intro j h1 h2
  have hj : j < N := by simpa using h1
  simp only [List.getElem_map, List.getElem_range, List.getElem_zipWith]
  rw [galMultiply_eq, getD_getElem (by omega), getD_getElem (by omega)]
  rfl

/-- C84: the products, byte by byte, of shares of two sharings with the same tags are shares of the products of the secrets, of which
`t + t' - 1` are needed. -/
theorem C84_product (s s' : List Byte) (hl : s.length = s'.length) (hs : s ≠ []) (t t' : Nat) (ht : 2 ≤ t) (ht' : 2 ≤ t')
    (out out' : List (List Byte)) (h : IsSharing s t out) (h' : IsSharing s' t' out') (p q : List (List Byte)) (hp : p ⊆ out)
    (hq : q ⊆ out') (htags : p.map tag = q.map tag) (hn : (p.map tag).Nodup) (hlen : t + t' - 1 ≤ p.length) :
    combine (List.zipWith mulShares p q) = ok (List.zipWith galMultiply s s') := by
  obtain ⟨-, f, hf, hf'⟩ := h
  obtain ⟨-, g, hg, hg'⟩ := h'
  rw [← hl] at hg'
  rw [combine_products (List.length_pos_iff.2 hs) (fun a ha => hf' a (hp ha)) (fun b hb => hg' b (hq hb)) htags hn (by omega)
    (fun j => f j * g j) ?_ (fun j _ a _ => eval_mul)]
  · rw [← products_at_zero rfl hl.symm]
    congr 1
    apply List.map_congr_left
    intro j hj
    have hj := List.mem_range.1 hj
    rw [eval_mul, (hf j hj).2, (hg j (by omega)).2]
  · intro j hj
    refine lt_of_lt_of_le (degree_mul_small (hf j hj).1 (hg j (by omega)).1) ?_
    exact_mod_cast hlen

/-- The polynomial for byte `j` of secret `s` with coefficients `c j k`. -/
noncomputable def cPoly (s : List Byte) (t : Nat) (c : Nat → Nat → Byte) (j : Nat) : GF[X] :=
  ∑ k ∈ Finset.range t, C ⟨if k = 0 then s.getD j 0 else c j k⟩ * X ^ k

theorem coeff_cPoly (s : List Byte) (t : Nat) (c : Nat → Nat → Byte) (j m : Nat) :
    (cPoly s t c j).coeff m = if m < t then ⟨if m = 0 then s.getD j 0 else c j m⟩ else 0 := by
  unfold cPoly
  rw [finset_sum_coeff]
  simp only [coeff_C_mul_X_pow]
  rw [Finset.sum_ite_eq]
  simp

theorem coeff_cPoly_top (s : List Byte) {t : Nat} (ht : 2 ≤ t) (c : Nat → Nat → Byte) (j : Nat) :
    (cPoly s t c j).coeff (t - 1) = ⟨c j (t - 1)⟩ := by
  have h1 : t - 1 < t := by omega
  have h2 : ¬ t - 1 = 0 := by omega
  rw [coeff_cPoly, if_pos h1, if_neg h2]

theorem degree_cPoly (s : List Byte) (t : Nat) (c : Nat → Nat → Byte) (j : Nat) : (cPoly s t c j).degree < t := by
  rw [degree_lt_iff_coeff_zero]
  intro m hm
  rw [coeff_cPoly, if_neg (by omega)]

theorem cShare_onPoly (s : List Byte) {t : Nat} (ht : 0 < t) (c : Nat → Nat → Byte) (x : Byte) :
    IsShareOf (cPoly s t c) s.length (cShare s t c x) := by
  refine ⟨length_cShare .., fun j hj => ?_⟩
  rw [tag_cShare, cShare_getD _ _ _ _ hj]
  unfold cPoly
  rw [eval_finsetSum, Finset.range_eq_Ico, Finset.sum_eq_sum_Ico_succ_bot ht]
  simp only [eval_mul, eval_C, eval_pow, eval_X, pow_zero, mul_one, if_true]
  have : ∑ k ∈ Finset.Ico (0 + 1) t, (⟨if k = 0 then s.getD j 0 else c j k⟩ : GF) * ⟨x⟩ ^ k
      = ∑ k ∈ Finset.Ico 1 t, (⟨c j k⟩ : GF) * ⟨x⟩ ^ k := by
    refine Finset.sum_congr rfl fun k hk => ?_
    have := (Finset.mem_Ico.1 hk).1
    rw [if_neg (by omega)]
  rw [this]
  rfl

theorem eval_zero_cPoly (s : List Byte) {t : Nat} (ht : 0 < t) (c : Nat → Nat → Byte) (j : Nat) : (cPoly s t c j).eval 0 = ⟨s.getD j 0⟩ := by
  rw [← coeff_zero_eq_eval_zero, coeff_cPoly, if_pos ht, if_pos rfl]

/-- C84: one share less than that gives the product of the secrets only where one of the last coefficients is 0: two runs of Split, with
random bytes `rnd` and `rnd'`. -/
theorem C84_product_short (arch arch' : Arch) (s s' : List Byte) (hl : s.length = s'.length) (parts parts' t t' : Int)
    (perm perm' : List Nat) (hperm : perm.Perm (List.range 255)) (hperm' : perm'.Perm (List.range 255)) (rnd rnd' : Nat → Byte)
    (ps ps' qs qs' : Pools) (out out' : List (List Byte)) (h : split arch s parts t perm rnd ps = ok (out, qs))
    (h' : split arch' s' parts' t' perm' rnd' ps' = ok (out', qs')) (p q : List (List Byte)) (hp : p ⊆ out) (hq : q ⊆ out')
    (htags : p.map tag = q.map tag) (hn : (p.map tag).Nodup) (hlen : p.length = t.toNat + t'.toNat - 2) :
    (∃ r, combine (List.zipWith mulShares p q) = ok r ∧ r.length = s.length) ∧
    (combine (List.zipWith mulShares p q) = ok (List.zipWith galMultiply s s') ↔
      ∀ j < s.length, rnd (t.toNat * j + (t.toNat - 1)) = 0 ∨ rnd' (t'.toNat * j + (t'.toNat - 1)) = 0) := by
  have hv := (split_ok arch hperm h).1
  have hv' := (split_ok arch' hperm' h').1
  have v3 := hv.2.2.1
  have v3' := hv'.2.2.1
  obtain ⟨q1, e⟩ := split_layout arch rnd ps hv hperm
  obtain ⟨q2, e'⟩ := split_layout arch' rnd' ps' hv' hperm'
  rw [h] at e
  rw [h'] at e'
  have e := (Prod.mk.inj (Outcome.ok.inj e)).1
  have e' := (Prod.mk.inj (Outcome.ok.inj e')).1
  set c : Nat → Nat → Byte := fun p k => rnd ((layoutSplit t.toNat s.length).ix p k) with hc
  set c' : Nat → Nat → Byte := fun p k => rnd' ((layoutSplit t'.toNat s'.length).ix p k) with hc'
  have hpf : ∀ a ∈ p, IsShareOf (cPoly s t.toNat c) s.length a := by
    intro a ha
    have := hp ha
    rw [e] at this
    obtain ⟨x, -, rfl⟩ := List.mem_map.1 this
    exact cShare_onPoly s (by omega) c x
  have hqf : ∀ a ∈ q, IsShareOf (cPoly s' t'.toNat c') s.length a := by
    intro a ha
    have := hq ha
    rw [e'] at this
    obtain ⟨x, -, rfl⟩ := List.mem_map.1 this
    rw [hl]
    exact cShare_onPoly s' (by omega) c' x
  let xs : Nat → GF := fun i => ⟨(p.map tag).getD i 0⟩
  let nod : GF[X] := Lagrange.nodal (Finset.range p.length) xs
  let lead : Nat → GF := fun j => ⟨c j (t.toNat - 1)⟩ * ⟨c' j (t'.toNat - 1)⟩
  have hnd : nod.natDegree = p.length := by rw [Lagrange.natDegree_nodal, Finset.card_range]
  have hmonic : nod.Monic := Lagrange.nodal_monic
  have key := combine_products (List.length_pos_iff.2 hv.2.2.2) hpf hqf htags hn (by omega)
    (fun j => cPoly s t.toNat c j * cPoly s' t'.toNat c' j - C (lead j) * nod) ?_ ?_
  · have hval : ∀ j < s.length, ((cPoly s t.toNat c j * cPoly s' t'.toNat c' j - C (lead j) * nod).eval 0).val
        = ((⟨s.getD j 0⟩ : GF) * ⟨s'.getD j 0⟩ - lead j * nod.eval 0).val := by
      intro j hj
      rw [eval_sub, eval_mul, eval_mul, eval_C, eval_zero_cPoly _ (by omega), eval_zero_cPoly _ (by omega)]
    have hn0 : nod.eval 0 ≠ 0 := by
      show (Lagrange.nodal (Finset.range p.length) xs).eval 0 ≠ 0
      rw [Lagrange.eval_nodal, Finset.prod_ne_zero_iff]
      intro i hi
      have hi := Finset.mem_range.1 hi
      rw [zero_sub, neg_ne_zero]
      intro h0
      have h0 : (p.map tag).getD i 0 = 0 := congrArg GF.val h0
      rw [getD_getElem (by simpa using hi), List.getElem_map] at h0
      have hm := hp (List.getElem_mem hi)
      rw [e] at hm
      obtain ⟨x, hx, ex⟩ := List.mem_map.1 hm
      rw [← ex, tag_cShare] at h0
      exact (splitTags_facts hperm parts.toNat).2 x hx h0
    refine ⟨⟨_, key, by simp⟩, ?_⟩
    rw [key, ← products_at_zero rfl hl.symm]
    constructor
    · intro hh j hj
      have := List.map_inj_left.1 (Outcome.ok.inj hh) j (List.mem_range.2 hj)
      rw [hval j hj] at this
      have := GF.ext' this
      have h0 : lead j * nod.eval 0 = 0 := by linear_combination (-1 : GF) * this
      rcases mul_eq_zero.1 h0 with h0 | h0
      · rcases mul_eq_zero.1 h0 with h0 | h0
        · exact Or.inl (congrArg GF.val h0)
        · exact Or.inr (congrArg GF.val h0)
      · exact absurd h0 hn0
    · intro hh
      congr 1
      apply List.map_congr_left
      intro j hj
      have hj := List.mem_range.1 hj
      rw [hval j hj]
      have h0 : lead j = 0 := by
        rcases hh j hj with h0 | h0
        · exact mul_eq_zero.2 (Or.inl (GF.ext' h0))
        · exact mul_eq_zero.2 (Or.inr (GF.ext' h0))
      rw [h0, zero_mul, sub_zero]
  · intro j hj
    rw [degree_lt_iff_coeff_zero]
    intro m hm
    have d1 : (cPoly s t.toNat c j).natDegree ≤ t.toNat - 1 := by
      rw [natDegree_le_iff_coeff_eq_zero]
      intro k hk
      rw [coeff_cPoly, if_neg (by omega)]
    have d2 : (cPoly s' t'.toNat c' j).natDegree ≤ t'.toNat - 1 := by
      rw [natDegree_le_iff_coeff_eq_zero]
      intro k hk
      rw [coeff_cPoly, if_neg (by omega)]
    rw [coeff_sub, coeff_C_mul]
    rcases Nat.lt_or_ge p.length m with hlt | hge
    · rw [coeff_eq_zero_of_natDegree_lt (lt_of_le_of_lt (natDegree_mul_le_of_le d1 d2) (by omega)),
        coeff_eq_zero_of_natDegree_lt (by omega : nod.natDegree < m), mul_zero, sub_zero]
    · have em : m = t.toNat - 1 + (t'.toNat - 1) := by omega
      have en : nod.coeff m = 1 := by
        have : m = nod.natDegree := by omega
        rw [this]; exact hmonic
      rw [en, em, coeff_mul_add_eq_of_natDegree_le d1 d2, coeff_cPoly_top s (by omega), coeff_cPoly_top s' (by omega)]
      show lead j - lead j * 1 = 0
      rw [mul_one, sub_self]
  · intro j hj a ha
    obtain ⟨i, hi, rfl⟩ := List.getElem_of_mem ha
    have en : nod.eval ⟨tag p[i]⟩ = 0 := by
      have := Lagrange.eval_nodal_at_node (s := Finset.range p.length) (v := xs) (Finset.mem_range.2 hi)
      have ex : xs i = ⟨tag p[i]⟩ := by
        show (⟨(p.map tag).getD i 0⟩ : GF) = _
        rw [getD_getElem (by simpa using hi), List.getElem_map]
      rwa [ex] at this
    rw [eval_sub, eval_mul, eval_mul, eval_C, en, mul_zero, sub_zero]

end Verif.Props
