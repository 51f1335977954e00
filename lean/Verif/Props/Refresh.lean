import Verif.Props.Computing

/-! # C84: refreshing shares

A secret is split; from time to time the shares are refreshed, by adding shares of a sharing of zeros to them. -/

namespace Verif.Props
open Verif Outcome Galois Spec Proofs Shamir Pool Csprng Polynomial

theorem addShares_cShare (s : List Byte) (t : Nat) (c c' : Nat → Nat → Byte) (x : Byte) :
    addShares (cShare s t c x) (cShare (List.replicate s.length 0) t c' x) = cShare s t (fun p k => c p k ^^^ c' p k) x := by
  have hl : (addShares (cShare s t c x) (cShare (List.replicate s.length 0) t c' x)).length = s.length + 1 := by simp [addShares]
  refine share_ext (N := s.length) hl (length_cShare ..) ?_ fun p hp => ?_
  · rw [tag_cShare]
    unfold addShares
    rw [tag_append, tag_cShare]
  · unfold addShares
    rw [payload_getD (by simp [hp]), getD_getElem (by simp [hp]), List.getElem_zipWith]
    have e1 : ∀ {s : List Byte} {c : Nat → Nat → Byte} (h : p < (cShare s t c x).dropLast.length) , p < s.length →
        (cShare s t c x).dropLast[p] = (cShare s t c x).getD p 0 := by
      intro s c h hs
      rw [← getD_getElem h 0, dropLast_getD (by simpa using hs)]
    rw [e1 (by simp [hp]) hp, e1 (by simp [hp]) (by simp [hp]), cShare_getD _ _ _ _ hp, cShare_getD _ _ _ _ hp, cShare_getD _ _ _ _ (by simp [hp])]
    have hsum : ∑ k ∈ Finset.Ico 1 t, (⟨c p k ^^^ c' p k⟩ : GF) * ⟨x⟩ ^ k
        = (∑ k ∈ Finset.Ico 1 t, (⟨c p k⟩ : GF) * ⟨x⟩ ^ k) + ∑ k ∈ Finset.Ico 1 t, (⟨c' p k⟩ : GF) * ⟨x⟩ ^ k := by
      rw [← Finset.sum_add_distrib]
      apply Finset.sum_congr rfl
      intro k _
      rw [← add_mul]; rfl
    have h0 : (List.replicate s.length (0 : Byte)).getD p 0 = 0 := by
      rw [List.getD_eq_getElem?_getD, List.getElem?_replicate]; split <;> rfl
    rw [hsum, h0]
    show s.getD p 0 ^^^ _ ^^^ (0#8 ^^^ _) = s.getD p 0 ^^^ (_ ^^^ _)
    rw [BitVec.zero_xor]
    exact BitVec.xor_assoc _ _ _

theorem shareAt_cShare (xs s : List Byte) (t : Nat) (c : Nat → Nat → Byte) (x : Byte) :
    shareAt (xs.map (cShare s t c)) x = if x ∈ xs then some (cShare s t c x) else none := by
  unfold shareAt
  induction xs with
  | nil => rfl
  | cons a xs ih =>
    rw [List.map_cons, List.find?_cons, tag_cShare]
    by_cases h : a = x
    · subst h; simp
    · have hb : (a == x) = false := by simpa using h
      rw [hb, ih]
      have : x ≠ a := fun e => h e.symm
      simp [this]

theorem refresh_cShare (xs ys s : List Byte) (t : Nat) (c c' : Nat → Nat → Byte) :
    refresh (xs.map (cShare s t c)) (ys.map (cShare (List.replicate s.length 0) t c'))
      = (xs.filter fun x => decide (x ∈ ys)).map (cShare s t fun p k => c p k ^^^ c' p k) := by
  unfold refresh
  induction xs with
  | nil => rfl
  | cons a xs ih =>
    rw [List.map_cons, List.filterMap_cons, tag_cShare, shareAt_cShare, ih]
    by_cases h : a ∈ ys
    · have := addShares_cShare s t c c' a
      simp only [h, if_true, Option.map_some, this, decide_true, List.filter_cons_of_pos, List.map_cons]
    · simp [h]

/-- tags of call `e` -/
def epochTags (parts : Nat → Int) (perm : Nat → List Nat) (e : Nat) : List Byte :=
  ((perm e).take (parts e).toNat).map fun v => BitVec.ofNat 8 v + 1#8

/-- tags held after `e` refreshments -/
def heldTags (parts : Nat → Int) (perm : Nat → List Nat) : Nat → List Byte
  | 0 => epochTags parts perm 0
  | e + 1 => (heldTags parts perm e).filter fun x => decide (x ∈ epochTags parts perm (e + 1))

/-- sums of the coefficients of the calls so far -/
def heldCoeffs (t : Nat) (rnd : Nat → Nat → Byte) : Nat → Nat → Nat → Byte
  | 0, p, k => rnd 0 (t * p + k)
  | e + 1, p, k => heldCoeffs t rnd e p k ^^^ rnd (e + 1) (t * p + k)

theorem held_iff {arch : Arch} {s : List Byte} {threshold : Int} {parts : Nat → Int} {perm : Nat → List Nat}
    (hperm : ∀ e, (perm e).Perm (List.range 255)) (rnd : Nat → Nat → Byte) (ps : Nat → Pools) (e : Nat)
    (hv : ∀ i ≤ e, ValidArgs s (parts i) threshold) (sh : List (List Byte)) :
    Held arch s threshold parts perm rnd ps e sh ↔
      sh = (heldTags parts perm e).map (cShare s threshold.toNat (heldCoeffs threshold.toNat rnd e)) := by
  induction e generalizing sh with
  | zero =>
    obtain ⟨q, h⟩ := split_layout arch (rnd 0) (ps 0) (hv 0 le_rfl) (hperm 0)
    unfold Held
    rw [h]
    constructor
    · rintro ⟨qs, hq⟩
      exact (Prod.mk.inj (Outcome.ok.inj hq)).1.symm
    · rintro rfl
      exact ⟨q, rfl⟩
  | succ e ih =>
    have hz : ValidArgs (List.replicate s.length 0) (parts (e + 1)) threshold := by
      have h := hv (e + 1) le_rfl
      refine ⟨h.1, h.2.1, h.2.2.1, fun h0 => h.2.2.2 ?_⟩
      have := congrArg List.length h0
      simpa using this
    obtain ⟨q, h⟩ := split_layout arch (rnd (e + 1)) (ps (e + 1)) hz (hperm (e + 1))
    unfold Held
    rw [h]
    have hr := refresh_cShare (heldTags parts perm e) (epochTags parts perm (e + 1)) s threshold.toNat
      (heldCoeffs threshold.toNat rnd e) (fun p k => rnd (e + 1) ((layoutSplit threshold.toNat (List.replicate s.length 0).length).ix p k))
    constructor
    · rintro ⟨old, new, qs, h1, h2, rfl⟩
      rw [(ih (fun i hi => hv i (by omega)) old).1 h1, ← (Prod.mk.inj (Outcome.ok.inj h2)).1]
      exact hr
    · rintro rfl
      refine ⟨_, _, q, (ih (fun i hi => hv i (by omega)) _).2 rfl, rfl, ?_⟩
      exact hr.symm

theorem held_valid {arch : Arch} {s : List Byte} {threshold : Int} {parts : Nat → Int} {perm : Nat → List Nat}
    (hperm : ∀ e, (perm e).Perm (List.range 255)) {rnd : Nat → Nat → Byte} {ps : Nat → Pools} {e : Nat} {sh : List (List Byte)}
    (h : Held arch s threshold parts perm rnd ps e sh) : ∀ i ≤ e, ValidArgs s (parts i) threshold := by
  induction e generalizing sh with
  | zero =>
    obtain ⟨qs, h⟩ := h
    intro i hi
    obtain rfl : i = 0 := by omega
    exact (split_ok arch (hperm 0) h).1
  | succ e ih =>
    obtain ⟨old, new, qs, h1, h2, -⟩ := h
    intro i hi
    rcases Nat.lt_or_ge i (e + 1) with hlt | hge
    · exact ih h1 i (by omega)
    · obtain rfl : i = e + 1 := by omega
      have hz := (split_ok arch (hperm (e + 1)) h2).1
      refine ⟨hz.1, hz.2.1, hz.2.2.1, fun h0 => hz.2.2.2 (by rw [h0]; rfl)⟩

theorem heldTags_facts {parts : Nat → Int} {perm : Nat → List Nat} (hperm : ∀ e, (perm e).Perm (List.range 255)) (e : Nat) :
    (heldTags parts perm e).Nodup ∧ ∀ x ∈ heldTags parts perm e, x ≠ 0 := by
  induction e with
  | zero => exact splitTags_facts (hperm 0) (parts 0).toNat
  | succ e ih => exact ⟨ih.1.filter _, fun x hx => ih.2 x (List.mem_of_mem_filter hx)⟩

/-- C84: refreshed shares are shares of the same secret, with the same threshold; their tags are those that all calls have used. -/
theorem C84_refresh (arch : Arch) (s : List Byte) (threshold : Int) (parts : Nat → Int) (perm : Nat → List Nat)
    (hperm : ∀ e, (perm e).Perm (List.range 255)) (rnd : Nat → Nat → Byte) (ps : Nat → Pools) (e : Nat) (sh : List (List Byte))
    (h : Held arch s threshold parts perm rnd ps e sh) :
    IsSharing s threshold.toNat sh ∧
    (∀ x, x ∈ sh.map tag ↔ ∀ i ≤ e, ∃ v ∈ (perm i).take (parts i).toNat, x = BitVec.ofNat 8 v + 1#8) ∧
    ∀ sub : List (List Byte), sub.Subperm sh → threshold.toNat ≤ sub.length → combine sub = ok s := by
  have hv := held_valid hperm h
  have v := hv 0 (by omega)
  have v3 := v.2.2.1
  have e1 := (held_iff hperm rnd ps e hv sh).1 h
  have htags : sh.map tag = heldTags parts perm e := by
    rw [e1, List.map_map]
    conv_rhs => rw [← List.map_id (heldTags parts perm e)]
    exact List.map_congr_left fun x _ => tag_cShare _ _ _ _
  have hsh : IsSharing s threshold.toNat sh := by
    refine ⟨by rw [htags]; exact (heldTags_facts hperm e).1, cPoly s threshold.toNat (heldCoeffs threshold.toNat rnd e), ?_, ?_⟩
    · intro j _
      exact ⟨degree_cPoly .., eval_zero_cPoly _ (by omega) _ _⟩
    · intro a ha
      rw [e1] at ha
      obtain ⟨x, -, rfl⟩ := List.mem_map.1 ha
      exact cShare_onPoly s (by omega) _ x
  refine ⟨hsh, fun x => ?_, fun sub hsub hlen => combine_sharing hsh hsub (by omega) hlen v.2.2.2⟩
  rw [htags]
  have step : ∀ i, x ∈ epochTags parts perm i ↔ ∃ v ∈ (perm i).take (parts i).toNat, x = BitVec.ofNat 8 v + 1#8 := by
    intro i
    unfold epochTags
    rw [List.mem_map]
    exact ⟨fun ⟨v, h1, h2⟩ => ⟨v, h1, h2.symm⟩, fun ⟨v, h1, h2⟩ => ⟨v, h1, h2.symm⟩⟩
  clear h e1 htags hsh hv
  induction e with
  | zero =>
    show x ∈ epochTags parts perm 0 ↔ _
    rw [step]
    exact ⟨fun h i hi => by obtain rfl : i = 0 := by omega
                            exact h, fun h => h 0 le_rfl⟩
  | succ e ih =>
    show x ∈ (heldTags parts perm e).filter _ ↔ _
    rw [List.mem_filter, decide_eq_true_iff, step]
    constructor
    · rintro ⟨h1, h2⟩ i hi
      have h1 := ih.1 h1
      rcases Nat.lt_or_ge i (e + 1) with hlt | hge
      · exact h1 i (by omega)
      · obtain rfl : i = e + 1 := by omega
        exact h2
    · intro h
      exact ⟨ih.2 fun i hi => h i (by omega), h (e + 1) le_rfl⟩

/-- How the shift of a coefficient is spread over the calls. -/
def stepShift (δ : Nat → Nat → Nat → Byte) : Nat → Nat → Nat → Byte
  | 0, p, k => δ 0 p k
  | e + 1, p, k => δ (e + 1) p k ^^^ δ e p k

theorem heldCoeffs_shift {t : Nat} {rnd rnd' : Nat → Nat → Byte} {δ : Nat → Nat → Nat → Byte} {p k n : Nat}
    (h : ∀ e ≤ n, rnd' e (t * p + k) = rnd e (t * p + k) ^^^ stepShift δ e p k) :
    ∀ e ≤ n, heldCoeffs t rnd' e p k = heldCoeffs t rnd e p k ^^^ δ e p k := by
  intro e
  induction e with
  | zero => intro he; exact h 0 he
  | succ e ih =>
    intro he
    show heldCoeffs t rnd' e p k ^^^ rnd' (e + 1) (t * p + k) = heldCoeffs t rnd e p k ^^^ rnd (e + 1) (t * p + k) ^^^ δ (e + 1) p k
    rw [ih (by omega), h (e + 1) he]
    show heldCoeffs t rnd e p k ^^^ δ e p k ^^^ (rnd (e + 1) (t * p + k) ^^^ (δ (e + 1) p k ^^^ δ e p k)) = _
    generalize heldCoeffs t rnd e p k = a
    generalize rnd (e + 1) (t * p + k) = b
    generalize δ (e + 1) p k = c
    generalize δ e p k = d
    have : a ^^^ d ^^^ (b ^^^ (c ^^^ d)) = a ^^^ b ^^^ c ^^^ (d ^^^ d) := by ac_rfl
    rw [this, BitVec.xor_self, BitVec.xor_zero]

/-- The random bytes of all calls, one after the other. -/
def epochBytes {m : Nat} (ρ : Fin m → Byte) (len e j : Nat) : Byte := stream ρ (len * e + j)

/-- Fillings shifted by `d`. -/
def shiftBy {m : Nat} (d : Nat → Byte) : (Fin m → Byte) ≃ (Fin m → Byte) where
  toFun ρ j := ρ j ^^^ d j
  invFun ρ j := ρ j ^^^ d j
  left_inv ρ := by funext j; simp [BitVec.xor_assoc]
  right_inv ρ := by funext j; simp [BitVec.xor_assoc]

/-- C84: refreshing protects the secret: whoever sees, before the first and after each of the `n` refreshments, fewer than `threshold`
shares (each time others; together they may be all), learns nothing: any view is produced by equally many fillings of the random bytes from any two
secrets of the same length. -/
theorem C84_refresh_secrecy (arch : Arch) (s s' : List Byte) (hs : s.length = s'.length) (threshold : Int) (parts : Nat → Int)
    (perm : Nat → List Nat) (hperm : ∀ e, (perm e).Perm (List.range 255)) (ps : Nat → Pools) (n : Nat) (B : Nat → Finset Byte)
    (hB : ∀ e ≤ n, ((B e).card : Int) < threshold) (v : Nat → Byte → Option (List Byte)) :
    count (m := threshold.toNat * s.length * (n + 1)) (fun ρ => ∀ e ≤ n, ∃ sh,
        Held arch s threshold parts perm (epochBytes ρ (threshold.toNat * s.length)) ps e sh ∧ ∀ x ∈ B e, shareAt sh x = v e x)
      = count (m := threshold.toNat * s.length * (n + 1)) (fun ρ => ∀ e ≤ n, ∃ sh,
        Held arch s' threshold parts perm (epochBytes ρ (threshold.toNat * s.length)) ps e sh ∧ ∀ x ∈ B e, shareAt sh x = v e x) := by
  classical
  have hnil : s = [] ↔ s' = [] := by rw [← List.length_eq_zero_iff, hs, List.length_eq_zero_iff]
  by_cases hv : ∀ i ≤ n, ValidArgs s (parts i) threshold
  · have hv' : ∀ i ≤ n, ValidArgs s' (parts i) threshold := fun i hi =>
      ⟨(hv i hi).1, (hv i hi).2.1, (hv i hi).2.2.1, fun h => (hv i hi).2.2.2 (hnil.2 h)⟩
    have v3 := (hv 0 (by omega)).2.2.1
    have hN : 0 < s.length := List.length_pos_iff.2 (hv 0 (by omega)).2.2.2
    set t := threshold.toNat with ht
    have hsh : ∀ e, ∃ δ : Nat → Nat → Byte, e ≤ n → ∀ c : Nat → Nat → Byte, ∀ x ∈ (B e).erase 0,
        cShare s' t (fun p k => c p k ^^^ δ p k) x = cShare s t c x := by
      intro e
      by_cases he : e ≤ n
      · obtain ⟨δ, hδ⟩ := exists_shift (s := s) (s' := s') hs t ((B e).erase 0) (Finset.notMem_erase _ _)
          (lt_of_le_of_lt (Finset.card_erase_le) (by have := hB e he; omega)) (fun _ _ => 0)
        refine ⟨δ, fun _ c x hx => ?_⟩
        refine share_ext (N := s.length) (by simp [hs]) (by simp) (by rw [tag_cShare, tag_cShare]) fun p hp => ?_
        rw [hδ c x hx p hp]
        exact BitVec.xor_zero
      · exact ⟨fun _ _ => 0, fun h => absurd h he⟩
    choose δ hδ using hsh
    let d : Nat → Byte := fun J => stepShift δ (J / (t * s.length)) (J % (t * s.length) / t) (J % (t * s.length) % t)
    refine count_congr (shiftBy d) fun ρ => ?_
    have hm : 0 < t * s.length := Nat.mul_pos (by omega) hN
    have hrnd : ∀ e ≤ n, ∀ p < s.length, ∀ k < t, epochBytes (shiftBy d ρ) (t * s.length) e (t * p + k)
        = epochBytes ρ (t * s.length) e (t * p + k) ^^^ stepShift δ e p k := by
      intro e he p hp k hk
      have h1 : t * p + k < t * s.length := lin_lt hk hp
      have h2 : t * s.length * e + (t * p + k) < t * s.length * (n + 1) := lin_lt h1 (by omega)
      unfold epochBytes stream
      rw [dif_pos h2, dif_pos h2]
      show ρ _ ^^^ d (t * s.length * e + (t * p + k)) = _
      congr 1
      show stepShift δ _ _ _ = _
      rw [(div_mod_of h1).1, (div_mod_of h1).2, (div_mod_of hk).1, (div_mod_of hk).2]
    refine forall₂_congr fun e he => ?_
    have a1 := held_iff (arch := arch) hperm (epochBytes ρ (t * s.length)) ps e (fun i hi => hv i (by omega))
    have a2 := held_iff (arch := arch) hperm (epochBytes (shiftBy d ρ) (t * s.length)) ps e (fun i hi => hv' i (by omega))
    simp only [a1, a2, exists_eq_left]
    refine forall₂_congr fun x hx => Eq.congr_left ?_
    rw [shareAt_cShare, shareAt_cShare]
    by_cases hxt : x ∈ heldTags parts perm e
    · rw [if_pos hxt, if_pos hxt]
      have hx0 : x ≠ 0 := (heldTags_facts hperm e).2 x hxt
      rw [← hδ e he _ x (Finset.mem_erase.2 ⟨hx0, hx⟩)]
      congr 1
      apply cShare_congr
      intro p hp k hk1 hk2
      exact (heldCoeffs_shift (n := n) (fun e he => hrnd e he p (by omega) k hk2) e he).symm
    · rw [if_neg hxt, if_neg hxt]
  · have hinv : ∀ s'' : List Byte, (s = [] ↔ s'' = []) → ∀ rnd : Nat → Nat → Byte, ¬ ∀ e ≤ n, ∃ sh,
        Held arch s'' threshold parts perm rnd ps e sh ∧ ∀ x ∈ B e, shareAt sh x = v e x := by
      intro s'' hn rnd h
      refine hv fun i hi => ?_
      obtain ⟨sh, h, -⟩ := h i hi
      have := held_valid hperm h i le_rfl
      exact ⟨this.1, this.2.1, this.2.2.1, fun h0 => this.2.2.2 (hn.1 h0)⟩
    exact count_congr (Equiv.refl _) fun ρ => iff_of_false (hinv s Iff.rfl _) (hinv s' hnil _)

/-! ## Concrete cases -/

example : combine [[5, 1], [6, 2]] = ok [4] ∧ ∃ r, mulConstVector .noasm 3 [4] = ok r ∧ combine [[15, 1], [10, 2]] = ok r := by
  have h : combine [[5, 1], [6, 2]] = ok [4] := by decide +kernel
  exact ⟨h, C84_scale .noasm 3 [[5, 1], [6, 2]] [[15, 1], [10, 2]] [4] h
    (.cons ⟨[15], by decide +kernel, rfl⟩ (.cons ⟨[10], by decide +kernel, rfl⟩ .nil))⟩

example : ∃ r, addVector .noasm [7] [4] = ok r ∧ combine [[2, 1], [1, 2]] = ok r :=
  C84_add_public .noasm [7] [[5, 1], [6, 2]] [[2, 1], [1, 2]] [4] (by decide +kernel) rfl
    (.cons ⟨[2], by decide +kernel, rfl⟩ (.cons ⟨[1], by decide +kernel, rfl⟩ .nil))

/-- Two secrets of two bytes, split with threshold 2 into the same three tags: three products give the product, the first two do not. -/
example : ∃ out out' qs qs', split .noasm [42, 43] 3 2 (List.range 255) (fun _ => 1) (Pools.init 1) = ok (out, qs) ∧
    split .noasm [9, 200] 3 2 (List.range 255) (fun _ => 5) (Pools.init 1) = ok (out', qs') ∧
    combine (List.zipWith mulShares out out') = ok (List.zipWith galMultiply [42, 43] [9, 200]) ∧
    (∃ r, combine (List.zipWith mulShares (out.take 2) (out'.take 2)) = ok r) ∧
    combine (List.zipWith mulShares (out.take 2) (out'.take 2)) ≠ ok (List.zipWith galMultiply [42, 43] [9, 200]) := by
  have hp := List.Perm.refl (List.range 255)
  have hv : ValidArgs [42, 43] 3 2 := by decide
  have hv' : ValidArgs [9, 200] 3 2 := by decide
  obtain ⟨qs, h⟩ := split_layout .noasm (fun _ => 1) (Pools.init 1) hv hp
  obtain ⟨qs', h'⟩ := split_layout .noasm (fun _ => 5) (Pools.init 1) hv' hp
  have ht : ∀ (s : List Byte) (t : Nat) (c : Nat → Nat → Byte) (xs : List Byte), (xs.map (cShare s t c)).map tag = xs := by
    intro s t c xs
    rw [List.map_map]
    conv_rhs => rw [← List.map_id xs]
    exact List.map_congr_left fun x _ => tag_cShare _ _ _ _
  refine ⟨_, _, qs, qs', h, h', ?_, ?_, ?_⟩
  · refine C84_product [42, 43] [9, 200] rfl (by decide) 2 2 le_rfl le_rfl _ _ (split_ok .noasm hp h).2.1 (split_ok .noasm hp h').2.1 _ _
      (List.Subset.refl _) (List.Subset.refl _) ?_ ?_ (by simp)
    · exact (ht _ _ _ _).trans (ht _ _ _ _).symm
    · rw [ht]; decide
  all_goals
    have key := C84_product_short .noasm .noasm [42, 43] [9, 200] rfl 3 3 2 2 _ _ hp hp _ _ _ _ _ _ _ _ h h'
      (List.take 2 _) (List.take 2 _) (List.take_subset _ _) (List.take_subset _ _)
      (by rw [List.map_take, List.map_take]; exact congrArg (List.take 2) ((ht _ _ _ _).trans (ht _ _ _ _).symm))
      (by rw [List.map_take, ht]; decide) (by simp)
  · exact key.1.imp fun r hr => hr.1
  · intro hh
    have := key.2.1 hh 0 (by decide)
    exact absurd this (by decide)

/-- A secret split with threshold 2 into 255 shares, and refreshed twice by sharings of which 255 and 3 shares are kept: the three
remaining ones give the secret; whoever has seen share 1 first, then share 2, then share 3, knows nothing. -/
example (s s' : List Byte) (hl : s.length = 4) (hl' : s'.length = 4) (rnd : Nat → Nat → Byte) (v : Nat → Byte → Option (List Byte)) :
    (∃ sh, Held .arm64 s 2 (fun e => if e = 2 then 3 else 255) (fun _ => List.range 255) rnd (fun _ => Pools.init 1) 2 sh ∧
      combine sh = ok s) ∧
    count (m := 2 * 4 * 3) (fun ρ => ∀ e ≤ 2, ∃ sh, Held .arm64 s 2 (fun e => if e = 2 then 3 else 255) (fun _ => List.range 255)
        (epochBytes ρ (2 * 4)) (fun _ => Pools.init 1) e sh ∧ ∀ x ∈ ({BitVec.ofNat 8 (e + 1)} : Finset Byte), shareAt sh x = v e x)
      = count (m := 2 * 4 * 3) (fun ρ => ∀ e ≤ 2, ∃ sh, Held .arm64 s' 2 (fun e => if e = 2 then 3 else 255) (fun _ => List.range 255)
        (epochBytes ρ (2 * 4)) (fun _ => Pools.init 1) e sh ∧ ∀ x ∈ ({BitVec.ofNat 8 (e + 1)} : Finset Byte), shareAt sh x = v e x) := by
  have hp : ∀ _ : Nat, (List.range 255).Perm (List.range 255) := fun _ => List.Perm.refl _
  have hs : s ≠ [] := by rintro rfl; simp at hl
  constructor
  · have hv : ∀ i ≤ 2, ValidArgs s ((fun e => if e = 2 then 3 else 255 : Nat → Int) i) 2 := by
      intro i _
      dsimp only
      split <;> exact ⟨by decide, by decide, by decide, hs⟩
    have h := (held_iff (arch := .arm64) hp rnd (fun _ => Pools.init 1) 2 hv _).2 rfl
    refine ⟨_, h, (C84_refresh .arm64 s 2 _ _ hp rnd _ 2 _ h).2.2 _ (List.Subperm.refl _) ?_⟩
    rw [List.length_map]
    have : heldTags (fun e => if e = 2 then 3 else 255) (fun _ => List.range 255) 2 = [1, 2, 3] := by decide +kernel
    rw [this]
    decide
  · have := C84_refresh_secrecy .arm64 s s' (by omega) 2 (fun e => if e = 2 then 3 else 255) (fun _ => List.range 255) hp (fun _ => Pools.init 1) 2
      (fun e => {BitVec.ofNat 8 (e + 1)}) (by intro e _; simp) v
    rw [hl] at this
    exact this

end Verif.Props
