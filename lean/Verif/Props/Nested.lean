import Verif.Props.Secrecy
import Verif.Spec.Nested

/-! # C86: splitting shares again -/

namespace Verif.Props
open Verif Outcome Galois Spec Proofs Shamir

namespace Nested

/-- The shares of one call. -/
noncomputable def sharesOf (n : Nat) (parts threshold : Int) (perm : List Nat) (s : List Byte) (ρ : Fin (threshold.toNat * n) → Byte) :
    List (List Byte) :=
  (layoutSplit threshold.toNat n).shares s ((perm.take parts.toNat).map fun v => BitVec.ofNat 8 v + 1#8) ρ

theorem split_sharesOf (arch : Arch) {n : Nat} {s : List Byte} (hs : s.length = n) {parts threshold : Int} {perm : List Nat} (ps : Pools)
    (hv : ValidArgs s parts threshold) (hperm : perm.Perm (List.range 255)) (ρ : Fin (threshold.toNat * n) → Byte) :
    ∃ ps', split arch s parts threshold perm (stream ρ) ps = ok (sharesOf n parts threshold perm s ρ, ps') := by
  subst hs
  exact split_layout arch (stream ρ) ps hv hperm

theorem length_sharesOf {n : Nat} {s : List Byte} {parts threshold : Int} {perm : List Nat} (hp : parts ≤ 255)
    (hperm : perm.Perm (List.range 255)) (ρ : Fin (threshold.toNat * n) → Byte) :
    (sharesOf n parts threshold perm s ρ).length = parts.toNat := by
  have := (permBytes_nodup hperm).2.1
  unfold sharesOf Layout.shares
  simp only [List.length_map, List.length_take]
  have : perm.length = 255 := by rw [hperm.length_eq, List.length_range]
  omega

theorem length_share {n : Nat} {s : List Byte} (hs : s.length = n) {parts threshold : Int} {perm : List Nat}
    (ρ : Fin (threshold.toNat * n) → Byte) {i : Nat} (hi : i < (sharesOf n parts threshold perm s ρ).length) :
    ((sharesOf n parts threshold perm s ρ).getD i []).length = n + 1 := by
  rw [List.getD_eq_getElem?_getD, List.getElem?_eq_getElem hi, Option.getD_some]
  obtain ⟨x, -, h⟩ := List.mem_map.1 (List.getElem_mem hi)
  rw [← h, length_cShare, hs]

theorem held_split {arch : Arch} {n : Nat} {s : List Byte} (hs : s.length = n) {parts threshold : Int} {perm : List Nat} {ps : Pools}
    {sub : Nat → Plan} (hv : ValidArgs s parts threshold) (hperm : perm.Perm (List.range 255)) (ρ : Fin (threshold.toNat * n) → Byte)
    (τ : ∀ i : Fin parts.toNat, (sub i).Fillings (n + 1)) (i : Nat) (path : List Nat) :
    (Plan.split arch parts threshold perm ps sub).held n s (ρ, τ) (i :: path)
      = if h : i < parts.toNat then (sub i).held (n + 1) ((sharesOf n parts threshold perm s ρ).getD i []) (τ ⟨i, h⟩) path else none := by
  obtain ⟨p, e⟩ := split_sharesOf arch hs ps hv hperm ρ
  have h : (Plan.split arch parts threshold perm ps sub).held n s (ρ, τ) (i :: path)
      = (match split arch s parts threshold perm (stream ρ) ps with
        | ok (shares, _) => if h : i < parts.toNat then (sub i).held (n + 1) (shares.getD i []) (τ ⟨i, h⟩) path else none
        | _ => none) := rfl
  rw [h, e]

/-- There is a one-to-one correspondence of fillings under which the holders at the places `K` get the same from both secrets. -/
theorem exists_equiv (P : Plan) (hP : P.Valid) : ∀ (n : Nat), 0 < n → ∀ (K : Set (List Nat)) (s s' : List Byte), s.length = n → s'.length = n →
    (s = s' ∨ ¬ P.Satisfied K) → ∃ e : P.Fillings n ≃ P.Fillings n, ∀ ρ, ∀ p ∈ K, P.held n s ρ p = P.held n s' (e ρ) p := by
  induction P with
  | keep =>
    intro n hn K s s' hs hs' h
    refine ⟨Equiv.refl _, fun ρ p hp => ?_⟩
    rcases h with rfl | h
    · rfl
    · cases p with
      | nil => exact absurd hp h
      | cons i p => rfl
  | split arch parts threshold perm ps sub ih =>
    classical
    intro n hn K s s' hs hs' h
    rcases h with rfl | h
    · exact ⟨Equiv.refl _, fun _ _ _ => rfl⟩
    obtain ⟨⟨v1, v2, v3⟩, hperm, hsub⟩ := hP
    have hv : ValidArgs s parts threshold := ⟨v1, v2, v3, List.length_pos_iff.1 (by omega)⟩
    have hv' : ValidArgs s' parts threshold := ⟨v1, v2, v3, List.length_pos_iff.1 (by omega)⟩
    have h : ¬ threshold.toNat ≤ Nat.card {i : Fin parts.toNat // (sub i).Satisfied {path | i.1 :: path ∈ K}} := h
    let I : Finset Nat := (Finset.univ.filter fun i : Fin parts.toNat => (sub i).Satisfied {path | i.1 :: path ∈ K}).map Fin.valEmbedding
    have hI : I.card < threshold.toNat := by
      rw [Finset.card_map]
      rw [Nat.card_eq_fintype_card, Fintype.card_subtype] at h
      omega
    obtain ⟨hnd, h0⟩ := splitTags_facts hperm parts.toNat
    obtain ⟨e, he⟩ := Layout.secrecy (layoutSplit threshold.toNat n) hs hs' _ h0 I hI
    have hstep : ∀ (ρ : Fin (threshold.toNat * n) → Byte) (i : Fin parts.toNat), ∃ d : (sub i).Fillings (n + 1) ≃ (sub i).Fillings (n + 1),
        ∀ τ, ∀ p ∈ {path | i.1 :: path ∈ K}, (sub i).held (n + 1) ((sharesOf n parts threshold perm s ρ).getD i []) τ p
          = (sub i).held (n + 1) ((sharesOf n parts threshold perm s' (e ρ)).getD i []) (d τ) p := by
      intro ρ i
      refine ih i (hsub i) (n + 1) (by omega) _ _ _ (length_share hs ρ ?_) (length_share hs' (e ρ) ?_) ?_
      · rw [length_sharesOf v2 hperm]; exact i.2
      · rw [length_sharesOf v2 hperm]; exact i.2
      · by_cases hi : (sub i).Satisfied {path | i.1 :: path ∈ K}
        · left
          have hm : i.1 ∈ I := Finset.mem_map.2 ⟨i, Finset.mem_filter.2 ⟨Finset.mem_univ _, hi⟩, rfl⟩
          rw [List.getD_eq_getElem?_getD, List.getD_eq_getElem?_getD]
          exact congrArg (·.getD []) (he ρ i.1 hm)
        · exact Or.inr hi
    choose d hd using hstep
    refine ⟨Equiv.prodShear e fun ρ => Equiv.piCongrRight fun i => d ρ i, ?_⟩
    rintro ⟨ρ, τ⟩ p hp
    cases p with
    | nil => rfl
    | cons i p =>
      have := held_split (arch := arch) (ps := ps) (sub := sub) hs hv hperm ρ τ i p
      rw [this]
      have := held_split (arch := arch) (ps := ps) (sub := sub) hs' hv' hperm (e ρ) (fun i => d ρ i (τ i)) i p
      refine Eq.trans ?_ this.symm
      by_cases hi : i < parts.toNat
      · rw [dif_pos hi, dif_pos hi]
        exact hd ρ ⟨i, hi⟩ (τ ⟨i, hi⟩) p hp
      · rw [dif_neg hi, dif_neg hi]

end Nested

/-- C86: holders that do not satisfy the rule learn nothing about the secret: whatever they hold is produced by equally many fillings of the random
bytes from any two secrets of the same length.  Places where the rule puts no holder give nothing (`none`). -/
theorem C86_nested_secrecy (P : Plan) (hP : P.Valid) (K : Set (List Nat)) (hK : ¬ P.Satisfied K) (s s' : List Byte) (h0 : s ≠ [])
    (hs : s'.length = s.length) (v : List Nat → Option (List Byte)) :
    Nat.card {ρ : P.Fillings s.length // ∀ p ∈ K, P.held s.length s ρ p = v p}
      = Nat.card {ρ : P.Fillings s.length // ∀ p ∈ K, P.held s.length s' ρ p = v p} := by
  obtain ⟨e, he⟩ := Nested.exists_equiv P hP s.length (List.length_pos_iff.2 h0) K s s' rfl hs (Or.inr hK)
  exact Nat.card_congr (e.subtypeEquiv fun ρ => forall₂_congr fun p hp => Eq.congr_left (he ρ p hp))

/-- C86: and holders recover the secret, by Combine from the holders upwards, exactly if they satisfy the rule. -/
theorem C86_nested_recover (P : Plan) (hP : P.Valid) (K : Set (List Nat)) (s : List Byte) (h0 : s ≠ []) (ρ : P.Fillings s.length) :
    open Classical in
    P.recover (fun p => if p ∈ K then P.held s.length s ρ p else none) = if P.Satisfied K then some s else none := by
  classical
  have key : ∀ P : Plan, P.Valid → ∀ (n : Nat) (K : Set (List Nat)) (s : List Byte), 0 < n → s.length = n → ∀ ρ : P.Fillings n,
      P.recover (fun p => if p ∈ K then P.held n s ρ p else none) = if P.Satisfied K then some s else none := by
    intro P hP
    induction P with
    | keep => intro n K s _ _ ρ; rfl
    | split arch parts threshold perm ps sub ih =>
      rintro n K s hn hs ⟨ρ, τ⟩
      obtain ⟨⟨v1, v2, v3⟩, hperm, hsub⟩ := hP
      have hne : s ≠ [] := List.length_pos_iff.1 (by omega)
      have hv : ValidArgs s parts threshold := ⟨v1, v2, v3, hne⟩
      obtain ⟨p, e⟩ := Nested.split_sharesOf arch hs ps hv hperm ρ
      obtain ⟨-, ⟨hn', f, hf, hf'⟩, hl, -, -⟩ := split_ok arch hperm e
      let A : Nat → Prop := fun i => (sub i).Satisfied {path | i :: path ∈ K}
      have hgot : ((List.range parts.toNat).filterMap fun i => (sub i).recover fun path =>
            if i :: path ∈ K then (Plan.split arch parts threshold perm ps sub).held n s (ρ, τ) (i :: path) else none)
          = ((List.range parts.toNat).filter fun i => A i).map fun i => (Nested.sharesOf n parts threshold perm s ρ).getD i [] := by
        rw [← List.filterMap_eq_map, List.filterMap_filter]
        apply List.filterMap_congr
        intro i hi
        have hi : i < parts.toNat := List.mem_range.1 hi
        have := ih i (hsub i) (n + 1) {path | i :: path ∈ K} ((Nested.sharesOf n parts threshold perm s ρ).getD i []) (by omega)
          (Nested.length_share hs ρ (by omega)) (τ ⟨i, hi⟩)
        have e2 : (fun path => if i :: path ∈ K then (Plan.split arch parts threshold perm ps sub).held n s (ρ, τ) (i :: path) else none)
            = fun path => if path ∈ {path | i :: path ∈ K} then
              (sub i).held (n + 1) ((Nested.sharesOf n parts threshold perm s ρ).getD i []) (τ ⟨i, hi⟩) path else none := by
          funext path
          rw [Nested.held_split hs hv hperm ρ τ i path, dif_pos hi]
          rfl
        rw [e2, this]
        by_cases hA : A i
        · rw [if_pos hA]; simp [hA]
        · rw [if_neg hA]; simp [hA]
      have hcard : ((List.range parts.toNat).filter fun i => A i).length = Nat.card {i : Fin parts.toNat // A i} := by
        rw [Nat.card_eq_fintype_card, Fintype.card_subtype]
        rw [← List.toFinset_card_of_nodup (List.nodup_range.filter _)]
        rw [← Finset.card_map Fin.valEmbedding]
        congr 1
        ext i
        simp only [List.mem_toFinset, List.mem_filter, List.mem_range, decide_eq_true_eq, Finset.mem_map, Finset.mem_filter, Finset.mem_univ, true_and,
          Fin.valEmbedding_apply]
        constructor
        · rintro ⟨h1, h2⟩; exact ⟨⟨i, h1⟩, h2, rfl⟩
        · rintro ⟨j, h1, rfl⟩; exact ⟨j.2, h1⟩
      unfold Plan.recover
      simp only [hgot, List.length_map]
      have hsat : (Plan.split arch parts threshold perm ps sub).Satisfied K ↔ threshold.toNat ≤ ((List.range parts.toNat).filter fun i => A i).length := by
        rw [hcard]; rfl
      by_cases hS : threshold.toNat ≤ ((List.range parts.toNat).filter fun i => A i).length
      · rw [if_pos hS, if_pos (hsat.2 hS)]
        have hmem : ∀ i ∈ (List.range parts.toNat).filter fun i => A i, ∃ h : i < (Nested.sharesOf n parts threshold perm s ρ).length,
            (Nested.sharesOf n parts threshold perm s ρ).getD i [] = (Nested.sharesOf n parts threshold perm s ρ)[i] := by
          intro i hi
          have := List.mem_range.1 (List.mem_filter.1 hi).1
          refine ⟨by omega, ?_⟩
          rw [List.getD_eq_getElem?_getD, List.getElem?_eq_getElem (by omega), Option.getD_some]
        have hc : combine (((List.range parts.toNat).filter fun i => A i).map fun i => (Nested.sharesOf n parts threshold perm s ρ).getD i []) = ok s := by
          refine combine_shares hf ?_ ?_ (by rw [List.length_map]; omega) (by rw [List.length_map]; exact hS) hne
          · intro a ha
            obtain ⟨i, hi, rfl⟩ := List.mem_map.1 ha
            obtain ⟨h1, h2⟩ := hmem i hi
            rw [h2]
            exact hf' _ (List.getElem_mem h1)
          · show (List.map tag _).Nodup
            rw [List.map_map]
            refine List.Nodup.map_on ?_ (List.nodup_range.filter _)
            intro i hi j hj hij
            obtain ⟨h1, h2⟩ := hmem i hi
            obtain ⟨h3, h4⟩ := hmem j hj
            simp only [Function.comp_apply] at hij
            rw [h2, h4] at hij
            have := (List.Nodup.getElem_inj_iff hn' (hi := by simpa using h1) (hj := by simpa using h3)).1 (by rw [List.getElem_map, List.getElem_map, hij])
            exact this
        rw [hc]
      · rw [if_neg hS, if_neg (fun h => hS (hsat.1 h))]
  exact key P hP s.length K s (List.length_pos_iff.2 h0) rfl ρ

/-- The numbers in `C86_nested_secrecy` are numbers: there are finitely many fillings. -/
theorem C86_finite (P : Plan) (n : Nat) : Finite (P.Fillings n) := by
  induction P generalizing n with
  | keep => exact inferInstanceAs (Finite Unit)
  | split arch parts threshold perm ps sub ih =>
    have := fun i : Fin parts.toNat => ih i (n + 1)
    exact inferInstanceAs (Finite ((Fin (threshold.toNat * n) → Byte) × ∀ i : Fin parts.toNat, (sub i).Fillings (n + 1)))

/-! ## A concrete case: two of Alice, Bob and the directors, who need two of three -/

private def directors : Plan := .split .arm64 3 2 (List.range 255) (Pools.init 1) fun _ => .keep
private def rule : Plan := .split .noasm 3 2 (List.range 255) (Pools.init 1) fun i => if i = 2 then directors else .keep

private theorem rule_valid : rule.Valid := by
  refine ⟨by decide, List.Perm.refl _, fun i => ?_⟩
  show (if i = 2 then directors else .keep).Valid
  split
  · exact ⟨by decide, List.Perm.refl _, fun _ => trivial⟩
  · trivial

private theorem card_of {m : Nat} {A : Fin m → Prop} (S : Finset (Fin m)) (h : ∀ i, A i ↔ i ∈ S) : Nat.card {i : Fin m // A i} = S.card := by
  rw [Nat.card_congr (Equiv.subtypeEquivRight h), Nat.card_eq_fintype_card, Fintype.card_coe]

/-- Alice and two directors. -/
private theorem rule_sat : rule.Satisfied {[0], [2, 0], [2, 2]} := by
  have hd : directors.Satisfied {path | 2 :: path ∈ ({[0], [2, 0], [2, 2]} : Set (List Nat))} := by
    show (2 : Int).toNat ≤ Nat.card {i : Fin 3 // [] ∈ {path | i.1 :: path ∈ {path | 2 :: path ∈ ({[0], [2, 0], [2, 2]} : Set (List Nat))}}}
    rw [card_of {0, 2} (fun i => by fin_cases i <;> simp)]
    decide
  show (2 : Int).toNat ≤ Nat.card {i : Fin 3 // _}
  rw [card_of {0, 2} (fun i => ?_)]
  · decide
  · fin_cases i
    · simp [Plan.Satisfied]
    · simp [Plan.Satisfied]
    · simpa using hd

/-- All three directors, or Alice and one director. -/
private theorem rule_unsat : ¬ rule.Satisfied {[2, 0], [2, 1], [2, 2]} ∧ ¬ rule.Satisfied {[0], [2, 1]} := by
  constructor
  · show ¬ (2 : Int).toNat ≤ Nat.card {i : Fin 3 // _}
    have hd : directors.Satisfied {path | 2 :: path ∈ ({[2, 0], [2, 1], [2, 2]} : Set (List Nat))} := by
      show (2 : Int).toNat ≤ Nat.card {i : Fin 3 // [] ∈ {path | i.1 :: path ∈ {path | 2 :: path ∈ ({[2, 0], [2, 1], [2, 2]} : Set (List Nat))}}}
      rw [card_of {0, 1, 2} (fun i => by fin_cases i <;> simp)]
      decide
    rw [card_of {2} (fun i => ?_)]
    · decide
    · fin_cases i
      · simp [Plan.Satisfied]
      · simp [Plan.Satisfied]
      · simpa using hd
  · show ¬ (2 : Int).toNat ≤ Nat.card {i : Fin 3 // _}
    have hd : ¬ directors.Satisfied {path | 2 :: path ∈ ({[0], [2, 1]} : Set (List Nat))} := by
      show ¬ (2 : Int).toNat ≤ Nat.card {i : Fin 3 // [] ∈ {path | i.1 :: path ∈ {path | 2 :: path ∈ ({[0], [2, 1]} : Set (List Nat))}}}
      rw [card_of {1} (fun i => by fin_cases i <;> simp)]
      decide
    rw [card_of {0} (fun i => ?_)]
    · decide
    · fin_cases i
      · simp [Plan.Satisfied]
      · simp [Plan.Satisfied]
      · simpa using hd

open Classical in
example (ρ : rule.Fillings 2) (v : List Nat → Option (List Byte)) :
    rule.recover (fun p => if p ∈ ({[0], [2, 0], [2, 2]} : Set (List Nat)) then rule.held 2 [42, 43] ρ p else none) = some [42, 43] ∧
    Nat.card {ρ : rule.Fillings 2 // ∀ p ∈ ({[2, 0], [2, 1], [2, 2]} : Set (List Nat)), rule.held 2 [42, 43] ρ p = v p}
      = Nat.card {ρ : rule.Fillings 2 // ∀ p ∈ ({[2, 0], [2, 1], [2, 2]} : Set (List Nat)), rule.held 2 [9, 200] ρ p = v p} := by
  refine ⟨?_, C86_nested_secrecy rule rule_valid _ rule_unsat.1 [42, 43] [9, 200] (by simp) rfl v⟩
  have := C86_nested_recover rule rule_valid {[0], [2, 0], [2, 2]} [42, 43] (by simp) ρ
  rw [if_pos rule_sat] at this
  convert this
  rfl

end Verif.Props
