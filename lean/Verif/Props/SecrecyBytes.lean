import Verif.Props.Secrecy
import Verif.Props.Computing

/-! # C85: secrecy when single bytes of shares become known -/

namespace Verif.Props
open Verif Outcome Galois Spec Proofs Shamir Pool Csprng

/-- Of byte `j`, the shares at the positions `I j` are known: they are `v i j`. -/
def SeenBytes (N : Nat) (I : Nat → Finset Nat) (v : Nat → Nat → Byte) (shares : List (List Byte)) : Prop :=
  ∀ j < N, ∀ i ∈ I j, ∃ a, shares[i]? = some a ∧ a.getD j 0 = v i j

/-- As `Layout.exists_equiv`, with other shares seen for every byte. -/
theorem Layout.bytes {t N m : Nat} (L : Layout t N m) {s s' : List Byte} (hs : s.length = N) (hs' : s'.length = N) (xs : List Byte)
    (h0 : ∀ x ∈ xs, x ≠ 0) (I : Nat → Finset Nat) (hI : ∀ j < N, (I j).card < t ∨ s.getD j 0 = s'.getD j 0)  :
    ∃ e : (Fin m → Byte) ≃ (Fin m → Byte), ∀ ρ, ∀ p < N, ∀ i ∈ I p, ∀ (hi : i < xs.length),
      ((cShare s' t (fun p k => stream (e ρ) (L.ix p k)) xs[i]).getD p 0)
        = (cShare s t (fun p k => stream ρ (L.ix p k)) xs[i]).getD p 0 := by
  classical
  let T : Nat → Finset Byte := fun p => ((I p).filter (· < xs.length)).image fun i => xs.getD i 0
  have hT0 : ∀ p, 0 ∉ T p := by
    intro p h
    obtain ⟨i, hi, e⟩ := Finset.mem_image.1 h
    have hi := (Finset.mem_filter.1 hi).2
    rw [getD_getElem hi] at e
    exact h0 _ (List.getElem_mem hi) e
  have hδ : ∀ p, ∃ δ : Nat → Byte, p < N → ∀ x ∈ T p,
      (⟨s.getD p 0 ^^^ s'.getD p 0⟩ : GF) + ∑ k ∈ Finset.Ico 1 t, (⟨δ k⟩ : GF) * ⟨x⟩ ^ k = 0 := by
    intro p
    by_cases hp : p < N
    · rcases hI p hp with h | h
      · obtain ⟨δ, hδ⟩ := exists_mask t (T p) (hT0 p)
          (lt_of_le_of_lt (Finset.card_image_le.trans (Finset.card_filter_le _ _)) h) (s.getD p 0 ^^^ s'.getD p 0) (fun _ => 0)
        exact ⟨δ, fun _ x hx => hδ x hx⟩
      · refine ⟨fun _ => 0, fun _ x _ => ?_⟩
        rw [h, BitVec.xor_self]
        have : ∑ k ∈ Finset.Ico 1 t, (⟨0⟩ : GF) * (⟨x⟩ : GF) ^ k = 0 :=
          Finset.sum_eq_zero fun k _ => zero_mul _
        rw [this]
        rfl
    · exact ⟨fun _ => 0, fun h => absurd h hp⟩
  choose δ hδ using hδ
  refine ⟨L.shift δ, fun ρ p hp i hi hil => ?_⟩
  have hx : xs[i] ∈ T p := Finset.mem_image.2 ⟨i, Finset.mem_filter.2 ⟨hi, hil⟩, getD_getElem hil 0⟩
  have key := hδ p hp _ hx
  rw [cShare_getD _ _ _ _ (by omega), cShare_getD _ _ _ _ (by omega)]
  have hsum : ∑ k ∈ Finset.Ico 1 t, (⟨stream (L.shift δ ρ) (L.ix p k)⟩ : GF) * ⟨xs[i]⟩ ^ k
      = (∑ k ∈ Finset.Ico 1 t, (⟨stream ρ (L.ix p k)⟩ : GF) * ⟨xs[i]⟩ ^ k) + ∑ k ∈ Finset.Ico 1 t, (⟨δ p k⟩ : GF) * ⟨xs[i]⟩ ^ k := by
    rw [← Finset.sum_add_distrib]
    apply Finset.sum_congr rfl
    intro k hk
    have hk := Finset.mem_Ico.1 hk
    rw [L.stream_shift δ ρ hp hk.1 hk.2, ← add_mul]; rfl
  rw [hsum]
  have e1 : (⟨s'.getD p 0⟩ : GF) + ((∑ k ∈ Finset.Ico 1 t, (⟨stream ρ (L.ix p k)⟩ : GF) * ⟨xs[i]⟩ ^ k)
      + ∑ k ∈ Finset.Ico 1 t, (⟨δ p k⟩ : GF) * ⟨xs[i]⟩ ^ k)
      = (⟨s.getD p 0⟩ : GF) + (∑ k ∈ Finset.Ico 1 t, (⟨stream ρ (L.ix p k)⟩ : GF) * ⟨xs[i]⟩ ^ k) := by
    have e2 : (⟨s.getD p 0 ^^^ s'.getD p 0⟩ : GF) = ⟨s.getD p 0⟩ + ⟨s'.getD p 0⟩ := rfl
    rw [e2] at key
    have e3 : (⟨s.getD p 0⟩ : GF) + ⟨s.getD p 0⟩ = 0 := CharTwo.add_self_eq_zero _
    linear_combination key - e3
  exact congrArg GF.val e1

/-- Layouts: equally many fillings. -/
theorem Layout.seenBytes {t N m : Nat} (L : Layout t N m) {s s' : List Byte} (hs : s.length = N) (hs' : s'.length = N) (xs : List Byte)
    (h0 : ∀ x ∈ xs, x ≠ 0) (I : Nat → Finset Nat) (hI : ∀ j < N, (I j).card < t ∨ s.getD j 0 = s'.getD j 0) :
    ∃ e : (Fin m → Byte) ≃ (Fin m → Byte), ∀ v ρ, SeenBytes N I v (L.shares s xs ρ) ↔ SeenBytes N I v (L.shares s' xs (e ρ)) := by
  obtain ⟨e, he⟩ := Layout.bytes L hs hs' xs h0 I hI
  refine ⟨e, fun v ρ => forall₂_congr fun j hj => forall₂_congr fun i hi => ?_⟩
  unfold Layout.shares
  rcases Nat.lt_or_ge i xs.length with h | h
  · simp only [List.getElem?_map, List.getElem?_eq_getElem h, Option.map_some, Option.some.injEq, exists_eq_left', he ρ j hj i hi h]
  · simp only [List.getElem?_map, List.getElem?_eq_none h, Option.map_none, reduceCtorEq, false_and, exists_false]

/-- C85: if for every byte of the secret in which two secrets differ, fewer than `threshold` bytes of shares are known, the known
bytes are produced by equally many fillings from both. -/
theorem C85_bytes_secrecy (arch : Arch) (s s' : List Byte) (hs : s.length = s'.length) (parts threshold : Int)
    (perm : List Nat) (hperm : perm.Perm (List.range 255)) (ps : Pools) (I : Nat → Finset Nat)
    (hI : ∀ j < s.length, s.getD j 0 ≠ s'.getD j 0 → ((I j).card : Int) < threshold) (v : Nat → Nat → Byte) :
    count (m := threshold.toNat * s.length) (fun ρ => ∃ shares ps',
        split arch s parts threshold perm (stream ρ) ps = ok (shares, ps') ∧ SeenBytes s.length I v shares)
      = count (m := threshold.toNat * s.length) (fun ρ => ∃ shares ps',
        split arch s' parts threshold perm (stream ρ) ps = ok (shares, ps') ∧ SeenBytes s.length I v shares) := by
  have hnil : s = [] ↔ s' = [] := by rw [← List.length_eq_zero_iff, hs, List.length_eq_zero_iff]
  by_cases hv : ValidArgs s parts threshold
  · have hv' : ValidArgs s' parts threshold := ⟨hv.1, hv.2.1, hv.2.2.1, fun h => hv.2.2.2 (hnil.2 h)⟩
    obtain ⟨hnd, h0⟩ := splitTags_facts hperm parts.toNat
    obtain ⟨e, he⟩ := Layout.seenBytes (layoutSplit threshold.toNat s.length) rfl hs.symm _ h0 I (fun j hj => by
      by_cases h : s.getD j 0 = s'.getD j 0
      · exact Or.inr h
      · have := hI j hj h
        exact Or.inl (by omega))
    refine count_congr e fun ρ => ?_
    obtain ⟨p1, e1⟩ := split_layout arch (stream ρ) ps hv hperm
    obtain ⟨p2, e2⟩ := split_layout arch (stream (e ρ)) ps hv' hperm
    rw [← hs] at e2
    have hiff : ∀ {o : Outcome (List (List Byte) × Pools)} {a p}, o = ok (a, p) →
        ((∃ shares ps', o = ok (shares, ps') ∧ SeenBytes s.length I v shares) ↔ SeenBytes s.length I v a) := by
      rintro o a p rfl
      constructor
      · rintro ⟨b, q, hq, hb⟩; cases hq; exact hb
      · intro h; exact ⟨a, p, rfl, h⟩
    rw [hiff e1, hiff e2]
    exact he v ρ
  · have hinv : ∀ s'' : List Byte, (s = [] ↔ s'' = []) → ∀ rnd : Nat → Byte, ¬ ∃ shares ps',
        split arch s'' parts threshold perm rnd ps = ok (shares, ps') ∧ SeenBytes s.length I v shares := by
      rintro s'' hn rnd ⟨sh, p, h, -⟩
      have := (split_ok arch hperm h).1
      exact hv ⟨this.1, this.2.1, this.2.2.1, fun h => this.2.2.2 (hn.1 h)⟩
    exact count_congr (Equiv.refl _) fun ρ => iff_of_false (hinv s Iff.rfl _) (hinv s' hnil _)

/-- C85 for SplitGeneric. -/
theorem C85_splitGeneric_bytes_secrecy (s s' : List Byte) (hs : s.length = s'.length) (parts threshold : Int)
    (perm : List Nat) (hperm : perm.Perm (List.range 255)) (I : Nat → Finset Nat)
    (hI : ∀ j < s.length, s.getD j 0 ≠ s'.getD j 0 → ((I j).card : Int) < threshold) (v : Nat → Nat → Byte) :
    count (m := (threshold.toNat - 1) * s.length) (fun ρ => ∃ shares,
        splitGeneric s parts threshold perm (stream ρ) = ok shares ∧ SeenBytes s.length I v shares)
      = count (m := (threshold.toNat - 1) * s.length) (fun ρ => ∃ shares,
        splitGeneric s' parts threshold perm (stream ρ) = ok shares ∧ SeenBytes s.length I v shares) := by
  have hnil : s = [] ↔ s' = [] := by rw [← List.length_eq_zero_iff, hs, List.length_eq_zero_iff]
  by_cases hv : ValidArgs s parts threshold
  · have hv' : ValidArgs s' parts threshold := ⟨hv.1, hv.2.1, hv.2.2.1, fun h => hv.2.2.2 (hnil.2 h)⟩
    obtain ⟨hnd, h0⟩ := splitTags_facts hperm parts.toNat
    obtain ⟨e, he⟩ := Layout.seenBytes (layoutGeneric threshold.toNat s.length) rfl hs.symm _ h0 I (fun j hj => by
      by_cases h : s.getD j 0 = s'.getD j 0
      · exact Or.inr h
      · have := hI j hj h
        exact Or.inl (by omega))
    refine count_congr e fun ρ => ?_
    have e1 := splitGeneric_layout (stream ρ) hv hperm
    have e2 := splitGeneric_layout (stream (e ρ)) hv' hperm
    rw [← hs] at e2
    have hiff : ∀ {o : Outcome (List (List Byte))} {a}, o = ok a →
        ((∃ shares, o = ok shares ∧ SeenBytes s.length I v shares) ↔ SeenBytes s.length I v a) := by
      rintro o a rfl
      constructor
      · rintro ⟨b, hq, hb⟩; cases hq; exact hb
      · intro h; exact ⟨a, rfl, h⟩
    rw [hiff e1, hiff e2]
    exact he v ρ
  · have hinv : ∀ s'' : List Byte, (s = [] ↔ s'' = []) → ∀ rnd : Nat → Byte, ¬ ∃ shares,
        splitGeneric s'' parts threshold perm rnd = ok shares ∧ SeenBytes s.length I v shares := by
      rintro s'' hn rnd ⟨sh, h, -⟩
      cases he : argError s'' parts threshold with
      | none =>
        have := argError_none.1 he
        exact hv ⟨this.1, this.2.1, this.2.2.1, fun h => this.2.2.2 (hn.1 h)⟩
      | some e => rw [splitGeneric_invalid perm rnd he] at h; cases h
    exact count_congr (Equiv.refl _) fun ρ => iff_of_false (hinv s Iff.rfl _) (hinv s' hnil _)

/-- C85: and `threshold` bytes of one position determine the byte of the secret there, whatever else is known or not: two sharings with
the same tags and threshold which agree in these bytes belong to secrets that agree there. -/
theorem C85_bytes_determine (s s' : List Byte) (hs : s.length = s'.length) (t : Nat) (out out' : List (List Byte))
    (h : IsSharing s t out) (h' : IsSharing s' t out') (htags : out.map tag = out'.map tag) (j : Nat) (hj : j < s.length) (I : Finset Nat)
    (hI : t ≤ I.card) (hb : ∀ i ∈ I, ∃ a b, out[i]? = some a ∧ out'[i]? = some b ∧ a.getD j 0 = b.getD j 0) :
    s.getD j 0 = s'.getD j 0 := by
  classical
  obtain ⟨hn, f, hf, hf'⟩ := h
  obtain ⟨-, g, hg, hg'⟩ := h'
  let T : Finset GF := I.image fun i => ⟨(out.map tag).getD i 0⟩
  have hlt : ∀ i ∈ I, i < out.length := by
    intro i hi
    obtain ⟨a, b, ha, -, -⟩ := hb i hi
    exact (List.getElem?_eq_some_iff.1 ha).1
  have hcard : T.card = I.card := by
    refine Finset.card_image_of_injOn fun a ha b hb' hab => ?_
    have ha := hlt a ha
    have hb' := hlt b hb'
    have hab : (out.map tag).getD a 0 = (out.map tag).getD b 0 := congrArg GF.val hab
    rw [getD_getElem (by simpa using ha), getD_getElem (by simpa using hb')] at hab
    exact (List.Nodup.getElem_inj_iff hn).1 hab
  have heq : f j = g j := by
    refine Polynomial.eq_of_degrees_lt_of_eval_finset_eq T ?_ ?_ ?_
    · exact lt_of_lt_of_le (hf j hj).1 (by rw [hcard]; exact_mod_cast hI)
    · exact lt_of_lt_of_le (hg j (by omega)).1 (by rw [hcard]; exact_mod_cast hI)
    · intro x hx
      obtain ⟨i, hi, rfl⟩ := Finset.mem_image.1 hx
      obtain ⟨a, b, ha, hb', hab⟩ := hb i hi
      obtain ⟨hil, ha⟩ := List.getElem?_eq_some_iff.1 ha
      obtain ⟨hil', hb'⟩ := List.getElem?_eq_some_iff.1 hb'
      have e1 : (out.map tag).getD i 0 = tag a := by
        rw [getD_getElem (by simpa using hil), List.getElem_map, ha]
      have e2 : (out.map tag).getD i 0 = tag b := by
        rw [htags, getD_getElem (by simpa using hil'), List.getElem_map, hb']
      have ma : a ∈ out := ha ▸ List.getElem_mem hil
      have mb : b ∈ out' := hb' ▸ List.getElem_mem hil'
      show (f j).eval ⟨(out.map tag).getD i 0⟩ = (g j).eval ⟨(out.map tag).getD i 0⟩
      rw [e1, ← (hf' a ma).2 j hj, hab, (hg' b mb).2 j (by omega), ← e2, ← e1]
  have e := (hf j hj).2
  rw [heq, (hg j (by omega)).2] at e
  exact (congrArg GF.val e).symm

/-- C85 applies: of two secrets that agree in byte 0, all three shares of a 2-out-of-3 Split may be known in byte 0, and one share in
byte 1; and there are such calls, whatever the random bytes. -/
example : ∀ (v : Nat → Nat → Byte) (ps : Pools),
    count (m := 2 * 2) (fun ρ => ∃ shares ps', split .arm64 [5, 7] 3 2 (List.range 255) (stream ρ) ps = ok (shares, ps')
        ∧ SeenBytes 2 (fun j => if j = 0 then {0, 1, 2} else {1}) v shares)
      = count (m := 2 * 2) (fun ρ => ∃ shares ps', split .arm64 [5, 9] 3 2 (List.range 255) (stream ρ) ps = ok (shares, ps')
        ∧ SeenBytes 2 (fun j => if j = 0 then {0, 1, 2} else {1}) v shares) := fun v ps =>
  C85_bytes_secrecy .arm64 [5, 7] [5, 9] rfl 3 2 (List.range 255) (List.Perm.refl _) ps _ (by
    intro j hj h
    have hj : j < 2 := hj
    interval_cases j
    · exact absurd rfl h
    · simp) v

example (rnd : Nat → Byte) (ps : Pools) : ∃ shares ps', split .arm64 [5, 7] 3 2 (List.range 255) rnd ps = ok (shares, ps')
    ∧ SeenBytes 2 (fun j => if j = 0 then {0, 1, 2} else {1}) (fun i j => (shares.getD i []).getD j 0) shares := by
  have hv : ValidArgs [5, 7] 3 2 := ⟨by decide, by decide, by decide, by simp⟩
  obtain ⟨p, e⟩ := split_layout .arm64 rnd ps hv (List.Perm.refl _)
  have hl := (split_ok .arm64 (List.Perm.refl _) e).2.2.1
  refine ⟨_, p, e, ?_⟩
  intro j hj i hi
  have hi : i < 3 := by
    interval_cases j
    · have : i = 0 ∨ i = 1 ∨ i = 2 := by simpa using hi
      omega
    · have : i = 1 := by simpa using hi
      omega
  have hi : i < _ := hi.trans_eq hl.symm
  exact ⟨_, List.getElem?_eq_getElem hi, by beta_reduce; rw [List.getD_eq_getElem?_getD (l := List.map _ _), List.getElem?_eq_getElem hi, Option.getD_some]⟩

/-- `C85_bytes_determine` applies: a sharing of [5, 7] whose byte 0 is known from two shares. -/
example (rnd rnd' : Nat → Byte) (s' : List Byte) (hs' : s'.length = 2) (ps ps1 ps2 : Pools) (out out' : List (List Byte))
    (h : split .arm64 [5, 7] 3 2 (List.range 255) rnd ps = ok (out, ps1))
    (h' : split .arm64 s' 3 2 (List.range 255) rnd' ps = ok (out', ps2))
    (hb : ∀ i ∈ ({0, 2} : Finset Nat), ∃ a b, out[i]? = some a ∧ out'[i]? = some b ∧ a.getD 0 0 = b.getD 0 0) : s'.getD 0 0 = 5 := by
  obtain ⟨-, h1, -, t1, -⟩ := split_ok .arm64 (List.Perm.refl _) h
  obtain ⟨-, h2, -, t2, -⟩ := split_ok .arm64 (List.Perm.refl _) h'
  exact (C85_bytes_determine [5, 7] s' hs'.symm 2 out out' h1 h2 (t1.trans t2.symm) 0 (by simp) {0, 2} (by decide) hb).symm

end Verif.Props
