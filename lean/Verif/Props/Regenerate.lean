import Verif.Proofs.Regenerate
import Verif.Props.Sharing

/-! # C22–C25: Regenerate

`rnd` are the bytes `rand.Read(newXs)` delivers, `u` the later values of `byte(rand.Uint32())`; both are
arbitrary.  `fuel` bounds the iterations of the de-duplication loop in the model; a call that never
returns is one that is `spin` for every fuel. -/

namespace Verif.Props
open Verif Outcome Spec Proofs Shamir Polynomial Galois

/-- C22: regenerated shares lie on the same polynomials as the given ones, provided those polynomials have
degree below the number of given shares.  (The theorem can be applied again to its own output, so this covers
chains of regenerations.) -/
theorem C22_regenerate_same_polynomials (f : Nat → GF[X]) (N : Nat) (fuel : Nat) (parts new : List (List Byte))
    (n : Int) (rnd u : Nat → Byte) (hd : ∀ j < N, (f j).degree < parts.length)
    (hp : ∀ p ∈ parts, IsShareOf f N p) (h : regenerate fuel parts n rnd u = ok new) :
    (new.length : Int) = n ∧ ∀ p ∈ new, IsShareOf f N p := by
  obtain ⟨⟨h1, h2, h3, h4⟩, hn, -, rfl⟩ := regenerate_ok h
  refine ⟨by simp; omega, ?_⟩
  intro p hpm
  obtain ⟨k, -, rfl⟩ := List.mem_map.1 hpm
  have hh : (parts.headD []).length = N + 1 := (hp _ (headD_mem h1)).1
  rw [hh]
  refine ⟨by simp [newShare], fun j hj => ?_⟩
  rw [tag_newShare]
  have e : (newShare parts (N + 1 - 1) (rnd k)).getD j 0 = lagrangeAt (tags parts) (column parts j) (rnd k) := by
    unfold newShare
    rw [List.getD_eq_getElem?_getD, List.getElem?_append_left (by simpa using hj)]
    simp [hj]
  rw [e, lagrangeAt_of_poly h4 (f j) (by simpa using hd j hj)]
  intro i hi
  have hi : i < parts.length := by simpa using hi
  have := (hp _ (List.getElem_mem hi)).2 j hj
  rw [getD_getElem (by simpa using hi), getD_getElem (by simpa using hi)]
  simpa [column, tags] using this

/-- C22: any `t` shares with distinct tags from the old and the new ones combine to the secret. -/
theorem C22_regenerate_combine (secret : List Byte) (hN : secret ≠ []) (t : Nat) (h2 : 2 ≤ t)
    (shares : List (List Byte)) (hs : IsSharing secret t shares) (fuel : Nat) (parts new : List (List Byte))
    (n : Int) (rnd u : Nat → Byte) (hsub : parts ⊆ shares) (ht : t ≤ parts.length)
    (h : regenerate fuel parts n rnd u = ok new) (mix : List (List Byte)) (hmix : mix ⊆ shares ++ new)
    (hn : (mix.map tag).Nodup) (hmt : t ≤ mix.length) : combine mix = ok secret := by
  obtain ⟨-, f, hf, hall⟩ := hs
  have hnew := (C22_regenerate_same_polynomials f secret.length fuel parts new n rnd u
    (fun j hj => lt_of_lt_of_le (hf j hj).1 (by exact_mod_cast ht)) (fun p hp => hall p (hsub hp)) h).2
  refine combine_shares hf (fun s hs => ?_) hn (by omega) hmt hN
  rcases List.mem_append.1 (hmix hs) with h | h
  · exact hall s h
  · exact hnew s h

/-- C22 for the shares of `Split`. -/
theorem C22_split_regenerate_combine (arch : Arch) (secret : List Byte) (k threshold : Int) (perm : List Nat)
    (hperm : perm.Perm (List.range 255)) (rnd : Nat → Byte) (ps ps' : Pools) (shares : List (List Byte))
    (hsplit : split arch secret k threshold perm rnd ps = ok (shares, ps'))
    (fuel : Nat) (parts new : List (List Byte)) (n : Int) (rnd' u : Nat → Byte) (hsub : parts ⊆ shares)
    (ht : threshold ≤ parts.length) (h : regenerate fuel parts n rnd' u = ok new)
    (mix : List (List Byte)) (hmix : mix ⊆ shares ++ new)
    (hn : (mix.map tag).Nodup) (hmt : threshold ≤ mix.length) : combine mix = ok secret := by
  obtain ⟨hv, hs, -⟩ := split_ok arch hperm hsplit
  have := hv.2.2.1
  exact C22_regenerate_combine secret hv.2.2.2 threshold.toNat (by omega) shares hs fuel parts new n rnd' u hsub
    (by omega) h mix hmix hn (by omega)

/-- C23: the tags of the regenerated shares are the raw random bytes, in order. -/
theorem C23_tags_are_raw_random_bytes (fuel : Nat) (parts new : List (List Byte)) (n : Int) (rnd u : Nat → Byte)
    (h : regenerate fuel parts n rnd u = ok new) : new.map tag = (List.range n.toNat).map rnd := by
  obtain ⟨-, -, -, rfl⟩ := regenerate_ok h
  rw [List.map_map]
  apply List.map_congr_left
  intro k _
  exact tag_newShare _ _ _

/-- C22, closed form for arbitrary parts (also forged ones or too few): new share number `k` consists of the values at
its tag of the interpolation polynomials through the given shares.  In particular the result depends neither on the later
random bytes `u` nor on the number of iterations. -/
theorem C22_closed_form (fuel : Nat) (parts new : List (List Byte)) (n : Int) (rnd u : Nat → Byte)
    (h : regenerate fuel parts n rnd u = ok new) : ∃ N, (∀ p ∈ parts, p.length = N + 1) ∧
    new = (List.range n.toNat).map fun k =>
      (List.range N).map (fun j => lagrangeAt (parts.map tag) (parts.map fun p => p.getD j 0) (rnd k)) ++ [rnd k] := by
  obtain ⟨⟨h1, h2, h3, h4⟩, -, -, rfl⟩ := regenerate_ok h
  exact ⟨(parts.headD []).length - 1, fun p hp => by rw [h3 p hp]; omega, rfl⟩

/-- Every byte value occurs infinitely often. -/
def Fair (u : Nat → Byte) : Prop := ∀ (b : Byte) i, ∃ j, i ≤ j ∧ u j = b

/-- Input that passes Regenerate's checks. -/
def Regenerable (parts : List (List Byte)) : Prop := combineError parts = none

instance (parts : List (List Byte)) : Decidable (Regenerable parts) := by unfold Regenerable; infer_instance

theorem regenerable_iff {parts : List (List Byte)} : Regenerable parts ↔
    2 ≤ parts.length ∧ 2 ≤ (parts.headD []).length ∧
      (∀ p ∈ parts, p.length = (parts.headD []).length) ∧ (tags parts).Nodup := by
  unfold Regenerable combineError tags
  constructor
  · intro h
    split at h
    · cases h
    split at h
    · cases h
    split at h
    · cases h
    split at h
    · cases h
    rename_i h1 h2 h3 h4
    push Not at h3
    exact ⟨by omega, by omega, h3, not_not.1 h4⟩
  · rintro ⟨h1, h2, h3, h4⟩
    rw [if_neg (by omega), if_neg (by omega), if_neg (by push Not; exact h3), if_neg (not_not.2 h4)]

/-- C24: with room for the new tags and a fair random source Regenerate returns, and more fuel does not
change the result. -/
theorem C24_returns (parts : List (List Byte)) (hp : Regenerable parts) (n : Int) (hn : 0 ≤ n)
    (hle : n + parts.length ≤ 256) (rnd u : Nat → Byte) (hu : Fair u) :
    ∃ fuel new, ∀ fuel' ≥ fuel, regenerate fuel' parts n rnd u = ok new := by
  obtain ⟨h1, h2, h3, h4⟩ := regenerable_iff.1 hp
  obtain ⟨fuel, r, hr⟩ := regenDedupe_terminates hu ((List.range n.toNat).map rnd) (tags parts).reverse
    (by simp; omega)
  refine ⟨fuel, (List.range n.toNat).map fun k => newShare parts ((parts.headD []).length - 1) (rnd k),
    fun fuel' hf => ?_⟩
  rw [regenerate_eq, if_neg (by omega), if_neg (by omega), if_neg (not_not.2 h3), if_neg (by omega),
    if_neg (not_not.2 h4), regenDedupe_mono hf hr, ok_bind]

/-- C24: when the raw random bytes are distinct and unused Regenerate returns at once, whatever follows. -/
theorem C24_returns_fresh (parts : List (List Byte)) (hp : Regenerable parts) (n : Int) (hn : 0 ≤ n)
    (rnd u : Nat → Byte) (hnd : ((List.range n.toNat).map rnd).Nodup)
    (hd : ∀ k < n.toNat, rnd k ∉ parts.map tag) (fuel : Nat) :
    ∃ new, regenerate (fuel + 1) parts n rnd u = ok new := by
  obtain ⟨h1, h2, h3, h4⟩ := regenerable_iff.1 hp
  have hr := regenDedupe_fresh u fuel ((List.range n.toNat).map rnd) (tags parts).reverse hnd
    (by
      intro x hx
      obtain ⟨k, hk, rfl⟩ := List.mem_map.1 hx
      rw [List.mem_reverse]
      exact hd k (by simpa using hk))
  refine ⟨(List.range n.toNat).map fun k => newShare parts ((parts.headD []).length - 1) (rnd k), ?_⟩
  rw [regenerate_eq, if_neg (by omega), if_neg (by omega), if_neg (not_not.2 h3), if_neg (by omega),
    if_neg (not_not.2 h4), hr, ok_bind]

/-- C24: asking for more new shares than there are unused tags never returns, for any random source. -/
theorem C24_diverges (parts : List (List Byte)) (hp : Regenerable parts) (n : Int)
    (hgt : 256 < n + parts.length) (rnd u : Nat → Byte) (fuel : Nat) (hn : 0 ≤ n) :
    regenerate fuel parts n rnd u = spin := by
  obtain ⟨h1, h2, h3, h4⟩ := regenerable_iff.1 hp
  have he := regenerate_eq fuel parts n rnd u
  rw [if_neg (by omega), if_neg (by omega), if_neg (not_not.2 h3), if_neg (by omega), if_neg (not_not.2 h4)] at he
  rcases regenDedupe_cases u fuel ((List.range n.toNat).map rnd) (tags parts).reverse
    (List.nodup_reverse.2 h4) with h | ⟨cm, pos, h, -⟩
  · rw [he, h]; rfl
  · rw [h, ok_bind] at he
    exact absurd (regenerate_ok he).2.2.1 (by omega)

/-- C24: a negative number of new shares panics; ill-formed input gives the error Combine would give (for a
duplicate tag only if the number is not negative). -/
theorem C24_rejects (fuel : Nat) (parts : List (List Byte)) (n : Int) (rnd u : Nat → Byte) :
    (∀ e, combineError parts = some e → (e ≠ .duplicatePart ∨ 0 ≤ n) → regenerate fuel parts n rnd u = err e) ∧
    (n < 0 → combineError parts = none ∨ combineError parts = some .duplicatePart →
      regenerate fuel parts n rnd u = panic) := by
  rw [regenerate_eq]
  unfold combineError tags
  by_cases h1 : parts.length < 2
  · simp only [h1, if_true]
    exact ⟨fun e he _ => by cases he; rfl, fun _ h => by simp at h⟩
  by_cases h2 : (parts.headD []).length < 2
  · simp only [h1, h2, if_false, if_true]
    exact ⟨fun e he _ => by cases he; rfl, fun _ h => by simp at h⟩
  by_cases h3 : ∀ p ∈ parts, p.length = (parts.headD []).length
  swap
  · have h3' : ∃ p ∈ parts, p.length ≠ (parts.headD []).length := by push Not at h3; exact h3
    rw [if_neg h1, if_neg h2, if_pos h3', if_neg h1, if_neg h2, if_pos h3]
    exact ⟨fun e he _ => by cases he; rfl, fun _ h => by simp at h⟩
  have h3' : ¬ ∃ p ∈ parts, p.length ≠ (parts.headD []).length := by push Not; exact h3
  rw [if_neg h1, if_neg h2, if_neg h3', if_neg h1, if_neg h2, if_neg (not_not.2 h3)]
  by_cases hn : n < 0
  · rw [if_pos hn]
    refine ⟨fun e he h => ?_, fun _ _ => rfl⟩
    split at he
    · cases he
      rcases h with h | h
      · exact absurd rfl h
      · omega
    · cases he
  · rw [if_neg hn]
    refine ⟨fun e he h => ?_, fun h _ => absurd h hn⟩
    split at he
    · rename_i h4
      cases he
      rw [if_pos h4]
    · cases he

/-- C23: duplicates are not prevented. Whenever at least two new shares are requested (and there is room),
there are random sources, fair ones among them, for which Regenerate returns the same share twice; and for
every given share there are fair sources for which Regenerate returns that very share as a "new" one. -/
theorem C23_duplicates_possible (parts : List (List Byte)) (hp : Regenerable parts) (n : Int)
    (hle : n + parts.length ≤ 256) (u : Nat → Byte) (hu : Fair u) :
    (2 ≤ n → ∀ x : Byte, ∃ rnd fuel new, regenerate fuel parts n rnd u = ok new ∧
      ∃ a b, a < b ∧ b < new.length ∧ new[a]? = new[b]? ∧ (new[a]?.map tag) = some x) ∧
    (1 ≤ n → ∀ p ∈ parts, ∃ rnd fuel new, regenerate fuel parts n rnd u = ok new ∧ tag p ∈ new.map tag) := by
  refine ⟨fun h2 x => ?_, fun h1 p hpm => ?_⟩
  · obtain ⟨fuel, new, h⟩ := C24_returns parts hp n (by omega) hle (fun _ => x) u hu
    have h := h fuel le_rfl
    refine ⟨_, fuel, new, h, 0, 1, by omega, ?_⟩
    obtain ⟨-, -, -, rfl⟩ := regenerate_ok h
    refine ⟨by simp; omega, ?_, ?_⟩
    · rw [List.getElem?_map, List.getElem?_map, List.getElem?_range (by omega), List.getElem?_range (by omega)]
      rfl
    · rw [List.getElem?_map, List.getElem?_range (by omega)]
      simp [tag_newShare]
  · obtain ⟨fuel, new, h⟩ := C24_returns parts hp n (by omega) hle (fun _ => tag p) u hu
    have h := h fuel le_rfl
    refine ⟨_, fuel, new, h, ?_⟩
    rw [C23_tags_are_raw_random_bytes _ _ _ _ _ _ h]
    exact List.mem_map.2 ⟨0, by simp; omega, rfl⟩

/-- C25: a new share whose tag equals the tag of a given share is that share. -/
theorem C25_known_tag (fuel : Nat) (parts new : List (List Byte)) (n : Int) (rnd u : Nat → Byte)
    (h : regenerate fuel parts n rnd u = ok new) (q : List Byte) (hq : q ∈ new) (p : List Byte) (hp : p ∈ parts)
    (ht : tag q = tag p) : q = p := by
  obtain ⟨⟨h1, h2, h3, h4⟩, -, -, rfl⟩ := regenerate_ok h
  obtain ⟨k, -, rfl⟩ := List.mem_map.1 hq
  rw [tag_newShare] at ht
  obtain ⟨N, hN⟩ : ∃ N, (parts.headD []).length = N + 1 := ⟨(parts.headD []).length - 1, by omega⟩
  have hpl : p.length = N + 1 := by rw [h3 p hp, hN]
  rw [hN, ht]
  apply List.ext_getElem?
  intro j
  rcases Nat.lt_or_ge j N with hj | hj
  · unfold newShare
    rw [List.getElem?_append_left (by simpa using hj), List.getElem?_map, List.getElem?_range (by simpa using hj),
      List.getElem?_eq_getElem (by omega)]
    simp only [Option.map_some, Option.some.injEq]
    have := interp_eval h4 j hp
    rw [getD_getElem (by omega)] at this
    exact congrArg GF.val this
  · rcases Nat.eq_or_lt_of_le hj with e | hj
    · subst e
      unfold newShare
      rw [List.getElem?_append_right (by simp)]
      simp [tag, hpl, List.getElem?_eq_getElem]
    · rw [List.getElem?_eq_none (by simp [newShare]; omega), List.getElem?_eq_none (by omega)]

/-- C25: a new share with tag 0 is the combined secret in clear, followed by 0. -/
theorem C25_tag_zero (fuel : Nat) (parts new : List (List Byte)) (n : Int) (rnd u : Nat → Byte)
    (h : regenerate fuel parts n rnd u = ok new) (q : List Byte) (hq : q ∈ new) (ht : tag q = 0) :
    ∃ s, combine parts = ok s ∧ q = s ++ [0] := by
  obtain ⟨hparts, -, -, rfl⟩ := regenerate_ok h
  obtain ⟨k, -, rfl⟩ := List.mem_map.1 hq
  rw [tag_newShare] at ht
  refine ⟨_, combine_ok_iff.2 ⟨hparts, rfl⟩, ?_⟩
  rw [ht]; rfl

/-! Non-vacuity -/

/-- a sharing of [7] with polynomial 7 + 3x: shares at 1, 2 -/
example : Regenerable [[4, 1], [1, 2]] := by decide

example : Fair (fun i => BitVec.ofNat 8 i) := by
  intro b i
  refine ⟨256 * i + b.toNat, by omega, ?_⟩
  apply BitVec.eq_of_toNat_eq
  simp only [BitVec.toNat_ofNat]
  have := b.isLt
  omega

/-- Regenerating from the shares at 1 and 2 of 7 + 3x (here with tag 0, which yields the secret 7, and tag 3), and
combining the new share with tag 3 with an old one. -/
example : ∃ new, regenerate 1 [[4, 1], [1, 2]] 2 (fun i => [0, 3].getD i 0) (fun _ => 0) = ok new ∧
    new = [[7, 0], [2, 3]] ∧ combine [[2, 3], [4, 1]] = ok [7] ∧ new.map tag = [0, 3] := by
  refine ⟨[[7, 0], [2, 3]], ?_, rfl, ?_, rfl⟩ <;> decide +kernel

/-- A random byte that is in use is replaced only in the set of used tags: the share with tag 1 is returned again. -/
example : regenerate 3 [[4, 1], [1, 2]] 1 (fun _ => 1) (fun i => BitVec.ofNat 8 (i + 2)) = ok [[4, 1]] := by
  decide +kernel

/-- The source never delivers an unused byte: no return. -/
example : ∀ fuel, regenerate fuel [[4, 1], [1, 2]] 255 (fun i => BitVec.ofNat 8 i) (fun i => BitVec.ofNat 8 i) = spin :=
  fun fuel => C24_diverges _ (by decide) 255 (by decide) _ _ fuel (by decide)

example : ∃ fuel new, ∀ fuel' ≥ fuel,
    regenerate fuel' [[4, 1], [1, 2]] 254 (fun _ => 9) (fun i => BitVec.ofNat 8 i) = ok new :=
  C24_returns _ (by decide) 254 (by decide) (by decide) _ _ (by
    intro b i
    refine ⟨256 * i + b.toNat, by omega, ?_⟩
    apply BitVec.eq_of_toNat_eq
    simp only [BitVec.toNat_ofNat]
    have := b.isLt
    omega)

/-- tag 0 and an unused tag, both returned by one call -/
example : ∃ new, regenerate 1 [[4, 1], [1, 2]] 2 (fun i => [0, 3].getD i 0) (fun _ => 0) = ok new :=
  C24_returns_fresh _ (by decide) 2 (by decide) _ _ (by decide) (by decide) 0

theorem ex_regen : regenerate 1 [[4, 1], [1, 2]] 2 (fun i => [0, 3].getD i 0) (fun _ => 0) = ok [[7, 0], [2, 3]] := by
  decide +kernel

/-- C22: the shares of 7 + 3x. -/
theorem ex_line : ∀ s ∈ [[4, 1], [1, 2]], IsShareOf (fun _ => Polynomial.C (⟨7⟩ : GF) + Polynomial.C ⟨3⟩ * Polynomial.X) 1 s := by
  intro s hs
  simp only [List.mem_cons, List.not_mem_nil, or_false] at hs
  rcases hs with rfl | rfl <;> refine ⟨rfl, fun j hj => ?_⟩ <;> obtain rfl : j = 0 := by omega
  all_goals
    simp only [Polynomial.eval_add, Polynomial.eval_mul, Polynomial.eval_C, Polynomial.eval_X]
    decide +kernel

theorem ex_line_degree : ∀ j < 1, ((fun _ => Polynomial.C (⟨7⟩ : GF) + Polynomial.C ⟨3⟩ * Polynomial.X : Nat → GF[X]) j).degree
    < (2 : Nat) := fun _ _ =>
  lt_of_le_of_lt (Polynomial.degree_add_le _ _) (max_lt (lt_of_le_of_lt Polynomial.degree_C_le (by norm_num))
    (lt_of_le_of_lt (Polynomial.degree_C_mul_X_le _) (by norm_num)))

example : ∀ p ∈ [[7, 0], [2, 3]], IsShareOf (fun _ => Polynomial.C (⟨7⟩ : GF) + Polynomial.C ⟨3⟩ * Polynomial.X) 1 p :=
  (C22_regenerate_same_polynomials _ 1 1 [[4, 1], [1, 2]] _ 2 _ _ ex_line_degree ex_line ex_regen).2

example : combine [[2, 3], [4, 1]] = ok [7] := by
  refine C22_regenerate_combine [7] (by simp) 2 (by omega) [[4, 1], [1, 2]] ?_ 1 [[4, 1], [1, 2]] _ 2 _ _ (by simp) (by simp)
    ex_regen _ (by simp) (by decide) (by simp)
  refine ⟨by decide, _, ?_, ex_line⟩
  intro j hj
  refine ⟨ex_line_degree j hj, ?_⟩
  obtain rfl : j = 0 := by simpa using hj
  simp only [Polynomial.eval_add, Polynomial.eval_mul, Polynomial.eval_C, Polynomial.eval_X]
  decide +kernel

/-- C22: three shares of a sharing with threshold 3 give two more; four shares, two of them new, give the secret. -/
example (arch : Arch) (rnd : Nat → Byte) : ∃ shares ps' new,
    split arch [5, 9] 5 3 (List.range 255) rnd (Pools.init 1) = ok (shares, ps') ∧
    regenerate 1 (shares.take 3) 2 (fun k => 200 + BitVec.ofNat 8 k) (fun _ => 0) = ok new ∧
    combine (shares.drop 3 ++ new) = ok [5, 9] := by
  obtain ⟨⟨shares, ps'⟩, e⟩ := C13_split_validates arch [5, 9] 5 3 (List.range 255) (List.Perm.refl _) rnd (Pools.init 1)
  have hl : shares.length = 5 := by have := (C12_split_format arch _ _ _ _ (List.Perm.refl _) _ _ _ _ e).1; omega
  have hf := C12_split_format arch _ _ _ _ (List.Perm.refl _) _ _ _ _ e
  have htg : shares.map tag = [1, 2, 3, 4, 5] := by rw [hf.2.2.2.2]; decide
  have ht3 : (shares.take 3).map tag = [1, 2, 3] := by rw [List.map_take, htg]; rfl
  have hreg : Regenerable (shares.take 3) := by
    have hlen : ∀ p ∈ shares.take 3, p.length = 3 := fun p hp => hf.2.1 p (List.mem_of_mem_take hp)
    have hl3 : (shares.take 3).length = 3 := by rw [List.length_take]; omega
    have hh : ((shares.take 3).headD []).length = 3 := by
      generalize shares.take 3 = l at hlen hl3
      match l, hl3 with
      | a :: _, _ => exact hlen a (by simp)
    exact regenerable_iff.2 ⟨by omega, by omega, by rw [hh]; exact hlen, by
      have : tags (shares.take 3) = [1, 2, 3] := ht3
      rw [this]; decide⟩
  obtain ⟨new, hnew⟩ := C24_returns_fresh (shares.take 3) hreg 2 (by decide) (fun k => 200 + BitVec.ofNat 8 k) (fun _ => 0)
    (by decide) (by rw [ht3]; decide) 0
  refine ⟨shares, ps', new, e, hnew, ?_⟩
  have htn := C23_tags_are_raw_random_bytes _ _ _ _ _ _ hnew
  have hmt : (shares.drop 3 ++ new).map tag = [4, 5, 200, 201] := by
    rw [List.map_append, List.map_drop, htg, htn]; decide
  have hlen : (shares.drop 3 ++ new).length = 4 := by
    have := congrArg List.length hmt
    simpa using this
  refine C22_split_regenerate_combine arch _ _ _ _ (List.Perm.refl _) _ _ _ _ e _ _ _ _ _ _ (List.take_subset _ _) ?_ hnew _
    (fun x hx => ?_) (by rw [hmt]; decide) (by omega)
  · rw [List.length_take]; omega
  · rcases List.mem_append.1 hx with h | h
    · exact List.mem_append_left _ (List.mem_of_mem_drop h)
    · exact List.mem_append_right _ h

/-- C24: rejections. -/
example : regenerate 5 [[4, 1], [1, 1]] 2 (fun _ => 0) (fun _ => 0) = err .duplicatePart ∧
    regenerate 5 [[4, 1], [1, 2]] (-1) (fun _ => 0) (fun _ => 0) = panic :=
  ⟨(C24_rejects _ _ _ _ _).1 _ (by decide) (Or.inr (by decide)), (C24_rejects _ _ _ _ _).2 (by decide) (Or.inl (by decide))⟩

/-- C25: a regenerated share with a known tag, and one with tag 0. -/
example : ([4, 1] : List Byte) = [4, 1] :=
  C25_known_tag 3 [[4, 1], [1, 2]] [[4, 1]] 1 (fun _ => 1) (fun i => BitVec.ofNat 8 (i + 2)) (by decide +kernel) _ (by simp) _
    (by simp) rfl

example : ∃ s, combine [[4, 1], [1, 2]] = ok s ∧ [7, 0] = s ++ [0] :=
  C25_tag_zero 1 _ _ 2 _ _ ex_regen [7, 0] (by simp) rfl

/-- C22: the first new share is the value at 0 of the line through the two shares. -/
example : lagrangeAt [1, 2] [4, 1] 0 = 7 := by
  obtain ⟨N, hN, h⟩ := C22_closed_form 1 [[4, 1], [1, 2]] _ 2 _ _ ex_regen
  have := hN [4, 1] (by simp)
  obtain rfl : N = 1 := by simp at this; omega
  simpa [List.range_succ, tag] using (congrArg (fun l => (l.getD 0 []).getD 0 0) h).symm

/-- C23: two new shares with the same tag 77. -/
example : ∃ rnd fuel new, regenerate fuel [[4, 1], [1, 2]] 2 rnd (fun i => BitVec.ofNat 8 i) = ok new ∧
    ∃ a b, a < b ∧ b < new.length ∧ new[a]? = new[b]? ∧ (new[a]?.map tag) = some 77 := by
  refine (C23_duplicates_possible [[4, 1], [1, 2]] (by decide) 2 (by decide) _ ?_).1 (by decide) 77
  intro b i
  refine ⟨256 * i + b.toNat, by omega, ?_⟩
  apply BitVec.eq_of_toNat_eq
  simp only [BitVec.toNat_ofNat]
  have := b.isLt
  omega

end Verif.Props
