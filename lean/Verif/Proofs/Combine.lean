import Verif.Proofs.Interp
import Verif.Model.Shamir

/-! # Closed form of Combine -/

namespace Verif.Proofs
open Verif Spec Outcome Polynomial Shamir

/-- column `j` of the shares -/
def column (parts : List (List Byte)) (j : Nat) : List Byte := parts.map fun p => p.getD j 0

/-- all tags -/
def tags (parts : List (List Byte)) : List Byte := parts.map tag

@[simp] theorem length_column (parts : List (List Byte)) (j : Nat) : (column parts j).length = parts.length := by
  simp [column]
@[simp] theorem length_tags (parts : List (List Byte)) : (tags parts).length = parts.length := by
  simp [tags]

theorem checkLengths_eq (parts : List (List Byte)) (L : Nat) :
    checkLengths parts L = if ∀ p ∈ parts.tail, p.length = L then ok () else err .partLengthMismatch := by
  unfold checkLengths
  have : ∀ n ≤ parts.length - 1, forUp n (fun i (_ : Unit) => do
      let p ← idx parts (i + 1)
      if p.length ≠ L then err .partLengthMismatch
      pure ()) () = if ∀ p ∈ parts.tail.take n, p.length = L then ok () else err .partLengthMismatch := by
    intro n
    induction n with
    | zero => intro _; simp [forUp]
    | succ n ih =>
      intro hn
      have h1 : n + 1 < parts.length := by omega
      have h2 : n < parts.tail.length := by simp; omega
      have hget : parts[n + 1] = parts.tail[n] := by simp
      have htk : parts.tail.take (n + 1) = parts.tail.take n ++ [parts.tail[n]] := by
        rw [List.take_add_one, List.getElem?_eq_getElem h2]; rfl
      rw [forUp, ih (by omega), htk]
      by_cases hall : ∀ p ∈ parts.tail.take n, p.length = L
      · rw [if_pos hall, ok_bind, idx_ok h1, ok_bind, hget]
        by_cases hp : parts.tail[n].length = L
        · rw [if_neg (by simpa using hp), if_pos]
          · rfl
          · intro p hp'
            rcases List.mem_append.1 hp' with h | h
            · exact hall p h
            · rw [List.mem_singleton.1 h]; exact hp
        · rw [if_pos hp, if_neg]
          · rfl
          · intro h; exact hp (h _ (by simp))
      · rw [if_neg hall, if_neg]
        · rfl
        · intro h; exact hall fun p hp => h p (List.mem_append_left _ hp)
  rw [this _ (le_refl _)]
  have e : parts.tail.take (parts.length - 1) = parts.tail := List.take_of_length_le (by simp)
  rw [e]

theorem collectTags_eq {parts : List (List Byte)} {L : Nat} (hL : 0 < L)
    (hlen : ∀ p ∈ parts, p.length = L) (xs0 : List Byte) (h0 : xs0.length = parts.length) :
    collectTags parts L xs0 =
      if (tags parts).Nodup then ok (tags parts, (tags parts).reverse) else err .duplicatePart := by
  unfold collectTags
  have key : ∀ n ≤ parts.length, forUp n (fun i (st : List Byte × List Byte) => do
      let (x_samples, checkMap) := st
      let part ← idx parts i
      let samp ← idx part (L - 1)
      if samp ∈ checkMap then err .duplicatePart
      let x_samples ← setIdx x_samples i samp
      pure (x_samples, samp :: checkMap)) (xs0, []) =
      if ((tags parts).take n).Nodup then
        ok (filled (fun i => (tags parts).getD i 0) xs0 n, ((tags parts).take n).reverse)
      else err .duplicatePart := by
    intro n
    induction n with
    | zero => intro _; simp [forUp]
    | succ n ih =>
      intro hn
      have h1 : n < parts.length := by omega
      have h2 : n < (tags parts).length := by simpa using h1
      have hp : parts[n].length = L := hlen _ (List.getElem_mem _)
      have htag : (tags parts)[n] = parts[n].getD (L - 1) 0 := by
        simp [tags, tag, hp]
      have htk : (tags parts).take (n + 1) = (tags parts).take n ++ [(tags parts)[n]] := by
        rw [List.take_add_one, List.getElem?_eq_getElem h2]; rfl
      rw [forUp, ih (by omega), htk]
      by_cases hall : ((tags parts).take n).Nodup
      · rw [if_pos hall, ok_bind]
        simp only
        rw [idx_ok h1, ok_bind, idx_getD (by omega), ok_bind, ← htag]
        by_cases hm : (tags parts)[n] ∈ (tags parts).take n
        · rw [if_pos (by simpa using hm), if_neg]
          · rfl
          · intro hnd
            obtain ⟨-, -, h⟩ := List.nodup_append.1 hnd
            exact h _ hm _ (List.mem_singleton.2 rfl) rfl
        · rw [if_neg (by simpa using hm), if_pos]
          · simp only [Outcome.pure_eq, ok_bind]
            rw [setIdx_filled (by omega) (getD_getElem h2 0).symm, ok_bind, List.reverse_append]
            rfl
          · refine List.nodup_append.2 ⟨hall, List.nodup_singleton _, ?_⟩
            intro a ha b hb
            rw [List.mem_singleton.1 hb]
            rintro rfl
            exact hm ha
      · rw [if_neg hall, if_neg (fun h => hall (List.nodup_append.1 h).1)]; rfl
  rw [key _ (le_refl _)]
  have e : (tags parts).take parts.length = tags parts := List.take_of_length_le (by simp)
  rw [e]
  split
  · rw [filled_all h0.symm]
    congr 2
    conv_lhs => rw [← length_tags parts]
    have := range_map_getElem (tags parts) id 0
    simpa using this
  · rfl

theorem collectY_eq {parts : List (List Byte)} {j : Nat} (hj : ∀ p ∈ parts, j < p.length)
    (ys0 : List Byte) (h0 : ys0.length = parts.length) : collectY parts j ys0 = ok (column parts j) := by
  unfold collectY
  rw [forUp_fill (fun i => (column parts j).getD i 0) (by omega)]
  · rw [filled_all h0.symm]
    conv_lhs => rw [← length_column parts j]
    have := range_map_getElem (column parts j) id 0
    simpa using this
  · intro i hi
    have : j < parts[i].length := hj _ (List.getElem_mem _)
    rw [idx_ok hi, ok_bind, idx_getD this, ok_bind, setIdx_filled (by omega)]
    rw [getD_getElem (l := column parts j) (by simpa using hi), getD_getElem this]
    simp [column, List.getD_eq_getElem?_getD, List.getElem?_eq_getElem this]

/-- The value Combine returns for well-formed input: bytewise interpolation at 0. -/
noncomputable def recover (parts : List (List Byte)) (N : Nat) : List Byte :=
  (List.range N).map fun j => lagrangeAt (tags parts) (column parts j) 0

/-- The decisions of Combine, in order. -/
theorem combine_eq (parts : List (List Byte)) :
    combine parts =
      if parts.length < 2 then err .lessThanTwoParts
      else if (parts.headD []).length < 2 then err .partTooShort
      else if ¬ ∀ p ∈ parts, p.length = (parts.headD []).length then err .partLengthMismatch
      else if ¬ (tags parts).Nodup then err .duplicatePart
      else ok (recover parts ((parts.headD []).length - 1)) := by
  unfold combine
  by_cases h1 : parts.length < 2
  · rw [if_pos h1, if_pos h1]; rfl
  rw [if_neg h1, if_neg h1]
  simp only [Outcome.pure_eq, ok_bind]
  obtain ⟨p0, rest, rfl⟩ : ∃ p0 rest, parts = p0 :: rest := by
    cases parts with
    | nil => simp at h1
    | cons a b => exact ⟨a, b, rfl⟩
  rw [idx_ok (by simp), ok_bind]
  have hh : (p0 :: rest).headD [] = p0 := rfl
  rw [hh]
  simp only [List.getElem_cons_zero]
  by_cases h2 : p0.length < 2
  · rw [if_pos h2, if_pos h2]; rfl
  rw [if_neg h2, if_neg h2, checkLengths_eq]
  by_cases h3 : ∀ p ∈ p0 :: rest, p.length = p0.length
  · rw [if_pos (fun p hp => h3 p (by simp at hp; simp [hp])), ok_bind, if_neg (not_not.2 h3)]
    rw [collectTags_eq (by omega) h3 _ (by simp)]
    by_cases h4 : (tags (p0 :: rest)).Nodup
    · rw [if_pos h4, ok_bind, if_neg (not_not.2 h4)]
      simp only
      rw [List.length_replicate]
      -- the loop over the secret bytes
      obtain ⟨st, hst, P1, P2⟩ := forUp_inv (n := p0.length - 1)
        (body := fun j (st : List Byte × List Byte) => do
          let (secret, y_samples) := st
          let y_samples ← collectY (p0 :: rest) j y_samples
          let val ← interpolatePolynomial (tags (p0 :: rest)) y_samples 0
          let secret ← setIdx secret j val
          (ok (secret, y_samples) : Outcome _))
        (s := (List.replicate (p0.length - 1) (0 : Byte), List.replicate (p0 :: rest).length (0 : Byte)))
        (fun j st => st.1 = filled (fun j => lagrangeAt (tags (p0 :: rest)) (column (p0 :: rest) j) 0)
            (List.replicate (p0.length - 1) (0 : Byte)) j ∧ st.2.length = (p0 :: rest).length)
        ⟨by simp, by simp⟩
        (by
          rintro j hj ⟨secret, ys⟩ ⟨hs, hy⟩
          simp only at hs hy
          refine ⟨(_, column (p0 :: rest) j), ?_, rfl, length_column _ _⟩
          · simp only
            rw [collectY_eq (fun p hp => by rw [h3 p hp]; omega) _ hy, ok_bind,
              interpolatePolynomial_eq h4 (by simp), ok_bind, hs, setIdx_filled (by simpa using hj) rfl, ok_bind]
            rfl)
      rw [hst, ok_bind, P1, filled_all (by simp)]
      rfl
    · rw [if_neg h4, if_pos h4]; rfl
  · rw [if_pos h3, if_neg]
    · rfl
    · intro h
      apply h3
      intro p hp
      rcases List.mem_cons.1 hp with rfl | hp
      · rfl
      · exact h p hp

theorem combine_ok {parts : List (List Byte)} {N : Nat} (h2 : 2 ≤ parts.length) (hN : 1 ≤ N)
    (hl : ∀ p ∈ parts, p.length = N + 1) (hn : (tags parts).Nodup) :
    combine parts = ok (recover parts N) := by
  have hh : (parts.headD []).length = N + 1 := by
    cases parts with
    | nil => simp at h2
    | cons a b => exact hl a (by simp)
  rw [combine_eq, if_neg (by omega), if_neg (by omega), if_neg (by rw [hh]; exact not_not.2 hl),
    if_neg (not_not.2 hn), hh]
  rfl

theorem map_getD_range (l : List Byte) : (List.range l.length).map (fun j => l.getD j 0) = l := by
  have := range_map_getElem l id 0
  simpa using this

/-- Combining enough shares of a dealing gives the secret. -/
theorem combine_shares {secret : List Byte} {t : Nat} {f : Nat → GF[X]} {parts : List (List Byte)}
    (hf : IsDealing secret t f) (hs : ∀ s ∈ parts, IsShareOf f secret.length s)
    (hn : (tags parts).Nodup) (h2 : 2 ≤ parts.length) (ht : t ≤ parts.length) (hN : secret ≠ []) :
    combine parts = ok secret := by
  have hpos : 1 ≤ secret.length := List.length_pos_iff.2 hN
  rw [combine_ok h2 hpos (fun p hp => (hs p hp).1) hn]
  congr 1
  unfold recover
  conv_rhs => rw [← map_getD_range secret]
  apply List.map_congr_left
  intro j hj
  have hj : j < secret.length := by simpa using hj
  rw [lagrangeAt_of_poly hn (f j) (lt_of_lt_of_le (hf j hj).1 (by simpa using ht))]
  · have := (hf j hj).2
    change (Polynomial.eval 0 (f j)).val = _
    rw [this]
  · intro i hi
    have hi : i < parts.length := by simpa using hi
    have := (hs _ (List.getElem_mem hi)).2 j hj
    rw [getD_getElem (by simpa using hi), getD_getElem (by simpa using hi)]
    simpa [column, tags] using this

/-- Any selection of at least `t` shares of a sharing, in any order, combines to the secret. -/
theorem combine_sharing {secret : List Byte} {t : Nat} {shares sub : List (List Byte)}
    (h : IsSharing secret t shares) (hsub : sub.Subperm shares) (h2 : 2 ≤ t) (ht : t ≤ sub.length)
    (hN : secret ≠ []) : combine sub = ok secret := by
  obtain ⟨hn, f, hf, hs⟩ := h
  refine combine_shares hf (fun s h => hs s (hsub.subset h)) ?_ (by omega) ht hN
  obtain ⟨l, hl, hl'⟩ := hsub
  have : (tags l).Nodup := List.Nodup.sublist (hl'.map tag) hn
  exact (hl.map tag).nodup_iff.1 this

end Verif.Proofs
