import Verif.Proofs.LeakSplit

/-! # What Combine shows -/

namespace Verif.Leak
open Verif Outcome Galois Pool Proofs Spec Spec.Leak

theorem both_mult (a a' b : Byte) : Both (a = a') (fun _ _ => True) (mult a b) (mult a' b) := by
  refine (show Both (Ev.log a = Ev.log a' ∧ Ev.log b = Ev.log b ∧ Ev.exp ((Shamir.logTable a + Shamir.logTable b).tmod 255) =
    Ev.exp ((Shamir.logTable a' + Shamir.logTable b).tmod 255)) _ _ _ from ?_).weaken ?_ fun _ _ _ _ h => h
  · refine (both_table (e := .log a) (e' := .log a') rfl _ _).bind fun l l' hl hl' _ => ?_
    cases hl; cases hl'
    refine (both_table (e := .log b) (e' := .log b) rfl _ _).bind fun m m' hm hm' _ => ?_
    cases hm; cases hm'
    refine ((both_table (e := .exp ((Shamir.logTable a + Shamir.logTable b).tmod 255))
      (e' := .exp ((Shamir.logTable a' + Shamir.logTable b).tmod 255)) rfl _ _).bind (K' := True) fun _ _ _ _ _ => ?_).weaken (and_true _).to_iff fun _ _ _ _ h => h
    exact both_pure trivial
  · constructor
    · rintro ⟨h, _⟩; cases h; rfl
    · rintro rfl; exact ⟨rfl, rfl, rfl⟩

theorem both_interpolate (xs ys ys' : List Byte) (x : Byte) :
    Both (∀ i < xs.length, ys.getD i 0 = ys'.getD i 0) (fun _ _ => True)
      (interpolatePolynomial xs ys x) (interpolatePolynomial xs ys' x) := by
  refine both_forUp rfl (fun i => ys.getD i 0 = ys'.getD i 0) (fun _ _ _ => True) trivial fun i _ s t _ => ?_
  refine (Both.refl _).same fun b _ _ _ h => ?_
  subst h
  refine (both_shows _ _ _).same fun y y' hy hy' _ => ?_
  have hy := idx_val hy
  have hy' := idx_val hy'
  refine ((both_mult y y' b).bind (K' := True) (M := fun _ _ => True) fun _ _ _ _ _ => both_pure trivial).weaken ?_ fun _ _ _ _ h => h
  rw [hy, hy']; simp

theorem map_getElem {α β : Type} (f : α → β) {l l' : List α} (h : l.map f = l'.map f) {i : Nat} {a a' : α}
    (ha : l[i]? = some a) (ha' : l'[i]? = some a') : f a = f a' := by
  have := congrArg (·[i]?) h
  simpa [ha, ha'] using this

theorem both_checkLengths {parts parts' : List (List Byte)} (hl : parts.map List.length = parts'.map List.length) (n : Nat) :
    Both True (fun _ _ => True) (checkLengths parts n) (checkLengths parts' n) := by
  refine both_forUp' (by simpa using congrArg (fun l => l.length - 1) hl) (fun _ _ _ => True) trivial fun i _ _ _ _ => ?_
  refine (both_shows _ _ _).same fun p p' hp hp' _ => ?_
  rw [out_shows, idx_eq_ok] at hp hp'
  have e := map_getElem _ hl hp hp'
  refine both_test _ _ (by rw [e]) ?_
  cases decide (p.length ≠ n)
  · exact both_pure trivial
  · exact both_fails fun a h => by cases h

theorem both_collectTags {parts parts' : List (List Byte)} {n : Nat} (hn : ∀ p ∈ parts, p.length = n) (hn' : ∀ p ∈ parts', p.length = n)
    (h0 : 0 < n) (ht : parts.map tag = parts'.map tag) (xs : List Byte) :
    Both True Eq (collectTags parts n xs) (collectTags parts' n xs) := by
  refine both_forUp' (by simpa using congrArg List.length ht) (fun _ s t => s = t) rfl ?_
  rintro i _ ⟨x, m⟩ _ rfl
  refine (both_shows _ _ _).same fun p p' hp hp' _ => ?_
  rw [out_shows, idx_eq_ok] at hp hp'
  have et := map_getElem _ ht hp hp'
  refine (both_shows _ _ _).same fun s s' hs hs' _ => ?_
  have key : ∀ {p : List Byte} {s : Byte}, p.length = n → Verif.idx p (n - 1) = ok s → s = tag p := by
    intro p s hl h
    subst hl
    rw [idx_val h]; rfl
  have hs := key (hn p (List.mem_of_getElem? hp)) hs
  have hs' := key (hn' p' (List.mem_of_getElem? hp')) hs'
  rw [hs, hs', et]
  exact Both.refl _

theorem both_collectY {parts parts' : List (List Byte)} (hl : parts.length = parts'.length) (j : Nat) (ys ys' : List Byte) :
    Both True (fun _ _ => True) (collectY parts j ys) (collectY parts' j ys') :=
  both_forUp' hl (fun _ _ _ => True) trivial fun _ _ _ _ _ => (both_shows _ _ _).same fun _ _ _ _ _ =>
    (both_shows _ _ _).same fun _ _ _ _ _ => both_shows _ _ _

/-- What Combine shows in two runs on parts of the same lengths and tags. -/
theorem both_combine {parts parts' : List (List Byte)} (hl : parts.map List.length = parts'.map List.length)
    (ht : parts.map tag = parts'.map tag) {s s' : List Byte} (hs : Shamir.combine parts = ok s) (hs' : Shamir.combine parts' = ok s') :
    Both (parts = parts') (fun _ _ => True) (combine parts) (combine parts') := by
  obtain ⟨⟨h1, h2, h3, h4⟩, -⟩ := combine_ok_iff.1 hs
  obtain ⟨⟨h1', h2', h3', h4'⟩, -⟩ := combine_ok_iff.1 hs'
  have hlen : parts.length = parts'.length := by simpa using congrArg List.length hl
  have hhead : (parts'.headD []).length = (parts.headD []).length := by
    cases parts with
    | nil => simp at h1
    | cons a b => cases parts' with
      | nil => simp at h1'
      | cons a' b' => simp at hl; simpa using hl.1.symm
  rw [hhead] at h3' h2'
  generalize hn : (parts.headD []).length = n at *
  unfold combine
  refine both_test _ _ (by rw [hlen]) ?_
  have e1 : decide (parts.length < 2) = false := by simp; omega
  rw [e1]
  refine (both_shows _ _ _).same fun p0 p0' hp hp' _ => ?_
  rw [out_shows, idx_eq_ok] at hp hp'
  have l0 : p0.length = n := h3 p0 (List.mem_of_getElem? hp)
  have l0' : p0'.length = n := h3' p0' (List.mem_of_getElem? hp')
  simp only [l0, l0']
  refine both_test _ _ Iff.rfl ?_
  have e2 : decide (n < 2) = false := by simp; omega
  rw [e2]
  refine (both_checkLengths hl n).same fun _ _ _ _ _ => ?_
  rw [← hlen]
  refine (both_collectTags h3 h3' (by omega) ht _).same ?_
  rintro ⟨xs, m⟩ _ hx _ rfl
  rw [out_collectTags, collectTags_eq (by omega) h3 _ (by simp), if_pos h4] at hx
  cases hx
  refine (Both.bind (K' := True) (M := fun _ _ => True) (both_forUp rfl (fun j => column parts j = column parts' j)
    (fun _ (s t : List Byte × List Byte) => s.2.length = parts.length ∧ t.2.length = parts.length) ?_ ?_) ?_).weaken ?_ fun _ _ _ _ h => h
  · simp
  · rintro j hj ⟨sec, y⟩ ⟨sec', y'⟩ ⟨hy, hy'⟩
    simp only [List.length_replicate] at hj
    refine (both_collectY hlen j y y').same fun z z' hz hz' _ => ?_
    rw [out_collectY, collectY_eq (fun p hp => by rw [h3 p hp]; omega) y hy] at hz
    rw [out_collectY, collectY_eq (fun p hp => by rw [h3' p hp]; omega) y' (hy'.trans hlen)] at hz'
    cases hz; cases hz'
    refine ((both_interpolate (tags parts) (column parts j) (column parts' j) 0).bind (K' := True) fun v v' _ _ _ => ?_).weaken ?_
      fun _ _ _ _ h => h
    · refine (both_shows _ _ _).same fun _ _ _ _ _ => both_pure ⟨?_, ?_⟩
      · simp
      · simp [hlen]
    · rw [and_true]
      constructor
      · intro h
        apply List.ext_getElem
        · simp [hlen]
        · intro i g g'
          have := h i (by simpa using g)
          simpa [List.getD_eq_getElem?_getD, List.getElem?_eq_getElem g, List.getElem?_eq_getElem g'] using this
      · rintro h i _
        rw [h]
  · rintro ⟨_, _⟩ ⟨_, _⟩ _ _ _
    exact both_pure trivial
  · rw [and_true]
    constructor
    · intro h
      apply List.ext_getElem hlen
      intro i g g'
      apply List.ext_getElem
      · rw [h3 _ (List.getElem_mem _), h3' _ (List.getElem_mem _)]
      · intro j k k'
        have lj := h3 _ (List.getElem_mem g)
        have lj' := h3' _ (List.getElem_mem g')
        by_cases hj : j < n - 1
        · have := map_getElem (fun p : List Byte => p.getD j 0) (h j (by simpa using hj)) (List.getElem?_eq_getElem g)
            (List.getElem?_eq_getElem g')
          simpa [List.getD_eq_getElem?_getD, List.getElem?_eq_getElem k, List.getElem?_eq_getElem k'] using this
        · have := map_getElem tag ht (List.getElem?_eq_getElem g) (List.getElem?_eq_getElem g')
          have ej : j = n - 1 := by omega
          subst ej
          simpa [tag, lj, lj', List.getD_eq_getElem?_getD, List.getElem?_eq_getElem k, List.getElem?_eq_getElem k'] using this
    · rintro rfl j _
      rfl

end Verif.Leak
