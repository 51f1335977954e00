import Verif.Proofs.HeapCalls

/-! # More rules of the ownership logic: calls inside calls, private computations, storing rows -/

namespace Verif.Proofs.Own
open Verif Outcome Galois Shamir Spec Pool Csprng Verif.Heap

variable {R : Set Loc}

/-- Cells `K` a program only reads may belong to the thread. -/
theorem wp_frame {α : Type} {K : Set Loc} {Q : Post α} (p : Prog α) :
    ∀ W h log, Disjoint W K → wp (R ∪ K) p Q W h log →
      wp R p (fun a W' h' log' => ∃ W0, W' = W0 ∪ K ∧ Disjoint W0 K ∧ Q a W0 h' log') (W ∪ K) h log := by
  have assoc : ∀ W : Set Loc, (W ∪ K) ∪ R = W ∪ (R ∪ K) := fun W => by
    rw [Set.union_assoc, Set.union_comm K R]
  induction p with
  | ret a => intro W h log hd hw; exact ⟨W, rfl, hd, hw⟩
  | panic => intro W h log _ hw; exact hw
  | alloc n k ih =>
    intro W h log hd hw a hf
    rw [assoc] at hf
    have := ih a _ _ _ (Set.disjoint_union_left.2
      ⟨hd, ((hf.mono (Set.subset_union_right.trans Set.subset_union_right)).disjoint).symm⟩) (hw a hf)
    rwa [Set.union_right_comm] at this
  | read a i k ih =>
    rintro W h log hd ⟨hm, v, hv, hw⟩
    exact ⟨by rw [assoc]; exact hm, v, hv, ih v _ _ _ hd hw⟩
  | write a i v k ih =>
    rintro W h log hd ⟨hm, hl, hw⟩
    exact ⟨Or.inl hm, hl, ih _ _ _ hd hw⟩
  | get p k ih =>
    intro W h log hd hw a c hf
    rw [assoc] at hf
    have := ih a c.length _ _ _ (Set.disjoint_union_left.2
      ⟨hd, ((hf.mono (Set.subset_union_right.trans Set.subset_union_right)).disjoint).symm⟩) (hw a c hf)
    rwa [Set.union_right_comm] at this
  | put p a k ih =>
    rintro W h log hd ⟨hs, hw⟩
    refine ⟨hs.trans Set.subset_union_left, ?_⟩
    have := ih _ _ _ (hd.mono_left Set.sdiff_subset) hw
    have e : (W ∪ K) \ own a = (W \ own a) ∪ K := by
      ext l
      constructor
      · rintro ⟨h1 | h1, h2⟩
        · exact Or.inl ⟨h1, h2⟩
        · exact Or.inr h1
      · rintro (⟨h1, h2⟩ | h1)
        · exact ⟨Or.inl h1, h2⟩
        · exact ⟨Or.inr h1, fun h2 => Set.disjoint_left.1 hd (hs h2) h1⟩
    rw [e]; exact this
  | rand k ih =>
    intro W h log hd hw v
    exact ih v _ _ _ hd (hw v)

/-- What was drawn before does not matter. -/
theorem wp_log {α : Type} {Q : Post α} (pre : List Byte) (p : Prog α) :
    ∀ W h log, wp R p (fun a W' h' log' => Q a W' h' (pre ++ log')) W h log → wp R p Q W h (pre ++ log) := by
  induction p with
  | ret a => intro W h log hw; exact hw
  | panic => intro W h log hw; exact hw
  | alloc n k ih => intro W h log hw a hf; exact ih a _ _ _ (hw a hf)
  | read a i k ih => rintro W h log ⟨hm, v, hv, hw⟩; exact ⟨hm, v, hv, ih v _ _ _ hw⟩
  | write a i v k ih => rintro W h log ⟨hm, hl, hw⟩; exact ⟨hm, hl, ih _ _ _ hw⟩
  | get p k ih => intro W h log hw a c hf; exact ih a _ _ _ _ (hw a c hf)
  | put p a k ih => rintro W h log ⟨hs, hw⟩; exact ⟨hs, ih _ _ _ hw⟩
  | rand k ih => intro W h log hw v; rw [List.append_assoc]; exact ih v _ _ _ (hw v)

theorem wp_drawAll {n : Nat} {Q : Post (List Byte)} {W : Set Loc} {h : HeapF} {log : List Byte}
    (hQ : ∀ rs : List Byte, rs.length = n → Q rs W h (log ++ rs)) : wp R (Prog.drawAll n) Q W h log := by
  refine wp_mono ?_ _ _ _ _ (wp_forUp (fun i l W' h' log' => W' = W ∧ h' = h ∧ l.length = i ∧ log' = log ++ l)
    ⟨rfl, rfl, rfl, by simp⟩ ?_)
  · rintro rs W' h' log' ⟨rfl, rfl, hl, rfl⟩; exact hQ rs hl
  · rintro i hi l W' h' log' ⟨rfl, rfl, hl, rfl⟩ v
    exact ⟨rfl, rfl, by simp [hl], by simp⟩

/-- What `storeRows` achieves. -/
theorem wp_storeRows {rows : List (List Byte)} {Q : Post (List Slice)} {W : Set Loc} {h : HeapF} {log : List Byte}
    (hQ : ∀ slices W' h', W ⊆ W' → Frame (W ∪ R) h h' → slices.map (contents h') = rows →
      Separate slices → (∀ s ∈ slices, own s.arr ⊆ W' ∧ Fresh (W ∪ R) s.arr ∧ s.off + s.cap ≤ (h' s.arr).length ∧ s.len ≤ s.cap) →
      Q slices W' h' log) :
    wp R (storeRows rows) Q W h log := by
  induction rows generalizing W h Q with
  | nil => exact hQ [] W h (fun _ hx => hx) (Frame.refl _ _) rfl ⟨List.nodup_nil, by simp⟩ (by simp)
  | cons row rest ih =>
    unfold storeRows
    intro a ha
    refine wp_bind _ _ _ _ _ (wp_writeAll (fun i _ => Or.inr rfl) (by rw [Function.update_self]; simp) ?_)
    rw [Function.update_self, Function.update_idem]
    have ew : writeAt (List.replicate row.length 0) 0 row = row := by simp [writeAt]
    rw [ew]
    refine wp_bind _ _ _ _ _ (ih ?_)
    intro slices W' h' hW hfr hc hsep hs
    have hha : h' a = row := by
      have := hfr a (not_fresh_own (Set.subset_union_right.trans Set.subset_union_left))
      rw [this, Function.update_self]
    have hsub : W ∪ R ⊆ (W ∪ own a) ∪ R := Set.union_subset_union_left _ Set.subset_union_left
    refine hQ _ W' h' (Set.subset_union_left.trans hW) ?_ ?_ ⟨?_, ?_⟩ ?_
    · exact (frame_update h row ha).trans (hfr.mono hsub)
    · simp [hc, contents, hha]
    · rw [List.map_cons, List.nodup_cons]
      refine ⟨?_, hsep.1⟩
      intro hm
      obtain ⟨s, hs1, hs2⟩ := List.mem_map.1 hm
      exact (hs s hs1).2.1 0 (Or.inl (Or.inr (show s.arr = a from hs2)))
    · intro s hs1
      rcases List.mem_cons.1 hs1 with rfl | hs1
      · exact ⟨rfl, rfl⟩
      · exact hsep.2 s hs1
    · intro s hs1
      rcases List.mem_cons.1 hs1 with rfl | hs1
      · refine ⟨Set.subset_union_right.trans hW, ha, ?_, le_rfl⟩
        show 0 + row.length ≤ (h' a).length
        rw [hha]; simp
      · have := hs s hs1
        exact ⟨this.1, this.2.1.mono hsub, this.2.2.1, this.2.2.2⟩

/-- `Prog.call`: the error cases end the call. -/
theorem wp_call_outcome {α : Type} {o : Outcome α} {k : α → Prog (Outcome (List Slice))} {Q : Post (Outcome (List Slice))}
    {W : Set Loc} {h : HeapF} {log : List Byte} (hok : ∀ a, o = ok a → wp R (k a) Q W h log)
    (hno : (∀ a, o ≠ ok a) → Q ((fun _ => []) <$> o) W h log) : wp R (Prog.call o k) Q W h log := by
  cases o with
  | ok a => exact hok a rfl
  | err e => exact hno (by simp)
  | panic => exact hno (by simp)
  | corrupt => exact hno (by simp)
  | spin => exact hno (by simp)

end Verif.Proofs.Own
