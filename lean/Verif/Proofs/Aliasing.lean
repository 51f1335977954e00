import Verif.Proofs.SplitPResults
import Verif.Spec.Aliasing

/-! # Where returned slices lie in memory -/

namespace Verif.Proofs.Own
open Verif Outcome Galois Shamir Spec Pool Csprng Verif.Heap

variable {ι : Type} [DecidableEq ι]

/-- The windows `[off, off + n)` of `a` and `[off', off' + n')` of `a'` have no cell in common. -/
def Apart (s s' : Slice) (n n' : Nat) : Prop := s.arr ≠ s'.arr ∨ s.off + n ≤ s'.off ∨ s'.off + n' ≤ s.off

/-- What is known about the slices returned by a call. -/
structure Placed (arch : Arch) (jobs : ι → Job) (s : World ι) (i : ι) (outs : List Slice) : Prop where
  inArray : ∀ sl ∈ outs, sl.off + sl.cap ≤ (s.shared.heap sl.arr).length ∧ sl.len ≤ sl.cap
  allocated : ∀ sl ∈ outs, sl.arr < s.shared.next
  apart : ∀ p q : Nat, (hp : p < outs.length) → (hq : q < outs.length) → p ≠ q → Apart outs[p] outs[q] outs[p].len outs[q].len
  spare : oneArray (jobs i) = none →
    ∀ p q : Nat, (hp : p < outs.length) → (hq : q < outs.length) → p ≠ q → Apart outs[p] outs[q] outs[p].cap outs[q].len
  layout : ∀ secret, oneArray (jobs i) = some secret → ∃ buff, outs = layout buff secret.len outs.length

theorem layout_get {buff : Arr} {N n p : Nat} (hp : p < (layout buff N n).length) :
    (layout buff N n)[p] = ⟨buff, (N + 1) * p, N + 1, (N + 1) * n - (N + 1) * p⟩ := by
  simp [Own.layout]

theorem matrix_get {buff : Arr} {c n p : Nat} (hp : p < (matrix buff c n).length) :
    (matrix buff c n)[p] = ⟨buff, c * p, c, c⟩ := by
  simp [matrix]

theorem mul_step {c p q : Nat} (h : p < q) : c * p + c ≤ c * q := by
  rw [← Nat.mul_succ]; exact Nat.mul_le_mul_left _ h

theorem layout_apart {buff : Arr} {N n p q : Nat} (hp : p < (layout buff N n).length) (hq : q < (layout buff N n).length)
    (hpq : p ≠ q) : Apart (layout buff N n)[p] (layout buff N n)[q] (layout buff N n)[p].len (layout buff N n)[q].len := by
  rw [layout_get hp, layout_get hq]
  rcases Nat.lt_or_gt_of_ne hpq with h | h
  · exact .inr (.inl (mul_step h))
  · exact .inr (.inr (mul_step h))

theorem matrix_apart {buff : Arr} {c n p q : Nat} (hp : p < (matrix buff c n).length) (hq : q < (matrix buff c n).length)
    (hpq : p ≠ q) : Apart (matrix buff c n)[p] (matrix buff c n)[q] (matrix buff c n)[p].cap (matrix buff c n)[q].len := by
  rw [matrix_get hp, matrix_get hq]
  rcases Nat.lt_or_gt_of_ne hpq with h | h
  · exact .inr (.inl (mul_step h))
  · exact .inr (.inr (mul_step h))

theorem separate_apart {outs : List Slice} (h : Separate outs) {p q : Nat} (hp : p < outs.length) (hq : q < outs.length)
    (hpq : p ≠ q) (n n' : Nat) : Apart outs[p] outs[q] n n' := by
  left
  intro e
  have := (List.nodup_iff_injective_getElem.1 h.1) (a₁ := ⟨p, by simpa using hp⟩) (a₂ := ⟨q, by simpa using hq⟩) (by simpa using e)
  exact hpq (by simpa using this)

theorem Apart.shrink {s s' : Slice} {n n' m : Nat} (h : Apart s s' n n') (hm : m ≤ n) : Apart s s' m n' := by
  rcases h with h | h | h
  · exact .inl h
  · exact .inr (.inl (by omega))
  · exact .inr (.inr h)

theorem one_apart {a : Arr} {n p q : Nat} {outs : List Slice} (e : outs = [⟨a, 0, n, n⟩]) (hp : p < outs.length)
    (hq : q < outs.length) (hpq : p ≠ q) (k k' : Nat) : Apart outs[p] outs[q] k k' := by
  subst e
  have hp : p < 1 := hp
  have hq : q < 1 := hq
  omega

theorem aplaced {arch : Arch} {h0 : ι → HeapF} {R : ι → Set Loc} {jobs : ι → Job} (hst : Ready h0 R jobs)
    {g : ι → Option (List Arr)} {W : ι ⊕ ι × Nat → Set Loc} {s : World ι} (I : AInv arch h0 R jobs g W s) {i : ι}
    {outs : List Slice} (hd : (s.proc i).phase = .done (ok outs)) :
    Placed arch jobs s i outs ∧ ∀ sl ∈ outs, (sl.arr, 0) ∈ W (.inl i) ∨ ∃ j, (sl.arr, 0) ∈ W (.inr (i, j)) := by
  have hcell : ∀ a, ((a, 0) ∈ W (.inl i) ∨ ∃ j, (a, 0) ∈ W (.inr (i, j))) → a < s.shared.next := by
    intro a h
    by_contra hc
    have hc : s.shared.next ≤ a := Nat.le_of_not_lt hc
    rcases h with h | ⟨j, h⟩
    · exact I.inv.newW a hc (.inl i) 0 h
    · exact I.inv.newW a hc (.inr (i, j)) 0 h
  cases hj : jobs i with
  | seq c =>
    have hw := I.inv.run (.inl i)
    have hw : wp _ (s.proc i).main.prog (mainPost arch (h0 i) (jobs i) (g i)) (W (.inl i)) s.shared.heap (s.proc i).main.drawn := hw
    have h1 : (s.proc i).main.prog = .ret (ok outs) := (done_ret (I.phase i) hd).1
    rw [h1, hj] at hw
    obtain ⟨hsh, hb⟩ := hw.1.2 outs rfl
    have hown : ∀ sl ∈ outs, (sl.arr, 0) ∈ W (.inl i) ∨ ∃ j, (sl.arr, 0) ∈ W (.inr (i, j)) :=
      fun sl hsl => .inl ((hb sl hsl).1 rfl)
    refine ⟨⟨fun sl hsl => (hb sl hsl).2, fun sl hsl => hcell _ (hown sl hsl), ?_, ?_, ?_⟩, hown⟩
    · intro p q hp hq hpq
      cases c with
      | split | splitWithRandomizer | splitWithRandomizerOld =>
        obtain ⟨buff, rfl⟩ := hsh
        exact layout_apart hp hq hpq
      | splitGeneric | regenerate => exact separate_apart hsh hp hq hpq _ _
      | combine | krawczykCombine =>
        obtain ⟨a, n, e⟩ := hsh
        exact one_apart e hp hq hpq _ _
      | krawczykSplit | krawczykSplitWithRandomizer =>
        obtain ⟨buff, c, rfl⟩ := hsh
        exact (matrix_apart hp hq hpq).shrink (hb _ (List.getElem_mem hp)).2.2
    · intro hone p q hp hq hpq
      rw [hj] at hone
      cases c with
      | split | splitWithRandomizer | splitWithRandomizerOld => cases hone
      | splitGeneric | regenerate => exact separate_apart hsh hp hq hpq _ _
      | combine | krawczykCombine =>
        obtain ⟨a, n, e⟩ := hsh
        exact one_apart e hp hq hpq _ _
      | krawczykSplit | krawczykSplitWithRandomizer =>
        obtain ⟨buff, c, rfl⟩ := hsh
        exact matrix_apart hp hq hpq
    · intro secret hone
      rw [hj] at hone
      cases c with
      | split | splitWithRandomizer | splitWithRandomizerOld =>
        cases hone
        obtain ⟨buff, rfl⟩ := hsh
        exact ⟨buff, by simp [Own.layout]⟩
      | splitGeneric | regenerate | combine | krawczykCombine | krawczykSplit | krawczykSplitWithRandomizer => cases hone
  | splitP secret parts threshold perm =>
    rcases adone_splitP hst I hj hd with ⟨e, h1, -⟩ | ⟨arrs, h1, hg, hnd, -, -, -, -, -, hl, hown⟩
    · cases h1
    cases h1
    have hsep : Separate (outSlices arrs secret.len) := by
      refine ⟨?_, ?_⟩
      · unfold outSlices
        rw [List.map_map]
        simpa [Function.comp_def] using hnd
      · intro sl hsl
        obtain ⟨a, -, rfl⟩ := List.mem_map.1 hsl
        exact ⟨rfl, rfl⟩
    have hown : ∀ sl ∈ outSlices arrs secret.len, (sl.arr, 0) ∈ W (.inl i) ∨ ∃ j, (sl.arr, 0) ∈ W (.inr (i, j)) := by
      intro sl hsl
      obtain ⟨a, ha, rfl⟩ := List.mem_map.1 hsl
      exact hown a ha 0
    refine ⟨⟨?_, fun sl hsl => hcell _ (hown sl hsl), fun p q hp hq hpq => separate_apart hsep hp hq hpq _ _,
      fun _ p q hp hq hpq => separate_apart hsep hp hq hpq _ _, ?_⟩, hown⟩
    · intro sl hsl
      obtain ⟨a, ha, rfl⟩ := List.mem_map.1 hsl
      refine ⟨?_, le_rfl⟩
      show 0 + (secret.len + 1) ≤ (s.shared.heap a).length
      rw [hl a ha]; omega
    · intro secret' hone
      rw [hj] at hone; cases hone

theorem placed {arch : Arch} {σ : Shared} {jobs : ι → Job} (hst : WStart σ jobs) (hadm : ∀ i, JobAdmissible (jobs i))
    {g : ι → Option (List Arr)} {W : ι ⊕ ι × Nat → Set Loc} {s : World ι} (I : WInv arch σ jobs g W s) {i : ι}
    {outs : List Slice} (hd : (s.proc i).phase = .done (ok outs)) :
    Placed arch jobs s i outs ∧ ∀ sl ∈ outs, (sl.arr, 0) ∈ W (.inl i) ∨ ∃ j, (sl.arr, 0) ∈ W (.inr (i, j)) :=
  aplaced (WStart.ready hst hadm) I.toA hd

/-- Slices returned by different calls lie in different arrays. -/
theorem placed_ne {arch : Arch} {σ : Shared} {jobs : ι → Job} (hst : WStart σ jobs) (hadm : ∀ i, JobAdmissible (jobs i))
    {g : ι → Option (List Arr)} {W : ι ⊕ ι × Nat → Set Loc} {s : World ι} (I : WInv arch σ jobs g W s) {i j : ι} (hij : i ≠ j)
    {outs outs' : List Slice} (hd : (s.proc i).phase = .done (ok outs)) (hd' : (s.proc j).phase = .done (ok outs'))
    {sl sl' : Slice} (hsl : sl ∈ outs) (hsl' : sl' ∈ outs') : sl.arr ≠ sl'.arr := by
  intro e
  have h1 := (placed hst hadm I hd).2 sl hsl
  have h2 := (placed hst hadm I hd').2 sl' hsl'
  rw [← e] at h2
  have key : ∀ u v : ι ⊕ ι × Nat, u ≠ v → (sl.arr, 0) ∈ W u → (sl.arr, 0) ∈ W v → False :=
    fun u v huv hu hv => Set.disjoint_left.1 (I.inv.disjW u v huv) hu hv
  rcases h1 with h1 | ⟨k, h1⟩ <;> rcases h2 with h2 | ⟨k', h2⟩
  · exact key _ _ (by simpa using hij) h1 h2
  · exact key _ _ (by simp) h1 h2
  · exact key _ _ (by simp) h1 h2
  · exact key (.inr (i, k)) (.inr (j, k')) (by simp [hij]) h1 h2

theorem placed_pre {arch : Arch} {σ : Shared} {jobs : ι → Job} (hst : WStart σ jobs) (hadm : ∀ i, JobAdmissible (jobs i))
    {g : ι → Option (List Arr)} {W : ι ⊕ ι × Nat → Set Loc} {s : World ι} (I : WInv arch σ jobs g W s) {i j : ι}
    {outs : List Slice} (hd : (s.proc i).phase = .done (ok outs)) {sl sl' : Slice} (hsl : sl ∈ outs)
    (hsl' : sl' ∈ (jobs j).inputs) : sl.arr ≠ sl'.arr := by
  intro e
  have h2 : (sl.arr, 0) ∈ preexisting σ := by
    rw [e]
    exact Own.WStart.start hst hsl' rfl
  rcases (placed hst hadm I hd).2 sl hsl with h1 | ⟨k, h1⟩
  · exact Set.disjoint_left.1 (I.inv.disjR (.inl i) (.inl i)) h1 h2
  · exact Set.disjoint_left.1 (I.inv.disjR (.inr (i, k)) (.inl i)) h1 h2

/-! ## Storing through a slice -/

theorem contents_getElem? (h : HeapF) (s : Slice) (k : Nat) :
    (contents h s)[k]? = if k < s.len then (h s.arr)[s.off + k]? else none := by
  unfold contents
  rw [List.getElem?_take]
  split
  · rw [List.getElem?_drop]
  · rfl

theorem contents_congr {h h' : HeapF} {s : Slice} (he : ∀ k < s.len, (h' s.arr)[s.off + k]? = (h s.arr)[s.off + k]?) :
    contents h' s = contents h s := by
  apply List.ext_getElem?
  intro k
  rw [contents_getElem?, contents_getElem?]
  split
  · rename_i hk; exact he k hk
  · rfl

/-- A store through `s` at index `k` does not change what `s'` shows. -/
theorem assign_other {h : HeapF} {s s' : Slice} {k : Nat} {v : Byte} (hk : k < s.len) (hap : Apart s s' s.len s'.len) :
    contents (assign h s k v) s' = contents h s' := by
  apply contents_congr
  intro k' hk'
  unfold assign
  by_cases e : s'.arr = s.arr
  · rw [e, Function.update_self, List.getElem?_set_ne]
    rcases hap with c | c | c
    · exact absurd e.symm c
    · omega
    · omega
  · rw [Function.update_of_ne e]

theorem assign_self {h : HeapF} {s : Slice} {k : Nat} {v : Byte} (hb : s.off + s.len ≤ (h s.arr).length) :
    k < s.len → contents (assign h s k v) s = (contents h s).set k v := by
  intro hk
  apply List.ext_getElem?
  intro q
  rw [contents_getElem?, List.getElem?_set, contents_getElem?]
  unfold assign
  rw [Function.update_self, List.getElem?_set]
  have hl : (contents h s).length = s.len := by rw [contents_eq hb, length_window]
  rw [hl]
  by_cases hq : q < s.len
  · rw [if_pos hq]
    by_cases e : k = q
    · subst e
      rw [if_pos rfl, if_pos (by omega), if_pos rfl, if_pos hk]
    · rw [if_neg (by omega), if_neg e, if_pos hq]
  · rw [if_neg hq]
    by_cases e : k = q
    · omega
    · rw [if_neg e, if_neg hq]

theorem getElem?_over (l bs : List Byte) (lo q : Nat) (hb : lo + bs.length ≤ l.length) :
    (l.mapIdx fun q b => if lo ≤ q ∧ q < lo + bs.length then bs.getD (q - lo) 0 else b)[q]?
      = if lo ≤ q ∧ q < lo + bs.length then bs[q - lo]? else l[q]? := by
  rw [List.getElem?_mapIdx]
  by_cases h : lo ≤ q ∧ q < lo + bs.length
  · simp only [h, if_true, and_self]
    rw [List.getElem?_eq_getElem (by omega), List.getElem?_eq_getElem (by omega), Option.map_some,
      List.getD_eq_getElem?_getD, List.getElem?_eq_getElem (by omega), Option.getD_some]
  · simp only [h, if_false]
    simp

theorem append_other {h : HeapF} {a : Arr} {extra : Nat} {s s' : Slice} {bs : List Byte} (ha : s'.arr ≠ a)
    (hb : s.off + s.cap ≤ (h s.arr).length)
    (hap : Apart s s' s.cap s'.len) : contents (append h a extra s bs).1 s' = contents h s' := by
  apply contents_congr
  intro k hk
  unfold append
  split
  · rename_i hc
    by_cases e : s'.arr = s.arr
    · simp only []
      rw [e, Function.update_self, getElem?_over _ _ _ _ (by omega), if_neg]
      · rcases hap with c | c | c
        · exact absurd e.symm c
        · omega
        · omega
    · simp only []
      rw [Function.update_of_ne e]
  · simp only []
    rw [Function.update_of_ne ha]

theorem append_result {h : HeapF} {a : Arr} {extra : Nat} {s : Slice} {bs : List Byte}
    (hb : s.off + s.cap ≤ (h s.arr).length) (hl : s.len ≤ s.cap) :
    contents (append h a extra s bs).1 (append h a extra s bs).2 = contents h s ++ bs := by
  have hcl : (contents h s).length = s.len := by rw [contents_eq (by omega), length_window]
  unfold append
  split
  · rename_i hc
    apply List.ext_getElem?
    intro k
    rw [contents_getElem?]
    simp only []
    rw [Function.update_self, getElem?_over _ _ _ _ (by omega)]
    by_cases h1 : k < s.len
    · rw [if_pos (by omega), List.getElem?_append_left (by omega), contents_getElem?, if_pos h1]
      rw [if_neg (by omega)]
    · by_cases h2 : k < s.len + bs.length
      · rw [if_pos h2, List.getElem?_append_right (by omega), hcl, if_pos (by omega),
          show s.off + k - (s.off + s.len) = k - s.len by omega]
      · rw [if_neg h2, List.getElem?_eq_none (by simp; omega)]
  · simp only []
    unfold contents
    simp only [Function.update_self, List.drop_zero]
    rw [List.take_append_of_le_length (by rw [List.length_append]; have := hcl; unfold contents at this; omega),
      List.take_of_length_le]
    rw [List.length_append]; have := hcl; unfold contents at this; omega

end Verif.Proofs.Own
