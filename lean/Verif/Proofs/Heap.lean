import Verif.Model.Heap
import Mathlib.Data.Set.Basic
import Mathlib.Tactic

/-! # Ownership logic for the shared-memory model

Every thread owns a set `W` of memory cells it may read and write and a set `R` of cells it may only read;
cells in a pool belong to the pool.  `wp` is the weakest precondition of a program under this discipline;
`Inv` says that ownership is disjoint and every thread satisfies its `wp`. `inv_step` shows that every
interleaving preserves it. -/

namespace Verif.Proofs.Own
open Verif Outcome Verif.Heap

/-- A memory cell: position `i` of array `a`. -/
abbrev Loc := Arr × Nat

/-- All cells of array `a`. -/
def own (a : Arr) : Set Loc := {l | l.1 = a}

abbrev HeapF := Arr → List Byte

/-- The heaps agree on the cells in `S`. -/
def Agree (S : Set Loc) (h h' : HeapF) : Prop := ∀ a i, (a, i) ∈ S → (h a)[i]? = (h' a)[i]?

/-- `a` is an array none of whose cells is in `S`. -/
def Fresh (S : Set Loc) (a : Arr) : Prop := ∀ i, (a, i) ∉ S

abbrev Post (α : Type) := α → Set Loc → HeapF → List Byte → Prop

/-- Weakest precondition; `log` are the random bytes drawn so far. -/
def wp {α : Type} (R : Set Loc) : Prog α → Post α → Set Loc → HeapF → List Byte → Prop
  | .ret a, Q, W, h, log => Q a W h log
  | .panic, _, _, _, _ => False
  | .alloc n k, Q, W, h, log => ∀ a, Fresh (W ∪ R) a →
      wp R (k a) Q (W ∪ own a) (Function.update h a (List.replicate n 0)) log
  | .read a i k, Q, W, h, log => (a, i) ∈ W ∪ R ∧ ∃ v, (h a)[i]? = some v ∧ wp R (k v) Q W h log
  | .write a i v k, Q, W, h, log => (a, i) ∈ W ∧ i < (h a).length ∧
      wp R k Q W (Function.update h a ((h a).set i v)) log
  | .get _ k, Q, W, h, log => ∀ a c, Fresh (W ∪ R) a →
      wp R (k a c.length) Q (W ∪ own a) (Function.update h a c) log
  | .put _ a k, Q, W, h, log => own a ⊆ W ∧ wp R k Q (W \ own a) h log
  | .rand k, Q, W, h, log => ∀ v, wp R (k v) Q W h (log ++ [v])

/-- A postcondition that only looks at the owned and the readable cells. -/
def Stable {α : Type} (R : Set Loc) (Q : Post α) : Prop :=
  ∀ a W h h' log, Agree (W ∪ R) h h' → Q a W h log → Q a W h' log

theorem Agree.refl (S : Set Loc) (h : HeapF) : Agree S h h := fun _ _ _ => rfl

theorem Agree.mono {S S' : Set Loc} {h h' : HeapF} (hs : S' ⊆ S) (ha : Agree S h h') : Agree S' h h' :=
  fun a i hm => ha a i (hs hm)

theorem Agree.update {S : Set Loc} {h h' : HeapF} (hagree : Agree S h h') (a : Arr) (l : List Byte) :
    Agree (S ∪ own a) (Function.update h a l) (Function.update h' a l) := by
  intro b i hm
  by_cases e : b = a
  · subst e; simp
  · rw [Function.update_of_ne e, Function.update_of_ne e]
    rcases hm with hm | hm
    · exact hagree b i hm
    · exact absurd hm e

theorem agree_eq {S : Set Loc} {h h' : HeapF} (hagree : Agree S h h') {a : Arr} (ho : own a ⊆ S) : h a = h' a :=
  List.ext_getElem? fun i => hagree a i (ho rfl)

theorem union_right_comm' (W R A : Set Loc) : (W ∪ A) ∪ R = (W ∪ R) ∪ A := by
  rw [Set.union_assoc, Set.union_comm A R, ← Set.union_assoc]

/-- `wp` depends on the owned and readable cells only. -/
theorem wp_stable {α : Type} {R : Set Loc} {Q : Post α} (hQ : Stable R Q) (p : Prog α) :
    ∀ W h h' log, Agree (W ∪ R) h h' → wp R p Q W h log → wp R p Q W h' log := by
  induction p with
  | ret a => intro W h h' log ha hw; exact hQ a W h h' log ha hw
  | panic => intro W h h' log _ hw; exact hw
  | alloc n k ih =>
    intro W h h' log ha hw a hf
    refine ih a _ _ _ _ ?_ (hw a hf)
    rw [union_right_comm']
    have := ha.update a (List.replicate n 0)
    simpa using this
  | read a i k ih =>
    rintro W h h' log ha ⟨hm, v, hv, hw⟩
    exact ⟨hm, v, by rw [← ha a i hm]; exact hv, ih v _ _ _ _ ha hw⟩
  | write a i v k ih =>
    rintro W h h' log ha ⟨hm, hl, hw⟩
    have hme : (a, i) ∈ W ∪ R := Set.mem_union_left _ hm
    have hl' : i < (h' a).length := by
      have := ha a i hme
      rw [List.getElem?_eq_getElem hl] at this
      exact List.getElem?_eq_some_iff.1 this.symm |>.1
    refine ⟨hm, hl', ih _ _ _ _ ?_ hw⟩
    intro b j hb
    by_cases e : b = a
    · subst e
      simp only [Function.update_self]
      rw [List.getElem?_set, List.getElem?_set]
      by_cases hij : i = j
      · subst hij; simp [hl, hl']
      · simp only [hij, if_false]; exact ha b j hb
    · rw [Function.update_of_ne e, Function.update_of_ne e]; exact ha b j hb
  | get p k ih =>
    intro W h h' log ha hw a c hf
    refine ih a c.length _ _ _ _ ?_ (hw a c hf)
    rw [union_right_comm']
    exact ha.update a c
  | put p a k ih =>
    rintro W h h' log ha ⟨hs, hw⟩
    exact ⟨hs, ih _ _ _ _ (ha.mono (Set.union_subset_union_left _ Set.sdiff_subset)) hw⟩
  | rand k ih =>
    intro W h h' log ha hw v
    exact ih v _ _ _ _ ha (hw v)

theorem wp_mono {α : Type} {R : Set Loc} {Q Q' : Post α} (hQ : ∀ a W h log, Q a W h log → Q' a W h log)
    (p : Prog α) : ∀ W h log, wp R p Q W h log → wp R p Q' W h log := by
  induction p with
  | ret a => intro W h log hw; exact hQ a W h log hw
  | panic => intro W h log hw; exact hw
  | alloc n k ih => intro W h log hw a hf; exact ih a _ _ _ (hw a hf)
  | read a i k ih => rintro W h log ⟨hm, v, hv, hw⟩; exact ⟨hm, v, hv, ih v _ _ _ hw⟩
  | write a i v k ih => rintro W h log ⟨hm, hl, hw⟩; exact ⟨hm, hl, ih _ _ _ hw⟩
  | get p k ih => intro W h log hw a c hf; exact ih a _ _ _ _ (hw a c hf)
  | put p a k ih => rintro W h log ⟨hs, hw⟩; exact ⟨hs, ih _ _ _ hw⟩
  | rand k ih => intro W h log hw v; exact ih v _ _ _ (hw v)

theorem wp_bind {α β : Type} {R : Set Loc} {Q : Post β} (f : α → Prog β) (p : Prog α) :
    ∀ W h log, wp R p (fun a W h log => wp R (f a) Q W h log) W h log → wp R (p.bind f) Q W h log := by
  induction p with
  | ret a => intro W h log hw; exact hw
  | panic => intro W h log hw; exact hw
  | alloc n k ih => intro W h log hw a hf; exact ih a _ _ _ (hw a hf)
  | read a i k ih => rintro W h log ⟨hm, v, hv, hw⟩; exact ⟨hm, v, hv, ih v _ _ _ hw⟩
  | write a i v k ih => rintro W h log ⟨hm, hl, hw⟩; exact ⟨hm, hl, ih _ _ _ hw⟩
  | get p k ih => intro W h log hw a c hf; exact ih a _ _ _ _ (hw a c hf)
  | put p a k ih => rintro W h log ⟨hs, hw⟩; exact ⟨hs, ih _ _ _ hw⟩
  | rand k ih => intro W h log hw v; exact ih v _ _ _ (hw v)

/-! ## Soundness for every interleaving -/

variable {ι α : Type} [DecidableEq ι]

/-- The arrays in the two pools. -/
def pooled (σ : Shared) : List Arr := σ.pool .bPool ++ σ.pool .polyPool

/-- Ownership invariant. -/
structure Inv (R : ι → Set Loc) (Q : ι → Post α) (W : ι → Set Loc) (c : Config ι α) : Prop where
  disjW : ∀ i j, i ≠ j → Disjoint (W i) (W j)
  disjR : ∀ i j, Disjoint (W i) (R j)
  poolNodup : (pooled c.shared).Nodup
  poolLt : ∀ a ∈ pooled c.shared, a < c.shared.next
  poolFreshW : ∀ a ∈ pooled c.shared, ∀ i, Fresh (W i) a
  poolFreshR : ∀ a ∈ pooled c.shared, ∀ i, Fresh (R i) a
  newW : ∀ a, c.shared.next ≤ a → ∀ i, Fresh (W i) a
  newR : ∀ a, c.shared.next ≤ a → ∀ i, Fresh (R i) a
  run : ∀ i, wp (R i) (c.thread i).prog (Q i) (W i) c.shared.heap (c.thread i).drawn

theorem Fresh.disjoint {S : Set Loc} {a : Arr} (h : Fresh S a) : Disjoint S (own a) := by
  rw [Set.disjoint_left]
  rintro ⟨b, i⟩ hl rfl
  exact h i hl

theorem fresh_union {S T : Set Loc} {a : Arr} (h : Fresh S a) (h' : Fresh T a) : Fresh (S ∪ T) a :=
  fun i hm => hm.elim (h i) (h' i)

theorem Fresh.mono {S T : Set Loc} {a : Arr} (h : Fresh T a) (hs : S ⊆ T) : Fresh S a :=
  fun i hm => h i (hs hm)

theorem fresh_own {a b : Arr} (h : b ≠ a) : Fresh (own a) b := fun _ hm => h hm

/-- Changing array `a` is invisible to whoever knows nothing of `a`. -/
theorem agree_update_fresh {S : Set Loc} {a : Arr} (h : HeapF) (l : List Byte) (hf : Fresh S a) :
    Agree S h (Function.update h a l) := by
  intro b i hm
  rw [Function.update_of_ne]; rintro rfl; exact hf i hm

theorem agree_update_cell {S : Set Loc} {a : Arr} {i : Nat} (h : HeapF) (v : Byte) (hn : (a, i) ∉ S) :
    Agree S h (Function.update h a ((h a).set i v)) := by
  intro b j hm
  by_cases e : b = a
  · subst e
    rw [Function.update_self, List.getElem?_set]
    have : i ≠ j := by rintro rfl; exact hn hm
    simp [this]
  · rw [Function.update_of_ne e]

/-- The invariant after thread `i` changed its program, its ownership and the shared state. -/
theorem inv_update {R : ι → Set Loc} {Q : ι → Post α} (hQ : ∀ i, Stable (R i) (Q i)) {W : ι → Set Loc}
    {c : Config ι α} (I : Inv R Q W c) (i : ι) (σ' : Shared) (p' : Prog α) (log' : List Byte) (W' : Set Loc)
    (hW : ∀ j, j ≠ i → Disjoint W' (W j)) (hR : ∀ j, Disjoint W' (R j))
    (h1 : (pooled σ').Nodup) (h2 : ∀ a ∈ pooled σ', a < σ'.next)
    (h3 : ∀ a ∈ pooled σ', (∀ j, j ≠ i → Fresh (W j) a) ∧ Fresh W' a ∧ ∀ j, Fresh (R j) a)
    (h4 : c.shared.next ≤ σ'.next) (h5 : ∀ a, σ'.next ≤ a → Fresh W' a)
    (hagree : ∀ j, j ≠ i → Agree (W j ∪ R j) c.shared.heap σ'.heap)
    (hwp : wp (R i) p' (Q i) W' σ'.heap log') :
    Inv R Q (Function.update W i W') ⟨σ', Function.update c.thread i ⟨p', log'⟩⟩ := by
  have wi : Function.update W i W' i = W' := Function.update_self ..
  have wj : ∀ j, j ≠ i → Function.update W i W' j = W j := fun j hj => Function.update_of_ne hj ..
  constructor
  · intro a b hab
    by_cases ha : a = i
    · subst ha; rw [wi, wj b (Ne.symm hab)]; exact hW b (Ne.symm hab)
    · by_cases hb : b = i
      · subst hb; rw [wi, wj a ha]; exact (hW a ha).symm
      · rw [wj a ha, wj b hb]; exact I.disjW a b hab
  · intro a b
    by_cases ha : a = i
    · subst ha; rw [wi]; exact hR b
    · rw [wj a ha]; exact I.disjR a b
  · exact h1
  · exact h2
  · intro a ha j
    by_cases hj : j = i
    · subst hj; rw [wi]; exact (h3 a ha).2.1
    · rw [wj j hj]; exact (h3 a ha).1 j hj
  · intro a ha j; exact (h3 a ha).2.2 j
  · intro a ha j
    by_cases hj : j = i
    · subst hj; rw [wi]; exact h5 a ha
    · rw [wj j hj]; exact I.newW a (h4.trans ha) j
  · intro a ha j; exact I.newR a (h4.trans ha) j
  · intro j
    by_cases hj : j = i
    · subst hj
      simp only [Function.update_self]
      exact hwp
    · simp only [Function.update_of_ne hj]
      exact wp_stable (hQ j) _ _ _ _ _ (hagree j hj) (I.run j)

theorem pooled_get {σ : Shared} {p : PoolId} {a : Arr} {rest : List Arr} (h : σ.pool p = a :: rest) :
    (pooled σ).Perm (a :: pooled { σ with pool := Function.update σ.pool p rest }) := by
  unfold pooled
  cases p
  · simp [h]
  · simp only [h, Function.update_self]
    rw [Function.update_of_ne (by decide)]
    exact List.perm_middle

theorem pooled_put {σ : Shared} {p : PoolId} {a : Arr} :
    (pooled { σ with pool := Function.update σ.pool p (σ.pool p ++ [a]) }).Perm (a :: pooled σ) := by
  unfold pooled
  cases p
  · simp only [Function.update_self]
    rw [Function.update_of_ne (by decide), List.append_assoc]
    exact List.perm_middle
  · simp only [Function.update_self]
    rw [Function.update_of_ne (by decide), ← List.append_assoc]
    exact List.perm_append_comm.trans (by simp)

/-- What a step leaves alone: the readable cells, and the owned cells of threads that are finished. -/
def Kept (R W W' : ι → Set Loc) (c c' : Config ι α) : Prop :=
  (∀ j, Agree (R j) c.shared.heap c'.shared.heap) ∧
  ∀ j r, (c.thread j).prog = .ret r → W' j = W j ∧ c'.thread j = c.thread j ∧ Agree (W j) c.shared.heap c'.shared.heap

theorem inv_update' {R : ι → Set Loc} {Q : ι → Post α} (hQ : ∀ i, Stable (R i) (Q i)) {W : ι → Set Loc}
    {c : Config ι α} (I : Inv R Q W c) (i : ι) (hnr : ∀ r, (c.thread i).prog ≠ .ret r)
    (σ' : Shared) (hRi : Agree (R i) c.shared.heap σ'.heap) (p' : Prog α) (log' : List Byte) (W' : Set Loc)
    (hW : ∀ j, j ≠ i → Disjoint W' (W j)) (hR : ∀ j, Disjoint W' (R j))
    (h1 : (pooled σ').Nodup) (h2 : ∀ a ∈ pooled σ', a < σ'.next)
    (h3 : ∀ a ∈ pooled σ', (∀ j, j ≠ i → Fresh (W j) a) ∧ Fresh W' a ∧ ∀ j, Fresh (R j) a)
    (h4 : c.shared.next ≤ σ'.next) (h5 : ∀ a, σ'.next ≤ a → Fresh W' a)
    (hagree : ∀ j, j ≠ i → Agree (W j ∪ R j) c.shared.heap σ'.heap)
    (hwp : wp (R i) p' (Q i) W' σ'.heap log') :
    ∃ W'', Inv R Q W'' ⟨σ', Function.update c.thread i ⟨p', log'⟩⟩ ∧
      Kept R W W'' c ⟨σ', Function.update c.thread i ⟨p', log'⟩⟩ := by
  refine ⟨_, inv_update hQ I i σ' p' log' W' hW hR h1 h2 h3 h4 h5 hagree hwp, ?_, ?_⟩
  · intro j
    by_cases hj : j = i
    · subst hj; exact hRi
    · exact (hagree j hj).mono Set.subset_union_right
  · intro j r hr
    have hj : j ≠ i := by rintro rfl; exact hnr r hr
    refine ⟨Function.update_of_ne hj .., Function.update_of_ne hj .., (hagree j hj).mono Set.subset_union_left⟩

/-- Every step of every thread preserves the invariant. -/
theorem inv_step {R : ι → Set Loc} {Q : ι → Post α} (hQ : ∀ i, Stable (R i) (Q i)) {W : ι → Set Loc}
    {c c' : Config ι α} (I : Inv R Q W c) (h : SysStep c c') : ∃ W', Inv R Q W' c' ∧ Kept R W W' c c' := by
  obtain ⟨i, σ', p', bs, hstep⟩ := h
  have hrun := I.run i
  generalize hp : (c.thread i).prog = p at hstep hrun
  generalize hσ : c.shared = σ at hstep
  have newFresh : Fresh (W i ∪ R i) c.shared.next := fresh_union (I.newW _ le_rfl i) (I.newR _ le_rfl i)
  cases hstep with
  | alloc n k =>
    subst hσ
    refine inv_update' hQ I i (by simp [hp]) _ (agree_update_fresh _ _ (I.newR _ le_rfl i)) _ _ (W i ∪ own c.shared.next) ?_ ?_ I.poolNodup ?_ ?_ ?_ ?_ ?_ ?_
    · intro j hj
      exact Set.disjoint_union_left.2 ⟨I.disjW i j (Ne.symm hj), ((I.newW _ le_rfl j).disjoint).symm⟩
    · intro j
      exact Set.disjoint_union_left.2 ⟨I.disjR i j, ((I.newR _ le_rfl j).disjoint).symm⟩
    · intro a ha; exact (I.poolLt a ha).trans (Nat.lt_succ_self _)
    · intro a ha
      refine ⟨fun j _ => I.poolFreshW a ha j, fresh_union (I.poolFreshW a ha i) (fresh_own ?_),
        I.poolFreshR a ha⟩
      exact (I.poolLt a ha).ne
    · exact Nat.le_succ _
    · intro a ha
      have ha : c.shared.next + 1 ≤ a := ha
      exact fresh_union (I.newW a (Nat.le_of_succ_le ha) i) (fresh_own (Nat.ne_of_gt ha))
    · intro j _
      exact agree_update_fresh _ _ (fresh_union (I.newW _ le_rfl j) (I.newR _ le_rfl j))
    · rw [List.append_nil]; exact hrun _ newFresh
  | read a j k v hv =>
    subst hσ
    refine inv_update' hQ I i (by simp [hp]) _ (Agree.refl _ _) _ _ (W i) (fun j hj => I.disjW i j (Ne.symm hj)) (I.disjR i) I.poolNodup I.poolLt
      (fun a ha => ⟨fun j _ => I.poolFreshW a ha j, I.poolFreshW a ha i, I.poolFreshR a ha⟩) le_rfl
      (fun a ha => I.newW a ha i) (fun j _ => Agree.refl _ _) ?_
    obtain ⟨-, v', hv', hw⟩ := hrun
    rw [hv] at hv'; cases hv'
    rw [List.append_nil]; exact hw
  | readPanic a j k hv =>
    subst hσ
    obtain ⟨-, v', hv', -⟩ := hrun
    rw [hv] at hv'; cases hv'
  | write a j v k hl =>
    subst hσ
    obtain ⟨hm, -, hw⟩ := hrun
    refine inv_update' hQ I i (by simp [hp]) _ (agree_update_cell _ _ (fun hm' => Set.disjoint_left.1 (I.disjR i i) hm hm')) _ _ (W i) (fun j hj => I.disjW i j (Ne.symm hj)) (I.disjR i) I.poolNodup I.poolLt
      (fun a ha => ⟨fun j _ => I.poolFreshW a ha j, I.poolFreshW a ha i, I.poolFreshR a ha⟩) le_rfl
      (fun a ha => I.newW a ha i) (fun j' hj' => ?_) ?_
    · apply agree_update_cell
      rintro (hm' | hm')
      · exact Set.disjoint_left.1 (I.disjW i j' (Ne.symm hj')) hm hm'
      · exact Set.disjoint_left.1 (I.disjR i j') hm hm'
    · rw [List.append_nil]; exact hw
  | writePanic a j v k hl =>
    subst hσ
    exact absurd hrun.2.1 hl
  | get p k a rest hpool =>
    subst hσ
    have hperm := pooled_get hpool
    have ha : a ∈ pooled c.shared := hperm.mem_iff.2 (by simp)
    have hnd := hperm.nodup_iff.1 I.poolNodup
    have hsub : ∀ b ∈ pooled { c.shared with pool := Function.update c.shared.pool p rest },
        b ∈ pooled c.shared ∧ b ≠ a := by
      intro b hb
      refine ⟨hperm.mem_iff.2 (List.mem_cons_of_mem _ hb), ?_⟩
      rintro rfl
      exact (List.nodup_cons.1 hnd).1 hb
    refine inv_update' hQ I i (by simp [hp]) _ (by exact Agree.refl _ _) _ _ (W i ∪ own a) ?_ ?_ (List.nodup_cons.1 hnd).2 ?_ ?_
      le_rfl ?_ (fun j _ => Agree.refl _ _) ?_
    · intro j hj
      exact Set.disjoint_union_left.2 ⟨I.disjW i j (Ne.symm hj), ((I.poolFreshW a ha j).disjoint).symm⟩
    · intro j
      exact Set.disjoint_union_left.2 ⟨I.disjR i j, ((I.poolFreshR a ha j).disjoint).symm⟩
    · intro b hb; exact I.poolLt b (hsub b hb).1
    · intro b hb
      obtain ⟨hb1, hb2⟩ := hsub b hb
      exact ⟨fun j _ => I.poolFreshW b hb1 j, fresh_union (I.poolFreshW b hb1 i) (fresh_own hb2),
        I.poolFreshR b hb1⟩
    · intro b hb
      refine fresh_union (I.newW b hb i) (fresh_own ?_)
      exact Nat.ne_of_gt (lt_of_lt_of_le (I.poolLt a ha) hb)
    · rw [List.append_nil]
      have := hrun a (c.shared.heap a) (fresh_union (I.poolFreshW a ha i) (I.poolFreshR a ha i))
      rwa [Function.update_eq_self] at this
  | getNew p k hpool =>
    subst hσ
    refine inv_update' hQ I i (by simp [hp]) _ (agree_update_fresh _ _ (I.newR _ le_rfl i)) _ _ (W i ∪ own c.shared.next) ?_ ?_ I.poolNodup ?_ ?_ ?_ ?_ ?_ ?_
    · intro j hj
      exact Set.disjoint_union_left.2 ⟨I.disjW i j (Ne.symm hj), ((I.newW _ le_rfl j).disjoint).symm⟩
    · intro j
      exact Set.disjoint_union_left.2 ⟨I.disjR i j, ((I.newR _ le_rfl j).disjoint).symm⟩
    · intro a ha; exact (I.poolLt a ha).trans (Nat.lt_succ_self _)
    · intro a ha
      refine ⟨fun j _ => I.poolFreshW a ha j, fresh_union (I.poolFreshW a ha i) (fresh_own ?_),
        I.poolFreshR a ha⟩
      exact (I.poolLt a ha).ne
    · exact Nat.le_succ _
    · intro a ha
      have ha : c.shared.next + 1 ≤ a := ha
      exact fresh_union (I.newW a (Nat.le_of_succ_le ha) i) (fresh_own (Nat.ne_of_gt ha))
    · intro j _
      exact agree_update_fresh _ _ (fresh_union (I.newW _ le_rfl j) (I.newR _ le_rfl j))
    · rw [List.append_nil]; exact hrun _ [] newFresh
  | put p a k hlen =>
    subst hσ
    obtain ⟨hsub, hw⟩ := hrun
    have hfr : ∀ S : Set Loc, Disjoint (W i) S → Fresh S a := fun S hd =>
      fun j hm => Set.disjoint_left.1 hd (hsub rfl) hm
    have hself : Fresh (W i \ own a) a := fun j hm => hm.2 rfl
    have hlt : a < c.shared.next := by
      by_contra hge
      exact (I.newW a (Nat.le_of_not_lt hge) i) 0 (hsub rfl)
    have hnot : a ∉ pooled c.shared := fun hm => I.poolFreshW a hm i 0 (hsub rfl)
    have hperm := pooled_put (σ := c.shared) (p := p) (a := a)
    refine inv_update' hQ I i (by simp [hp]) _ (by exact Agree.refl _ _) _ _ (W i \ own a)
      (fun j hj => (I.disjW i j (Ne.symm hj)).mono_left Set.sdiff_subset)
      (fun j => (I.disjR i j).mono_left Set.sdiff_subset) (hperm.nodup_iff.2 (List.nodup_cons.2 ⟨hnot, I.poolNodup⟩))
      ?_ ?_ le_rfl (fun a ha => (I.newW a ha i).mono Set.sdiff_subset) (fun j _ => Agree.refl _ _) ?_
    · intro b hb
      rcases List.mem_cons.1 (hperm.mem_iff.1 hb) with rfl | hb
      · exact hlt
      · exact I.poolLt b hb
    · intro b hb
      rcases List.mem_cons.1 (hperm.mem_iff.1 hb) with rfl | hb
      · exact ⟨fun j hj => hfr _ (I.disjW i j (Ne.symm hj)), hself, fun j => hfr _ (I.disjR i j)⟩
      · exact ⟨fun j _ => I.poolFreshW b hb j, (I.poolFreshW b hb i).mono Set.sdiff_subset, I.poolFreshR b hb⟩
    · rw [List.append_nil]; exact hw
  | putDrop p a k hlen =>
    subst hσ
    obtain ⟨hsub, hw⟩ := hrun
    refine inv_update' hQ I i (by simp [hp]) _ (by exact Agree.refl _ _) _ _ (W i \ own a)
      (fun j hj => (I.disjW i j (Ne.symm hj)).mono_left Set.sdiff_subset)
      (fun j => (I.disjR i j).mono_left Set.sdiff_subset) I.poolNodup I.poolLt
      (fun a ha => ⟨fun j _ => I.poolFreshW a ha j, (I.poolFreshW a ha i).mono Set.sdiff_subset, I.poolFreshR a ha⟩) le_rfl
      (fun a ha => (I.newW a ha i).mono Set.sdiff_subset) (fun j _ => Agree.refl _ _) ?_
    rw [List.append_nil]; exact hw
  | rand k v =>
    subst hσ
    exact inv_update' hQ I i (by simp [hp]) _ (Agree.refl _ _) _ _ (W i) (fun j hj => I.disjW i j (Ne.symm hj)) (I.disjR i) I.poolNodup I.poolLt
      (fun a ha => ⟨fun j _ => I.poolFreshW a ha j, I.poolFreshW a ha i, I.poolFreshR a ha⟩) le_rfl
      (fun a ha => I.newW a ha i) (fun j _ => Agree.refl _ _) (hrun v)

/-- Every reachable configuration satisfies the invariant; finished threads and readable cells are left alone. -/
theorem inv_reach {R : ι → Set Loc} {Q : ι → Post α} (hQ : ∀ i, Stable (R i) (Q i)) {W : ι → Set Loc}
    {c c' : Config ι α} (I : Inv R Q W c) (h : Reach c c') : ∃ W', Inv R Q W' c' ∧ Kept R W W' c c' := by
  induction h with
  | refl => exact ⟨W, I, fun j => Agree.refl _ _, fun j r _ => ⟨rfl, rfl, Agree.refl _ _⟩⟩
  | tail _ hs ih =>
    obtain ⟨W1, I1, k1, k2⟩ := ih
    obtain ⟨W2, I2, l1, l2⟩ := inv_step hQ I1 hs
    refine ⟨W2, I2, fun j a i hm => (k1 j a i hm).trans (l1 j a i hm), fun j r hr => ?_⟩
    obtain ⟨e1, e2, e3⟩ := k2 j r hr
    obtain ⟨f1, f2, f3⟩ := l2 j r (by rw [e2]; exact hr)
    exact ⟨f1.trans e1, f2.trans e2, fun a i hm => (e3 a i hm).trans (f3 a i (by rw [e1]; exact hm))⟩

end Verif.Proofs.Own
