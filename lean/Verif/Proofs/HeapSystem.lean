import Verif.Proofs.HeapAllCalls
import Mathlib.SetTheory.Ordinal.Family
import Mathlib.Order.WellFoundedSet
import Mathlib.Order.WellFounded

/-! # Systems of concurrent calls: the ownership invariant holds initially; executions are finite -/

namespace Verif.Proofs.Own
open Verif Outcome Galois Shamir Spec Pool Csprng Verif.Heap

variable {ι : Type} [DecidableEq ι]

/-- Memory that exists before the calls and is not in a pool. -/
def preexisting (σ : Shared) : Set Loc := {l | l.1 < σ.next ∧ ∀ p, l.1 ∉ σ.pool p}

theorem mem_pooled {σ : Shared} {a : Arr} : a ∈ pooled σ ↔ ∃ p, a ∈ σ.pool p := by
  unfold pooled
  rw [List.mem_append]
  constructor
  · rintro (h | h)
    · exact ⟨_, h⟩
    · exact ⟨_, h⟩
  · rintro ⟨p, h⟩
    cases p
    · exact Or.inl h
    · exact Or.inr h

theorem inv_initial (arch : Arch) {σ : Shared} {calls : ι → Call} (hs : Start σ calls)
    (ha : ∀ i, Admissible (calls i)) :
    Inv (fun _ => preexisting σ) (fun i => CallPost arch (calls i) ((calls i).inputs.map (contents σ.heap)))
      (fun _ => ∅) (initial arch σ calls) where
  disjW _ _ _ := Set.disjoint_empty _
  disjR _ _ := Set.empty_disjoint _
  poolNodup := hs.poolNodup
  poolLt a h := by
    obtain ⟨p, h⟩ := mem_pooled.1 h
    exact hs.poolLt p a h
  poolFreshW a _ i k hm := hm
  poolFreshR a h i k hm := by
    obtain ⟨p, h⟩ := mem_pooled.1 h
    exact hm.2 p h
  newW a _ i k hm := hm
  newR a h i k hm := absurd hm.1 (Nat.not_lt_of_le h)
  run i := by
    refine wp_call arch (ha i) ?_ ?_ ?_
    · intro s hin k _
      have := hs.inputs i s hin
      exact ⟨this.2.2.1, this.2.2.2⟩
    · intro s hin
      exact (hs.inputs i s hin).1
    · intro s hin
      exact (hs.inputs i s hin).2.1

/-- Invariant of the reachable configurations. -/
theorem inv_calls (arch : Arch) {σ : Shared} {calls : ι → Call} (hs : Start σ calls)
    (ha : ∀ i, Admissible (calls i)) {c : Config ι (Outcome (List Slice))} (hr : Reach (initial arch σ calls) c) :
    ∃ W, Inv (fun _ => preexisting σ) (fun i => CallPost arch (calls i) ((calls i).inputs.map (contents σ.heap))) W c ∧
      Agree (preexisting σ) σ.heap c.shared.heap := by
  obtain ⟨W, I, k1, -⟩ := inv_reach (fun i => callPost_stable arch _ _) (inv_initial arch hs ha) hr
  refine ⟨W, I, ?_⟩
  by_cases hι : Nonempty ι
  · exact k1 hι.some
  · have : c = initial arch σ calls := by
      induction hr with
      | refl => rfl
      | tail _ h _ => obtain ⟨i, _, _, _, _⟩ := h; exact absurd ⟨i⟩ hι
    rw [this]; exact Agree.refl _ _

/-! ## Progress and termination -/

/-- A thread that is neither finished nor panicked can take a step. -/
theorem progress {α : Type} (σ : Shared) (p : Prog α) (h1 : ∀ r, p ≠ .ret r) (h2 : p ≠ .panic) :
    ∃ σ' p' bs, Step σ p σ' p' bs := by
  cases p with
  | ret a => exact absurd rfl (h1 a)
  | panic => exact absurd rfl h2
  | alloc n k => exact ⟨_, _, _, .alloc σ n k⟩
  | read a i k =>
    cases h : (σ.heap a)[i]? with
    | none => exact ⟨_, _, _, .readPanic σ a i k h⟩
    | some v => exact ⟨_, _, _, .read σ a i k v h⟩
  | write a i v k =>
    by_cases h : i < (σ.heap a).length
    · exact ⟨_, _, _, .write σ a i v k h⟩
    · exact ⟨_, _, _, .writePanic σ a i v k h⟩
  | get p k =>
    cases h : σ.pool p with
    | nil => exact ⟨_, _, _, .getNew σ p k h⟩
    | cons a rest => exact ⟨_, _, _, .get σ p k a rest h⟩
  | put p a k =>
    by_cases h : (σ.pool p).length < σ.size
    · exact ⟨_, _, _, .put σ p a k h⟩
    · exact ⟨_, _, _, .putDrop σ p a k h⟩
  | rand k => exact ⟨_, _, _, .rand σ k 0⟩

/-- Height of a program tree. -/
noncomputable def rank {α : Type} : Prog α → Ordinal.{0}
  | .ret _ => 0
  | .panic => 0
  | .alloc _ k => Order.succ (⨆ a, rank (k a))
  | .read _ _ k => Order.succ (⨆ v, rank (k v))
  | .write _ _ _ k => Order.succ (rank k)
  | .get _ k => Order.succ (⨆ x : Arr × Nat, rank (k x.1 x.2))
  | .put _ _ k => Order.succ (rank k)
  | .rand k => Order.succ (⨆ v, rank (k v))

theorem rank_step {α : Type} {σ σ' : Shared} {p p' : Prog α} {bs : List Byte} (h : Step σ p σ' p' bs) :
    rank p' < rank p := by
  cases h with
  | alloc n k => exact Order.lt_succ_of_le (Ordinal.le_iSup (fun a => rank (k a)) _)
  | read a i k v h => exact Order.lt_succ_of_le (Ordinal.le_iSup (fun v => rank (k v)) v)
  | readPanic a i k h => exact lt_of_le_of_lt (zero_le) (Order.lt_succ _)
  | write a i v k h => exact Order.lt_succ _
  | writePanic a i v k h => exact lt_of_le_of_lt (zero_le) (Order.lt_succ _)
  | get p k a rest h => exact Order.lt_succ_of_le (Ordinal.le_iSup (fun x : Arr × Nat => rank (k x.1 x.2)) (a, _))
  | getNew p k h => exact Order.lt_succ_of_le (Ordinal.le_iSup (fun x : Arr × Nat => rank (k x.1 x.2)) (_, 0))
  | put p a k h => exact Order.lt_succ _
  | putDrop p a k h => exact Order.lt_succ _
  | rand k v => exact Order.lt_succ_of_le (Ordinal.le_iSup (fun v => rank (k v)) v)

theorem sysStep_wf {α : Type} [Finite ι] : WellFounded (fun c' c : Config ι α => SysStep c c') := by
  have hwf : WellFounded ((· < ·) : (ι → Ordinal.{0}) → (ι → Ordinal.{0}) → Prop) := wellFounded_lt
  refine Subrelation.wf ?_ (InvImage.wf (fun c : Config ι α => fun i => rank (c.thread i).prog) hwf)
  intro c' c h
  obtain ⟨i, σ', p', bs, hs⟩ := h
  show (_ : ι → Ordinal) < _
  rw [Pi.lt_def]
  have hlt := rank_step hs
  refine ⟨fun j => ?_, i, ?_⟩
  · by_cases hj : j = i
    · subst hj; simp only [Function.update_self]; exact hlt.le
    · simp only [Function.update_of_ne hj]; exact le_rfl
  · simp only [Function.update_self]; exact hlt

/-- Every execution can be continued until all calls are done. -/
theorem reach_done {α : Type} [Finite ι] (c : Config ι α) :
    ∃ c', Reach c c' ∧ ∀ i, (∃ r, (c'.thread i).prog = .ret r) ∨ (c'.thread i).prog = .panic := by
  induction c using (sysStep_wf (ι := ι) (α := α)).induction with
  | _ c ih =>
    by_cases h : ∀ i, (∃ r, (c.thread i).prog = .ret r) ∨ (c.thread i).prog = .panic
    · exact ⟨c, .refl, h⟩
    · push Not at h
      obtain ⟨i, h1, h2⟩ := h
      obtain ⟨σ', p', bs, hs⟩ := progress c.shared (c.thread i).prog h1 h2
      have hstep := SysStep.mk c i σ' p' bs hs
      obtain ⟨c', hr, hd⟩ := ih _ hstep
      exact ⟨c', Relation.ReflTransGen.head hstep hr, hd⟩

end Verif.Proofs.Own
