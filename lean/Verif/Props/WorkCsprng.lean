import Verif.Proofs.WorkCalls
import Verif.Proofs.LeakCsprng

/-! # C88: how much work the random source does

Steps are counted by `Traced.work` (Spec/Work.lean) in the runs of `Model/LeakCsprng.lean`; AES (`Read`) is not counted. -/

namespace Verif.Props
open Verif Outcome Proofs Leak Csprng

/-- C88: CSPRNG.Perm(n) makes at most n + 5m + 2 steps, where m = n-2 for n >= 2, and at most 255 for n < 2, however it ends. -/
theorem C88_perm (r : CSPRNG) (n : Byte) : (Leak.perm r n).work ≤ 2 + n.toNat + 5 * (n - 2#8).toNat := by
  unfold Leak.perm
  refine (work_bind_le (m := 1 + n.toNat * 1) (n := 1 + (n - 2#8).toNat * 5) (work_forUp fun _ _ _ => work_setIdx _ _ _) fun b _ => ?_).trans (by omega)
  refine work_forUp fun i _ b => ?_
  refine (work_bind_le (m := 1) (n := 4) (work_idx _ _) fun s _ => ?_).trans (by omega)
  by_cases h : n - BitVec.ofNat 8 i = 0
  · rw [if_pos h]; exact work_fail (by simp) _ _
  · rw [if_neg h]
    exact work_bind_le (m := 1) (n := 3) (work_idx _ _) fun _ _ => work_bind_le (m := 1) (n := 2) (work_idx _ _) fun _ _ =>
      work_bind_le (m := 1) (n := 1) (work_setIdx _ _ _) fun _ _ => work_setIdx _ _ _

/-- C88: Perm of the package randomizer makes at most n + 3m + 2 steps, where m = n-1 for n >= 1, and 255 for n = 0. -/
theorem C88_randomizer_perm (r : Randomizer.Randomizer) (n : Byte) : (Leak.rperm r n).work ≤ 2 + n.toNat + 3 * (n - 1#8).toNat := by
  unfold Leak.rperm
  refine (work_bind_le (m := 1 + n.toNat * 1) (n := 1 + (n - 1#8).toNat * 3) (work_forUp fun _ _ _ => work_setIdx _ _ _) fun b _ => ?_).trans (by omega)
  refine (work_bind_le (m := 1 + (n - 1#8).toNat * 3) (n := 0) (work_forUp fun i _ st => ?_) fun st _ => ?_).trans (by omega)
  · obtain ⟨b, mx⟩ := st
    refine (work_bind_le (m := 1) (n := 2) (work_idx _ _) fun s _ => ?_).trans (by omega)
    by_cases h : mx = 0
    · simp only [if_pos h]; exact work_fail (by simp) _ _
    · simp only [if_neg h]
      exact work_bind_le (m := 1) (n := 1) (work_idx _ _) fun _ _ => work_bind_le (m := 1) (n := 0) (work_setIdx _ _ _) fun _ _ => work_pure _ _
  · obtain ⟨b, mx⟩ := st
    exact work_pure _ _

theorem steps_blind (e : Ev) : e.blind.steps = e.steps := by cases e <;> rfl

theorem work_uniqT (i : Nat) (b : Bool) : ((uniqT i b).map Ev.steps).sum ≤ 8 := by cases b <;> simp [uniqT, Ev.steps]

theorem work_flatMap (T : Nat → List Ev) {c : Nat} (h : ∀ i, ((T i).map Ev.steps).sum ≤ c) (n : Nat) :
    (((List.range n).flatMap T).map Ev.steps).sum ≤ n * c := by
  induction n with
  | zero => simp
  | succ n ih =>
    rw [List.range_succ, List.flatMap_append, List.map_append, List.sum_append, Nat.succ_mul]
    have := h n
    simp only [List.flatMap_cons, List.flatMap_nil, List.append_nil]
    omega

/-- C88: a call of GetUniqueBytes either does not return (C28) or takes at most 2 + 8n steps for n < 20, and at most 1524 for n >= 20:
there are no long waits for a byte that did not occur yet. -/
theorem C88_unique (r : CSPRNG) (fuel : Nat) (n : Byte) :
    (20 ≤ n.toNat → (Leak.getUniqueBytes r fuel n).work ≤ 1524) ∧
    (n.toNat < 20 → ∀ l, r.getUniqueBytes fuel n = ok l → (Leak.getUniqueBytes r fuel n).work ≤ 2 + 8 * n.toNat) := by
  constructor
  · intro hn
    have hle : 20#8 ≤ n := hn
    unfold Leak.getUniqueBytes
    refine (work_bind_le (m := 1) (n := 1523) (within_test _).1 fun t ht => ?_).trans (by omega)
    rw [out_test, decide_eq_true hle] at ht
    cases ht
    simp only [if_true]
    refine (work_bind_le (n := 1) (C88_perm r 255#8) fun p _ => work_slice _ _ _).trans ?_
    decide
  · intro hn l h
    obtain ⟨-, -, e⟩ := trace_unique hn h
    have : (Leak.getUniqueBytes r fuel n).work = (((Leak.getUniqueBytes r fuel n).trace.map Ev.blind).map Ev.steps).sum := by
      unfold Traced.work
      rw [List.map_map]
      congr 1
      exact List.map_congr_left fun e _ => (steps_blind e).symm
    rw [this, e, List.map_cons, List.map_cons, List.sum_cons, List.sum_cons]
    have := work_flatMap (fun i => uniqT i (dup r l i)) (c := 8) (fun i => work_uniqT _ _) n.toNat
    show 1 + (1 + _) ≤ _
    omega

/-! ## Concrete cases -/

/-- Perm(255), as GetUniqueBytes calls it. -/
example (r : CSPRNG) : (Leak.perm r 255#8).work ≤ 1522 := (C88_perm r 255#8).trans (by decide)

/-- Three different bytes of a key stream. -/
example : (Leak.getUniqueBytes ⟨fun i => BitVec.ofNat 8 i⟩ 1 3#8).work ≤ 26 :=
  (C88_unique _ _ _).2 (by decide) [0, 1, 2] (by rfl)

end Verif.Props
