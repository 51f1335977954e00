import Verif.Proofs.Work
import Verif.Proofs.LeakSplit

/-! # The steps of Split -/

namespace Verif.Leak
open Verif Outcome Galois Pool Proofs Spec

theorem work_one {α : Type} {e : Ev} (o : Outcome α) (h : e.steps = 1 := by rfl) : (shows e o).work ≤ 1 := (within_one o h).1

theorem work_iterUp {σ : Type} {c : Nat} (I : Nat → σ → Prop) (body : Nat → σ → Traced σ) : ∀ (n : Nat) (s : σ), I 0 s →
    (∀ i < n, ∀ s, I i s → (body i s).work ≤ c ∧ ∀ t, (body i s).out = ok t → I (i + 1) t) →
    (iterUp n body s).work ≤ n * c ∧ ∀ t, (iterUp n body s).out = ok t → I n t
  | 0, s, h, _ => ⟨Nat.zero_le _, fun t ht => by cases ht; exact h⟩
  | n + 1, s, h, hb => by
    obtain ⟨h1, h2⟩ := work_iterUp I body n s h fun i hi => hb i (by omega)
    rw [Nat.succ_mul]
    refine ⟨work_bind_le h1 fun a ha => (hb n (by omega) a (h2 a ha)).1, fun t ht => ?_⟩
    obtain ⟨a, ha, ht⟩ := bind_eq_ok.1 (show ((iterUp n body s).out >>= fun a => (body n a).out) = ok t from ht)
    exact (hb n (by omega) a (h2 a ha)).2 t ht

theorem work_iterDown {σ : Type} {c : Nat} (I : σ → Prop) (body : Nat → σ → Traced σ) : ∀ (n : Nat) (s : σ), I s →
    (∀ i < n, ∀ s, I s → (body i s).work ≤ c ∧ ∀ t, (body i s).out = ok t → I t) → (iterDown n body s).work ≤ n * c
  | 0, _, _, _ => Nat.zero_le _
  | n + 1, s, h, hb => by
    obtain ⟨h1, h2⟩ := hb n (by omega) s h
    have : c + n * c = (n + 1) * c := by ring
    rw [← this]
    exact work_bind_le h1 fun a ha => work_iterDown I body n a (h2 a ha) fun i hi => hb i (by omega)

theorem work_forUp {σ : Type} {c : Nat} {body : Nat → σ → Traced σ} {n : Nat} {s : σ}
    (hb : ∀ i < n, ∀ s, (body i s).work ≤ c) : (forUp n body s).work ≤ 1 + n * c :=
  work_bind_le (work_one _) fun _ _ => (work_iterUp (fun _ _ => True) body n s trivial fun i hi s _ => ⟨hb i hi s, fun _ _ => trivial⟩).1

theorem work_forDown {σ : Type} {c : Nat} (I : σ → Prop) {body : Nat → σ → Traced σ} {n : Nat} {s : σ} (h : I s)
    (hb : ∀ i < n, ∀ s, I s → (body i s).work ≤ c ∧ ∀ t, (body i s).out = ok t → I t) : (forDown n body s).work ≤ 1 + n * c :=
  work_bind_le (work_one _) fun _ _ => work_iterDown I body n s h hb

theorem work_mulTail (c : Byte) (d : Nat) (inp out : List Byte) : (mulTail c d inp out).work ≤ 1 + inp.length * 3 :=
  (work_forUp (c := 3) fun _ _ _ => work_bind_le (m := 1) (n := 2) (work_one _) fun _ _ => work_bind_le (m := 1) (n := 1) (work_one _) fun _ _ =>
    work_one _).trans (by omega)

theorem work_xorTail (d : Nat) (inp out : List Byte) : (xorTail d inp out).work ≤ 1 + inp.length * 3 :=
  (work_forUp (c := 3) fun _ _ _ => work_bind_le (m := 1) (n := 2) (work_one _) fun _ _ => work_bind_le (m := 1) (n := 1) (work_one _) fun _ _ =>
    work_one _).trans (by omega)

theorem work_slice {α : Type} (l : List α) (s e : Nat) : (slice l s e).work ≤ 1 := work_one _

theorem length_slice_le {α : Type} {l r : List α} {s e : Nat} (h : (slice l s e).out = ok r) : r.length ≤ e - s := by
  rw [out_slice] at h
  unfold Verif.slice at h
  split at h
  · cases h
    simp
  · cases h

theorem work_copyInto (dst src : List Byte) : (copyInto dst src).work ≤ 1 + dst.length := (within_shows _).1

theorem work_routine {α : Type} (w d n : Nat) (c : Byte) (o : Outcome α) : (shows (.routine w d n c) o).work ≤ 1 + n := (within_shows _).1

theorem work_ite {α : Type} {b : Bool} {n : Nat} {x y : Traced α} (hx : x.work ≤ n) (hy : y.work ≤ n) :
    (if b = true then x else y).work ≤ n := by
  split
  · exact hx
  · exact hy

theorem work_pure {α : Type} (a : α) (n : Nat) : (pure a : Traced α).work ≤ n := Nat.zero_le _

theorem work_mulConstVector (arch : Arch) (c : Byte) (a : List Byte) : (mulConstVector arch c a).work ≤ 5 * a.length + 10 := by
  cases arch with
  | amd64 cpu =>
    show (mulConstVectorAmd64 cpu c a).work ≤ _
    unfold mulConstVectorAmd64
    refine (work_bind_le (m := 1) (n := 5 * a.length + 9) (within_test _).1 fun t _ => work_ite ?_ ?_).trans (by omega)
    · refine (work_copyInto _ _).trans ?_
      simp; omega
    refine (work_bind_le (m := 1) (n := 5 * a.length + 8) (within_test _).1 fun t _ => work_ite ?_ ?_).trans (by omega)
    · refine (work_bind_le (m := a.length + 2) (n := 4 * a.length + 6) ?_ fun p _ => ?_).trans (by omega)
      · refine (work_bind_le (m := 1) (n := a.length + 1) (within_test _).1 fun t _ => work_ite ?_ (work_pure _ _)).trans (by omega)
        exact (work_bind_le (m := 1 + a.length) (n := 0) (work_routine _ _ _ _ _) fun _ _ => work_pure _ _).trans (by omega)
      · obtain ⟨d, o⟩ := p
        refine (work_bind_le (m := 1) (n := 4 * a.length + 5) (work_slice _ _ _) fun i1 hi1 => ?_).trans (by omega)
        have l1 := length_slice_le hi1
        refine (work_bind_le (m := 1) (n := 4 * a.length + 4) (work_slice _ _ _) fun o1 _ => ?_).trans (by omega)
        refine (work_bind_le (m := a.length + 2) (n := 3 * a.length + 1) ?_ fun p _ => ?_).trans (by omega)
        · refine (work_bind_le (m := 1) (n := a.length + 1) (within_test _).1 fun t _ => work_ite ?_ (work_pure _ _)).trans (by omega)
          exact (work_bind_le (m := 1 + i1.length) (n := 0) (work_routine _ _ _ _ _) fun _ _ => work_pure _ _).trans (by omega)
        · obtain ⟨d, o⟩ := p
          exact (work_mulTail _ _ _ _).trans (by omega)
    refine (work_bind_le (m := 1) (n := 5 * a.length + 7) (within_test _).1 fun t _ => work_ite ?_ ?_).trans (by omega)
    · refine (work_bind_le (m := 1 + a.length) (n := 4 * a.length + 6) (work_routine _ _ _ _ _) fun o _ => ?_).trans (by omega)
      refine (work_bind_le (m := 1) (n := 4 * a.length + 5) (within_test _).1 fun t _ => ?_).trans (by omega)
      exact (work_mulTail _ _ _ _).trans (by omega)
    · exact (work_mulTail _ _ _ _).trans (by omega)
  | arm64 =>
    show (mulConstVectorArm64 c a).work ≤ _
    unfold mulConstVectorArm64
    refine (work_bind_le (m := 1) (n := 5 * a.length + 9) (within_test _).1 fun t _ => work_ite ?_ ?_).trans (by omega)
    · refine (work_copyInto _ _).trans ?_
      simp; omega
    refine (work_bind_le (m := 1 + a.length) (n := 4 * a.length + 8) (work_routine _ _ _ _ _) fun o _ => ?_).trans (by omega)
    refine (work_bind_le (m := 1) (n := 4 * a.length + 7) (within_test _).1 fun t _ => work_ite ?_ (work_pure _ _)).trans (by omega)
    exact (work_mulTail _ _ _ _).trans (by omega)
  | noasm =>
    exact (work_forUp (c := 3) fun _ _ _ => work_bind_le (m := 1) (n := 2) (work_one _) fun _ _ => work_bind_le (m := 1) (n := 1) (work_one _) fun _ _ =>
      work_one _).trans (by omega)

theorem work_addBatch (a b : List Byte) (h : a.length = b.length) : (addVectorBatchLoop a b).work ≤ 3 * a.length + 2 := by
  induction hn : b.length using Nat.strong_induction_on generalizing a b with
  | _ n ih =>
    unfold addVectorBatchLoop
    split
    · rename_i h32
      refine (work_bind_le (m := 1) (n := 3 * a.length + 1) (work_one _) fun _ _ => ?_).trans (by omega)
      refine (work_bind_le (m := 1) (n := 3 * a.length) (work_slice _ _ _) fun _ _ => ?_).trans (by omega)
      refine (work_bind_le (m := 1) (n := 3 * a.length - 1) (work_one _) fun _ _ => ?_).trans (by omega)
      refine (work_bind_le (m := 1) (n := 3 * a.length - 2) (work_one _) fun _ _ => ?_).trans (by omega)
      refine (work_bind_le (m := 1) (n := 3 * a.length - 3) (work_one _) fun _ _ => ?_).trans (by omega)
      refine (work_bind_le (m := 1) (n := 3 * a.length - 4) (work_one _) fun _ _ => ?_).trans (by omega)
      refine (work_bind_le (m := 1) (n := 3 * a.length - 5) (work_slice _ _ _) fun a' ha => ?_).trans (by omega)
      rw [out_slice, slice_ok (by omega) le_rfl] at ha
      cases ha
      refine (work_bind_le (n := 0) (ih (b.drop 32).length (by simp; omega) _ _ (by simp [h]) rfl) fun _ _ => work_pure _ _).trans ?_
      simp; omega
    · refine (work_bind_le (m := 1) (n := 1 + a.length * 3) (work_one _) fun _ _ => ?_).trans (by omega)
      exact work_forUp (c := 3) fun _ _ _ => work_bind_le (m := 1) (n := 2) (work_one _) fun _ _ => work_bind_le (m := 1) (n := 1) (work_one _) fun _ _ =>
        work_one _

theorem work_addVector (arch : Arch) {a b : List Byte} (h : a.length = b.length) : (addVector arch a b).work ≤ 5 * a.length + 10 := by
  cases arch with
  | amd64 cpu =>
    show (addVectorAmd64 cpu a b).work ≤ _
    unfold addVectorAmd64
    refine (work_bind_le (m := 1) (n := 5 * a.length + 9) (within_test _).1 fun t _ => work_ite ?_ ?_).trans (by omega)
    · refine (work_bind_le (m := a.length + 2) (n := 4 * a.length + 7) ?_ fun p _ => ?_).trans (by omega)
      · refine (work_bind_le (m := 1) (n := a.length + 1) (within_test _).1 fun t _ => work_ite ?_ (work_pure _ _)).trans (by omega)
        exact (work_bind_le (m := 1 + a.length) (n := 0) (work_routine _ _ _ _ _) fun _ _ => work_pure _ _).trans (by omega)
      · obtain ⟨d, o⟩ := p
        refine (work_bind_le (m := 1) (n := 4 * a.length + 6) (work_slice _ _ _) fun i1 hi1 => ?_).trans (by omega)
        have l1 := length_slice_le hi1
        refine (work_bind_le (m := 1) (n := 4 * a.length + 5) (work_slice _ _ _) fun o1 _ => ?_).trans (by omega)
        refine (work_bind_le (m := a.length + 2) (n := 3 * a.length + 3) ?_ fun p _ => ?_).trans (by omega)
        · refine (work_bind_le (m := 1) (n := a.length + 1) (within_test _).1 fun t _ => work_ite ?_ (work_pure _ _)).trans (by omega)
          exact (work_bind_le (m := 1 + i1.length) (n := 0) (work_routine _ _ _ _ _) fun _ _ => work_pure _ _).trans (by omega)
        · obtain ⟨d, o⟩ := p
          refine (work_bind_le (m := 1) (n := 3 * a.length + 1) (work_slice _ _ _) fun _ _ => ?_).trans (by omega)
          exact (work_xorTail _ _ _).trans (by omega)
    · refine (work_bind_le (m := 1) (n := 3 * a.length + 1) (work_slice _ _ _) fun _ _ => ?_).trans (by omega)
      exact (work_xorTail _ _ _).trans (by omega)
  | arm64 =>
    show (addVectorArm64 a b).work ≤ _
    unfold addVectorArm64
    refine (work_bind_le (m := 1 + a.length) (n := 4 * a.length + 8) (work_routine _ _ _ _ _) fun o _ => ?_).trans (by omega)
    refine (work_bind_le (m := 1) (n := 4 * a.length + 7) (within_test _).1 fun t _ => work_ite ?_ (work_pure _ _)).trans (by omega)
    exact (work_xorTail _ _ _).trans (by omega)
  | noasm =>
    show (addVectorGeneric a b).work ≤ _
    unfold addVectorGeneric
    refine (work_bind_le (m := 1) (n := 5 * a.length + 9) (within_test _).1 fun t _ => work_ite (Nat.zero_le _) ?_).trans (by omega)
    refine (work_bind_le (m := 1) (n := 5 * a.length + 8) (within_test _).1 fun t _ => work_ite ?_ ?_).trans (by omega)
    · unfold addVectorBatchGeneric
      refine (work_bind_le (m := 1) (n := 5 * a.length + 7) (within_test _).1 fun t _ => work_ite (Nat.zero_le _) ?_).trans (by omega)
      exact (work_addBatch a b h).trans (by omega)
    · exact (work_forUp (c := 3) fun _ _ _ => work_bind_le (m := 1) (n := 2) (work_one _) fun _ _ => work_bind_le (m := 1) (n := 1) (work_one _) fun _ _ =>
        work_one _).trans (by omega)

theorem work_evaluate (arch : Arch) {coef : List Byte} {N d : Nat} (hN : 0 < N) (hc : coef.length = (d + 1) * N) (x : Byte) (out : List Byte)
    (pool : BytesBufferPool) :
    (evaluatePolynomialsAtWithCoefficientsBuffer arch coef N x out pool).work ≤ 6 + 2 * N + d * (10 * N + 21) := by
  have hq : coef.length / N = d + 1 := by rw [hc]; exact Nat.mul_div_cancel _ hN
  unfold evaluatePolynomialsAtWithCoefficientsBuffer
  have hN0 : ¬ N = 0 := by omega
  have hd0 : ¬ d + 1 = 0 := by omega
  simp only [hq, Nat.add_sub_cancel, if_neg hN0, if_neg hd0]
  refine (work_bind_le (m := 1) (n := 5 + 2 * N + d * (10 * N + 21)) (work_slice _ _ _) fun r hr => ?_).trans (by omega)
  have lr : r.length = N := by
    rw [out_slice, slice_ok (Nat.zero_le _) (length_grow _ _)] at hr
    cases hr
    have := length_grow pool.get.1 N
    simp; omega
  refine (work_bind_le (m := 1) (n := 4 + 2 * N + d * (10 * N + 21)) (work_slice _ _ _) fun top ht => ?_).trans (by omega)
  have ht := slice_val ht
  refine (work_bind_le (m := 1 + N) (n := 3 + N + d * (10 * N + 21)) (by rw [← lr]; exact work_copyInto _ _) fun r1 h1 => ?_).trans (by omega)
  rw [out_copyInto, copyInto_same (by rw [lr, ht]; simp)] at h1
  cases h1
  refine (work_bind_le (m := 1 + d * (10 * N + 21)) (n := 2 + N) ?_ fun fin _ => ?_).trans (by omega)
  · refine work_forDown (fun s => s.length = N) (by rw [ht]; simp) fun i hi s hs => ⟨?_, fun t htt => ?_⟩
    · refine (work_bind_le (m := 1) (n := 10 * N + 20) (work_slice _ _ _) fun row hrow => ?_).trans (by omega)
      have hrow := slice_val hrow
      refine (work_bind_le (m := 5 * N + 10) (n := 5 * N + 10) (by rw [← hs]; exact work_mulConstVector _ _ _) fun m hm => ?_).trans (by omega)
      rw [out_mulConstVector, mulConstVector_eq] at hm
      cases hm
      refine (work_addVector arch (by rw [hrow]; simp [hs])).trans ?_
      rw [hrow]; simp
    · simp only [out_bind, out_mulConstVector, mulConstVector_eq, ok_bind] at htt
      obtain ⟨row, hrow, htt⟩ := bind_eq_ok.1 htt
      have hrow := slice_val hrow
      rw [out_addVector, addVector_eq _ (by rw [hrow]; simp [hs])] at htt
      cases htt
      simp [xorBytes, hrow, hs]
  · refine (work_bind_le (m := 1) (n := 1 + N) (work_slice _ _ _) fun dst hd => ?_).trans (by omega)
    refine (work_bind_le (m := 1 + N) (n := 0) ?_ fun _ _ => work_pure _ _).trans (by omega)
    have := length_slice_le hd
    exact (work_copyInto _ _).trans (by omega)

theorem work_allocShares (N p : Nat) (xs : List Byte) : (allocShares N p xs).work ≤ 1 + p * 4 :=
  work_forUp (c := 4) fun _ _ _ => work_bind_le (m := 1) (n := 3) (work_one _) fun _ _ => work_bind_le (m := 1) (n := 2) (work_one _) fun _ _ =>
    work_bind_le (m := 1) (n := 1) (work_one _) fun _ _ => work_one _

theorem work_setIntercepts (s : List Byte) (d : Nat) (b : List Byte) : (setIntercepts s d b).work ≤ 1 + s.length * 3 :=
  work_forUp (c := 3) fun _ _ _ => work_bind_le (m := 1) (n := 2) (work_one _) fun _ _ => work_bind_le (m := 1) (n := 1) (work_one _) fun _ _ =>
    work_bind_le (m := 1) (n := 0) (work_one _) fun _ _ => work_pure _ _

theorem work_transpose (d s : List Byte) (n : Nat) : (transposeMatrixBuffer d s n).work ≤ 2 + s.length * 3 := by
  unfold transposeMatrixBuffer
  refine (work_bind_le (m := 1) (n := 1 + s.length * 3) (within_test _).1 fun t _ => ?_).trans (by omega)
  cases t
  · refine (work_bind_le (m := 1 + s.length * 3) (n := 0) (work_forUp (c := 3) fun i _ st => ?_) fun st _ => ?_).trans (by omega)
    · obtain ⟨a, b, c⟩ := st
      refine work_bind_le (m := 1) (n := 2) (work_one _) fun _ _ => work_bind_le (m := 1) (n := 1) (work_one _) fun _ _ =>
        work_bind_le (m := 1) (n := 0) (within_test _).1 fun _ _ => work_ite (work_pure _ _) (work_pure _ _)
    · obtain ⟨a, b, c⟩ := st
      exact work_pure _ _
  · exact work_fail (by simp) _ _

theorem work_fillShares (arch : Arch) {coef : List Byte} {N d : Nat} (hN : 0 < N) (hc : coef.length = (d + 1) * N) (p : Nat) (xs : List Byte)
    (out : List (List Byte)) (pool : BytesBufferPool) :
    (fillShares arch coef N p xs out pool).work ≤ 1 + p * (10 + 2 * N + d * (10 * N + 21)) := by
  refine work_forUp fun i _ st => ?_
  obtain ⟨o, pl⟩ := st
  refine (work_bind_le (m := 1) (n := 9 + 2 * N + d * (10 * N + 21)) (work_one _) fun _ _ => ?_).trans (by omega)
  refine (work_bind_le (m := 1) (n := 8 + 2 * N + d * (10 * N + 21)) (work_one _) fun _ _ => ?_).trans (by omega)
  refine (work_bind_le (m := 1) (n := 7 + 2 * N + d * (10 * N + 21)) (work_one _) fun _ _ => ?_).trans (by omega)
  refine (work_bind_le (m := 6 + 2 * N + d * (10 * N + 21)) (n := 1) (work_evaluate arch hN hc _ _ _) fun r _ => ?_).trans (by omega)
  obtain ⟨ds, pl⟩ := r
  exact work_bind_le (m := 1) (n := 0) (work_one _) fun _ _ => work_pure _ _

/-- The steps of Split, however it ends. -/
theorem work_split (arch : Arch) {s : List Byte} {parts threshold : Int} (hv : ValidArgs s parts threshold) (perm : List Nat) (rnd : Nat → Byte)
    (ps : Shamir.Pools) : (split arch s parts threshold perm rnd ps).work ≤ 12 + 14 * parts.toNat + 3 * s.length + 3 * (threshold.toNat * s.length) +
      2 * (parts.toNat * s.length) + parts.toNat * ((threshold.toNat - 1) * (10 * s.length + 21)) := by
  obtain ⟨h1, h2, h3, h4⟩ := hv
  have hN : 0 < s.length := List.length_pos_iff.2 h4
  have et : threshold.toNat - 1 + 1 = threshold.toNat := by omega
  have e1 : decide (parts < threshold) = false := by simp; omega
  have e2 : decide (parts > 255) = false := by simp; omega
  have e3 : decide (threshold < 2) = false := by simp; omega
  have e4 : decide (threshold > 255) = false := by simp; omega
  have e5 : decide (s.length = 0) = false := by simp [h4]
  have hpb : ∀ {l p : List Byte}, (slice l 0 (threshold.toNat * s.length)).out = ok p → p.length = threshold.toNat * s.length := fun {l p} h => by
    have := slice_val (s := 0) (N := threshold.toNat * s.length) (e := .window 0 (threshold.toNat * s.length)) (l := l) (r := p) (by simpa [slice] using h)
    simp [this]
  have key : (split arch s parts threshold perm rnd ps).work ≤ 1 + (1 + (1 + (1 + (1 + ((1 + parts.toNat * 4) + (1 + ((1 + s.length * 3) + (1 +
      ((2 + (threshold.toNat * s.length) * 3) + ((1 + parts.toNat * (10 + 2 * s.length + (threshold.toNat - 1) * (10 * s.length + 21))) + 0)))))))))) := by
    unfold split
    refine work_bind_le (within_test _).1 fun t ht => ?_
    rw [out_test, e1] at ht; cases ht
    refine work_bind_le (within_test _).1 fun t ht => ?_
    rw [out_test, e2] at ht; cases ht
    refine work_bind_le (within_test _).1 fun t ht => ?_
    rw [out_test, e3] at ht; cases ht
    refine work_bind_le (within_test _).1 fun t ht => ?_
    rw [out_test, e4] at ht; cases ht
    refine work_bind_le (within_test _).1 fun t ht => ?_
    rw [out_test, e5] at ht; cases ht
    simp only [et]
    refine work_bind_le (work_allocShares _ _ _) fun out _ => ?_
    refine work_bind_le (work_slice _ _ _) fun pb hb => ?_
    have hb := hpb hb
    refine work_bind_le (work_setIntercepts _ _ _) fun pol hp => ?_
    rw [out_setIntercepts, setIntercepts_eq _ _ _ (by simp [Shamir.randRead, hb, et]), et] at hp
    have lp : pol.length = threshold.toNat * s.length := by
      rw [← Outcome.ok.inj hp]; simp [length_withIntercepts, Shamir.randRead, hb]
    rw [lp]
    refine work_bind_le (work_slice _ _ _) fun cb hcb => ?_
    have hcb := hpb hcb
    refine work_bind_le (by rw [← lp]; exact work_transpose _ _ _) fun co hco => ?_
    rw [out_transposeMatrixBuffer, transposeBuffer_eq _ _ _ s.length (by omega) hN lp (hcb.trans lp.symm)] at hco
    cases hco
    refine work_bind_le (work_fillShares arch (d := threshold.toNat - 1) hN (by rw [et]; simp) _ _ _ _) fun r _ => ?_
    obtain ⟨o, pp⟩ := r
    exact work_pure _ _
  refine key.trans (le_of_eq ?_)
  ring

end Verif.Leak
