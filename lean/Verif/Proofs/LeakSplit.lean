import Verif.Proofs.LeakVector

/-! # What Split shows -/

namespace Verif.Leak
open Verif Outcome Galois Pool Proofs Spec Spec.Leak

/-- The accumulator of the evaluation after `k` steps, at position `p`. -/
def acc (c : Nat → Nat → Byte) (x : Byte) (d : Nat) : Nat → Nat → Byte
  | 0, p => c d p
  | k + 1, p => c (d - (k + 1)) p ^^^ mulSpec x (acc c x d k p)

/-- The accumulators before the last step agree if and only if the coefficients but the constant ones agree. -/
theorem acc_agree (c c' : Nat → Nat → Byte) (x : Byte) (d p : Nat) :
    (∀ k < d, acc c x d k p = acc c' x d k p) ↔ ∀ i, 1 ≤ i → i ≤ d → c i p = c' i p := by
  have key : ∀ n ≤ d, (∀ k < n, acc c x d k p = acc c' x d k p) ↔ ∀ i, d - n < i → i ≤ d → c i p = c' i p := by
    intro n
    induction n with
    | zero => intro _; exact ⟨fun _ i h1 h2 => by omega, fun _ k hk => by omega⟩
    | succ n ih =>
      intro hn
      have ih := ih (by omega)
      have step : (∀ k < n, acc c x d k p = acc c' x d k p) →
          (acc c x d n p = acc c' x d n p ↔ c (d - n) p = c' (d - n) p) := by
        intro h
        cases n with
        | zero => exact Iff.rfl
        | succ n =>
          simp only [acc]
          rw [h n (by omega)]
          constructor
          · intro h
            have := congrArg (· ^^^ mulSpec x (acc c' x d n p)) h
            simpa [BitVec.xor_assoc] using this
          · intro h; rw [h]
      constructor
      · intro h i h1 h2
        have h0 : ∀ k < n, acc c x d k p = acc c' x d k p := fun k hk => h k (by omega)
        by_cases hi : i = d - n
        · subst hi
          exact (step h0).1 (h n (by omega))
        · exact ih.1 h0 i (by omega) h2
      · intro h k hk
        have h0 : ∀ k < n, acc c x d k p = acc c' x d k p := ih.2 fun i h1 h2 => h i (by omega) h2
        rcases Nat.lt_succ_iff_lt_or_eq.1 hk with hk | rfl
        · exact h0 k hk
        · exact (step h0).2 (h (d - k) (by omega) (by omega))
  have := key d le_rfl
  rw [this]
  constructor
  · intro h i h1 h2; exact h i (by omega) h2
  · intro h i h1 h2; exact h i (by omega) h2

theorem slice_val {l r : List Byte} {s N : Nat} {e : Ev} (h : (shows e (Verif.slice l s (s + N))).out = ok r) :
    r = (List.range N).map (fun p => l.getD (s + p) 0) := by
  rw [out_shows] at h
  by_cases hl : s + N ≤ l.length
  · rw [slice_range hl] at h
    exact (Outcome.ok.inj h).symm
  · unfold Verif.slice at h
    rw [if_neg (by omega)] at h
    cases h

theorem both_evaluate (arch : Arch) {coef coef' : List Byte} {N d : Nat} (hN : 0 < N) (hc : coef.length = (d + 1) * N)
    (hc' : coef'.length = (d + 1) * N) (x : Byte) (out out' : List Byte) (pool pool' : BytesBufferPool) :
    Both (x ≠ 1 ∨ arch = .noasm → ∀ j, lookupsFrom arch N ≤ j → j < N → ∀ k, 1 ≤ k → k ≤ d →
        coef.getD (k * N + j) 0 = coef'.getD (k * N + j) 0)
      (fun _ _ => True) (evaluatePolynomialsAtWithCoefficientsBuffer arch coef N x out pool)
      (evaluatePolynomialsAtWithCoefficientsBuffer arch coef' N x out' pool') := by
  have hq : ∀ {c : List Byte}, c.length = (d + 1) * N → c.length / N = d + 1 := fun h => by
    rw [h]; exact Nat.mul_div_cancel _ hN
  unfold evaluatePolynomialsAtWithCoefficientsBuffer
  have hN0 : ¬ N = 0 := by omega
  have hd0 : ¬ d + 1 = 0 := by omega
  simp only [hq hc, hq hc', Nat.add_sub_cancel, if_neg hN0, if_neg hd0]
  refine (both_shows _ _ _).same fun r r' hr hr' _ => ?_
  refine (both_shows _ _ _).same fun top top' ht ht' _ => ?_
  have lr : r.length = N := by
    rw [out_shows, slice_ok (Nat.zero_le _) (length_grow _ _)] at hr
    cases hr
    have := length_grow pool.get.1 N
    simp; omega
  have lr' : r'.length = N := by
    rw [out_shows, slice_ok (Nat.zero_le _) (length_grow _ _)] at hr'
    cases hr'
    have := length_grow pool'.get.1 N
    simp; omega
  have ht := slice_val ht
  have ht' := slice_val ht'
  unfold copyInto
  rw [lr, lr']
  refine (both_shows _ _ _).same fun r1 r1' h1 h1' _ => ?_
  rw [out_shows, copyInto_same (by rw [lr, ht]; simp)] at h1
  rw [out_shows, copyInto_same (by rw [lr', ht']; simp)] at h1'
  cases h1; cases h1'
  let c := fun k p => coef.getD (k * N + p) 0
  let c' := fun k p => coef'.getD (k * N + p) 0
  refine ((both_forDown rfl
    (fun i => x ≠ 1 ∨ arch = .noasm → ∀ j, lookupsFrom arch N ≤ j → j < N → acc c x d (d - (i + 1)) j = acc c' x d (d - (i + 1)) j)
    (fun i s t => s = (List.range N).map (acc c x d (d - i)) ∧ t = (List.range N).map (acc c' x d (d - i)))
    ?_ ?_).bind (K' := True) (M := fun _ _ => True) ?_).weaken ?_ fun _ _ _ _ h => h
  · simp only [Nat.sub_self, acc]
    exact ⟨ht, ht'⟩
  · rintro i hi s t ⟨rfl, rfl⟩
    refine (both_shows _ _ _).same fun row row' hrow hrow' _ => ?_
    have hrow := slice_val hrow
    have hrow' := slice_val hrow'
    refine ((both_mulConstVector arch x (by simp)).bind (K' := True) (M := fun s t =>
      s = (List.range N).map (acc c x d (d - i)) ∧ t = (List.range N).map (acc c' x d (d - i))) fun m m' hm hm' _ => ?_).weaken ?_
        fun _ _ _ _ h => h
    · rw [out_mulConstVector, mulConstVector_eq] at hm hm'
      cases hm; cases hm'
      refine (both_addVector arch (by simp [hrow]) (by simp [hrow, hrow']) (by simp)).weaken Iff.rfl fun s t hs ht _ => ?_
      rw [out_addVector, addVector_eq _ (by simp [hrow]), hrow, List.map_map, xorBytes_range] at hs
      rw [out_addVector, addVector_eq _ (by simp [hrow']), hrow', List.map_map, xorBytes_range] at ht
      cases hs; cases ht
      have e : d - i = d - (i + 1) + 1 := by omega
      have e' : d - (d - (i + 1) + 1) = i := by omega
      rw [e]
      constructor
      · apply List.map_congr_left
        intro p _
        simp only [acc, e']
        rfl
      · apply List.map_congr_left
        intro p _
        simp only [acc, e']
        rfl
    · simp only [List.length_map, List.length_range, and_true]
      refine imp_congr_right fun _ => forall_congr' fun j => imp_congr_right fun _ => imp_congr_right fun hj => ?_
      simp [List.getD_eq_getElem?_getD, List.getElem?_range hj]
  · intro f f' _ _ _
    refine (both_shows _ _ _).same fun dst dst' hd hd' _ => ?_
    have e : ∀ {o q : List Byte}, (slice o 0 N).out = ok q → q.length = N := fun {o q} h => by
      have := slice_val (s := 0) (N := N) (e := .elem 0) (l := o) (r := q) (by simpa using h)
      simp [this]
    rw [e hd, e hd']
    exact (both_shows _ _ _).same fun _ _ _ _ _ => both_pure trivial
  · rw [and_true]
    constructor
    · intro h hx j h1 h2
      refine (acc_agree c c' x d j).1 fun k hk => ?_
      have := h (d - (k + 1)) (by omega) hx j h1 h2
      have e : d - (d - (k + 1) + 1) = k := by omega
      rwa [e] at this
    · intro h i hi hx j h1 h2
      exact (acc_agree c c' x d j).2 (h hx j h1 h2) _ (by omega)

theorem both_allocShares (N parts : Nat) (xs : List Byte) :
    Both True Eq (allocShares N parts xs) (allocShares N parts xs) := Both.refl _

theorem both_setIntercepts {s s' : List Byte} (hl : s.length = s'.length) (d : Nat) (b b' : List Byte) :
    Both True (fun _ _ => True) (setIntercepts s d b) (setIntercepts s' d b') :=
  both_forUp' hl (fun _ _ _ => True) trivial fun _ _ _ _ _ =>
    (both_shows _ _ _).same fun _ _ _ _ _ => (both_shows _ _ _).same fun _ _ _ _ _ =>
    (both_shows _ _ _).same fun _ _ _ _ _ => both_pure trivial

theorem both_transpose {s s' : List Byte} (hl : s.length = s'.length) (b b' : List Byte) (t : Nat) :
    Both True (fun _ _ => True) (transposeMatrixBuffer b s t) (transposeMatrixBuffer b' s' t) := by
  unfold transposeMatrixBuffer
  refine both_test _ _ Iff.rfl ?_
  by_cases ht : t = 0
  · simp only [ht, decide_true, if_true]
    exact both_fails fun a h => by cases h
  · simp only [ht, decide_false, Bool.false_eq_true, if_false]
    refine Both.same (both_forUp' hl (fun _ (s t : List Byte × Nat × Nat) => s.2 = t.2) rfl ?_) fun _ _ _ _ _ => both_pure trivial
    rintro i _ ⟨e, r, c⟩ ⟨e', r', c'⟩ h
    cases h
    refine (both_shows _ _ _).same fun _ _ _ _ _ => (both_shows _ _ _).same fun _ _ _ _ _ => ?_
    refine both_test _ _ (by rw [hl]) ?_
    cases decide (r + 1 = s.length / t)
    · exact both_pure rfl
    · exact both_pure rfl

theorem both_fillShares (arch : Arch) {coef coef' : List Byte} {N d : Nat} (hN : 0 < N) (hc : coef.length = (d + 1) * N)
    (hc' : coef'.length = (d + 1) * N) {parts : Nat} {xs : List Byte} (out : List (List Byte)) (pool pool' : BytesBufferPool) :
    Both (∀ i < parts, xs.getD i 0 + 1#8 ≠ 1 ∨ arch = .noasm → ∀ j, lookupsFrom arch N ≤ j → j < N → ∀ k, 1 ≤ k → k ≤ d →
        coef.getD (k * N + j) 0 = coef'.getD (k * N + j) 0) (fun _ _ => True)
      (fillShares arch coef N parts xs out pool) (fillShares arch coef' N parts xs out pool') := by
  refine (both_forUp rfl (fun i => xs.getD i 0 + 1#8 ≠ 1 ∨ arch = .noasm → ∀ j, lookupsFrom arch N ≤ j → j < N →
    ∀ k, 1 ≤ k → k ≤ d → coef.getD (k * N + j) 0 = coef'.getD (k * N + j) 0) (fun _ _ _ => True) trivial ?_)
  rintro i _ ⟨o, p⟩ ⟨o', p'⟩ _
  refine (both_shows _ _ _).same fun x x' hx hx' _ => ?_
  have hx := idx_val hx
  have hx' := idx_val hx'
  refine (both_shows _ _ _).same fun _ _ _ _ _ => (both_shows _ _ _).same fun _ _ _ _ _ => ?_
  rw [hx, hx']
  refine ((both_evaluate arch hN hc hc' _ _ _ _ _).bind (K' := True) (M := fun _ _ => True) ?_).weaken (by simp) fun _ _ _ _ h => h
  rintro ⟨_, _⟩ ⟨_, _⟩ _ _ _
  exact (both_shows _ _ _).same fun _ _ _ _ _ => both_pure trivial

/-- What Split shows in two runs with the same arguments but for the content of the secret, the same tags, and any pools. -/
theorem both_split (arch : Arch) {s s' : List Byte} (hl : s.length = s'.length) {parts threshold : Int}
    (h : ValidArgs s parts threshold) (perm : List Nat) (rnd rnd' : Nat → Byte) (ps ps' : Shamir.Pools) :
    Both (∀ i < parts.toNat, (perm.map (BitVec.ofNat 8)).getD i 0 + 1#8 ≠ 1 ∨ arch = .noasm →
        ∀ j, lookupsFrom arch s.length ≤ j → j < s.length → ∀ k, 1 ≤ k → k ≤ threshold.toNat - 1 →
          rnd (threshold.toNat * j + k) = rnd' (threshold.toNat * j + k)) (fun _ _ => True)
      (split arch s parts threshold perm rnd ps) (split arch s' parts threshold perm rnd' ps') := by
  obtain ⟨h1, h2, h3, h4⟩ := h
  have hN : 0 < s.length := List.length_pos_iff.2 h4
  have e1 : decide (parts < threshold) = false := by simp; omega
  have e2 : decide (parts > 255) = false := by simp; omega
  have e3 : decide (threshold < 2) = false := by simp; omega
  have e4 : decide (threshold > 255) = false := by simp; omega
  have e5 : decide (s.length = 0) = false := by simp [h4]
  have et : threshold.toNat - 1 + 1 = threshold.toNat := by omega
  unfold split
  refine both_test _ _ Iff.rfl ?_
  rw [e1]
  refine both_test _ _ Iff.rfl ?_
  rw [e2]
  refine both_test _ _ Iff.rfl ?_
  rw [e3]
  refine both_test _ _ Iff.rfl ?_
  rw [e4]
  refine both_test _ _ (by rw [hl]) ?_
  rw [e5]
  simp only [et]
  rw [← hl]
  refine (both_allocShares _ _ _).same fun out _ _ _ h => ?_
  subst h
  refine (both_shows _ _ _).same fun pb pb' hb hb' _ => ?_
  have hpb : ∀ {l p : List Byte} {e : Ev}, (shows e (Verif.slice l 0 (threshold.toNat * s.length))).out = ok p →
      p.length = threshold.toNat * s.length := fun {l p e} h => by
    have := slice_val (s := 0) (N := threshold.toNat * s.length) (e := e) (l := l) (r := p) (by simpa using h)
    simp [this]
  have hb := hpb hb
  have hb' := hpb hb'
  refine (both_setIntercepts hl _ _ _).same fun pol pol' hp hp' _ => ?_
  rw [out_setIntercepts, setIntercepts_eq _ _ _ (by simp [Shamir.randRead, hb, et]), et] at hp
  rw [out_setIntercepts, setIntercepts_eq _ _ _ (by simp [Shamir.randRead, hb', et, hl]), et] at hp'
  have hp : pol = polSplit s threshold.toNat rnd := by
    rw [← Outcome.ok.inj hp]; simp [polSplit, Shamir.randRead, hb]
  have hp' : pol' = polSplit s' threshold.toNat rnd' := by
    rw [← Outcome.ok.inj hp']; simp [polSplit, Shamir.randRead, hb', hl]
  have lp : pol.length = threshold.toNat * s.length := by rw [hp]; simp [polSplit, length_withIntercepts]
  have lp' : pol'.length = threshold.toNat * s.length := by rw [hp']; simp [polSplit, length_withIntercepts, hl]
  rw [lp, lp']
  refine (both_shows _ _ _).same fun cb cb' hcb hcb' _ => ?_
  have hcb := hpb hcb
  have hcb' := hpb hcb'
  refine (both_transpose (lp.trans lp'.symm) _ _ _).same fun co co' hco hco' _ => ?_
  rw [out_transposeMatrixBuffer, transposeBuffer_eq _ _ _ s.length (by omega) hN lp (hcb.trans lp.symm)] at hco
  rw [out_transposeMatrixBuffer, transposeBuffer_eq _ _ _ s.length (by omega) hN lp' (hcb'.trans lp'.symm)] at hco'
  have hco : co = transposed pol threshold.toNat s.length := (Outcome.ok.inj hco).symm
  have hco' : co' = transposed pol' threshold.toNat s.length := (Outcome.ok.inj hco').symm
  refine ((both_fillShares arch (d := threshold.toNat - 1) hN (by rw [hco, et]; simp [transposed])
    (by rw [hco', et]; simp [transposed]) _ _ _).bind (K' := True) (M := fun _ _ => True) ?_).weaken ?_ fun _ _ _ _ h => h
  · rintro ⟨_, _⟩ ⟨_, _⟩ _ _ _
    exact both_pure trivial
  · rw [and_true]
    refine forall_congr' fun i => imp_congr_right fun _ => imp_congr_right fun _ => forall_congr' fun j =>
      imp_congr_right fun _ => imp_congr_right fun hj => forall_congr' fun k => imp_congr_right fun hk => imp_congr_right fun hk' => ?_
    have key : ∀ {s : List Byte} {rnd : Nat → Byte}, j < s.length →
        (polSplit s threshold.toNat rnd).getD (threshold.toNat * j + k) 0 = rnd (threshold.toNat * j + k) := by
      intro s rnd hj
      have hlt : threshold.toNat * j + k < threshold.toNat * s.length := by
        calc threshold.toNat * j + k < threshold.toNat * j + threshold.toNat := by omega
          _ = threshold.toNat * (j + 1) := by ring
          _ ≤ threshold.toNat * s.length := Nat.mul_le_mul_left _ hj
      have hm : (threshold.toNat * j + k) % threshold.toNat ≠ 0 := by
        rw [Nat.mul_add_mod, Nat.mod_eq_of_lt (by omega)]; omega
      unfold polSplit withIntercepts
      simp only [List.length_map, List.length_range]
      rw [List.getD_eq_getElem?_getD, List.getElem?_map, List.getElem?_range hlt]
      simp only [Option.map_some, Option.getD_some, hm, false_and, if_false]
      simp [List.getD_eq_getElem?_getD, List.getElem?_range hlt]
    rw [hco, hco', transposed_get (by omega) hj, transposed_get (by omega) hj, hp, hp', key hj, key (by omega)]

end Verif.Leak
