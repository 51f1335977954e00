import Verif.Model.LeakCalls
import Verif.Proofs.LeakMore
import Verif.Proofs.Regenerate

/-! # What SplitWithRandomizer, SplitGeneric and Regenerate show -/

namespace Verif.Leak
open Verif Outcome Galois Pool Proofs Spec Spec.Leak Csprng

@[simp] theorem out_splitWithRandomizer (arch : Arch) (fuel : Nat) (secret : List Byte) (parts threshold : Int) (r : CSPRNG)
    (ps : Shamir.Pools) : (splitWithRandomizer arch fuel secret parts threshold r ps).out
      = Shamir.splitWithRandomizer arch fuel secret parts threshold r ps := by
  simp [splitWithRandomizer, Shamir.splitWithRandomizer, Shamir.makePolynomialsWithBuffAndRandomizer]

@[simp] theorem out_allocSharesSeparately (n p : Nat) (xs : List Byte) :
    (allocSharesSeparately n p xs).out = Shamir.allocSharesSeparately n p xs := by
  simp [allocSharesSeparately, Shamir.allocSharesSeparately]

@[simp] theorem out_makePolynomials (i : List Byte) (d : Nat) (rnd : Nat → Byte) :
    (makePolynomials i d rnd).out = Shamir.makePolynomials i d rnd := by
  simp [makePolynomials, Shamir.makePolynomials]

@[simp] theorem out_transpose (m : List (List Byte)) : (transpose m).out = Shamir.transpose m := by
  simp [transpose, Shamir.transpose]

@[simp] theorem out_genericEvaluatePolynomialsAt (c : List (List Byte)) (x : Byte) (o : List Byte) :
    (genericEvaluatePolynomialsAt c x o).out = Shamir.genericEvaluatePolynomialsAt c x o := by
  simp [genericEvaluatePolynomialsAt, Shamir.genericEvaluatePolynomialsAt]

@[simp] theorem out_splitGeneric (secret : List Byte) (parts threshold : Int) (perm : List Nat) (rnd : Nat → Byte) :
    (splitGeneric secret parts threshold perm rnd).out = Shamir.splitGeneric secret parts threshold perm rnd := by
  simp [splitGeneric, Shamir.splitGeneric]

@[simp] theorem out_regenLoop (u : Nat → Byte) (m : List Byte) (fuel : Nat) (nx : Byte) (pos : Nat) :
    (regenLoop u m fuel nx pos).out = Shamir.regenLoop u m fuel nx pos := by
  induction fuel generalizing nx pos with
  | zero => rfl
  | succ f ih => simp [regenLoop, Shamir.regenLoop, ih]

@[simp] theorem out_regenDedupe (u : Nat → Byte) (fuel : Nat) (xs m : List Byte) :
    (regenDedupe u fuel xs m).out = Shamir.regenDedupe u fuel xs m := by
  simp [regenDedupe, Shamir.regenDedupe]

@[simp] theorem out_regenerate (fuel : Nat) (parts : List (List Byte)) (n : Int) (rnd u : Nat → Byte) :
    (regenerate fuel parts n rnd u).out = Shamir.regenerate fuel parts n rnd u := by
  simp [regenerate, Shamir.regenerate]

/-- What SplitWithRandomizer shows in two runs on secrets of the same length, with the same tags. -/
theorem both_splitWithRandomizer (arch : Arch) (fuel fuel' : Nat) {s s' : List Byte} (hl : s.length = s'.length) {parts threshold : Int}
    (h : ValidArgs s parts threshold) {r r' : CSPRNG} {xs : List Byte} (hx : r.getUniqueBytes fuel (BitVec.ofInt 8 parts) = ok xs)
    (hx' : r'.getUniqueBytes fuel' (BitVec.ofInt 8 parts) = ok xs) (ps ps' : Shamir.Pools) :
    Both (∀ i < parts.toNat, xs.getD i 0 + 1#8 ≠ 1 ∨ arch = .noasm →
        ∀ j, lookupsFrom arch s.length ≤ j → j < s.length → ∀ k, 1 ≤ k → k ≤ threshold.toNat - 1 →
          (r.read (staleBuf ps.bPool (threshold.toNat * s.length))).getD (threshold.toNat * j + k) 0 =
          (r'.read (staleBuf ps'.bPool (threshold.toNat * s.length))).getD (threshold.toNat * j + k) 0) (fun _ _ => True)
      (splitWithRandomizer arch fuel s parts threshold r ps) (splitWithRandomizer arch fuel' s' parts threshold r' ps') := by
  obtain ⟨h1, h2, h3, h4⟩ := h
  have hN : 0 < s.length := List.length_pos_iff.2 h4
  have e1 : decide (parts < threshold) = false := by simp; omega
  have e2 : decide (parts > 255) = false := by simp; omega
  have e3 : decide (threshold < 2) = false := by simp; omega
  have e4 : decide (threshold > 255) = false := by simp; omega
  have e5 : decide (s.length = 0) = false := by simp [h4]
  have et : threshold.toNat - 1 + 1 = threshold.toNat := by omega
  unfold splitWithRandomizer
  refine both_test _ _ Iff.rfl ?_
  rw [e1]
  refine both_test _ _ Iff.rfl ?_
  rw [e2]
  refine both_test _ _ Iff.rfl ?_
  rw [e3]
  refine both_test _ _ Iff.rfl ?_
  rw [e4]
  refine both_test _ _ (by rw [hl]) ?_
  rw [e5]
  simp only [et]
  rw [← hl]
  refine (both_quiet _ _).same fun y y' hy hy' _ => ?_
  rw [out_quiet, hx] at hy
  rw [out_quiet, hx'] at hy'
  cases hy; cases hy'
  refine (both_allocShares _ _ _).same fun out _ _ _ h => ?_
  subst h
  refine (both_shows _ _ _).same fun pb pb' hb hb' _ => ?_
  have hpb : ∀ {l p : List Byte} {e : Ev}, (shows e (Verif.slice l 0 (threshold.toNat * s.length))).out = ok p →
      p = l.take (threshold.toNat * s.length) ∧ p.length = threshold.toNat * s.length := fun {l p e} h => by
    have hv := slice_val (s := 0) (N := threshold.toNat * s.length) (e := e) (l := l) (r := p) (by simpa using h)
    have hlen : p.length = threshold.toNat * s.length := by simp [hv]
    refine ⟨?_, hlen⟩
    rw [out_shows] at h
    unfold Verif.slice at h
    split at h
    · cases h; simp
    · cases h
  have hst := (hpb hb).1
  have hst' := (hpb hb').1
  have hb := (hpb hb).2
  have hb' := (hpb hb').2
  have hst : pb = staleBuf ps.bPool (threshold.toNat * s.length) := hst
  have hst' : pb' = staleBuf ps'.bPool (threshold.toNat * s.length) := hst'
  refine (both_setIntercepts hl _ _ _).same fun pol pol' hp hp' _ => ?_
  rw [out_setIntercepts, setIntercepts_eq _ _ _ (by rw [length_read, hb, et]), et] at hp
  rw [out_setIntercepts, setIntercepts_eq _ _ _ (by rw [length_read, hb', et, hl]), et] at hp'
  have hp : pol = polRandomizer s threshold.toNat r pb := (Outcome.ok.inj hp).symm
  have hp' : pol' = polRandomizer s' threshold.toNat r' pb' := (Outcome.ok.inj hp').symm
  have lp : pol.length = threshold.toNat * s.length := by rw [hp]; simp [polRandomizer, length_withIntercepts, length_read, hb]
  have lp' : pol'.length = threshold.toNat * s.length := by rw [hp']; simp [polRandomizer, length_withIntercepts, length_read, hb']
  rw [lp, lp']
  refine (both_shows _ _ _).same fun cb cb' hcb hcb' _ => ?_
  have hcb := (hpb hcb).2
  have hcb' := (hpb hcb').2
  refine (both_transpose (lp.trans lp'.symm) _ _ _).same fun co co' hco hco' _ => ?_
  rw [out_transposeMatrixBuffer, transposeBuffer_eq _ _ _ s.length (by omega) hN lp (hcb.trans lp.symm)] at hco
  rw [out_transposeMatrixBuffer, transposeBuffer_eq _ _ _ s.length (by omega) hN lp' (hcb'.trans lp'.symm)] at hco'
  have hco : co = transposed pol threshold.toNat s.length := (Outcome.ok.inj hco).symm
  have hco' : co' = transposed pol' threshold.toNat s.length := (Outcome.ok.inj hco').symm
  refine ((both_fillShares arch (d := threshold.toNat - 1) hN (by rw [hco, et]; simp [transposed])
    (by rw [hco', et]; simp [transposed]) _ _ _).bind (K' := True) (M := fun _ _ => True) ?_).weaken ?_ fun _ _ _ _ h => h
  · rintro ⟨_, _⟩ ⟨_, _⟩ _ _ _
    exact both_pure trivial
  · rw [and_true]
    refine forall_congr' fun i => imp_congr_right fun _ => imp_congr_right fun _ => forall_congr' fun j =>
      imp_congr_right fun _ => imp_congr_right fun hj => forall_congr' fun k => imp_congr_right fun hk => imp_congr_right fun hk' => ?_
    have key : ∀ {s : List Byte} {buf : List Byte}, j < s.length → buf.length = threshold.toNat * s.length →
        (withIntercepts s threshold.toNat buf s.length).getD (threshold.toNat * j + k) 0 = buf.getD (threshold.toNat * j + k) 0 := by
      intro s buf hj hbl
      have hlt : threshold.toNat * j + k < threshold.toNat * s.length := by
        calc threshold.toNat * j + k < threshold.toNat * j + threshold.toNat := by omega
          _ = threshold.toNat * (j + 1) := by ring
          _ ≤ threshold.toNat * s.length := Nat.mul_le_mul_left _ hj
      have hm : (threshold.toNat * j + k) % threshold.toNat ≠ 0 := by
        rw [Nat.mul_add_mod, Nat.mod_eq_of_lt (by omega)]; omega
      unfold withIntercepts
      rw [List.getD_eq_getElem?_getD, List.getElem?_map, List.getElem?_range (by omega)]
      simp only [Option.map_some, Option.getD_some, hm, false_and, if_false]
    rw [hco, hco', transposed_get (by omega) hj, transposed_get (by omega) hj, hp, hp', polRandomizer, polRandomizer,
      key hj (by rw [length_read, hb]), key (by omega) (by rw [length_read, hb', hl]), hst, hst']

/-! ## Rejected arguments -/

theorem guards_rejected {α : Type} {s s' : List Byte} (hl : s.length = s'.length) {parts threshold : Int}
    (hv : ¬ ValidArgs s parts threshold) (f g : Traced α) :
    (do
      if ← test (parts < threshold) then quiet (err .partsLtThreshold)
      if ← test (parts > 255) then quiet (err .partsExceed255)
      if ← test (threshold < 2) then quiet (err .thresholdLt2)
      if ← test (threshold > 255) then quiet (err .thresholdExceed255)
      if ← test (s.length = 0) then quiet (err .emptySecret)
      f : Traced α).trace =
    (do
      if ← test (parts < threshold) then quiet (err .partsLtThreshold)
      if ← test (parts > 255) then quiet (err .partsExceed255)
      if ← test (threshold < 2) then quiet (err .thresholdLt2)
      if ← test (threshold > 255) then quiet (err .thresholdExceed255)
      if ← test (s'.length = 0) then quiet (err .emptySecret)
      g : Traced α).trace := by
  have htr : ∀ {α β : Type} (x : Traced α) (f : α → Traced β) (a : α), x.out = ok a → (x >>= f).trace = x.trace ++ (f a).trace :=
    fun x f a h => trace_bind x f h
  have hfail : ∀ {β γ : Type} (e : Err) (f : γ → Traced β), ((quiet (err e) : Traced γ) >>= f).trace = [] := fun e f => rfl
  rw [htr _ _ _ (out_test _), htr _ _ _ (out_test _)]
  congr 1
  by_cases h1 : parts < threshold
  · simp only [h1, decide_true, if_true, hfail]
  simp only [h1, decide_false, Bool.false_eq_true, if_false]
  rw [htr _ _ _ (out_test _), htr _ _ _ (out_test _)]
  congr 1
  by_cases h2 : parts > 255
  · simp only [h2, decide_true, if_true, hfail]
  simp only [h2, decide_false, Bool.false_eq_true, if_false]
  rw [htr _ _ _ (out_test _), htr _ _ _ (out_test _)]
  congr 1
  by_cases h3 : threshold < 2
  · simp only [h3, decide_true, if_true, hfail]
  simp only [h3, decide_false, Bool.false_eq_true, if_false]
  rw [htr _ _ _ (out_test _), htr _ _ _ (out_test _)]
  congr 1
  by_cases h4 : threshold > 255
  · simp only [h4, decide_true, if_true, hfail]
  simp only [h4, decide_false, Bool.false_eq_true, if_false]
  rw [htr _ _ _ (out_test _), htr _ _ _ (out_test _)]
  have h5 : s.length = 0 := by
    by_contra h
    exact hv ⟨by omega, by omega, by omega, fun h' => h (by simp [h'])⟩
  have h5' : s'.length = 0 := by omega
  simp only [test, h5, h5', decide_true, if_true, hfail]

theorem splitWithRandomizer_rejected (arch : Arch) (fuel fuel' : Nat) {s s' : List Byte} (hl : s.length = s'.length)
    {parts threshold : Int} (hv : ¬ ValidArgs s parts threshold) (r r' : CSPRNG) (ps ps' : Shamir.Pools) :
    (splitWithRandomizer arch fuel s parts threshold r ps).trace = (splitWithRandomizer arch fuel' s' parts threshold r' ps').trace :=
  guards_rejected hl hv _ _

/-- No tags: the call panics or does not end, and shows nothing more. -/
theorem splitWithRandomizer_noTags (arch : Arch) (fuel fuel' : Nat) {s s' : List Byte} (hl : s.length = s'.length)
    {parts threshold : Int} (hv : ValidArgs s parts threshold) {r r' : CSPRNG} (ps ps' : Shamir.Pools)
    (hx : ∀ xs, r.getUniqueBytes fuel (BitVec.ofInt 8 parts) ≠ ok xs) (hx' : ∀ xs, r'.getUniqueBytes fuel' (BitVec.ofInt 8 parts) ≠ ok xs) :
    (splitWithRandomizer arch fuel s parts threshold r ps).trace = (splitWithRandomizer arch fuel' s' parts threshold r' ps').trace := by
  obtain ⟨h1, h2, h3, h4⟩ := hv
  have e1 : decide (parts < threshold) = false := by simp; omega
  have e2 : decide (parts > 255) = false := by simp; omega
  have e3 : decide (threshold < 2) = false := by simp; omega
  have e4 : decide (threshold > 255) = false := by simp; omega
  have e5 : decide (s.length = 0) = false := by simp [h4]
  suffices hs : Same (fun _ _ => True) (splitWithRandomizer arch fuel s parts threshold r ps)
    (splitWithRandomizer arch fuel' s' parts threshold r' ps') from hs.1
  unfold splitWithRandomizer
  refine same_test _ _ Iff.rfl ?_
  rw [e1]
  refine same_test _ _ Iff.rfl ?_
  rw [e2]
  refine same_test _ _ Iff.rfl ?_
  rw [e3]
  refine same_test _ _ Iff.rfl ?_
  rw [e4]
  refine same_test _ _ (by rw [hl]) ?_
  rw [e5]
  simp only [Bool.false_eq_true, if_false]
  have hq : Same (fun _ _ => False) (quiet (r.getUniqueBytes fuel (BitVec.ofInt 8 parts)))
    (quiet (r'.getUniqueBytes fuel' (BitVec.ofInt 8 parts))) := ⟨by unfold quiet; simp only, Or.inr ⟨fun a h => hx a (by rwa [out_quiet] at h), fun a h => hx' a (by rwa [out_quiet] at h)⟩⟩
  exact hq.bind fun _ _ _ _ h => h.elim

theorem splitGeneric_rejected {s s' : List Byte} (hl : s.length = s'.length)
    {parts threshold : Int} (hv : ¬ ValidArgs s parts threshold) (perm : List Nat) (rnd rnd' : Nat → Byte) :
    (splitGeneric s parts threshold perm rnd).trace = (splitGeneric s' parts threshold perm rnd').trace :=
  guards_rejected hl hv _ _

/-! ## SplitGeneric -/

theorem both_makePolynomials {s s' : List Byte} (hl : s.length = s'.length) (d : Nat) (rnd rnd' : Nat → Byte) :
    Both True (fun _ _ => True) (makePolynomials s d rnd) (makePolynomials s' d rnd') := by
  unfold makePolynomials
  refine Both.same (both_forUp' hl (fun _ (s t : List (List Byte) × Nat) => s.2 = t.2 ∧ (∀ r ∈ s.1, r.length = d + 1) ∧
    ∀ r ∈ t.1, r.length = d + 1) ?_ ?_) ?_
  · refine ⟨rfl, ?_, ?_⟩ <;>
    · intro r hr
      have := List.eq_of_mem_replicate hr
      simp [this]
  · rintro p hp ⟨m, st⟩ ⟨m', st'⟩ ⟨h1, h2, h3⟩
    simp only at h1 h2 h3
    subst h1
    refine (both_shows _ _ _).same fun row row' hr hr' _ => ?_
    rw [out_shows, idx_eq_ok] at hr hr'
    have l1 := h2 row (List.mem_of_getElem? hr)
    have l1' := h3 row' (List.mem_of_getElem? hr')
    refine (both_shows _ _ _).same fun v v' _ _ _ => (both_shows _ _ _).same fun row1 row1' hr1 hr1' _ => ?_
    rw [out_shows, setIdx_ok (by omega)] at hr1 hr1'
    cases hr1; cases hr1'
    refine (both_shows _ _ _).same fun src src' _ _ _ => ?_
    simp only [List.length_set, l1, l1']
    refine (both_shows _ _ _).same fun tl tl' ht ht' _ => ?_
    rw [out_shows, slice_ok (by omega) (by simp [l1])] at ht
    rw [out_shows, slice_ok (by omega) (by simp [l1'])] at ht'
    cases ht; cases ht'
    have e : ∀ {q : List Byte} {v : Byte}, q.length = d + 1 → (List.take (d + 1 - 1) (List.drop 1 (q.set 0 v))).length = d := by
      intro q v h; simp [h]
    unfold copyInto
    rw [e l1, e l1']
    refine (both_shows _ _ _).same fun c c' hc hc' _ => ?_
    rw [out_shows] at hc hc'
    have hc := Outcome.ok.inj hc
    have hc' := Outcome.ok.inj hc'
    have hcl : c.length = d := by rw [← hc, length_copyInto, e l1]
    have hcl' : c'.length = d := by rw [← hc', length_copyInto, e l1']
    refine (both_shows _ _ _).same fun m1 m1' hm hm' _ => both_pure ⟨rfl, ?_, ?_⟩
    · intro r hr
      have hp' : p < m.length := (List.getElem?_eq_some_iff.1 ‹m[p]? = some row›).1
      rw [out_shows, setIdx_ok hp'] at hm
      cases hm
      rcases List.mem_or_eq_of_mem_set hr with h | h
      · exact h2 r h
      · rw [h, length_writeAt (by simp [l1, hcl]; omega)]; simp [l1]
    · intro r hr
      have hp' : p < m'.length := (List.getElem?_eq_some_iff.1 ‹m'[p]? = some row'›).1
      rw [out_shows, setIdx_ok hp'] at hm'
      cases hm'
      rcases List.mem_or_eq_of_mem_set hr with h | h
      · exact h3 r h
      · rw [h, length_writeAt (by simp [l1', hcl']; omega)]; simp [l1']
  · rintro ⟨_, _⟩ ⟨_, _⟩ _ _ _
    exact both_pure trivial

theorem both_transposeRows {m m' : List (List Byte)} {N t : Nat} (hm : m.length = N) (hm' : m'.length = N)
    (h : ∀ r ∈ m, r.length = t) (h' : ∀ r ∈ m', r.length = t) :
    Both True (fun _ _ => True) (transpose m) (transpose m') := by
  unfold transpose
  refine (both_shows _ _ _).same fun r r' hr hr' _ => ?_
  rw [out_shows, idx_eq_ok] at hr hr'
  rw [h r (List.mem_of_getElem? hr), h' r' (List.mem_of_getElem? hr'), hm, hm']
  exact both_forUp' rfl (fun _ _ _ => True) trivial fun _ _ _ _ _ => both_forUp' rfl (fun _ _ _ => True) trivial fun _ _ _ _ _ =>
    (both_shows _ _ _).same fun _ _ _ _ _ => (both_shows _ _ _).same fun _ _ _ _ _ => (both_shows _ _ _).same fun _ _ _ _ _ =>
    (both_shows _ _ _).same fun _ _ _ _ _ => both_shows _ _ _

theorem both_genericEvaluate (c c' : Nat → Nat → Byte) (N d : Nat) (x : Byte) (out out' : List Byte) :
    Both (∀ j < N, ∀ k, 1 ≤ k → k ≤ d → c k j = c' k j) (fun _ _ => True)
      (genericEvaluatePolynomialsAt ((List.range (d + 1)).map fun i => (List.range N).map (c i)) x out)
      (genericEvaluatePolynomialsAt ((List.range (d + 1)).map fun i => (List.range N).map (c' i)) x out') := by
  have hi : ∀ {c : Nat → Nat → Byte} {i : Nat} {e : Ev} {row : List Byte},
      (shows e (Verif.idx ((List.range (d + 1)).map fun i => (List.range N).map (c i)) i)).out = ok row → i ≤ d →
      row = (List.range N).map (c i) := by
    intro c i e row h hd
    rw [out_shows, idx_ok (by simp; omega)] at h
    have := Outcome.ok.inj h
    simpa using this.symm
  unfold genericEvaluatePolynomialsAt
  refine (both_shows _ _ _).same fun r r' hr hr' _ => ?_
  have hr := hi hr (Nat.zero_le _)
  have hr' := hi hr' (Nat.zero_le _)
  subst hr; subst hr'
  simp only [List.length_map, List.length_range, Nat.add_sub_cancel]
  refine (both_shows _ _ _).same fun top top' ht ht' _ => ?_
  have ht := hi ht le_rfl
  have ht' := hi ht' le_rfl
  unfold copyInto
  simp only [List.length_replicate]
  refine (both_shows _ _ _).same fun r1 r1' h1 h1' _ => ?_
  rw [out_shows, copyInto_same (by rw [ht]; simp)] at h1
  rw [out_shows, copyInto_same (by rw [ht']; simp)] at h1'
  cases h1; cases h1'
  refine ((both_forDown rfl
    (fun i => ∀ j < N, acc c x d (d - (i + 1)) j = acc c' x d (d - (i + 1)) j)
    (fun i s t => s = (List.range N).map (acc c x d (d - i)) ∧ t = (List.range N).map (acc c' x d (d - i)))
    ?_ ?_).bind (K' := True) (M := fun _ _ => True) ?_).weaken ?_ fun _ _ _ _ h => h
  · simp only [Nat.sub_self, acc]
    exact ⟨ht, ht'⟩
  · rintro i hid s t ⟨rfl, rfl⟩
    refine (both_shows _ _ _).same fun row row' hrow hrow' _ => ?_
    have hrow := hi hrow (by omega)
    have hrow' := hi hrow' (by omega)
    refine ((both_mulGeneric x (by simp)).bind (K' := True) (M := fun s t =>
      s = (List.range N).map (acc c x d (d - i)) ∧ t = (List.range N).map (acc c' x d (d - i))) fun m m' hm hm' _ => ?_).weaken ?_
        fun _ _ _ _ h => h
    · rw [out_mulConstVectorGeneric, mulConstVectorGeneric_eq] at hm hm'
      cases hm; cases hm'
      refine (both_addVector .noasm (by simp [hrow]) (by simp [hrow, hrow']) (by simp)).weaken Iff.rfl fun s t hs ht _ => ?_
      rw [out_addVector, addVector_eq _ (by simp [hrow]), hrow, List.map_map, xorBytes_range] at hs
      rw [out_addVector, addVector_eq _ (by simp [hrow']), hrow', List.map_map, xorBytes_range] at ht
      cases hs; cases ht
      have e : d - i = d - (i + 1) + 1 := by omega
      have e' : d - (d - (i + 1) + 1) = i := by omega
      rw [e]
      constructor
      · apply List.map_congr_left
        intro p _
        simp only [acc, e']
        rfl
      · apply List.map_congr_left
        intro p _
        simp only [acc, e']
        rfl
    · simp only [List.length_map, List.length_range, and_true]
      refine forall_congr' fun j => imp_congr_right fun hj => ?_
      simp [List.getD_eq_getElem?_getD, List.getElem?_range hj]
  · intro f f' _ _ _
    refine (both_shows _ _ _).same fun dst dst' hd hd' _ => ?_
    have e : ∀ {o q : List Byte}, (slice o 0 N).out = ok q → q.length = N := fun {o q} h => by
      have := slice_val (s := 0) (N := N) (e := .elem 0) (l := o) (r := q) (by simpa using h)
      simp [this]
    rw [e hd, e hd']
    exact (both_shows _ _ _).same fun _ _ _ _ _ => both_pure trivial
  · rw [and_true]
    constructor
    · intro h j hj
      refine (acc_agree c c' x d j).1 fun k hk => ?_
      have := h (d - (k + 1)) (by omega) j hj
      have e : d - (d - (k + 1) + 1) = k := by omega
      rwa [e] at this
    · intro h i hi j hj
      exact (acc_agree c c' x d j).2 (h j hj) _ (by omega)

/-- What SplitGeneric shows in two runs on secrets of the same length, with the same tags. -/
theorem both_splitGeneric {s s' : List Byte} (hl : s.length = s'.length) {parts threshold : Int}
    (h : ValidArgs s parts threshold) (perm : List Nat) (rnd rnd' : Nat → Byte) :
    Both (∀ j < s.length, ∀ k < threshold.toNat - 1, rnd ((threshold.toNat - 1) * j + k) = rnd' ((threshold.toNat - 1) * j + k))
      (fun _ _ => True) (splitGeneric s parts threshold perm rnd) (splitGeneric s' parts threshold perm rnd') := by
  obtain ⟨h1, h2, h3, h4⟩ := h
  have hN : 0 < s.length := List.length_pos_iff.2 h4
  have e1 : decide (parts < threshold) = false := by simp; omega
  have e2 : decide (parts > 255) = false := by simp; omega
  have e3 : decide (threshold < 2) = false := by simp; omega
  have e4 : decide (threshold > 255) = false := by simp; omega
  have e5 : decide (s.length = 0) = false := by simp [h4]
  unfold splitGeneric
  refine both_test _ _ Iff.rfl ?_
  rw [e1]
  refine both_test _ _ Iff.rfl ?_
  rw [e2]
  refine both_test _ _ Iff.rfl ?_
  rw [e3]
  refine both_test _ _ Iff.rfl ?_
  rw [e4]
  refine both_test _ _ (by rw [hl]) ?_
  rw [e5]
  rw [← hl]
  refine (Both.refl _).same fun out _ _ _ h => ?_
  subst h
  refine (both_makePolynomials hl _ _ _).same fun m m' hm hm' _ => ?_
  rw [out_makePolynomials, makePolynomials_eq] at hm hm'
  cases hm; cases hm'
  rw [← hl]
  refine (both_transposeRows (N := s.length) (t := threshold.toNat - 1 + 1) (by simp [rowsF]) (by simp [rowsF]) ?_ ?_).same
    fun co co' hco hco' _ => ?_
  · intro r hr
    obtain ⟨p, -, rfl⟩ := List.mem_map.1 hr
    simp
  · intro r hr
    obtain ⟨p, -, rfl⟩ := List.mem_map.1 hr
    simp
  rw [out_transpose, transpose_eq _ _ _ hN] at hco hco'
  cases hco; cases hco'
  refine (both_forUp rfl (fun _ => ∀ j < s.length, ∀ k, 1 ≤ k → k ≤ threshold.toNat - 1 →
    genericCoeff s (threshold.toNat - 1) rnd j k = genericCoeff s' (threshold.toNat - 1) rnd' j k) (fun _ _ _ => True) trivial ?_).weaken
    ?_ fun _ _ _ _ h => h
  · rintro i _ o o' _
    refine (both_shows _ _ _).same fun x x' hx hx' _ => ?_
    have hx := idx_val hx
    have hx' := idx_val hx'
    refine (both_shows _ _ _).same fun _ _ _ _ _ => ?_
    rw [hx, hx']
    refine ((both_genericEvaluate (fun i p => genericCoeff s (threshold.toNat - 1) rnd p i)
      (fun i p => genericCoeff s' (threshold.toNat - 1) rnd' p i) s.length (threshold.toNat - 1) _ _ _).bind (K' := True)
        (M := fun _ _ => True) ?_).weaken (by simp) fun _ _ _ _ h => h
    intro _ _ _ _ _
    exact both_shows _ _ _
  · constructor
    · intro h j hj k hk
      have := h 0 (by omega) j hj (k + 1) (by omega) (by omega)
      simpa [genericCoeff] using this
    · intro h _ _ j hj k hk hk'
      have := h j hj (k - 1) (by omega)
      have hk0 : k ≠ 0 := by omega
      simpa [genericCoeff, hk0] using this

theorem splitGeneric_runs {s s' : List Byte} (hl : s.length = s'.length) {parts threshold : Int}
    (hv : ValidArgs s parts threshold) {perm : List Nat} (hperm : perm.Perm (List.range 255)) (rnd rnd' : Nat → Byte) :
    ∃ a b, (splitGeneric s parts threshold perm rnd).out = ok a ∧ (splitGeneric s' parts threshold perm rnd').out = ok b := by
  have hv' : ValidArgs s' parts threshold := ⟨hv.1, hv.2.1, hv.2.2.1, fun h => hv.2.2.2 (List.length_eq_zero_iff.1 (by rw [hl, h]; rfl))⟩
  rw [out_splitGeneric, out_splitGeneric, splitGeneric_valid perm rnd hv (parts_le hv hperm),
    splitGeneric_valid perm rnd' hv' (parts_le hv' hperm)]
  exact ⟨_, _, rfl, rfl⟩

/-! ## Regenerate -/

theorem both_regenerate (fuel : Nat) {parts parts' : List (List Byte)} (hl : parts.map List.length = parts'.map List.length)
    (ht : parts.map tag = parts'.map tag) (n : Int) (rnd u : Nat → Byte) {o o' : List (List Byte)}
    (hs : Shamir.regenerate fuel parts n rnd u = ok o) (hs' : Shamir.regenerate fuel parts' n rnd u = ok o') :
    Both (0 < n → parts = parts') (fun _ _ => True) (regenerate fuel parts n rnd u) (regenerate fuel parts' n rnd u) := by
  obtain ⟨⟨h1, h2, h3, h4⟩, hn0, -, -⟩ := regenerate_ok hs
  obtain ⟨⟨h1', h2', h3', h4'⟩, -, -, -⟩ := regenerate_ok hs'
  have hlen : parts.length = parts'.length := by simpa using congrArg List.length hl
  have hhead : (parts'.headD []).length = (parts.headD []).length := by
    cases parts with
    | nil => simp at h1
    | cons a b => cases parts' with
      | nil => simp at h1'
      | cons a' b' => simp at hl; simpa using hl.1.symm
  rw [hhead] at h3' h2'
  generalize hn : (parts.headD []).length = w at *
  unfold regenerate
  refine both_test _ _ (by rw [hlen]) ?_
  have e1 : decide (parts.length < 2) = false := by simp; omega
  rw [e1]
  refine (both_shows _ _ _).same fun p0 p0' hp hp' _ => ?_
  rw [out_shows, idx_eq_ok] at hp hp'
  have l0 : p0.length = w := h3 p0 (List.mem_of_getElem? hp)
  have l0' : p0'.length = w := h3' p0' (List.mem_of_getElem? hp')
  simp only [l0, l0']
  refine both_test _ _ Iff.rfl ?_
  have e2 : decide (w < 2) = false := by simp; omega
  rw [e2]
  refine (both_checkLengths hl w).same fun _ _ _ _ _ => ?_
  refine both_test _ _ Iff.rfl ?_
  have e3 : decide (n < 0) = false := by simp; omega
  rw [e3, ← hlen]
  refine (both_collectTags h3 h3' (by omega) ht _).same ?_
  rintro ⟨xs, m⟩ _ hx _ rfl
  rw [out_collectTags, collectTags_eq (by omega) h3 _ (by simp), if_pos h4] at hx
  cases hx
  refine (Both.refl _).same fun _ _ _ _ _ => ?_
  refine (Both.bind (K' := True) (M := fun _ _ => True) (both_forUp rfl (fun _ => ∀ j < w - 1, column parts j = column parts' j)
    (fun _ (s t : List (List Byte) × List Byte) => s.2.length = parts.length ∧ t.2.length = parts.length) ?_ ?_) ?_).weaken ?_ fun _ _ _ _ h => h
  · simp
  · rintro k hk ⟨sh, y⟩ ⟨sh', y'⟩ ⟨hy, hy'⟩
    refine (both_shows _ _ _).same fun nx nx' hnx hnx' _ => ?_
    have enx := idx_val hnx
    have enx' := idx_val hnx'
    have enn : nx = nx' := enx.trans enx'.symm
    subst enn
    refine (both_shows _ _ _).same fun row row' _ _ _ => ?_
    refine (Both.bind (K' := True) (M := fun (s t : List (List Byte) × List Byte) => s.2.length = parts.length ∧ t.2.length = parts.length)
      (both_forUp rfl (fun j => column parts j = column parts' j)
      (fun _ (s t : List Byte × List Byte) => s.2.length = parts.length ∧ t.2.length = parts.length) ⟨hy, hy'⟩ ?_) ?_).weaken ?_ fun _ _ _ _ h => h
    · rintro j hj ⟨sec, y⟩ ⟨sec', y'⟩ ⟨hy, hy'⟩
      refine (both_collectY hlen j y y').same fun z z' hz hz' _ => ?_
      rw [out_collectY, collectY_eq (fun p hp => by rw [h3 p hp]; omega) y hy] at hz
      rw [out_collectY, collectY_eq (fun p hp => by rw [h3' p hp]; omega) y' (hy'.trans hlen)] at hz'
      cases hz; cases hz'
      refine ((both_interpolate (tags parts) (column parts j) (column parts' j) nx).bind (K' := True) fun v v' _ _ _ => ?_).weaken ?_
        fun _ _ _ _ h => h
      · refine (both_shows _ _ _).same fun _ _ _ _ _ => both_pure ⟨?_, ?_⟩
        · simp
        · simp [hlen]
      · rw [and_true]
        constructor
        · intro h
          apply List.ext_getElem
          · simp [hlen]
          · intro i g g'
            have := h i (by simpa using g)
            simpa [List.getD_eq_getElem?_getD, List.getElem?_eq_getElem g, List.getElem?_eq_getElem g'] using this
        · rintro h i _
          rw [h]
    · rintro ⟨_, _⟩ ⟨_, _⟩ _ _ h
      exact (both_shows _ _ _).same fun _ _ _ _ _ => both_pure h
    · rw [and_true]
  · rintro ⟨_, _⟩ ⟨_, _⟩ _ _ _
    exact both_pure trivial
  · rw [and_true]
    constructor
    · intro h0 hn1
      have h := h0 0 (by omega)
      apply List.ext_getElem hlen
      intro i g g'
      apply List.ext_getElem
      · rw [h3 _ (List.getElem_mem _), h3' _ (List.getElem_mem _)]
      · intro j k k'
        have lj := h3 _ (List.getElem_mem g)
        have lj' := h3' _ (List.getElem_mem g')
        by_cases hj : j < w - 1
        · have := map_getElem (fun p : List Byte => p.getD j 0) (h j (by simpa using hj)) (List.getElem?_eq_getElem g)
            (List.getElem?_eq_getElem g')
          simpa [List.getD_eq_getElem?_getD, List.getElem?_eq_getElem k, List.getElem?_eq_getElem k'] using this
        · have := map_getElem tag ht (List.getElem?_eq_getElem g) (List.getElem?_eq_getElem g')
          have ej : j = w - 1 := by omega
          subst ej
          simpa [tag, lj, lj', List.getD_eq_getElem?_getD, List.getElem?_eq_getElem k, List.getElem?_eq_getElem k'] using this
    · intro h k hk j _
      rw [h (by omega)]

theorem regenerate_same_accept (fuel : Nat) {parts parts' : List (List Byte)} (hl : parts.map List.length = parts'.map List.length)
    (ht : parts.map tag = parts'.map tag) (n : Int) (rnd u : Nat → Byte) {o : List (List Byte)}
    (hs : Shamir.regenerate fuel parts n rnd u = ok o) : ∃ o', Shamir.regenerate fuel parts' n rnd u = ok o' := by
  have hlen : parts.length = parts'.length := by simpa using congrArg List.length hl
  obtain ⟨⟨h1, h2, h3, h4⟩, hn0, -, -⟩ := regenerate_ok hs
  have hhead : (parts'.headD []).length = (parts.headD []).length := by
    cases parts with
    | nil => simp at h1
    | cons a b => cases parts' with
      | nil => simp at hl
      | cons a' b' => simp at hl; simpa using hl.1.symm
  have h3' : ∀ p ∈ parts', p.length = (parts'.headD []).length := by
    intro p hp
    obtain ⟨i, hi, rfl⟩ := List.getElem_of_mem hp
    have hi0 : i < parts.length := by omega
    rw [← map_getElem _ hl (List.getElem?_eq_getElem hi0) (List.getElem?_eq_getElem hi), hhead]
    exact h3 _ (List.getElem_mem _)
  have ht' : tags parts = tags parts' := ht
  rw [regenerate_eq] at hs ⊢
  rw [if_neg (by omega), if_neg (by omega), if_neg (not_not.2 h3), if_neg (by omega), if_neg (not_not.2 h4)] at hs
  rw [if_neg (by omega), if_neg (by omega), if_neg (not_not.2 h3'), if_neg (by omega), if_neg (by rw [← ht']; exact not_not.2 h4), ← ht']
  obtain ⟨a, ha, -⟩ := bind_eq_ok.1 hs
  exact ⟨_, by rw [ha, ok_bind]⟩

theorem regenerate_rejected (fuel : Nat) {parts parts' : List (List Byte)} (hl : parts.map List.length = parts'.map List.length)
    (ht : parts.map tag = parts'.map tag) (n : Int) (rnd u : Nat → Byte) (h : ∀ s, Shamir.regenerate fuel parts n rnd u ≠ ok s) :
    (regenerate fuel parts n rnd u).trace = (regenerate fuel parts' n rnd u).trace := by
  have hlen : parts.length = parts'.length := by simpa using congrArg List.length hl
  suffices hs : Same (fun _ _ => True) (regenerate fuel parts n rnd u) (regenerate fuel parts' n rnd u) from hs.1
  unfold regenerate
  refine same_test _ _ (by rw [hlen]) ?_
  by_cases h2 : parts.length < 2
  · simp only [h2, decide_true, if_true]
    exact same_fails _ _ _ _
  simp only [h2, decide_false, Bool.false_eq_true, if_false]
  refine (same_idx hlen 0).bind fun p p' _ _ hp => ?_
  have e := map_getElem _ hl hp.1 hp.2
  rw [← e, ← hlen]
  refine same_test _ _ Iff.rfl ?_
  by_cases h3 : p.length < 2
  · simp only [h3, decide_true, if_true]
    exact same_fails _ _ _ _
  simp only [h3, decide_false, Bool.false_eq_true, if_false]
  have hhead : parts.headD [] = p := by
    cases parts with
    | nil => simp at hp
    | cons a b => simpa using hp.1
  have hhead' : parts'.headD [] = p' := by
    cases parts' with
    | nil => simp at hp
    | cons a b => simpa using hp.2
  refine (same_checkLengths hl p.length).bind fun _ _ hc hc' _ => ?_
  have all : ∀ {q : List (List Byte)} {n : Nat} {u : Unit}, (q.headD []).length = n → (checkLengths q n).out = ok u → ∀ p ∈ q, p.length = n := by
    intro q n u hq hc
    rw [out_checkLengths, checkLengths_eq] at hc
    split at hc
    · rename_i hall
      intro r hr
      cases q with
      | nil => simp at hr
      | cons a b =>
        rcases List.mem_cons.1 hr with rfl | hr
        · exact hq
        · exact hall r hr
    · cases hc
  have h3a := all (by rw [hhead]) hc
  have h3b := all (by rw [hhead', e]) hc'
  refine same_test _ _ Iff.rfl ?_
  by_cases h4 : n < 0
  · simp only [h4, decide_true, if_true]
    exact ⟨rfl, Or.inr ⟨fun _ h => (by cases h), fun _ h => (by cases h)⟩⟩
  simp only [h4, decide_false, Bool.false_eq_true, if_false]
  refine (same_collectTags h3a h3b ht _).bind ?_
  rintro ⟨xs, m⟩ _ hx _ rfl
  refine (Same.refl _).bind fun a _ ha _ _ => ?_
  exfalso
  rw [out_collectTags, collectTags_eq (by omega) h3a _ (by simp)] at hx
  split at hx
  · rename_i hn
    cases hx
    have : Shamir.regenerate fuel parts n rnd u = _ := regenerate_eq fuel parts n rnd u
    rw [if_neg (by omega), if_neg (by rw [hhead]; omega), if_neg (by rw [hhead]; exact not_not.2 h3a), if_neg h4,
      if_neg (not_not.2 hn)] at this
    rw [out_regenDedupe] at ha
    have hr : Shamir.randRead rnd 0 (List.replicate n.toNat 0) = (List.range n.toNat).map rnd := by
      simp [Shamir.randRead]
    rw [hr] at ha
    rw [ha, ok_bind] at this
    exact h _ this
  · cases hx

end Verif.Leak
