import Verif.Model.LeakRest
import Verif.Proofs.LeakCalls
import Verif.Proofs.SplitPWorker
import Verif.Proofs.Results

/-! # What SplitWithRandomizerOld and the goroutines of SplitP show -/

namespace Verif.Leak
open Verif Outcome Galois Pool Proofs Spec Spec.Leak Csprng

@[simp] theorem out_makePolynomialsWithRandomizer (i : List Byte) (d : Nat) (r : CSPRNG) :
    (makePolynomialsWithRandomizer i d r).out = Shamir.makePolynomialsWithRandomizer i d r := by
  simp [makePolynomialsWithRandomizer, Shamir.makePolynomialsWithRandomizer]

@[simp] theorem out_evaluatePolynomialsAt (arch : Arch) (c : List (List Byte)) (x : Byte) (o : List Byte) (p : BytesBufferPool) :
    (evaluatePolynomialsAt arch c x o p).out = Shamir.evaluatePolynomialsAt arch c x o p := by
  simp [evaluatePolynomialsAt, Shamir.evaluatePolynomialsAt]

@[simp] theorem out_splitWithRandomizerOld (arch : Arch) (secret : List Byte) (parts threshold : Int) (r : CSPRNG)
    (ps : Shamir.Pools) : (splitWithRandomizerOld arch secret parts threshold r ps).out
      = Shamir.splitWithRandomizerOld arch secret parts threshold r ps := by
  simp [splitWithRandomizerOld, Shamir.splitWithRandomizerOld]

@[simp] theorem out_makePolynomial (i d : Byte) (rnd : Nat → Byte) (pos : Nat) :
    (makePolynomial i d rnd pos).out = Shamir.makePolynomial i d rnd pos := by
  simp [makePolynomial, Shamir.makePolynomial]

@[simp] theorem out_evaluateOne (c : List Byte) (x : Byte) : (evaluate c x).out = Shamir.evaluate c x := by
  unfold evaluate Shamir.evaluate
  by_cases hx : x = 0
  · simp [hx]
  · by_cases hc : c.length = 0 <;> simp [hx, hc]

/-! ## SplitP -/

theorem makePolynomial_eq (val : Byte) {degree : Byte} (hd : degree ≠ 255#8) (rnd : Nat → Byte) (pos : Nat) :
    Shamir.makePolynomial val degree rnd pos = ok (val :: (List.range degree.toNat).map fun k => rnd (pos + k)) := by
  have hd1 : (degree + 1).toNat = degree.toNat + 1 := by
    have : degree.toNat ≠ 255 := fun e => hd (BitVec.eq_of_toNat_eq (by simpa using e))
    have := degree.isLt
    rw [BitVec.toNat_add, show BitVec.toNat (1 : Byte) = 1 from rfl]
    omega
  unfold Shamir.makePolynomial
  rw [hd1, List.replicate_succ]
  simp only [Verif.setIdx, List.length_cons, List.length_replicate, List.set_cons_zero, Verif.slice, pure_eq]
  rw [if_pos (by omega), ok_bind]
  simp only [List.length_cons, List.length_replicate]
  rw [if_pos (by omega), ok_bind]
  congr 1
  simp [writeAt, Shamir.randRead]

theorem both_makePolynomial (val val' degree : Byte) (rnd rnd' : Nat → Byte) (pos : Nat) :
    Both True (fun _ _ => True) (makePolynomial val degree rnd pos) (makePolynomial val' degree rnd' pos) := by
  unfold makePolynomial
  refine (both_shows _ _ _).same fun a b ha hb _ => ?_
  have e : ∀ {v : Byte} {a : List Byte} {ev : Ev}, (shows ev (Verif.setIdx (List.replicate (degree + 1).toNat (0 : Byte)) 0 v)).out = ok a →
      a.length = (degree + 1).toNat := by
    intro v a ev h
    rw [out_shows] at h
    unfold Verif.setIdx at h
    split at h
    · cases h; simp
    · cases h
  rw [e ha, e hb]
  exact (both_shows _ _ _).same fun _ _ _ _ _ => both_pure trivial

theorem both_evaluateOne {cs cs' : List Byte} {d : Nat} (hl : cs.length = d + 1) (hl' : cs'.length = d + 1) {x : Byte} (hx : x ≠ 0) :
    Both (∀ k, 1 ≤ k → k ≤ d → cs.getD k 0 = cs'.getD k 0) (fun _ _ => True) (evaluate cs x) (evaluate cs' x) := by
  unfold evaluate
  refine both_test _ _ Iff.rfl ?_
  have h0 : ¬ d + 1 = 0 := by omega
  simp only [hx, decide_false, Bool.false_eq_true, if_false, hl, hl', if_neg h0, Nat.add_sub_cancel]
  refine (both_shows _ _ _).same fun a a' ha ha' _ => ?_
  have ha := idx_val ha
  have ha' := idx_val ha'
  let c : Nat → Nat → Byte := fun k _ => cs.getD k 0
  let c' : Nat → Nat → Byte := fun k _ => cs'.getD k 0
  refine (both_forDown rfl (fun i => acc c x d (d - (i + 1)) 0 = acc c' x d (d - (i + 1)) 0)
    (fun i s t => s = acc c x d (d - i) 0 ∧ t = acc c' x d (d - i) 0) ?_ ?_).weaken ?_ fun _ _ _ _ _ => trivial
  · simp only [Nat.sub_self, acc]
    exact ⟨ha, ha'⟩
  · rintro i hi s t ⟨rfl, rfl⟩
    refine (both_shows _ _ _).same fun b b' hb hb' _ => ?_
    have hb := idx_val hb
    have hb' := idx_val hb'
    have e : d - i = d - (i + 1) + 1 := by omega
    have e' : d - (d - (i + 1) + 1) = i := by omega
    refine ((both_table (e := .mul (acc c x d (d - (i + 1)) 0) x) (e' := .mul (acc c' x d (d - (i + 1)) 0) x) rfl _ _).bind (K' := True) fun v v' hv hv' _ => ?_).weaken ?_
      fun _ _ _ _ h => h
    · cases hv; cases hv'
      refine both_pure ⟨?_, ?_⟩
      · rw [e]
        simp only [acc, e']
        rw [galMultiply_eq, mulSpec_comm, hb]
        exact BitVec.xor_comm _ _
      · rw [e]
        simp only [acc, e']
        rw [galMultiply_eq, mulSpec_comm, hb']
        exact BitVec.xor_comm _ _
    · simp
  · rw [← acc_agree c c' x d 0]
    constructor
    · intro h k hk
      have := h (d - (k + 1)) (by omega)
      have e : d - (d - (k + 1) + 1) = k := by omega
      rwa [e] at this
    · intro h i hi
      exact h _ (by omega)

/-- tags of SplitP -/
theorem splitP_tag {perm : List Nat} (hperm : perm.Perm (List.range 255)) {i v : Nat} (h : perm[i]? = some v) :
    BitVec.ofNat 8 v + 1#8 ≠ 0 := by
  have := hperm.mem_iff.1 (List.mem_of_getElem? h)
  have := List.mem_range.1 this
  intro e
  have := congrArg BitVec.toNat e
  simp at this
  omega

theorem both_splitPGoroutine {vs vs' : List Byte} (hl : vs.length = vs'.length) {parts threshold : Int} (h1 : 2 ≤ threshold)
    (h2 : threshold ≤ parts) (h3 : parts ≤ 255) {perm : List Nat} (hperm : perm.Perm (List.range 255)) (rnd rnd' : Nat → Byte) (start : Nat)
    (out out' : List (List Byte)) :
    Both (∀ j < vs.length, ∀ k < threshold.toNat - 1, rnd (j * (threshold.toNat - 1) + k) = rnd' (j * (threshold.toNat - 1) + k))
      (fun _ _ => True) (splitPGoroutine vs parts threshold perm rnd start out) (splitPGoroutine vs' parts threshold perm rnd' start out') := by
  obtain ⟨hd, hdn⟩ := Own.degree_facts h1 (by omega)
  refine both_forUp hl (fun j => ∀ k < threshold.toNat - 1, rnd (j * (threshold.toNat - 1) + k) = rnd' (j * (threshold.toNat - 1) + k))
    (fun _ _ _ => True) trivial fun j _ o o' _ => ?_
  refine (both_shows _ _ _).same fun v v' _ _ _ => ?_
  refine (both_makePolynomial _ _ _ _ _ _).same fun p p' hp hp' _ => ?_
  rw [out_makePolynomial, makePolynomial_eq _ hd, hdn] at hp hp'
  cases hp; cases hp'
  refine (both_forUp rfl (fun _ => ∀ k < threshold.toNat - 1, rnd (j * (threshold.toNat - 1) + k) = rnd' (j * (threshold.toNat - 1) + k))
    (fun _ _ _ => True) trivial fun i _ o o' _ => ?_).weaken ?_ fun _ _ _ _ h => h
  · refine (both_shows _ _ _).same fun xc xc' hx hx' _ => ?_
    have e : xc' = xc := by
      rw [out_shows] at hx hx'; exact Outcome.ok.inj (hx'.symm.trans hx)
    subst e
    rw [out_shows, idx_eq_ok] at hx
    refine ((both_evaluateOne (d := threshold.toNat - 1) (by simp) (by simp) (splitP_tag hperm hx)).bind (K' := True) fun _ _ _ _ _ =>
      (both_shows _ _ _).same fun _ _ _ _ _ => (both_shows _ _ _).same fun _ _ _ _ _ => both_shows _ _ _).weaken ?_ fun _ _ _ _ h => h
    rw [and_true]
    constructor
    · intro h k hk
      have := h (k + 1) (by omega) (by omega)
      simpa [List.getD_eq_getElem?_getD, List.getElem?_range hk] using this
    · intro h k hk hk'
      obtain ⟨q, rfl⟩ : ∃ q, k = q + 1 := ⟨k - 1, by omega⟩
      have hq : q < threshold.toNat - 1 := by omega
      simpa [List.getD_eq_getElem?_getD, List.getElem?_range hq] using h q hq
  · constructor
    · intro h; exact h 0 (by omega)
    · intro h _ _; exact h

theorem splitPGoroutine_ok (vs : List Byte) {parts threshold : Int} (h1 : 2 ≤ threshold) (h2 : threshold ≤ parts) (h3 : parts ≤ 255)
    {perm : List Nat} (hperm : perm.Perm (List.range 255)) (rnd : Nat → Byte) (start : Nat) {out : List (List Byte)} {L : Nat}
    (ho : out.length = parts.toNat) (hr : ∀ i < parts.toNat, (out.getD i []).length = L) (hL : start + vs.length ≤ L) :
    ∃ out', (splitPGoroutine vs parts threshold perm rnd start out).out = ok out' ∧ out'.length = parts.toNat ∧
      ∀ i < parts.toNat, (out'.getD i []).length = L ∧ ∀ p, (out'.getD i []).getD p 0 =
        if start ≤ p ∧ p < start + vs.length then
          evalC (vs.getD (p - start) 0 :: (List.range (threshold.toNat - 1)).map fun k => rnd ((p - start) * (threshold.toNat - 1) + k))
            (BitVec.ofNat 8 (perm.getD i 0) + 1#8)
        else (out.getD i []).getD p 0 := by
  obtain ⟨hd, hdn⟩ := Own.degree_facts h1 (by omega)
  have hpl : perm.length = 255 := by simpa using hperm.length_eq
  let val : Nat → Nat → Byte := fun i k =>
    evalC (vs.getD k 0 :: (List.range (threshold.toNat - 1)).map fun q => rnd (k * (threshold.toNat - 1) + q))
      (BitVec.ofNat 8 (perm.getD i 0) + 1#8)
  have hout : (splitPGoroutine vs parts threshold perm rnd start out).out = Verif.forUp vs.length (fun k out => do
      let v ← Verif.idx vs k
      let p ← Shamir.makePolynomial v (BitVec.ofInt 8 (threshold - 1)) rnd (k * (threshold.toNat - 1))
      Verif.forUp parts.toNat (fun i out => do
        let xc ← Verif.idx perm i
        let y ← Shamir.evaluate p (BitVec.ofNat 8 xc + 1#8)
        let row ← Verif.idx out i
        let row ← Verif.setIdx row (start + k) y
        Verif.setIdx out i row) out) out := by
    simp [splitPGoroutine]
  rw [hout]
  refine forUp_inv (n := vs.length) (body := fun k out => do
      let v ← Verif.idx vs k
      let p ← Shamir.makePolynomial v (BitVec.ofInt 8 (threshold - 1)) rnd (k * (threshold.toNat - 1))
      Verif.forUp parts.toNat (fun i out => do
        let xc ← Verif.idx perm i
        let y ← Shamir.evaluate p (BitVec.ofNat 8 xc + 1#8)
        let row ← Verif.idx out i
        let row ← Verif.setIdx row (start + k) y
        Verif.setIdx out i row) out) (s := out)
    (fun n st => st.length = parts.toNat ∧ ∀ i < parts.toNat, (st.getD i []).length = L ∧ ∀ p, (st.getD i []).getD p 0 =
      if start ≤ p ∧ p < start + n then val i (p - start) else (out.getD i []).getD p 0)
    ⟨ho, fun i hi => ⟨hr i hi, fun p => by rw [if_neg (by omega)]⟩⟩ ?_
  · rintro k hk st ⟨hl, hst⟩
    rw [idx_getD hk, ok_bind, makePolynomial_eq _ hd, ok_bind, hdn]
    refine Exists.imp ?_ (forUp_inv (n := parts.toNat) (body := fun i (out : List (List Byte)) => do
        let xc ← Verif.idx perm i
        let y ← Shamir.evaluate (vs.getD k 0 :: (List.range (threshold.toNat - 1)).map fun q => rnd (k * (threshold.toNat - 1) + q))
          (BitVec.ofNat 8 xc + 1#8)
        let row ← Verif.idx out i
        let row ← Verif.setIdx row (start + k) y
        Verif.setIdx out i row) (s := st)
      (fun n st' => st'.length = parts.toNat ∧ ∀ i < parts.toNat, (st'.getD i []).length = L ∧ ∀ p, (st'.getD i []).getD p 0 =
        if i < n ∧ p = start + k then val i k else (st.getD i []).getD p 0)
      ⟨hl, fun i hi => ⟨(hst i hi).1, fun p => by rw [if_neg (by omega)]⟩⟩ ?_)
    · rintro o ⟨e, hP⟩
      refine ⟨e, hP.1, fun i hi => ⟨(hP.2 i hi).1, fun p => ?_⟩⟩
      rw [(hP.2 i hi).2 p, (hst i hi).2 p]
      by_cases hp : p = start + k
      · subst hp
        rw [if_pos ⟨hi, rfl⟩, if_pos (by omega), Nat.add_sub_cancel_left]
      · rw [if_neg (by omega)]
        by_cases hq : start ≤ p ∧ p < start + k
        · rw [if_pos hq, if_pos (by omega)]
        · rw [if_neg hq, if_neg (by omega)]
    · rintro i hi st' ⟨hl', hst'⟩
      have hx : Verif.idx perm i = ok (perm.getD i 0) := by
        rw [idx_ok (by omega)]
        simp [List.getD_eq_getElem?_getD, List.getElem?_eq_getElem (show i < perm.length by omega)]
      have hrow : Verif.idx st' i = ok (st'.getD i []) := by
        rw [idx_ok (by omega)]
        simp [List.getD_eq_getElem?_getD, List.getElem?_eq_getElem (show i < st'.length by omega)]
      have hrl := (hst' i hi).1
      refine ⟨st'.set i ((st'.getD i []).set (start + k) (val i k)), ?_, by simpa using hl', fun m hm => ?_⟩
      · rw [hx, ok_bind, Own.evaluate_eq (by simp), ok_bind, hrow, ok_bind, setIdx_ok (by omega), ok_bind, setIdx_ok (by omega)]
      · by_cases hmi : m = i
        · subst hmi
          have es : (st'.set m ((st'.getD m []).set (start + k) (val m k))).getD m [] = (st'.getD m []).set (start + k) (val m k) := by
            rw [List.getD_eq_getElem?_getD, List.getElem?_set_self (by omega)]; rfl
          rw [es]
          refine ⟨by simpa using hrl, fun p => ?_⟩
          by_cases hp : p = start + k
          · subst hp
            rw [if_pos ⟨by omega, rfl⟩, List.getD_eq_getElem?_getD, List.getElem?_set_self (by omega)]; rfl
          · rw [if_neg (by omega), List.getD_eq_getElem?_getD, List.getElem?_set_ne (by omega), ← List.getD_eq_getElem?_getD,
              (hst' m hm).2 p, if_neg (by omega)]
        · have es : (st'.set i ((st'.getD i []).set (start + k) (val i k))).getD m [] = st'.getD m [] := by
            rw [List.getD_eq_getElem?_getD, List.getElem?_set_ne (by omega), ← List.getD_eq_getElem?_getD]
          rw [es]
          refine ⟨(hst' m hm).1, fun p => ?_⟩
          rw [(hst' m hm).2 p]
          by_cases hc : m < i ∧ p = start + k
          · rw [if_pos hc, if_pos (by omega)]
          · rw [if_neg hc, if_neg (by omega)]

/-! ## SplitWithRandomizerOld -/

theorem both_makeOld {s s' : List Byte} (hl : s.length = s'.length) (d : Nat) (r r' : CSPRNG) :
    Both True (fun _ _ => True) (makePolynomialsWithRandomizer s d r) (makePolynomialsWithRandomizer s' d r') := by
  unfold makePolynomialsWithRandomizer
  exact both_forUp' hl (fun _ _ _ => True) trivial fun _ _ _ _ _ => (both_shows _ _ _).same fun _ _ _ _ _ =>
    (both_shows _ _ _).same fun _ _ _ _ _ => (both_shows _ _ _).same fun _ _ _ _ _ => both_shows _ _ _

theorem both_evaluateAt (arch : Arch) (c c' : Nat → Nat → Byte) (N d : Nat) (x : Byte) (out out' : List Byte) (pool pool' : BytesBufferPool) :
    Both (x ≠ 1 ∨ arch = .noasm → ∀ j, lookupsFrom arch N ≤ j → j < N → ∀ k, 1 ≤ k → k ≤ d → c k j = c' k j) (fun _ _ => True)
      (evaluatePolynomialsAt arch ((List.range (d + 1)).map fun i => (List.range N).map (c i)) x out pool)
      (evaluatePolynomialsAt arch ((List.range (d + 1)).map fun i => (List.range N).map (c' i)) x out' pool') := by
  have hi : ∀ {c : Nat → Nat → Byte} {i : Nat} {e : Ev} {row : List Byte},
      (shows e (Verif.idx ((List.range (d + 1)).map fun i => (List.range N).map (c i)) i)).out = ok row → i ≤ d →
      row = (List.range N).map (c i) := by
    intro c i e row h hd
    rw [out_shows, idx_ok (by simp; omega)] at h
    have := Outcome.ok.inj h
    simpa using this.symm
  unfold evaluatePolynomialsAt
  refine (both_shows _ _ _).same fun r r' hr hr' _ => ?_
  have hr := hi hr (Nat.zero_le _)
  have hr' := hi hr' (Nat.zero_le _)
  subst hr; subst hr'
  simp only [List.length_map, List.length_range, Nat.add_sub_cancel]
  refine (both_shows _ _ _).same fun r r' hr hr' _ => ?_
  have lr : r.length = N := by
    rw [out_shows, slice_ok (Nat.zero_le _) (length_grow _ _)] at hr
    cases hr
    have := length_grow pool.get.1 N
    simp; omega
  have lr' : r'.length = N := by
    rw [out_shows, slice_ok (Nat.zero_le _) (length_grow _ _)] at hr'
    cases hr'
    have := length_grow pool'.get.1 N
    simp; omega
  refine (both_shows _ _ _).same fun top top' ht ht' _ => ?_
  have ht := hi ht le_rfl
  have ht' := hi ht' le_rfl
  unfold copyInto
  rw [lr, lr']
  refine (both_shows _ _ _).same fun r1 r1' h1 h1' _ => ?_
  rw [out_shows, copyInto_same (by rw [lr, ht]; simp)] at h1
  rw [out_shows, copyInto_same (by rw [lr', ht']; simp)] at h1'
  cases h1; cases h1'
  refine ((both_forDown rfl
    (fun i => x ≠ 1 ∨ arch = .noasm → ∀ j, lookupsFrom arch N ≤ j → j < N → acc c x d (d - (i + 1)) j = acc c' x d (d - (i + 1)) j)
    (fun i s t => s = (List.range N).map (acc c x d (d - i)) ∧ t = (List.range N).map (acc c' x d (d - i)))
    ?_ ?_).bind (K' := True) (M := fun _ _ => True) ?_).weaken ?_ fun _ _ _ _ h => h
  · simp only [Nat.sub_self, acc]
    exact ⟨ht, ht'⟩
  · rintro i hid s t ⟨rfl, rfl⟩
    refine (both_shows _ _ _).same fun row row' hrow hrow' _ => ?_
    have hrow := hi hrow (by omega)
    have hrow' := hi hrow' (by omega)
    refine ((both_mulConstVector arch x (by simp)).bind (K' := True) (M := fun s t =>
      s = (List.range N).map (acc c x d (d - i)) ∧ t = (List.range N).map (acc c' x d (d - i))) fun m m' hm hm' _ => ?_).weaken ?_
        fun _ _ _ _ h => h
    · rw [out_mulConstVector, mulConstVector_eq] at hm hm'
      cases hm; cases hm'
      refine (both_addVector arch (by simp [hrow]) (by simp [hrow, hrow']) (by simp)).weaken Iff.rfl fun s t hs ht _ => ?_
      rw [out_addVector, addVector_eq _ (by simp [hrow]), hrow, List.map_map, xorBytes_range] at hs
      rw [out_addVector, addVector_eq _ (by simp [hrow']), hrow', List.map_map, xorBytes_range] at ht
      cases hs; cases ht
      have e : d - i = d - (i + 1) + 1 := by omega
      have e' : d - (d - (i + 1) + 1) = i := by omega
      rw [e]
      constructor
      · apply List.map_congr_left
        intro p _
        simp only [acc, e']
        rfl
      · apply List.map_congr_left
        intro p _
        simp only [acc, e']
        rfl
    · simp only [List.length_map, List.length_range, and_true]
      refine imp_congr_right fun _ => forall_congr' fun j => imp_congr_right fun _ => imp_congr_right fun hj => ?_
      simp [List.getD_eq_getElem?_getD, List.getElem?_range hj]
  · intro f f' _ _ _
    refine (both_shows _ _ _).same fun dst dst' hd hd' _ => ?_
    have e : ∀ {o q : List Byte}, (slice o 0 N).out = ok q → q.length = N := fun {o q} h => by
      have := slice_val (s := 0) (N := N) (e := .elem 0) (l := o) (r := q) (by simpa using h)
      simp [this]
    rw [e hd, e hd']
    exact (both_shows _ _ _).same fun _ _ _ _ _ => both_pure trivial
  · rw [and_true]
    constructor
    · intro h hx j h1 h2
      refine (acc_agree c c' x d j).1 fun k hk => ?_
      have := h (d - (k + 1)) (by omega) hx j h1 h2
      have e : d - (d - (k + 1) + 1) = k := by omega
      rwa [e] at this
    · intro h i hi hx j h1 h2
      exact (acc_agree c c' x d j).2 (h hx j h1 h2) _ (by omega)

/-- What SplitWithRandomizerOld shows in two runs on secrets of the same length, with the same tags. -/
theorem both_splitOld (arch : Arch) {s s' : List Byte} (hl : s.length = s'.length) {parts threshold : Int}
    (h : ValidArgs s parts threshold) {r r' : CSPRNG} {xs : List Byte} (hx : r.perm 255#8 = ok xs) (hx' : r'.perm 255#8 = ok xs)
    (ps ps' : Shamir.Pools) :
    Both (∀ i < parts.toNat, xs.getD i 0 + 1#8 ≠ 1 ∨ arch = .noasm → ∀ j, lookupsFrom arch s.length ≤ j → j < s.length →
        ∀ k, 1 ≤ k → k ≤ threshold.toNat - 1 → r.ks (threshold.toNat * j + k) = r'.ks (threshold.toNat * j + k)) (fun _ _ => True)
      (splitWithRandomizerOld arch s parts threshold r ps) (splitWithRandomizerOld arch s' parts threshold r' ps') := by
  obtain ⟨h1, h2, h3, h4⟩ := h
  have hN : 0 < s.length := List.length_pos_iff.2 h4
  have e1 : decide (parts < threshold) = false := by simp; omega
  have e2 : decide (parts > 255) = false := by simp; omega
  have e3 : decide (threshold < 2) = false := by simp; omega
  have e4 : decide (threshold > 255) = false := by simp; omega
  have e5 : decide (s.length = 0) = false := by simp [h4]
  have et : threshold.toNat - 1 + 1 = threshold.toNat := by omega
  unfold splitWithRandomizerOld
  refine both_test _ _ Iff.rfl ?_
  rw [e1]
  refine both_test _ _ Iff.rfl ?_
  rw [e2]
  refine both_test _ _ Iff.rfl ?_
  rw [e3]
  refine both_test _ _ Iff.rfl ?_
  rw [e4]
  refine both_test _ _ (by rw [hl]) ?_
  rw [e5]
  rw [← hl]
  refine (both_quiet _ _).same fun y y' hy hy' _ => ?_
  rw [out_quiet, hx] at hy
  rw [out_quiet, hx'] at hy'
  cases hy; cases hy'
  refine (both_allocShares _ _ _).same fun out _ _ _ h => ?_
  subst h
  refine (both_makeOld hl _ _ _).same fun m m' hm hm' _ => ?_
  rw [out_makePolynomialsWithRandomizer, makePolynomialsWithRandomizer_eq] at hm hm'
  cases hm; cases hm'
  rw [← hl]
  refine (both_transposeRows (N := s.length) (t := threshold.toNat - 1 + 1) (by simp [rowsF]) (by simp [rowsF]) ?_ ?_).same
    fun co co' hco hco' _ => ?_
  · intro r hr
    obtain ⟨p, -, rfl⟩ := List.mem_map.1 hr
    simp
  · intro r hr
    obtain ⟨p, -, rfl⟩ := List.mem_map.1 hr
    simp
  rw [out_transpose, transpose_eq _ _ _ hN] at hco hco'
  cases hco; cases hco'
  refine ((both_forUp rfl (fun i => xs.getD i 0 + 1#8 ≠ 1 ∨ arch = .noasm → ∀ j, lookupsFrom arch s.length ≤ j → j < s.length →
    ∀ k, 1 ≤ k → k ≤ threshold.toNat - 1 → oldCoeff s (threshold.toNat - 1 + 1) r j k = oldCoeff s' (threshold.toNat - 1 + 1) r' j k)
    (fun _ _ _ => True) trivial ?_).bind (K' := True) (M := fun _ _ => True) ?_).weaken ?_ fun _ _ _ _ h => h
  · rintro i _ ⟨o, p⟩ ⟨o', p'⟩ _
    refine (both_shows _ _ _).same fun x x' hx hx' _ => ?_
    have hx := idx_val hx
    have hx' := idx_val hx'
    refine (both_shows _ _ _).same fun _ _ _ _ _ => ?_
    rw [hx, hx']
    refine ((both_evaluateAt arch (fun i p => oldCoeff s (threshold.toNat - 1 + 1) r p i)
      (fun i p => oldCoeff s' (threshold.toNat - 1 + 1) r' p i) s.length (threshold.toNat - 1) _ _ _ _ _).bind (K' := True)
        (M := fun _ _ => True) ?_).weaken (by simp) fun _ _ _ _ h => h
    rintro ⟨_, _⟩ ⟨_, _⟩ _ _ _
    exact (both_shows _ _ _).same fun _ _ _ _ _ => both_pure trivial
  · rintro ⟨_, _⟩ ⟨_, _⟩ _ _ _
    exact both_pure trivial
  · rw [and_true]
    refine forall_congr' fun i => imp_congr_right fun _ => imp_congr_right fun _ => forall_congr' fun j =>
      imp_congr_right fun _ => imp_congr_right fun hj => forall_congr' fun k => imp_congr_right fun hk => imp_congr_right fun hk' => ?_
    have hk0 : k ≠ 0 := by omega
    simp only [oldCoeff, if_neg hk0, et]

theorem splitOld_rejected (arch : Arch) {s s' : List Byte} (hl : s.length = s'.length)
    {parts threshold : Int} (hv : ¬ ValidArgs s parts threshold) (r r' : CSPRNG) (ps ps' : Shamir.Pools) :
    (splitWithRandomizerOld arch s parts threshold r ps).trace = (splitWithRandomizerOld arch s' parts threshold r' ps').trace :=
  guards_rejected hl hv _ _

/-- No tags: the call panics, and shows nothing more. -/
theorem splitOld_traceNoTags (arch : Arch) {s s' : List Byte} (hl : s.length = s'.length)
    {parts threshold : Int} (hv : ValidArgs s parts threshold) {r r' : CSPRNG} (ps ps' : Shamir.Pools)
    (hx : ∀ xs, r.perm 255#8 ≠ ok xs) (hx' : ∀ xs, r'.perm 255#8 ≠ ok xs) :
    (splitWithRandomizerOld arch s parts threshold r ps).trace = (splitWithRandomizerOld arch s' parts threshold r' ps').trace := by
  obtain ⟨h1, h2, h3, h4⟩ := hv
  have e1 : decide (parts < threshold) = false := by simp; omega
  have e2 : decide (parts > 255) = false := by simp; omega
  have e3 : decide (threshold < 2) = false := by simp; omega
  have e4 : decide (threshold > 255) = false := by simp; omega
  have e5 : decide (s.length = 0) = false := by simp [h4]
  suffices hs : Same (fun _ _ => True) (splitWithRandomizerOld arch s parts threshold r ps)
    (splitWithRandomizerOld arch s' parts threshold r' ps') from hs.1
  unfold splitWithRandomizerOld
  refine same_test _ _ Iff.rfl ?_
  rw [e1]
  refine same_test _ _ Iff.rfl ?_
  rw [e2]
  refine same_test _ _ Iff.rfl ?_
  rw [e3]
  refine same_test _ _ Iff.rfl ?_
  rw [e4]
  refine same_test _ _ (by rw [hl]) ?_
  rw [e5]
  simp only [Bool.false_eq_true, if_false]
  have hq : Same (fun _ _ => False) (quiet (r.perm 255#8))
    (quiet (r'.perm 255#8)) := ⟨by unfold quiet; simp only, Or.inr ⟨fun a h => hx a (by rwa [out_quiet] at h), fun a h => hx' a (by rwa [out_quiet] at h)⟩⟩
  exact hq.bind fun _ _ _ _ h => h.elim

end Verif.Leak
