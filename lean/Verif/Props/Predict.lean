import Verif.Props.Seeds
import Verif.Proofs.Predict

/-! # C71: one long secret gives away the randomness of the later calls

shamir.Split draws from math/rand.  Whoever sees `threshold` shares of a secret with `threshold * len(secret) ≥ 8504` (for
instance because it is his own secret) knows most of the random bytes of that call; they determine all bytes that
`rand.Read` delivers afterwards.  Stated as: two programs, in which the source is in any two states and the secrets are any two
secrets, that show him the same do the same afterwards. -/

namespace Verif.Props
open Verif Outcome Galois Spec Proofs Shamir Pool Csprng RS Krawczyk Polynomial

/-- The states of math/rand that occur: after seeding, any numbers and bytes drawn. -/
def Reached (r : MathRand.Rand) : Prop :=
  ∃ (cooked : Nat → BitVec 64) (t : Int) (r0 : MathRand.Rand) (us : List MathRand.Use), r = (MathRand.seed cooked t r0).after us

theorem wf_after {r : MathRand.Rand} (h : WF r) (us : List MathRand.Use) : WF (r.after us) := by
  induction us generalizing r with
  | nil => exact h
  | cons u us ih =>
    cases u with
    | read n => exact ih (h.skip n)
    | draw n => exact ih (h.draw n)

theorem Reached.wf {r : MathRand.Rand} (h : Reached r) : WF r := by
  obtain ⟨cooked, t, r0, us, rfl⟩ := h
  refine wf_after ⟨?_, ?_, ?_⟩ us
  · show (0 : Nat) < 607; omega
  · rfl
  · show (0 : Nat) ≤ 6; omega

theorem sim_after {r r' : MathRand.Rand} (h : Sim r r') (us : List MathRand.Use) : Sim (r.after us) (r'.after us) := by
  induction us generalizing r r' with
  | nil => exact h
  | cons u us ih =>
    cases u with
    | read n => exact ih (h.skip n)
    | draw n => exact ih (h.draw n)

theorem wf_perm {fuel n : Nat} {r r' : MathRand.Rand} {π : List Nat} (h : r.perm fuel n = ok (π, r')) (hr : WF r) :
    WF r' ∧ r'.readPos = r.readPos := by
  have hi : ∀ (g : MathRand.Rand), WF g → WF g.int31.2 ∧ g.int31.2.readPos = g.readPos := fun g hg => ⟨hg.next, rfl⟩
  have hloop : ∀ (mx fuel v : Nat) (g g' : MathRand.Rand) (v' : Nat), WF g →
      MathRand.int31nLoop mx fuel v g = ok (v', g') → WF g' ∧ g'.readPos = g.readPos := by
    intro mx fuel
    induction fuel with
    | zero =>
      intro v g g' v' hg h
      unfold MathRand.int31nLoop at h
      split at h
      · cases h
      · cases h; exact ⟨hg, rfl⟩
    | succ fuel ih =>
      intro v g g' v' hg h
      unfold MathRand.int31nLoop at h
      split at h
      · have := ih _ _ _ _ (hi g hg).1 h
        exact ⟨this.1, this.2.trans (hi g hg).2⟩
      · cases h; exact ⟨hg, rfl⟩
  unfold MathRand.Rand.perm at h
  refine forUp_ok_inv (fun _ (st : List Nat × MathRand.Rand) => WF st.2 ∧ st.2.readPos = r.readPos) ⟨hr, rfl⟩
    (fun i _ st st' hst hb => ?_) h
  obtain ⟨m, g⟩ := st
  obtain ⟨⟨j, g1⟩, hj, hb⟩ := bind_eq_ok.1 hb
  obtain ⟨mj, h1, hb⟩ := bind_eq_ok.1 hb
  obtain ⟨m1, h2, hb⟩ := bind_eq_ok.1 hb
  obtain ⟨m2, h3, hb⟩ := bind_eq_ok.1 hb
  cases hb
  have : WF g1 ∧ g1.readPos = g.readPos := by
    unfold MathRand.Rand.int31n at hj
    simp only [Nat.add_eq_zero_iff, one_ne_zero, and_false, if_false, pure_eq] at hj
    split at hj
    · simp only [ok.injEq, Prod.mk.injEq] at hj
      rw [← hj.2]
      exact hi g hst.1
    · obtain ⟨⟨v, q⟩, h4, h5⟩ := bind_eq_ok.1 hj
      simp only [ok.injEq, Prod.mk.injEq] at h5
      have := hloop _ _ _ _ _ _ (hi g hst.1).1 h4
      rw [← h5.2]
      exact ⟨this.1, this.2.trans (hi g hst.1).2⟩
  exact ⟨this.1, this.2.trans hst.2⟩

/-! ## `threshold` shares determine the coefficients -/

theorem coeffs_determined {s s' : List Byte} (hl : s.length = s'.length) {t : Nat} (ht : 0 < t) {c c' : Nat → Nat → Byte}
    {T : Finset Byte} (hT : t ≤ T.card) (h : ∀ x ∈ T, cShare s t c x = cShare s' t c' x) :
    s = s' ∧ ∀ p < s.length, ∀ k, 1 ≤ k → k < t → c p k = c' p k := by
  have key : ∀ p < s.length, s.getD p 0 = s'.getD p 0 ∧ ∀ k, 1 ≤ k → k < t → c p k = c' p k := by
    intro p hp
    let P : (List Byte) → (Nat → Nat → Byte) → GF[X] := fun s c =>
      ∑ k ∈ Finset.range t, Polynomial.C (if k = 0 then ⟨s.getD p 0⟩ else (⟨c p k⟩ : GF)) * X ^ k
    have hdeg : ∀ s c, (P s c).degree < t := by
      intro s c
      refine lt_of_le_of_lt (degree_sum_le _ _) ?_
      rw [Finset.sup_lt_iff (WithBot.bot_lt_coe _)]
      intro k hk
      exact lt_of_le_of_lt (degree_C_mul_X_pow_le _ _) (by exact_mod_cast Finset.mem_range.1 hk)
    have hev : ∀ s c (x : Byte), (P s c).eval ⟨x⟩
        = ⟨s.getD p 0⟩ + ∑ k ∈ Finset.Ico 1 t, (⟨c p k⟩ : GF) * ⟨x⟩ ^ k := by
      intro s c x
      simp only [P, eval_finset_sum, eval_mul, eval_C, eval_pow, eval_X]
      rw [Finset.range_eq_Ico, Finset.sum_eq_sum_Ico_succ_bot ht, pow_zero, mul_one, if_pos rfl]
      congr 1
      apply Finset.sum_congr rfl
      intro k hk
      have := (Finset.mem_Ico.1 hk).1
      rw [if_neg (by omega)]
    have heq : P s c = P s' c' := by
      refine eq_of_degrees_lt_of_eval_index_eq T (v := fun x : Byte => (⟨x⟩ : GF)) ?_ ?_ ?_ ?_
      · intro x _ y _ h; exact congrArg GF.val h
      · exact lt_of_lt_of_le (hdeg s c) (by exact_mod_cast hT)
      · exact lt_of_lt_of_le (hdeg s' c') (by exact_mod_cast hT)
      · intro x hx
        rw [hev, hev]
        have := congrArg (fun l => l.getD p 0) (h x hx)
        simp only [cShare_getD _ _ _ _ hp, cShare_getD _ _ _ _ (hl ▸ hp)] at this
        exact congrArg GF.mk this
    have hco : ∀ s c k, k < t → (P s c).coeff k = if k = 0 then ⟨s.getD p 0⟩ else (⟨c p k⟩ : GF) := by
      intro s c k hk
      simp only [P, finsetSum_coeff, coeff_C_mul_X_pow]
      rw [Finset.sum_eq_single k]
      · rw [if_pos rfl]
      · intro j _ hj; rw [if_neg (Ne.symm hj)]
      · intro hk'; exact absurd (Finset.mem_range.2 hk) hk'
    refine ⟨?_, fun k h1 hk => ?_⟩
    · have := congrArg (fun Q => coeff Q 0) heq
      simp only [hco _ _ 0 ht, if_true] at this
      exact congrArg GF.val this
    · have := congrArg (fun Q => coeff Q k) heq
      simp only [hco _ _ k hk, if_neg (show ¬ k = 0 by omega)] at this
      exact congrArg GF.val this
  refine ⟨?_, fun p hp => (key p hp).2⟩
  apply List.ext_getElem hl
  intro p h1 h2
  have := (key p h1).1
  rwa [getD_getElem h1, getD_getElem h2] at this

theorem split_parts {arch : Arch} {fuel : Nat} {s : List Byte} {parts threshold : Int} {r r1 : MathRand.Rand} {ps ps' : Pools}
    {shares : List (List Byte)} (h : MathRand.split arch fuel s parts threshold r ps = ok (shares, r1, ps')) :
    ∃ π g, r.perm fuel 255 = ok (π, g) ∧ π.Perm (List.range 255) ∧ ValidArgs s parts threshold ∧
      r1 = g.skip (threshold.toNat * s.length) ∧
      shares = ((π.take parts.toNat).map fun v => BitVec.ofNat 8 v + 1#8).map
          (cShare s threshold.toNat fun p k => g.stream ((layoutSplit threshold.toNat s.length).ix p k)) := by
  unfold MathRand.split at h
  obtain ⟨⟨π, g⟩, hp, h⟩ := bind_eq_ok.1 h
  obtain ⟨⟨b, q⟩, e, f⟩ := bind_eq_ok.1 h
  have hv := (split_ok arch (perm_perm hp) e).1
  obtain ⟨p2, e2⟩ := split_layout arch g.stream ps hv (perm_perm hp)
  rw [e] at e2
  cases e2
  cases f
  exact ⟨π, g, hp, perm_perm hp, hv, rfl, rfl⟩

/-- `threshold` shares that look the same give the same coefficients. -/
theorem same_coeffs {s s' : List Byte} (hl : s.length = s'.length) {t n : Nat} (ht : 0 < t) {π π' : List Nat}
    (hπ : π.Perm (List.range 255)) {c c' : Nat → Nat → Byte} (I : Finset Nat) (hI : t ≤ I.card)
    (hIl : ∀ i ∈ I, i < ((π.take n).map fun v => BitVec.ofNat 8 v + 1#8).length)
    (hsame : ∀ i ∈ I, (((π.take n).map fun v => BitVec.ofNat 8 v + 1#8).map (cShare s t c))[i]?
      = (((π'.take n).map fun v => BitVec.ofNat 8 v + 1#8).map (cShare s' t c'))[i]?) :
    s = s' ∧ ∀ p < s.length, ∀ k, 1 ≤ k → k < t → c p k = c' p k := by
  set xs := (π.take n).map fun v => BitVec.ofNat 8 v + 1#8 with hxs
  set xs' := (π'.take n).map fun v => BitVec.ofNat 8 v + 1#8 with hxs'
  have hnd : xs.Nodup := (splitTags_facts hπ n).1
  have hpt : ∀ i ∈ I, ∃ (hi : i < xs.length), cShare s t c xs[i] = cShare s' t c' xs[i] := by
    intro i hi
    have hix := hIl i hi
    refine ⟨hix, ?_⟩
    have e := hsame i hi
    rw [List.getElem?_map (l := xs), List.getElem?_map (l := xs'), List.getElem?_eq_getElem hix, Option.map_some] at e
    obtain ⟨x, hx, e⟩ := Option.map_eq_some_iff.1 e.symm
    have ht := congrArg tag e
    rw [tag_cShare, tag_cShare] at ht
    rw [← ht]
    rw [← ht] at e
    exact e.symm
  let T : Finset Byte := I.image fun i => xs.getD i 0
  have hT : t ≤ T.card := by
    have : T.card = I.card := by
      apply Finset.card_image_of_injOn
      intro i hi j hj hij
      obtain ⟨h1, -⟩ := hpt i hi
      obtain ⟨h2, -⟩ := hpt j hj
      simp only [getD_getElem h1, getD_getElem h2] at hij
      exact (List.Nodup.getElem_inj_iff hnd).1 hij
    omega
  exact coeffs_determined hl (c := c) (c' := c') (t := t) ht hT (fun x hx => by
    obtain ⟨i, hi, rfl⟩ := Finset.mem_image.1 hx
    obtain ⟨h1, h2⟩ := hpt i hi
    rw [getD_getElem h1]
    exact h2)

theorem same_view {arch : Arch} {fuel fuel' : Nat} {s s' : List Byte} (hl : s.length = s'.length) {parts threshold : Int}
    {r r' r1 r1' : MathRand.Rand} {ps ps' qs qs' : Pools} {shares shares' : List (List Byte)}
    (hr : Reached r) (hr' : Reached r') (hpos : r.readPos = r'.readPos)
    (h : MathRand.split arch fuel s parts threshold r ps = ok (shares, r1, qs))
    (h' : MathRand.split arch fuel' s' parts threshold r' ps' = ok (shares', r1', qs'))
    (I : Finset Nat) (hI : threshold ≤ I.card) (hIl : ∀ i ∈ I, i < shares.length)
    (hsame : ∀ i ∈ I, shares[i]? = shares'[i]?) (hlen : 8504 ≤ threshold * s.length) (h7 : threshold ≠ 7) :
    s = s' ∧ Sim r1 r1' := by
  obtain ⟨π, g, hp, hπ, hv, rfl, rfl⟩ := split_parts h
  obtain ⟨π', g', hp', hπ', hv', rfl, rfl⟩ := split_parts h'
  obtain ⟨hg, hgp⟩ := wf_perm hp hr.wf
  obtain ⟨hg', hgp'⟩ := wf_perm hp' hr'.wf
  have ⟨v1, v2, v3, v4⟩ := hv
  obtain ⟨hss, hcc⟩ := same_coeffs hl (by omega) hπ I (by omega) (fun i hi => by simpa using hIl i hi) hsame
  refine ⟨hss, ?_⟩
  rw [← hl]
  refine sim_of_stream hg hg' (by omega) (t := threshold.toNat) (by omega) (by omega) (by omega) ?_ fun j hj hu => ?_
  · have : ((threshold.toNat * s.length : Nat) : Int) = threshold * s.length := by
      push_cast
      rw [Int.toNat_of_nonneg (by omega)]
    omega
  · have ht : 0 < threshold.toNat := by omega
    have := hcc (j / threshold.toNat) (Nat.div_lt_of_lt_mul hj) (j % threshold.toNat) (by
      have : j % threshold.toNat ≠ 0 := fun h0 => hu (Nat.dvd_of_mod_eq_zero h0)
      omega) (Nat.mod_lt _ ht)
    simp only [layoutSplit] at this
    rwa [Nat.div_add_mod] at this

/-! ## The property -/

/-- `threshold` shares of a long secret determine the secret and all bytes `rand.Read` delivers afterwards, however the source
is used in between. -/
theorem C71_bytes (arch : Arch) (fuel fuel' : Nat) (s s' : List Byte) (hl : s.length = s'.length) (parts threshold : Int)
    (r r' r1 r1' : MathRand.Rand) (ps ps' qs qs' : Pools) (shares shares' : List (List Byte))
    (hr : Reached r) (hr' : Reached r') (hpos : r.readPos = r'.readPos)
    (h : MathRand.split arch fuel s parts threshold r ps = ok (shares, r1, qs))
    (h' : MathRand.split arch fuel' s' parts threshold r' ps' = ok (shares', r1', qs'))
    (I : Finset Nat) (hI : threshold ≤ I.card) (hIl : ∀ i ∈ I, i < shares.length)
    (hsame : ∀ i ∈ I, shares[i]? = shares'[i]?) (hlen : 8504 ≤ threshold * s.length) (h7 : threshold ≠ 7)
    (us : List MathRand.Use) :
    s = s' ∧ (r1.after us).stream = (r1'.after us).stream := by
  obtain ⟨h1, h2⟩ := same_view hl hr hr' hpos h h' I hI hIl hsame hlen h7
  exact ⟨h1, funext fun j => (sim_after h2 us).stream j⟩

/-- So one share of a later call of `Split` determines its secret, if `rand.Perm` does not have to reject a number in it
(fuel 0). -/
theorem C71_split (arch : Arch) (fuel fuel' : Nat) (s s' : List Byte) (hl : s.length = s'.length) (parts threshold : Int)
    (r r' r1 r1' : MathRand.Rand) (ps ps' qs qs' : Pools) (shares shares' : List (List Byte))
    (hr : Reached r) (hr' : Reached r') (hpos : r.readPos = r'.readPos)
    (h : MathRand.split arch fuel s parts threshold r ps = ok (shares, r1, qs))
    (h' : MathRand.split arch fuel' s' parts threshold r' ps' = ok (shares', r1', qs'))
    (I : Finset Nat) (hI : threshold ≤ I.card) (hIl : ∀ i ∈ I, i < shares.length)
    (hsame : ∀ i ∈ I, shares[i]? = shares'[i]?) (hlen : 8504 ≤ threshold * s.length) (h7 : threshold ≠ 7)
    (us : List MathRand.Use) (b b' : List Byte) (hb : b.length = b'.length) (partsB thresholdB : Int)
    (r2 r2' : MathRand.Rand) (ps2 ps2' qs2 qs2' : Pools) (sharesB sharesB' : List (List Byte))
    (h2 : MathRand.split arch 0 b partsB thresholdB (r1.after us) ps2 = ok (sharesB, r2, qs2))
    (h2' : MathRand.split arch 0 b' partsB thresholdB (r1'.after us) ps2' = ok (sharesB', r2', qs2'))
    (i : Nat) (v : List Byte) (hv : sharesB[i]? = some v) (hv' : sharesB'[i]? = some v) : b = b' := by
  have hs := sim_after (same_view hl hr hr' hpos h h' I hI hIl hsame hlen h7).2 us
  obtain ⟨π, g, hp, hπ, hva, -, rfl⟩ := split_parts h2
  obtain ⟨π', g', hp', hπ', hva', -, rfl⟩ := split_parts h2'
  have hgg : g.stream = g'.stream := by
    rw [perm_draw hp, perm_draw hp']
    exact funext fun j => (hs.draw 255).stream j
  rw [List.getElem?_map] at hv hv'
  obtain ⟨x, -, hv⟩ := Option.map_eq_some_iff.1 hv
  obtain ⟨x', -, hv'⟩ := Option.map_eq_some_iff.1 hv'
  have e := hv.trans hv'.symm
  have ht := congrArg tag e
  rw [tag_cShare, tag_cShare] at ht
  subst ht
  rw [hgg, ← hb] at e
  rw [← sum_cShare b thresholdB.toNat (fun p k => g'.stream ((layoutSplit thresholdB.toNat b.length).ix p k)) x,
    ← sum_cShare b' thresholdB.toNat (fun p k => g'.stream ((layoutSplit thresholdB.toNat b.length).ix p k)) x, e, hb]

/-- And one share of a later krawczyk.Split, which begins by reading its key (krawczyk.go:40), determines its chunk. -/
theorem C71_krawczyk (arch : Arch) (fuel fuel' : Nat) (s s' : List Byte) (hl : s.length = s'.length) (parts threshold : Int)
    (r r' r1 r1' : MathRand.Rand) (ps ps' qs qs' : Pools) (shares shares' : List (List Byte))
    (hr : Reached r) (hr' : Reached r') (hpos : r.readPos = r'.readPos)
    (h : MathRand.split arch fuel s parts threshold r ps = ok (shares, r1, qs))
    (h' : MathRand.split arch fuel' s' parts threshold r' ps' = ok (shares', r1', qs'))
    (I : Finset Nat) (hI : threshold ≤ I.card) (hIl : ∀ i ∈ I, i < shares.length)
    (hsame : ∀ i ∈ I, shares[i]? = shares'[i]?) (hlen : 8504 ≤ threshold * s.length) (h7 : threshold ≠ 7)
    (us : List MathRand.Use) (env : Env) (hc : env.lib.Contract) (b b' : List Byte) (hb : b.length = b'.length)
    (partsB thresholdB : Int) (perm perm' : List Nat) (hperm : perm.Perm (List.range 255))
    (hperm' : perm'.Perm (List.range 255)) (rnd rnd' : Nat → Byte) (ps2 ps2' qs2 qs2' : Pools)
    (sharesB sharesB' : List (List Byte))
    (h2 : Krawczyk.split env b partsB thresholdB (r1.after us).stream perm rnd ps2 = ok (sharesB, qs2))
    (h2' : Krawczyk.split env b' partsB thresholdB (r1'.after us).stream perm' rnd' ps2' = ok (sharesB', qs2'))
    (i : Nat) (hi : (i : Int) < thresholdB) (v : List Byte) (hv : sharesB[i]? = some v) (hv' : sharesB'[i]? = some v) :
    chunk thresholdB.toNat i b = chunk thresholdB.toNat i b' := by
  have e := (C71_bytes arch fuel fuel' s s' hl parts threshold r r' r1 r1' ps ps' qs qs' shares shares' hr hr' hpos h h' I hI
    hIl hsame hlen h7 us).2
  exact C70_krawczyk_same_chunk env hc partsB thresholdB _ _ perm perm' hperm hperm' rnd rnd' ps2 ps2' qs2 qs2' b b' hb
    sharesB sharesB' i hi v v (fun j _ => congrFun e j) h2 hv h2' hv' rfl

/-! ## SplitGeneric

Its shares show all the bytes it drew, so half as many are enough, and `threshold` 7 is no exception. -/

theorem splitGeneric_parts {fuel : Nat} {s : List Byte} {parts threshold : Int} {r r1 : MathRand.Rand}
    {shares : List (List Byte)} (h : MathRand.splitGeneric fuel s parts threshold r = ok (shares, r1)) :
    ∃ π g, r.perm fuel 255 = ok (π, g) ∧ π.Perm (List.range 255) ∧ ValidArgs s parts threshold ∧
      r1 = g.skip ((threshold.toNat - 1) * s.length) ∧
      shares = ((π.take parts.toNat).map fun v => BitVec.ofNat 8 v + 1#8).map
          (cShare s threshold.toNat fun p k => g.stream ((layoutGeneric threshold.toNat s.length).ix p k)) := by
  unfold MathRand.splitGeneric at h
  obtain ⟨⟨π, g⟩, hp, h⟩ := bind_eq_ok.1 h
  obtain ⟨b, e, f⟩ := bind_eq_ok.1 h
  have hv := (splitGeneric_ok (perm_perm hp) e).1
  have e2 := splitGeneric_layout g.stream hv (perm_perm hp)
  rw [e] at e2
  cases e2
  cases f
  exact ⟨π, g, hp, perm_perm hp, hv, rfl, rfl⟩

theorem same_view_generic {fuel fuel' : Nat} {s s' : List Byte} (hl : s.length = s'.length) {parts threshold : Int}
    {r r' r1 r1' : MathRand.Rand} {shares shares' : List (List Byte)}
    (hr : Reached r) (hr' : Reached r') (hpos : r.readPos = r'.readPos)
    (h : MathRand.splitGeneric fuel s parts threshold r = ok (shares, r1))
    (h' : MathRand.splitGeneric fuel' s' parts threshold r' = ok (shares', r1'))
    (I : Finset Nat) (hI : threshold ≤ I.card) (hIl : ∀ i ∈ I, i < shares.length)
    (hsame : ∀ i ∈ I, shares[i]? = shares'[i]?) (hlen : 4255 ≤ (threshold - 1) * s.length) :
    s = s' ∧ Sim r1 r1' := by
  obtain ⟨π, g, hp, hπ, hv, rfl, rfl⟩ := splitGeneric_parts h
  obtain ⟨π', g', hp', hπ', hv', rfl, rfl⟩ := splitGeneric_parts h'
  obtain ⟨hg, hgp⟩ := wf_perm hp hr.wf
  obtain ⟨hg', hgp'⟩ := wf_perm hp' hr'.wf
  have ⟨v1, v2, v3, v4⟩ := hv
  obtain ⟨hss, hcc⟩ := same_coeffs hl (by omega) hπ I (by omega) (fun i hi => by simpa using hIl i hi) hsame
  refine ⟨hss, ?_⟩
  rw [← hl]
  refine sim_of_stream_all hg hg' (by omega) ?_ fun j hj => ?_
  · have : (((threshold.toNat - 1) * s.length : Nat) : Int) = (threshold - 1) * s.length := by
      push_cast
      rw [show ((threshold.toNat - 1 : Nat) : Int) = threshold - 1 by omega]
    omega
  · have ht : 0 < threshold.toNat - 1 := by omega
    have hm := Nat.mod_lt j ht
    have := hcc (j / (threshold.toNat - 1)) (Nat.div_lt_of_lt_mul hj) (j % (threshold.toNat - 1) + 1) (by omega) (by omega)
    simp only [layoutGeneric, Nat.add_sub_cancel] at this
    rwa [Nat.div_add_mod] at this

/-- `threshold` shares from SplitGeneric of a secret with `(threshold - 1) * len(secret) ≥ 4255` determine the secret and all
bytes `rand.Read` delivers afterwards. -/
theorem C71_generic_bytes (fuel fuel' : Nat) (s s' : List Byte) (hl : s.length = s'.length) (parts threshold : Int)
    (r r' r1 r1' : MathRand.Rand) (shares shares' : List (List Byte))
    (hr : Reached r) (hr' : Reached r') (hpos : r.readPos = r'.readPos)
    (h : MathRand.splitGeneric fuel s parts threshold r = ok (shares, r1))
    (h' : MathRand.splitGeneric fuel' s' parts threshold r' = ok (shares', r1'))
    (I : Finset Nat) (hI : threshold ≤ I.card) (hIl : ∀ i ∈ I, i < shares.length)
    (hsame : ∀ i ∈ I, shares[i]? = shares'[i]?) (hlen : 4255 ≤ (threshold - 1) * s.length) (us : List MathRand.Use) :
    s = s' ∧ (r1.after us).stream = (r1'.after us).stream := by
  obtain ⟨h1, h2⟩ := same_view_generic hl hr hr' hpos h h' I hI hIl hsame hlen
  exact ⟨h1, funext fun j => (sim_after h2 us).stream j⟩

/-- So one share of a later call of SplitGeneric determines its secret, if `rand.Perm` rejects no number in it (fuel 0). -/
theorem C71_generic_split (fuel fuel' : Nat) (s s' : List Byte) (hl : s.length = s'.length) (parts threshold : Int)
    (r r' r1 r1' : MathRand.Rand) (shares shares' : List (List Byte))
    (hr : Reached r) (hr' : Reached r') (hpos : r.readPos = r'.readPos)
    (h : MathRand.splitGeneric fuel s parts threshold r = ok (shares, r1))
    (h' : MathRand.splitGeneric fuel' s' parts threshold r' = ok (shares', r1'))
    (I : Finset Nat) (hI : threshold ≤ I.card) (hIl : ∀ i ∈ I, i < shares.length)
    (hsame : ∀ i ∈ I, shares[i]? = shares'[i]?) (hlen : 4255 ≤ (threshold - 1) * s.length)
    (us : List MathRand.Use) (b b' : List Byte) (hb : b.length = b'.length) (partsB thresholdB : Int)
    (r2 r2' : MathRand.Rand) (sharesB sharesB' : List (List Byte))
    (h2 : MathRand.splitGeneric 0 b partsB thresholdB (r1.after us) = ok (sharesB, r2))
    (h2' : MathRand.splitGeneric 0 b' partsB thresholdB (r1'.after us) = ok (sharesB', r2'))
    (i : Nat) (v : List Byte) (hv : sharesB[i]? = some v) (hv' : sharesB'[i]? = some v) : b = b' := by
  have hs := sim_after (same_view_generic hl hr hr' hpos h h' I hI hIl hsame hlen).2 us
  obtain ⟨π, g, hp, hπ, hva, -, rfl⟩ := splitGeneric_parts h2
  obtain ⟨π', g', hp', hπ', hva', -, rfl⟩ := splitGeneric_parts h2'
  have hgg : g.stream = g'.stream := by
    rw [perm_draw hp, perm_draw hp']
    exact funext fun j => (hs.draw 255).stream j
  rw [List.getElem?_map] at hv hv'
  obtain ⟨x, -, hv⟩ := Option.map_eq_some_iff.1 hv
  obtain ⟨x', -, hv'⟩ := Option.map_eq_some_iff.1 hv'
  have e := hv.trans hv'.symm
  have ht := congrArg tag e
  rw [tag_cShare, tag_cShare] at ht
  subst ht
  rw [hgg, ← hb] at e
  rw [← sum_cShare b thresholdB.toNat (fun p k => g'.stream ((layoutGeneric thresholdB.toNat b.length).ix p k)) x,
    ← sum_cShare b' thresholdB.toNat (fun p k => g'.stream ((layoutGeneric thresholdB.toNat b.length).ix p k)) x, e, hb]

/-! ## The hypotheses are met

Two different states of the source that show the same: all words are 0 or 2^63. -/

/-- All words are 0 or 2^63. -/
def Quiet (g : MathRand.Rand) : Prop := ∀ j, g.vec j = 0 ∨ g.vec j = 0x8000000000000000#64

theorem Quiet.next {g : MathRand.Rand} (h : Quiet g) :
    (g.uint64.1 = 0 ∨ g.uint64.1 = 0x8000000000000000#64) ∧ Quiet g.uint64.2 := by
  have hx : g.uint64.1 = 0 ∨ g.uint64.1 = 0x8000000000000000#64 := by
    show g.vec _ + g.vec _ = 0 ∨ g.vec _ + g.vec _ = _
    rcases h (if g.feed = 0 then 606 else g.feed - 1) with h1 | h1 <;>
    rcases h (if g.tap = 0 then 606 else g.tap - 1) with h2 | h2 <;> rw [h1, h2] <;> decide
  refine ⟨hx, fun j => ?_⟩
  show Function.update g.vec (if g.feed = 0 then 606 else g.feed - 1) g.uint64.1 j = 0 ∨
    Function.update g.vec (if g.feed = 0 then 606 else g.feed - 1) g.uint64.1 j = _
  by_cases hj : j = (if g.feed = 0 then 606 else g.feed - 1)
  · rw [hj, Function.update_self]; exact hx
  · rw [Function.update_of_ne hj]; exact h j

theorem Quiet.draw {g : MathRand.Rand} (h : Quiet g) (n : Nat) : Quiet (g.draw n) := by
  induction n with
  | zero => exact h
  | succ n ih => rw [draw_succ]; exact ih.next.2

theorem Quiet.int31 {g : MathRand.Rand} (h : Quiet g) : g.int31.1 = 0 := by
  show ((g.uint64.1 &&& 0x7fffffffffffffff#64) >>> 32).toNat = 0
  rcases h.next.1 with e | e <;> rw [e] <;> decide

/-- The list `Perm` has after `i` steps when all numbers drawn are 0. -/
def zeroPerm (n : Nat) : Nat → List Nat
  | 0 => List.replicate n 0
  | i + 1 => ((zeroPerm n i).set i ((zeroPerm n i).getD 0 0)).set 0 i

theorem length_zeroPerm (n i : Nat) : (zeroPerm n i).length = n := by
  induction i with
  | zero => simp [zeroPerm]
  | succ i ih => simp [zeroPerm, ih]

theorem Quiet.perm {g : MathRand.Rand} (h : Quiet g) (n : Nat) : g.perm 0 n = ok (zeroPerm n n, g.draw n) := by
  unfold MathRand.Rand.perm
  refine forUp_eq (fun i => (zeroPerm n i, g.draw i)) rfl fun i hi => ?_
  have h31 := (h.draw i).int31
  have hint : (g.draw i).int31n 0 (i + 1) = ok (0, g.draw (i + 1)) := by
    unfold MathRand.Rand.int31n MathRand.int31nLoop
    simp only [Nat.add_eq_zero_iff, one_ne_zero, and_false, if_false, pure_eq, h31, Nat.zero_and]
    split
    · rw [draw_succ]; rfl
    · rw [if_neg (by omega), ok_bind]
      simp only [Nat.zero_mod]
      rw [draw_succ]; rfl
  dsimp only
  rw [hint, ok_bind]
  have hl := length_zeroPerm n i
  simp only [idx, List.getElem?_eq_getElem (show 0 < (zeroPerm n i).length by omega), ok_bind, setIdx,
    if_pos (show i < (zeroPerm n i).length by omega), List.length_set, if_pos (show 0 < (zeroPerm n i).length by omega), pure_eq]
  simp [zeroPerm, List.getD_eq_getElem?_getD, show 0 < (zeroPerm n i).length by omega]

theorem Quiet.sim {g g' : MathRand.Rand} (h : Quiet g) (h' : Quiet g') (hw : WF g) (hw' : WF g') (hp : g.readPos = 0)
    (hp' : g'.readPos = 0) : Sim g g' := by
  refine ⟨hw, hw', by rw [hp, hp'], by rw [hp]; omega, fun n b hb => ?_⟩
  have : ∀ {g : MathRand.Rand}, Quiet g → byteAt (word g n) b = 0 := by
    intro g h
    have hz : ∀ b < 7, byteAt 0x8000000000000000#64 b = 0 ∧ byteAt 0#64 b = 0 := by decide
    rcases (h.draw n).next.1 with e | e
    · show byteAt (g.draw n).uint64.1 b = 0
      rw [e]; exact (hz b hb).2
    · show byteAt (g.draw n).uint64.1 b = 0
      rw [e]; exact (hz b hb).1
  rw [this h, this h']

/-- A table with which the seed 1 leads to the words `w`. -/
def cookedFor (w : Nat → BitVec 64) (i : Nat) : BitVec 64 := MathRand.seedVec (fun _ => 0) 1 i ^^^ w i

theorem seed_cookedFor (w : Nat → BitVec 64) (r : MathRand.Rand) :
    (MathRand.seed (cookedFor w) 1 r).vec = w := by
  funext i
  show MathRand.seedVec (cookedFor w) (MathRand.seedWord 1) i = w i
  have : MathRand.seedWord 1 = 1 := by decide
  rw [this]
  have h : ∀ z y : BitVec 64, z ^^^ ((z ^^^ 0) ^^^ y) = y := fun z y => by
    rw [show z ^^^ (0 : BitVec 64) = z from BitVec.xor_zero, ← BitVec.xor_assoc, BitVec.xor_self, BitVec.zero_xor]
  exact h _ _

/-- Two states that differ, and secrets of 3000 and of 5 bytes; all hypotheses of `C71_split` are met. -/
example (arch : Arch) : ∃ (r r' r1 r1' r2 r2' : MathRand.Rand) (qs qs' qs2 qs2' : Pools)
    (shares sharesB : List (List Byte)) (v : List Byte),
    r.vec ≠ r'.vec ∧ Reached r ∧ Reached r' ∧ r.readPos = r'.readPos ∧
    MathRand.split arch 0 (List.replicate 3000 9) 5 3 r (Pools.init 1) = ok (shares, r1, qs) ∧
    MathRand.split arch 0 (List.replicate 3000 9) 5 3 r' (Pools.init 1) = ok (shares, r1', qs') ∧
    (∀ i ∈ ({0, 2, 4} : Finset Nat), i < shares.length) ∧ (3 : Int) ≤ ({0, 2, 4} : Finset Nat).card ∧
    MathRand.split arch 0 [1, 2, 3, 4, 5] 9 6 r1 qs = ok (sharesB, r2, qs2) ∧
    MathRand.split arch 0 [1, 2, 3, 4, 5] 9 6 r1' qs' = ok (sharesB, r2', qs2') ∧ sharesB[7]? = some v := by
  obtain ⟨A, hA⟩ : ∃ A : List Byte, A = List.replicate 3000 9 := ⟨_, rfl⟩
  have hAl : A.length = 3000 := by rw [hA, List.length_replicate]
  rw [← hA]
  clear hA
  let r0 : MathRand.Rand := ⟨fun _ => 0, 0, 0, 0, 0⟩
  let w : Nat → BitVec 64 := fun i => if i = 5 then 0x8000000000000000#64 else 0
  let r := MathRand.seed (cookedFor fun _ => 0) 1 r0
  let r' := MathRand.seed (cookedFor w) 1 r0
  have hre : Reached r := ⟨_, _, r0, [], rfl⟩
  have hre' : Reached r' := ⟨_, _, r0, [], rfl⟩
  have hq : Quiet r := fun j => Or.inl (congrFun (seed_cookedFor _ r0) j)
  have hq' : Quiet r' := fun j => by
    have e := congrFun (seed_cookedFor w r0) j
    show (MathRand.seed (cookedFor w) 1 r0).vec j = 0 ∨ _
    rw [show (MathRand.seed (cookedFor w) 1 r0).vec j = w j from e]
    simp only [w]
    by_cases hj : j = 5 <;> simp [hj]
  have hsim : Sim r r' := hq.sim hq' hre.wf hre'.wf rfl rfl
  have run : ∀ (g : MathRand.Rand) (π : List Nat) (h1 : MathRand.Rand) (s : List Byte) (p t : Int) (ps : Pools)
      (hp : g.perm 0 255 = ok (π, h1)) (hv : ValidArgs s p t),
      ∃ ps', MathRand.split arch 0 s p t g ps = ok ((((π.take p.toNat).map fun v => BitVec.ofNat 8 v + 1#8).map
          (cShare s t.toNat fun p k => h1.stream ((layoutSplit t.toNat s.length).ix p k))), h1.skip (t.toNat * s.length), ps') := by
    intro g π h1 s p t ps hp hv
    obtain ⟨ps', e⟩ := split_layout arch h1.stream ps hv (perm_perm hp)
    exact ⟨ps', by unfold MathRand.split; rw [hp, ok_bind]; simp only []; rw [e, ok_bind]; rfl⟩
  have hv1 : ValidArgs A 5 3 := ⟨by decide, by decide, by decide, List.length_pos_iff.1 (by omega)⟩
  obtain ⟨qs, e1⟩ := run r _ _ _ 5 3 (Pools.init 1) (hq.perm 255) hv1
  obtain ⟨qs', e1'⟩ := run r' _ _ _ 5 3 (Pools.init 1) (hq'.perm 255) hv1
  have hs1 := hsim.draw 255
  have hst : (r'.draw 255).stream = (r.draw 255).stream := funext fun j => (hs1.stream j).symm
  rw [hst] at e1'
  have hskip : ∀ {g : MathRand.Rand}, Quiet g → ∀ n, Quiet (g.skip n) := by
    intro g hg n
    induction n with
    | zero => exact hg
    | succ n ih =>
      rw [skip_succ]
      by_cases h0 : (g.skip n).readPos = 0
      · rw [readByte_zero h0]; exact ih.next.2
      · rw [readByte_pos h0]; exact ih
  let M := Int.toNat 3 * A.length
  have hq1 := hskip (hq.draw 255) M
  have hq1' := hskip (hq'.draw 255) M
  obtain ⟨qs2, e2⟩ := run _ _ _ [1, 2, 3, 4, 5] 9 6 qs (hq1.perm 255) (by decide)
  obtain ⟨qs2', e2'⟩ := run _ _ _ [1, 2, 3, 4, 5] 9 6 qs' (hq1'.perm 255) (by decide)
  have hs2 := (hs1.skip M).draw 255
  rw [show (((r'.draw 255).skip M).draw 255).stream = (((r.draw 255).skip M).draw 255).stream from
    funext fun j => (hs2.stream j).symm] at e2'
  have hl255 := length_zeroPerm 255 255
  refine ⟨r, r', _, _, _, _, qs, qs', qs2, qs2', _, _, _, ?_, hre, hre', rfl, e1, e1', ?_, by decide, e2, e2',
    List.getElem?_eq_getElem (by
      simp only [List.length_map, List.length_take, hl255]
      decide)⟩
  · rw [show r.vec = fun _ => 0 from seed_cookedFor _ r0, show r'.vec = w from seed_cookedFor w r0]
    intro hc
    have := congrFun hc 5
    revert this
    decide
  · intro i hi
    simp only [List.length_map, List.length_take, hl255]
    revert i
    decide

/-- The same for `C71_generic_split`, with threshold 7 and 800 bytes. -/
example : ∃ (r r' r1 r1' r2 r2' : MathRand.Rand) (shares sharesB : List (List Byte)) (v : List Byte),
    r.vec ≠ r'.vec ∧ Reached r ∧ Reached r' ∧ r.readPos = r'.readPos ∧
    MathRand.splitGeneric 0 (List.replicate 800 9) 8 7 r = ok (shares, r1) ∧
    MathRand.splitGeneric 0 (List.replicate 800 9) 8 7 r' = ok (shares, r1') ∧
    (∀ i ∈ Finset.range 7, i < shares.length) ∧ (7 : Int) ≤ (Finset.range 7).card ∧
    MathRand.splitGeneric 0 [1, 2, 3, 4, 5] 9 6 r1 = ok (sharesB, r2) ∧
    MathRand.splitGeneric 0 [1, 2, 3, 4, 5] 9 6 r1' = ok (sharesB, r2') ∧ sharesB[7]? = some v := by
  obtain ⟨A, hA⟩ : ∃ A : List Byte, A = List.replicate 800 9 := ⟨_, rfl⟩
  have hAl : A.length = 800 := by rw [hA, List.length_replicate]
  rw [← hA]
  clear hA
  let r0 : MathRand.Rand := ⟨fun _ => 0, 0, 0, 0, 0⟩
  let w : Nat → BitVec 64 := fun i => if i = 5 then 0x8000000000000000#64 else 0
  let r := MathRand.seed (cookedFor fun _ => 0) 1 r0
  let r' := MathRand.seed (cookedFor w) 1 r0
  have hre : Reached r := ⟨_, _, r0, [], rfl⟩
  have hre' : Reached r' := ⟨_, _, r0, [], rfl⟩
  have hq : Quiet r := fun j => Or.inl (congrFun (seed_cookedFor _ r0) j)
  have hq' : Quiet r' := fun j => by
    have e := congrFun (seed_cookedFor w r0) j
    show (MathRand.seed (cookedFor w) 1 r0).vec j = 0 ∨ _
    rw [show (MathRand.seed (cookedFor w) 1 r0).vec j = w j from e]
    simp only [w]
    by_cases hj : j = 5 <;> simp [hj]
  have hsim : Sim r r' := hq.sim hq' hre.wf hre'.wf rfl rfl
  have run : ∀ (g : MathRand.Rand) (π : List Nat) (h1 : MathRand.Rand) (s : List Byte) (p t : Int)
      (hp : g.perm 0 255 = ok (π, h1)) (hv : ValidArgs s p t),
      MathRand.splitGeneric 0 s p t g = ok ((((π.take p.toNat).map fun v => BitVec.ofNat 8 v + 1#8).map
          (cShare s t.toNat fun p k => h1.stream ((layoutGeneric t.toNat s.length).ix p k))),
          h1.skip ((t.toNat - 1) * s.length)) := by
    intro g π h1 s p t hp hv
    have e := splitGeneric_layout h1.stream hv (perm_perm hp)
    unfold MathRand.splitGeneric; rw [hp, ok_bind]; simp only []; rw [e, ok_bind]; rfl
  have hv1 : ValidArgs A 8 7 := ⟨by decide, by decide, by decide, List.length_pos_iff.1 (by omega)⟩
  have e1 := run r _ _ _ 8 7 (hq.perm 255) hv1
  have e1' := run r' _ _ _ 8 7 (hq'.perm 255) hv1
  have hs1 := hsim.draw 255
  have hst : (r'.draw 255).stream = (r.draw 255).stream := funext fun j => (hs1.stream j).symm
  rw [hst] at e1'
  have hskip : ∀ {g : MathRand.Rand}, Quiet g → ∀ n, Quiet (g.skip n) := by
    intro g hg n
    induction n with
    | zero => exact hg
    | succ n ih =>
      rw [skip_succ]
      by_cases h0 : (g.skip n).readPos = 0
      · rw [readByte_zero h0]; exact ih.next.2
      · rw [readByte_pos h0]; exact ih
  let M := (Int.toNat 7 - 1) * A.length
  have hq1 := hskip (hq.draw 255) M
  have hq1' := hskip (hq'.draw 255) M
  have e2 := run _ _ _ [1, 2, 3, 4, 5] 9 6 (hq1.perm 255) (by decide)
  have e2' := run _ _ _ [1, 2, 3, 4, 5] 9 6 (hq1'.perm 255) (by decide)
  have hs2 := (hs1.skip M).draw 255
  rw [show (((r'.draw 255).skip M).draw 255).stream = (((r.draw 255).skip M).draw 255).stream from
    funext fun j => (hs2.stream j).symm] at e2'
  have hl255 := length_zeroPerm 255 255
  refine ⟨r, r', _, _, _, _, _, _, _, ?_, hre, hre', rfl, e1, e1', ?_, by decide, e2, e2',
    List.getElem?_eq_getElem (by
      simp only [List.length_map, List.length_take, hl255]
      decide)⟩
  · rw [show r.vec = fun _ => 0 from seed_cookedFor _ r0, show r'.vec = w from seed_cookedFor w r0]
    intro hc
    have := congrFun hc 5
    revert this
    decide
  · intro i hi
    simp only [List.length_map, List.length_take, hl255]
    revert i
    decide

end Verif.Props
