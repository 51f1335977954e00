import Verif.Proofs.LeakCalls
import Verif.Props.Random
import Verif.Props.Regenerate

/-! # C74: what time and caches show, for SplitWithRandomizer, SplitGeneric and Regenerate

As `Props/Leak.lean`, for the other ways to make shares.  `Verif/Model/LeakCalls.lean` says what is observed. -/

namespace Verif.Props
open Verif Outcome Galois Spec Spec.Leak Proofs Verif.Leak Csprng

/-- C74: observing the calls does not change what they do. -/
theorem C74_same_results_calls (arch : Arch) (fuel : Nat) (secret : List Byte) (parts threshold : Int) (r : CSPRNG) (ps : Shamir.Pools)
    (perm : List Nat) (rnd u : Nat → Byte) (shares : List (List Byte)) (n : Int) :
    (Leak.splitWithRandomizer arch fuel secret parts threshold r ps).out
      = Shamir.splitWithRandomizer arch fuel secret parts threshold r ps ∧
    (Leak.splitGeneric secret parts threshold perm rnd).out = Shamir.splitGeneric secret parts threshold perm rnd ∧
    (Leak.regenerate fuel shares n rnd u).out = Shamir.regenerate fuel shares n rnd u :=
  ⟨out_splitWithRandomizer .., out_splitGeneric .., out_regenerate ..⟩

/-! ## SplitWithRandomizer -/

/-- What the buffer that SplitWithRandomizer takes from the pool holds at position `i`, when it needs `n` bytes. -/
def leftOver (ps : Shamir.Pools) (n i : Nat) : Byte := (ps.bPool.get.1.grow n).mem.getD i 0

theorem read_staleBuf (r : CSPRNG) (ps : Shamir.Pools) {n i : Nat} (h : i < n) :
    (r.read (staleBuf ps.bPool n)).getD i 0 = leftOver ps n i ^^^ r.ks i := by
  rw [read_getD r _ (by rw [length_staleBuf]; exact h)]
  unfold staleBuf leftOver
  rw [List.getD_eq_getElem?_getD, List.getElem?_take_of_lt h, ← List.getD_eq_getElem?_getD]

theorem some_unique_tag_ne_one {r : CSPRNG} {fuel : Nat} {s : List Byte} {parts threshold : Int} (hv : ValidArgs s parts threshold)
    {xs : List Byte} (hx : r.getUniqueBytes fuel (BitVec.ofInt 8 parts) = ok xs) :
    xs.length = parts.toNat ∧ ∃ i < parts.toNat, xs.getD i 0 + 1#8 ≠ 1 := by
  have ⟨v1, v2, v3, v4⟩ := hv
  obtain ⟨hl, hnd⟩ := getUnique_ok_spec hx
  rw [ofInt_toNat (by omega) v2] at hl
  refine ⟨hl, ?_⟩
  by_contra hne
  push Not at hne
  have e0 := hne 0 (by omega)
  have e1 := hne 1 (by omega)
  match xs, hl, hnd, e0, e1 with
  | [], hl, _, _, _ => simp at hl; omega
  | [_], hl, _, _, _ => simp at hl; omega
  | a :: b :: _, _, hnd, e0, e1 =>
    simp at hnd e0 e1
    rw [e0, e1] at hnd
    exact hnd.1.1 rfl

theorem splitWithRandomizer_runs (arch : Arch) (fuel fuel' : Nat) {s s' : List Byte} (hl : s.length = s'.length) {parts threshold : Int}
    (hv : ValidArgs s parts threshold) {r r' : CSPRNG} {xs : List Byte} (hx : r.getUniqueBytes fuel (BitVec.ofInt 8 parts) = ok xs)
    (hx' : r'.getUniqueBytes fuel' (BitVec.ofInt 8 parts) = ok xs) (ps ps' : Shamir.Pools) :
    ∃ a b, (Leak.splitWithRandomizer arch fuel s parts threshold r ps).out = ok a ∧
      (Leak.splitWithRandomizer arch fuel' s' parts threshold r' ps').out = ok b := by
  have hv' : ValidArgs s' parts threshold := ⟨hv.1, hv.2.1, hv.2.2.1, fun h => hv.2.2.2 (List.length_eq_zero_iff.1 (by rw [hl, h]; rfl))⟩
  obtain ⟨pp, e⟩ := splitWithRandomizer_payload arch fuel r ps hv xs hx
  obtain ⟨pp', e'⟩ := splitWithRandomizer_payload arch fuel' r' ps' hv' xs hx'
  rw [out_splitWithRandomizer, out_splitWithRandomizer, e, e']
  exact ⟨_, _, rfl, rfl⟩

/-- C74: SplitWithRandomizer's control flow and its accesses to slices depend on the number of bytes of the secret, on
parts, threshold and tags only. -/
theorem C74_splitWithRandomizer_control_flow (arch : Arch) (fuel : Nat) (s s' : List Byte) (hl : s.length = s'.length)
    (parts threshold : Int) (r r' : CSPRNG)
    (hx : r.getUniqueBytes fuel (BitVec.ofInt 8 parts) = r'.getUniqueBytes fuel (BitVec.ofInt 8 parts)) (ps ps' : Shamir.Pools) :
    (Leak.splitWithRandomizer arch fuel s parts threshold r ps).trace.map Ev.hide
      = (Leak.splitWithRandomizer arch fuel s' parts threshold r' ps').trace.map Ev.hide := by
  by_cases hv : ValidArgs s parts threshold
  · by_cases h : ∃ xs, r.getUniqueBytes fuel (BitVec.ofInt 8 parts) = ok xs
    · obtain ⟨xs, h⟩ := h
      obtain ⟨a, b, ha, hb⟩ := splitWithRandomizer_runs arch fuel fuel hl hv h (hx ▸ h) ps ps'
      exact (both_splitWithRandomizer arch fuel fuel hl hv h (hx ▸ h) ps ps' a b ha hb).1
    · rw [splitWithRandomizer_noTags arch fuel fuel hl hv (r := r) (r' := r') ps ps' (fun xs e => h ⟨xs, e⟩)
        (fun xs e => h ⟨xs, hx.trans e⟩)]
  · rw [splitWithRandomizer_rejected arch fuel fuel hl hv r r' ps ps']

/-- C74: what SplitWithRandomizer shows is exactly the sum of key stream and left over bytes at the positions that are looked
up. -/
theorem C74_splitWithRandomizer (arch : Arch) (fuel fuel' : Nat) (s s' : List Byte) (hl : s.length = s'.length) (parts threshold : Int)
    (hv : ValidArgs s parts threshold) (r r' : CSPRNG) (xs : List Byte) (hx : r.getUniqueBytes fuel (BitVec.ofInt 8 parts) = ok xs)
    (hx' : r'.getUniqueBytes fuel' (BitVec.ofInt 8 parts) = ok xs) (ps ps' : Shamir.Pools) :
    (Leak.splitWithRandomizer arch fuel s parts threshold r ps).trace
        = (Leak.splitWithRandomizer arch fuel' s' parts threshold r' ps').trace ↔
      ∀ j, lookupsFrom arch s.length ≤ j → j < s.length → ∀ k, 1 ≤ k → k < threshold.toNat →
        leftOver ps (threshold.toNat * s.length) (threshold.toNat * j + k) ^^^ r.ks (threshold.toNat * j + k)
        = leftOver ps' (threshold.toNat * s.length) (threshold.toNat * j + k) ^^^ r'.ks (threshold.toNat * j + k) := by
  obtain ⟨a, b, ha, hb⟩ := splitWithRandomizer_runs arch fuel fuel' hl hv hx hx' ps ps'
  rw [(both_splitWithRandomizer arch fuel fuel' hl hv hx hx' ps ps' a b ha hb).2.1]
  obtain ⟨-, i, hi, hne⟩ := some_unique_tag_ne_one hv hx
  have hlt : ∀ {j k : Nat}, j < s.length → k < threshold.toNat → threshold.toNat * j + k < threshold.toNat * s.length := by
    intro j k hj hk
    calc threshold.toNat * j + k < threshold.toNat * j + threshold.toNat := by omega
      _ = threshold.toNat * (j + 1) := by ring
      _ ≤ threshold.toNat * s.length := Nat.mul_le_mul_left _ hj
  have := hv.2.2.1
  constructor
  · intro h j h1 h2 k h3 h4
    have := h i hi (Or.inl hne) j h1 h2 k h3 (by omega)
    rwa [read_staleBuf r ps (hlt h2 h4), read_staleBuf r' ps' (hlt h2 h4)] at this
  · intro h i _ _ j h1 h2 k h3 h4
    rw [read_staleBuf r ps (hlt h2 (by omega)), read_staleBuf r' ps' (hlt h2 (by omega))]
    exact h j h1 h2 k h3 (by omega)

/-- C74: with the same randomizer and the same buffers, SplitWithRandomizer shows the same for all secrets of a length. -/
theorem C74_splitWithRandomizer_secret (arch : Arch) (fuel : Nat) (s s' : List Byte) (hl : s.length = s'.length) (parts threshold : Int)
    (r : CSPRNG) (ps : Shamir.Pools) :
    (Leak.splitWithRandomizer arch fuel s parts threshold r ps).trace
      = (Leak.splitWithRandomizer arch fuel s' parts threshold r ps).trace := by
  by_cases hv : ValidArgs s parts threshold
  · by_cases h : ∃ xs, r.getUniqueBytes fuel (BitVec.ofInt 8 parts) = ok xs
    · obtain ⟨xs, h⟩ := h
      exact (C74_splitWithRandomizer arch fuel fuel s s' hl parts threshold hv r r xs h h ps ps).2 fun _ _ _ _ _ _ => rfl
    · exact splitWithRandomizer_noTags arch fuel fuel hl hv ps ps (fun xs e => h ⟨xs, e⟩) (fun xs e => h ⟨xs, e⟩)
  · exact splitWithRandomizer_rejected arch fuel fuel hl hv r r ps ps

/-- C74: what SplitWithRandomizer shows and one share together determine the looked up bytes of the secret, whatever the threshold. -/
theorem C74_splitWithRandomizer_leak (arch : Arch) (fuel fuel' : Nat) (s s' : List Byte) (hl : s.length = s'.length) (parts threshold : Int)
    (r r' : CSPRNG) (hx : r.getUniqueBytes fuel (BitVec.ofInt 8 parts) = r'.getUniqueBytes fuel' (BitVec.ofInt 8 parts))
    (ps ps' qs qs' : Shamir.Pools) (out out' : List (List Byte))
    (htr : (Leak.splitWithRandomizer arch fuel s parts threshold r ps).trace
      = (Leak.splitWithRandomizer arch fuel' s' parts threshold r' ps').trace)
    (h : (Leak.splitWithRandomizer arch fuel s parts threshold r ps).out = ok (out, qs))
    (h' : (Leak.splitWithRandomizer arch fuel' s' parts threshold r' ps').out = ok (out', qs'))
    (i j : Nat) (sh sh' : List Byte) (hi : out[i]? = some sh) (hi' : out'[i]? = some sh')
    (h1 : lookupsFrom arch s.length ≤ j) (h2 : j < s.length) (hb : sh[j]? = sh'[j]?) : s[j]? = s'[j]? := by
  rw [out_splitWithRandomizer] at h h'
  obtain ⟨hv, -, -, xs, hxs, -⟩ := splitWithRandomizer_ok arch fuel h
  obtain ⟨hv', -, -, -⟩ := splitWithRandomizer_ok arch fuel' h'
  have hxs' := hx.symm.trans hxs
  have hk := (C74_splitWithRandomizer arch fuel fuel' s s' hl parts threshold hv r r' xs hxs hxs' ps ps').1 htr j h1 h2
  obtain ⟨pp, e⟩ := splitWithRandomizer_payload arch fuel r ps hv xs hxs
  obtain ⟨pp', e'⟩ := splitWithRandomizer_payload arch fuel' r' ps' hv' xs hxs'
  rw [h] at e
  rw [h'] at e'
  have e := (Prod.mk.inj (Outcome.ok.inj e)).1
  have e' := (Prod.mk.inj (Outcome.ok.inj e')).1
  rw [e, List.getElem?_map] at hi
  rw [e', List.getElem?_map] at hi'
  obtain ⟨x, hxi, rfl⟩ := Option.map_eq_some_iff.1 hi
  rw [hxi, Option.map_some, Option.some.injEq] at hi'
  subst hi'
  have hlt : ∀ {k : Nat}, k < threshold.toNat → threshold.toNat * j + k < threshold.toNat * s.length := by
    intro k hk
    calc threshold.toNat * j + k < threshold.toNat * j + threshold.toNat := by omega
      _ = threshold.toNat * (j + 1) := by ring
      _ ≤ threshold.toNat * s.length := Nat.mul_le_mul_left _ h2
  have hm : mask threshold.toNat (r.read (staleBuf ps.bPool (threshold.toNat * s.length))) j (x + 1#8)
      = mask threshold.toNat (r'.read (staleBuf ps'.bPool (threshold.toNat * s'.length))) j (x + 1#8) := by
    unfold mask
    refine Finset.sum_congr rfl fun k hk' => ?_
    obtain ⟨k1, k2⟩ := Finset.mem_Ico.1 hk'
    rw [← hl, read_staleBuf r ps (hlt k2), read_staleBuf r' ps' (hlt k2), hk k k1 k2]
  have get : ∀ {s buf : List Byte}, j < s.length → (rShare s buf threshold.toNat x)[j]?
      = some (s.getD j 0 ^^^ (mask threshold.toNat buf j (x + 1#8)).val) := by
    intro s buf hj
    unfold rShare
    rw [List.getElem?_append_left (by simpa using hj), List.getElem?_map, List.getElem?_range hj]
    rfl
  rw [get h2, get (by omega), hm, Option.some.injEq] at hb
  have := congrArg (· ^^^ (mask threshold.toNat (r'.read (staleBuf ps'.bPool (threshold.toNat * s'.length))) j (x + 1#8)).val) hb
  simp only [BitVec.xor_assoc, BitVec.xor_self, BitVec.xor_zero] at this
  simpa [List.getD_eq_getElem?_getD, List.getElem?_eq_getElem h2, List.getElem?_eq_getElem (hl ▸ h2 : j < s'.length)] using this

/-- C74: but it shows an *earlier* secret.  Two histories: on empty pools, a first secret is split, then a second one of the same
length with the same threshold.  With the same randomizer in the second call, what the second call shows is the same if
and only if the two first secrets agree in their bytes `threshold * j + k` (`0 < k < threshold`, `j` a looked up position). -/
theorem C74_splitWithRandomizer_history (arch : Arch) (fuel fuel' : Nat) (s1 s1' s2 s2' : List Byte) (hl : s1.length = s1'.length)
    (hl2 : s2.length = s1.length) (hl2' : s2'.length = s1.length) (parts parts2 threshold : Int) (r r2 : CSPRNG)
    (ps ps' qs qs' : Shamir.Pools) (hp : ps.bPool.ch = []) (hs : 0 < ps.bPool.size) (hp' : ps'.bPool.ch = []) (hs' : 0 < ps'.bPool.size)
    (out out' : List (List Byte)) (h : Shamir.splitWithRandomizer arch fuel s1 parts threshold r ps = ok (out, qs))
    (h' : Shamir.splitWithRandomizer arch fuel s1' parts threshold r ps' = ok (out', qs'))
    (hv2 : ValidArgs s2 parts2 threshold) (xs : List Byte) (hx : r2.getUniqueBytes fuel' (BitVec.ofInt 8 parts2) = ok xs) :
    (Leak.splitWithRandomizer arch fuel s1 parts threshold r ps).trace
      = (Leak.splitWithRandomizer arch fuel s1' parts threshold r ps').trace ∧
    ((Leak.splitWithRandomizer arch fuel' s2 parts2 threshold r2 qs).trace
        = (Leak.splitWithRandomizer arch fuel' s2' parts2 threshold r2 qs').trace ↔
      ∀ j, lookupsFrom arch s1.length ≤ j → ∀ k, 1 ≤ k → k < threshold.toNat → threshold.toNat * j + k < s1.length →
        s1[threshold.toNat * j + k]? = s1'[threshold.toNat * j + k]?) := by
  obtain ⟨hv1, -, -, xs1, hx1, -⟩ := splitWithRandomizer_ok arch fuel h
  have ⟨v1, v2, v3, v4⟩ := hv1
  have ht : 2 ≤ threshold.toNat := by omega
  have hlt : ∀ {j k : Nat}, j < s1.length → k < threshold.toNat → threshold.toNat * j + k < threshold.toNat * s1.length := by
    intro j k hj hk
    calc threshold.toNat * j + k < threshold.toNat * j + threshold.toNat := by omega
      _ = threshold.toNat * (j + 1) := by ring
      _ ≤ threshold.toNat * s1.length := Nat.mul_le_mul_left _ hj
  have hzero : ∀ {p : Shamir.Pools} {n i : Nat}, p.bPool.ch = [] → i < n → leftOver p n i = 0 := by
    intro p n i hp hi
    have := staleBuf_empty hp n
    unfold staleBuf at this
    unfold leftOver
    rw [List.getD_eq_getElem?_getD, ← List.getElem?_take_of_lt hi, this]
    simp [hi]
  constructor
  · refine (C74_splitWithRandomizer arch fuel fuel s1 s1' hl parts threshold hv1 r r xs1 hx1 hx1 ps ps').2 fun j _ h2 k _ h4 => ?_
    rw [hzero hp (hlt h2 h4), hzero hp' (hlt h2 h4)]
  · rw [C74_splitWithRandomizer arch fuel' fuel' s2 s2' (by omega) parts2 threshold hv2 r2 r2 xs hx hx qs qs', hl2]
    have get : ∀ {s : List Byte} {p q : Shamir.Pools} {o : List (List Byte)}, s.length = s1.length → p.bPool.ch = [] →
        0 < p.bPool.size → Shamir.splitWithRandomizer arch fuel s parts threshold r p = ok (o, q) →
        ∀ i, i < threshold.toNat * s1.length → leftOver q (threshold.toNat * s1.length) i
          = if i < s1.length then s.getD i 0 else r.ks (threshold.toNat * (i % s1.length) + i / s1.length) := by
      intro s p q o hs hp hsz h i hi
      have hb := second_buffer arch fuel hp hsz h
      rw [hs] at hb
      have hi1 : i % s1.length < s1.length := Nat.mod_lt _ (List.length_pos_iff.2 v4)
      have hi2 : i / s1.length < threshold.toNat := Nat.div_lt_of_lt_mul (by rwa [Nat.mul_comm] at hi)
      unfold leftOver
      rw [List.getD_eq_getElem?_getD, ← List.getElem?_take_of_lt hi]
      show (staleBuf q.bPool (threshold.toNat * s1.length))[i]?.getD 0 = _
      rw [hb]
      unfold transposed
      rw [List.getElem?_map, List.getElem?_range hi, Option.map_some, Option.getD_some]
      rw [← hs] at hi1 hi2 hi ⊢
      rw [withIntercepts_get hi2 hi1 (by simp)]
      by_cases hlt' : i < s.length
      · rw [Nat.div_eq_of_lt hlt', if_pos rfl, Nat.mod_eq_of_lt hlt', if_pos hlt']
      · have : i / s.length ≠ 0 := by
          intro h0
          rcases Nat.div_eq_zero_iff.1 h0 with h0 | h0 <;> omega
        rw [if_neg this, if_neg hlt']
        have hb2 : threshold.toNat * (i % s.length) + i / s.length < threshold.toNat * s.length := by
          rw [hs] at hi1 hi2 ⊢; exact hlt hi1 hi2
        simp [List.getD_eq_getElem?_getD, List.getElem?_range hb2]
    have hq : ∀ i, i < threshold.toNat * s1.length →
        (leftOver qs (threshold.toNat * s1.length) i ^^^ r2.ks i = leftOver qs' (threshold.toNat * s1.length) i ^^^ r2.ks i ↔
          (i < s1.length → s1[i]? = s1'[i]?)) := by
      intro i hi
      rw [get rfl hp hs h i hi, get hl.symm hp' hs' h' i hi]
      by_cases hlt' : i < s1.length
      · simp only [hlt', if_true, forall_const]
        rw [List.getD_eq_getElem?_getD, List.getD_eq_getElem?_getD, List.getElem?_eq_getElem hlt',
          List.getElem?_eq_getElem (hl ▸ hlt' : i < s1'.length)]
        simp only [Option.getD_some, Option.some.injEq]
        constructor
        · intro h
          have := congrArg (· ^^^ r2.ks i) h
          simpa [BitVec.xor_assoc] using this
        · intro h; rw [h]
      · simp [hlt']
    constructor
    · intro hh j h1 k h3 h4 h5
      have hj : j < s1.length := lt_of_le_of_lt (by nlinarith) h5
      exact (hq _ (hlt hj h4)).1 (hh j h1 hj k h3 h4) h5
    · intro hh j h1 h2 k h3 h4
      exact (hq _ (hlt h2 h4)).2 (hh j h1 k h3 h4)

/-! ## SplitGeneric -/

/-- C74: SplitGeneric's control flow and its accesses to slices depend on the number of bytes of the secret, on parts, threshold
and tags only. -/
theorem C74_splitGeneric_control_flow (s s' : List Byte) (hl : s.length = s'.length) (parts threshold : Int) (perm : List Nat)
    (hperm : perm.Perm (List.range 255)) (rnd rnd' : Nat → Byte) :
    (Leak.splitGeneric s parts threshold perm rnd).trace.map Ev.hide
      = (Leak.splitGeneric s' parts threshold perm rnd').trace.map Ev.hide := by
  by_cases hv : ValidArgs s parts threshold
  · obtain ⟨a, b, ha, hb⟩ := splitGeneric_runs hl hv hperm rnd rnd'
    exact (both_splitGeneric hl hv perm rnd rnd' a b ha hb).1
  · rw [splitGeneric_rejected hl hv perm rnd rnd']

/-- C74: what SplitGeneric shows is exactly all the random bytes it uses. -/
theorem C74_splitGeneric (s s' : List Byte) (hl : s.length = s'.length) (parts threshold : Int)
    (hv : ValidArgs s parts threshold) (perm : List Nat) (hperm : perm.Perm (List.range 255)) (rnd rnd' : Nat → Byte) :
    (Leak.splitGeneric s parts threshold perm rnd).trace = (Leak.splitGeneric s' parts threshold perm rnd').trace ↔
      ∀ i < (threshold.toNat - 1) * s.length, rnd i = rnd' i := by
  obtain ⟨a, b, ha, hb⟩ := splitGeneric_runs hl hv hperm rnd rnd'
  rw [(both_splitGeneric hl hv perm rnd rnd' a b ha hb).2.1]
  have h3 := hv.2.2.1
  have hd : 0 < threshold.toNat - 1 := by omega
  constructor
  · intro h i hi
    have := h (i / (threshold.toNat - 1)) (Nat.div_lt_of_lt_mul hi) (i % (threshold.toNat - 1)) (Nat.mod_lt _ hd)
    rwa [Nat.div_add_mod] at this
  · intro h j hj k hk
    refine h _ ?_
    calc (threshold.toNat - 1) * j + k < (threshold.toNat - 1) * j + (threshold.toNat - 1) := by omega
      _ = (threshold.toNat - 1) * (j + 1) := by ring
      _ ≤ (threshold.toNat - 1) * s.length := Nat.mul_le_mul_left _ hj

/-- C74: with the same random bytes, SplitGeneric shows the same for all secrets of a length. -/
theorem C74_splitGeneric_secret (s s' : List Byte) (hl : s.length = s'.length) (parts threshold : Int) (perm : List Nat)
    (hperm : perm.Perm (List.range 255)) (rnd : Nat → Byte) :
    (Leak.splitGeneric s parts threshold perm rnd).trace = (Leak.splitGeneric s' parts threshold perm rnd).trace := by
  by_cases hv : ValidArgs s parts threshold
  · exact (C74_splitGeneric s s' hl parts threshold hv perm hperm rnd rnd).2 fun _ _ => rfl
  · exact splitGeneric_rejected hl hv perm rnd rnd

/-- C74: what SplitGeneric shows and one share together determine the secret, whatever the threshold. -/
theorem C74_splitGeneric_leak (s s' : List Byte) (hl : s.length = s'.length) (parts threshold : Int) (perm : List Nat)
    (hperm : perm.Perm (List.range 255)) (rnd rnd' : Nat → Byte) (out out' : List (List Byte))
    (htr : (Leak.splitGeneric s parts threshold perm rnd).trace = (Leak.splitGeneric s' parts threshold perm rnd').trace)
    (h : (Leak.splitGeneric s parts threshold perm rnd).out = ok out)
    (h' : (Leak.splitGeneric s' parts threshold perm rnd').out = ok out') (i : Nat) (sh : List Byte)
    (hi : out[i]? = some sh) (hi' : out'[i]? = some sh) : s = s' := by
  rw [out_splitGeneric] at h h'
  have valid : ∀ {s : List Byte} {rnd : Nat → Byte} {o : List (List Byte)}, Shamir.splitGeneric s parts threshold perm rnd = ok o →
      ValidArgs s parts threshold := by
    intro s rnd o h
    cases he : argError s parts threshold with
    | none => exact argError_none.1 he
    | some e => rw [splitGeneric_invalid perm rnd he] at h; cases h
  have hv := valid h
  have hv' := valid h'
  have hk := (C74_splitGeneric s s' hl parts threshold hv perm hperm rnd rnd').1 htr
  rw [splitGeneric_valid perm rnd hv (parts_le hv hperm)] at h
  rw [splitGeneric_valid perm rnd' hv' (parts_le hv' hperm)] at h'
  have e := Outcome.ok.inj h
  have e' := Outcome.ok.inj h'
  rw [← e, List.getElem?_map] at hi
  rw [← e', List.getElem?_map] at hi'
  obtain ⟨x, hxi, rfl⟩ := Option.map_eq_some_iff.1 hi
  rw [hxi, Option.map_some, Option.some.injEq, shareOf_rowsF, shareOf_rowsF, ← hl] at hi'
  have hi' := (List.append_inj hi' (by simp)).1
  have ht : 2 ≤ threshold.toNat := by have := hv.2.2.1; omega
  apply List.ext_getElem hl
  intro j hj hj'
  have hb := List.map_inj_left.1 hi' j (List.mem_range.2 hj)
  have hb : (∑ k ∈ Finset.range threshold.toNat, (⟨genericCoeff s' (threshold.toNat - 1) rnd' j k⟩ : GF) * ⟨x⟩ ^ k)
      = ∑ k ∈ Finset.range threshold.toNat, (⟨genericCoeff s (threshold.toNat - 1) rnd j k⟩ : GF) * ⟨x⟩ ^ k :=
    congrArg (fun v => (⟨v⟩ : GF)) hb
  obtain ⟨t, et⟩ : ∃ t, threshold.toNat = t + 1 := ⟨threshold.toNat - 1, by omega⟩
  rw [et, Finset.sum_range_succ', Finset.sum_range_succ'] at hb
  have es : ∑ k ∈ Finset.range t, (⟨genericCoeff s' (t + 1 - 1) rnd' j (k + 1)⟩ : GF) * ⟨x⟩ ^ (k + 1)
      = ∑ k ∈ Finset.range t, (⟨genericCoeff s (t + 1 - 1) rnd j (k + 1)⟩ : GF) * ⟨x⟩ ^ (k + 1) := by
    refine Finset.sum_congr rfl fun k hk' => ?_
    have hkt := Finset.mem_range.1 hk'
    have : t * j + k < (threshold.toNat - 1) * s.length := by
      rw [et, Nat.add_sub_cancel]
      calc t * j + k < t * j + t := by omega
        _ = t * (j + 1) := by ring
        _ ≤ t * s.length := Nat.mul_le_mul_left _ hj
    simp only [genericCoeff, Nat.add_sub_cancel, Nat.succ_ne_zero, if_false]
    rw [hk _ this]
  rw [es] at hb
  have hb := add_left_cancel hb
  simp only [pow_zero, mul_one, genericCoeff, if_true] at hb
  have hb := congrArg GF.val hb
  simpa [List.getD_eq_getElem?_getD, List.getElem?_eq_getElem hj, List.getElem?_eq_getElem hj'] using hb.symm

/-! ## Regenerate -/

/-- C74: Regenerate's control flow and its accesses to slices depend on the lengths and tags of the parts, on the number of
new shares and on the random bytes only (whether or not the call is accepted, and ends). -/
theorem C74_regenerate_control_flow (fuel : Nat) (parts parts' : List (List Byte)) (hl : parts.map List.length = parts'.map List.length)
    (ht : parts.map tag = parts'.map tag) (n : Int) (rnd u : Nat → Byte) :
    (Leak.regenerate fuel parts n rnd u).trace.map Ev.hide = (Leak.regenerate fuel parts' n rnd u).trace.map Ev.hide := by
  by_cases h : ∃ s, Shamir.regenerate fuel parts n rnd u = ok s
  · obtain ⟨s, hs⟩ := h
    obtain ⟨s', hs'⟩ := regenerate_same_accept fuel hl ht n rnd u hs
    exact (both_regenerate fuel hl ht n rnd u hs hs' s s' (by simpa using hs) (by simpa using hs')).1
  · rw [regenerate_rejected fuel hl ht n rnd u (fun s hs => h ⟨s, hs⟩)]

/-- C74: but as soon as it makes a new share, which entries of the tables Regenerate reads shows the parts exactly. -/
theorem C74_regenerate (fuel : Nat) (parts parts' : List (List Byte)) (hl : parts.map List.length = parts'.map List.length)
    (ht : parts.map tag = parts'.map tag) (n : Int) (rnd u : Nat → Byte) (o : List (List Byte))
    (hs : Shamir.regenerate fuel parts n rnd u = ok o) :
    (Leak.regenerate fuel parts n rnd u).trace = (Leak.regenerate fuel parts' n rnd u).trace ↔ (0 < n → parts = parts') := by
  obtain ⟨s', hs'⟩ := regenerate_same_accept fuel hl ht n rnd u hs
  exact (both_regenerate fuel hl ht n rnd u hs hs' o s' (by simpa using hs) (by simpa using hs')).2.1

/-! ## Concrete cases -/

/-- Two histories on a processor without vector instructions: with threshold 3, 8-byte secrets are split twice.  What the second
calls show is the same only if bytes 1, 2, 4, 5 and 7 of the two first secrets are. -/
example (s1 s1' : List Byte) (hl : s1.length = 8) (hl' : s1'.length = 8) : ∃ out out' qs qs',
    Shamir.splitWithRandomizer .noasm 1 s1 5 3 ⟨fun i => BitVec.ofNat 8 (i * i + 9)⟩ (Shamir.Pools.init 4) = ok (out, qs) ∧
    Shamir.splitWithRandomizer .noasm 1 s1' 5 3 ⟨fun i => BitVec.ofNat 8 (i * i + 9)⟩ (Shamir.Pools.init 4) = ok (out', qs') ∧
    ((Leak.splitWithRandomizer .noasm 1 (List.replicate 8 0) 5 3 ⟨fun i => BitVec.ofNat 8 (i * i + 9)⟩ qs).trace
      = (Leak.splitWithRandomizer .noasm 1 (List.replicate 8 0) 5 3 ⟨fun i => BitVec.ofNat 8 (i * i + 9)⟩ qs').trace →
      s1[1]? = s1'[1]? ∧ s1[2]? = s1'[2]? ∧ s1[4]? = s1'[4]? ∧ s1[5]? = s1'[5]? ∧ s1[7]? = s1'[7]?) := by
  have hv : ∀ {s : List Byte}, s.length = 8 → ValidArgs s 5 3 := fun h => ⟨by decide, by decide, by decide, by rintro rfl; simp at h⟩
  have hx : (⟨fun i => BitVec.ofNat 8 (i * i + 9)⟩ : CSPRNG).getUniqueBytes 1 (BitVec.ofInt 8 5)
      = ok ((List.range 5).map fun i => BitVec.ofNat 8 (i * i + 9)) := getUnique_distinct (by decide) (by decide) 0
  obtain ⟨pp, e⟩ := splitWithRandomizer_payload .noasm 1 _ (Shamir.Pools.init 4) (hv hl) _ hx
  obtain ⟨pp', e'⟩ := splitWithRandomizer_payload .noasm 1 _ (Shamir.Pools.init 4) (hv hl') _ hx
  refine ⟨_, _, _, _, e, e', fun h => ?_⟩
  have key := (C74_splitWithRandomizer_history .noasm 1 1 s1 s1' (List.replicate 8 0) (List.replicate 8 0) (by omega) (by simp [hl])
    (by simp [hl]) 5 5 3 _ ⟨fun i => BitVec.ofNat 8 (i * i + 9)⟩ _ _ _ _ rfl (by decide) rfl (by decide) _ _ e e'
    (hv (by simp)) _ hx).2.1 h
  rw [hl] at key
  exact ⟨key 0 (by decide) 1 (by decide) (by decide) (by decide), key 0 (by decide) 2 (by decide) (by decide) (by decide),
    key 1 (by decide) 1 (by decide) (by decide) (by decide), key 1 (by decide) 2 (by decide) (by decide) (by decide),
    key 2 (by decide) 1 (by decide) (by decide) (by decide)⟩

/-- SplitGeneric on one-byte secrets: other random bytes show, the secret does not. -/
example : (Leak.splitGeneric [1#8] 3 2 (List.range 255) (fun _ => 5)).trace
      = (Leak.splitGeneric [9#8] 3 2 (List.range 255) (fun _ => 5)).trace ∧
    (Leak.splitGeneric [1#8] 3 2 (List.range 255) (fun _ => 5)).trace
      ≠ (Leak.splitGeneric [1#8] 3 2 (List.range 255) (fun _ => 6)).trace := by
  refine ⟨C74_splitGeneric_secret [1#8] [9#8] rfl 3 2 (List.range 255) (List.Perm.refl _) (fun _ => 5), fun h => ?_⟩
  have := (C74_splitGeneric [1#8] [1#8] rfl 3 2 (by decide) (List.range 255) (List.Perm.refl _) (fun _ => 5) (fun _ => 6)).1 h 0 (by decide)
  exact absurd this (by decide)

/-- Regenerate: same branches, other table entries. -/
example : (Leak.regenerate 1 [[4, 1], [1, 2]] 2 (fun i => [0, 3].getD i 0) (fun _ => 0)).trace.map Ev.hide
      = (Leak.regenerate 1 [[4, 1], [9, 2]] 2 (fun i => [0, 3].getD i 0) (fun _ => 0)).trace.map Ev.hide ∧
    (Leak.regenerate 1 [[4, 1], [1, 2]] 2 (fun i => [0, 3].getD i 0) (fun _ => 0)).trace
      ≠ (Leak.regenerate 1 [[4, 1], [9, 2]] 2 (fun i => [0, 3].getD i 0) (fun _ => 0)).trace := by
  refine ⟨C74_regenerate_control_flow 1 [[4, 1], [1, 2]] [[4, 1], [9, 2]] rfl rfl 2 (fun i => [0, 3].getD i 0) (fun _ => 0), fun h => ?_⟩
  have := (C74_regenerate 1 [[4, 1], [1, 2]] [[4, 1], [9, 2]] rfl rfl 2 (fun i => [0, 3].getD i 0) (fun _ => 0) _ ex_regen).1 h (by decide)
  exact absurd this (by decide)

end Verif.Props
