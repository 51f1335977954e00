import Verif.Proofs.LeakRest
import Verif.Props.LeakCalls
import Verif.Spec.SplitP

/-! # C74: what time and caches show, for SplitWithRandomizerOld and SplitP

As `Props/LeakCalls.lean`, for the last two ways to make shares.  `Verif/Model/LeakRest.lean` says what is observed. -/

namespace Verif.Props
open Verif Outcome Galois Spec Spec.Leak Proofs Verif.Leak Csprng

/-! ## SplitWithRandomizerOld -/

/-- C74: observing SplitWithRandomizerOld does not change what it does. -/
theorem C74_same_results_old (arch : Arch) (secret : List Byte) (parts threshold : Int) (r : CSPRNG) (ps : Shamir.Pools) :
    (Leak.splitWithRandomizerOld arch secret parts threshold r ps).out
      = Shamir.splitWithRandomizerOld arch secret parts threshold r ps :=
  out_splitWithRandomizerOld ..

theorem perm_tags {r : CSPRNG} {xs : List Byte} (hx : r.perm 255#8 = ok xs) : xs.length = 255 ∧ xs.Nodup := by
  have hxs : xs.Perm (identBytes 255) := by
    rcases perm_cases r 255#8 with ⟨h1, -⟩ | ⟨⟨l, h1, h2⟩, -⟩
    · rw [h1] at hx; cases hx
    · rw [h1] at hx; cases hx; exact h2
  exact ⟨by simpa using hxs.length_eq, hxs.nodup_iff.2 (identBytes_nodup (by omega))⟩

theorem splitOld_runs (arch : Arch) {s s' : List Byte} (hl : s.length = s'.length) {parts threshold : Int}
    (hv : ValidArgs s parts threshold) {r r' : CSPRNG} {xs : List Byte} (hx : r.perm 255#8 = ok xs)
    (hx' : r'.perm 255#8 = ok xs) (ps ps' : Shamir.Pools) :
    ∃ a b, (Leak.splitWithRandomizerOld arch s parts threshold r ps).out = ok a ∧
      (Leak.splitWithRandomizerOld arch s' parts threshold r' ps').out = ok b := by
  have hv' : ValidArgs s' parts threshold := ⟨hv.1, hv.2.1, hv.2.2.1, fun h => hv.2.2.2 (List.length_eq_zero_iff.1 (by rw [hl, h]; rfl))⟩
  have := hv.2.1
  have hlen := (perm_tags hx).1
  obtain ⟨pp, e⟩ := splitOld_valid arch r ps hv xs hx (by omega)
  obtain ⟨pp', e'⟩ := splitOld_valid arch r' ps' hv' xs hx' (by omega)
  rw [out_splitWithRandomizerOld, out_splitWithRandomizerOld, e, e']
  exact ⟨_, _, rfl, rfl⟩

/-- C74: SplitWithRandomizerOld's control flow and its accesses to slices depend on the number of bytes of the secret, on
parts, threshold and tags only. -/
theorem C74_splitWithRandomizerOld_control_flow (arch : Arch) (s s' : List Byte) (hl : s.length = s'.length)
    (parts threshold : Int) (r r' : CSPRNG) (hx : r.perm 255#8 = r'.perm 255#8) (ps ps' : Shamir.Pools) :
    (Leak.splitWithRandomizerOld arch s parts threshold r ps).trace.map Ev.hide
      = (Leak.splitWithRandomizerOld arch s' parts threshold r' ps').trace.map Ev.hide := by
  by_cases hv : ValidArgs s parts threshold
  · by_cases h : ∃ xs, r.perm 255#8 = ok xs
    · obtain ⟨xs, h⟩ := h
      obtain ⟨a, b, ha, hb⟩ := splitOld_runs arch hl hv h (hx ▸ h) ps ps'
      exact (both_splitOld arch hl hv h (hx ▸ h) ps ps' a b ha hb).1
    · rw [splitOld_traceNoTags arch hl hv (r := r) (r' := r') ps ps' (fun xs e => h ⟨xs, e⟩)
        (fun xs e => h ⟨xs, hx.trans e⟩)]
  · rw [splitOld_rejected arch hl hv r r' ps ps']

/-- C74: what SplitWithRandomizerOld shows is exactly the key stream at the positions that are looked up. -/
theorem C74_splitWithRandomizerOld (arch : Arch) (s s' : List Byte) (hl : s.length = s'.length) (parts threshold : Int)
    (hv : ValidArgs s parts threshold) (r r' : CSPRNG) (xs : List Byte) (hx : r.perm 255#8 = ok xs)
    (hx' : r'.perm 255#8 = ok xs) (ps ps' : Shamir.Pools) :
    (Leak.splitWithRandomizerOld arch s parts threshold r ps).trace
        = (Leak.splitWithRandomizerOld arch s' parts threshold r' ps').trace ↔
      ∀ j, lookupsFrom arch s.length ≤ j → j < s.length → ∀ k, 1 ≤ k → k < threshold.toNat →
        r.ks (threshold.toNat * j + k) = r'.ks (threshold.toNat * j + k) := by
  obtain ⟨a, b, ha, hb⟩ := splitOld_runs arch hl hv hx hx' ps ps'
  rw [(both_splitOld arch hl hv hx hx' ps ps' a b ha hb).2.1]
  obtain ⟨hlen, hnd⟩ := perm_tags hx
  have h1 := hv.1
  have h3 := hv.2.2.1
  obtain ⟨i, hi, hne⟩ : ∃ i < parts.toNat, xs.getD i 0 + 1#8 ≠ 1 := by
    by_contra hne
    push Not at hne
    have e0 := hne 0 (by omega)
    have e1 := hne 1 (by omega)
    match xs, hlen, hnd, e0, e1 with
    | [], hl, _, _, _ => simp at hl
    | [_], hl, _, _, _ => simp at hl
    | a :: b :: _, _, hnd, e0, e1 =>
      simp at hnd e0 e1
      rw [e0, e1] at hnd
      exact hnd.1.1 rfl
  constructor
  · intro h j h1 h2 k h3 h4
    exact h i hi (Or.inl hne) j h1 h2 k h3 (by omega)
  · intro h i _ _ j h1 h2 k h3 h4
    exact h j h1 h2 k h3 (by omega)

/-- C74: with the same randomizer, SplitWithRandomizerOld shows the same for all secrets of a length, and whatever the pools hold:
unlike SplitWithRandomizer, it never shows an earlier secret. -/
theorem C74_splitWithRandomizerOld_secret (arch : Arch) (s s' : List Byte) (hl : s.length = s'.length) (parts threshold : Int)
    (r : CSPRNG) (ps ps' : Shamir.Pools) :
    (Leak.splitWithRandomizerOld arch s parts threshold r ps).trace
      = (Leak.splitWithRandomizerOld arch s' parts threshold r ps').trace := by
  by_cases hv : ValidArgs s parts threshold
  · by_cases h : ∃ xs, r.perm 255#8 = ok xs
    · obtain ⟨xs, h⟩ := h
      exact (C74_splitWithRandomizerOld arch s s' hl parts threshold hv r r xs h h ps ps').2 fun _ _ _ _ _ _ => rfl
    · exact splitOld_traceNoTags arch hl hv ps ps' (fun xs e => h ⟨xs, e⟩) (fun xs e => h ⟨xs, e⟩)
  · exact splitOld_rejected arch hl hv r r ps ps'

/-- C74: what SplitWithRandomizerOld shows and one share together determine the looked up bytes of the secret, whatever the threshold. -/
theorem C74_splitWithRandomizerOld_leak (arch : Arch) (s s' : List Byte) (hl : s.length = s'.length) (parts threshold : Int)
    (r r' : CSPRNG) (hx : r.perm 255#8 = r'.perm 255#8) (ps ps' qs qs' : Shamir.Pools) (out out' : List (List Byte))
    (htr : (Leak.splitWithRandomizerOld arch s parts threshold r ps).trace
      = (Leak.splitWithRandomizerOld arch s' parts threshold r' ps').trace)
    (h : (Leak.splitWithRandomizerOld arch s parts threshold r ps).out = ok (out, qs))
    (h' : (Leak.splitWithRandomizerOld arch s' parts threshold r' ps').out = ok (out', qs'))
    (i j : Nat) (sh sh' : List Byte) (hi : out[i]? = some sh) (hi' : out'[i]? = some sh')
    (h1 : lookupsFrom arch s.length ≤ j) (h2 : j < s.length) (hb : sh[j]? = sh'[j]?) : s[j]? = s'[j]? := by
  rw [out_splitWithRandomizerOld] at h h'
  obtain ⟨hv, -⟩ := splitOld_ok arch h
  obtain ⟨hv', -⟩ := splitOld_ok arch h'
  obtain ⟨xs, hxs⟩ : ∃ xs, r.perm 255#8 = ok xs := by
    cases he : r.perm 255#8 with
    | ok xs => exact ⟨xs, rfl⟩
    | _ => rw [splitOld_noTags arch r ps hv he (by simp)] at h; cases h
  have hxs' := hx.symm.trans hxs
  have hk := (C74_splitWithRandomizerOld arch s s' hl parts threshold hv r r' xs hxs hxs' ps ps').1 htr j h1 h2
  have := hv.2.1
  have hlen := (perm_tags hxs).1
  obtain ⟨pp, e⟩ := splitOld_valid arch r ps hv xs hxs (by omega)
  obtain ⟨pp', e'⟩ := splitOld_valid arch r' ps' hv' xs hxs' (by omega)
  rw [h] at e
  rw [h'] at e'
  have e := (Prod.mk.inj (Outcome.ok.inj e)).1
  have e' := (Prod.mk.inj (Outcome.ok.inj e')).1
  rw [e, List.getElem?_map] at hi
  rw [e', List.getElem?_map] at hi'
  obtain ⟨x, hxi, rfl⟩ := Option.map_eq_some_iff.1 hi
  rw [hxi, Option.map_some, Option.some.injEq] at hi'
  subst hi'
  have h2' : j < s'.length := hl ▸ h2
  rw [shareOf_rowsF, shareOf_rowsF, List.getElem?_append_left (by simpa using h2), List.getElem?_append_left (by simpa using h2'),
    List.getElem?_map, List.getElem?_map, List.getElem?_range h2, List.getElem?_range h2'] at hb
  have hb : (∑ k ∈ Finset.range threshold.toNat, (⟨oldCoeff s threshold.toNat r j k⟩ : GF) * ⟨x⟩ ^ k)
      = ∑ k ∈ Finset.range threshold.toNat, (⟨oldCoeff s' threshold.toNat r' j k⟩ : GF) * ⟨x⟩ ^ k :=
    congrArg (fun v => (⟨v⟩ : GF)) (Option.some.inj hb)
  have ht : 2 ≤ threshold.toNat := by have := hv.2.2.1; omega
  obtain ⟨t, et⟩ : ∃ t, threshold.toNat = t + 1 := ⟨threshold.toNat - 1, by omega⟩
  rw [et, Finset.sum_range_succ', Finset.sum_range_succ'] at hb
  have es : ∑ k ∈ Finset.range t, (⟨oldCoeff s (t + 1) r j (k + 1)⟩ : GF) * ⟨x⟩ ^ (k + 1)
      = ∑ k ∈ Finset.range t, (⟨oldCoeff s' (t + 1) r' j (k + 1)⟩ : GF) * ⟨x⟩ ^ (k + 1) := by
    refine Finset.sum_congr rfl fun k hk' => ?_
    have hkt := Finset.mem_range.1 hk'
    simp only [oldCoeff, Nat.succ_ne_zero, if_false]
    rw [← et, hk (k + 1) (by omega) (by omega)]
  rw [es] at hb
  have hb := add_left_cancel hb
  simp only [pow_zero, mul_one, oldCoeff, if_true] at hb
  have hb := congrArg GF.val hb
  simpa [List.getD_eq_getElem?_getD, List.getElem?_eq_getElem h2, List.getElem?_eq_getElem h2'] using hb

/-! ## The goroutines of SplitP -/

/-- Chunk `j` of the secret, the bytes one goroutine of SplitP is given. -/
def pieceP (secret : List Byte) (j : Nat) : List Byte := (secret.drop (1024 * j)).take 1024

theorem getD_pieceP {secret : List Byte} {j k : Nat} (h : k < (pieceP secret j).length) :
    (pieceP secret j).getD k 0 = secret.getD (1024 * j + k) 0 := by
  have hk : k < 1024 := by unfold pieceP at h; simp at h; omega
  unfold pieceP
  rw [List.getD_eq_getElem?_getD, List.getElem?_take_of_lt hk, List.getElem?_drop, ← List.getD_eq_getElem?_getD]

/-- C74: observing a goroutine of SplitP does not change what it does: the goroutine for chunk `j` fills in, in every share, the bytes of
that chunk, as `splitPShare` (what SplitP returns, C11) says, and leaves the others as they are. -/
theorem C74_same_results_splitP (secret : List Byte) (hs : secret.length < 2 ^ 32) (parts threshold : Int)
    (hv : ValidArgs secret parts threshold) (perm : List Nat) (hperm : perm.Perm (List.range 255)) (draws : Nat → List Byte)
    (j : Nat) (hj : 1024 * j < secret.length) (out : List (List Byte)) (ho : out.length = parts.toNat)
    (hr : ∀ i < parts.toNat, (out.getD i []).length = secret.length + 1) :
    ∃ out', (Leak.splitPGoroutine (pieceP secret j) parts threshold perm (fun k => (draws j).getD k 0) (1024 * j) out).out = ok out' ∧
      out'.length = parts.toNat ∧ ∀ i < parts.toNat, (out'.getD i []).length = secret.length + 1 ∧
        ∀ p, (out'.getD i []).getD p 0 = if p / 1024 = j ∧ p < secret.length
          then (splitPShare secret threshold.toNat draws (BitVec.ofNat 8 (perm.getD i 0) + 1#8)).getD p 0
          else (out.getD i []).getD p 0 := by
  have hc : (pieceP secret j).length = min 1024 (secret.length - 1024 * j) := by simp [pieceP]
  obtain ⟨o, e, h1, h2⟩ := splitPGoroutine_ok (pieceP secret j) hv.2.2.1 hv.1 hv.2.1 hperm (fun k => (draws j).getD k 0) (1024 * j) ho hr
    (by rw [hc]; omega)
  refine ⟨o, e, h1, fun i hi => ⟨(h2 i hi).1, fun p => ?_⟩⟩
  rw [(h2 i hi).2 p]
  by_cases hp : p / 1024 = j ∧ p < secret.length
  · have hin : 1024 * j ≤ p ∧ p < 1024 * j + (pieceP secret j).length := by rw [hc]; omega
    have ep : 1024 * j + (p - 1024 * j) = p := by omega
    have em : p - 1024 * j = p % 1024 := by omega
    rw [if_pos hp, if_pos hin, getD_pieceP (by omega), ep, em]
    unfold splitPShare
    conv_rhs => rw [List.getD_eq_getElem?_getD, List.getElem?_append_left (by simpa using hp.2), List.getElem?_map, List.getElem?_range hp.2]
    simp only [Option.map_some, Option.getD_some]
    rw [if_pos (by rw [Nat.mod_eq_of_lt hs]; exact hp.2)]
    unfold splitPCoeffs
    rw [hp.1]
  · rw [if_neg hp, if_neg (by rw [hc]; omega)]

theorem splitP_runs {vs vs' : List Byte} (hl : vs.length = vs'.length) {parts threshold : Int} (h1 : 2 ≤ threshold) (h2 : threshold ≤ parts)
    (h3 : parts ≤ 255) {perm : List Nat} (hperm : perm.Perm (List.range 255)) (rnd rnd' : Nat → Byte) (start : Nat)
    {out out' : List (List Byte)} {L : Nat} (hL : start + vs.length ≤ L)
    (ho : out.length = parts.toNat) (hr : ∀ i < parts.toNat, (out.getD i []).length = L)
    (ho' : out'.length = parts.toNat) (hr' : ∀ i < parts.toNat, (out'.getD i []).length = L) :
    ∃ a b, (Leak.splitPGoroutine vs parts threshold perm rnd start out).out = ok a ∧
      (Leak.splitPGoroutine vs' parts threshold perm rnd' start out').out = ok b := by
  obtain ⟨a, ha, -⟩ := splitPGoroutine_ok vs h1 h2 h3 hperm rnd start ho hr hL
  obtain ⟨b, hb, -⟩ := splitPGoroutine_ok vs' h1 h2 h3 hperm rnd' start ho' hr' (by omega)
  exact ⟨a, b, ha, hb⟩

/-- C74: the control flow of a goroutine of SplitP and its accesses to slices depend on the number of bytes it is given, where they are in
the secret, on parts, threshold and tags only. -/
theorem C74_splitP_control_flow (vs vs' : List Byte) (hl : vs.length = vs'.length) (parts threshold : Int) (h1 : 2 ≤ threshold)
    (h2 : threshold ≤ parts) (h3 : parts ≤ 255) (perm : List Nat) (hperm : perm.Perm (List.range 255)) (rnd rnd' : Nat → Byte)
    (start L : Nat) (hL : start + vs.length ≤ L) (out out' : List (List Byte))
    (ho : out.length = parts.toNat) (hr : ∀ i < parts.toNat, (out.getD i []).length = L)
    (ho' : out'.length = parts.toNat) (hr' : ∀ i < parts.toNat, (out'.getD i []).length = L) :
    (Leak.splitPGoroutine vs parts threshold perm rnd start out).trace.map Ev.hide
      = (Leak.splitPGoroutine vs' parts threshold perm rnd' start out').trace.map Ev.hide := by
  obtain ⟨a, b, ha, hb⟩ := splitP_runs hl h1 h2 h3 hperm rnd rnd' start hL ho hr ho' hr'
  exact (both_splitPGoroutine hl h1 h2 h3 hperm rnd rnd' start out out' a b ha hb).1

/-- C74: what a goroutine of SplitP shows is exactly the random bytes it draws; nothing about the bytes of the shares that other
goroutines fill in. -/
theorem C74_splitP (vs vs' : List Byte) (hl : vs.length = vs'.length) (parts threshold : Int) (h1 : 2 ≤ threshold)
    (h2 : threshold ≤ parts) (h3 : parts ≤ 255) (perm : List Nat) (hperm : perm.Perm (List.range 255)) (rnd rnd' : Nat → Byte)
    (start L : Nat) (hL : start + vs.length ≤ L) (out out' : List (List Byte))
    (ho : out.length = parts.toNat) (hr : ∀ i < parts.toNat, (out.getD i []).length = L)
    (ho' : out'.length = parts.toNat) (hr' : ∀ i < parts.toNat, (out'.getD i []).length = L) :
    (Leak.splitPGoroutine vs parts threshold perm rnd start out).trace
        = (Leak.splitPGoroutine vs' parts threshold perm rnd' start out').trace ↔
      ∀ i < (threshold.toNat - 1) * vs.length, rnd i = rnd' i := by
  obtain ⟨a, b, ha, hb⟩ := splitP_runs hl h1 h2 h3 hperm rnd rnd' start hL ho hr ho' hr'
  rw [(both_splitPGoroutine hl h1 h2 h3 hperm rnd rnd' start out out' a b ha hb).2.1]
  have hd : 0 < threshold.toNat - 1 := by omega
  constructor
  · intro h i hi
    have := h (i / (threshold.toNat - 1)) (Nat.div_lt_of_lt_mul hi) (i % (threshold.toNat - 1)) (Nat.mod_lt _ hd)
    rwa [Nat.div_add_mod'] at this
  · intro h j hj k hk
    refine h _ ?_
    calc j * (threshold.toNat - 1) + k < j * (threshold.toNat - 1) + (threshold.toNat - 1) := by omega
      _ = (threshold.toNat - 1) * (j + 1) := by ring
      _ ≤ (threshold.toNat - 1) * vs.length := Nat.mul_le_mul_left _ hj

/-- C74: with the same random bytes, a goroutine of SplitP shows the same for all secrets of a length. -/
theorem C74_splitP_secret (vs vs' : List Byte) (hl : vs.length = vs'.length) (parts threshold : Int) (h1 : 2 ≤ threshold)
    (h2 : threshold ≤ parts) (h3 : parts ≤ 255) (perm : List Nat) (hperm : perm.Perm (List.range 255)) (rnd : Nat → Byte)
    (start L : Nat) (hL : start + vs.length ≤ L) (out out' : List (List Byte))
    (ho : out.length = parts.toNat) (hr : ∀ i < parts.toNat, (out.getD i []).length = L)
    (ho' : out'.length = parts.toNat) (hr' : ∀ i < parts.toNat, (out'.getD i []).length = L) :
    (Leak.splitPGoroutine vs parts threshold perm rnd start out).trace
      = (Leak.splitPGoroutine vs' parts threshold perm rnd start out').trace :=
  (C74_splitP vs vs' hl parts threshold h1 h2 h3 perm hperm rnd rnd start L hL out out' ho hr ho' hr').2 fun _ _ => rfl

/-- C74: what a goroutine of SplitP shows and its bytes of one share together determine the bytes it is given, whatever the threshold. -/
theorem C74_splitP_leak (vs vs' : List Byte) (hl : vs.length = vs'.length) (parts threshold : Int) (h1 : 2 ≤ threshold)
    (h2 : threshold ≤ parts) (h3 : parts ≤ 255) (perm : List Nat) (hperm : perm.Perm (List.range 255)) (rnd rnd' : Nat → Byte)
    (start L : Nat) (hL : start + vs.length ≤ L) (out out' res res' : List (List Byte))
    (ho : out.length = parts.toNat) (hr : ∀ i < parts.toNat, (out.getD i []).length = L)
    (ho' : out'.length = parts.toNat) (hr' : ∀ i < parts.toNat, (out'.getD i []).length = L)
    (htr : (Leak.splitPGoroutine vs parts threshold perm rnd start out).trace
      = (Leak.splitPGoroutine vs' parts threshold perm rnd' start out').trace)
    (h : (Leak.splitPGoroutine vs parts threshold perm rnd start out).out = ok res)
    (h' : (Leak.splitPGoroutine vs' parts threshold perm rnd' start out').out = ok res')
    (i : Nat) (hi : i < parts.toNat) (k : Nat) (hk : k < vs.length)
    (hb : (res.getD i []).getD (start + k) 0 = (res'.getD i []).getD (start + k) 0) : vs.getD k 0 = vs'.getD k 0 := by
  have hrn := (C74_splitP vs vs' hl parts threshold h1 h2 h3 perm hperm rnd rnd' start L hL out out' ho hr ho' hr').1 htr
  obtain ⟨a, ha, -, e⟩ := splitPGoroutine_ok vs h1 h2 h3 hperm rnd start ho hr hL
  obtain ⟨b, hb', -, e'⟩ := splitPGoroutine_ok vs' h1 h2 h3 hperm rnd' start ho' hr' (by omega)
  rw [h] at ha
  rw [h'] at hb'
  cases ha; cases hb'
  rw [(e i hi).2, (e' i hi).2, if_pos (by omega), if_pos (by omega), Nat.add_sub_cancel_left] at hb
  have es : (List.range (threshold.toNat - 1)).map (fun q => rnd (k * (threshold.toNat - 1) + q))
      = (List.range (threshold.toNat - 1)).map (fun q => rnd' (k * (threshold.toNat - 1) + q)) := by
    refine List.map_congr_left fun q hq => hrn _ ?_
    have hq := List.mem_range.1 hq
    calc k * (threshold.toNat - 1) + q < k * (threshold.toNat - 1) + (threshold.toNat - 1) := by omega
      _ = (threshold.toNat - 1) * (k + 1) := by ring
      _ ≤ (threshold.toNat - 1) * vs.length := Nat.mul_le_mul_left _ hk
  rw [es, evalC_eq, evalC_eq] at hb
  have hb := congrArg (fun v => (⟨v⟩ : GF)) hb
  simp only [List.length_cons, List.length_map, List.length_range] at hb
  rw [Finset.sum_range_succ', Finset.sum_range_succ'] at hb
  have hb := add_left_cancel (G := GF) hb
  simp only [pow_zero, mul_one, List.getD_cons_zero] at hb
  exact congrArg GF.val hb

/-! ## Concrete cases -/

theorem perm_of_ks {r r' : CSPRNG} (h : ∀ i < 255, r.ks i = r'.ks i) : r.perm 255#8 = r'.perm 255#8 := by
  have e : (List.range (255#8).toNat).map r.ks = (List.range (255#8).toNat).map r'.ks :=
    List.map_congr_left fun i hi => h i (by simpa using hi)
  rw [perm_unfold, perm_unfold]
  unfold permBody
  rw [e]

/-- Two randomizers whose key streams differ in byte 301 only. -/
def ksA : CSPRNG := ⟨fun _ => 0⟩
def ksB : CSPRNG := ⟨fun i => if i = 301 then 1 else 0⟩

/-- Secrets of 200 bytes: without vector instructions the key stream shows, with SSSE3 instructions byte 150 (inside the bytes done with
vectors) does not; the secret never does. -/
example (s s' : List Byte) (hs : s.length = 200) (hs' : s'.length = 200) :
    (∃ a, (Leak.splitWithRandomizerOld .noasm s 5 2 ksA (Shamir.Pools.init 4)).out = ok a) ∧
    (Leak.splitWithRandomizerOld .noasm s 5 2 ksA (Shamir.Pools.init 4)).trace
      = (Leak.splitWithRandomizerOld .noasm s' 5 2 ksA (Shamir.Pools.init 1)).trace ∧
    (Leak.splitWithRandomizerOld .noasm s 5 2 ksA (Shamir.Pools.init 4)).trace
      ≠ (Leak.splitWithRandomizerOld .noasm s 5 2 ksB (Shamir.Pools.init 4)).trace ∧
    (Leak.splitWithRandomizerOld (.amd64 ⟨true, true, false⟩) s 5 2 ksA (Shamir.Pools.init 4)).trace
      = (Leak.splitWithRandomizerOld (.amd64 ⟨true, true, false⟩) s 5 2 ksB (Shamir.Pools.init 4)).trace := by
  have hv : ValidArgs s 5 2 := ⟨by decide, by decide, by decide, by rintro rfl; simp at hs⟩
  obtain ⟨xs, hx⟩ : ∃ xs, ksA.perm 255#8 = ok xs := by
    rcases perm_cases ksA 255#8 with ⟨-, h⟩ | ⟨⟨l, h, -⟩, -⟩
    · exact absurd h (by decide)
    · exact ⟨l, h⟩
  have hx' : ksB.perm 255#8 = ok xs := by
    rw [← hx]
    refine perm_of_ks fun i hi => ?_
    have : i ≠ 301 := by omega
    simp [ksA, ksB, this]
  refine ⟨?_, C74_splitWithRandomizerOld_secret .noasm s s' (by omega) 5 2 ksA _ _, fun h => ?_, ?_⟩
  · obtain ⟨a, -, ha, -⟩ := splitOld_runs .noasm rfl hv hx hx (Shamir.Pools.init 4) (Shamir.Pools.init 4)
    exact ⟨a, ha⟩
  · have := (C74_splitWithRandomizerOld .noasm s s rfl 5 2 hv ksA ksB xs hx hx' _ _).1 h 150 (Nat.zero_le _) (by omega) 1 (by decide) (by decide)
    exact absurd this (by decide)
  · refine (C74_splitWithRandomizerOld (.amd64 ⟨true, true, false⟩) s s rfl 5 2 hv ksA ksB xs hx hx' _ _).2 fun j h1 h2 k h3 h4 => ?_
    have h4 : k < 2 := h4
    have e : k = 1 := by omega
    subst e
    have hlk : lookupsFrom (.amd64 ⟨true, true, false⟩) s.length = 192 := by rw [hs]; decide
    have : ¬ 2 * j = 300 := by omega
    simp [ksA, ksB, this]

/-- One goroutine of SplitP: two bytes for three shares, of which other goroutines have filled in other bytes. -/
example : (Leak.splitPGoroutine [1#8, 2] 3 2 (List.range 255) (fun _ => 5) 0 (List.replicate 3 [0, 0, 0])).trace
      = (Leak.splitPGoroutine [9#8, 7] 3 2 (List.range 255) (fun _ => 5) 0 (List.replicate 3 [0, 0, 4])).trace ∧
    (Leak.splitPGoroutine [1#8, 2] 3 2 (List.range 255) (fun _ => 5) 0 (List.replicate 3 [0, 0, 0])).trace
      ≠ (Leak.splitPGoroutine [1#8, 2] 3 2 (List.range 255) (fun i => if i = 1 then 6 else 5) 0 (List.replicate 3 [0, 0, 0])).trace := by
  refine ⟨C74_splitP_secret [1#8, 2] [9#8, 7] rfl 3 2 (by decide) (by decide) (by decide) (List.range 255) (List.Perm.refl _) _ 0 3 (by decide)
    _ _ rfl (by decide) rfl (by decide), fun h => ?_⟩
  have := (C74_splitP [1#8, 2] [1#8, 2] rfl 3 2 (by decide) (by decide) (by decide) (List.range 255) (List.Perm.refl _) _ _ 0 3 (by decide)
    _ _ rfl (by decide) rfl (by decide)).1 h 1 (by decide)
  exact absurd this (by decide)

/-- The result of that goroutine. -/
example : ∃ out', (Leak.splitPGoroutine (pieceP [1#8, 2] 0) 3 2 (List.range 255) (fun k => [5#8, 5].getD k 0) (1024 * 0)
    (List.replicate 3 [0, 0, 0])).out = ok out' ∧ out'.length = 3 := by
  obtain ⟨o, h, hl, -⟩ := C74_same_results_splitP [1, 2] (by decide) 3 2 (by decide) (List.range 255) (List.Perm.refl _) (fun _ => [5, 5]) 0
    (by decide) (List.replicate 3 [0, 0, 0]) rfl (by decide)
  exact ⟨o, h, hl⟩

end Verif.Props
