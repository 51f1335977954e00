import Verif.Proofs.LeakCombine
import Verif.Proofs.LeakAsm
import Verif.Proofs.SecrecySplit

/-! # C74: remaining lemmas -/

namespace Verif.Proofs.Leak
open Verif Asm Outcome Spec.Leak

theorem trace_ret {code : Code} : ∀ (fuel b : Nat) (s s' : State), run code fuel b s = ok s' →
    (trace code fuel b s).getLast? = some .ret
  | 0, _, _, _, h => by cases h
  | fuel + 1, b, s, s', h => by
    unfold run at h
    unfold trace
    cases hb : code[b]? with
    | none => simp only [hb] at h; cases h
    | some blk =>
      simp only [hb] at h ⊢
      obtain ⟨s1, h1, h2⟩ := bind_eq_ok.1 h
      rw [h1]
      simp only at h2 ⊢
      cases ht : blk.term with
      | ret => simp [List.getLast?_cons]
      | jmp t =>
        simp only [ht] at h2 ⊢
        have := trace_ret fuel t s1 s' h2
        rw [List.getLast?_cons, List.getLast?_append, this]; rfl
      | jcc c t n =>
        simp only [ht] at h2 ⊢
        have := trace_ret fuel _ s1 s' h2
        rw [List.getLast?_cons, List.getLast?_append, this]; rfl

theorem callTrace_ret {code : Code} {fuel : Nat} {init : State} {xs : List Arg} {dst : Arg} {r : List Byte}
    (h : call code fuel init xs dst = ok r) : (callTrace code fuel init xs dst).getLast? = some .ret := by
  obtain ⟨s, hs, -⟩ := bind_eq_ok.1 h
  exact trace_ret fuel 0 _ s hs

end Verif.Proofs.Leak

namespace Verif.Leak
open Verif Outcome Galois Pool Proofs Spec Spec.Leak

theorem split_rejected (arch : Arch) {s s' : List Byte} (hl : s.length = s'.length) {parts threshold : Int}
    (hv : ¬ ValidArgs s parts threshold) (perm : List Nat) (rnd rnd' : Nat → Byte) (ps ps' : Shamir.Pools) :
    (split arch s parts threshold perm rnd ps).trace = (split arch s' parts threshold perm rnd' ps').trace := by
  have htr : ∀ {α β : Type} (x : Traced α) (f : α → Traced β) (a : α), x.out = ok a → (x >>= f).trace = x.trace ++ (f a).trace :=
    fun x f a h => trace_bind x f h
  have hfail : ∀ {β γ : Type} (e : Err) (f : γ → Traced β), ((quiet (err e) : Traced γ) >>= f).trace = [] := fun e f => rfl
  unfold split
  rw [htr _ _ _ (out_test _), htr _ _ _ (out_test _)]
  congr 1
  by_cases h1 : parts < threshold
  · simp only [h1, decide_true, if_true, hfail]
  simp only [h1, decide_false, Bool.false_eq_true, if_false]
  rw [htr _ _ _ (out_test _), htr _ _ _ (out_test _)]
  congr 1
  by_cases h2 : parts > 255
  · simp only [h2, decide_true, if_true, hfail]
  simp only [h2, decide_false, Bool.false_eq_true, if_false]
  rw [htr _ _ _ (out_test _), htr _ _ _ (out_test _)]
  congr 1
  by_cases h3 : threshold < 2
  · simp only [h3, decide_true, if_true, hfail]
  simp only [h3, decide_false, Bool.false_eq_true, if_false]
  rw [htr _ _ _ (out_test _), htr _ _ _ (out_test _)]
  congr 1
  by_cases h4 : threshold > 255
  · simp only [h4, decide_true, if_true, hfail]
  simp only [h4, decide_false, Bool.false_eq_true, if_false]
  rw [htr _ _ _ (out_test _), htr _ _ _ (out_test _)]
  have h5 : s.length = 0 := by
    by_contra h
    exact hv ⟨by omega, by omega, by omega, fun h' => h (by simp [h'])⟩
  have h5' : s'.length = 0 := by omega
  simp only [test, h5, h5', decide_true, if_true, hfail]

theorem split_ok_valid {arch : Arch} {s : List Byte} {parts threshold : Int} {perm : List Nat} {rnd : Nat → Byte}
    {ps : Shamir.Pools} {r : List (List Byte) × Shamir.Pools} (h : Shamir.split arch s parts threshold perm rnd ps = ok r) :
    ValidArgs s parts threshold := by
  cases he : argError s parts threshold with
  | none => exact argError_none.1 he
  | some e => rw [split_invalid arch perm rnd ps he] at h; cases h

theorem parts_le {s : List Byte} {parts threshold : Int} (hv : ValidArgs s parts threshold) {perm : List Nat}
    (hperm : perm.Perm (List.range 255)) : parts.toNat ≤ perm.length := by
  have := hv.2.1
  rw [hperm.length_eq, List.length_range]; omega

theorem split_runs (arch : Arch) {s s' : List Byte} (hl : s.length = s'.length) {parts threshold : Int}
    (hv : ValidArgs s parts threshold) {perm : List Nat} (hperm : perm.Perm (List.range 255)) (rnd rnd' : Nat → Byte)
    (ps ps' : Shamir.Pools) :
    ∃ a b, (split arch s parts threshold perm rnd ps).out = ok a ∧ (split arch s' parts threshold perm rnd' ps').out = ok b := by
  have hv' : ValidArgs s' parts threshold := ⟨hv.1, hv.2.1, hv.2.2.1, fun h => hv.2.2.2 (List.length_eq_zero_iff.1 (by rw [hl, h]; rfl))⟩
  rw [out_split, out_split, split_pools arch perm rnd ps hv (parts_le hv hperm),
    split_pools arch perm rnd' ps' hv' (parts_le hv' hperm)]
  exact ⟨_, _, rfl, rfl⟩

theorem some_tag_ne_one {s : List Byte} {parts threshold : Int} (hv : ValidArgs s parts threshold) {perm : List Nat}
    (hperm : perm.Perm (List.range 255)) : ∃ i < parts.toNat, (perm.map (BitVec.ofNat 8)).getD i 0 + 1#8 ≠ 1 := by
  have hp := parts_le hv hperm
  have h2 : 2 ≤ parts.toNat := by have := hv.1; have := hv.2.2.1; omega
  obtain ⟨hnd, -⟩ := splitTags_facts hperm 2
  by_contra hne
  push Not at hne
  have e0 := hne 0 (by omega)
  have e1 := hne 1 (by omega)
  match perm, hp, hnd, e0, e1 with
  | [], hp, _, _, _ => simp at hp; omega
  | [_], hp, _, _, _ => simp at hp; omega
  | a :: b :: _, _, hnd, e0, e1 =>
    simp at hnd e0 e1
    rw [e0, e1] at hnd
    exact hnd rfl

theorem share_determines {arch : Arch} {s s' : List Byte} (hl : s.length = s'.length) {parts threshold : Int}
    (hv : ValidArgs s parts threshold) {perm : List Nat} (hperm : perm.Perm (List.range 255)) {rnd rnd' : Nat → Byte}
    {ps ps' qs qs' : Shamir.Pools} {out out' : List (List Byte)}
    (ho : Shamir.split arch s parts threshold perm rnd ps = ok (out, qs))
    (ho' : Shamir.split arch s' parts threshold perm rnd' ps' = ok (out', qs')) {i j : Nat} {sh sh' : List Byte}
    (hi : out[i]? = some sh) (hi' : out'[i]? = some sh') (hj : j < s.length)
    (hr : ∀ k, 1 ≤ k → k < threshold.toNat → rnd (threshold.toNat * j + k) = rnd' (threshold.toNat * j + k))
    (hb : sh[j]? = sh'[j]?) : s[j]? = s'[j]? := by
  have hv' := split_ok_valid ho'
  have ht : 2 ≤ threshold.toNat := by have := hv.2.2.1; omega
  rw [split_pools arch perm rnd ps hv (parts_le hv hperm)] at ho
  rw [split_pools arch perm rnd' ps' hv' (parts_le hv' hperm)] at ho'
  have ho := (Prod.mk.inj (Outcome.ok.inj ho)).1
  have ho' := (Prod.mk.inj (Outcome.ok.inj ho')).1
  rw [← ho, List.getElem?_map] at hi
  rw [← ho', List.getElem?_map] at hi'
  obtain ⟨x, hx, rfl⟩ := Option.map_eq_some_iff.1 hi
  rw [hx, Option.map_some, Option.some.injEq] at hi'
  subst hi'
  have get : ∀ {s : List Byte} {rnd : Nat → Byte}, j < s.length →
      (shareOf (rowsOf (polSplit s threshold.toNat rnd) threshold.toNat s.length) x)[j]?
        = some ((⟨s.getD j 0⟩ : GF) + ∑ k ∈ Finset.range (threshold.toNat - 1), (⟨rnd (threshold.toNat * j + (k + 1))⟩ : GF) * ⟨x⟩ ^ (k + 1)).val := by
    intro s rnd hj
    have hlt : ∀ k < threshold.toNat, threshold.toNat * j + k < threshold.toNat * s.length := by
      intro k hk
      calc threshold.toNat * j + k < threshold.toNat * j + threshold.toNat := by omega
        _ = threshold.toNat * (j + 1) := by ring
        _ ≤ threshold.toNat * s.length := Nat.mul_le_mul_left _ hj
    have key : ∀ k < threshold.toNat, (polSplit s threshold.toNat rnd).getD (threshold.toNat * j + k) 0
        = if k = 0 then s.getD j 0 else rnd (threshold.toNat * j + k) := by
      intro k hk
      have hm : (threshold.toNat * j + k) % threshold.toNat = k := by rw [Nat.mul_add_mod, Nat.mod_eq_of_lt hk]
      have hd : (threshold.toNat * j + k) / threshold.toNat = j := by
        rw [Nat.mul_add_div (by omega), Nat.div_eq_of_lt hk]; rfl
      unfold polSplit withIntercepts
      simp only [List.length_map, List.length_range]
      rw [List.getD_eq_getElem?_getD, List.getElem?_map, List.getElem?_range (hlt k hk)]
      simp only [Option.map_some, Option.getD_some, hm, hd, hj, and_true]
      by_cases h0 : k = 0
      · simp [h0]
      · simp [h0, List.getD_eq_getElem?_getD, List.getElem?_range (hlt k hk)]
    unfold shareOf
    rw [List.getElem?_append_left (by simpa [rowsOf] using hj), List.getElem?_map]
    unfold rowsOf
    rw [List.getElem?_map, List.getElem?_range hj]
    simp only [Option.map_some]
    rw [rows_eval _ _ s.length]
    obtain ⟨t, et⟩ : ∃ t, threshold.toNat = t + 1 := ⟨threshold.toNat - 1, by omega⟩
    rw [et] at key ⊢
    rw [Finset.sum_range_succ', key 0 (by omega), if_pos rfl, pow_zero, mul_one, add_comm, Nat.add_sub_cancel]
    congr 3
    refine Finset.sum_congr rfl fun k hk => ?_
    rw [key (k + 1) (by have := Finset.mem_range.1 hk; omega), if_neg (by omega)]
  rw [get hj, get (by omega)] at hb
  have hb := Option.some.inj hb
  have hb : (⟨s.getD j 0⟩ : GF) + _ = ⟨s'.getD j 0⟩ + _ := congrArg (fun v => (⟨v⟩ : GF)) hb
  have es : ∑ k ∈ Finset.range (threshold.toNat - 1), (⟨rnd (threshold.toNat * j + (k + 1))⟩ : GF) * ⟨x⟩ ^ (k + 1)
      = ∑ k ∈ Finset.range (threshold.toNat - 1), (⟨rnd' (threshold.toNat * j + (k + 1))⟩ : GF) * ⟨x⟩ ^ (k + 1) := by
    refine Finset.sum_congr rfl fun k hk => ?_
    rw [hr (k + 1) (by omega) (by have := Finset.mem_range.1 hk; omega)]
  rw [es] at hb
  have hb := congrArg GF.val (add_right_cancel hb)
  simpa [List.getD_eq_getElem?_getD, List.getElem?_eq_getElem hj, List.getElem?_eq_getElem (hl ▸ hj : j < s'.length)] using hb

/-! ## mult, div -/

theorem mult_trace (a b : Byte) : (mult a b).trace
    = [.log a, .log b, .exp ((Shamir.logTable a + Shamir.logTable b).tmod 255)] := by
  unfold mult
  rw [trace_bind _ _ rfl, trace_bind _ _ rfl]
  obtain ⟨v, hv⟩ : ∃ v, Shamir.expTable ((Shamir.logTable a + Shamir.logTable b).tmod 255) = ok v := by
    have := mult_eq a b
    unfold Shamir.mult at this
    obtain ⟨v, hv, -⟩ := bind_eq_ok.1 this
    exact ⟨v, hv⟩
  rw [trace_bind _ _ hv]
  rfl

theorem div_trace {a b : Byte} (hb : b ≠ 0) : (div a b).trace
    = [.branch false, .log a, .log b, .exp (((Shamir.logTable a - Shamir.logTable b) + 255).tmod 255)] := by
  obtain ⟨v, hv⟩ : ∃ v, Shamir.expTable (((Shamir.logTable a - Shamir.logTable b) + 255).tmod 255) = ok v := by
    have := div_eq (a := a) hb
    unfold Shamir.div at this
    simp only [hb, if_false, Outcome.pure_eq] at this
    obtain ⟨v, hv, -⟩ := bind_eq_ok.1 this
    exact ⟨v, hv⟩
  unfold div
  rw [trace_bind _ _ (out_test _)]
  simp only [hb, decide_false, Bool.false_eq_true, if_false]
  rw [trace_bind _ _ rfl, trace_bind _ _ rfl, trace_bind _ _ hv]
  simp [test, shows, pure]

theorem mult_hide (a b a' b' : Byte) : (mult a b).trace.map Ev.hide = (mult a' b').trace.map Ev.hide := by
  rw [mult_trace, mult_trace]; rfl

theorem mult_trace_iff (a b a' b' : Byte) : (mult a b).trace = (mult a' b').trace ↔ a = a' ∧ b = b' := by
  rw [mult_trace, mult_trace]
  constructor
  · intro h
    simp only [List.cons.injEq, Ev.log.injEq] at h
    exact ⟨h.1, h.2.1⟩
  · rintro ⟨rfl, rfl⟩; rfl

theorem div_hide {a b a' b' : Byte} (h : b ≠ 0) (h' : b' ≠ 0) : (div a b).trace.map Ev.hide = (div a' b').trace.map Ev.hide := by
  rw [div_trace h, div_trace h']; rfl

theorem div_trace_iff {a b a' b' : Byte} (h : b ≠ 0) (h' : b' ≠ 0) : (div a b).trace = (div a' b').trace ↔ a = a' ∧ b = b' := by
  rw [div_trace h, div_trace h']
  constructor
  · intro h
    simp only [List.cons.injEq, Ev.log.injEq] at h
    exact ⟨h.2.1, h.2.2.1⟩
  · rintro ⟨rfl, rfl⟩; rfl

/-! ## Combine -/

theorem combine_same_accept {parts parts' : List (List Byte)} (hl : parts.map List.length = parts'.map List.length)
    (ht : parts.map tag = parts'.map tag) {s : List Byte} (hs : Shamir.combine parts = ok s) :
    ∃ s', Shamir.combine parts' = ok s' := by
  obtain ⟨⟨h1, h2, h3, h4⟩, -⟩ := combine_ok_iff.1 hs
  have hlen : parts.length = parts'.length := by simpa using congrArg List.length hl
  have hhead : (parts'.headD []).length = (parts.headD []).length := by
    cases parts with
    | nil => simp at h1
    | cons a b => cases parts' with
      | nil => simp at hl
      | cons a' b' => simp at hl; simpa using hl.1.symm
  refine ⟨_, combine_ok_iff.2 ⟨⟨by omega, by omega, ?_, ?_⟩, rfl⟩⟩
  · intro p hp
    obtain ⟨i, hi, rfl⟩ := List.getElem_of_mem hp
    have hi0 : i < parts.length := by omega
    rw [← map_getElem _ hl (List.getElem?_eq_getElem hi0) (List.getElem?_eq_getElem hi), hhead]
    exact h3 _ (List.getElem_mem _)
  · unfold tags at h4 ⊢
    rwa [← ht]

/-! ### Rejected parts -/

/-- Both runs show the same, and both succeed, with related results, or both fail. -/
def Same {α β : Type} (L : α → β → Prop) (x : Traced α) (y : Traced β) : Prop :=
  x.trace = y.trace ∧ ((∃ a b, x.out = ok a ∧ y.out = ok b ∧ L a b) ∨ ((∀ a, x.out ≠ ok a) ∧ ∀ b, y.out ≠ ok b))

theorem bind_fails {α β : Type} {x : Outcome α} {f : α → Outcome β} (h : ∀ a, x ≠ ok a) : ∀ b, (x >>= f) ≠ ok b := fun b hb => by
  obtain ⟨a, ha, -⟩ := bind_eq_ok.1 hb
  exact h a ha

theorem trace_bind_fails {α β : Type} (x : Traced α) (f : α → Traced β) (h : ∀ a, x.out ≠ ok a) :
    (x >>= f).trace = x.trace := by
  show x.trace ++ _ = _
  cases hx : x.out with
  | ok a => exact absurd hx (h a)
  | _ => simp

theorem Same.bind {α β γ δ : Type} {L : α → β → Prop} {M : γ → δ → Prop} {x : Traced α} {y : Traced β}
    {f : α → Traced γ} {g : β → Traced δ} (h : Same L x y) (hfg : ∀ a b, x.out = ok a → y.out = ok b → L a b → Same M (f a) (g b)) :
    Same M (x >>= f) (y >>= g) := by
  obtain ⟨h1, ⟨a, b, ha, hb, hL⟩ | ⟨ha, hb⟩⟩ := h
  · obtain ⟨g1, g2⟩ := hfg a b ha hb hL
    refine ⟨by rw [trace_bind x f ha, trace_bind y g hb, h1, g1], ?_⟩
    simpa only [out_bind, ha, hb, ok_bind] using g2
  · exact ⟨by rw [trace_bind_fails x f ha, trace_bind_fails y g hb, h1], Or.inr ⟨bind_fails ha, bind_fails hb⟩⟩

theorem same_fails {α β γ δ : Type} {L : α → β → Prop} (e e' : Err) (f : γ → Traced α) (g : δ → Traced β) :
    Same L (quiet (err e) >>= f) (quiet (err e') >>= g) :=
  ⟨rfl, Or.inr ⟨fun _ h => (by cases h), fun _ h => (by cases h)⟩⟩

theorem Same.refl {α : Type} (x : Traced α) : Same Eq x x := by
  refine ⟨rfl, ?_⟩
  by_cases h : ∃ a, x.out = ok a
  · obtain ⟨a, ha⟩ := h
    exact Or.inl ⟨a, a, ha, ha, rfl⟩
  · exact Or.inr ⟨fun a ha => h ⟨a, ha⟩, fun a ha => h ⟨a, ha⟩⟩

theorem same_pure {α β : Type} {L : α → β → Prop} {a : α} {b : β} (h : L a b) : Same L (pure a : Traced α) (pure b : Traced β) :=
  ⟨rfl, Or.inl ⟨a, b, rfl, rfl, h⟩⟩

theorem same_test {α β : Type} {L : α → β → Prop} (c c' : Prop) [Decidable c] [Decidable c'] (hc : c ↔ c')
    {f : Bool → Traced α} {g : Bool → Traced β} (h : Same L (f (decide c)) (g (decide c))) :
    Same L (test c >>= f) (test c' >>= g) := by
  have : decide c' = decide c := by simp [hc]
  refine Same.bind (L := fun a b => a = decide c ∧ b = decide c) ⟨by simp [test, this], Or.inl ⟨_, _, rfl, rfl, rfl, this⟩⟩ ?_
  rintro _ _ _ _ ⟨rfl, rfl⟩
  exact h

theorem same_idx {α β : Type} {l : List α} {l' : List β} (hl : l.length = l'.length) (i : Nat) :
    Same (fun a b => l[i]? = some a ∧ l'[i]? = some b) (idx l i) (idx l' i) := by
  refine ⟨rfl, ?_⟩
  by_cases hi : i < l.length
  · exact Or.inl ⟨l[i], l'[i], idx_ok hi, idx_ok (by omega), List.getElem?_eq_getElem hi, List.getElem?_eq_getElem (by omega)⟩
  · refine Or.inr ⟨fun a h => ?_, fun a h => ?_⟩
    · rw [out_idx, idx_panic (by omega)] at h; cases h
    · rw [out_idx, idx_panic (by omega)] at h; cases h

theorem same_iterUp {σ τ : Type} {n : Nat} {body : Nat → σ → Traced σ} {body' : Nat → τ → Traced τ} {s : σ} {t : τ}
    (P : σ → τ → Prop) (h0 : P s t) (h : ∀ i < n, ∀ s t, P s t → Same P (body i s) (body' i t)) :
    Same P (iterUp n body s) (iterUp n body' t) := by
  induction n with
  | zero => exact same_pure h0
  | succ n ih => exact (ih fun i hi => h i (by omega)).bind fun a b _ _ hP => h n (by omega) a b hP

theorem same_forUp {σ τ : Type} {n n' : Nat} (hn : n = n') {body : Nat → σ → Traced σ} {body' : Nat → τ → Traced τ} {s : σ} {t : τ}
    (P : σ → τ → Prop) (h0 : P s t) (h : ∀ i < n, ∀ s t, P s t → Same P (body i s) (body' i t)) :
    Same P (forUp n body s) (forUp n' body' t) := by
  subst hn
  exact (Same.refl _).bind fun _ _ _ _ _ => same_iterUp P h0 h

theorem same_checkLengths {parts parts' : List (List Byte)} (hl : parts.map List.length = parts'.map List.length) (n : Nat) :
    Same (fun _ _ => True) (checkLengths parts n) (checkLengths parts' n) := by
  have hlen : parts.length = parts'.length := by simpa using congrArg List.length hl
  refine same_forUp (by rw [hlen]) _ trivial fun i _ _ _ _ => (same_idx hlen _).bind fun p p' _ _ hp => ?_
  have e := map_getElem _ hl hp.1 hp.2
  refine same_test _ _ (by rw [e]) ?_
  cases decide (p.length ≠ n)
  · exact same_pure trivial
  · exact same_fails _ _ _ _

theorem same_collectTags {parts parts' : List (List Byte)} {n : Nat} (hn : ∀ p ∈ parts, p.length = n) (hn' : ∀ p ∈ parts', p.length = n)
    (ht : parts.map tag = parts'.map tag) (xs : List Byte) :
    Same Eq (collectTags parts n xs) (collectTags parts' n xs) := by
  have hlen : parts.length = parts'.length := by simpa using congrArg List.length ht
  refine same_forUp hlen _ rfl ?_
  rintro i _ ⟨x, m⟩ _ rfl
  refine (same_idx hlen i).bind fun p p' _ _ hp => ?_
  have et := map_getElem _ ht hp.1 hp.2
  have hp1 := hn p (List.mem_of_getElem? hp.1)
  have hp2 := hn' p' (List.mem_of_getElem? hp.2)
  refine (same_idx (hp1.trans hp2.symm) (n - 1)).bind fun s s' _ _ hs => ?_
  have e1 : s = tag p := by unfold tag; rw [hp1, List.getD_eq_getElem?_getD, hs.1]; rfl
  have e2 : s' = tag p' := by unfold tag; rw [hp2, List.getD_eq_getElem?_getD, hs.2]; rfl
  rw [e1, e2, et]
  exact Same.refl _

theorem combine_rejected {parts parts' : List (List Byte)} (hl : parts.map List.length = parts'.map List.length)
    (ht : parts.map tag = parts'.map tag) (h : ∀ s, Shamir.combine parts ≠ ok s) :
    (combine parts).trace = (combine parts').trace := by
  have hlen : parts.length = parts'.length := by simpa using congrArg List.length hl
  suffices hs : Same (fun _ _ => True) (combine parts) (combine parts') from hs.1
  unfold combine
  refine same_test _ _ (by rw [hlen]) ?_
  by_cases h2 : parts.length < 2
  · simp only [h2, decide_true, if_true]
    exact same_fails _ _ _ _
  simp only [h2, decide_false, Bool.false_eq_true, if_false]
  refine (same_idx hlen 0).bind fun p p' _ _ hp => ?_
  have e := map_getElem _ hl hp.1 hp.2
  rw [← e, ← hlen]
  refine same_test _ _ Iff.rfl ?_
  by_cases h3 : p.length < 2
  · simp only [h3, decide_true, if_true]
    exact same_fails _ _ _ _
  simp only [h3, decide_false, Bool.false_eq_true, if_false]
  have hhead : parts.headD [] = p := by
    cases parts with
    | nil => simp at hp
    | cons a b => simpa using hp.1
  have hhead' : parts'.headD [] = p' := by
    cases parts' with
    | nil => simp at hp
    | cons a b => simpa using hp.2
  refine (same_checkLengths hl p.length).bind fun _ _ hc hc' _ => ?_
  have all : ∀ {q : List (List Byte)} {n : Nat} {u : Unit}, (q.headD []).length = n → (checkLengths q n).out = ok u → ∀ p ∈ q, p.length = n := by
    intro q n u hq hc
    rw [out_checkLengths, checkLengths_eq] at hc
    split at hc
    · rename_i hall
      intro r hr
      cases q with
      | nil => simp at hr
      | cons a b =>
        rcases List.mem_cons.1 hr with rfl | hr
        · exact hq
        · exact hall r hr
    · cases hc
  have h3a := all (by rw [hhead]) hc
  have h3b := all (by rw [hhead', e]) hc'
  refine (same_collectTags h3a h3b ht _).bind ?_
  rintro ⟨xs, m⟩ _ hx _ rfl
  exfalso
  rw [out_collectTags, collectTags_eq (by omega) h3a _ (by simp)] at hx
  split at hx
  · rename_i hn
    exact h _ (combine_ok_iff.2 ⟨⟨by omega, by rw [hhead]; omega, by rw [hhead]; exact h3a, hn⟩, rfl⟩)
  · cases hx

end Verif.Leak
