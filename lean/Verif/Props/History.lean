import Verif.Spec.History
import Verif.Props.Aliasing
import Verif.Props.Capacity

/-! # C54: histories of calls -/

namespace Verif.Props
open Verif Outcome Galois Spec Proofs Proofs.Own Shamir Verif.Heap

/-- Invariant of histories. -/
structure Good (arch : Arch) (σ : Shared) (known : Set Arr) (past : List Past) : Prop where
  poolNodup : (σ.pool .bPool ++ σ.pool .polyPool).Nodup
  poolLt : ∀ p, ∀ a ∈ σ.pool p, a < σ.next
  live : ∀ a ∈ known, a < σ.next ∧ ∀ p, a ∉ σ.pool p
  outs : ∀ c ∈ past, ∀ outs, c.result = ok outs → ∀ sl ∈ outs, sl.arr ∈ known ∧ InBounds σ.heap sl ∧ sl.len ≤ sl.cap
  ins : ∀ c ∈ past, (∀ sl ∈ c.job.inputs, sl.arr ∈ known) ∧ c.job.inputs.map (contents σ.heap) = c.ins
  correct : ∀ c ∈ past, JobCorrect arch c.job c.ins c.drawn c.draws ((fun outs => outs.map (contents σ.heap)) <$> c.result)
  adm : ∀ c ∈ past, JobAdmissible c.job

/-- Memory the program knows stays the same, so everything about past calls stays true. -/
theorem Good.mono {arch : Arch} {σ σ' : Shared} {known known' : Set Arr} {past : List Past} (g : Good arch σ known past)
    (hn : (σ'.pool .bPool ++ σ'.pool .polyPool).Nodup) (hlt : ∀ p, ∀ a ∈ σ'.pool p, a < σ'.next)
    (hk : ∀ a ∈ known', a < σ'.next ∧ ∀ p, a ∉ σ'.pool p) (hsub : known ⊆ known')
    (hh : ∀ a ∈ known, σ'.heap a = σ.heap a) : Good arch σ' known' past where
  poolNodup := hn
  poolLt := hlt
  live := hk
  outs c hc outs ho sl hsl := by
    obtain ⟨h1, h2, h3⟩ := g.outs c hc outs ho sl hsl
    exact ⟨hsub h1, by unfold InBounds; rw [hh _ h1]; exact h2, h3⟩
  ins c hc := by
    obtain ⟨h1, h2⟩ := g.ins c hc
    refine ⟨fun sl hsl => hsub (h1 sl hsl), ?_⟩
    rw [← h2]
    apply List.map_congr_left
    intro sl hsl
    simp only [contents, hh _ (h1 sl hsl)]
  correct c hc := by
    have := g.correct c hc
    cases hr : c.result with
    | ok outs =>
      rw [hr, map_ok] at this
      rw [map_ok]
      have e : outs.map (contents σ'.heap) = outs.map (contents σ.heap) := by
        apply List.map_congr_left
        intro sl hsl
        simp only [contents, hh _ (g.outs c hc outs hr sl hsl).1]
      rw [e]; exact this
    | _ => rw [hr] at this; exact this
  adm := g.adm

theorem history_good {arch : Arch} {σ₀ σ : Shared} {known : Set Arr} {past : List Past}
    (hn : (σ₀.pool .bPool ++ σ₀.pool .polyPool).Nodup) (hlt : ∀ p, ∀ a ∈ σ₀.pool p, a < σ₀.next)
    (h : History arch σ₀ σ known past) : Good arch σ known past := by
  induction h with
  | start => exact ⟨hn, hlt, fun a h => h, by simp, by simp, by simp, by simp⟩
  | @alloc σ known past bytes h g =>
    have hne : ∀ a ∈ known, a ≠ σ.next := by
      intro a ha e
      have := (g.live a ha).1
      rw [e] at this; exact Nat.lt_irrefl _ this
    refine g.mono g.poolNodup (fun p a ha => Nat.lt_succ_of_lt (g.poolLt p a ha)) ?_ (Set.subset_insert _ _) ?_
    · rintro a (rfl | ha)
      · exact ⟨Nat.lt_succ_self _, fun p hp => Nat.lt_irrefl _ (g.poolLt p _ hp)⟩
      · exact ⟨Nat.lt_succ_of_lt (g.live a ha).1, (g.live a ha).2⟩
    · intro a ha
      exact Function.update_of_ne (hne a ha) _ _
  | @batch σ known past n jobs s result h hadm hin hr hd g =>
    have hst : WStart σ jobs := ⟨g.poolNodup, g.poolLt, fun i sl hsl => by
      obtain ⟨h1, h2, h3⟩ := hin i sl hsl
      exact ⟨h2, h3, (g.live _ h1).1, (g.live _ h1).2⟩⟩
    have hunch := C50_splitP_inputs_unchanged arch σ jobs hst hadm s hr
    obtain ⟨gh, W, I⟩ := winv arch hst hadm hr
    have hpre : ∀ a ∈ known, (a, 0) ∈ preexisting σ := fun a ha => g.live a ha
    have hpl : ∀ i outs, result i = ok outs → Placed arch jobs s i outs ∧
        ∀ sl ∈ outs, (sl.arr, 0) ∈ W (.inl i) ∨ ∃ j, (sl.arr, 0) ∈ W (.inr (i, j)) :=
      fun i outs ho => placed hst hadm I (by rw [← ho]; exact hd i)
    have base : Good arch s.shared (known ∪ {a | ∃ i outs, result i = ok outs ∧ ∃ sl ∈ outs, a = sl.arr}) past := by
      refine g.mono I.inv.poolNodup (fun p a ha => I.inv.poolLt a (mem_pooled.2 ⟨p, ha⟩)) ?_ Set.subset_union_left ?_
      · rintro a (ha | ⟨i, outs, ho, sl, hsl, rfl⟩)
        · constructor
          · by_contra hc
            exact I.inv.newR a (Nat.le_of_not_lt hc) (.inl 0) 0 (hpre a ha)
          · intro p hp
            exact I.inv.poolFreshR a (mem_pooled.2 ⟨p, hp⟩) (.inl 0) 0 (hpre a ha)
        · obtain ⟨P, hW⟩ := hpl i outs ho
          refine ⟨P.allocated sl hsl, fun p hp => ?_⟩
          have hm := mem_pooled.2 ⟨p, hp⟩
          rcases hW sl hsl with h | ⟨j, h⟩
          · exact I.inv.poolFreshW _ hm (.inl i) 0 h
          · exact I.inv.poolFreshW _ hm (.inr (i, j)) 0 h
      · intro a ha
        exact hunch.1 a (g.live a ha).1 (g.live a ha).2
    have hnew : ∀ c ∈ List.ofFn (fun i => (⟨jobs i, (jobs i).inputs.map (contents σ.heap), result i, (s.proc i).main.drawn,
        workerDraws (s.proc i)⟩ : Past)), ∃ i, c = ⟨jobs i, (jobs i).inputs.map (contents σ.heap), result i,
          (s.proc i).main.drawn, workerDraws (s.proc i)⟩ := by
      intro c hc
      rw [List.mem_ofFn] at hc
      obtain ⟨i, rfl⟩ := hc
      exact ⟨i, rfl⟩
    refine ⟨base.poolNodup, base.poolLt, base.live, ?_, ?_, ?_, ?_⟩
    · intro c hc outs ho sl hsl
      rcases List.mem_append.1 hc with hc | hc
      · exact base.outs c hc outs ho sl hsl
      · obtain ⟨i, rfl⟩ := hnew c hc
        obtain ⟨P, -⟩ := hpl i outs ho
        have := P.inArray sl hsl
        exact ⟨.inr ⟨i, outs, ho, sl, hsl, rfl⟩, by unfold InBounds; omega, this.2⟩
    · intro c hc
      rcases List.mem_append.1 hc with hc | hc
      · exact base.ins c hc
      · obtain ⟨i, rfl⟩ := hnew c hc
        exact ⟨fun sl hsl => .inl (hin i sl hsl).1, List.map_congr_left (fun sl hsl => hunch.2 i sl hsl)⟩
    · intro c hc
      rcases List.mem_append.1 hc with hc | hc
      · exact base.correct c hc
      · obtain ⟨i, rfl⟩ := hnew c hc
        show JobCorrect arch (jobs i) _ _ _ _
        cases hj : jobs i with
        | seq c =>
          have := C34_concurrent_with_splitP arch σ jobs hst hadm s hr i c hj (result i) (hd i)
          exact this
        | splitP secret parts threshold perm =>
          have := C11_splitP_exact arch σ jobs hst hadm s hr i secret parts threshold perm hj (result i) (hd i)
          unfold JobCorrect
          simp only [Job.inputs, List.map_cons, List.map_nil, List.headD_cons]
          cases he : argError (contents σ.heap secret) parts threshold with
          | some e => rw [he] at this; simp only [] at this; rw [this]; rfl
          | none =>
            rw [he] at this
            obtain ⟨outs, h1, h2, h3⟩ := this
            have hbl : (contents σ.heap secret).length = secret.len := by
              have := (hst.inputs i secret (by rw [hj]; simp [Job.inputs])).1
              unfold InBounds at this
              simp [contents]; omega
            rw [hbl]
            exact ⟨by simp only [h1, map_ok, h2], h3⟩
    · intro c hc
      rcases List.mem_append.1 hc with hc | hc
      · exact base.adm c hc
      · obtain ⟨i, rfl⟩ := hnew c hc
        exact hadm i

/-- C54: after any history of calls (sequences of batches of concurrent calls, on memory the program allocated and on
results of earlier calls) every call made so far has returned what it would have returned alone in a fresh process, and
its arguments and the slices it returned still show the same bytes. -/
theorem C54_history (arch : Arch) (σ₀ σ : Shared) (known : Set Arr) (past : List Past)
    (hn : (σ₀.pool .bPool ++ σ₀.pool .polyPool).Nodup) (hlt : ∀ p, ∀ a ∈ σ₀.pool p, a < σ₀.next)
    (h : History arch σ₀ σ known past) (c : Past) (hc : c ∈ past) :
    JobCorrect arch c.job c.ins c.drawn c.draws ((fun outs => outs.map (contents σ.heap)) <$> c.result) ∧
    c.job.inputs.map (contents σ.heap) = c.ins := by
  have g := history_good hn hlt h
  exact ⟨g.correct c hc, (g.ins c hc).2⟩

/-- C54: a history can always be continued: any admissible calls on known memory can be made next, and there is a
schedule with which they all return (secrets given to `SplitP`: less than 2^32 - 1023 bytes, see C48). -/
theorem C54_extend (arch : Arch) (σ₀ σ : Shared) (known : Set Arr) (past : List Past)
    (hn : (σ₀.pool .bPool ++ σ₀.pool .polyPool).Nodup) (hlt : ∀ p, ∀ a ∈ σ₀.pool p, a < σ₀.next)
    (h : History arch σ₀ σ known past) {n : Nat} (jobs : Fin (n + 1) → Job) (hadm : ∀ i, JobAdmissible (jobs i))
    (hin : ∀ i, ∀ sl ∈ (jobs i).inputs, sl.arr ∈ known ∧ InBounds σ.heap sl ∧ sl.len ≤ sl.cap)
    (hlen : ∀ i secret parts threshold perm, jobs i = .splitP secret parts threshold perm → secret.len < 2 ^ 32 - 1023) :
    ∃ σ' known' new, History arch σ₀ σ' known' (past ++ new) ∧ known ⊆ known' ∧ new.map (·.job) = List.ofFn jobs ∧
      new.map (·.ins) = List.ofFn fun i => (jobs i).inputs.map (contents σ.heap) := by
  have g := history_good hn hlt h
  have hst : WStart σ jobs := ⟨g.poolNodup, g.poolLt, fun i sl hsl => by
    obtain ⟨h1, h2, h3⟩ := hin i sl hsl
    exact ⟨h2, h3, (g.live _ h1).1, (g.live _ h1).2⟩⟩
  obtain ⟨s, hr, hd⟩ := ((C11_terminates arch σ jobs hst hadm).2 _ .refl).2
  have hd : ∀ i, ∃ r, (s.proc i).phase = .done r := by
    intro i
    rcases hd i with h | h
    · exact h
    · obtain ⟨secret, _, _, _, h1, h2⟩ := (C11_C13_never_panics arch σ jobs hst hadm s hr i).2 h
      have := hlen i _ _ _ _ h1
      omega
  choose result hres using hd
  refine ⟨_, _, _, .batch jobs s result h hadm hin hr hres, Set.subset_union_left, ?_, ?_⟩
  · rw [List.map_ofFn]; rfl
  · rw [List.map_ofFn]; rfl

theorem fst_map_ok {α β : Type} {o : Outcome (α × β)} {x : α} (h : ok x = Prod.fst <$> o) : ∃ y, o = ok (x, y) := by
  cases o with
  | ok p => obtain ⟨a, b⟩ := p; cases h; exact ⟨b, rfl⟩
  | _ => cases h

/-- What a call that splits a secret has returned. -/
theorem jobCorrect_sharing {arch : Arch} {job : Job} {ins : List (List Byte)} {drawn : List Byte} {draws : Nat → List Byte}
    {shares : List (List Byte)} (h1 : JobCorrect arch job ins drawn draws (ok shares)) (h2 : JobAdmissible job)
    {secret : Slice} {threshold : Int} (hj : splits job = some (secret, threshold)) (hlen : (ins.headD []).length < 2 ^ 32) :
    2 ≤ threshold ∧ ins.headD [] ≠ [] ∧ IsSharing (ins.headD []) threshold.toNat shares := by
  cases job with
  | seq call =>
    cases call with
    | split s p t perm =>
      cases hj
      obtain ⟨ps, h3⟩ := fst_map_ok (h1 _ (delivers_getD _) ⟨⟨[], 0⟩, ⟨[], 0⟩⟩)
      obtain ⟨hv, hs, -⟩ := split_ok arch h2 h3
      exact ⟨hv.2.2.1, hv.2.2.2, hs⟩
    | splitGeneric s p t perm =>
      cases hj
      obtain ⟨hv, hs, -⟩ := splitGeneric_ok h2 (Eq.symm (h1 _ (delivers_getD _)))
      exact ⟨hv.2.2.1, hv.2.2.2, hs⟩
    | splitWithRandomizer f s p t r =>
      cases hj
      obtain ⟨ps, h1⟩ := h1
      obtain ⟨ps', h3⟩ := fst_map_ok h1
      obtain ⟨hv, hs, -⟩ := splitWithRandomizer_ok arch f h3
      exact ⟨hv.2.2.1, hv.2.2.2, hs⟩
    | splitWithRandomizerOld s p t r =>
      cases hj
      obtain ⟨ps, h3⟩ := fst_map_ok (h1 ⟨⟨[], 0⟩, ⟨[], 0⟩⟩)
      obtain ⟨hv, hs, -⟩ := splitOld_ok arch h3
      exact ⟨hv.2.2.1, hv.2.2.2, hs⟩
    | _ => cases hj
  | splitP s p t perm =>
    cases hj
    unfold JobCorrect at h1
    simp only [] at h1
    cases he : argError (ins.headD []) p threshold with
    | some e => rw [he] at h1; cases h1
    | none =>
      rw [he] at h1
      have hv := argError_none.1 he
      have h3 := hv.2.2.1
      refine ⟨h3, hv.2.2.2, ?_⟩
      have key := splitP_sharing (ins.headD []) (t := threshold.toNat) (by omega) draws
        ((perm.take p.toNat).map fun v => BitVec.ofNat 8 v + 1#8) (splitTags_facts h2 p.toNat).1
      rw [truncated_eq hlen, List.map_map] at key
      rw [Outcome.ok.inj h1.1]
      exact key

theorem past_sharing {arch : Arch} {σ : Shared} {known : Set Arr} {past : List Past} (g : Good arch σ known past)
    {c : Past} (hc : c ∈ past) {secret : Slice} {threshold : Int} (hj : splits c.job = some (secret, threshold))
    (hlen : secret.len < 2 ^ 32) {outs : List Slice} (ho : c.result = ok outs) :
    2 ≤ threshold ∧ contents σ.heap secret ≠ [] ∧
      IsSharing (contents σ.heap secret) threshold.toNat (outs.map (contents σ.heap)) := by
  have h1 := g.correct c hc
  rw [ho, map_ok] at h1
  have hi : c.ins.headD [] = contents σ.heap secret := by
    rw [← (g.ins c hc).2]
    generalize c.job = job at hj
    cases job with
    | seq call => cases call <;> cases hj <;> rfl
    | splitP => cases hj; rfl
  have := jobCorrect_sharing h1 (g.adm c hc) hj (by
    rw [hi]
    have : (contents σ.heap secret).length ≤ secret.len := by simp [contents]
    omega)
  rwa [hi] at this

/-- C54, round trip over a history: wherever in the history a secret was split (by any function of package shamir) and
`Combine` was called on at least `threshold` of the slices returned, in any order, whatever was called before, between
and after: the `Combine` returned the secret. -/
theorem C54_round_trip (arch : Arch) (σ₀ σ : Shared) (known : Set Arr) (past : List Past)
    (hn : (σ₀.pool .bPool ++ σ₀.pool .polyPool).Nodup) (hlt : ∀ p, ∀ a ∈ σ₀.pool p, a < σ₀.next)
    (h : History arch σ₀ σ known past) (c c' : Past) (hc : c ∈ past) (hc' : c' ∈ past)
    (secret : Slice) (threshold : Int) (hj : splits c.job = some (secret, threshold)) (hlen : secret.len < 2 ^ 32)
    (outs : List Slice) (ho : c.result = ok outs) (sub : List Slice) (hsub : sub.Subperm outs) (ht : threshold ≤ sub.length)
    (hj' : c'.job = .seq (.combine sub)) :
    ∃ sl, c'.result = ok [sl] ∧ contents σ.heap sl = contents σ.heap secret := by
  have g := history_good hn hlt h
  obtain ⟨h2, h3, hsh⟩ := past_sharing g hc hj hlen ho
  have h1' := g.correct c' hc'
  rw [← (g.ins c' hc').2, hj'] at h1'
  have h1' : (fun outs => outs.map (contents σ.heap)) <$> c'.result = (fun s => [s]) <$> combine (sub.map (contents σ.heap)) := h1'
  have hcomb : combine (sub.map (contents σ.heap)) = ok (contents σ.heap secret) := by
    refine combine_sharing hsh ?_ (by omega) (by simp; omega) h3
    obtain ⟨l, hl, hs⟩ := hsub
    exact ⟨_, hl.map _, hs.map _⟩
  rw [hcomb, map_ok] at h1'
  cases hr : c'.result with
  | ok outs' =>
    rw [hr, map_ok, Outcome.ok.injEq] at h1'
    match outs', h1' with
    | [sl], h1' => exact ⟨sl, rfl, by simpa using h1'⟩
    | [], h1' => simp at h1'
    | _ :: _ :: _, h1' => simp at h1'
  | _ => rw [hr] at h1'; cases h1'

theorem contents_length {h : Arr → List Byte} {s : Slice} (hb : InBounds h s) : (contents h s).length = s.len := by
  unfold InBounds at hb
  simp [contents]; omega

/-- C54, the same for package krawczyk; nil entries in the list given to krawczyk.Combine are allowed. -/
theorem C54_krawczyk_round_trip (arch : Arch) (σ₀ σ : Shared) (known : Set Arr) (past : List Past)
    (hn : (σ₀.pool .bPool ++ σ₀.pool .polyPool).Nodup) (hlt : ∀ p, ∀ a ∈ σ₀.pool p, a < σ₀.next)
    (h : History arch σ₀ σ known past) (c c' : Past) (hc : c ∈ past) (hc' : c' ∈ past)
    (env env' : Krawczyk.Env) (secret : Slice) (parts threshold : Int)
    (hj : krawczykSplits c.job = some (env, secret, parts, threshold))
    (outs : List Slice) (ho : c.result = ok outs) (ssData : List (Option Slice)) (hsub : (ssData.filterMap id).Subperm outs)
    (ht : threshold ≤ (ssData.filterMap id).length)
    (hj' : c'.job = .seq (.krawczykCombine env' ssData parts threshold))
    (ha : env'.aes = env.aes) (hm : env'.lib.missing = env.lib.missing)
    (hnp : env'.lib.allowsNoParity = env.lib.allowsNoParity) :
    ∃ sl, c'.result = ok [sl] ∧ contents σ.heap sl = contents σ.heap secret := by
  have g := history_good hn hlt h
  have h1 := g.correct c hc
  have h2 := g.adm c hc
  have hin := g.outs c hc outs ho
  rw [← (g.ins c hc).2, ho, map_ok] at h1
  have hsubc : ((ssData.filterMap id).map (contents σ.heap)).Subperm (outs.map (contents σ.heap)) := by
    obtain ⟨l, hl, hs⟩ := hsub
    exact ⟨_, hl.map _, hs.map _⟩
  have hfm := filterMap_withNils ssData ((ssData.filterMap id).map (contents σ.heap)) (by simp)
  have hcomb : Krawczyk.combine { env' with arch }
      (withNils ssData ((ssData.filterMap id).map (contents σ.heap))) parts threshold = ok (contents σ.heap secret) := by
    generalize c.job = job at hj h1 h2
    cases job with
    | seq call =>
      cases call with
      | krawczykSplit e s p t perm =>
        cases hj
        obtain ⟨ps, h3⟩ := fst_map_ok (h1 _ (delivers_getD _) ⟨⟨[], 0⟩, ⟨[], 0⟩⟩)
        exact C35_split_combine { env with arch } { env' with arch } h2.2 ha hm hnp _ _ _ _ _ h2.1 _ _ _ _ _ h3
          (by rw [hfm]; exact hsubc) (by rw [hfm]; simpa using ht)
      | krawczykSplitWithRandomizer e f s p t r =>
        cases hj
        obtain ⟨ps, h1⟩ := h1
        obtain ⟨ps', h3⟩ := fst_map_ok h1
        exact C35_splitWithRandomizer_combine { env with arch } { env' with arch } h2.1 ha hm hnp _ _ _ _ _ _ _ _ _ h3
          (by rw [hfm]; exact hsubc) (by rw [hfm]; simpa using ht)
      | _ => cases hj
    | splitP s p t perm => cases hj
  have hcap : Krawczyk.combineCap { env' with arch } (withNils ssData ((ssData.filterMap id).map (contents σ.heap)))
      ((ssData.filterMap id).map (·.cap)) parts threshold = ok (contents σ.heap secret) := by
    rw [C53_capacity_ok _ _ _ _ _ (by rw [hfm]; simp)]
    · exact hcomb
    · rw [hfm, List.zip_map']
      intro x hx
      obtain ⟨s, hs, rfl⟩ := List.mem_map.1 hx
      have := hin s (hsub.subset hs)
      simp only []
      rw [contents_length this.2.1]
      exact this.2.2
  have h1' := g.correct c' hc'
  rw [← (g.ins c' hc').2, hj'] at h1'
  have h1' : (fun outs => outs.map (contents σ.heap)) <$> c'.result = (fun s => [s]) <$> Krawczyk.combineCap { env' with arch }
      (withNils ssData ((ssData.filterMap id).map (contents σ.heap))) ((ssData.filterMap id).map (·.cap)) parts threshold := h1'
  rw [hcap, map_ok] at h1'
  cases hr : c'.result with
  | ok outs' =>
    rw [hr, map_ok, Outcome.ok.injEq] at h1'
    match outs', h1' with
    | [sl], h1' => exact ⟨sl, rfl, by simpa using h1'⟩
    | [], h1' => simp at h1'
    | _ :: _ :: _, h1' => simp at h1'
  | _ => rw [hr] at h1'; cases h1'

/-- C54: the slices returned by one call of a krawczyk split can always be given to krawczyk.Combine. -/
theorem C54_krawczyk_combine_admissible (arch : Arch) (σ₀ σ : Shared) (known : Set Arr) (past : List Past)
    (hn : (σ₀.pool .bPool ++ σ₀.pool .polyPool).Nodup) (hlt : ∀ p, ∀ a ∈ σ₀.pool p, a < σ₀.next)
    (h : History arch σ₀ σ known past) (c : Past) (hc : c ∈ past)
    (env env' : Krawczyk.Env) (secret : Slice) (parts threshold parts' threshold' : Int)
    (hj : krawczykSplits c.job = some (env, secret, parts, threshold))
    (outs : List Slice) (ho : c.result = ok outs) (ssData : List (Option Slice)) (hsub : ssData.filterMap id ⊆ outs) :
    JobAdmissible (.seq (.krawczykCombine env' ssData parts' threshold')) ∧
    ∀ sl ∈ ssData.filterMap id, sl.arr ∈ known ∧ InBounds σ.heap sl ∧ sl.len ≤ sl.cap := by
  have g := history_good hn hlt h
  have h1 := g.correct c hc
  have h2 := g.adm c hc
  have hin := g.outs c hc outs ho
  rw [← (g.ins c hc).2, ho, map_ok] at h1
  refine ⟨?_, fun sl hsl => hin sl (hsub hsl)⟩
  obtain ⟨L, hL⟩ : ∃ L, ∀ s ∈ outs, s.len = L := by
    have key : ∀ shares : List (List Byte), outs.map (contents σ.heap) = shares → (shares.length : Int) = parts →
        ∀ L, (∀ i : Nat, (i : Int) < parts → (shares.getD i []).length = L) → ∀ s ∈ outs, s.len = L := by
      intro shares e hl L hL s hs
      obtain ⟨k, hk, rfl⟩ := List.getElem_of_mem hs
      have h3 := hL k (by rw [← hl, ← e]; simp; omega)
      rw [← e, List.getD_eq_getElem?_getD, List.getElem?_eq_getElem (by simpa using hk)] at h3
      simp only [List.getElem_map, Option.getD_some] at h3
      rw [← h3, contents_length (hin _ hs).2.1]
    generalize c.job = job at hj h1 h2
    cases job with
    | seq call =>
      cases call with
      | krawczykSplit e s p t perm =>
        cases hj
        obtain ⟨ps, h3⟩ := fst_map_ok (h1 _ (delivers_getD _) ⟨⟨[], 0⟩, ⟨[], 0⟩⟩)
        have hf := C36_split_format { env with arch } h2.2 _ _ _ _ _ h2.1 _ _ _ _ h3
        exact ⟨_, key _ rfl hf.1 _ (fun i hi => (hf.2 i hi).1)⟩
      | krawczykSplitWithRandomizer e f s p t r =>
        cases hj
        obtain ⟨ps, h1⟩ := h1
        obtain ⟨ps', h3⟩ := fst_map_ok h1
        have hf := C36_splitWithRandomizer_format { env with arch } h2.1 _ _ _ _ _ _ _ _ h3
        exact ⟨_, key _ rfl hf.1 _ (fun i hi => (hf.2 i hi).1)⟩
      | _ => cases hj
    | splitP s p t perm => cases hj
  intro s hs e s' hs'
  rw [hL s (hsub hs)] at e
  rw [hL s' (hsub hs')]
  exact .inl (by omega)

/-! ## Non-vacuity -/

/-- A history that starts in `exShared`: `Split` of the bytes 1, 2, 3 with threshold 2, then, after the program has allocated
something, `Combine` of the third and the first slice returned. -/
example (arch : Arch) : ∃ σ known c c' sl, History arch exShared σ known [c, c'] ∧
    c.job = .seq (.split ⟨0, 0, 3, 3⟩ 3 2 (List.range 255)) ∧ c'.result = ok [sl] ∧
    (∃ outs, c.result = ok outs ∧ ∃ h3 : outs.length = 3, c'.job = .seq (.combine [outs[2], outs[0]])) ∧
    contents σ.heap sl = [1, 2, 3] := by
  have hlt : ∀ p, ∀ a ∈ exShared.pool p, a < exShared.next := exStart.poolLt
  obtain ⟨σ, known, new, h, -, hjobs, hins⟩ := C54_extend arch exShared exShared _ [] exStart.poolNodup hlt .start
    (n := 0) (fun _ => .seq (.split ⟨0, 0, 3, 3⟩ 3 2 (List.range 255))) (fun _ => List.Perm.refl _)
    (by
      intro i sl hsl
      have : sl = ⟨0, 0, 3, 3⟩ := by simpa [Job.inputs, Call.inputs] using hsl
      subst this
      exact ⟨⟨by decide, fun p => by cases p <;> decide⟩, by unfold InBounds; decide, by decide⟩)
    (by intro i _ _ _ _ h; cases h)
  obtain ⟨c, rfl⟩ := List.length_eq_one_iff.1 (show new.length = 1 by simpa using congrArg List.length hjobs)
  have hj : c.job = .seq (.split ⟨0, 0, 3, 3⟩ 3 2 (List.range 255)) := by simpa using hjobs
  have hi : c.ins = [[1, 2, 3]] := by
    have : c.ins = [contents exShared.heap ⟨0, 0, 3, 3⟩] := by simpa [Job.inputs, Call.inputs] using hins
    rw [this]; decide
  have h1 := (C54_history arch exShared σ known _ exStart.poolNodup hlt h c (by simp)).1
  rw [hj, hi] at h1
  have h1 := h1 _ (delivers_getD _) ⟨⟨[], 0⟩, ⟨[], 0⟩⟩
  simp only [List.headD_cons] at h1
  obtain ⟨⟨shares, ps⟩, hsp⟩ := C13_split_validates arch [1, 2, 3] 3 2 (List.range 255) (List.Perm.refl _)
    (fun k => c.drawn.getD k 0) ⟨⟨[], 0⟩, ⟨[], 0⟩⟩
  have hlen := (C12_split_format arch [1, 2, 3] 3 2 _ (List.Perm.refl _) _ _ _ _ hsp).1
  rw [hsp] at h1
  cases hr : c.result with
  | ok outs =>
    rw [hr, map_ok, map_ok, Outcome.ok.injEq] at h1
    have h3 : outs.length = 3 := by
      have := congrArg List.length h1
      simp at this; omega
    have g := history_good exStart.poolNodup hlt h
    have g2 := history_good exStart.poolNodup hlt (h.alloc [7, 8])
    obtain ⟨σ', known', new', h', -, hjobs', hins'⟩ := C54_extend arch exShared _ _ _ exStart.poolNodup hlt (h.alloc [7, 8])
      (n := 0) (fun _ => .seq (.combine [outs[2], outs[0]])) (fun _ => trivial)
      (by
        intro i sl hsl
        have hm : sl ∈ outs := by
          have : sl = outs[2] ∨ sl = outs[0] := by simpa [Job.inputs, Call.inputs] using hsl
          rcases this with rfl | rfl <;> exact List.getElem_mem _
        exact g2.outs c (by simp) outs hr sl hm)
      (by intro i _ _ _ _ h; cases h)
    obtain ⟨c', rfl⟩ := List.length_eq_one_iff.1 (show new'.length = 1 by simpa using congrArg List.length hjobs')
    have hj' : c'.job = .seq (.combine [outs[2], outs[0]]) := by simpa using hjobs'
    obtain ⟨sl, h4, h5⟩ := C54_round_trip arch exShared σ' known' _ exStart.poolNodup hlt h' c c' (by simp) (by simp)
      ⟨0, 0, 3, 3⟩ 2 (by rw [hj]; rfl) (by decide) outs hr [outs[2], outs[0]] (by
        match outs, h3 with
        | [x, y, z], _ => exact ⟨[x, z], List.Perm.swap _ _ _, by simp⟩) (by simp) hj'
    refine ⟨σ', known', c, c', sl, h', hj, h4, ⟨outs, hr, h3, hj'⟩, ?_⟩
    have := (C54_history arch exShared σ' known' _ exStart.poolNodup hlt h' c (by simp)).2
    rw [hj, hi] at this
    simp only [Job.inputs, Call.inputs, List.map_cons, List.map_nil] at this
    rw [h5]
    simpa using this
  | _ => rw [hr] at h1; cases h1

/-- A history with krawczyk.Split of two bytes into 4 shares with threshold 2, then krawczyk.Combine of the last and the
first of them and a nil entry. -/
example (arch : Arch) : ∃ σ known c c' sl, History arch exShared σ known [c, c'] ∧
    c.job = .seq (.krawczykSplit exEnv ⟨2, 1, 2, 3⟩ 4 2 (List.range 255)) ∧ c'.result = ok [sl] ∧
    (∃ outs, c.result = ok outs ∧ ∃ h4 : outs.length = 4,
      c'.job = .seq (.krawczykCombine exEnv [some outs[3], none, some outs[0]] 4 2)) ∧
    contents σ.heap sl = [7, 7] := by
  have hlt : ∀ p, ∀ a ∈ exShared.pool p, a < exShared.next := exStart.poolLt
  obtain ⟨σ, known, new, h, -, hjobs, hins⟩ := C54_extend arch exShared exShared _ [] exStart.poolNodup hlt .start
    (n := 0) (fun _ => .seq (.krawczykSplit exEnv ⟨2, 1, 2, 3⟩ 4 2 (List.range 255)))
    (fun _ => ⟨List.Perm.refl _, exEnv_contract⟩)
    (by
      intro i sl hsl
      have : sl = ⟨2, 1, 2, 3⟩ := by simpa [Job.inputs, Call.inputs] using hsl
      subst this
      exact ⟨⟨by decide, fun p => by cases p <;> decide⟩, by unfold InBounds; decide, by decide⟩)
    (by intro i _ _ _ _ h; cases h)
  obtain ⟨c, rfl⟩ := List.length_eq_one_iff.1 (show new.length = 1 by simpa using congrArg List.length hjobs)
  have hj : c.job = .seq (.krawczykSplit exEnv ⟨2, 1, 2, 3⟩ 4 2 (List.range 255)) := by simpa using hjobs
  have hi : c.ins = [[7, 7]] := by
    have : c.ins = [contents exShared.heap ⟨2, 1, 2, 3⟩] := by simpa [Job.inputs, Call.inputs] using hins
    rw [this]; decide
  have h1 := (C54_history arch exShared σ known _ exStart.poolNodup hlt h c (by simp)).1
  rw [hj, hi] at h1
  have h1 := h1 _ (delivers_getD _) ⟨⟨[], 0⟩, ⟨[], 0⟩⟩
  simp only [List.headD_cons] at h1
  obtain ⟨⟨shares, ps⟩, hsp⟩ := (C37_split_accepts { exEnv with arch } exEnv_contract [7, 7] 4 2 (fun k => c.drawn.getD k 0)
    (List.range 255) (List.Perm.refl _) (fun k => c.drawn.getD (16 + k) 0) ⟨⟨[], 0⟩, ⟨[], 0⟩⟩).2
    ⟨by omega, by omega, by omega, by simp, by simp, Or.inl (by omega)⟩
  have hlen := (C36_split_format { exEnv with arch } exEnv_contract [7, 7] 4 2 _ _ (List.Perm.refl _) _ _ _ _ hsp).1
  rw [hsp] at h1
  cases hr : c.result with
  | ok outs =>
    rw [hr, map_ok, map_ok, Outcome.ok.injEq] at h1
    have h4 : outs.length = 4 := by
      have := congrArg List.length h1
      simp at this; omega
    have hsubset : List.filterMap id [some outs[3], none, some outs[0]] ⊆ outs := by
      intro sl hsl
      have : sl = outs[3] ∨ sl = outs[0] := by simpa using hsl
      rcases this with rfl | rfl <;> exact List.getElem_mem _
    have hadm := C54_krawczyk_combine_admissible arch exShared σ known _ exStart.poolNodup hlt h c (by simp) exEnv exEnv
      _ _ _ 4 2 (by rw [hj]; rfl) outs hr _ hsubset
    obtain ⟨σ', known', new', h', -, hjobs', hins'⟩ := C54_extend arch exShared _ _ _ exStart.poolNodup hlt h
      (n := 0) (fun _ => .seq (.krawczykCombine exEnv [some outs[3], none, some outs[0]] 4 2)) (fun _ => hadm.1)
      (fun _ => hadm.2) (by intro i _ _ _ _ h; cases h)
    obtain ⟨c', rfl⟩ := List.length_eq_one_iff.1 (show new'.length = 1 by simpa using congrArg List.length hjobs')
    have hj' : c'.job = .seq (.krawczykCombine exEnv [some outs[3], none, some outs[0]] 4 2) := by simpa using hjobs'
    obtain ⟨sl, h5, h6⟩ := C54_krawczyk_round_trip arch exShared σ' known' _ exStart.poolNodup hlt h' c c' (by simp) (by simp)
      exEnv exEnv ⟨2, 1, 2, 3⟩ 4 2 (by rw [hj]; rfl) outs hr [some outs[3], none, some outs[0]] (by
        match outs, h4 with
        | [x, y, z, w], _ => exact ⟨[x, w], List.Perm.swap _ _ _, by simp⟩) (by simp) hj' rfl rfl rfl
    refine ⟨σ', known', c, c', sl, h', hj, h5, ⟨outs, hr, h4, hj'⟩, ?_⟩
    have := (C54_history arch exShared σ' known' _ exStart.poolNodup hlt h' c (by simp)).2
    rw [hj, hi] at this
    simp only [Job.inputs, Call.inputs, List.map_cons, List.map_nil] at this
    rw [h6]
    simpa using this
  | _ => rw [hr] at h1; cases h1

end Verif.Props
