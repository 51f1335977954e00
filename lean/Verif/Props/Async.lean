import Verif.Proofs.Async
import Verif.Props.History

/-! # C62: programs that make calls at any time -/

namespace Verif.Props
open Verif Outcome Galois Spec Proofs Proofs.Own Shamir Verif.Heap

/-- C62: in a program that makes calls at any time from any number of goroutines and stores into its own memory while
calls run (not into the arguments of running calls), every call that has returned has returned the right result for the
bytes its arguments had when the call was made, and has drawn the right number of random bytes. -/
theorem C62_correct (arch : Arch) (σ : Shared) (hn : (σ.pool .bPool ++ σ.pool .polyPool).Nodup)
    (hlt : ∀ p, ∀ a ∈ σ.pool p, a < σ.next) (s : Program) (hr : Runs arch (Program.start σ) s)
    (c : CallState) (hc : c ∈ s.calls) (o : Outcome (List (List Byte))) (ho : c.returned = some o) :
    JobCorrect arch c.job c.ins c.proc.main.drawn (workerDraws c.proc) o ∧
    ∀ call, c.job = .seq call → Consumes call c.ins o c.proc.main.drawn :=
  have I := pinv_runs (pinv_start arch hn hlt) hr
  ⟨I.correct c hc o ho, I.draws c hc o ho⟩

/-- C62: memory the program knows (its own, and what calls have returned) changes only where the program stores. -/
theorem C62_memory (arch : Arch) (σ : Shared) (hn : (σ.pool .bPool ++ σ.pool .polyPool).Nodup)
    (hlt : ∀ p, ∀ a ∈ σ.pool p, a < σ.next) (s s' : Program) (hr : Runs arch (Program.start σ) s) (e : Event)
    (he : PStep arch s e s') (a : Arr) (ha : a ∈ s.known) :
    a ∈ s'.known ∧ (s'.shared.heap a).length = (s.shared.heap a).length ∧
    ∀ k, (s'.shared.heap a)[k]? ≠ (s.shared.heap a)[k]? → ∃ v, e = .store a k v := by
  have I := pinv_runs (pinv_start arch hn hlt) hr
  cases he with
  | alloc bytes =>
    have e : Function.update s.shared.heap s.shared.next bytes a = s.shared.heap a := by
      rw [Function.update_of_ne]
      rintro rfl
      obtain ⟨⟨h0, g, W, A, -⟩, -⟩ := I
      exact A.inv.newR s.shared.next le_rfl (.inl none) 0 ha
    exact ⟨.inr ha, congrArg List.length e, fun k hk => absurd (congrArg (·[k]?) e) hk⟩
  | store b k v hk hl hfree =>
    refine ⟨ha, ?_, fun q hq => ?_⟩
    · show (Function.update s.shared.heap b ((s.shared.heap b).set k v) a).length = _
      by_cases hb : a = b
      · subst hb; rw [Function.update_self, List.length_set]
      · rw [Function.update_of_ne hb]
    have hq : (Function.update s.shared.heap b ((s.shared.heap b).set k v) a)[q]? ≠ _ := hq
    by_cases hb : a = b
    · subst hb
      rw [Function.update_self] at hq
      by_cases hkq : k = q
      · subst hkq; exact ⟨v, rfl⟩
      · rw [List.getElem?_set_ne hkq] at hq
        exact absurd rfl hq
    · rw [Function.update_of_ne hb] at hq
      exact absurd rfl hq
  | call job hja hin => exact ⟨ha, rfl, fun k hk => absurd rfl hk⟩
  | step i c σ' p' hc hnr h =>
    have e := (pinv_step I hc hnr h).2 a ha
    exact ⟨ha, congrArg List.length e, fun k hk => absurd (congrArg (·[k]?) e) hk⟩
  | ret i c r hc hnr hd => exact ⟨.inl ha, rfl, fun k hk => absurd rfl hk⟩

/-- C62: the slices a call returns lie in memory the program did not know before, and in other arrays than the slices of
other calls that are done. -/
theorem C62_results (arch : Arch) (σ : Shared) (hn : (σ.pool .bPool ++ σ.pool .polyPool).Nodup)
    (hlt : ∀ p, ∀ a ∈ σ.pool p, a < σ.next) (s : Program) (hr : Runs arch (Program.start σ) s)
    (i : Nat) (c : CallState) (hc : s.calls[i]? = some c) (hnr : c.returned = none) (outs : List Slice)
    (hd : c.proc.phase = .done (ok outs)) (sl : Slice) (hsl : sl ∈ outs) :
    sl.arr ∉ s.known ∧ sl.off + sl.cap ≤ (s.shared.heap sl.arr).length ∧ sl.len ≤ sl.cap ∧
    ∀ i' c' outs', i' ≠ i → s.calls[i']? = some c' → c'.returned = none → c'.proc.phase = .done (ok outs') →
      ∀ sl' ∈ outs', sl'.arr ≠ sl.arr := by
  have I := pinv_runs (pinv_start arch hn hlt) hr
  obtain ⟨h1, h2, h3⟩ := (pinv_ret I hc hnr hd).2 outs rfl sl hsl
  refine ⟨h1, h2, h3, ?_⟩
  intro i' c' outs' hne hc' hnr' hd' sl' hsl' e
  obtain ⟨⟨h0, g, W, A, hrdy, -⟩, -⟩ := I
  have own : ∀ i c outs sl, s.calls[i]? = some c → c.returned = none → c.proc.phase = .done (ok outs) → sl ∈ outs →
      ∃ t, callOf t = some i ∧ (sl.arr, 0) ∈ W t := by
    intro i c outs sl hc hnr hd hsl
    have hdw : ((worldOf s).proc (some i)).phase = .done (ok outs) := by
      show (procOf s (some i)).phase = _
      rw [procOf_some (active_some.2 ⟨hc, hnr⟩)]; exact hd
    rcases aowned hrdy A hdw hsl 0 with h | ⟨j, h⟩
    · exact ⟨.inl (some i), rfl, h⟩
    · exact ⟨.inr (some i, j), rfl, h⟩
  obtain ⟨t, ht, hm⟩ := own i c outs sl hc hnr hd hsl
  obtain ⟨t', ht', hm'⟩ := own i' c' outs' sl' hc' hnr' hd' hsl'
  rw [e] at hm'
  refine Set.disjoint_left.1 (A.inv.disjW t t' ?_) hm hm'
  rintro rfl
  rw [ht] at ht'
  exact hne (Option.some.inj ht').symm

/-- C62, round trip: a call of `Combine` whose arguments had the bytes of at least `threshold` of the slices some call had
returned when splitting a secret returns that secret; it does not matter when the calls were made, what else was
running, or what the program did to its copy of the secret in between. -/
theorem C62_round_trip (arch : Arch) (σ : Shared) (hn : (σ.pool .bPool ++ σ.pool .polyPool).Nodup)
    (hlt : ∀ p, ∀ a ∈ σ.pool p, a < σ.next) (s : Program) (hr : Runs arch (Program.start σ) s)
    (c c' : CallState) (hc : c ∈ s.calls) (hc' : c' ∈ s.calls) (secret : Slice) (threshold : Int)
    (hj : splits c.job = some (secret, threshold)) (hlen : secret.len < 2 ^ 32)
    (shares : List (List Byte)) (ho : c.returned = some (ok shares))
    (sub : List Slice) (hj' : c'.job = .seq (.combine sub)) (hsub : c'.ins.Subperm shares) (ht : threshold ≤ sub.length)
    (o : Outcome (List (List Byte))) (ho' : c'.returned = some o) : o = ok [c.ins.headD []] := by
  have I := pinv_runs (pinv_start arch hn hlt) hr
  have hl : (c.ins.headD []).length < 2 ^ 32 := by
    have := (I.lens c hc).1
    have hin : c.job.inputs = [secret] := by
      generalize c.job = job at hj
      cases job with
      | seq call => cases call <;> cases hj <;> rfl
      | splitP => cases hj; rfl
    rw [hin] at this
    cases hci : c.ins with
    | nil => simp
    | cons x l => rw [hci] at this; simp at this; simp only [List.headD_cons]; omega
  obtain ⟨h2, h3, hsh⟩ := jobCorrect_sharing (I.correct c hc _ ho) (I.adm c hc) hj hl
  have h1' := I.correct c' hc' o ho'
  have hl' : c'.ins.length = sub.length := by
    have := congrArg List.length (I.lens c' hc').1
    rw [hj'] at this
    simpa [Job.inputs, Call.inputs] using this
  rw [hj'] at h1'
  have h1' : o = (fun s => [s]) <$> combine c'.ins := h1'
  rw [h1', combine_sharing hsh hsub (by omega) (by omega) h3, map_ok]

/-- C62, round trip for package krawczyk; nil entries in the list given to krawczyk.Combine are allowed. -/
theorem C62_krawczyk_round_trip (arch : Arch) (σ : Shared) (hn : (σ.pool .bPool ++ σ.pool .polyPool).Nodup)
    (hlt : ∀ p, ∀ a ∈ σ.pool p, a < σ.next) (s : Program) (hr : Runs arch (Program.start σ) s)
    (c c' : CallState) (hc : c ∈ s.calls) (hc' : c' ∈ s.calls)
    (env env' : Krawczyk.Env) (secret : Slice) (parts threshold : Int)
    (hj : krawczykSplits c.job = some (env, secret, parts, threshold))
    (shares : List (List Byte)) (ho : c.returned = some (ok shares))
    (ssData : List (Option Slice)) (hj' : c'.job = .seq (.krawczykCombine env' ssData parts threshold))
    (hsub : c'.ins.Subperm shares) (ht : threshold ≤ (ssData.filterMap id).length)
    (ha : env'.aes = env.aes) (hm : env'.lib.missing = env.lib.missing)
    (hnp : env'.lib.allowsNoParity = env.lib.allowsNoParity)
    (o : Outcome (List (List Byte))) (ho' : c'.returned = some o) : o = ok [c.ins.headD []] := by
  have I := pinv_runs (pinv_start arch hn hlt) hr
  have h1 := I.correct c hc _ ho
  have h2 := I.adm c hc
  obtain ⟨hl1, hl2⟩ := I.lens c' hc'
  have hin' : c'.job.inputs = ssData.filterMap id := by rw [hj']; rfl
  rw [hin'] at hl1 hl2
  have hl' : c'.ins.length = (ssData.filterMap id).length := by simpa using congrArg List.length hl1
  have hfm := filterMap_withNils ssData c'.ins hl'
  have hcomb : Krawczyk.combine { env' with arch } (withNils ssData c'.ins) parts threshold = ok (c.ins.headD []) := by
    generalize c.job = job at hj h1 h2
    cases job with
    | seq call =>
      cases call with
      | krawczykSplit e s p t perm =>
        cases hj
        obtain ⟨ps, h3⟩ := fst_map_ok (h1 _ (delivers_getD _) ⟨⟨[], 0⟩, ⟨[], 0⟩⟩)
        exact C35_split_combine { env with arch } { env' with arch } h2.2 ha hm hnp _ _ _ _ _ h2.1 _ _ _ _ _ h3
          (by rw [hfm]; exact hsub) (by rw [hfm, hl']; exact ht)
      | krawczykSplitWithRandomizer e f s p t r =>
        cases hj
        obtain ⟨ps, h1⟩ := h1
        obtain ⟨ps', h3⟩ := fst_map_ok h1
        exact C35_splitWithRandomizer_combine { env with arch } { env' with arch } h2.1 ha hm hnp _ _ _ _ _ _ _ _ _ h3
          (by rw [hfm]; exact hsub) (by rw [hfm, hl']; exact ht)
      | _ => cases hj
    | splitP s p t perm => cases hj
  have hcap : Krawczyk.combineCap { env' with arch } (withNils ssData c'.ins)
      ((ssData.filterMap id).map (·.cap)) parts threshold = ok (c.ins.headD []) := by
    rw [C53_capacity_ok _ _ _ _ _ (by rw [hfm]; simp [hl'])]
    · exact hcomb
    · rw [hfm]
      intro x hx
      obtain ⟨k, hk, rfl⟩ := List.getElem_of_mem hx
      simp only [List.getElem_zip, List.getElem_map]
      simp only [List.length_zip, List.length_map] at hk
      have e := congrArg (fun l => l[k]?) hl1
      simp only [List.getElem?_map] at e
      rw [List.getElem?_eq_getElem (by omega), List.getElem?_eq_getElem (by omega)] at e
      simp only [Option.map_some, Option.some.injEq] at e
      rw [e]
      exact hl2 _ (List.getElem_mem _)
  have h1' := I.correct c' hc' o ho'
  rw [hj'] at h1'
  have h1' : o = (fun s => [s]) <$> Krawczyk.combineCap { env' with arch }
      (withNils ssData c'.ins) ((ssData.filterMap id).map (·.cap)) parts threshold := h1'
  rw [h1', hcap, map_ok]

/-- C62: calls never run for ever, they never wait for something that does not come, and whatever is running can be brought
to its end; only `SplitP` on secrets with lengths just below a multiple of 2^32 panics (C48). -/
theorem C62_terminates (arch : Arch) (σ : Shared) (hn : (σ.pool .bPool ++ σ.pool .polyPool).Nodup)
    (hlt : ∀ p, ∀ a ∈ σ.pool p, a < σ.next) :
    (¬ ∃ f : Nat → Program, ∀ n, ∃ i, PStep arch (f n) (.step i) (f (n + 1)) ∨ PStep arch (f n) (.ret i) (f (n + 1))) ∧
    ∀ s, Runs arch (Program.start σ) s →
      (∀ i c, s.calls[i]? = some c → c.returned = none → c.proc.phase ≠ .panicked →
        ∃ s', PStep arch s (.step i) s' ∨ PStep arch s (.ret i) s') ∧
      (∃ s', Finishes arch s s' ∧ ∀ c ∈ s'.calls, c.returned.isSome ∨ c.proc.phase = .panicked) ∧
      ∀ c ∈ s.calls, c.returned = none → c.proc.phase = .panicked →
        ∃ secret parts threshold perm, c.job = .splitP secret parts threshold perm ∧ 2 ^ 32 - 1024 < secret.len % 2 ^ 32 := by
  constructor
  · rintro ⟨f, hf⟩
    obtain ⟨x, ⟨n, rfl⟩, hmin⟩ := (finish_wf arch).has_min (Set.range f) ⟨f 0, 0, rfl⟩
    exact hmin (f (n + 1)) ⟨n + 1, rfl⟩ (hf n)
  · intro s hr
    have I := pinv_runs (pinv_start arch hn hlt) hr
    refine ⟨?_, pinv_finish s I, fun c hc h1 h2 => pinv_panicked I hc h1 h2⟩
    intro i c hc hnr hp
    rcases pinv_progress I hc hnr with ⟨r, h⟩ | h | ⟨σ', p', h⟩
    · exact ⟨_, .inr (.ret s i c r hc hnr h)⟩
    · exact absurd h hp
    · exact ⟨_, .inl (.step s i c σ' p' hc hnr h)⟩

/-- C62: no goroutine of any call indexes out of range or otherwise panics, and no two of them access the same byte at the
same time with one of them storing; of the memory the program knows, calls access only the bytes of their own arguments,
and only read them. -/
theorem C62_no_race (arch : Arch) (σ : Shared) (hn : (σ.pool .bPool ++ σ.pool .polyPool).Nodup)
    (hlt : ∀ p, ∀ a ∈ σ.pool p, a < σ.next) (s : Program) (hr : Runs arch (Program.start σ) s)
    (i : Nat) (w : Option Nat) (t : Goroutine) (ht : s.Goes i w t) :
    t.prog ≠ .panic ∧
    (∀ a k st, nextAccess t.prog = some (a, k, st) →
      (∀ i' w' t' st', s.Goes i' w' t' → (i', w') ≠ (i, w) → nextAccess t'.prog = some (a, k, st') → st = false ∧ st' = false) ∧
      (a ∈ s.known → st = false ∧
        ∃ c, s.calls[i]? = some c ∧ ∃ sl ∈ c.job.inputs, sl.arr = a ∧ sl.off ≤ k ∧ k < sl.off + sl.len)) := by
  have I := pinv_runs (pinv_start arch hn hlt) hr
  obtain ⟨⟨h0, g, W, A, -⟩, -⟩ := I
  refine ⟨?_, ?_⟩
  · intro hp
    obtain ⟨Q, h⟩ := goes_run A ht
    rw [hp] at h
    exact h
  · intro a k st hacc
    obtain ⟨h1, h2⟩ := goes_access A ht hacc
    constructor
    · intro i' w' t' st' ht' hne hacc'
      obtain ⟨h1', h2'⟩ := goes_access A ht' hacc'
      have hcode := codeOf_ne hne
      constructor
      · by_contra hst
        have hw := h2 (by simpa using hst)
        rcases h1' with h | h
        · exact Set.disjoint_left.1 (A.inv.disjW _ _ hcode) h hw
        · exact Set.disjoint_left.1 (A.inv.disjR _ (.inl (some i'))) hw h
      · by_contra hst
        have hw := h2' (by simpa using hst)
        rcases h1 with h | h
        · exact Set.disjoint_left.1 (A.inv.disjW _ _ hcode) hw h
        · exact Set.disjoint_left.1 (A.inv.disjR _ (.inl (some i))) hw h
    · intro ha
      have hf := readable_disjoint_known A ha (codeOf i w)
      constructor
      · by_contra hst
        exact hf k (h2 (by simpa using hst))
      · rcases h1 with h | h
        · exact absurd h (hf k)
        · obtain ⟨c, hc, hnr, -⟩ := ht
          have h : (a, k) ∈ cellsOf (jobOf s (some i)) := h
          rw [jobOf_some (active_some.2 ⟨hc, hnr⟩)] at h
          exact ⟨c, hc, h⟩

/-! ## Non-vacuity -/

theorem Runs.one {arch : Arch} {s s' : Program} {e : Event} (h : PStep arch s e s') : Runs arch s s' := .single ⟨e, h⟩

/-- What does not change while calls run to their end. -/
theorem finishes_keep {arch : Arch} {s s' : Program} (I : PInv arch s) (h : Finishes arch s s') :
    Runs arch s s' ∧ (∀ a ∈ s.known, a ∈ s'.known ∧ s'.shared.heap a = s.shared.heap a) ∧
    s'.calls.length = s.calls.length ∧
    ∀ (i : Nat) (c : CallState), s.calls[i]? = some c → ∃ c' : CallState, s'.calls[i]? = some c' ∧ c'.job = c.job ∧
      c'.ins = c.ins ∧ (c.returned.isSome → c' = c) := by
  induction h with
  | refl => exact ⟨.refl, fun a ha => ⟨ha, rfl⟩, rfl, fun i c hc => ⟨c, hc, rfl, rfl, fun _ => rfl⟩⟩
  | tail hh hs ih =>
    obtain ⟨h1, h2, h3, h4⟩ := ih
    have I' := pinv_runs I h1
    have upd : ∀ {s : Program} {i : Nat} {c d : CallState}, s.calls[i]? = some c → c.returned = none → d.job = c.job →
        d.ins = c.ins → ∀ (k : Nat) (x : CallState), s.calls[k]? = some x → ∃ c' : CallState, (s.calls.set i d)[k]? = some c' ∧ c'.job = x.job ∧
          c'.ins = x.ins ∧ (x.returned.isSome → c' = x) := by
      intro s i c d hc hnr hj hi k x hx
      by_cases hk : i = k
      · subst hk
        rw [hc] at hx
        cases hx
        exact ⟨d, List.getElem?_set_self (List.getElem?_eq_some_iff.1 hc).1, hj, hi, fun h => by simp [hnr] at h⟩
      · exact ⟨x, by rw [List.getElem?_set_ne hk]; exact hx, rfl, rfl, fun _ => rfl⟩
    obtain ⟨i, hs | hs⟩ := hs
    · refine ⟨h1.tail ⟨_, hs⟩, ?_⟩
      cases hs with
      | step _ c σ' p' hc hnr h =>
        refine ⟨fun a ha => ⟨(h2 a ha).1, ((pinv_step I' hc hnr h).2 a (h2 a ha).1).trans (h2 a ha).2⟩, by simpa using h3, ?_⟩
        intro k x hx
        obtain ⟨y, hy, e1, e2, e3⟩ := h4 k x hx
        obtain ⟨z, hz, f1, f2, f3⟩ := upd (d := { c with proc := p' }) hc hnr rfl rfl k y hy
        exact ⟨z, hz, f1.trans e1, f2.trans e2, fun h => by have := e3 h; subst this; exact f3 h⟩
    · refine ⟨h1.tail ⟨_, hs⟩, ?_⟩
      cases hs with
      | ret _ c r hc hnr h =>
        refine ⟨fun a ha => ⟨.inl (h2 a ha).1, (h2 a ha).2⟩, by simpa using h3, ?_⟩
        intro k x hx
        obtain ⟨y, hy, e1, e2, e3⟩ := h4 k x hx
        obtain ⟨z, hz, f1, f2, f3⟩ := upd (d := { c with returned := some _ }) hc hnr rfl rfl k y hy
        exact ⟨z, hz, f1.trans e1, f2.trans e2, fun h => by have := e3 h; subst this; exact f3 h⟩

/-- Calls with short secrets all return. -/
theorem finishes_all {arch : Arch} {s : Program} (I : PInv arch s)
    (hlen : ∀ c ∈ s.calls, ∀ secret parts threshold perm, c.job = .splitP secret parts threshold perm → secret.len < 2 ^ 32 - 1023) :
    ∃ s', Finishes arch s s' ∧ ∀ c ∈ s'.calls, c.returned.isSome := by
  obtain ⟨s', hf, hd⟩ := pinv_finish s I
  obtain ⟨h1, h2, h3, h4⟩ := finishes_keep I hf
  refine ⟨s', hf, fun c hc => ?_⟩
  rcases hd c hc with h | h
  · exact h
  by_cases hnr : c.returned = none
  · obtain ⟨secret, parts, threshold, perm, hj, hl⟩ := pinv_panicked (pinv_runs I h1) hc hnr h
    obtain ⟨i, hi, rfl⟩ := List.getElem_of_mem hc
    obtain ⟨c', hc', e, -⟩ := h4 i s.calls[i] (List.getElem?_eq_getElem (by omega))
    rw [List.getElem?_eq_getElem hi, Option.some.injEq] at hc'
    rw [hc', e] at hj
    have := hlen _ (List.getElem_mem (by omega : i < s.calls.length)) _ _ _ _ hj
    rw [Nat.mod_eq_of_lt (by omega)] at hl
    omega
  · exact Option.isSome_iff_ne_none.2 hnr

theorem call_next {arch : Arch} {s : Program} {job : Job} (hadm : JobAdmissible job)
    (hin : ∀ sl ∈ job.inputs, sl.arr ∈ s.known ∧ InBounds s.shared.heap sl ∧ sl.len ≤ sl.cap) :
    ∃ s' c, PStep arch s (.call job) s' ∧ s'.shared = s.shared ∧ s'.known = s.known ∧ s'.calls = s.calls ++ [c] ∧ c.job = job ∧
      c.ins = job.inputs.map (contents s.shared.heap) :=
  ⟨_, _, .call s job hadm hin, rfl, rfl, rfl, rfl, rfl⟩

theorem alloc_next {arch : Arch} {s : Program} (I : PInv arch s) (bytes : List Byte) :
    ∃ s' a, PStep arch s (.alloc bytes) s' ∧ s'.shared.heap a = bytes ∧ a ∈ s'.known ∧
      (∀ b ∈ s.known, b ∈ s'.known ∧ s'.shared.heap b = s.shared.heap b) ∧ s'.calls = s.calls := by
  refine ⟨_, s.shared.next, .alloc s bytes, Function.update_self .., .inl rfl, fun b hb => ⟨.inr hb, ?_⟩, rfl⟩
  refine Function.update_of_ne ?_ _ _
  rintro rfl
  obtain ⟨⟨h0, g, W, A, -⟩, -⟩ := I
  exact A.inv.newR s.shared.next le_rfl (.inl none) 0 hb

theorem store_next {arch : Arch} {s : Program} {a : Arr} {k : Nat} (v : Byte) (hk : a ∈ s.known) (hl : k < (s.shared.heap a).length)
    (hfree : ∀ c ∈ s.calls, c.returned = none → ∀ sl ∈ c.job.inputs, sl.arr = a → k < sl.off ∨ sl.off + sl.len ≤ k) :
    ∃ s', PStep arch s (.store a k v) s' ∧ s'.shared.heap a = (s.shared.heap a).set k v ∧
      (∀ b, b ≠ a → s'.shared.heap b = s.shared.heap b) ∧ s'.known = s.known ∧ s'.calls = s.calls :=
  ⟨_, .store s a k v hk hl hfree, Function.update_self .., fun _ hb => Function.update_of_ne hb _ _, rfl, rfl⟩

/-- `Split` and `SplitP` run concurrently; while they run the program stores into the array in which the secret of `SplitP`
lies (not into the secret).  Afterwards it overwrites the secret of `Split`, copies the third and the first share and makes a
call of `Combine` with the copies, which returns the secret as it was. -/
example (arch : Arch) (perm : List Nat) (hp : perm.Perm (List.range 255)) : ∃ s c0 c1 c2, Runs arch (Program.start exShared) s ∧ s.calls = [c0, c1, c2] ∧
    c0.job = .seq (.split ⟨0, 0, 3, 3⟩ 3 2 perm) ∧ c1.job = .splitP ⟨2, 1, 2, 3⟩ 4 2 perm ∧
    c2.returned = some (ok [[1, 2, 3]]) ∧ s.shared.heap 0 = [99, 2, 3] ∧ s.shared.heap 2 = [5, 7, 7, 7] := by
  have hlt : ∀ p, ∀ a ∈ exShared.pool p, a < exShared.next := exStart.poolLt
  have k0 : 0 ∈ (Program.start exShared).known := ⟨by decide, fun p => by cases p <;> decide⟩
  have k2 : 2 ∈ (Program.start exShared).known := ⟨by decide, fun p => by cases p <;> decide⟩
  have hin0 : ∀ sl ∈ (Job.seq (.split ⟨0, 0, 3, 3⟩ 3 2 perm)).inputs, sl = ⟨0, 0, 3, 3⟩ := by
    intro sl hsl; simpa [Job.inputs, Call.inputs] using hsl
  have hin1 : ∀ sl ∈ (Job.splitP ⟨2, 1, 2, 3⟩ 4 2 perm).inputs, sl = ⟨2, 1, 2, 3⟩ := by
    intro sl hsl; simpa [Job.inputs, Call.inputs] using hsl
  obtain ⟨s1, c0, st1, e1, n1, cs1, j0, i0⟩ := call_next (arch := arch) (s := Program.start exShared)
    (job := .seq (.split ⟨0, 0, 3, 3⟩ 3 2 perm)) hp (by
      intro sl hsl
      rw [hin0 sl hsl]
      exact ⟨k0, by unfold InBounds; decide, by decide⟩)
  obtain ⟨s2, c1, st2, e2, n2, cs2, j1, i1⟩ := call_next (arch := arch) (s := s1)
    (job := .splitP ⟨2, 1, 2, 3⟩ 4 2 perm) hp (by
      intro sl hsl
      rw [hin1 sl hsl, n1, e1]
      exact ⟨k2, by unfold InBounds; decide, by decide⟩)
  have hc2 : s2.calls = [c0, c1] := by rw [cs2, cs1]; rfl
  obtain ⟨s3, st3, h3, o3, n3, cs3⟩ := store_next (arch := arch) (s := s2) (a := 2) (k := 0) 5 (by rw [n2, n1]; exact k2)
    (by rw [e2, e1]; decide) (by
      rw [hc2]
      intro c hc _ sl hsl ha
      simp only [List.mem_cons, List.not_mem_nil, or_false] at hc
      rcases hc with rfl | rfl
      · rw [j0] at hsl
        rw [hin0 sl hsl] at ha; cases ha
      · rw [j1] at hsl
        rw [hin1 sl hsl]; exact .inl (by decide))
  have r3 : Runs arch (Program.start exShared) s3 := ((Runs.one st1).tail ⟨_, st2⟩).tail ⟨_, st3⟩
  have I3 := pinv_runs (pinv_start arch exStart.poolNodup hlt) r3
  have hc3 : s3.calls = [c0, c1] := by rw [cs3, hc2]
  have hh0 : s3.shared.heap 0 = [1, 2, 3] := by rw [o3 0 (by decide), e2, e1]; rfl
  have hh2 : s3.shared.heap 2 = [5, 7, 7, 7] := by rw [h3, e2, e1]; rfl
  have i0 : c0.ins = [[1, 2, 3]] := by rw [i0]; rfl
  have k0' : 0 ∈ s3.known := by rw [n3, n2, n1]; exact k0
  have k2' : 2 ∈ s3.known := by rw [n3, n2, n1]; exact k2
  obtain ⟨s4, hf4, hd4⟩ := finishes_all I3 (by
    rw [hc3]
    intro c hc _ _ _ _ hj
    simp only [List.mem_cons, List.not_mem_nil, or_false] at hc
    rcases hc with rfl | rfl
    · rw [j0] at hj; cases hj
    · rw [j1] at hj; cases hj; decide)
  obtain ⟨r4, m4, l4, c4⟩ := finishes_keep I3 hf4
  have I4 := pinv_runs I3 r4
  obtain ⟨d0, g0, j0', i0', -⟩ := c4 0 c0 (by rw [hc3]; rfl)
  obtain ⟨d1, g1, j1', i1', -⟩ := c4 1 c1 (by rw [hc3]; rfl)
  have hc4 : s4.calls = [d0, d1] := by
    have hl : s4.calls.length = 2 := l4.trans (congrArg List.length hc3)
    refine List.ext_getElem? fun k => ?_
    rcases k with _ | _ | k
    · exact g0
    · exact g1
    · rw [List.getElem?_eq_none (by omega)]; rfl
  obtain ⟨o0, ho0⟩ := Option.isSome_iff_exists.1 (hd4 d0 (List.mem_of_getElem? g0))
  have h1 := I4.correct d0 (List.mem_of_getElem? g0) o0 ho0
  rw [j0', i0', j0, i0] at h1
  have h1 := h1 _ (delivers_getD _) ⟨⟨[], 0⟩, ⟨[], 0⟩⟩
  simp only [List.headD_cons] at h1
  obtain ⟨⟨shares, ps⟩, hsp⟩ := (C13_split_validates arch [1, 2, 3] 3 2 perm hp
    (fun k => d0.proc.main.drawn.getD k 0) ⟨⟨[], 0⟩, ⟨[], 0⟩⟩)
  have hl3 := (C12_split_format arch [1, 2, 3] 3 2 _ hp _ _ _ _ hsp).1
  rw [hsp, map_ok] at h1
  subst h1
  simp only at ho0
  obtain ⟨x, y, z, rfl⟩ : ∃ x y z, shares = [x, y, z] := by
    match shares, hl3 with
    | [x, y, z], _ => exact ⟨x, y, z, rfl⟩
  -- overwrite the secret, copy two shares
  obtain ⟨s5, st5, h5, o5, n5, cs5⟩ := store_next (arch := arch) (s := s4) (a := 0) (k := 0) 99 (m4 0 k0').1
    (by rw [(m4 0 k0').2, hh0]; decide) (by
      intro c hc hnr
      have := hd4 c hc
      rw [hnr] at this; cases this)
  have I5 := pinv_pstep I4 st5
  obtain ⟨s6, a6, st6, h6, ka6, m6, cs6⟩ := alloc_next (arch := arch) I5 z
  have I6 := pinv_pstep I5 st6
  obtain ⟨s7, a7, st7, h7, ka7, m7, cs7⟩ := alloc_next (arch := arch) I6 x
  have I7 := pinv_pstep I6 st7
  have h67 : s7.shared.heap a6 = z := by rw [(m7 a6 ka6).2, h6]
  obtain ⟨s8, c2, st8, e8, n8, cs8, j2, i2⟩ := call_next (arch := arch) (s := s7)
    (job := .seq (.combine [⟨a6, 0, z.length, z.length⟩, ⟨a7, 0, x.length, x.length⟩])) trivial (by
      intro sl hsl
      have : sl = ⟨a6, 0, z.length, z.length⟩ ∨ sl = ⟨a7, 0, x.length, x.length⟩ := by
        simpa [Job.inputs, Call.inputs] using hsl
      rcases this with rfl | rfl
      · exact ⟨(m7 a6 ka6).1, by unfold InBounds; rw [h67]; simp, le_rfl⟩
      · exact ⟨ka7, by unfold InBounds; rw [h7]; simp, le_rfl⟩)
  have I8 := pinv_pstep I7 st8
  have i2 : c2.ins = [z, x] := by rw [i2]; simp [Job.inputs, Call.inputs, contents, h67, h7]
  have hc8 : s8.calls = [d0, d1, c2] := by rw [cs8, cs7, cs6, cs5, hc4]; rfl
  obtain ⟨o1, ho1⟩ := Option.isSome_iff_exists.1 (hd4 d1 (List.mem_of_getElem? g1))
  obtain ⟨s9, hf9, hd9⟩ := finishes_all I8 (by
    rw [hc8]
    intro c hc _ _ _ _ hj
    simp only [List.mem_cons, List.not_mem_nil, or_false] at hc
    rcases hc with rfl | rfl | rfl
    · rw [j0', j0] at hj; cases hj
    · rw [j1', j1] at hj; cases hj; decide
    · rw [j2] at hj; cases hj)
  obtain ⟨r9, m9, l9, c9⟩ := finishes_keep I8 hf9
  obtain ⟨f0, w0, j0'', i0'', q0⟩ := c9 0 d0 (by rw [hc8]; rfl)
  obtain ⟨f1, w1, j1'', i1'', q1⟩ := c9 1 d1 (by rw [hc8]; rfl)
  obtain ⟨f2, w2, j2'', i2'', -⟩ := c9 2 c2 (by rw [hc8]; rfl)
  obtain rfl := q0 (by rw [ho0]; rfl)
  obtain rfl := q1 (by rw [ho1]; rfl)
  have hc9 : s9.calls = [f0, f1, f2] := by
    have hl : s9.calls.length = 3 := l9.trans (congrArg List.length hc8)
    refine List.ext_getElem? fun k => ?_
    rcases k with _ | _ | _ | k
    · exact w0
    · exact w1
    · exact w2
    · rw [List.getElem?_eq_none (by omega)]; rfl
  have rs : Runs arch (Program.start exShared) s9 :=
    (((((r3.trans r4).tail ⟨_, st5⟩).tail ⟨_, st6⟩).tail ⟨_, st7⟩).tail ⟨_, st8⟩).trans r9
  obtain ⟨o2, ho2⟩ := Option.isSome_iff_exists.1 (hd9 f2 (List.mem_of_getElem? w2))
  have key := C62_round_trip arch exShared exStart.poolNodup hlt s9 rs f0 f2 (List.mem_of_getElem? w0) (List.mem_of_getElem? w2)
    ⟨0, 0, 3, 3⟩ 2 (by rw [j0', j0]; rfl) (by decide) [x, y, z] ho0 _ (by rw [j2'', j2])
    (by rw [i2'', i2]; exact ⟨[x, z], List.Perm.swap _ _ _, by simp⟩) (by simp) o2 ho2
  have kk0 : 0 ∈ s5.known := by rw [n5]; exact (m4 0 k0').1
  have kk2 : 2 ∈ s5.known := by rw [n5]; exact (m4 2 k2').1
  have heap9 : ∀ a ∈ s5.known, s9.shared.heap a = s5.shared.heap a := by
    intro a ha
    have a6 := m6 a ha
    have a7 := m7 a a6.1
    rw [(m9 a (by rw [n8]; exact a7.1)).2, e8, a7.2, a6.2]
  refine ⟨s9, f0, f1, f2, rs, hc9, j0'.trans j0, j1'.trans j1, ?_, ?_, ?_⟩
  · rw [ho2, key, i0', i0]; rfl
  · rw [heap9 0 kk0, h5, (m4 0 k0').2, hh0]; rfl
  · rw [heap9 2 kk2, o5 2 (by decide), (m4 2 k2').2, hh2]

/-- A call is made while no other call runs, and runs to its end. -/
theorem call_finishes {arch : Arch} {s : Program} (I : PInv arch s) (hret : ∀ c ∈ s.calls, c.returned.isSome) {call : Call}
    (hadm : JobAdmissible (.seq call))
    (hin : ∀ sl ∈ call.inputs, sl.arr ∈ s.known ∧ InBounds s.shared.heap sl ∧ sl.len ≤ sl.cap) :
    ∃ s' c o, Runs arch s s' ∧ s'.calls = s.calls ++ [c] ∧ c.job = .seq call ∧ c.ins = call.inputs.map (contents s.shared.heap) ∧
      c.returned = some o ∧ (∀ c ∈ s'.calls, c.returned.isSome) ∧
      ∀ a ∈ s.known, a ∈ s'.known ∧ s'.shared.heap a = s.shared.heap a := by
  obtain ⟨s1, c1, st1, e1, n1, cs1, j1, i1⟩ := call_next (arch := arch) hadm hin
  have I1 := pinv_pstep I st1
  have hnone : ∀ {c : CallState}, c.returned.isSome → c.returned ≠ none := fun h e => by rw [e] at h; cases h
  obtain ⟨s2, hf, hd⟩ : ∃ s', Finishes arch s1 s' ∧ ∀ c ∈ s'.calls, c.returned.isSome := by
    obtain ⟨s', hf, hd⟩ := pinv_finish s1 I1
    obtain ⟨h1, h2, h3, h4⟩ := finishes_keep I1 hf
    refine ⟨s', hf, fun c hc => ?_⟩
    rcases hd c hc with h | h
    · exact h
    by_cases hnr : c.returned = none
    · exfalso
      obtain ⟨secret, parts, threshold, perm, hj, -⟩ := pinv_panicked (pinv_runs I1 h1) hc hnr h
      obtain ⟨i, hi, rfl⟩ := List.getElem_of_mem hc
      have hi1 : i < s1.calls.length := by omega
      obtain ⟨c', hc', e, -, f⟩ := h4 i s1.calls[i] (List.getElem?_eq_getElem hi1)
      rw [List.getElem?_eq_getElem hi, Option.some.injEq] at hc'
      by_cases hl : i < s.calls.length
      · have g : s1.calls[i] = s.calls[i] := by simp [cs1, List.getElem_append_left hl]
        have := hret s.calls[i] (List.getElem_mem hl)
        rw [← g] at this
        have := f this
        subst this
        rw [hc'] at hnr
        rw [hnr] at this; cases this
      · have g : s1.calls[i] = c1 := by
          have : i = s.calls.length := by rw [cs1] at hi1; simp at hi1; omega
          subst this
          simp [cs1]
        rw [hc', e, g, j1] at hj
        cases hj
    · exact Option.isSome_iff_ne_none.2 hnr
  obtain ⟨r2, m2, l2, k2⟩ := finishes_keep I1 hf
  obtain ⟨c, hc, hj, hi, -⟩ := k2 s.calls.length c1 (by rw [cs1]; simp)
  obtain ⟨o, ho⟩ := Option.isSome_iff_exists.1 (hd c (List.mem_of_getElem? hc))
  refine ⟨s2, c, o, (Runs.one st1).trans r2, ?_, hj.trans j1, hi.trans i1, ho, hd, fun a ha => ?_⟩
  · refine List.ext_getElem? fun k => ?_
    rcases Nat.lt_trichotomy k s.calls.length with hk | rfl | hk
    · obtain ⟨c', hc', -, -, f⟩ := k2 k s.calls[k] (by rw [cs1, List.getElem?_append_left hk, List.getElem?_eq_getElem hk])
      rw [hc', f (hret _ (List.getElem_mem hk)), List.getElem?_append_left hk, List.getElem?_eq_getElem hk]
    · rw [hc]; simp
    · rw [List.getElem?_eq_none (by rw [l2, cs1]; simp; omega), List.getElem?_eq_none (by simp; omega)]
  · have := m2 a (by rw [n1]; exact ha)
    exact ⟨this.1, this.2.trans (by rw [e1])⟩

/-- krawczyk.Split, then krawczyk.Combine on copies of the fifth, the first and the third share, with a nil between them. -/
example (arch : Arch) (perm : List Nat) (hp : perm.Perm (List.range 255)) : ∃ s c0 c1, Runs arch (Program.start exShared) s ∧
    s.calls = [c0, c1] ∧ c0.job = .seq (.krawczykSplit exEnv ⟨2, 1, 2, 3⟩ 5 3 perm) ∧
    (∃ a b c, c1.job = .seq (.krawczykCombine exEnv [some a, none, some b, some c] 5 3)) ∧
    c1.returned = some (ok [[7, 7]]) ∧ c0.proc.main.drawn.length = 76 := by
  have hlt : ∀ p, ∀ a ∈ exShared.pool p, a < exShared.next := exStart.poolLt
  have k2 : 2 ∈ (Program.start exShared).known := ⟨by decide, fun p => by cases p <;> decide⟩
  have I0 := pinv_start arch exStart.poolNodup hlt
  obtain ⟨s1, c0, o0, r1, cs1, j0, i0, ho0, d1, -⟩ := call_finishes I0 (by simp [Program.start])
    (call := .krawczykSplit exEnv ⟨2, 1, 2, 3⟩ 5 3 perm) ⟨hp, exEnv_contract⟩ (by
      intro sl hsl
      have : sl = ⟨2, 1, 2, 3⟩ := by simpa [Call.inputs] using hsl
      subst this
      exact ⟨k2, by unfold InBounds; decide, by decide⟩)
  have cs1 : s1.calls = [c0] := cs1
  have i0 : c0.ins = [[7, 7]] := by rw [i0]; rfl
  have I1 := pinv_runs I0 r1
  obtain ⟨h1, hcons⟩ := C62_correct arch exShared exStart.poolNodup hlt s1 r1 c0 (by simp [cs1]) o0 ho0
  rw [j0, i0] at h1
  have h1 := h1 _ (delivers_getD _) ⟨⟨[], 0⟩, ⟨[], 0⟩⟩
  simp only [List.headD_cons] at h1
  obtain ⟨⟨shares, ps⟩, hsp⟩ := (C37_split_accepts { exEnv with arch } exEnv_contract [7, 7] 5 3
    (fun k => c0.proc.main.drawn.getD k 0) perm hp (fun k => c0.proc.main.drawn.getD (16 + k) 0) ⟨⟨[], 0⟩, ⟨[], 0⟩⟩).2
    ⟨by omega, by omega, by omega, by simp, by simp, Or.inl (by omega)⟩
  have hfmt := C36_split_format { exEnv with arch } exEnv_contract _ _ _ _ _ hp _ _ _ _ hsp
  rw [hsp, map_ok] at h1
  subst h1
  simp only at ho0
  have hl5 : shares.length = 5 := by have := hfmt.1; omega
  obtain ⟨x, x1, y, x3, z, rfl⟩ : ∃ x x1 y x3 z, shares = [x, x1, y, x3, z] := by
    match shares, hl5 with
    | [x, x1, y, x3, z], _ => exact ⟨x, x1, y, x3, z, rfl⟩
  have hlen : ∀ d ∈ [x, x1, y, x3, z], d.length = 23 := by
    intro d hd
    obtain ⟨i, hi, rfl⟩ := List.getElem_of_mem hd
    have := (hfmt.2 i (by simp at hi; omega)).1
    rw [List.getD_eq_getElem?_getD, List.getElem?_eq_getElem hi, Option.getD_some] at this
    rw [this]; decide
  obtain ⟨s2, a, st2, ha, ka, m2, cs2⟩ := alloc_next (arch := arch) I1 z
  have I2 := pinv_pstep I1 st2
  obtain ⟨s3, b, st3, hb, kb, m3, cs3⟩ := alloc_next (arch := arch) I2 x
  have I3 := pinv_pstep I2 st3
  obtain ⟨s4, c, st4, hc, kc, m4, cs4⟩ := alloc_next (arch := arch) I3 y
  have I4 := pinv_pstep I3 st4
  have ha4 : s4.shared.heap a = z := by rw [(m4 a (m3 a ka).1).2, (m3 a ka).2, ha]
  have hb4 : s4.shared.heap b = x := by rw [(m4 b kb).2, hb]
  have cs4 : s4.calls = [c0] := by rw [cs4, cs3, cs2, cs1]
  have hin : ∀ sl ∈ (Call.krawczykCombine exEnv [some ⟨a, 0, 23, 23⟩, none, some ⟨b, 0, 23, 23⟩, some ⟨c, 0, 23, 23⟩] 5 3).inputs,
      sl = ⟨a, 0, 23, 23⟩ ∨ sl = ⟨b, 0, 23, 23⟩ ∨ sl = ⟨c, 0, 23, 23⟩ := by
    intro sl hsl; simpa [Call.inputs] using hsl
  obtain ⟨s5, c1, o1, r5, cs5, j1, i1, ho1, d5, -⟩ := call_finishes I4 (by rw [cs4]; simp [ho0])
    (call := .krawczykCombine exEnv [some ⟨a, 0, 23, 23⟩, none, some ⟨b, 0, 23, 23⟩, some ⟨c, 0, 23, 23⟩] 5 3) (by
      intro sl hsl h22
      rcases hin sl hsl with rfl | rfl | rfl <;> simp at h22) (by
      intro sl hsl
      rcases hin sl hsl with rfl | rfl | rfl
      · exact ⟨(m4 a (m3 a ka).1).1, by unfold InBounds; rw [ha4]; simp [hlen], le_rfl⟩
      · exact ⟨(m4 b kb).1, by unfold InBounds; rw [hb4]; simp [hlen], le_rfl⟩
      · exact ⟨kc, by unfold InBounds; rw [hc]; simp [hlen], le_rfl⟩)
  have cs5 : s5.calls = [c0, c1] := by rw [cs5, cs4]; rfl
  have hz : ∀ d ∈ [x, x1, y, x3, z], d.take 23 = d := fun d hd => List.take_of_length_le (by rw [hlen d hd])
  have i1 : c1.ins = [z, x, y] := by
    rw [i1]
    simp [Call.inputs, contents, ha4, hb4, hc, hz]
  have rs : Runs arch (Program.start exShared) s5 := (((r1.tail ⟨_, st2⟩).tail ⟨_, st3⟩).tail ⟨_, st4⟩).trans r5
  have key := C62_krawczyk_round_trip arch exShared exStart.poolNodup hlt s5 rs c0 c1 (by simp [cs5]) (by simp [cs5])
    exEnv exEnv ⟨2, 1, 2, 3⟩ 5 3 (by rw [j0]; rfl) _ ho0 _ j1
    (by
      rw [i1]
      refine ⟨[x, y, z], ?_, ?_⟩
      · exact (List.perm_append_comm (l₁ := [z]) (l₂ := [x, y])).symm
      · exact (((List.Sublist.refl [z]).cons x3).cons_cons y |>.cons x1).cons_cons x)
    (by simp) rfl rfl rfl o1 ho1
  refine ⟨s5, c0, c1, rs, cs5, j0, ⟨_, _, _, j1⟩, ?_, ?_⟩
  · rw [ho1, key, i0]; rfl
  · have := hcons _ j0
    simpa [Consumes] using this

/-- While any calls run, a store of the program to byte 0 of an array leaves byte 3 of it alone. -/
example (arch : Arch) (s s' : Program) (hr : Runs arch (Program.start exShared) s) (v : Byte)
    (he : PStep arch s (.store 2 0 v) s') (h : s'.shared.heap 2 = [v, 7, 7, 8]) : (s.shared.heap 2)[3]? = some 8 := by
  have hlt : ∀ p, ∀ a ∈ exShared.pool p, a < exShared.next := exStart.poolLt
  have hk : 2 ∈ s.known := by cases he; assumption
  have := (C62_memory arch exShared exStart.poolNodup hlt s s' hr _ he 2 hk).2.2 3
  rw [h] at this
  by_contra c
  obtain ⟨w, hw⟩ := this (by simpa using fun e => c e.symm)
  simp at hw

/-- Two calls are made, and from then on any schedule may follow: what they return is in different arrays, none of which is
the one in which the program keeps its secrets; no goroutine of a call is ever about to store into that one, and the program
can always be brought to a state in which both calls are over. -/
example (arch : Arch) (perm : List Nat) (hp : perm.Perm (List.range 255)) :
    ∃ s0, Runs arch (Program.start exShared) s0 ∧ s0.calls.length = 2 ∧ ∀ s, Finishes arch s0 s →
      (∀ i w t k, s.Goes i w t → nextAccess t.prog ≠ some (0, k, true)) ∧
      (∀ c0 c1 o0 o1, s.calls = [c0, c1] → c0.returned = none → c1.returned = none → c0.proc.phase = .done (ok o0) →
        c1.proc.phase = .done (ok o1) → ∀ x ∈ o0, ∀ y ∈ o1, x.arr ≠ y.arr ∧ x.arr ≠ 0) ∧
      ∃ s', Finishes arch s s' ∧ ∀ c ∈ s'.calls, c.returned.isSome ∨ c.proc.phase = .panicked := by
  have hlt : ∀ p, ∀ a ∈ exShared.pool p, a < exShared.next := exStart.poolLt
  have k0 : 0 ∈ (Program.start exShared).known := ⟨by decide, fun p => by cases p <;> decide⟩
  have I0 := pinv_start arch exStart.poolNodup hlt
  have hin : ∀ sl ∈ (Job.splitP ⟨0, 0, 3, 3⟩ 3 2 perm).inputs, sl.arr ∈ (Program.start exShared).known ∧
      InBounds (Program.start exShared).shared.heap sl ∧ sl.len ≤ sl.cap := by
    intro sl hsl
    have : sl = ⟨0, 0, 3, 3⟩ := by simpa [Job.inputs] using hsl
    subst this
    exact ⟨k0, by unfold InBounds; decide, by decide⟩
  obtain ⟨s1, c0, st1, e1, n1, cs1, -⟩ := call_next (arch := arch) (s := Program.start exShared)
    (job := .splitP ⟨0, 0, 3, 3⟩ 3 2 perm) hp hin
  obtain ⟨s2, c1, st2, e2, n2, cs2, -⟩ := call_next (arch := arch) (s := s1) (job := .splitP ⟨0, 0, 3, 3⟩ 3 2 perm) hp
    (by rw [n1, e1]; exact hin)
  have r2 : Runs arch (Program.start exShared) s2 := (Runs.one st1).tail ⟨_, st2⟩
  refine ⟨s2, r2, by rw [cs2, cs1]; rfl, fun s hf => ?_⟩
  obtain ⟨rf, mf, -⟩ := finishes_keep (pinv_runs I0 r2) hf
  have hr := r2.trans rf
  have hk : 0 ∈ s.known := (mf 0 (by rw [n2, n1]; exact k0)).1
  refine ⟨fun i w t k hg ha => ?_, fun c0 c1 o0 o1 hc h0 h1 d0 d1 x hx y hy => ?_,
    ((C62_terminates arch exShared exStart.poolNodup hlt).2 s hr).2.1⟩
  · have := (((C62_no_race arch exShared exStart.poolNodup hlt s hr i w t hg).2 0 k true ha).2 hk).1
    cases this
  · obtain ⟨a1, -, -, a2⟩ := C62_results arch exShared exStart.poolNodup hlt s hr 0 c0 (by rw [hc]; rfl) h0 o0 d0 x hx
    exact ⟨fun e => a2 1 c1 o1 (by decide) (by rw [hc]; rfl) h1 d1 y hy e.symm, fun e => a1 (e ▸ hk)⟩

end Verif.Props
