import Verif.Proofs.SoloCalls
import Verif.Proofs.AsyncBalance

/-! # A program that makes one call at a time: results and pools -/

namespace Verif.Proofs.Alone
open Verif Outcome Galois Shamir Spec Pool Csprng Verif.Heap
open Verif.Proofs.Own (wp Fresh pooled mem_pooled Keeps PInv pinv_pstep pinv_start pinv_runs Shows codeOf goes_run
  still_combineP still_regenerateP still_splitGenericP still_krawczykCombineP still_splitPSetup still_workerP)

/-! ## Steps that do not concern the pools -/

theorem poolsOf_congr {σ σ' : Shared} (h1 : σ'.pool = σ.pool) (h2 : σ'.size = σ.size)
    (h3 : ∀ p, ∀ a ∈ σ.pool p, σ'.heap a = σ.heap a) : poolsOf σ' = poolsOf σ := by
  unfold poolsOf
  rw [bufs_congr (congrFun h1 _) h2 (h3 _), bufs_congr (congrFun h1 _) h2 (h3 _)]

theorem quiet_step {α : Type} {R W : Set Own.Loc} {Q : Own.Post α} {σ σ' : Shared} {p p' : Prog α} {bs log : List Byte}
    (hst : Step σ p σ' p' bs) (hk : Keeps 0 0 p 0) (hw : wp R p Q W σ.heap log)
    (hf : ∀ a ∈ pooled σ, Fresh W a) (hlt : ∀ a ∈ pooled σ, a < σ.next) :
    poolsOf σ' = poolsOf σ ∧ Keeps 0 0 p' 0 := by
  cases hst with
  | alloc n k =>
    refine ⟨poolsOf_congr rfl rfl fun p a ha => ?_, hk _⟩
    exact Function.update_of_ne (hlt a (mem_pooled.2 ⟨p, ha⟩)).ne _ _
  | read a i k v hv => exact ⟨rfl, hk _⟩
  | readPanic => exact ⟨rfl, trivial⟩
  | write a i v _ hl =>
    refine ⟨poolsOf_congr rfl rfl fun p b hb => ?_, hk⟩
    refine Function.update_of_ne ?_ _ _
    rintro rfl
    exact hf _ (mem_pooled.2 ⟨p, hb⟩) i hw.1
  | writePanic => exact ⟨rfl, trivial⟩
  | get p k a rest hp => exact absurd hk.1 (Nat.not_lt_zero _)
  | getNew p k hp => exact absurd hk.1 (Nat.not_lt_zero _)
  | put p a _ hl => exact absurd hk.1 (Nat.not_lt_zero _)
  | putDrop p a _ hl => exact absurd hk.1 (Nat.not_lt_zero _)
  | rand k v => exact ⟨rfl, hk _⟩

/-! ## Calls -/

/-- The functions that use the pools. -/
def usesPools : Job → Bool
  | .seq (.split ..) => true
  | .seq (.splitWithRandomizer ..) => true
  | .seq (.splitWithRandomizerOld ..) => true
  | .seq (.krawczykSplit ..) => true
  | .seq (.krawczykSplitWithRandomizer ..) => true
  | _ => false

/-- A call under way. -/
def Active (arch : Arch) (ps : Pools) (σ : Shared) (c : CallState) : Prop :=
  if usesPools c.job = true then ∃ call, c.job = .seq call ∧ c.proc.workers = [] ∧
    ((c.proc.phase = .sequential ∧ solo c.proc.main.prog
        (fun r σ' log => Alone arch call c.ins log ps (shown σ' r) (poolsOf σ')) σ c.proc.main.drawn) ∨
      ∃ r, c.proc.phase = .done r ∧ Alone arch call c.ins c.proc.main.drawn ps (shown σ r) (poolsOf σ))
  else poolsOf σ = ps ∧ Keeps 0 0 c.proc.main.prog 0 ∧ ∀ w ∈ c.proc.workers, Keeps 0 0 w.prog 0

theorem solo_call (arch : Arch) {c : Call} (hu : usesPools (.seq c) = true) (hadm : Admissible c) {σ : Shared}
    (hs : ∀ s ∈ c.inputs, Sep σ [s.arr] ∧ InBounds σ.heap s) :
    solo (c.prog arch) (fun r σ' log => Alone arch c (c.inputs.map (contents σ.heap)) log (poolsOf σ) (shown σ' r) (poolsOf σ'))
      σ [] := by
  cases c with
  | split s p t perm =>
    obtain ⟨hsep, hb⟩ := hs s (by simp [Call.inputs])
    refine solo_splitP (bs := contents σ.heap s) arch hadm hsep (by simp) ⟨hb, rfl⟩ ?_
    intro r σ' vs hy _
    rw [List.nil_append]
    exact hy
  | splitWithRandomizer f s p t r =>
    obtain ⟨hsep, hb⟩ := hs s (by simp [Call.inputs])
    exact solo_splitWithRandomizerP (bs := contents σ.heap s) arch f hadm hsep (by simp) ⟨hb, rfl⟩ fun o σ' hy _ => hy
  | splitWithRandomizerOld s p t r =>
    obtain ⟨hsep, hb⟩ := hs s (by simp [Call.inputs])
    have h1 : r.perm 255#8 ≠ panic := hadm
    obtain ⟨xs, hx, hp⟩ : ∃ xs, r.perm 255#8 = ok xs ∧ xs.length = 255 := by
      rcases perm_cases r 255#8 with ⟨h, -⟩ | ⟨⟨xs, h, hp⟩, -⟩
      · exact absurd h h1
      · exact ⟨xs, h, by rw [hp.length_eq, length_identBytes]; rfl⟩
    exact solo_splitWithRandomizerOldP (bs := contents σ.heap s) arch hx hp hsep (by simp) ⟨hb, rfl⟩ fun o σ' hy => hy
  | krawczykSplit env s p t perm =>
    obtain ⟨hsep, hb⟩ := hs s (by simp [Call.inputs])
    exact solo_krawczykSplitP (bs := contents σ.heap s) arch hadm.2 hadm.1 hsep ⟨hb, rfl⟩ fun r σ' vs hy => hy
  | krawczykSplitWithRandomizer env f s p t r =>
    obtain ⟨hsep, hb⟩ := hs s (by simp [Call.inputs])
    exact solo_krawczykSplitWithRandomizerP (bs := contents σ.heap s) arch hadm.1 f hadm.2 hsep ⟨hb, rfl⟩
      fun o σ' hy vs => hy
  | _ => cases hu

theorem quiet_job (arch : Arch) {j : Job} (hu : usesPools j = false) : Keeps 0 0 (j.prog arch) 0 := by
  cases j with
  | splitP => exact still_splitPSetup _ _ _ _
  | seq c =>
    cases c with
    | splitGeneric => exact still_splitGenericP _ _ _ _
    | combine => exact still_combineP _
    | regenerate => exact still_regenerateP _ _ _
    | krawczykCombine => exact still_krawczykCombineP _ _ _ _
    | _ => cases hu

/-- A call that is done. -/
theorem active_done {arch : Arch} {ps : Pools} {σ : Shared} {c : CallState} {r : Outcome (List Slice)}
    (h : Active arch ps σ c) (hd : c.proc.phase = .done r)
    (hc : JobCorrect arch c.job c.ins c.proc.main.drawn (workerDraws c.proc) (shown σ r)) :
    JobAlone arch c.job c.ins c.proc.main.drawn (workerDraws c.proc) ps (shown σ r) (poolsOf σ) := by
  unfold Active at h
  split at h
  · obtain ⟨call, hj, -, ⟨hp, -⟩ | ⟨r', hp, ha⟩⟩ := h
    · rw [hd] at hp; cases hp
    · rw [hd] at hp; cases hp
      rw [hj]; exact ha
  · rename_i hu
    obtain ⟨hps, -, -⟩ := h
    revert hc hu
    generalize c.job = j
    intro hc hu
    cases j with
    | splitP => exact ⟨hc, hps⟩
    | seq call =>
      cases call with
      | splitGeneric => exact ⟨hc, hps⟩
      | combine => exact ⟨hc, hps⟩
      | regenerate => exact ⟨hc, hps⟩
      | krawczykCombine => exact ⟨hc, hps⟩
      | _ => exact absurd rfl hu

theorem active_step {arch : Arch} {ps : Pools} {s : Program} {i : Nat} {c : CallState} {σ' : Shared} {p' : Proc}
    (I : PInv arch s) (h : Active arch ps s.shared c) (hc : s.calls[i]? = some c) (hn : c.returned = none)
    (hst : ProcStep c.job s.shared c.proc σ' p') : Active arch ps σ' { c with proc := p' } := by
  obtain ⟨⟨h0, g, W, A, -, -⟩, -⟩ := I
  unfold Active at h ⊢
  dsimp only
  split at h
  · rename_i hu
    rw [if_pos hu]
    obtain ⟨call, hj, hw, hph⟩ := h
    obtain ⟨job, ins, p, ret⟩ := c
    dsimp only at *
    subst hj
    refine ⟨call, rfl, ?_⟩
    cases hst with
    | main =>
      rename_i prog' bs hp hstep
      refine ⟨hw, .inl ⟨hp, ?_⟩⟩
      rcases hph with ⟨-, hsolo⟩ | ⟨r, hp', -⟩
      · exact solo_step hstep hsolo
      · rw [hp] at hp'; cases hp'
    | finish =>
      rename_i r hp hr
      refine ⟨hw, .inr ⟨r, rfl, ?_⟩⟩
      rcases hph with ⟨-, hsolo⟩ | ⟨r, hp', -⟩
      · rw [hr] at hsolo; exact hsolo
      · rw [hp] at hp'; cases hp'
    | worker =>
      have hget := ‹p.workers[_]? = some _›
      rw [hw] at hget; simp at hget
  · rename_i hu
    rw [if_neg hu]
    obtain ⟨hps, hm, hws⟩ := h
    have hlt : ∀ a ∈ pooled s.shared, a < s.shared.next := A.inv.poolLt
    obtain ⟨job, ins, p, ret⟩ := c
    dsimp only at *
    cases hst with
    | main =>
      rename_i prog' bs hp hstep
      obtain ⟨Q, hwp⟩ := goes_run A (i := i) (w := none) (t := p.main) ⟨_, hc, hn, rfl⟩
      obtain ⟨h1, h2⟩ := quiet_step hstep hm hwp (fun a ha => A.inv.poolFreshW a ha _) hlt
      exact ⟨h1.trans hps, h2, hws⟩
    | finish => exact ⟨hps, hm, hws⟩
    | reject => exact ⟨hps, hm, hws⟩
    | enter => exact ⟨hps, hm, hws⟩
    | spawn =>
      refine ⟨hps, hm, fun w hw => ?_⟩
      rcases List.mem_append.1 hw with hw | hw
      · exact hws w hw
      · rw [List.mem_singleton.1 hw]; exact still_workerP _ _ _ _ _ _ _
    | spawnPanic => exact ⟨hps, hm, hws⟩
    | exit => exact ⟨hps, hm, hws⟩
    | join => exact ⟨hps, hm, hws⟩
    | worker =>
      rename_i j w prog' bs hw hstep
      obtain ⟨Q, hwp⟩ := goes_run A (i := i) (w := some j) (t := w) ⟨_, hc, hn, hw⟩
      obtain ⟨h1, h2⟩ := quiet_step hstep (hws w (List.mem_of_getElem? hw)) hwp (fun a ha => A.inv.poolFreshW a ha _) hlt
      refine ⟨h1.trans hps, hm, fun x hx => ?_⟩
      rcases List.mem_or_eq_of_mem_set hx with hx | hx
      · exact hws x hx
      · rw [hx]; exact h2

/-! ## Programs -/

theorem known_apart {arch : Arch} {s : Program} (I : PInv arch s) {a : Arr} (ha : a ∈ s.known) : Sep s.shared [a] := by
  obtain ⟨⟨h0, g, W, A, -, -⟩, -⟩ := I
  constructor
  · refine List.nodup_cons.2 ⟨fun hm => A.inv.poolFreshR a hm (.inl none) 0 ha, A.inv.poolNodup⟩
  · intro b hb
    rcases List.mem_cons.1 hb with rfl | hb
    · by_contra hge
      exact A.inv.newR b (Nat.le_of_not_lt hge) (.inl none) 0 ha
    · exact A.inv.poolLt b hb

theorem pool_bound {arch : Arch} {s : Program} (I : PInv arch s) {p : PoolId} {a : Arr} (ha : a ∈ s.shared.pool p) :
    a < s.shared.next := by
  obtain ⟨⟨h0, g, W, A, -, -⟩, -⟩ := I
  exact A.inv.poolLt a (mem_pooled.2 ⟨p, ha⟩)

/-- The invariant; `pools i` are the pools when call `i` was made. -/
structure AloneInv (arch : Arch) (σ : Shared) (s : Program) (pools : Nat → Pools) : Prop where
  pinv : PInv arch s
  first : pools 0 = poolsOf σ
  last : ∀ i c, s.calls[i]? = some c → c.returned = none → i + 1 = s.calls.length
  past : ∀ i c, s.calls[i]? = some c → ∀ o, c.returned = some o →
    JobAlone arch c.job c.ins c.proc.main.drawn (workerDraws c.proc) (pools i) o (pools (i + 1))
  now : ∀ i c, s.calls[i]? = some c → c.returned = none → Active arch (pools i) s.shared c
  idle : s.openCalls = 0 → pools s.calls.length = poolsOf s.shared

theorem openCalls_zero {s : Program} (h : s.openCalls = 0) {i : Nat} {c : CallState} (hc : s.calls[i]? = some c) :
    c.returned ≠ none := by
  intro hn
  have := List.countP_eq_zero.1 h c (List.mem_of_getElem? hc)
  simp [hn] at this

theorem aloneInv_start (arch : Arch) {σ : Shared} (hn : (σ.pool .bPool ++ σ.pool .polyPool).Nodup)
    (hlt : ∀ p, ∀ a ∈ σ.pool p, a < σ.next) : AloneInv arch σ (Program.start σ) fun _ => poolsOf σ where
  pinv := pinv_start arch hn hlt
  first := rfl
  last i c h := by simp [Program.start] at h
  past i c h := by simp [Program.start] at h
  now i c h := by simp [Program.start] at h
  idle _ := rfl

theorem aloneInv_step {arch : Arch} {σ : Shared} {s s' : Program} {e : Event} {pools : Nat → Pools}
    (I : AloneInv arch σ s pools) (h : PStep arch s e s') (hal : s.openCalls = 0 ∨ ∃ i, e = .step i ∨ e = .ret i) :
    ∃ pools', AloneInv arch σ s' pools' := by
  have hp' := pinv_pstep I.pinv h
  cases h with
  | alloc bytes =>
    have h0 : s.openCalls = 0 := by
      rcases hal with h | ⟨i, h | h⟩
      · exact h
      · cases h
      · cases h
    refine ⟨pools, hp', I.first, I.last, I.past, fun i c hc hn => absurd hn (openCalls_zero h0 hc), fun _ => ?_⟩
    refine (I.idle h0).trans (Eq.symm ?_)
    refine poolsOf_congr rfl rfl fun p a ha => ?_
    exact Function.update_of_ne (pool_bound I.pinv ha).ne _ _
  | store a k v hk hl hfree =>
    have h0 : s.openCalls = 0 := by
      rcases hal with h | ⟨i, h | h⟩
      · exact h
      · cases h
      · cases h
    refine ⟨pools, hp', I.first, I.last, I.past, fun i c hc hn => absurd hn (openCalls_zero h0 hc), fun _ => ?_⟩
    refine (I.idle h0).trans (Eq.symm ?_)
    refine poolsOf_congr rfl rfl fun p b hb => ?_
    refine Function.update_of_ne ?_ _ _
    rintro rfl
    exact (known_apart I.pinv hk).not_pool (by simp) hb
  | call job hadm hin =>
    have h0 : s.openCalls = 0 := by
      rcases hal with h | ⟨i, h | h⟩
      · exact h
      · cases h
      · cases h
    refine ⟨pools, hp', I.first, ?_, ?_, ?_, ?_⟩
    · intro i c hc hn
      by_cases hi : i = s.calls.length
      · subst hi; simp
      · have hlt : i < s.calls.length := by
          have := (List.getElem?_eq_some_iff.1 hc).1
          simp at this; omega
        have hc : (s.calls ++ [_])[i]? = some c := hc
        rw [List.getElem?_append_left hlt] at hc
        exact absurd hn (openCalls_zero h0 hc)
    · intro i c hc o ho
      by_cases hi : i = s.calls.length
      · subst hi
        simp only [List.getElem?_concat_length, Option.some.injEq] at hc
        subst hc
        cases ho
      · have hlt : i < s.calls.length := by
          have := (List.getElem?_eq_some_iff.1 hc).1
          simp at this; omega
        have hc : (s.calls ++ [_])[i]? = some c := hc
        rw [List.getElem?_append_left hlt] at hc
        exact I.past i c hc o ho
    · intro i c hc hn
      by_cases hi : i = s.calls.length
      · subst hi
        simp only [List.getElem?_concat_length, Option.some.injEq] at hc
        subst hc
        have hps := I.idle h0
        unfold Active
        dsimp only
        split
        · rename_i hu
          cases job with
          | splitP => cases hu
          | seq c =>
            refine ⟨c, rfl, rfl, .inl ⟨rfl, ?_⟩⟩
            rw [hps]
            exact solo_call arch hu hadm fun sl hsl => ⟨known_apart I.pinv (hin sl hsl).1, (hin sl hsl).2.1⟩
        · rename_i hu
          exact ⟨hps.symm, quiet_job arch (by simpa using hu), by simp⟩
      · have hlt : i < s.calls.length := by
          have := (List.getElem?_eq_some_iff.1 hc).1
          simp at this; omega
        have hc : (s.calls ++ [_])[i]? = some c := hc
        rw [List.getElem?_append_left hlt] at hc
        exact absurd hn (openCalls_zero h0 hc)
    · intro hz
      exact absurd rfl (openCalls_zero hz (i := s.calls.length) (by simp; rfl))
  | step i c σ' p' hc hn hst =>
    have hlt := (List.getElem?_eq_some_iff.1 hc).1
    have hl := I.last i c hc hn
    refine ⟨pools, hp', I.first, ?_, ?_, ?_, ?_⟩
    · intro j d hd hdn
      show j + 1 = (s.calls.set i _).length
      rw [List.length_set]
      by_cases hj : j = i
      · subst hj; exact hl
      · have hd : (s.calls.set i _)[j]? = some d := hd
        rw [List.getElem?_set_ne (Ne.symm hj)] at hd
        exact I.last j d hd hdn
    · intro j d hd o ho
      have hd : (s.calls.set i _)[j]? = some d := hd
      by_cases hj : j = i
      · subst hj
        rw [List.getElem?_set_self hlt, Option.some.injEq] at hd
        subst hd
        rw [hn] at ho; cases ho
      · rw [List.getElem?_set_ne (Ne.symm hj)] at hd
        exact I.past j d hd o ho
    · intro j d hd hdn
      have hd : (s.calls.set i _)[j]? = some d := hd
      by_cases hj : j = i
      · subst hj
        rw [List.getElem?_set_self hlt, Option.some.injEq] at hd
        subst hd
        exact active_step I.pinv (I.now j c hc hn) hc hn hst
      · rw [List.getElem?_set_ne (Ne.symm hj)] at hd
        exact absurd (I.last j d hd hdn) (by omega)
    · intro hz
      exact absurd hn (openCalls_zero hz (i := i) (c := { c with proc := p' }) (List.getElem?_set_self hlt))
  | ret i c r hc hn hd =>
    have hlt := (List.getElem?_eq_some_iff.1 hc).1
    have hl := I.last i c hc hn
    have hcor := hp'.correct _ (List.mem_of_getElem? (List.getElem?_set_self hlt)) _ rfl
    have key := active_done (I.now i c hc hn) hd hcor
    refine ⟨Function.update pools (i + 1) (poolsOf s.shared), hp', ?_, ?_, ?_, ?_, ?_⟩
    · rw [Function.update_of_ne (by omega)]; exact I.first
    · intro j d hd hdn
      show j + 1 = (s.calls.set i _).length
      rw [List.length_set]
      have hd : (s.calls.set i _)[j]? = some d := hd
      by_cases hj : j = i
      · subst hj; exact hl
      · rw [List.getElem?_set_ne (Ne.symm hj)] at hd
        exact I.last j d hd hdn
    · intro j d hd' o ho
      have hd' : (s.calls.set i _)[j]? = some d := hd'
      by_cases hj : j = i
      · subst hj
        rw [List.getElem?_set_self hlt, Option.some.injEq] at hd'
        subst hd'
        cases ho
        rw [Function.update_self, Function.update_of_ne (by omega)]
        exact key
      · rw [List.getElem?_set_ne (Ne.symm hj)] at hd'
        have hjlt := (List.getElem?_eq_some_iff.1 hd').1
        rw [Function.update_of_ne (by omega), Function.update_of_ne (by omega)]
        exact I.past j d hd' o ho
    · intro j d hd' hdn
      have hd' : (s.calls.set i _)[j]? = some d := hd'
      by_cases hj : j = i
      · subst hj
        rw [List.getElem?_set_self hlt, Option.some.injEq] at hd'
        subst hd'
        cases hdn
      · rw [List.getElem?_set_ne (Ne.symm hj)] at hd'
        exact absurd (I.last j d hd' hdn) (by omega)
    · intro _
      show Function.update pools (i + 1) _ (s.calls.set i _).length = _
      rw [List.length_set, ← hl, Function.update_self]

theorem aloneInv_runs {arch : Arch} {σ : Shared} (hn : (σ.pool .bPool ++ σ.pool .polyPool).Nodup)
    (hlt : ∀ p, ∀ a ∈ σ.pool p, a < σ.next) {s : Program} (h : RunsAlone arch (Program.start σ) s) :
    ∃ pools, AloneInv arch σ s pools := by
  induction h with
  | refl => exact ⟨_, aloneInv_start arch hn hlt⟩
  | tail _ hs ih =>
    obtain ⟨pools, I⟩ := ih
    obtain ⟨e, hs, hal⟩ := hs
    exact aloneInv_step I hs hal

end Verif.Proofs.Alone
