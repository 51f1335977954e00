import Verif.Proofs.SplitPResults
import Mathlib.Data.Finsupp.WellFounded
import Mathlib.Data.Prod.Lex

/-! # Executions of concurrent calls including SplitP are finite -/

namespace Verif.Proofs.Own
open Verif Outcome Galois Shamir Spec Pool Csprng Verif.Heap

variable {ι : Type} [DecidableEq ι]

/-- Steps left in the loop of the calling goroutine. -/
@[irreducible] def loopRank (idx : BitVec 32) : Nat := 2 ^ 32 - idx.toNat + 2

/-- What the calling goroutine still has to do. -/
noncomputable def phaseRank (p : Proc) : Ordinal.{0} :=
  match p.phase with
  | .sequential => Ordinal.omega0 + rank p.main.prog
  | .loop _ idx => (loopRank idx : Ordinal)
  | .waiting _ => 1
  | .done _ => 0
  | .panicked => 0

/-- What the goroutines it has started still have to do. -/
noncomputable def workersRank (p : Proc) : ℕ →₀ Ordinal.{0} :=
  Finsupp.onFinset (Finset.range p.workers.length) (fun j => ((p.workers[j]?).map fun w => rank w.prog).getD 0) (by
    intro j hj
    rw [Finset.mem_range]
    by_contra hc
    exact hj (by rw [List.getElem?_eq_none (Nat.le_of_not_lt hc)]; rfl))

theorem nat_lt_omega_add (n : Nat) (o : Ordinal.{0}) : (n : Ordinal) < Ordinal.omega0 + o :=
  lt_of_lt_of_le (Ordinal.natCast_lt_omega0 n) le_self_add

theorem loopRank_pos (idx : BitVec 32) : 1 < loopRank idx := by unfold loopRank; omega

theorem enter_rank {p : Proc} (hph : p.phase = .sequential) (outs : List Slice) (z : BitVec 32) :
    phaseRank { p with phase := .loop outs z } < phaseRank p := by
  simp only [phaseRank, hph]
  exact nat_lt_omega_add (loopRank z) _

theorem spawn_rank {p : Proc} {secret : Slice} {outs : List Slice} {idx : BitVec 32} (hph : p.phase = .loop outs idx)
    (hlt : idx < secretLen secret)
    (hb : idx ≤ chunkEnd (secretLen secret) idx) (ws : List Goroutine) :
    phaseRank { p with phase := .loop outs (chunkEnd (secretLen secret) idx), workers := ws } < phaseRank p := by
  simp only [phaseRank, hph]
  rw [Nat.cast_lt]
  have h1 : idx.toNat < (chunkEnd (secretLen secret) idx).toNat := by
    have hle : idx.toNat ≤ (chunkEnd (secretLen secret) idx).toNat := hb
    have hlt : idx.toNat < (secretLen secret).toNat := hlt
    revert hle
    unfold chunkEnd
    split
    · exact fun _ => hlt
    · rw [toNat_add_1024]
      have := idx.isLt
      omega
  have := (chunkEnd (secretLen secret) idx).isLt
  unfold loopRank
  omega

theorem exit_rank {p : Proc} {outs : List Slice} {idx : BitVec 32} (hph : p.phase = .loop outs idx) :
    phaseRank { p with phase := .waiting outs } < phaseRank p := by
  simp only [phaseRank, hph]
  exact_mod_cast loopRank_pos idx

theorem panic_rank {p : Proc} {outs : List Slice} {idx : BitVec 32} (hph : p.phase = .loop outs idx) :
    phaseRank { p with phase := .panicked } < phaseRank p := by
  simp only [phaseRank, hph]
  exact_mod_cast (loopRank_pos idx).le

theorem procStep_rank' {job : Job} {σ σ' : Shared} {p p' : Proc} (h : ProcStep job σ p σ' p') :
    phaseRank p' < phaseRank p ∨ phaseRank p' = phaseRank p ∧ workersRank p' < workersRank p := by
  cases h with
  | main =>
    rename_i prog' bs hph hs
    left
    simp only [phaseRank, hph]
    exact add_lt_add_right (rank_step hs) _
  | finish =>
    rename_i c r hph hs
    left
    simp only [phaseRank, hph]
    simpa using nat_lt_omega_add 0 _
  | reject =>
    rename_i c r hph hs
    left
    simp only [phaseRank, hph]
    simpa using nat_lt_omega_add 0 _
  | enter =>
    rename_i outs hph hs
    exact .inl (enter_rank hph outs 0)
  | spawn =>
    rename_i secret parts threshold perm outs idx hlt hb hph
    exact .inl (spawn_rank hph hlt hb.1 _)
  | spawnPanic =>
    rename_i hph
    exact .inl (panic_rank hph)
  | exit =>
    rename_i hph
    exact .inl (exit_rank hph)
  | join =>
    rename_i hph hall
    left
    simp only [phaseRank, hph]
    exact zero_lt_one
  | worker =>
    rename_i j w prog' bs hw hs
    right
    refine ⟨rfl, ?_⟩
    have hjl := (List.getElem?_eq_some_iff.1 hw).1
    have hlt : (workersRank { p with workers := p.workers.set j ⟨prog', w.drawn ++ bs⟩ }) j < workersRank p j := by
      simp only [workersRank, Finsupp.onFinset_apply, hw, List.getElem?_set_self hjl, Option.map_some, Option.getD_some]
      exact rank_step hs
    refine lt_of_le_of_ne (fun k => ?_) (fun e => ?_)
    · by_cases hk : k = j
      · subst hk; exact hlt.le
      · simp only [workersRank, Finsupp.onFinset_apply, List.getElem?_set_ne (Ne.symm hk)]
        exact le_rfl
    · have e' : workersRank { p with workers := p.workers.set j ⟨prog', w.drawn ++ bs⟩ } = workersRank p := e
      rw [e'] at hlt; exact lt_irrefl _ hlt

theorem procStep_rank {job : Job} {σ σ' : Shared} {p p' : Proc} (h : ProcStep job σ p σ' p') :
    toLex (phaseRank p', workersRank p') < toLex (phaseRank p, workersRank p) :=
  Prod.Lex.toLex_lt_toLex.2 (procStep_rank' h)

theorem worldStep_wf [Finite ι] (jobs : ι → Job) : WellFounded (fun s' s : World ι => WorldStep jobs s s') := by
  have : WellFoundedLT (ℕ →₀ Ordinal.{0}) := Finsupp.wellFoundedLT (fun n => not_lt_of_ge (zero_le))
  have hwf : WellFounded ((· < ·) : (ι → Lex (Ordinal.{0} × (ℕ →₀ Ordinal.{0}))) → _ → Prop) := wellFounded_lt
  refine Subrelation.wf ?_ (InvImage.wf (fun s : World ι => fun i => toLex (phaseRank (s.proc i), workersRank (s.proc i))) hwf)
  intro s' s h
  obtain ⟨i, σ', p', hs⟩ := h
  show (_ : ι → Lex (Ordinal × (ℕ →₀ Ordinal))) < _
  rw [Pi.lt_def]
  have hlt := procStep_rank hs
  refine ⟨fun j => ?_, i, ?_⟩
  · by_cases hj : j = i
    · subst hj; simp only [Function.update_self]; exact hlt.le
    · simp only [Function.update_of_ne hj]; exact le_rfl
  · simp only [Function.update_self]; exact hlt

omit [DecidableEq ι] in
/-- A call that has neither returned nor panicked can take a step. -/
theorem aproc_progress {arch : Arch} {h0 : ι → HeapF} {R : ι → Set Loc} {jobs : ι → Job} {g : ι → Option (List Arr)} {W : ι ⊕ ι × Nat → Set Loc}
    {s : World ι} (I : AInv arch h0 R jobs g W s) (i : ι) (h1 : ∀ r, (s.proc i).phase ≠ .done r)
    (h2 : (s.proc i).phase ≠ .panicked) : ∃ σ' p', ProcStep (jobs i) s.shared (s.proc i) σ' p' := by
  have hp := I.phase i
  unfold PhaseOk at hp
  have hrun := I.inv.run (.inl i)
  have hrun : wp _ (s.proc i).main.prog (mainPost arch (h0 i) (jobs i) (g i)) (W (.inl i)) s.shared.heap (s.proc i).main.drawn := hrun
  cases hph : (s.proc i).phase with
  | done r => exact absurd hph (h1 r)
  | panicked => exact absurd hph h2
  | sequential =>
    rw [hph] at hp
    by_cases hr : ∃ r, (s.proc i).main.prog = .ret r
    · obtain ⟨r, hr⟩ := hr
      cases hj : jobs i with
      | seq c => exact ⟨_, _, .finish c _ _ r hph hr⟩
      | splitP secret parts threshold perm =>
        rw [hr, hj, hp.1] at hrun
        cases r with
        | ok outs => exact ⟨_, _, .enter _ _ _ _ _ _ outs hph hr⟩
        | err e => exact ⟨_, _, .reject _ _ _ _ _ _ e hph hr⟩
        | _ => exact hrun.elim
    · push Not at hr
      have hnp : (s.proc i).main.prog ≠ .panic := by
        intro e; rw [e] at hrun; exact hrun
      obtain ⟨σ', p', bs, hs⟩ := progress s.shared _ hr hnp
      exact ⟨_, _, .main _ _ _ _ _ _ hph hs⟩
  | loop outs idx =>
    rw [hph] at hp
    obtain ⟨secret, parts, threshold, perm, arrs, hj, -⟩ := hp
    rw [hj]
    by_cases hlt : idx < secretLen secret
    · by_cases hb : idx ≤ chunkEnd (secretLen secret) idx ∧ (chunkEnd (secretLen secret) idx).toNat ≤ secret.cap
      · exact ⟨_, _, .spawn _ _ _ _ _ _ _ _ hph hlt hb⟩
      · exact ⟨_, _, .spawnPanic _ _ _ _ _ _ _ _ hph hlt hb⟩
    · exact ⟨_, _, .exit _ _ _ _ _ _ _ _ hph hlt⟩
  | waiting outs =>
    rw [hph] at hp
    obtain ⟨secret, parts, threshold, perm, arrs, hj, -⟩ := hp
    by_cases hall : ∀ w ∈ (s.proc i).workers, ∃ r, w.prog = .ret r
    · rw [hj]
      exact ⟨_, _, .join _ _ _ _ _ _ _ hph hall⟩
    · push Not at hall
      obtain ⟨w, hw, hnr⟩ := hall
      obtain ⟨j, hjl, e⟩ := List.getElem_of_mem hw
      have hget : (s.proc i).workers[j]? = some w := by rw [List.getElem?_eq_getElem hjl, e]
      have hnp : w.prog ≠ .panic := by
        intro hpn
        have hr := I.inv.run (.inr (i, j))
        have hr : wp _ (((s.proc i).workers[j]?).getD (pending (jobs i) (g i) j)).prog (workerPost (h0 i) (jobs i) (g i) j)
          (W (.inr (i, j))) s.shared.heap (((s.proc i).workers[j]?).getD (pending (jobs i) (g i) j)).drawn := hr
        rw [hget, Option.getD_some, hpn] at hr
        exact hr
      obtain ⟨σ', p', bs, hs⟩ := progress s.shared _ hnr hnp
      exact ⟨_, _, .worker _ _ _ _ j w _ _ hget hs⟩

omit [DecidableEq ι] in
theorem proc_progress {arch : Arch} {σ : Shared} {jobs : ι → Job} {g : ι → Option (List Arr)} {W : ι ⊕ ι × Nat → Set Loc}
    {s : World ι} (I : WInv arch σ jobs g W s) (i : ι) (h1 : ∀ r, (s.proc i).phase ≠ .done r)
    (h2 : (s.proc i).phase ≠ .panicked) : ∃ σ' p', ProcStep (jobs i) s.shared (s.proc i) σ' p' :=
  aproc_progress I.toA i h1 h2

theorem wreach_done [Finite ι] {arch : Arch} {σ : Shared} {jobs : ι → Job} (hst : WStart σ jobs)
    (hadm : ∀ i, JobAdmissible (jobs i)) (s : World ι) (hr : WReach jobs (winitial arch σ jobs) s) :
    ∃ s', WReach jobs s s' ∧ ∀ i, (∃ r, (s'.proc i).phase = .done r) ∨ (s'.proc i).phase = .panicked := by
  induction s using (worldStep_wf jobs).induction with
  | _ s ih =>
    by_cases h : ∀ i, (∃ r, (s.proc i).phase = .done r) ∨ (s.proc i).phase = .panicked
    · exact ⟨s, .refl, h⟩
    · push Not at h
      obtain ⟨i, h1, h2⟩ := h
      obtain ⟨g, W, I⟩ := winv arch hst hadm hr
      obtain ⟨σ', p', hs⟩ := proc_progress I i h1 h2
      have hstep := WorldStep.mk s i σ' p' hs
      obtain ⟨s', hr', hd⟩ := ih _ hstep (hr.tail hstep)
      exact ⟨s', Relation.ReflTransGen.head hstep hr', hd⟩

end Verif.Proofs.Own
