import Verif.Proofs.HeapConsumes
import Verif.Props.SplitP

/-! # C61: the random bytes a call takes from the process-wide source

The setting is that of C34 (`Verif.Props.Concurrency`): any number of goroutines make calls, under every interleaving;
`drawn` are the bytes a call has taken from the global source so far (the permutation `rand.Perm(255)` is not counted).
`Spec.Consumes` (`Verif.Spec.Draws`) says how many there must be when the call is over. -/

namespace Verif.Props
open Verif Outcome Galois Spec Proofs Proofs.Own Shamir Verif.Heap

variable {ι : Type} [DecidableEq ι]

/-- C61: a call that is over has drawn exactly the bytes it needs: `threshold` bytes for each byte of the secret in
`Split`, `threshold - 1` in `SplitGeneric`, 16 for the key and 20 * `threshold` for the metadata in `krawczyk.Split`,
`numNewShares` plus one for every collision in `Regenerate`; a call rejected because of its arguments, the variants with
a randomizer and the two `Combine` functions draw nothing. -/
theorem C61_calls_consume (arch : Arch) (σ : Shared) (calls : ι → Call) (hs : Start σ calls)
    (ha : ∀ i, Admissible (calls i)) (c : Config ι (Outcome (List Slice))) (hr : Reach (initial arch σ calls) c) (i : ι)
    (r : Outcome (List Slice)) (h : (c.thread i).prog = .ret r) :
    Consumes (calls i) ((calls i).inputs.map (contents σ.heap)) r (c.thread i).drawn :=
  consumes_calls arch hs ha hr h

/-- The candidates are all new: nothing is drawn again. -/
theorem redraws_none {taken xs extra : List Byte} (h : Redraws taken xs extra) (hn : xs.Nodup) (hd : ∀ x ∈ xs, x ∉ taken) :
    extra = [] := by
  induction h with
  | done => rfl
  | keep hx _ ih =>
    rw [List.nodup_cons] at hn
    refine ih hn.2 fun y hy => ?_
    rw [List.mem_cons, not_or]
    exact ⟨fun e => hn.1 (e ▸ hy), hd y (List.mem_cons_of_mem _ hy)⟩
  | again hx _ _ => exact absurd hx (hd _ (List.mem_cons_self ..))

/-- Every collision costs at least one draw: all tags taken in the end are different from each other and from those
taken before. -/
theorem redraws_length {taken xs extra : List Byte} (h : Redraws taken xs extra) :
    ∃ final : List Byte, final.length = xs.length ∧ (∀ x ∈ final, x ∉ taken) ∧ final.Nodup ∧
      ∀ x ∈ final, x ∈ xs ++ extra := by
  induction h with
  | done => exact ⟨[], rfl, by simp, List.nodup_nil, by simp⟩
  | @keep taken x rest extra hx _ ih =>
    obtain ⟨f, h1, h2, h3, h4⟩ := ih
    refine ⟨x :: f, by simp [h1], ?_, ?_, ?_⟩
    · intro y hy
      rcases List.mem_cons.1 hy with rfl | hy
      · exact hx
      · exact fun c => h2 y hy (List.mem_cons_of_mem _ c)
    · rw [List.nodup_cons]
      exact ⟨fun c => h2 x c (List.mem_cons_self ..), h3⟩
    · intro y hy
      rcases List.mem_cons.1 hy with rfl | hy
      · simp
      · have := h4 y hy
        simp only [List.cons_append, List.mem_cons]
        exact Or.inr this
  | @again taken x y rest extra hx _ ih =>
    obtain ⟨f, h1, h2, h3, h4⟩ := ih
    refine ⟨f, by simpa using h1, h2, h3, fun z hz => ?_⟩
    have := h4 z hz
    simp only [List.cons_append, List.mem_cons, List.mem_append] at this ⊢
    tauto

/-- C61: a `Regenerate` call whose first `numNewShares` bytes are different from each other and from the tags of the given
shares draws exactly `numNewShares` bytes; in any case the bytes drawn contain `numNewShares` different bytes that are no
tags of given shares (which does not mean that these become the tags of the new shares, see C23). -/
theorem C61_regenerate_draws (arch : Arch) (σ : Shared) (calls : ι → Call) (hs : Start σ calls)
    (ha : ∀ i, Admissible (calls i)) (c : Config ι (Outcome (List Slice))) (hr : Reach (initial arch σ calls) c) (i : ι)
    (fuel : Nat) (parts : List Slice) (n : Int) (hi : calls i = .regenerate fuel parts n) (slices : List Slice)
    (h : (c.thread i).prog = .ret (ok slices)) :
    n.toNat ≤ (c.thread i).drawn.length ∧
    (((c.thread i).drawn.take n.toNat).Nodup →
      (∀ x ∈ (c.thread i).drawn.take n.toNat, x ∉ (parts.map (contents σ.heap)).map fun share => share.getLastD 0) →
      (c.thread i).drawn.length = n.toNat) ∧
    ∃ fresh : List Byte, fresh.length = n.toNat ∧ fresh.Nodup ∧
      ∀ x ∈ fresh, x ∈ (c.thread i).drawn ∧ x ∉ (parts.map (contents σ.heap)).map fun share => share.getLastD 0 := by
  have hcon := C61_calls_consume arch σ calls hs ha c hr i _ h
  rw [hi] at hcon
  obtain ⟨newXs, extra, he, hn, hd⟩ := hcon
  rw [he]
  refine ⟨by simp [hn], fun h1 h2 => ?_, ?_⟩
  · rw [← hn, List.take_left] at h1 h2
    rw [redraws_none hd h1 h2]
    simp [hn]
  · obtain ⟨f, h1, h2, h3, h4⟩ := redraws_length hd
    exact ⟨f, by rw [h1, hn], h3, fun x hx => ⟨h4 x hx, h2 x hx⟩⟩

/-- C61: two runs of the same call that draw the same bytes from the source, in whatever company, return the same bytes:
apart from the buffers `SplitWithRandomizer` recycles (C30) there is no other source of variation. -/
theorem C61_draws_determine_result (arch : Arch) {ι' : Type} [DecidableEq ι'] (σ : Shared) (calls : ι → Call)
    (hs : Start σ calls) (ha : ∀ i, Admissible (calls i)) (c : Config ι (Outcome (List Slice)))
    (hr : Reach (initial arch σ calls) c) (i : ι) (σ' : Shared) (calls' : ι' → Call) (hs' : Start σ' calls')
    (ha' : ∀ i, Admissible (calls' i)) (c' : Config ι' (Outcome (List Slice))) (hr' : Reach (initial arch σ' calls') c')
    (j : ι') (hc : calls' j = calls i)
    (hin : (calls i).inputs.map (contents σ'.heap) = (calls i).inputs.map (contents σ.heap))
    (hw : ∀ f s p t r, calls i ≠ .splitWithRandomizer f s p t r)
    (hw' : ∀ e f s p t r, calls i ≠ .krawczykSplitWithRandomizer e f s p t r)
    (r r' : Outcome (List Slice)) (h : (c.thread i).prog = .ret r) (h' : (c'.thread j).prog = .ret r')
    (hdr : (c'.thread j).drawn = (c.thread i).drawn) :
    (fun slices => slices.map (contents c'.shared.heap)) <$> r' = (fun slices => slices.map (contents c.shared.heap)) <$> r := by
  have k := (C34_concurrent_calls arch σ calls hs ha c hr i).2 r h
  have k' := (C34_concurrent_calls arch σ' calls' hs' ha' c' hr' j).2 r' h'
  rw [hc, hin, hdr] at k'
  generalize calls i = call at k k' hw hw'
  cases call with
  | split s p t perm => exact (k' _ (delivers_getD _) ⟨⟨[], 0⟩, ⟨[], 0⟩⟩).trans (k _ (delivers_getD _) _).symm
  | splitWithRandomizer f s p t r => exact absurd rfl (hw _ _ _ _ _)
  | splitWithRandomizerOld s p t r => exact (k' ⟨⟨[], 0⟩, ⟨[], 0⟩⟩).trans (k _).symm
  | splitGeneric s p t perm => exact (k' _ (delivers_getD _)).trans (k _ (delivers_getD _)).symm
  | combine parts => exact Eq.trans k' (Eq.symm k)
  | regenerate f parts n => exact (k' _ (delivers_getD _)).trans (k _ (delivers_getD _)).symm
  | krawczykSplit env s p t perm => exact (k' _ (delivers_getD _) ⟨⟨[], 0⟩, ⟨[], 0⟩⟩).trans (k _ (delivers_getD _) _).symm
  | krawczykSplitWithRandomizer env f s p t r => exact absurd rfl (hw' _ _ _ _ _ _)
  | krawczykCombine env ss p t => exact Eq.trans k' (Eq.symm k)

theorem quiet_splitPSetup (secret : Slice) (parts threshold : Int) (perm : List Nat) :
    Quiet (splitPSetup secret parts threshold perm) := by
  refine draws_checkP (fun _ => rfl) fun _ _ _ _ => Quiet.bind (quiet_forUp fun i outs => ?_) fun _ => ?_
  · exact fun a => Quiet.bind (quiet_lift _) fun _ => by exact rfl
  · exact rfl

theorem splitP_main_quiet (arch : Arch) {σ : Shared} {jobs : ι → Job} {s : World ι}
    (hr : WReach jobs (winitial arch σ jobs) s) {i : ι} {secret : Slice} {parts threshold : Int} {perm : List Nat}
    (hj : jobs i = .splitP secret parts threshold perm) :
    Draws (s.proc i).main.prog fun _ l => (s.proc i).main.drawn ++ l = [] := by
  induction hr with
  | refl =>
    show Draws ((jobs i).prog arch) _
    rw [hj]
    exact Draws.mono (fun _ _ h => h) (quiet_splitPSetup _ _ _ _)
  | tail _ h ih =>
    obtain ⟨k, σ', p', h⟩ := h
    by_cases hk : i = k
    · subst hk
      simp only [Function.update_self]
      rw [hj] at h
      cases h with
      | main =>
        exact Draws.mono (fun _ _ h => by simpa using h) (Draws.step ‹Step ..› ih)
      | _ => exact ih
    · simp only [Function.update_of_ne hk]
      exact ih

/-- C61: the same in the company of `SplitP` calls and their goroutines.  `SplitP` itself draws in its goroutines only
(C11: `threshold - 1` bytes for each byte of the chunk). -/
theorem C61_calls_consume_with_splitP (arch : Arch) (σ : Shared) (jobs : ι → Job) (hst : WStart σ jobs)
    (hadm : ∀ i, JobAdmissible (jobs i)) (s : World ι) (hr : WReach jobs (winitial arch σ jobs) s) (i : ι)
    (r : Outcome (List Slice)) (hd : (s.proc i).phase = .done r) :
    match jobs i with
    | .seq c => Consumes c (c.inputs.map (contents σ.heap)) r (s.proc i).main.drawn
    | .splitP _ _ _ _ => (s.proc i).main.drawn = [] := by
  obtain ⟨g, W, I⟩ := winv arch hst hadm hr
  have hw := I.inv.run (.inl i)
  have hw : wp _ (s.proc i).main.prog (mainPost arch σ.heap (jobs i) (g i)) (W (.inl i)) s.shared.heap (s.proc i).main.drawn := hw
  have h1 : (s.proc i).main.prog = .ret r := (done_ret (I.phase i) hd).1
  cases hj : jobs i with
  | seq c =>
    rw [h1, hj] at hw
    exact hw.2
  | splitP secret parts threshold perm =>
    have := splitP_main_quiet arch hr hj
    rw [h1] at this
    simpa [Draws] using this

/-! Instances -/

/-- C61: the jobs of C11: whatever returns has drawn what it should. -/
example (arch : Arch) (s : World (Fin 3)) (hr : WReach exJobs (winitial arch exShared exJobs) s) (outs : List Slice)
    (hd : (s.proc 1).phase = .done (ok outs)) : (s.proc 1).main.drawn = [] :=
  C61_calls_consume_with_splitP arch exShared exJobs exWStart exJobAdmissible s hr 1 _ hd

/-- C61: the example calls of C34, when all of them have returned: the third one has drawn 3 * 2 bytes. -/
example (arch : Arch) : ∃ c, Reach (initial arch exShared exCalls) c ∧ ∀ i, ∃ r, (c.thread i).prog = .ret r ∧
    Consumes (exCalls i) ((exCalls i).inputs.map (contents exShared.heap)) r (c.thread i).drawn := by
  obtain ⟨c, hr, hd⟩ := ((C34_terminates arch exShared exCalls exStart exAdmissible).2 _ .refl).2
  refine ⟨c, hr, fun i => ?_⟩
  obtain ⟨r, h⟩ := hd i
  exact ⟨r, h, C61_calls_consume arch exShared exCalls exStart exAdmissible c hr i r h⟩

example (arch : Arch) (c : Config (Fin 3) (Outcome (List Slice))) (hr : Reach (initial arch exShared exCalls) c)
    (slices : List Slice) (h : (c.thread 2).prog = .ret (ok slices)) : (c.thread 2).drawn.length = 6 :=
  C61_calls_consume arch exShared exCalls exStart exAdmissible c hr 2 _ h

/-- C61: the specification of the redraws on concrete bytes: 5 is taken, 7 occurs twice, and 5 is drawn again. -/
example : Redraws [5, 6] [5, 7, 7] [9, 5, 8] ∧ ¬ Redraws [5, 6] [5, 7] [] := by
  refine ⟨.again (by decide) (.keep (by decide) (.keep (by decide) (.again (by decide) (.again (by decide)
    (.keep (by decide) (.done _)))))), ?_⟩
  rintro (_ | ⟨h, -⟩)
  exact absurd h (by decide)

/-- example calls: two shares ([1, 2] and [2, 3]) of a sharing are regenerated, another goroutine splits. -/
def exRegenCalls : Fin 2 → Call := fun i =>
  if i = 0 then .regenerate 1000 [⟨0, 0, 2, 3⟩, ⟨0, 1, 2, 2⟩] 2 else .split ⟨2, 1, 2, 3⟩ 4 3 (List.range 255)

theorem exRegenStart : Start exShared exRegenCalls where
  poolNodup := exStart.poolNodup
  poolLt := exStart.poolLt
  inputs i s h := by
    have : ∀ i : Fin 2, ∀ s ∈ (exRegenCalls i).inputs, s = ⟨0, 0, 2, 3⟩ ∨ s = ⟨0, 1, 2, 2⟩ ∨ s = ⟨2, 1, 2, 3⟩ := by
      intro i s hs
      unfold exRegenCalls at hs
      split at hs <;> simp [Call.inputs] at hs
      · rcases hs with hs | hs <;> simp [hs]
      · simp [hs]
    rcases this i s h with rfl | rfl | rfl <;>
      exact ⟨by unfold InBounds; decide, by decide, by decide, fun p => by cases p <;> decide⟩

theorem exRegenAdmissible : ∀ i, Admissible (exRegenCalls i) := by
  intro i
  unfold exRegenCalls
  split
  · exact trivial
  · exact List.Perm.refl _

/-- C61: if the first two bytes drawn by this `Regenerate` are different and neither 2 nor 3, nothing else is drawn. -/
example (arch : Arch) (c : Config (Fin 2) (Outcome (List Slice))) (hr : Reach (initial arch exShared exRegenCalls) c)
    (slices : List Slice) (h : (c.thread 0).prog = .ret (ok slices)) (rest : List Byte)
    (hd : (c.thread 0).drawn = 7 :: 9 :: rest) : rest = [] := by
  have := (C61_regenerate_draws arch _ _ exRegenStart exRegenAdmissible c hr 0 1000 _ 2 rfl slices h).2.1
  rw [hd] at this
  have := this (by simp) (by
    intro x hx
    have : x = 7 ∨ x = 9 := by simpa using hx
    have e : (([⟨0, 0, 2, 3⟩, ⟨0, 1, 2, 2⟩] : List Slice).map (contents exShared.heap)).map (fun share => share.getLastD 0)
      = [2, 3] := by decide
    rw [e]
    rcases this with rfl | rfl <;> decide)
  simpa using this

/-- C61: the split in the company of the other calls and the one in the company of `Regenerate` agree when they draw
the same bytes. -/
example (arch : Arch) (c : Config (Fin 3) (Outcome (List Slice))) (hr : Reach (initial arch exShared exCalls) c)
    (c' : Config (Fin 2) (Outcome (List Slice))) (hr' : Reach (initial arch exShared exRegenCalls) c')
    (r r' : Outcome (List Slice)) (h : (c.thread 2).prog = .ret r) (h' : (c'.thread 1).prog = .ret r')
    (hd : (c'.thread 1).drawn = (c.thread 2).drawn) :
    (fun slices => slices.map (contents c'.shared.heap)) <$> r' = (fun slices => slices.map (contents c.shared.heap)) <$> r :=
  C61_draws_determine_result arch exShared exCalls exStart exAdmissible c hr 2 exShared exRegenCalls exRegenStart
    exRegenAdmissible c' hr' 1 rfl rfl (fun _ _ _ _ _ c => by cases c) (fun _ _ _ _ _ _ c => by cases c) r r' h h' hd

end Verif.Props
