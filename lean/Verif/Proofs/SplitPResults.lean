import Verif.Proofs.SplitPWorld

/-! # What a finished SplitP has produced -/

namespace Verif.Proofs.Own
open Verif Outcome Galois Shamir Spec Pool Csprng Verif.Heap

variable {ι : Type} [DecidableEq ι]

/-- The first `n` results of `xTag`. -/
theorem xTag_eq {perm : List Nat} {n : Nat} (h : n ≤ perm.length) :
    (List.range n).map (xTag perm) = (perm.take n).map (fun v => BitVec.ofNat 8 v + 1#8) := by
  apply List.ext_getElem?
  intro k
  by_cases hk : k < n
  · have hk' : k < perm.length := by omega
    simp [hk, hk', List.getElem?_take, xTag, List.getD_eq_getElem?_getD]
  · simp [Nat.le_of_not_lt hk, List.getElem?_take, hk]

theorem adone_splitP {arch : Arch} {h0 : ι → HeapF} {R : ι → Set Loc} {jobs : ι → Job} (hst : Ready h0 R jobs)
    {g : ι → Option (List Arr)} {W : ι ⊕ ι × Nat → Set Loc} {s : World ι} (I : AInv arch h0 R jobs g W s) {i : ι}
    {secret : Slice} {parts threshold : Int} {perm : List Nat} (hj : jobs i = .splitP secret parts threshold perm)
    {r : Outcome (List Slice)} (hd : (s.proc i).phase = .done r) :
    (∃ e, r = err e ∧ argError (contents (h0 i) secret) parts threshold = some e) ∨
    ∃ arrs, r = ok (outSlices arrs secret.len) ∧ g i = some arrs ∧ arrs.Nodup ∧ arrs.length = parts.toNat ∧
      ValidArgs (contents (h0 i) secret) parts threshold ∧ secret.len % 2 ^ 32 ≤ 2 ^ 32 - 1024 ∧
      (∀ j, 1024 * j < secret.len % 2 ^ 32 → (workerDraws (s.proc i) j).length
        = (min (1024 * (j + 1)) (secret.len % 2 ^ 32) - 1024 * j) * (threshold.toNat - 1)) ∧
      (outSlices arrs secret.len).map (contents s.shared.heap) = (perm.take parts.toNat).map (fun v =>
        splitPShare (contents (h0 i) secret) threshold.toNat (workerDraws (s.proc i)) (BitVec.ofNat 8 v + 1#8)) ∧
      (∀ a ∈ arrs, (s.shared.heap a).length = secret.len + 1) ∧
      (∀ a ∈ arrs, ∀ q, (a, q) ∈ W (.inl i) ∨ ∃ j, (a, q) ∈ W (.inr (i, j))) := by
  have hp := I.phase i
  unfold PhaseOk at hp
  rw [hd] at hp
  obtain ⟨hm, hp⟩ := hp
  have hrun := I.inv.run (.inl i)
  have hrun : wp _ (s.proc i).main.prog (mainPost arch (h0 i) (jobs i) (g i)) (W (.inl i)) s.shared.heap (s.proc i).main.drawn := hrun
  rw [hm, hj] at hrun
  rcases hp with ⟨h1, -, ⟨c, h2⟩ | ⟨_, _, _, _, e, h2, h3⟩⟩ | ⟨secret', parts', threshold', perm', arrs, h1, h2, h3, h4, h5, h6⟩
  · rw [hj] at h2; cases h2
  · rw [h1, h3] at hrun
    exact .inl ⟨e, h3, hrun⟩
  · rw [hj] at h1; cases h1
    rw [h2] at hrun
    obtain ⟨-, hv, hnd, hlen, hrest⟩ : RestPost secret (contents (h0 i) secret) parts threshold perm arrs r (W (.inl i))
      s.shared.heap (s.proc i).main.drawn := hrun
    have hperm : perm.Perm (List.range 255) := by have := hst.adm i; rwa [hj] at this
    have hpl : parts.toNat ≤ perm.length := by
      rw [hperm.length_eq, List.length_range]; have := hv.2.1; omega
    have hbl : (contents (h0 i) secret).length = secret.len := by
      have := hst.bounds i secret (by rw [hj]; simp [Job.inputs])
      unfold InBounds at this
      simp [contents]; omega
    have hml := mOf_le secret
    have hchunk : ∀ j, 1024 * j < mOf secret → region secret arrs j ⊆ W (.inr (i, j)) ∧
        Achieved (contents (h0 i) secret) threshold.toNat perm arrs (1024 * j) (stopOf secret j - 1024 * j) s.shared.heap
          (workerDraws (s.proc i) j) := by
      intro j hjm
      have hjl : j < (s.proc i).workers.length := by omega
      have hr := I.inv.run (.inr (i, j))
      have hr : wp _ (((s.proc i).workers[j]?).getD (pending (jobs i) (g i) j)).prog (workerPost (h0 i) (jobs i) (g i) j)
        (W (.inr (i, j))) s.shared.heap (((s.proc i).workers[j]?).getD (pending (jobs i) (g i) j)).drawn := hr
      obtain ⟨r', hr'⟩ := h6 _ (List.getElem_mem hjl)
      rw [List.getElem?_eq_getElem hjl, Option.getD_some, hr', hj, h2] at hr
      have e : workerDraws (s.proc i) j = ((s.proc i).workers[j]).drawn := by
        simp [workerDraws, List.getElem?_eq_getElem hjl]
      rw [e]
      exact hr hjm
    have hlenh : ∀ (k : Nat) (a : Arr), arrs[k]? = some a → (s.shared.heap a).length = secret.len + 1 := by
      intro k a hk
      apply Nat.le_antisymm
      · by_contra hc
        have := (hrest k a hk (secret.len + 1) (by omega)).2
        rw [List.getElem?_eq_getElem (by omega), List.getElem?_eq_none (by simp)] at this
        cases this
      · have := (hrest k a hk secret.len hml).2
        rw [List.getElem?_append_right (by simp)] at this
        simp only [List.length_replicate, Nat.sub_self, List.getElem?_cons_zero] at this
        exact (List.getElem?_eq_some_iff.1 this).1
    refine .inr ⟨arrs, h3, h2, hnd, hlen, hv, by rw [← mOf_eq]; exact h5, ?_, ?_, ?_, ?_⟩
    · intro j hj
      rw [← mOf_eq] at hj ⊢
      exact (hchunk j hj).2.1
    · have hsplit : (perm.take parts.toNat).map (fun v => splitPShare (contents (h0 i) secret) threshold.toNat
          (workerDraws (s.proc i)) (BitVec.ofNat 8 v + 1#8)) = ((perm.take parts.toNat).map fun v => BitVec.ofNat 8 v + 1#8).map
            (splitPShare (contents (h0 i) secret) threshold.toNat (workerDraws (s.proc i))) := by
        rw [List.map_map]; rfl
      rw [hsplit, ← xTag_eq hpl, List.map_map]
      apply List.ext_getElem?
      intro k
      by_cases hk : k < arrs.length
      · have hka : arrs[k]? = some arrs[k] := List.getElem?_eq_getElem hk
        have hk' : k < parts.toNat := by omega
        simp only [outSlices, List.getElem?_map, hka, Option.map_some, List.getElem?_range hk', Option.some.injEq,
          Function.comp]
        apply List.ext_getElem?
        intro q
        show (((s.shared.heap arrs[k]).drop 0).take (secret.len + 1))[q]? = _
        rw [List.drop_zero, List.take_of_length_le (hlenh k _ hka).le]
        unfold splitPShare
        rw [hbl, ← mOf_eq]
        by_cases hq : q < mOf secret
        · rw [List.getElem?_append_left (by simp; omega), List.getElem?_map, List.getElem?_range (by omega), Option.map_some,
            if_pos hq]
          obtain ⟨-, -, hA⟩ := hchunk (q / 1024) (by omega)
          have := hA (q % 1024) (by unfold stopOf; omega) k _ hka
          rw [show 1024 * (q / 1024) + q % 1024 = q by omega] at this
          exact this
        · rw [(hrest k _ hka q (by omega)).2]
          by_cases hq' : q < secret.len
          · rw [List.getElem?_append_left (by simpa using hq'), List.getElem?_append_left (by simpa using hq'),
              List.getElem?_map, List.getElem?_range hq', Option.map_some, if_neg hq]
            simp [hq']
          · rw [List.getElem?_append_right (by simpa using hq'), List.getElem?_append_right (by simpa using hq')]
            simp
      · rw [List.getElem?_eq_none (by simp [outSlices]; omega), List.getElem?_eq_none (by simp; omega)]
    · intro a ha
      obtain ⟨k, hk, e⟩ := List.getElem_of_mem ha
      exact hlenh k a (by rw [List.getElem?_eq_getElem hk, e])
    · intro a ha q
      by_cases hqm : q < mOf secret
      · right
        refine ⟨q / 1024, (hchunk (q / 1024) (by omega)).1 ⟨ha, by simp only; omega, ?_⟩⟩
        unfold stopOf
        simp only; omega
      · left
        obtain ⟨k, hk, e⟩ := List.getElem_of_mem ha
        exact (hrest k a (by rw [List.getElem?_eq_getElem hk, e]) q (by omega)).1

theorem done_splitP {arch : Arch} {σ : Shared} {jobs : ι → Job} (hst : WStart σ jobs) (hadm : ∀ i, JobAdmissible (jobs i))
    {g : ι → Option (List Arr)} {W : ι ⊕ ι × Nat → Set Loc} {s : World ι} (I : WInv arch σ jobs g W s) {i : ι}
    {secret : Slice} {parts threshold : Int} {perm : List Nat} (hj : jobs i = .splitP secret parts threshold perm)
    {r : Outcome (List Slice)} (hd : (s.proc i).phase = .done r) :
    (∃ e, r = err e ∧ argError (contents σ.heap secret) parts threshold = some e) ∨
    ∃ arrs, r = ok (outSlices arrs secret.len) ∧ g i = some arrs ∧ arrs.Nodup ∧ arrs.length = parts.toNat ∧
      ValidArgs (contents σ.heap secret) parts threshold ∧ secret.len % 2 ^ 32 ≤ 2 ^ 32 - 1024 ∧
      (∀ j, 1024 * j < secret.len % 2 ^ 32 → (workerDraws (s.proc i) j).length
        = (min (1024 * (j + 1)) (secret.len % 2 ^ 32) - 1024 * j) * (threshold.toNat - 1)) ∧
      (outSlices arrs secret.len).map (contents s.shared.heap) = (perm.take parts.toNat).map (fun v =>
        splitPShare (contents σ.heap secret) threshold.toNat (workerDraws (s.proc i)) (BitVec.ofNat 8 v + 1#8)) ∧
      (∀ a ∈ arrs, (s.shared.heap a).length = secret.len + 1) ∧
      (∀ a ∈ arrs, ∀ q, (a, q) ∈ W (.inl i) ∨ ∃ j, (a, q) ∈ W (.inr (i, j))) :=
  adone_splitP (WStart.ready hst hadm) I.toA hj hd

/-- The coefficients `SplitP` uses: those of the zero polynomial beyond the truncated length. -/
def rowsP (bs : List Byte) (t : Nat) (draws : Nat → List Byte) : List (List Byte) :=
  (List.range bs.length).map fun p => if p < bs.length % 2 ^ 32 then splitPCoeffs bs t draws p else List.replicate t 0

theorem evalC_zero (t : Nat) (x : Byte) : evalC (List.replicate t 0) x = 0 := by
  have : ofCoeffs (List.replicate t 0) = 0 := by
    unfold ofCoeffs
    refine Finset.sum_eq_zero fun i hi => ?_
    have e : (List.replicate t (0 : Byte)).getD i 0 = 0 := by
      rw [List.getD_eq_getElem?_getD, List.getElem?_replicate]; split <;> rfl
    rw [e, show (⟨0⟩ : GF) = 0 from rfl, Polynomial.C_0, zero_mul]
  unfold evalC
  rw [this, Polynomial.eval_zero]; rfl

theorem splitPShare_eq (bs : List Byte) (t : Nat) (draws : Nat → List Byte) (x : Byte) :
    splitPShare bs t draws x = shareOf (rowsP bs t draws) x := by
  unfold splitPShare shareOf rowsP
  rw [List.map_map]
  congr 1
  apply List.map_congr_left
  intro p hp
  simp only [Function.comp]
  split
  · rfl
  · exact (evalC_zero t x).symm

/-- The shares `SplitP` returns are a sharing of the secret with the bytes beyond the truncated length replaced by 0. -/
theorem splitP_sharing (bs : List Byte) {t : Nat} (ht : 0 < t) (draws : Nat → List Byte)
    (xs : List Byte) (hx : xs.Nodup) : IsSharing (truncated bs) t (xs.map (splitPShare bs t draws)) := by
  have e : splitPShare bs t draws = shareOf (rowsP bs t draws) := by
    funext x; exact splitPShare_eq bs t draws x
  have hm := Nat.mod_le bs.length (2 ^ 32)
  rw [e]
  refine shares_isSharing ht ⟨?_, ?_, ?_⟩ xs hx
  · simp [rowsP, truncated]; omega
  · intro r hr
    obtain ⟨p, -, rfl⟩ := List.mem_map.1 hr
    split
    · simp [splitPCoeffs]; omega
    · simp
  · intro j hj
    have hj : j < bs.length := by simp [truncated] at hj; omega
    unfold truncated
    simp only [rowsP, List.getD_eq_getElem?_getD, List.getElem?_map, List.getElem?_range hj, Option.map_some,
      Option.getD_some]
    split
    · rename_i h
      rw [List.getElem?_append_left (by simp; omega), List.getElem?_take, if_pos h]
      simp [splitPCoeffs, List.getD_eq_getElem?_getD]
    · rename_i h
      rw [List.getElem?_append_right (by simp; omega)]
      have e0 : ∀ n k : Nat, ((List.replicate n (0 : Byte))[k]?).getD 0 = 0 := by
        intro n k; rw [List.getElem?_replicate]; split <;> rfl
      rw [e0, e0]

theorem truncated_eq {bs : List Byte} (h : bs.length < 2 ^ 32) : truncated bs = bs := by
  unfold truncated
  rw [Nat.mod_eq_of_lt h]; simp

end Verif.Proofs.Own
