import Verif.Proofs.Aliasing
import Verif.Props.Krawczyk
import Verif.Props.SplitP
import Verif.Props.Combine

/-! # C49: what a program can do with the returned slices

The setting is that of `Verif.Props.SplitP`: any number of calls of all functions, any schedule; call `i` has returned
the slices `outs`. -/

namespace Verif.Props
open Verif Outcome Galois Spec Proofs Proofs.Own Shamir Verif.Heap

variable {ι : Type} [DecidableEq ι]

/-- C49: assigning to byte `k` of a returned share changes exactly that byte of that share: no other share of this or
another call and no argument changes.  For every function. -/
theorem C49_assign_independent (arch : Arch) (σ : Shared) (jobs : ι → Job) (hst : WStart σ jobs)
    (hadm : ∀ i, JobAdmissible (jobs i)) (s : World ι) (hr : WReach jobs (winitial arch σ jobs) s) (i : ι)
    (outs : List Slice) (hd : (s.proc i).phase = .done (ok outs)) (p : Nat) (hp : p < outs.length) (k : Nat)
    (hk : k < outs[p].len) (v : Byte) :
    contents (assign s.shared.heap outs[p] k v) outs[p] = (contents s.shared.heap outs[p]).set k v ∧
    (∀ q, (hq : q < outs.length) → q ≠ p →
      contents (assign s.shared.heap outs[p] k v) outs[q] = contents s.shared.heap outs[q]) ∧
    (∀ j outs', j ≠ i → (s.proc j).phase = .done (ok outs') → ∀ sl ∈ outs',
      contents (assign s.shared.heap outs[p] k v) sl = contents s.shared.heap sl) ∧
    ∀ j, ∀ sl ∈ (jobs j).inputs, contents (assign s.shared.heap outs[p] k v) sl = contents s.shared.heap sl := by
  obtain ⟨g, W, I⟩ := winv arch hst hadm hr
  obtain ⟨P, -⟩ := placed hst hadm I hd
  have hmem := List.getElem_mem hp
  have hin := P.inArray _ hmem
  refine ⟨assign_self (by omega) hk, fun q hq hqp => ?_, fun j outs' hji hd' sl hsl => ?_, fun j sl hsl => ?_⟩
  · exact assign_other hk (P.apart p q hp hq (Ne.symm hqp))
  · exact assign_other hk (.inl (placed_ne hst hadm I (Ne.symm hji) hd hd' hmem hsl))
  · exact assign_other hk (.inl (placed_pre hst hadm I hd hmem hsl))

/-- C49: appending to a returned share never changes a share of another call or an argument, and gives the bytes of
the share followed by the appended ones; for `SplitGeneric`, `SplitP`, `Regenerate` and the krawczyk functions (and
`Combine`) it never changes another share of the same call either. -/
theorem C49_append_independent (arch : Arch) (σ : Shared) (jobs : ι → Job) (hst : WStart σ jobs)
    (hadm : ∀ i, JobAdmissible (jobs i)) (s : World ι) (hr : WReach jobs (winitial arch σ jobs) s) (i : ι)
    (outs : List Slice) (hd : (s.proc i).phase = .done (ok outs)) (p : Nat) (hp : p < outs.length) (bs : List Byte)
    (a : Arr) (ha : s.shared.next ≤ a) (extra : Nat) :
    let after := append s.shared.heap a extra outs[p] bs
    contents after.1 after.2 = contents s.shared.heap outs[p] ++ bs ∧
    (oneArray (jobs i) = none → ∀ q, (hq : q < outs.length) → q ≠ p →
      contents after.1 outs[q] = contents s.shared.heap outs[q]) ∧
    (∀ j outs', j ≠ i → (s.proc j).phase = .done (ok outs') → ∀ sl ∈ outs',
      contents after.1 sl = contents s.shared.heap sl) ∧
    ∀ j, ∀ sl ∈ (jobs j).inputs, contents after.1 sl = contents s.shared.heap sl := by
  obtain ⟨g, W, I⟩ := winv arch hst hadm hr
  obtain ⟨P, -⟩ := placed hst hadm I hd
  have hmem := List.getElem_mem hp
  have hin := P.inArray _ hmem
  have hnew : ∀ x : Arr, x < s.shared.next → x ≠ a := by
    intro x hx e
    rw [e] at hx
    exact Nat.not_lt_of_le ha hx
  refine ⟨append_result hin.1 hin.2, fun hone q hq hqp => ?_, fun j outs' hji hd' sl hsl => ?_, fun j sl hsl => ?_⟩
  · exact append_other (hnew _ (P.allocated _ (List.getElem_mem hq))) hin.1 (P.spare hone p q hp hq (Ne.symm hqp))
  · exact append_other (hnew _ ((placed hst hadm I hd').1.allocated sl hsl)) hin.1
      (.inl (placed_ne hst hadm I (Ne.symm hji) hd hd' hmem hsl))
  · refine append_other (fun e => ?_) hin.1 (.inl (placed_pre hst hadm I hd hmem hsl))
    refine I.inv.newR a ha (.inl i) 0 ?_
    rw [← e]
    exact Own.WStart.start hst hsl rfl

/-- C49: for `Split`, `SplitWithRandomizer` and `SplitWithRandomizerOld` the spare capacity of a share is the shares
after it: appending `bs` to share `p` overwrites share `p + 1` and, if `bs` is longer than a share, the ones after it,
unless `bs` is longer than all of them together (then `append` moves to a new array); share `q` after the operation,
exactly: -/
theorem C49_append_overwrites (arch : Arch) (σ : Shared) (jobs : ι → Job) (hst : WStart σ jobs)
    (hadm : ∀ i, JobAdmissible (jobs i)) (s : World ι) (hr : WReach jobs (winitial arch σ jobs) s) (i : ι)
    (secret : Slice) (hone : oneArray (jobs i) = some secret)
    (outs : List Slice) (hd : (s.proc i).phase = .done (ok outs)) (p q : Nat) (hp : p < outs.length) (hq : q < outs.length)
    (bs : List Byte) (a : Arr) (ha : s.shared.next ≤ a) (extra : Nat) :
    contents (append s.shared.heap a extra outs[p] bs).1 outs[q]
      = (contents s.shared.heap outs[q]).mapIdx fun k b =>
          if p < q ∧ bs.length ≤ (secret.len + 1) * (outs.length - 1 - p) ∧ (secret.len + 1) * (q - p - 1) + k < bs.length
          then bs.getD ((secret.len + 1) * (q - p - 1) + k) 0 else b := by
  obtain ⟨g, W, I⟩ := winv arch hst hadm hr
  obtain ⟨P, -⟩ := placed hst hadm I hd
  obtain ⟨buff, hlay⟩ := P.layout secret hone
  have hget : ∀ q, (hq : q < outs.length) → outs[q] = ⟨buff, (secret.len + 1) * q, secret.len + 1,
      (secret.len + 1) * outs.length - (secret.len + 1) * q⟩ := by
    intro q hq
    have e : outs[q]? = (layout buff secret.len outs.length)[q]? := congrArg (·[q]?) hlay
    have hq' : q < (layout buff secret.len outs.length).length := by simpa [layout] using hq
    rw [List.getElem?_eq_getElem hq, List.getElem?_eq_getElem hq', layout_get] at e
    exact Option.some.inj e
  have hin := P.inArray _ (List.getElem_mem hp)
  have hbuff : buff ≠ a := by
    have := P.allocated _ (List.getElem_mem hp)
    rw [hget p hp] at this
    have : buff < s.shared.next := this
    intro e; rw [e] at this; exact Nat.not_lt_of_le ha this
  rw [hget p hp] at hin
  rw [hget p hp, hget q hq]
  have hin : (secret.len + 1) * p + ((secret.len + 1) * outs.length - (secret.len + 1) * p) ≤ (s.shared.heap buff).length := hin.1
  have hpn : (secret.len + 1) * p + (secret.len + 1) ≤ (secret.len + 1) * outs.length := mul_step hp
  have hqn : (secret.len + 1) * q + (secret.len + 1) ≤ (secret.len + 1) * outs.length := mul_step hq
  have hcap : (secret.len + 1 + bs.length ≤ (secret.len + 1) * outs.length - (secret.len + 1) * p)
      ↔ bs.length ≤ (secret.len + 1) * (outs.length - 1 - p) := by
    have : (secret.len + 1) * outs.length
        = (secret.len + 1) * (outs.length - 1 - p) + (secret.len + 1) * p + (secret.len + 1) := by
      have : outs.length = (outs.length - 1 - p) + p + 1 := by omega
      conv_lhs => rw [this]
      ring
    omega
  apply List.ext_getElem?
  intro k
  rw [List.getElem?_mapIdx, contents_getElem?, contents_getElem?]
  simp only []
  by_cases hk : k < secret.len + 1
  · rw [if_pos hk, if_pos hk]
    unfold append
    by_cases hc : bs.length ≤ (secret.len + 1) * (outs.length - 1 - p)
    · rw [if_pos (hcap.2 hc)]
      simp only []
      rw [Function.update_self, getElem?_over _ _ _ _ (by have := hcap.2 hc; omega)]
      rcases Nat.lt_trichotomy p q with hpq | hpq | hpq
      · have e : (secret.len + 1) * q = (secret.len + 1) * p + (secret.len + 1) + (secret.len + 1) * (q - p - 1) := by
          have : q = p + 1 + (q - p - 1) := by omega
          conv_lhs => rw [this]
          ring
        by_cases hin' : (secret.len + 1) * (q - p - 1) + k < bs.length
        · rw [if_pos (by omega), show (secret.len + 1) * q + k - ((secret.len + 1) * p + (secret.len + 1))
            = (secret.len + 1) * (q - p - 1) + k by omega, List.getElem?_eq_getElem hin',
            List.getElem?_eq_getElem (by omega), Option.map_some, if_pos ⟨hpq, hc, hin'⟩,
            List.getD_eq_getElem?_getD, List.getElem?_eq_getElem hin', Option.getD_some]
        · rw [if_neg (by omega)]
          simp [hin']
      · subst hpq
        rw [if_neg (by omega)]
        simp
      · have := mul_step (c := secret.len + 1) hpq
        rw [if_neg (by omega)]
        simp [show ¬ p < q by omega]
    · rw [if_neg (fun h => hc (hcap.1 h))]
      simp only []
      rw [Function.update_of_ne hbuff]
      simp [hc]
  · rw [if_neg hk, if_neg hk]; rfl

/-- C49, consequence: appending a single byte to share `p` of a `Split` corrupts share `p + 1`: unless the byte happens to
be the first byte of that share, combining any `threshold` shares that include it gives, without an error, a secret with
a wrong first byte. -/
theorem C49_append_corrupts (arch : Arch) (σ : Shared) (jobs : ι → Job) (hst : WStart σ jobs)
    (hadm : ∀ i, JobAdmissible (jobs i)) (s : World ι) (hr : WReach jobs (winitial arch σ jobs) s) (i : ι)
    (secret : Slice) (parts threshold : Int) (perm : List Nat) (hj : jobs i = .seq (.split secret parts threshold perm))
    (outs : List Slice) (hd : (s.proc i).phase = .done (ok outs)) (p : Nat) (hp : p + 1 < outs.length) (v : Byte)
    (hv : (contents s.shared.heap outs[p + 1]).getD 0 0 ≠ v)
    (a : Arr) (ha : s.shared.next ≤ a) (extra : Nat)
    (sub : List (Fin outs.length)) (hnd : sub.Nodup) (hsub : (⟨p + 1, hp⟩ : Fin outs.length) ∈ sub)
    (ht : threshold ≤ sub.length) :
    ∃ s', combine (sub.map fun q => contents (append s.shared.heap a extra outs[p] [v]).1 outs[q.1]) = ok s' ∧
      s'.length = secret.len ∧ s'[0]? ≠ (contents σ.heap secret)[0]? ∧
      ∀ k, k ≠ 0 → s'[k]? = (contents σ.heap secret)[k]? := by
  have hcor := C34_concurrent_with_splitP arch σ jobs hst hadm s hr i _ hj _ hd
  have hperm : perm.Perm (List.range 255) := by have := hadm i; rwa [hj] at this
  have hcor := hcor _ (delivers_getD _) ⟨⟨[], 0⟩, ⟨[], 0⟩⟩
  simp only [Call.inputs, List.map_cons, List.map_nil, List.headD_cons, map_ok] at hcor
  cases hsp : split arch (contents σ.heap secret) parts threshold perm (fun k => (s.proc i).main.drawn.getD k 0) ⟨⟨[], 0⟩, ⟨[], 0⟩⟩ with
  | ok x =>
    rw [hsp, map_ok, Outcome.ok.injEq] at hcor
    obtain ⟨shares, ps'⟩ := x
    obtain ⟨hval, hsh, hfmt⟩ := split_ok arch hperm hsp
    have h2 := hval.2.2.1
    have hcor : outs.map (contents s.shared.heap) = shares := hcor
    -- the shares before the append
    have hbefore : combine (sub.map fun q => contents s.shared.heap outs[q.1]) = ok (contents σ.heap secret) := by
      refine combine_sharing hsh ?_ (by omega) (by simp; omega) hval.2.2.2
      rw [← hcor]
      have e : outs.map (contents s.shared.heap) = (List.finRange outs.length).map fun q => contents s.shared.heap outs[q.1] := by
        apply List.ext_getElem
        · simp
        · intro n h1 h2; simp
      rw [e]
      obtain ⟨l, hl, hs⟩ := List.subperm_of_subset hnd (fun x _ => List.mem_finRange x)
      exact ⟨_, hl.map _, hs.map _⟩
    obtain ⟨k, hk, hke⟩ := List.getElem_of_mem hsub
    have hslen : (contents σ.heap secret).length = secret.len := by
      have := (hst.inputs i secret (by rw [hj]; simp [Job.inputs, Call.inputs])).1
      unfold InBounds at this
      simp [contents]; omega
    have hpos : 0 < (contents σ.heap secret).length := List.length_pos_iff.2 hval.2.2.2
    have htags : ∀ q : Fin outs.length, tag (contents s.shared.heap outs[q.1]) ≠ 0 := by
      intro q
      refine (C12_split_format arch _ parts threshold perm hperm _ _ _ _ hsp).2.2.2.1 _ ?_
      rw [← hcor]
      exact List.mem_map_of_mem (List.getElem_mem _)
    obtain ⟨s', h3, h4, h5, h6⟩ := C19_tamper _ _ hbefore k (by simpa using hk)
      (fun n hn _ => by rw [List.getElem_map]; exact htags _) 0 hpos v (by
        rw [List.getElem_map, hke]; exact hv)
    refine ⟨s', ?_, by rw [h4, hslen], h5, h6⟩
    rw [← h3]
    congr 1
    apply List.ext_getElem
    · simp
    · intro n h7 h8
      have hn : n < sub.length := by simpa using h7
      rw [List.getElem_map, List.getElem_set]
      have hsk : secret.len + 1 ≤ (secret.len + 1) * (outs.length - 1 - p) :=
        Nat.le_mul_of_pos_right _ (by omega)
      rw [C49_append_overwrites arch σ jobs hst hadm s hr i secret (by rw [hj]; rfl) outs hd p _ (by omega) sub[n].2
        [v] a ha extra]
      by_cases hnk : k = n
      · subst hnk
        rw [if_pos rfl, List.getElem_map, hke]
        apply List.ext_getElem?
        intro b
        rw [List.getElem?_mapIdx, List.getElem?_set]
        by_cases hb : b = 0
        · subst hb
          simp only [List.length_cons, List.length_nil, if_true]
          have : (secret.len + 1) * (p + 1 - p - 1) + 0 < 0 + 1 := by
            rw [show p + 1 - p - 1 = 0 by omega]; omega
          simp only [this, and_true]
          rw [show p + 1 - p - 1 = 0 by omega]
          have hc1 : p < p + 1 ∧ 0 + 1 ≤ (secret.len + 1) * (outs.length - 1 - p) := ⟨by omega, by omega⟩
          simp only [hc1, and_self, if_true]
          split
          · rename_i hl
            rw [List.getElem?_eq_getElem hl]; rfl
          · rename_i hl
            rw [List.getElem?_eq_none (by omega)]; rfl
        · rw [if_neg (fun e => hb e.symm)]
          simp only [List.length_cons, List.length_nil]
          have : ¬ (secret.len + 1) * (p + 1 - p - 1) + b < 0 + 1 := by
            rw [show p + 1 - p - 1 = 0 by omega]; omega
          simp only [this, and_false, if_false]
          exact Option.map_id'
      · rw [if_neg hnk, List.getElem_map]
        have hne : sub[n].1 ≠ p + 1 := by
          intro e
          apply hnk
          have : sub[k] = sub[n] := by rw [hke]; exact Fin.ext e.symm
          exact (List.Nodup.getElem_inj_iff hnd).1 this
        apply List.ext_getElem?
        intro b
        rw [List.getElem?_mapIdx]
        have : ¬ (p < sub[n].1 ∧ [v].length ≤ (secret.len + 1) * (outs.length - 1 - p) ∧
            (secret.len + 1) * (sub[n].1 - p - 1) + b < [v].length) := by
          rintro ⟨c1, -, c3⟩
          have : secret.len + 1 ≤ (secret.len + 1) * (sub[n].1 - p - 1) := Nat.le_mul_of_pos_right _ (by omega)
          simp only [List.length_cons, List.length_nil] at c3
          omega
        simp only [this, if_false]
        exact Option.map_id'
  | _ => rw [hsp] at hcor; cases hcor

/-! ## Non-vacuity -/

/-- The three calls of `exJobs` (in `Verif.Props.SplitP`) can all return; the `Split` among them returns three shares, and
appending a byte to the first one then makes the second and third combine to a wrong secret, without an error. -/
example (arch : Arch) : ∃ s, WReach exJobs (winitial arch exShared exJobs) s ∧ ∃ outs, ∃ h3 : outs.length = 3,
    (s.proc 2).phase = .done (ok outs) ∧ ∃ v s',
    combine [contents (append s.shared.heap s.shared.next 5 outs[0] [v]).1 outs[1],
      contents (append s.shared.heap s.shared.next 5 outs[0] [v]).1 outs[2]] = ok s' ∧
    s' ≠ [1, 2, 3] ∧ s'.drop 1 = [2, 3] := by
  obtain ⟨s, hr, h⟩ := ((C11_terminates arch exShared exJobs exWStart exJobAdmissible).2 _ .refl).2
  have hj : exJobs 2 = .seq (.split ⟨0, 0, 3, 3⟩ 3 2 (List.range 255)) := rfl
  obtain ⟨r, hd⟩ : ∃ r, (s.proc 2).phase = .done r := by
    rcases h 2 with h | h
    · exact h
    · obtain ⟨_, _, _, _, h, -⟩ := (C11_C13_never_panics arch exShared exJobs exWStart exJobAdmissible s hr 2).2 h
      rw [hj] at h; cases h
  have hcor := C34_concurrent_with_splitP arch exShared exJobs exWStart exJobAdmissible s hr 2 _ hj r hd _ (delivers_getD _) ⟨⟨[], 0⟩, ⟨[], 0⟩⟩
  have hc : contents exShared.heap ⟨0, 0, 3, 3⟩ = [1, 2, 3] := by decide
  simp only [Call.inputs, List.map_cons, List.map_nil, List.headD_cons, hc] at hcor
  obtain ⟨⟨shares, ps⟩, hsp⟩ := C13_split_validates arch [1, 2, 3] 3 2 (List.range 255) (List.Perm.refl _)
    (fun k => (s.proc 2).main.drawn.getD k 0) ⟨⟨[], 0⟩, ⟨[], 0⟩⟩
  have hlen := (C12_split_format arch [1, 2, 3] 3 2 _ (List.Perm.refl _) _ _ _ _ hsp).1
  rw [hsp] at hcor
  cases r with
  | ok outs =>
    have h3 : outs.length = 3 := by
      have : outs.map (contents s.shared.heap) = shares := by
        rw [map_ok, map_ok] at hcor; exact Outcome.ok.inj hcor
      have := congrArg List.length this
      simp at this; omega
    obtain ⟨s', h4, h5, h6, h7⟩ := C49_append_corrupts arch exShared exJobs exWStart exJobAdmissible s hr 2 _ _ _ _ hj outs
      hd 0 (by omega) ((contents s.shared.heap outs[1]).getD 0 0 + 1#8) (by simp) s.shared.next (Nat.le_refl _) 5
      [⟨1, by omega⟩, ⟨2, by omega⟩] (by simp) (by simp) (by simp)
    refine ⟨s, hr, outs, h3, hd, _, s', h4, ?_, ?_⟩
    · rintro rfl; rw [hc] at h6; exact h6 rfl
    · rw [hc] at h7
      apply List.ext_getElem?
      intro n
      rw [List.getElem?_drop, Nat.add_comm, h7 _ (by omega)]
      rfl
  | _ => cases hcor

/-- Byte 1 of the first share of `Split` is set to 77; then it is 77, and neither the other shares of `Split` nor those
of the concurrent call of `SplitP` nor the secret have changed. -/
example (arch : Arch) : ∃ s, WReach exJobs (winitial arch exShared exJobs) s ∧ ∃ o0 o2 : List Slice, ∃ h3 : o2.length = 3,
    (s.proc 0).phase = .done (ok o0) ∧ (s.proc 2).phase = .done (ok o2) ∧
    (contents (assign s.shared.heap o2[0] 1 77) o2[0])[1]? = some 77 ∧
    contents (assign s.shared.heap o2[0] 1 77) o2[1] = contents s.shared.heap o2[1] ∧
    o0.map (contents (assign s.shared.heap o2[0] 1 77)) = o0.map (contents s.shared.heap) ∧
    contents (assign s.shared.heap o2[0] 1 77) ⟨0, 0, 3, 3⟩ = [1, 2, 3] := by
  obtain ⟨s, hr, o0, o1, o2, h0, h1, h2, l0, l1, l2, hl⟩ := exWorld arch
  have hl0 := hl o2[0] (List.getElem_mem _)
  have hk : 1 < o2[0].len := by
    have : (contents s.shared.heap o2[0]).length ≤ o2[0].len := by simp [contents]
    omega
  obtain ⟨c1, c2, c3, c4⟩ := C49_assign_independent arch exShared exJobs exWStart exJobAdmissible s hr 2 o2 h2 0 (by omega) 1 hk 77
  refine ⟨s, hr, o0, o2, l2, h0, h2, ?_, c2 1 (by omega) (by decide),
    List.map_congr_left (c3 0 o0 (by decide) h0), ?_⟩
  · rw [c1, List.getElem?_set_self (by omega)]
  · rw [c4 2 _ (by simp [exJobs, Job.inputs, Call.inputs]),
      (C50_splitP_inputs_unchanged arch exShared exJobs exWStart exJobAdmissible s hr).2 2 _ (by simp [exJobs, Job.inputs, Call.inputs])]
    decide

/-- Appending to a share of `SplitP` changes no other share of that call. -/
example (arch : Arch) (bs : List Byte) : ∃ s, WReach exJobs (winitial arch exShared exJobs) s ∧ ∃ o1 : List Slice, ∃ h5 : o1.length = 5,
    (s.proc 1).phase = .done (ok o1) ∧
    contents (append s.shared.heap s.shared.next 0 o1[3] bs).1 o1[4] = contents s.shared.heap o1[4] ∧
    contents (append s.shared.heap s.shared.next 0 o1[3] bs).1 (append s.shared.heap s.shared.next 0 o1[3] bs).2
      = contents s.shared.heap o1[3] ++ bs := by
  obtain ⟨s, hr, o0, o1, o2, h0, h1, h2, l0, l1, l2, -⟩ := exWorld arch
  obtain ⟨c1, c2, -⟩ := C49_append_independent arch exShared exJobs exWStart exJobAdmissible s hr 1 o1 h1 3 (by omega) bs
    s.shared.next (Nat.le_refl _) 0
  exact ⟨s, hr, o1, l1, h1, c2 rfl 4 (by omega) (by decide), c1⟩

/-- Appending five bytes to the first share of `Split` (shares of four bytes) overwrites the second share and the first byte
of the third. -/
example (arch : Arch) : ∃ s, WReach exJobs (winitial arch exShared exJobs) s ∧ ∃ o2 : List Slice, ∃ h3 : o2.length = 3,
    (s.proc 2).phase = .done (ok o2) ∧
    contents (append s.shared.heap s.shared.next 0 o2[0] [11, 12, 13, 14, 15]).1 o2[1] = [11, 12, 13, 14] ∧
    contents (append s.shared.heap s.shared.next 0 o2[0] [11, 12, 13, 14, 15]).1 o2[2]
      = (15 : Byte) :: (contents s.shared.heap o2[2]).drop 1 := by
  obtain ⟨s, hr, o0, o1, o2, h0, h1, h2, l0, l1, l2, hl⟩ := exWorld arch
  have key := fun q hq => C49_append_overwrites arch exShared exJobs exWStart exJobAdmissible s hr 2 ⟨0, 0, 3, 3⟩ rfl o2 h2 0 q
    (by omega) hq [11, 12, 13, 14, 15] s.shared.next (Nat.le_refl _) 0
  refine ⟨s, hr, o2, l2, h2, ?_, ?_⟩
  · rw [key 1 (by omega)]
    have := hl o2[1] (List.getElem_mem _)
    generalize contents s.shared.heap o2[1] = c at this ⊢
    rw [l2]
    match c, this with
    | [a, b, c, d], _ => rfl
  · rw [key 2 (by omega)]
    have := hl o2[2] (List.getElem_mem _)
    generalize contents s.shared.heap o2[2] = c at this ⊢
    rw [l2]
    match c, this with
    | [a, b, c, d], _ => rfl

end Verif.Props
