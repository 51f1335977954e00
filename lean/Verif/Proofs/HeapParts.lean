import Verif.Proofs.HeapFrame
import Verif.Proofs.Regenerate
import Verif.Spec.Draws

/-! # Combine and Regenerate meet their specification in the presence of other calls

Both load the parts byte by byte while they compute: tags first, then one column after the other, while they store into
arrays of their own. -/

namespace Verif.Proofs.Own
open Verif Outcome Galois Shamir Spec Pool Csprng Verif.Heap

variable {R : Set Loc}

theorem map_nonok {α β γ : Type} {o : Outcome α} {f : β → γ} {g : α → β} {f' : α → γ} (h : ∀ a, o ≠ ok a) :
    f <$> (g <$> o) = f' <$> o := by
  cases o with
  | ok a => exact absurd rfl (h a)
  | _ => rfl

theorem nonok_map_ne {α β : Type} {o : Outcome α} {g : α → β} (h : ∀ a, o ≠ ok a) (b : β) : g <$> o ≠ ok b := by
  cases o with
  | ok a => exact absurd rfl (h a)
  | _ => intro c; cases c

theorem map_nonok_id {α β : Type} {o : Outcome α} {f : β → α} {g : α → β} (h : ∀ a, o ≠ ok a) :
    f <$> (g <$> o) = o := by
  cases o with
  | ok a => exact absurd rfl (h a)
  | _ => rfl

/-! ## The checks -/

theorem length_contents {h : HeapF} {s : Slice} (hb : InBounds h s) : (contents h s).length = s.len := by
  unfold InBounds at hb
  simp [contents]; omega

theorem checkLengthsP_eq (parts : List Slice) (f : Slice → List Byte) (hf : ∀ s ∈ parts, (f s).length = s.len) (L : Nat) :
    forUp (parts.length - 1) (fun i (_ : Unit) => do
      let p ← idx parts (i + 1)
      if p.len ≠ L then err .partLengthMismatch
      pure ()) () = checkLengths (parts.map f) L := by
  unfold checkLengths
  rw [List.length_map]
  refine forUp_congr fun i hi s => ?_
  have h1 : i + 1 < parts.length := by omega
  rw [idx_ok h1, idx_ok (by simpa using h1), ok_bind, ok_bind, List.getElem_map, hf _ (List.getElem_mem _)]

/-- The decisions of Combine and Regenerate on the lengths, in order. -/
theorem checkPartsP_eq {h : HeapF} {parts : List Slice} (hb : ∀ s ∈ parts, InBounds h s) :
    checkPartsP parts =
      if (parts.map (contents h)).length < 2 then err .lessThanTwoParts
      else if ((parts.map (contents h)).headD []).length < 2 then err .partTooShort
      else if ¬ ∀ p ∈ parts.map (contents h), p.length = ((parts.map (contents h)).headD []).length then
        err .partLengthMismatch
      else ok ((parts.map (contents h)).headD []).length := by
  have hl : ∀ s ∈ parts, (contents h s).length = s.len := fun s hs => length_contents (hb s hs)
  unfold checkPartsP
  rw [List.length_map]
  by_cases h1 : parts.length < 2
  · rw [if_pos h1, if_pos h1]; rfl
  rw [if_neg h1, if_neg h1]
  simp only [Outcome.pure_eq]
  obtain ⟨p0, rest, rfl⟩ : ∃ p0 rest, parts = p0 :: rest := by
    cases parts with
    | nil => simp at h1
    | cons a b => exact ⟨a, b, rfl⟩
  rw [idx_ok (by simp), ok_bind]
  simp only [List.getElem_cons_zero]
  have e0 : (contents h p0).length = p0.len := hl p0 (by simp)
  simp only [List.map_cons, List.headD_cons]
  rw [e0]
  by_cases h2 : p0.len < 2
  · rw [if_pos h2, if_pos h2]; rfl
  rw [if_neg h2, if_neg h2]
  have := checkLengthsP_eq (p0 :: rest) (contents h) hl p0.len
  simp only [Outcome.pure_eq] at this
  rw [this, checkLengths_eq]
  by_cases h3 : ∀ p ∈ rest.map (contents h), p.length = p0.len
  · have h3' : ∀ p ∈ contents h p0 :: rest.map (contents h), p.length = p0.len := by
      intro p hp
      rcases List.mem_cons.1 hp with rfl | hp
      · exact e0
      · exact h3 p hp
    rw [if_pos (by simpa using h3), if_neg (not_not.2 h3')]; rfl
  · have h3' : ¬ ∀ p ∈ contents h p0 :: rest.map (contents h), p.length = p0.len :=
      fun c => h3 fun p hp => c p (by simp [hp])
    rw [if_neg (by simpa using h3), if_pos h3']; rfl

/-! ## Loading the parts -/

/-- The parts are readable slices of length `L`. -/
structure Parts (S : Set Loc) (h : HeapF) (parts : List Slice) (L : Nat) : Prop where
  cells : ∀ s ∈ parts, ∀ i < L, (s.arr, s.off + i) ∈ S
  bound : ∀ s ∈ parts, s.off + L ≤ (h s.arr).length

/-- Byte `j` of every part. -/
def byteOf (h : HeapF) (j : Nat) (s : Slice) : Byte := (h s.arr).getD (s.off + j) 0

theorem wp_readTagsP {L : Nat} (hL : 0 < L) {Q : Post (Outcome (List Byte))} {W : Set Loc} {h : HeapF} {log : List Byte} :
    ∀ {parts : List Slice} {seen : List Byte}, Parts (W ∪ R) h parts L → seen.Nodup →
      Q (if (seen.reverse ++ parts.map (byteOf h (L - 1))).Nodup then ok (seen.reverse ++ parts.map (byteOf h (L - 1)))
        else err .duplicatePart) W h log → wp R (readTagsP L parts seen) Q W h log
  | [], seen, _, hn, hQ => by
    simp only [List.map_nil, List.append_nil, List.nodup_reverse, hn, if_true] at hQ
    exact hQ
  | s :: rest, seen, hp, hn, hQ => by
    refine ⟨hp.cells s (by simp) _ (by omega), byteOf h (L - 1) s, ?_, ?_⟩
    · have := hp.bound s (by simp)
      exact getD_of_getElem? (by omega)
    · simp only []
      split
      · rename_i hm
        rw [if_neg] at hQ
        · exact hQ
        · intro hnd
          rw [List.map_cons, List.nodup_append] at hnd
          exact hnd.2.2 _ (List.mem_reverse.2 hm) _ (by simp) rfl
      · rename_i hm
        refine wp_readTagsP hL ⟨fun s hs => hp.cells s (by simp [hs]), fun s hs => hp.bound s (by simp [hs])⟩
          (List.nodup_cons.2 ⟨hm, hn⟩) ?_
        simpa using hQ

theorem wp_readColumnP {L j : Nat} (hj : j < L) {W : Set Loc} {h : HeapF} {log : List Byte} :
    ∀ {parts : List Slice} {Q : Post (List Byte)}, Parts (W ∪ R) h parts L → Q (parts.map (byteOf h j)) W h log →
      wp R (readColumnP j parts) Q W h log
  | [], _, _, hQ => hQ
  | s :: rest, Q, hp, hQ => by
    refine ⟨hp.cells s (by simp) _ hj, byteOf h j s, ?_, ?_⟩
    · have := hp.bound s (by simp)
      exact getD_of_getElem? (by omega)
    · exact wp_bind _ _ _ _ _ (wp_readColumnP hj
        ⟨fun s hs => hp.cells s (by simp [hs]), fun s hs => hp.bound s (by simp [hs])⟩ hQ)

theorem Parts.frame {S S' : Set Loc} {h h' : HeapF} {parts : List Slice} {L : Nat} (hp : Parts S h parts L) (hL : 0 < L)
    (hs : S ⊆ S') (hf : Frame S h h') : Parts S' h' parts L :=
  ⟨fun s hm i hi => hs (hp.cells s hm i hi), fun s hm => by
    rw [hf s.arr (not_fresh_mem (hp.cells s hm 0 hL))]; exact hp.bound s hm⟩

theorem byteOf_frame {S : Set Loc} {h h' : HeapF} {parts : List Slice} {L : Nat} (hp : Parts S h parts L) (hL : 0 < L)
    (hf : Frame S h h') (j : Nat) : parts.map (byteOf h' j) = parts.map (byteOf h j) := by
  apply List.map_congr_left
  intro s hm
  unfold byteOf
  rw [hf s.arr (not_fresh_mem (hp.cells s hm 0 hL))]

theorem contents_getD {h : HeapF} {s : Slice} {j : Nat} (hj : j < s.len) : (contents h s).getD j 0 = byteOf h j s := by
  unfold contents byteOf
  simp [List.getD_eq_getElem?_getD, List.getElem?_take, hj]

theorem column_contents {h : HeapF} {parts : List Slice} {L j : Nat} (hl : ∀ s ∈ parts, s.len = L) (hj : j < L) :
    column (parts.map (contents h)) j = parts.map (byteOf h j) := by
  unfold column
  rw [List.map_map]
  apply List.map_congr_left
  intro s hs
  exact contents_getD (by rw [hl s hs]; exact hj)

theorem tags_contents {h : HeapF} {parts : List Slice} {L : Nat} (hL : 0 < L) (hl : ∀ s ∈ parts, s.len = L)
    (hb : ∀ s ∈ parts, InBounds h s) : tags (parts.map (contents h)) = parts.map (byteOf h (L - 1)) := by
  unfold tags
  rw [List.map_map]
  apply List.map_congr_left
  intro s hs
  show tag (contents h s) = _
  unfold tag
  rw [length_contents (hb s hs), hl s hs]
  exact contents_getD (by rw [hl s hs]; omega)

/-- One array is filled with interpolated bytes. -/
theorem wp_interpolateRowP {parts : List Slice} {xs : List Byte} {x : Byte} {a : Arr} {N L : Nat} {Q : Post Unit}
    {S W : Set Loc} {h : HeapF} {log : List Byte} (hS : S ⊆ W ∪ R) (hp : Parts S h parts L) (hN : N < L) (hx : xs.Nodup)
    (hxl : xs.length = parts.length) (ha : own a ⊆ W) (hfr : Fresh S a) (hal : N ≤ (h a).length)
    (hQ : Q () W (Function.update h a (filled (fun j => lagrangeAt xs (parts.map (byteOf h j)) x) (h a) N)) log) :
    wp R (interpolateRowP parts xs x a N) Q W h log := by
  refine wp_mono ?_ _ _ _ _ (wp_forUp (fun j _ W' h' log' => W' = W ∧ log' = log ∧
    h' = Function.update h a (filled (fun j => lagrangeAt xs (parts.map (byteOf h j)) x) (h a) j)) ⟨rfl, rfl, by simp⟩ ?_)
  · rintro _ W' h' log' ⟨rfl, rfl, rfl⟩; exact hQ
  · rintro j hj _ W' h' log' ⟨rfl, rfl, rfl⟩
    have hf := frame_update h (filled (fun j => lagrangeAt xs (parts.map (byteOf h j)) x) (h a) j) hfr
    refine wp_bind _ _ _ _ _ (wp_readColumnP (L := L) (by omega) (hp.frame (by omega) hS hf) ?_)
    rw [byteOf_frame hp (by omega) hf]
    refine wp_bind _ _ _ _ _ ?_
    rw [interpolatePolynomial_eq hx (by simp [hxl])]
    refine ⟨ha rfl, ?_, rfl, rfl, ?_⟩
    · rw [Function.update_self, length_filled (by omega)]; omega
    · rw [Function.update_self, Function.update_idem, filled_set (by omega) rfl]

theorem wp_combineP {parts : List Slice} {W : Set Loc} {h : HeapF} {log : List Byte} {Q : Post (Outcome (List Slice))}
    (hR : ∀ s ∈ parts, ∀ i < s.len, (s.arr, s.off + i) ∈ W ∪ R) (hb : ∀ s ∈ parts, InBounds h s)
    (hno : ∀ W' h', W ⊆ W' → Frame (W ∪ R) h h' → (∀ c, Shamir.combine (parts.map (contents h)) ≠ ok c) →
      Q ((fun _ => []) <$> Shamir.combine (parts.map (contents h))) W' h' log)
    (hok : ∀ secret a, Fresh (W ∪ R) a → Shamir.combine (parts.map (contents h)) = ok secret →
      Q (ok [⟨a, 0, secret.length, secret.length⟩]) (W ∪ own a) (Function.update h a secret) log) :
    wp R (combineP parts) Q W h log := by
  unfold combineP
  have hc := combine_eq (parts.map (contents h))
  have hno0 : (∀ c, Shamir.combine (parts.map (contents h)) ≠ ok c) →
      Q ((fun _ => []) <$> Shamir.combine (parts.map (contents h))) W h log := hno W h (le_refl _) (Frame.refl _ _)
  rw [checkPartsP_eq hb]
  by_cases h1 : (parts.map (contents h)).length < 2
  · rw [if_pos h1] at hc ⊢
    rw [hc] at hno0
    exact hno0 (by simp)
  rw [if_neg h1] at hc ⊢
  by_cases h2 : ((parts.map (contents h)).headD []).length < 2
  · rw [if_pos h2] at hc ⊢
    rw [hc] at hno0
    exact hno0 (by simp)
  rw [if_neg h2] at hc ⊢
  by_cases h3 : ¬ ∀ p ∈ parts.map (contents h), p.length = ((parts.map (contents h)).headD []).length
  · rw [if_pos h3] at hc ⊢
    rw [hc] at hno0
    exact hno0 (by simp)
  rw [if_neg h3] at hc ⊢
  rw [not_not] at h3
  generalize hL : ((parts.map (contents h)).headD []).length = L at *
  have hlen : ∀ s ∈ parts, s.len = L := fun s hs => by
    rw [← length_contents (hb s hs)]; exact h3 _ (List.mem_map_of_mem hs)
  have hp : Parts (W ∪ R) h parts L :=
    ⟨fun s hs i hi => hR s hs i (by rw [hlen s hs]; exact hi), fun s hs => by rw [← hlen s hs]; exact hb s hs⟩
  have ht := tags_contents (by omega) hlen hb
  intro a ha
  have hf := frame_update h (List.replicate (L - 1) 0) ha
  have hsub : W ∪ R ⊆ (W ∪ own a) ∪ R := Set.union_subset_union_left _ Set.subset_union_left
  refine wp_bind _ _ _ _ _ (wp_readTagsP (by omega) (hp.frame (by omega) hsub hf) List.nodup_nil ?_)
  rw [List.reverse_nil, List.nil_append, byteOf_frame hp (by omega) hf, ← ht]
  by_cases h4 : (tags (parts.map (contents h))).Nodup
  · rw [if_neg (not_not.2 h4)] at hc
    rw [if_pos h4]
    refine wp_bind _ _ _ _ _ (wp_interpolateRowP (S := W ∪ R) (L := L) hsub (hp.frame (by omega) (le_refl _) hf) (by omega) h4
      (by simp) Set.subset_union_right ha (by rw [Function.update_self]; simp) ?_)
    rw [Function.update_self, Function.update_idem, filled_all (by simp)]
    have e : (List.range (L - 1)).map (fun j => lagrangeAt (tags (parts.map (contents h)))
        (parts.map (byteOf (Function.update h a (List.replicate (L - 1) 0)) j)) 0) = recover (parts.map (contents h)) (L - 1) := by
      unfold recover
      apply List.map_congr_left
      intro j hj
      have hj : j < L - 1 := by simpa using hj
      rw [byteOf_frame hp (by omega) hf, column_contents hlen (by omega)]
    rw [e]
    have hlr : (recover (parts.map (contents h)) (L - 1)).length = L - 1 := by simp [recover]
    have := hok _ a ha hc
    rw [hlr] at this
    exact this
  · rw [if_pos h4] at hc
    rw [if_neg h4]
    have := hno (W ∪ own a) _ Set.subset_union_left hf (by rw [hc]; simp)
    rw [hc] at this
    exact this

theorem wp_combine (arch : Arch) {parts : List Slice} {W : Set Loc} {h : HeapF}
    (hR : ∀ s ∈ parts, ∀ i < s.len, (s.arr, s.off + i) ∈ W ∪ R) (hb : ∀ s ∈ parts, InBounds h s) :
    wp R (combineP parts) (CallPost arch (.combine parts) (parts.map (contents h))) W h [] := by
  refine wp_combineP hR hb (fun W' h' _ _ hn => ⟨?_, fun slices e => absurd e (nonok_map_ne hn _)⟩) (fun secret a ha hc => ?_)
  · show _ = _ <$> _
    rw [map_nonok hn]
  · refine ⟨?_, ?_⟩
    · show _ = _
      rw [hc, map_ok, map_ok]
      congr 1
      simp [contents]
    · intro slices hsl
      cases hsl
      refine ⟨⟨a, _, rfl⟩, ?_⟩
      intro s hs
      obtain rfl : s = ⟨a, 0, secret.length, secret.length⟩ := by simpa using hs
      refine ⟨Set.subset_union_right, ?_, le_rfl⟩
      show 0 + secret.length ≤ _
      rw [Function.update_self]; omega

/-! ## Regenerate -/

/-- What the loop for one new tag draws: `l` is exactly what is needed, unless the bound on the number of draws stops it. -/
def LoopRedraws (cm : List Byte) (nx : Byte) (l : List Byte) : Prop :=
  ∀ rest extra, Redraws (((nx :: l).getLastD 0) :: cm) rest extra → Redraws cm (nx :: rest) (l ++ extra)

/-- The loop over candidates ended with `r` after drawing `l`, and so it does in the sequential model with every stream
that delivers `l` from position `pos` on. -/
def LoopDraws (cm : List Byte) (fuel : Nat) (nx : Byte) (r : Outcome Byte) (l : List Byte) : Prop :=
  (r = spin ∧ ∀ (cm' : List Byte), (∀ x, x ∈ cm' ↔ x ∈ cm) → ∀ u pos, (∀ k < l.length, u (pos + k) = l.getD k 0) →
    regenLoop u cm' fuel nx pos = spin) ∨
  (r = ok ((nx :: l).getLastD 0) ∧ LoopRedraws cm nx l ∧
    ∀ (cm' : List Byte), (∀ x, x ∈ cm' ↔ x ∈ cm) → ∀ u pos, (∀ k < l.length, u (pos + k) = l.getD k 0) →
      regenLoop u cm' fuel nx pos = ok ((nx :: l).getLastD 0, pos + l.length))

theorem wp_regenLoopP {cm : List Byte} {fuel : Nat} {Q : Post (Outcome Byte)} {W : Set Loc} {h : HeapF} :
    ∀ {nx : Byte} {log : List Byte}, (∀ r l, LoopDraws cm fuel nx r l → Q r W h (log ++ l)) →
      wp R (regenLoopP cm fuel nx) Q W h log := by
  induction fuel generalizing Q with
  | zero =>
    intro nx log hQ
    show Q spin W h log
    simpa using hQ spin [] (.inl ⟨rfl, fun _ _ _ _ _ => rfl⟩)
  | succ fuel ih =>
    intro nx log hQ
    unfold regenLoopP
    split
    · rename_i hm
      intro v
      refine ih (fun r l hl => ?_)
      have step : ∀ (cm' : List Byte), (∀ x, x ∈ cm' ↔ x ∈ cm) → ∀ (u : Nat → Byte) pos,
          (∀ k < (v :: l).length, u (pos + k) = (v :: l).getD k 0) →
          regenLoop u cm' (fuel + 1) nx pos = regenLoop u cm' fuel v (pos + 1) ∧
          ∀ k < l.length, u (pos + 1 + k) = l.getD k 0 := by
        intro cm' hc u pos hu
        refine ⟨?_, fun k hk => ?_⟩
        · rw [regenLoop, if_pos ((hc _).2 hm)]
          have := hu 0 (by simp)
          rw [Nat.add_zero] at this
          rw [this]; rfl
        · have := hu (k + 1) (by simpa using hk)
          rw [List.getD_cons_succ] at this
          rw [← this]; congr 1; omega
      have : LoopDraws cm (fuel + 1) nx r (v :: l) := by
        rcases hl with ⟨rfl, hl⟩ | ⟨rfl, hd, hl⟩
        · refine .inl ⟨rfl, fun cm' hc u pos hu => ?_⟩
          obtain ⟨h1, h2⟩ := step cm' hc u pos hu
          rw [h1]; exact hl cm' hc u (pos + 1) h2
        · refine .inr ⟨by simp, fun rest extra hr => Redraws.again hm (hd rest extra (by simpa using hr)),
            fun cm' hc u pos hu => ?_⟩
          obtain ⟨h1, h2⟩ := step cm' hc u pos hu
          rw [h1, hl cm' hc u (pos + 1) h2]
          simp only [List.length_cons, Outcome.ok.injEq, Prod.mk.injEq]
          exact ⟨by simp, by omega⟩
      simpa using hQ r (v :: l) this
    · rename_i hm
      refine List.append_nil log ▸ hQ (ok nx) [] (.inr ⟨rfl, fun rest extra hr => Redraws.keep hm hr, fun cm' hc u pos _ => ?_⟩)
      rw [regenLoop, if_neg (fun c => hm ((hc _).1 c))]
      rfl

/-- The loop over `newXs`, with a list instead of indices. -/
def dedupeList (u : Nat → Byte) (fuel : Nat) : List Byte → List Byte × Nat → Outcome (List Byte × Nat)
  | [], st => ok st
  | nx :: rest, (cm, pos) => regenLoop u cm fuel nx pos >>= fun r => dedupeList u fuel rest (r.1 :: cm, r.2)

theorem forUp_head {σ : Type} {n : Nat} {f : Nat → σ → Outcome σ} {s : σ} :
    Verif.forUp (n + 1) f s = f 0 s >>= Verif.forUp n (fun i => f (i + 1)) := by
  rw [Nat.add_comm, forUp_add]
  simp only [Verif.forUp, ok_bind]
  congr 1
  funext s
  congr 1
  funext i
  rw [Nat.add_comm]

theorem dedupe_list {u : Nat → Byte} {fuel : Nat} {newXs : List Byte} : ∀ {st : List Byte × Nat},
    Verif.forUp newXs.length (dedupeBody u fuel newXs) st = dedupeList u fuel newXs st := by
  induction newXs with
  | nil => intro st; rfl
  | cons nx rest ih =>
    rintro ⟨cm, pos⟩
    rw [List.length_cons, forUp_head]
    have e : (fun i => dedupeBody u fuel (nx :: rest) (i + 1)) = dedupeBody u fuel rest := by
      funext i st
      unfold dedupeBody
      rfl
    rw [e]
    show (dedupeBody u fuel (nx :: rest) 0 (cm, pos) >>= _) = regenLoop u cm fuel nx pos >>= _
    have e0 : dedupeBody u fuel (nx :: rest) 0 (cm, pos) = regenLoop u cm fuel nx pos >>= fun r => ok (r.1 :: cm, r.2) := rfl
    rw [e0]
    cases regenLoop u cm fuel nx pos with
    | ok r => simp only [ok_bind]; exact ih
    | _ => rfl

/-- The same for the loop over all candidates. -/
def DedupeDraws (cm : List Byte) (fuel : Nat) (newXs : List Byte) (r : Outcome Unit) (l : List Byte) : Prop :=
  (r = spin ∧ ∀ cm' : List Byte, (∀ x, x ∈ cm' ↔ x ∈ cm) → ∀ u pos, (∀ k < l.length, u (pos + k) = l.getD k 0) →
    dedupeList u fuel newXs (cm', pos) = spin) ∨
  (r = ok () ∧ Redraws cm newXs l ∧
    ∀ cm' : List Byte, (∀ x, x ∈ cm' ↔ x ∈ cm) → ∀ u pos, (∀ k < l.length, u (pos + k) = l.getD k 0) →
      ∃ st, dedupeList u fuel newXs (cm', pos) = ok st)

theorem wp_regenDedupeP {fuel : Nat} {newXs : List Byte} {W : Set Loc} {h : HeapF} :
    ∀ {cm : List Byte} {log : List Byte} {Q : Post (Outcome Unit)},
      (∀ r l, DedupeDraws cm fuel newXs r l → Q r W h (log ++ l)) → wp R (regenDedupeP fuel cm newXs) Q W h log := by
  induction newXs with
  | nil =>
    intro cm log Q hQ
    show Q (ok ()) W h log
    simpa using hQ (ok ()) [] (.inr ⟨rfl, .done _, fun _ _ _ _ _ => ⟨_, rfl⟩⟩)
  | cons nx rest ih =>
    intro cm log Q hQ
    unfold regenDedupeP
    refine wp_bind _ _ _ _ _ (wp_regenLoopP fun r l hl => ?_)
    have left : ∀ (l m : List Byte) (v : Nat → Byte) pos, (∀ k < (l ++ m).length, v (pos + k) = (l ++ m).getD k 0) →
        ∀ k < l.length, v (pos + k) = l.getD k 0 := by
      intro l m v pos hv k hk
      rw [hv k (by simp; omega), List.getD_eq_getElem?_getD, List.getElem?_append_left hk, ← List.getD_eq_getElem?_getD]
    have right : ∀ (l m : List Byte) (v : Nat → Byte) pos, (∀ k < (l ++ m).length, v (pos + k) = (l ++ m).getD k 0) →
        ∀ k < m.length, v (pos + l.length + k) = m.getD k 0 := by
      intro l m v pos hv k hk
      rw [Nat.add_assoc, hv (l.length + k) (by simp; omega), List.getD_eq_getElem?_getD,
        List.getElem?_append_right (by omega), Nat.add_sub_cancel_left, ← List.getD_eq_getElem?_getD]
    rcases hl with ⟨rfl, hl⟩ | ⟨rfl, hd, hl⟩
    · refine hQ spin l (.inl ⟨rfl, fun cm' hc u pos hu => ?_⟩)
      simp only [dedupeList]
      rw [hl cm' hc u pos hu]; rfl
    · refine ih fun r m hm => ?_
      rw [List.append_assoc]
      have hc' : ∀ cm' : List Byte, (∀ x, x ∈ cm' ↔ x ∈ cm) → ∀ x, x ∈ ((nx :: l).getLastD 0) :: cm' ↔ x ∈ ((nx :: l).getLastD 0) :: cm :=
        fun cm' hc x => by simp only [List.mem_cons, hc]
      refine hQ r (l ++ m) ?_
      rcases hm with ⟨rfl, hm⟩ | ⟨rfl, hr, hm⟩
      · refine .inl ⟨rfl, fun cm' hc u pos hu => ?_⟩
        simp only [dedupeList]
        rw [hl cm' hc u pos (left l m u pos hu), ok_bind]
        exact hm _ (hc' cm' hc) u _ (right l m u pos hu)
      · refine .inr ⟨rfl, hd _ _ hr, fun cm' hc u pos hu => ?_⟩
        simp only [dedupeList]
        rw [hl cm' hc u pos (left l m u pos hu), ok_bind]
        exact hm _ (hc' cm' hc) u _ (right l m u pos hu)

/-- The new shares, every one in an array of its own. -/
theorem wp_regenRowsP {parts : List Slice} {L : Nat} (hL : 1 < L) {xs : List Byte} (hx : xs.Nodup)
    (hxl : xs.length = parts.length) {S : Set Loc} {h0 : HeapF} {nxs : List Byte} {Q : Post (List Slice)} {W : Set Loc} {h : HeapF}
    {log : List Byte} (hS : S ⊆ W ∪ R) (hp : Parts S h0 parts L) (h0f : Frame S h0 h)
    (hQ : ∀ slices W' h', W ⊆ W' → Frame (W ∪ R) h h' →
      slices.map (contents h') = nxs.map (fun x =>
        (List.range (L - 1)).map (fun j => lagrangeAt xs (parts.map (byteOf h0 j)) x) ++ [x]) →
      Separate slices → (∀ s ∈ slices, own s.arr ⊆ W' ∧ Fresh (W ∪ R) s.arr ∧ s.off + s.cap ≤ (h' s.arr).length ∧ s.len ≤ s.cap) →
      Q slices W' h' log) :
    wp R (regenRowsP L parts xs nxs) Q W h log := by
  induction nxs generalizing W h Q with
  | nil => exact hQ [] W h (fun _ hx => hx) (Frame.refl _ _) rfl ⟨List.nodup_nil, by simp⟩ (by simp)
  | cons x rest ih =>
    unfold regenRowsP
    intro a ha
    have hsub : W ∪ R ⊆ (W ∪ own a) ∪ R := Set.union_subset_union_left _ Set.subset_union_left
    have haS : Fresh S a := ha.mono hS
    refine ⟨Or.inr rfl, by rw [Function.update_self]; simp; omega, ?_⟩
    rw [Function.update_self, Function.update_idem]
    have hf1 := frame_update h ((List.replicate L (0 : Byte)).set (L - 1) x) haS
    refine wp_bind _ _ _ _ _ (wp_interpolateRowP (S := S) (L := L) (hS.trans hsub)
      (hp.frame (by omega) (le_refl _) (h0f.trans hf1)) (by omega) hx hxl Set.subset_union_right haS
      (by rw [Function.update_self]; simp) ?_)
    rw [Function.update_self, Function.update_idem]
    have ef : filled (fun j => lagrangeAt xs (parts.map (byteOf (Function.update h a ((List.replicate L (0 : Byte)).set (L - 1) x)) j)) x)
        ((List.replicate L (0 : Byte)).set (L - 1) x) (L - 1)
        = (List.range (L - 1)).map (fun j => lagrangeAt xs (parts.map (byteOf h0 j)) x) ++ [x] := by
      unfold filled
      congr 1
      · apply List.map_congr_left
        intro j _
        rw [byteOf_frame hp (by omega) (h0f.trans hf1)]
      · rw [List.drop_set, if_neg (by omega), List.drop_replicate, show L - (L - 1) = 1 by omega]
        simp
    rw [ef]
    generalize hrow : (List.range (L - 1)).map (fun j => lagrangeAt xs (parts.map (byteOf h0 j)) x) ++ [x] = row
    have hrl : row.length = L := by rw [← hrow]; simp; omega
    refine wp_bind _ _ _ _ _ (ih (hS.trans hsub) (h0f.trans (frame_update h row haS)) ?_)
    intro slices W' h' hW hfr hc hsep hs
    have hha : h' a = row := by
      have := hfr a (not_fresh_own (Set.subset_union_right.trans Set.subset_union_left))
      rw [this, Function.update_self]
    refine hQ _ W' h' (Set.subset_union_left.trans hW) ?_ ?_ ⟨?_, ?_⟩ ?_
    · exact (frame_update h row ha).trans (hfr.mono hsub)
    · rw [List.map_cons, List.map_cons, hc, hrow]
      simp [contents, hha, ← hrl]
    · rw [List.map_cons, List.nodup_cons]
      refine ⟨?_, hsep.1⟩
      intro hm
      obtain ⟨s, hs1, hs2⟩ := List.mem_map.1 hm
      exact (hs s hs1).2.1 0 (Or.inl (Or.inr (show s.arr = a from hs2)))
    · intro s hs1
      rcases List.mem_cons.1 hs1 with rfl | hs1
      · exact ⟨rfl, rfl⟩
      · exact hsep.2 s hs1
    · intro s hs1
      rcases List.mem_cons.1 hs1 with rfl | hs1
      · refine ⟨Set.subset_union_right.trans hW, ha, ?_, le_rfl⟩
        show 0 + L ≤ (h' a).length
        rw [hha, hrl]; omega
      · have := hs s hs1
        exact ⟨this.1, this.2.1.mono hsub, this.2.2.1, this.2.2.2⟩

/-- `Regenerate` returns what the sequential function returns, and draws what it has to. -/
theorem wp_regenerate_consumes (arch : Arch) (fuel : Nat) {parts : List Slice} {n : Int} {W : Set Loc} {h : HeapF}
    (hR : ∀ s ∈ parts, ∀ i < s.len, (s.arr, s.off + i) ∈ W ∪ R) (hb : ∀ s ∈ parts, InBounds h s) :
    wp R (regenerateP fuel parts n) (fun r W' h' log =>
      CallPost arch (.regenerate fuel parts n) (parts.map (contents h)) r W' h' log ∧
      Consumes (.regenerate fuel parts n) (parts.map (contents h)) r log) W h [] := by
  unfold regenerateP
  have hc := regenerate_eq fuel (parts.map (contents h)) n
  rw [checkPartsP_eq hb]
  by_cases h1 : (parts.map (contents h)).length < 2
  · simp only [if_pos h1] at hc ⊢
    exact ⟨⟨fun src _ => by rw [hc]; rfl, fun _ c => by cases c⟩, rfl⟩
  simp only [if_neg h1] at hc ⊢
  by_cases h2 : ((parts.map (contents h)).headD []).length < 2
  · simp only [if_pos h2] at hc ⊢
    exact ⟨⟨fun src _ => by rw [hc]; rfl, fun _ c => by cases c⟩, rfl⟩
  simp only [if_neg h2] at hc ⊢
  by_cases h3 : ¬ ∀ p ∈ parts.map (contents h), p.length = ((parts.map (contents h)).headD []).length
  · simp only [if_pos h3] at hc ⊢
    exact ⟨⟨fun src _ => by rw [hc]; rfl, fun _ c => by cases c⟩, rfl⟩
  simp only [if_neg h3] at hc ⊢
  rw [not_not] at h3
  generalize hL : ((parts.map (contents h)).headD []).length = L at *
  show wp R (if n < 0 then _ else _) _ _ _ _
  by_cases h4 : n < 0
  · simp only [if_pos h4] at hc ⊢
    exact ⟨⟨fun src _ => by rw [hc]; rfl, fun _ c => by cases c⟩, rfl⟩
  simp only [if_neg h4] at hc ⊢
  have hlen : ∀ s ∈ parts, s.len = L := fun s hs => by
    rw [← length_contents (hb s hs)]; exact h3 _ (List.mem_map_of_mem hs)
  have hp : Parts (W ∪ R) h parts L :=
    ⟨fun s hs i hi => hR s hs i (by rw [hlen s hs]; exact hi), fun s hs => by rw [← hlen s hs]; exact hb s hs⟩
  have ht := tags_contents (by omega) hlen hb
  refine wp_bind _ _ _ _ _ (wp_readTagsP (by omega) hp List.nodup_nil ?_)
  rw [List.reverse_nil, List.nil_append, ← ht]
  by_cases h5 : (tags (parts.map (contents h))).Nodup
  · simp only [h5, not_true_eq_false, if_false] at hc
    rw [if_pos h5]
    refine wp_bind _ _ _ _ _ (wp_drawAll ?_)
    intro newXs hn
    refine wp_bind _ _ _ _ _ (wp_regenDedupeP ?_)
    intro r us hus
    have hsrc1 : ∀ src : Nat → Byte, Delivers src ([] ++ newXs ++ us) → (List.range n.toNat).map src = newXs := by
      intro src hsrc
      rw [List.nil_append] at hsrc
      rw [← map_getD_range newXs, hn]
      apply List.map_congr_left
      intro k hk
      have hk : k < n.toNat := by simpa using hk
      rw [hsrc k (by simp; omega), List.getD_eq_getElem?_getD, List.getElem?_append_left (by omega),
          ← List.getD_eq_getElem?_getD]
    have hsrc2 : ∀ src : Nat → Byte, Delivers src ([] ++ newXs ++ us) → ∀ k < us.length, src (n.toNat + (0 + k)) = us.getD k 0 := by
      intro src hsrc k hk
      rw [List.nil_append] at hsrc
      rw [Nat.zero_add, hsrc _ (by simp; omega), List.getD_eq_getElem?_getD, List.getElem?_append_right (by omega), hn,
            Nat.add_sub_cancel_left, ← List.getD_eq_getElem?_getD]
    rcases hus with ⟨rfl, hus⟩ | ⟨rfl, hrd, hus⟩
    · refine ⟨⟨fun src hsrc => ?_, fun _ c => by cases c⟩, ?_⟩
      · rw [hc, hsrc1 src hsrc, regenDedupe_eq, dedupe_list, hus _ (by simp) (fun k => src (n.toNat + k)) 0 (hsrc2 src hsrc)]
        rfl
      · show n.toNat ≤ _
        simp [hn]
    · refine wp_bind _ _ _ _ _ (wp_readColumnP (L := L) (by omega) hp ?_)
      rw [← ht]
      refine wp_bind _ _ _ _ _ (wp_regenRowsP (by omega) h5 (by simp) (le_refl _) hp (Frame.refl _ _) ?_)
      intro slices W' h' hW hfr hcont hsep hsl
      refine ⟨⟨fun src hsrc => ?_, ?_⟩, ?_⟩
      · obtain ⟨st, hst⟩ := hus (tags (parts.map (contents h))).reverse (fun x => List.mem_reverse) (fun k => src (n.toNat + k)) 0 (hsrc2 src hsrc)
        rw [hc, hsrc1 src hsrc, regenDedupe_eq, dedupe_list, hst, ok_bind, map_ok, hcont]
        congr 1
        have e : (List.range n.toNat).map (fun k => newShare (parts.map (contents h)) (L - 1) (src k))
            = ((List.range n.toNat).map src).map fun x => newShare (parts.map (contents h)) (L - 1) x := by
          rw [List.map_map]; rfl
        rw [e, hsrc1 src hsrc]
        apply List.map_congr_left
        intro x _
        unfold newShare
        congr 1
        apply List.map_congr_left
        intro j hj
        have hj : j < L - 1 := by simpa using hj
        rw [column_contents hlen (by omega)]
      · intro slices' e
        cases e
        exact ⟨hsep, fun s hm => ⟨(hsl s hm).1, (hsl s hm).2.2⟩⟩
      · refine ⟨newXs, us, by simp, hn, ?_⟩
        have : (parts.map (contents h)).map (fun share => share.getLastD 0) = tags (parts.map (contents h)) := by
          apply List.map_congr_left
          intro p _
          simp [tag, List.getLast?_eq_getElem?]
        rw [this]; exact hrd
  · simp only [h5, not_false_eq_true, if_true] at hc
    rw [if_neg h5]
    exact ⟨⟨fun src _ => by rw [hc]; rfl, fun _ c => by cases c⟩, rfl⟩

theorem wp_regenerate (arch : Arch) (fuel : Nat) {parts : List Slice} {n : Int} {W : Set Loc} {h : HeapF}
    (hR : ∀ s ∈ parts, ∀ i < s.len, (s.arr, s.off + i) ∈ W ∪ R) (hb : ∀ s ∈ parts, InBounds h s) :
    wp R (regenerateP fuel parts n) (CallPost arch (.regenerate fuel parts n) (parts.map (contents h))) W h [] :=
  wp_mono (fun _ _ _ _ h => h.1) _ _ _ _ (wp_regenerate_consumes arch fuel hR hb)

end Verif.Proofs.Own
