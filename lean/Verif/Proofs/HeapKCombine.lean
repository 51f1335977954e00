import Verif.Proofs.HeapShards

/-! # krawczyk.Combine meets its specification in the presence of other calls -/

namespace Verif.Proofs.Own
open Verif Outcome Galois Shamir Spec Pool Csprng RS Krawczyk Verif.Heap

variable {R : Set Loc}

theorem wp_readOptSlices {ss : List (Option Slice)} {Q : Post (List (Option (List Byte)))} {W : Set Loc} {h : HeapF}
    {log : List Byte} (hR : ∀ s ∈ ss.filterMap id, ∀ i < s.len, (s.arr, s.off + i) ∈ W ∪ R)
    (hb : ∀ s ∈ ss.filterMap id, InBounds h s) (hQ : Q (withNils ss ((ss.filterMap id).map (contents h))) W h log) :
    wp R (readOptSlices ss) Q W h log := by
  induction ss generalizing Q with
  | nil => exact hQ
  | cons o rest ih =>
    cases o with
    | none =>
      unfold readOptSlices
      exact wp_bind _ _ _ _ _ (ih hR hb hQ)
    | some s =>
      unfold readOptSlices
      have e : (some s :: rest).filterMap id = s :: rest.filterMap id := rfl
      rw [e] at hR hb hQ
      refine wp_bind _ _ _ _ _ (wp_readAll (hR s (by simp)) (hb s (by simp)) ?_)
      refine wp_bind _ _ _ _ _ (ih (fun s hs => hR s (List.mem_cons_of_mem _ hs))
        (fun s hs => hb s (List.mem_cons_of_mem _ hs)) ?_)
      show Q _ W h log
      rw [← contents_eq (hb s (by simp))]
      exact hQ

theorem filterMap_withNils {α β : Type} : ∀ (ss : List (Option α)) (l : List β), l.length = (ss.filterMap id).length →
    (withNils ss l).filterMap id = l
  | [], [], _ => rfl
  | [], b :: l, h => by simp at h
  | none :: ss, l, h => by
    rw [withNils, List.filterMap_cons_none rfl]
    exact filterMap_withNils ss l h
  | some a :: ss, [], h => by
    rw [show (some a :: ss).filterMap id = a :: ss.filterMap id from rfl] at h; simp at h
  | some a :: ss, b :: l, h => by
    rw [show (some a :: ss).filterMap id = a :: ss.filterMap id from rfl] at h
    rw [withNils, show (some b :: withNils ss l).filterMap id = b :: (withNils ss l).filterMap id from rfl,
      filterMap_withNils ss l (by simpa using h)]

/-- Every header is that of one of the shares. -/
theorem mem_placeHeaders {n : Nat} {ds : List (Slice × List Byte)} {s : Slice} (h : some s ∈ placeHeaders n ds) :
    ∃ d ∈ ds, s = ⟨d.1.arr, d.1.off + 21, d.1.len - 22, d.1.cap - 21⟩ := by
  unfold placeHeaders at h
  suffices ∀ acc : List (Option Slice), some s ∈ ds.foldl (fun acc d => acc.set (d.2.getLastD 0).toNat
      (some ⟨d.1.arr, d.1.off + 21, d.1.len - 22, d.1.cap - 21⟩)) acc → some s ∈ acc ∨
      ∃ d ∈ ds, s = ⟨d.1.arr, d.1.off + 21, d.1.len - 22, d.1.cap - 21⟩ by
    rcases this _ h with h | h
    · have := (List.mem_replicate.1 h).2; cases this
    · exact h
  clear h
  induction ds with
  | nil => intro acc h; exact Or.inl h
  | cons d ds ih =>
    intro acc h
    rw [List.foldl_cons] at h
    rcases ih _ h with h | ⟨d', hd, e⟩
    · rcases List.mem_or_eq_of_mem_set h with h | h
      · exact Or.inl h
      · exact Or.inr ⟨d, by simp, Option.some.inj h⟩
    · exact Or.inr ⟨d', by simp [hd], e⟩

theorem mem_place {n : Nat} {ds : List (List Byte)} {s : List Byte} (h : s ∈ place n ds) (hne : s ≠ []) :
    ∃ d ∈ ds, s = shardOf d := by
  unfold place at h
  suffices ∀ acc : List (List Byte), s ∈ ds.foldl (fun acc d => acc.set (partId d).toNat (shardOf d)) acc → s ∈ acc ∨
      ∃ d ∈ ds, s = shardOf d by
    rcases this _ h with h | h
    · exact absurd (List.mem_replicate.1 h).2 hne
    · exact h
  clear h
  induction ds with
  | nil => intro acc h; exact Or.inl h
  | cons d ds ih =>
    intro acc h
    rw [List.foldl_cons] at h
    rcases ih _ h with h | ⟨d', hd, e⟩
    · rcases List.mem_or_eq_of_mem_set h with h | h
      · exact Or.inl h
      · exact Or.inr ⟨d, by simp, h⟩
    · exact Or.inr ⟨d', by simp [hd], e⟩

theorem shardSize_mem : ∀ {P : List (List Byte)}, shardSize P ≠ 0 → ∃ s ∈ P, s ≠ [] ∧ s.length = shardSize P
  | [], h => absurd rfl h
  | s :: P, h => by
    rw [shardSize] at h ⊢
    split at h
    · rename_i hs
      rw [if_pos hs]
      exact ⟨s, by simp, fun e => hs (by rw [e]; rfl), rfl⟩
    · rename_i hs
      rw [if_neg hs]
      obtain ⟨s', h1, h2⟩ := shardSize_mem h
      exact ⟨s', by simp [h1], h2⟩

theorem reconstruct_size {lib : RSLib} {e : Encoder} {P Q : List (List Byte)} (h : e.reconstructData lib P = ok Q) :
    shardSize P ≠ 0 := by
  unfold Encoder.reconstructData at h
  split at h
  · cases h
  split at h
  · cases h
  · assumption

/-- Without an empty shard among others nothing is stored. -/
theorem wp_noStores {k size : Nat} {headers : List (Option Slice)} {rec : List (List Byte)} {W : Set Loc} {h : HeapF}
    {log : List Byte} {Q : Post Unit} (hh : ∀ s, some s ∈ headers → ¬ (s.len = 0 ∧ size ≤ s.cap)) (hQ : Q () W h log) :
    wp R (reconstructStoresP k size headers rec) Q W h log := by
  unfold reconstructStoresP
  refine wp_mono ?_ _ _ _ _ (wp_forUp (fun _ _ W' h' log' => W' = W ∧ h' = h ∧ log' = log) ⟨rfl, rfl, rfl⟩ ?_)
  · rintro _ W' h' log' ⟨rfl, rfl, rfl⟩; exact hQ
  · rintro i _ _ W' h' log' ⟨rfl, rfl, rfl⟩
    cases e : headers.getD i none with
    | none => exact ⟨rfl, rfl, rfl⟩
    | some s =>
      simp only []
      rw [if_neg (hh s ?_)]
      · exact ⟨rfl, rfl, rfl⟩
      · rw [List.getD_eq_getElem?_getD] at e
        by_cases hi : i < headers.length
        · rw [List.getElem?_eq_getElem hi] at e
          rw [show some s = headers[i] from e.symm]
          exact List.getElem_mem hi
        · rw [List.getElem?_eq_none (by omega)] at e; cases e

theorem wp_call_bind {α γ : Type} {o : Outcome α} {k : α → Prog (Outcome (List Slice))} {f : α → Outcome γ} {T : Outcome γ}
    {Q : Post (Outcome (List Slice))} {W : Set Loc} {h : HeapF} {log : List Byte} (hT : T = o >>= f)
    (hno : (∀ c, T ≠ ok c) → Q ((fun _ => []) <$> T) W h log)
    (hok : ∀ a, o = ok a → T = f a → wp R (k a) Q W h log) : wp R (Prog.call o k) Q W h log := by
  refine wp_call_outcome ?_ ?_
  · rintro a rfl; exact hok a rfl hT
  · intro hn
    cases o with
    | ok a => exact absurd rfl (hn a)
    | err e => have : T = err e := hT; subst this; exact hno (by simp)
    | panic => have : T = panic := hT; subst this; exact hno (by simp)
    | corrupt => have : T = corrupt := hT; subst this; exact hno (by simp)
    | spin => have : T = spin := hT; subst this; exact hno (by simp)

theorem fault_none {parts : Int} {d : List Byte} (h : fault parts d = none) : 22 ≤ d.length := by
  unfold fault at h
  split at h
  · cases h
  split at h
  · cases h
  split at h
  · cases h
  · omega

/-- Condition under which `krawczyk.Combine` stores nothing. -/
theorem no_stores {slices : List Slice} {h : HeapF} (hb : ∀ s ∈ slices, InBounds h s)
    (hadm : ∀ s ∈ slices, s.len = 22 → ∀ s' ∈ slices, s'.len ≤ 22 ∨ s.cap + 1 < s'.len)
    {parts : Int} (hp : 0 < parts ∧ parts ≤ 255) {em : List (List Byte) × List (List Byte)}
    (hsep : separate (slices.map (contents h)) parts = ok em) {lib : RSLib} {e : Encoder} {Q : List (List Byte)}
    (hrec : e.reconstructData lib em.1 = ok Q) :
    ∀ s, some s ∈ placeHeaders parts.toNat (slices.zip (slices.map (contents h))) → ¬ (s.len = 0 ∧ shardSize em.1 ≤ s.cap) := by
  have hlen : ∀ s ∈ slices, (contents h s).length = s.len := by
    intro s hs
    rw [contents_eq (hb s hs), length_window]
  rw [separate_eq _ hp] at hsep
  cases hf : (slices.map (contents h)).findSome? (fault parts) with
  | some o => rw [hf] at hsep; cases o <;> cases hsep
  | none =>
    rw [hf] at hsep
    rw [List.findSome?_eq_none_iff] at hf
    cases hsep
    rintro s hs ⟨h1, h2⟩
    obtain ⟨d, hd, rfl⟩ := mem_placeHeaders hs
    have hd1 : d.1 ∈ slices := (List.of_mem_zip hd).1
    simp only [] at h1 h2
    have h3 := fault_none (hf _ (List.mem_map_of_mem hd1))
    rw [hlen _ hd1] at h3
    obtain ⟨x, hx, hxne, hxl⟩ := shardSize_mem (reconstruct_size hrec)
    obtain ⟨y, hy, rfl⟩ := mem_place hx hxne
    obtain ⟨s', hs', rfl⟩ := List.mem_map.1 hy
    rw [length_shardOf, hlen _ hs'] at hxl
    have hpos : s'.len - 22 ≠ 0 := by
      rw [hxl]; exact reconstruct_size hrec
    rw [← hxl] at h2
    rcases hadm d.1 hd1 (by omega) s' hs' with c | c <;> omega

theorem place_of_separate {ins : List (List Byte)} {parts : Int} (hp : 0 < parts ∧ parts ≤ 255)
    {em : List (List Byte) × List (List Byte)} (hsep : separate ins parts = ok em) : em.1 = place parts.toNat ins := by
  rw [separate_eq _ hp] at hsep
  cases hf : ins.findSome? (fault parts) with
  | some o => rw [hf] at hsep; cases o <;> cases hsep
  | none => rw [hf] at hsep; cases hsep; rfl

/-- When nothing is stored, `Join` finds the shards `ReconstructData` returned. -/
theorem held_eq {slices : List Slice} {ins : List (List Byte)} {h : HeapF} (hb : ∀ s ∈ slices, InBounds h s) {n : Nat}
    {P : List (List Byte)} (hP : P = place n (slices.map (contents h))) {lib : RSLib} {e : Encoder} {rec : List (List Byte)}
    (hrec : e.reconstructData lib P = ok rec)
    (hns : ∀ i s, (placeHeaders n (slices.zip (slices.map (contents h)))).getD i none = some s → ¬ (s.len = 0 ∧ shardSize P ≤ s.cap))
    (hins : slices.map (contents h) = ins) :
    heldShards e.k (shardSize P) (placeHeaders n (slices.zip ins)) rec h ++ rec.drop e.k = rec := by
  subst hins
  obtain ⟨hQl, hPl, hkeep⟩ := reconstruct_keep hrec
  have : heldShards e.k (shardSize P) (placeHeaders n (slices.zip (slices.map (contents h)))) rec h = rec.take e.k := by
    apply List.ext_getElem?
    intro i
    by_cases hi : i < e.k
    · rw [List.getElem?_take_of_lt hi, heldShards, List.getElem?_map, List.getElem?_range hi, Option.map_some,
        List.getElem?_eq_getElem (by omega)]
      congr 1
      have hri : rec.getD i [] = rec[i] := by
        rw [List.getD_eq_getElem?_getD, List.getElem?_eq_getElem (by omega), Option.getD_some]
      have hw := header_window n h slices hb i
      rw [← hP] at hw
      rw [heldShard, ← hri]
      cases hh : (placeHeaders n (slices.zip (slices.map (contents h)))).getD i none with
      | none => rfl
      | some s =>
        rw [hh] at hw
        simp only [] at hw ⊢
        by_cases hl : s.len ≠ 0
        · rw [if_pos hl, ← hw]
          refine (hkeep i ?_).symm
          rw [hw]
          intro c
          exact hl (by simpa using congrArg List.length c)
        · rw [if_neg hl, if_neg]
          exact fun c => hns i s hh ⟨by omega, c⟩
    · rw [List.getElem?_eq_none (by simp [heldShards]; omega), List.getElem?_eq_none (by simp; omega)]
  rw [this, List.take_append_drop]

/-! ## The part before the decoding -/

/-- A thread that owns more can do the same. -/
theorem wp_widen {α : Type} {Q : Post α} (hQ : ∀ a W W' h log, W ⊆ W' → Q a W h log → Q a W' h log) (p : Prog α) :
    ∀ W W' h log, W ⊆ W' → wp R p Q W h log → wp R p Q W' h log := by
  induction p with
  | ret a => intro W W' h log hs hw; exact hQ a W W' h log hs hw
  | panic => intro W W' h log _ hw; exact hw
  | alloc n k ih =>
    intro W W' h log hs hw a hf
    exact ih a _ _ _ _ (Set.union_subset_union_left _ hs) (hw a (hf.mono (Set.union_subset_union_left _ hs)))
  | read a i k ih =>
    rintro W W' h log hs ⟨hm, v, hv, hw⟩
    exact ⟨Set.union_subset_union_left _ hs hm, v, hv, ih v _ _ _ _ hs hw⟩
  | write a i v k ih => rintro W W' h log hs ⟨hm, hl, hw⟩; exact ⟨hs hm, hl, ih _ _ _ _ hs hw⟩
  | get p k ih =>
    intro W W' h log hs hw a c hf
    exact ih a _ _ _ _ _ (Set.union_subset_union_left _ hs) (hw a c (hf.mono (Set.union_subset_union_left _ hs)))
  | put p a k ih =>
    rintro W W' h log hs ⟨hm, hw⟩
    exact ⟨hm.trans hs, ih _ _ _ _ (Set.sdiff_subset_sdiff_left hs) hw⟩
  | rand k ih => intro W W' h log hs hw v; exact ih v _ _ _ _ hs (hw v)

/-- `ssData[i][:secretStartIdx]` -/
def metaOf (s : Slice) : Slice := ⟨s.arr, s.off, 21, s.cap⟩

/-- Header of the shard in a share. -/
def headerOf (s : Slice) : Slice := ⟨s.arr, s.off + 21, s.len - 22, s.cap - 21⟩

theorem getLastD_contents {h : HeapF} {s : Slice} (hb : InBounds h s) (h0 : s.len ≠ 0) :
    (contents h s).getLastD 0 = byteOf h (s.len - 1) s := by
  rw [getLastD_partId, partId, length_contents hb, contents_getD (by omega)]

theorem wp_separateP {parts : Int} (hp : 0 < parts ∧ parts ≤ 255) {W : Set Loc} {h : HeapF} {log : List Byte}
    {Q : Post (Outcome (List (Option Slice) × List Slice))} :
    ∀ (slices : List Slice) (st : List (Option Slice) × List Slice),
      (∀ s ∈ slices, ∀ i < s.len, (s.arr, s.off + i) ∈ W ∪ R) → (∀ s ∈ slices, InBounds h s) → st.1.length = parts.toNat →
      Q (match slices.findSome? (fun s => faultCap parts (contents h s) s.cap) with
        | none => ok ((slices.map fun s => (s, contents h s)).foldl (fun acc d => acc.set (d.2.getLastD 0).toNat
            (some (headerOf d.1))) st.1, st.2 ++ slices.map metaOf)
        | some (.err e) => err e
        | some _ => panic) W h log →
      wp R (separateP parts slices st) Q W h log := by
  intro slices
  induction slices with
  | nil =>
    rintro ⟨enc, md⟩ - - - hQ
    show Q (ok (enc, md)) W h log
    simpa using hQ
  | cons s rest ih =>
    rintro ⟨enc, md⟩ hR hb hl hQ
    have hl : enc.length = parts.toNat := hl
    have hbs := hb s (by simp)
    have hls := length_contents hbs
    rw [List.findSome?_cons] at hQ
    unfold separateP
    have hne : contents h s = [] ↔ s.len = 0 := by rw [← List.length_eq_zero_iff, hls]
    by_cases h1 : s.cap < 21
    · rw [if_pos h1]
      rw [show faultCap parts (contents h s) s.cap = some Outcome.panic by unfold faultCap; rw [if_pos (.inl h1)]] at hQ
      exact hQ
    rw [if_neg h1]
    by_cases h2 : s.len = 0
    · rw [if_pos h2]
      rw [show faultCap parts (contents h s) s.cap = some Outcome.panic by unfold faultCap; rw [if_pos (.inr (hne.2 h2))]] at hQ
      exact hQ
    rw [if_neg h2]
    have hm := hR s (by simp) (s.len - 1) (by omega)
    have hv : (h s.arr)[s.off + (s.len - 1)]? = some (byteOf h (s.len - 1) s) := by
      unfold InBounds at hbs
      exact getD_of_getElem? (by omega)
    have hpid : partId (contents h s) = byteOf h (s.len - 1) s := by rw [← getLastD_partId, getLastD_contents hbs h2]
    have hgt : (byteOf h (s.len - 1) s > BitVec.ofInt 8 parts) ↔ (byteOf h (s.len - 1) s).toNat > parts.toNat := by
      rw [gt_iff_lt, BitVec.lt_def, ofInt_toNat (by omega) hp.2]
    have hfc : faultCap parts (contents h s) s.cap =
        if (byteOf h (s.len - 1) s).toNat > parts.toNat then some (err .partIdTooLarge)
        else if s.len ≤ 21 ∨ (byteOf h (s.len - 1) s).toNat = parts.toNat then some panic else none := by
      unfold faultCap
      rw [if_neg (by rw [hne]; tauto), hpid, hls]
    rw [hfc] at hQ
    refine ⟨hm, _, hv, ?_⟩
    simp only []
    by_cases h3 : byteOf h (s.len - 1) s > BitVec.ofInt 8 parts
    · rw [if_pos h3]
      rw [if_pos (hgt.1 h3)] at hQ
      exact hQ
    rw [if_neg h3]
    rw [if_neg (fun c => h3 (hgt.2 c))] at hQ
    refine ⟨hm, _, hv, ?_⟩
    simp only []
    by_cases h4 : s.len - 1 < 21
    · rw [if_pos h4]
      rw [if_pos (.inl (by omega))] at hQ
      exact hQ
    rw [if_neg h4]
    by_cases h5 : (byteOf h (s.len - 1) s).toNat = parts.toNat
    · rw [if_pos (.inr h5)] at hQ
      rw [setIdx_panic (by omega)]
      exact hQ
    · rw [if_neg (by omega)] at hQ
      have hle : ¬ (byteOf h (s.len - 1) s).toNat > parts.toNat := fun c => h3 (hgt.2 c)
      rw [setIdx_ok (by omega)]
      refine ih _ (fun s hs => hR s (by simp [hs])) (fun s hs => hb s (by simp [hs])) (by simpa using hl) ?_
      simp only [List.map_cons, List.foldl_cons, getLastD_contents hbs h2] at hQ
      simpa [metaOf, headerOf] using hQ

theorem zip_self_map {α β : Type} (l : List α) (f : α → β) : l.zip (l.map f) = l.map fun a => (a, f a) := by
  induction l with
  | nil => rfl
  | cons a l ih => simp [ih]

theorem contents_meta {h : HeapF} {s : Slice} (h22 : 21 ≤ s.len) :
    contents h (metaOf s) = (contents h s).take 21 := by
  unfold contents metaOf
  rw [List.take_take, min_eq_left h22]

theorem faultCap_len {parts : Int} {d : List Byte} {c : Nat} (h : faultCap parts d c = none) : 22 ≤ d.length := by
  unfold faultCap at h
  split at h
  · cases h
  split at h
  · cases h
  split at h
  · cases h
  · omega

theorem idx_withNils (ss : List (Option Slice)) (h : HeapF) (hb : ∀ s ∈ ss.filterMap id, InBounds h s) :
    (fun o : Option Slice => o.elim 0 (·.len)) <$> idx ss 0 =
      (fun o : Option (List Byte) => (o.getD []).length) <$> idx (withNils ss ((ss.filterMap id).map (contents h))) 0 := by
  cases ss with
  | nil => rfl
  | cons o rest =>
    cases o with
    | none => rfl
    | some s =>
      show ok s.len = ok (contents h s).length
      rw [length_contents (hb s (by simp))]

/-- Everything up to the decoding: the outcome is determined by the bytes of the shares. -/
theorem wp_krawczykHead {env : Env} {ssData : List (Option Slice)} {parts threshold : Int} {W : Set Loc} {h : HeapF}
    {ins : List (List Byte)} (hins : (ssData.filterMap id).map (contents h) = ins)
    (hR : ∀ s ∈ ssData.filterMap id, ∀ i < s.len, (s.arr, s.off + i) ∈ W ∪ R)
    (hb : ∀ s ∈ ssData.filterMap id, InBounds h s) {γ : Type} {T : Outcome γ}
    {G : List (List Byte) × List (List Byte) → List Byte → List Byte → Outcome γ}
    (hT : T = idx (withNils ssData ins) 0 >>= fun d0 => checkArgs (d0.getD []).length parts threshold >>= fun _ =>
      clean (withNils ssData ins) >>= fun bytes => separateCap bytes ((ssData.filterMap id).map (·.cap)) parts >>= fun em =>
      Shamir.combine em.2 >>= fun md => slice md 0 16 >>= fun key => slice md 16 md.length >>= fun lb =>
      if lb.length < 4 then panic else G em key lb)
    {Q : Post (Outcome (List Slice))} (hst : Stable R Q) (hmono : ∀ a W W' h log, W ⊆ W' → Q a W h log → Q a W' h log)
    (hno : (∀ c, T ≠ ok c) → Q ((fun _ => []) <$> T) W h [])
    (hok : ∀ em key lb n, checkArgs n parts threshold = ok () → 0 < parts →
      separateCap ins ((ssData.filterMap id).map (·.cap)) parts = ok em → T = G em key lb →
      wp R (krawczykDecodeP env (placeHeaders parts.toNat ((ssData.filterMap id).zip ins)) key (leUint32 (lb.take 4))
        parts threshold) Q W h []) :
    wp R (krawczykCombineP env ssData parts threshold) Q W h [] := by
  unfold krawczykCombineP
  have h0 := idx_withNils ssData h hb
  rw [hins] at h0
  have hT1 : T = idx ssData 0 >>= fun o => checkArgs (o.elim 0 (·.len)) parts threshold >>= fun _ =>
      clean (withNils ssData ins) >>= fun bytes => separateCap bytes ((ssData.filterMap id).map (·.cap)) parts >>= fun em =>
      Shamir.combine em.2 >>= fun md => slice md 0 16 >>= fun key => slice md 16 md.length >>= fun lb =>
      if lb.length < 4 then panic else G em key lb := by
    rw [hT]
    revert h0
    cases idx ssData 0 <;> cases idx (withNils ssData ins) 0 <;> intro h0 <;> first | (cases h0; done) | skip
    · have h0 := Outcome.ok.inj h0
      simp only [ok_bind, h0]
    all_goals (try (cases h0; rfl))
  clear hT
  refine wp_call_bind hT1 hno ?_
  clear hT1
  intro d0 _ hT
  refine wp_call_bind hT hno ?_
  clear hT
  intro u hu hT
  have hpass := checkArgs_ok hu
  rw [clean_eq, filterMap_withNils _ _ (by rw [← hins]; simp), ok_bind] at hT
  rw [clean_eq]
  show wp R (if parts < 0 then _ else _) _ _ _ _
  by_cases hneg : parts < 0
  · rw [if_pos hneg]
    rw [separateCap_neg _ _ hneg] at hT
    have : T = Outcome.panic := hT
    subst this
    exact hno (by simp)
  rw [if_neg hneg]
  have hp : 0 < parts ∧ parts ≤ 255 := ⟨by have := hpass.2.2.1; omega, hpass.2.2.2.2⟩
  refine wp_bind _ _ _ _ _ (wp_separateP hp _ _ hR hb (by simp) ?_)
  have hsep := separateCap_eq ins ((ssData.filterMap id).map (·.cap)) (by rw [← hins]; simp) hp
  have hz : ins.zip ((ssData.filterMap id).map (·.cap)) = (ssData.filterMap id).map fun s => (contents h s, s.cap) := by
    rw [← hins, List.zip_map', ]
  rw [hz, List.findSome?_map] at hsep
  have hcomp : ((fun x : List Byte × Nat => faultCap parts x.1 x.2) ∘ fun s : Slice => (contents h s, s.cap)) =
    fun s => faultCap parts (contents h s) s.cap := rfl
  rw [hcomp] at hsep
  rw [hsep] at hT
  cases hf : (ssData.filterMap id).findSome? (fun s => faultCap parts (contents h s) s.cap) with
  | some o =>
    rw [hf] at hT
    have : ∀ e, T = err e → Q (err e) W h [] := by rintro e rfl; exact hno (by simp)
    have hpan : T = panic → Q panic W h [] := by rintro rfl; exact hno (by simp)
    cases o with
    | err e => exact this e hT
    | ok _ => exact hpan hT
    | panic => exact hpan hT
    | corrupt => exact hpan hT
    | spin => exact hpan hT
  | none =>
    rw [hf] at hT hsep
    simp only [ok_bind] at hT hsep
    rw [List.findSome?_eq_none_iff] at hf
    have h22 : ∀ s ∈ ssData.filterMap id, 22 ≤ s.len := fun s hs => by
      rw [← length_contents (hb s hs)]; exact faultCap_len (hf s hs)
    have hmeta : ((ssData.filterMap id).map metaOf).map (contents h) = ins.map (·.take 21) := by
      rw [← hins, List.map_map, List.map_map]
      apply List.map_congr_left
      intro s hs
      exact contents_meta (by have := h22 s hs; omega)
    show wp R (Prog.bind (combineP _) _) _ _ _ _
    rw [List.nil_append]
    refine wp_bind _ _ _ _ _ (wp_combineP ?_ ?_ ?_ ?_)
    · intro s' hs' i hi
      obtain ⟨s, hs, rfl⟩ := List.mem_map.1 hs'
      have hi : i < 21 := hi
      exact hR s hs i (by have := h22 s hs; omega)
    · intro s' hs'
      obtain ⟨s, hs, rfl⟩ := List.mem_map.1 hs'
      have := hb s hs
      have := h22 s hs
      unfold InBounds at *
      show s.off + 21 ≤ (h s.arr).length
      omega
    · intro W' h' hW hfr hn
      rw [hmeta] at hn ⊢
      have hq : Q ((fun _ => []) <$> Shamir.combine (ins.map (·.take 21))) W h [] := by
        revert hn hT
        cases Shamir.combine (ins.map (·.take 21)) with
        | ok a => intro _ hn; exact absurd rfl (hn a)
        | err e => intro hT _; have : T = err e := hT; subst this; exact hno (by simp)
        | panic => intro hT _; have : T = Outcome.panic := hT; subst this; exact hno (by simp)
        | corrupt => intro hT _; have : T = corrupt := hT; subst this; exact hno (by simp)
        | spin => intro hT _; have : T = spin := hT; subst this; exact hno (by simp)
      have hq' : Q ((fun _ => []) <$> Shamir.combine (ins.map (·.take 21))) W' h' [] :=
        hmono _ _ _ _ _ hW (hst _ _ _ _ _ (fun a i hm => by rw [hfr a (not_fresh_mem hm)]) hq)
      revert hn hq'
      cases Shamir.combine (ins.map (·.take 21)) with
      | ok a => intro hn; exact absurd rfl (hn a)
      | _ => intro _ hq'; exact hq'
    · intro md a ha hmd
      rw [hmeta] at hmd
      rw [hmd] at hT
      simp only [ok_bind] at hT
      show wp R (Prog.bind (Prog.readAll a 0 md.length) _) _ _ _ _
      refine wp_bind _ _ _ _ _ (wp_readAll (fun i _ => Or.inl (Or.inr rfl)) (by rw [Function.update_self]; omega) ?_)
      rw [Function.update_self, show window md 0 md.length = md from ?_]
      swap
      · apply List.ext_getElem?
        intro i
        unfold window
        by_cases hi : i < md.length
        · rw [List.getElem?_map, List.getElem?_range hi, Option.map_some, Nat.zero_add, ← getD_of_getElem? hi]
        · rw [List.getElem?_eq_none (by simp; omega), List.getElem?_eq_none (by omega)]
      refine wp_widen hmono _ _ _ _ _ (Set.subset_union_left (s := W) (t := own a)) (wp_stable hst _ _ h _ _ ?_ ?_)
      · intro b i hm
        rw [Function.update_of_ne]
        rintro rfl
        exact ha i hm
      refine wp_call_bind hT hno ?_
      clear hT
      intro key _ hT
      refine wp_call_bind hT hno ?_
      clear hT
      intro lb _ hT
      by_cases hlb : lb.length < 4
      · rw [if_pos hlb] at hT ⊢
        have : T = Outcome.panic := hT
        subst this
        exact hno (by simp)
      rw [if_neg hlb] at hT ⊢
      have := hok (place parts.toNat ins, ins.map (·.take 21)) key lb _ hu hp.1 hsep hT
      rw [← hins, zip_self_map] at this
      exact this

/-- The shards as `ReconstructData` loads them. -/
theorem wp_readHeaders {slices : List Slice} {n : Nat} {W : Set Loc} {h : HeapF} {log : List Byte}
    {Q : Post (List (Option (List Byte)))} (hR : ∀ s ∈ slices, ∀ i < s.len, (s.arr, s.off + i) ∈ W ∪ R)
    (hb : ∀ s ∈ slices, InBounds h s) (h22 : ∀ s ∈ slices, 22 ≤ s.len)
    (hQ : ∀ l, l.map (·.getD []) = place n (slices.map (contents h)) → Q l W h log) :
    wp R (readOptSlices (placeHeaders n (slices.zip (slices.map (contents h))))) Q W h log := by
  have hin : ∀ s ∈ (placeHeaders n (slices.zip (slices.map (contents h)))).filterMap id, ∃ d ∈ slices, s = headerOf d := by
    intro s hs
    rw [List.mem_filterMap] at hs
    obtain ⟨o, ho, e⟩ := hs
    have e : o = some s := e
    subst e
    obtain ⟨d, hd, rfl⟩ := mem_placeHeaders ho
    exact ⟨d.1, (List.of_mem_zip hd).1, rfl⟩
  refine wp_readOptSlices ?_ ?_ (hQ _ ?_)
  · intro s hs i hi
    obtain ⟨d, hd, rfl⟩ := hin s hs
    have hi : i < d.len - 22 := hi
    have := hR d hd (21 + i) (by omega)
    rw [← Nat.add_assoc] at this
    exact this
  · intro s hs
    obtain ⟨d, hd, rfl⟩ := hin s hs
    have h1 := hb d hd
    have h2 := h22 d hd
    unfold InBounds at h1 ⊢
    show d.off + 21 + (d.len - 22) ≤ (h d.arr).length
    omega
  · have hib : ∀ s ∈ (placeHeaders n (slices.zip (slices.map (contents h)))).filterMap id, InBounds h s := by
      intro s hs
      obtain ⟨d, hd, rfl⟩ := hin s hs
      have h1 := hb d hd
      have h2 := h22 d hd
      unfold InBounds at h1 ⊢
      show d.off + 21 + (d.len - 22) ≤ (h d.arr).length
      omega
    have key : ∀ hs : List (Option Slice), (∀ s ∈ hs.filterMap id, InBounds h s) →
        (withNils hs ((hs.filterMap id).map (contents h))).map (·.getD []) =
          hs.map fun o => match o with | some s => window (h s.arr) s.off s.len | none => [] := by
      intro hs
      induction hs with
      | nil => intro _; rfl
      | cons o hs ih =>
        intro hbb
        cases o with
        | none =>
          rw [List.filterMap_cons_none rfl] at hbb ⊢
          rw [withNils, List.map_cons, List.map_cons, ih hbb]; rfl
        | some s =>
          have e : (some s :: hs).filterMap id = s :: hs.filterMap id := rfl
          rw [e] at hbb ⊢
          rw [List.map_cons, withNils, List.map_cons, List.map_cons, ih (fun s hs => hbb s (List.mem_cons_of_mem _ hs)),
            contents_eq (hbb s (by simp))]; rfl
    rw [key _ hib]
    apply List.ext_getElem
    · rw [List.length_map, length_placeHeaders, length_place]
    · intro i h1 h2
      have := header_window n h slices hb i
      rw [List.getD_eq_getElem?_getD, List.getElem?_eq_getElem h2, Option.getD_some] at this
      rw [this, List.getElem_map, List.getD_eq_getElem?_getD, List.getElem?_eq_getElem (by simpa using h1), Option.getD_some]
      rfl

theorem separate_len {ins : List (List Byte)} {parts : Int} (hp : 0 < parts ∧ parts ≤ 255)
    {em : List (List Byte) × List (List Byte)} (hsep : separate ins parts = ok em) : ∀ d ∈ ins, 22 ≤ d.length := by
  rw [separate_eq _ hp] at hsep
  cases hf : ins.findSome? (fault parts) with
  | some o => rw [hf] at hsep; cases o <;> cases hsep
  | none =>
    rw [List.findSome?_eq_none_iff] at hf
    exact fun d hd => fault_none (hf d hd)

theorem wp_krawczykCombine (arch : Arch) {env : Env} {ssData : List (Option Slice)}
    {parts threshold : Int} {W : Set Loc} {h : HeapF}
    (hadm : ∀ s ∈ ssData.filterMap id, s.len = 22 → ∀ s' ∈ ssData.filterMap id, s'.len ≤ 22 ∨ s.cap + 1 < s'.len)
    (hR : ∀ s ∈ ssData.filterMap id, ∀ i < s.len, (s.arr, s.off + i) ∈ W ∪ R)
    (hb : ∀ s ∈ ssData.filterMap id, InBounds h s) (hcap : ∀ s ∈ ssData.filterMap id, s.len ≤ s.cap) :
    wp R (krawczykCombineP { env with arch } ssData parts threshold)
      (CallPost arch (.krawczykCombine env ssData parts threshold) ((ssData.filterMap id).map (contents h))) W h [] := by
  generalize hins : (ssData.filterMap id).map (contents h) = ins
  have hT : ∃ T, Krawczyk.combineCap { env with arch } (withNils ssData ins) ((ssData.filterMap id).map (·.cap)) parts threshold = T := ⟨_, rfl⟩
  obtain ⟨T, hT⟩ := hT
  have hT0 := hT
  have hno : (∀ c, T ≠ ok c) → CallPost arch (.krawczykCombine env ssData parts threshold) ins ((fun _ => []) <$> T) W h [] := by
    intro hn
    refine ⟨?_, fun slices e => absurd e (nonok_map_ne hn _)⟩
    show _ = _ <$> _
    rw [hT, map_nonok hn]
  refine wp_krawczykHead hins hR hb hT.symm (callPost_stable arch _ _) (callPost_widen arch _ _) hno ?_
  clear hT
  intro em key lb n hu hpos hsep hT
  have hpass := checkArgs_ok hu
  have hp : 0 < parts ∧ parts ≤ 255 := ⟨hpos, hpass.2.2.2.2⟩
  rw [separateCap_ok (by rw [← hins]; simp) ?_ hp.2 (by omega)] at hsep
  swap
  · rw [← hins]
    intro x hx
    rw [List.zip_map', List.mem_map] at hx
    obtain ⟨s, hs, rfl⟩ := hx
    have := hcap s hs
    simp only []
    rw [contents_eq (hb s hs), length_window]
    omega
  unfold krawczykDecodeP
  refine wp_call_bind hT hno ?_
  clear hT
  intro decoder _ hT
  have hem := place_of_separate hp hsep
  have h22 : ∀ s ∈ ssData.filterMap id, 22 ≤ s.len := by
    intro s hs
    rw [← length_contents (hb s hs)]
    exact separate_len hp hsep _ (by rw [← hins]; exact List.mem_map_of_mem hs)
  refine wp_bind _ _ _ _ _ ?_
  rw [← hins]
  refine wp_readHeaders hR hb h22 fun l hl => ?_
  rw [hins] at hl ⊢
  rw [hl, ← hem]
  refine wp_call_bind hT hno ?_
  clear hT
  intro rec hrec hT
  have hns : ∀ s, some s ∈ placeHeaders parts.toNat ((ssData.filterMap id).zip ins) → ¬ (s.len = 0 ∧ shardSize em.1 ≤ s.cap) := by
    rw [← hins] at hsep ⊢
    exact no_stores hb hadm hp hsep hrec
  refine wp_bind _ _ _ _ _ (wp_noStores hns ?_)
  have hin : ∀ i s, (placeHeaders parts.toNat ((ssData.filterMap id).zip ins)).getD i none = some s →
      some s ∈ placeHeaders parts.toNat ((ssData.filterMap id).zip ins) := by
    intro i s e
    rw [List.getD_eq_getElem?_getD] at e
    cases hi : (placeHeaders parts.toNat ((ssData.filterMap id).zip ins))[i]? with
    | none => rw [hi] at e; cases e
    | some x => rw [hi] at e; rw [← show x = some s from e]; exact List.mem_of_getElem? hi
  refine wp_bind _ _ _ _ _ (wp_readShards ?_ ?_)
  · intro i hi s hs
    refine ⟨fun hl => ?_, fun hl hc => absurd ⟨hl, hc⟩ (hns s (hin i s hs))⟩
    obtain ⟨d, hd, rfl⟩ := mem_placeHeaders (hin i s hs)
    have hd1 : d.1 ∈ ssData.filterMap id := (List.of_mem_zip hd).1
    have hb1 := hb d.1 hd1
    unfold InBounds at hb1
    simp only [] at hl ⊢
    exact ⟨fun q hq => by rw [Nat.add_assoc]; exact hR d.1 hd1 _ (by omega), by omega⟩
  rw [held_eq hb (by rw [hins]; exact place_of_separate hp hsep) hrec (by rw [hins]; exact fun i s h => hns s (hin i s h)) hins]
  refine wp_call_bind hT hno ?_
  clear hT
  intro ct _ hT
  refine wp_call_outcome ?_ (fun hn => ?_)
  · intro secret hsec a ha
    refine wp_bind _ _ _ _ _ (wp_writeAll (fun i _ => Or.inr rfl) (by rw [Function.update_self]; simp) ?_)
    rw [Function.update_self, Function.update_idem]
    have hT' : Krawczyk.combineCap { env with arch } (withNils ssData ins) ((ssData.filterMap id).map (·.cap)) parts threshold = ok secret := by
      rw [← hsec, ← hT]; exact hT0
    refine ⟨?_, ?_⟩
    · show _ = _ <$> _
      rw [hT', map_ok, map_ok]
      congr 1
      simp [contents, writeAt]
    · intro slices hsl
      cases hsl
      refine ⟨⟨a, _, rfl⟩, ?_⟩
      intro s hs
      have : s = ⟨a, 0, secret.length, secret.length⟩ := by simpa using hs
      subst this
      refine ⟨Set.subset_union_right, ?_, le_rfl⟩
      show 0 + secret.length ≤ _
      rw [Function.update_self]; simp [writeAt]
  · rw [← hT] at hn ⊢
    exact hno hn

end Verif.Proofs.Own
