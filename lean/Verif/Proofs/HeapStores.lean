import Verif.Proofs.HeapSystem
import Verif.Proofs.KrawczykStripped

/-! # The stores of krawczyk.Combine into its arguments -/

namespace Verif.Proofs.Own
open Verif Outcome Galois Shamir Spec Pool Csprng RS Krawczyk Verif.Heap

variable {R : Set Loc}

/-- Memory after storing shard `i`. -/
def storeShard (size : Nat) (headers : List (Option Slice)) (rec : List (List Byte)) (h : HeapF) (i : Nat) : HeapF :=
  match headers.getD i none with
  | some s => if s.len = 0 ∧ size ≤ s.cap then Function.update h s.arr (writeAt (h s.arr) s.off (rec.getD i [])) else h
  | none => h

/-- Memory after `ReconstructData`. -/
def storesHeap (k size : Nat) (headers : List (Option Slice)) (rec : List (List Byte)) (h : HeapF) : HeapF :=
  (List.range k).foldl (storeShard size headers rec) h

theorem storesHeap_succ (k size : Nat) (headers : List (Option Slice)) (rec : List (List Byte)) (h : HeapF) :
    storesHeap (k + 1) size headers rec h = storeShard size headers rec (storesHeap k size headers rec h) k := by
  simp [storesHeap, List.range_succ]

theorem length_writeAt {l : List Byte} {i : Nat} {bs : List Byte} (h : i + bs.length ≤ l.length) :
    (writeAt l i bs).length = l.length := by
  simp [writeAt]; omega

theorem storesHeap_length {k size : Nat} {headers : List (Option Slice)} {rec : List (List Byte)} {h : HeapF}
    (hh : ∀ i < k, ∀ s, headers.getD i none = some s → s.len = 0 → size ≤ s.cap →
      s.off + (rec.getD i []).length ≤ (h s.arr).length) (a : Arr) :
    (storesHeap k size headers rec h a).length = (h a).length := by
  induction k with
  | zero => rfl
  | succ k ih =>
    have ih := ih (fun i hi => hh i (by omega))
    rw [storesHeap_succ]
    unfold storeShard
    cases e : headers.getD k none with
    | none => exact ih
    | some s =>
      simp only []
      split
      · rename_i hs
        by_cases e' : a = s.arr
        · subst e'
          rw [Function.update_self, length_writeAt]
          · exact ih
          · rw [ih]; exact hh k (by omega) s e hs.1 hs.2
        · rw [Function.update_of_ne e']; exact ih
      · exact ih

theorem wp_reconstructStores {k size : Nat} {headers : List (Option Slice)} {rec : List (List Byte)} {W : Set Loc} {h : HeapF}
    {log : List Byte} {Q : Post Unit}
    (hh : ∀ i < k, ∀ s, headers.getD i none = some s → s.len = 0 → size ≤ s.cap →
      (∀ q < (rec.getD i []).length, (s.arr, s.off + q) ∈ W) ∧ s.off + (rec.getD i []).length ≤ (h s.arr).length)
    (hQ : Q () W (storesHeap k size headers rec h) log) :
    wp R (reconstructStoresP k size headers rec) Q W h log := by
  unfold reconstructStoresP
  refine wp_mono ?_ _ _ _ _ (wp_forUp (fun i _ W' h' log' => W' = W ∧ h' = storesHeap i size headers rec h ∧ log' = log)
    ⟨rfl, rfl, rfl⟩ ?_)
  · rintro _ W' h' log' ⟨rfl, rfl, rfl⟩; exact hQ
  · rintro i hi _ W' h' log' ⟨rfl, rfl, rfl⟩
    cases e : headers.getD i none with
    | none =>
      refine ⟨rfl, ?_, rfl⟩
      rw [storesHeap_succ, storeShard, e]
    | some s =>
      simp only []
      split
      · rename_i hs
        obtain ⟨h1, h2⟩ := hh i hi s e hs.1 hs.2
        refine wp_writeAll h1 (by rw [storesHeap_length (fun j hj s' a b c => (hh j (by omega) s' a b c).2)]; exact h2) ⟨rfl, ?_, rfl⟩
        rw [storesHeap_succ, storeShard, e]
        simp only []
        rw [if_pos hs]
      · rename_i hs
        refine ⟨rfl, ?_, rfl⟩
        rw [storesHeap_succ, storeShard, e]
        simp only []
        rw [if_neg hs]

/-! ## What ReconstructData returns -/

theorem reconstruct_missing {lib : RSLib} (hc : lib.Contract) {e : Encoder} (hk : 0 < e.k) (hkm : e.k + e.m ≤ 256)
    {P Q : List (List Byte)} (h : e.reconstructData lib P = ok Q) {i : Nat} (hi : i < e.k) (h0 : (P.getD i []).length = 0) :
    (Q.getD i []).length = shardSize P := by
  unfold Encoder.reconstructData at h
  by_cases h1 : P.length ≠ e.k + e.m
  · rw [if_pos h1] at h; cases h
  rw [if_neg h1] at h
  by_cases h2 : shardSize P = 0
  · rw [if_pos h2] at h; cases h
  rw [if_neg h2] at h
  by_cases h3 : ∃ s ∈ P, s ≠ [] ∧ s.length ≠ shardSize P
  · rw [if_pos h3] at h; cases h
  rw [if_neg h3] at h
  have hiP : i < P.length := by omega
  have hPi : P[i] = [] := by
    rw [List.getD_eq_getElem?_getD, List.getElem?_eq_getElem hiP, Option.getD_some] at h0
    exact List.length_eq_zero_iff.1 h0
  have hmem : [] ∈ P.take e.k := by
    rw [← hPi, ← List.getElem_take (j := e.k) (h := by simp; omega)]
    exact List.getElem_mem _
  rw [if_neg (by simpa using hmem)] at h
  by_cases h4 : (P.filter (· ≠ [])).length < e.k
  · rw [if_pos h4] at h; cases h
  rw [if_neg h4] at h
  cases h
  rw [List.getD_eq_getElem?_getD, List.getElem?_mapIdx, List.getElem?_eq_getElem hiP, Option.map_some, Option.getD_some,
    if_pos ⟨hi, hPi⟩]
  refine hc.missing_length e.k e.m P hk hkm (by omega) ?_ (by omega) i hi
  intro s hs
  by_contra hcon
  push Not at hcon
  exact h3 ⟨s, hs, hcon.1, hcon.2⟩

/-- A cell outside the targets of all stores keeps its content. -/
theorem storesHeap_other {k size : Nat} {headers : List (Option Slice)} {rec : List (List Byte)} {h : HeapF} {a : Arr} {q : Nat}
    (hh : ∀ i < k, ∀ s, headers.getD i none = some s → s.len = 0 → size ≤ s.cap →
      (rec.getD i []).length = size ∧ s.off + size ≤ (h s.arr).length ∧ (a = s.arr → q < s.off ∨ s.off + size ≤ q)) :
    (storesHeap k size headers rec h a)[q]? = (h a)[q]? := by
  induction k with
  | zero => rfl
  | succ k ih =>
    have ih := ih (fun i hi => hh i (by omega))
    have hlen := storesHeap_length (k := k) (size := size) (headers := headers) (rec := rec) (h := h)
      (fun i hi s h1 h2 h3 => by have := hh i (by omega) s h1 h2 h3; rw [this.1]; exact this.2.1)
    rw [storesHeap_succ]
    unfold storeShard
    cases e : headers.getD k none with
    | none => exact ih
    | some s =>
      simp only []
      split
      · rename_i hs
        obtain ⟨h1, h2, h3⟩ := hh k (by omega) s e hs.1 hs.2
        by_cases e' : a = s.arr
        · rw [← ih, e', Function.update_self]
          rw [getElem?_writeAt_other (by rw [h1]; exact h3 e') (by rw [h1, hlen]; exact h2)]
        · rw [Function.update_of_ne e']; exact ih
      · exact ih
where
  getElem?_writeAt_other {l w : List Byte} {off q : Nat} (h : q < off ∨ off + w.length ≤ q) (hb : off + w.length ≤ l.length) :
      (writeAt l off w)[q]? = l[q]? := by
    unfold writeAt
    rcases h with h | h
    · rw [List.append_assoc, List.getElem?_append_left (by simp; omega), List.getElem?_take_of_lt h]
    · rw [List.getElem?_append_right (by simp; omega), List.getElem?_drop]
      congr 1
      simp; omega

/-- The target of a store that no other store overlaps. -/
theorem storesHeap_self {k size : Nat} {headers : List (Option Slice)} {rec : List (List Byte)} {h : HeapF} {p : Nat} {s : Slice}
    (hp : p < k) (hs : headers.getD p none = some s) (h0 : s.len = 0) (hsz : size ≤ s.cap)
    (hh : ∀ i < k, ∀ s', headers.getD i none = some s' → s'.len = 0 → size ≤ s'.cap →
      (rec.getD i []).length = size ∧ s'.off + size ≤ (h s'.arr).length ∧
      (i ≠ p → s.arr ≠ s'.arr ∨ s.off + size ≤ s'.off ∨ s'.off + size ≤ s.off)) {q : Nat} (hq : q < size) :
    (storesHeap k size headers rec h s.arr)[s.off + q]? = (rec.getD p [])[q]? := by
  induction k with
  | zero => omega
  | succ k ih =>
    have hlen := storesHeap_length (k := k) (size := size) (headers := headers) (rec := rec) (h := h)
      (fun i hi s h1 h2 h3 => by have := hh i (by omega) s h1 h2 h3; rw [this.1]; exact this.2.1)
    rw [storesHeap_succ]
    unfold storeShard
    by_cases e : p = k
    · subst e
      obtain ⟨h1, h2, -⟩ := hh p (by omega) s hs h0 hsz
      rw [hs]
      simp only []
      rw [if_pos ⟨h0, hsz⟩, Function.update_self]
      unfold writeAt
      have hl := hlen s.arr
      have hm : (List.take s.off (storesHeap p size headers rec h s.arr)).length = s.off := by
        rw [List.length_take]; omega
      rw [List.append_assoc, List.getElem?_append_right (by omega), List.getElem?_append_left (by omega)]
      congr 1
      omega
    · have ih := ih (by omega) (fun i hi => hh i (by omega))
      cases e' : headers.getD k none with
      | none => exact ih
      | some s' =>
        simp only []
        split
        · rename_i hs'
          obtain ⟨h1, h2, h3⟩ := hh k (by omega) s' e' hs'.1 hs'.2
          have h3 := h3 (fun c => e c.symm)
          by_cases ea : s.arr = s'.arr
          · rw [← ih, ea, Function.update_self]
            refine storesHeap_other.getElem?_writeAt_other ?_ (by rw [h1, hlen]; exact h2)
            rw [h1]
            rcases h3 with h3 | h3 | h3
            · exact absurd ea h3
            · left; omega
            · right; omega
          · rw [Function.update_of_ne ea]; exact ih
        · exact ih

/-! ## What `Join` finds -/

/-- krawczyk.Combine with `f encodedData rec` in place of the shards `rec` that `ReconstructData` returned for `encodedData`. -/
def combineWith (env : Env) (ssData : List (Option (List Byte))) (caps : List Nat) (parts threshold : Int)
    (f : List (List Byte) → List (List Byte) → List (List Byte)) : Outcome (List Byte) := do
  let d0 ← idx ssData 0
  checkArgs (d0.getD []).length parts threshold
  let ssData ← clean ssData
  let em ← separateCap ssData caps parts
  let metadata ← Shamir.combine em.2
  let key ← slice metadata 0 16
  let lengthBytes ← slice metadata 16 metadata.length
  if lengthBytes.length < 4 then panic else do
  let decoder ← RS.new env.lib threshold (parts - threshold)
  let encodedData ← decoder.reconstructData env.lib em.1
  let ciphertext ← decoder.join (f em.1 encodedData) (leUint32 (lengthBytes.take 4)).toNat
  decrypt env ciphertext key

theorem combineWith_id (env : Env) (ssData : List (Option (List Byte))) (caps : List Nat) (parts threshold : Int) :
    combineWith env ssData caps parts threshold (fun _ rec => rec) = combineCap env ssData caps parts threshold := rfl

theorem bind_congr_ok {α β : Type} {o : Outcome α} {f g : α → Outcome β} (h : ∀ a, o = ok a → f a = g a) :
    o >>= f = o >>= g := by
  cases o with
  | ok a => exact h a rfl
  | _ => rfl

theorem combineWith_congr {env : Env} {ssData : List (Option (List Byte))} {caps : List Nat} {parts threshold : Int}
    {f g : List (List Byte) → List (List Byte) → List (List Byte)}
    (h : ∀ em decoder rec, (∃ n, 0 < parts ∧ parts ≤ 255 ∧ checkArgs n parts threshold = ok ()) →
      separateCap (ssData.filterMap id) caps parts = ok em →
      RS.new env.lib threshold (parts - threshold) = ok decoder → decoder.reconstructData env.lib em.1 = ok rec →
      f em.1 rec = g em.1 rec) :
    combineWith env ssData caps parts threshold f = combineWith env ssData caps parts threshold g := by
  unfold combineWith
  refine bind_congr_ok fun d0 _ => bind_congr_ok fun u hu => bind_congr_ok fun bytes hby => bind_congr_ok fun em hsep =>
    bind_congr_ok fun md _ => bind_congr_ok fun key _ => bind_congr_ok fun lb _ => ?_
  split
  · rfl
  · refine bind_congr_ok fun dec hdec => bind_congr_ok fun rec hrec => ?_
    rw [clean_eq] at hby
    cases hby
    have hpass := checkArgs_ok hu
    have hp : 0 < parts := by
      by_contra c
      rw [separateCap_neg _ _ (by have := hpass.2.2.1; omega)] at hsep
      cases hsep
    rw [h em dec rec ⟨_, hp, hpass.2.2.2.2, hu⟩ hsep hdec hrec]

/-- The shards `Join` finds, for given shares in memory. -/
def heldAfter (ssData : List (Option Slice)) (parts threshold : Int) (h : HeapF) (P rec : List (List Byte)) : List (List Byte) :=
  let headers := placeHeaders parts.toNat ((ssData.filterMap id).zip ((ssData.filterMap id).map (contents h)))
  heldShards threshold.toNat (shardSize P) headers rec (storesHeap threshold.toNat (shardSize P) headers rec h) ++
    rec.drop threshold.toNat

/-- Shares that do not overlap those without payload: `Join` finds what `ReconstructData` returned. -/
theorem heldAfter_apart {ssData : List (Option Slice)} {parts threshold : Int} {h : HeapF}
    (hb : ∀ s ∈ ssData.filterMap id, s.off + s.cap ≤ (h s.arr).length) (hcap : ∀ s ∈ ssData.filterMap id, s.len ≤ s.cap)
    (hap : ∀ s ∈ ssData.filterMap id, s.len = 22 → ∀ s' ∈ ssData.filterMap id, s' ≠ s → Apart s s')
    (hlen22 : ∀ s ∈ ssData.filterMap id, 22 ≤ s.len)
    {lib : RSLib} (hc : lib.Contract) {e : Encoder} (hk : 0 < e.k) (hkm : e.k + e.m ≤ 256) (hek : e.k = threshold.toNat)
    {P rec : List (List Byte)} (hP : P = place parts.toNat ((ssData.filterMap id).map (contents h)))
    (hrec : e.reconstructData lib P = ok rec) : heldAfter ssData parts threshold h P rec = rec := by
  generalize hss : ssData.filterMap id = ss at *
  have hbl : ∀ s ∈ ss, InBounds h s := by
    intro s hs
    have := hb s hs
    have := hcap s hs
    unfold InBounds; omega
  obtain ⟨hQl, hPl, hkeep⟩ := reconstruct_keep hrec
  unfold heldAfter
  rw [hss, ← hek]
  simp only []
  generalize hH : placeHeaders parts.toNat (ss.zip (ss.map (contents h))) = headers
  have hfrom : ∀ i s, headers.getD i none = some s → ∃ d ∈ ss, (partId (contents h d)).toNat = i ∧
      s = ⟨d.arr, d.off + 21, d.len - 22, d.cap - 21⟩ := by
    intro i s hs
    rw [← hH] at hs
    obtain ⟨d, hd, h1, h2⟩ := header_from hs
    rw [List.zip_map_right] at hd
    obtain ⟨⟨x, y⟩, hx, rfl⟩ := List.mem_map.1 hd
    have : x = y ∧ x ∈ ss := by
      rw [List.zip_eq_zipWith] at hx
      obtain ⟨q, hq, e⟩ := List.getElem_of_mem hx
      simp at e
      obtain ⟨rfl, rfl⟩ := e
      exact ⟨rfl, List.getElem_mem _⟩
    obtain ⟨rfl, hm⟩ := this
    exact ⟨x, hm, h1, h2⟩
  have hwin : ∀ i s, headers.getD i none = some s → P.getD i [] = window (h s.arr) s.off s.len := by
    intro i s hs
    have := header_window parts.toNat h ss hbl i
    rw [hH, ← hP, hs] at this
    exact this
  have hsize : ∀ i < e.k, ∀ s, headers.getD i none = some s → s.len = 0 → (rec.getD i []).length = shardSize P := by
    intro i hi s hs h0
    refine reconstruct_missing hc hk hkm hrec hi ?_
    rw [hwin i s hs, length_window, h0]
  have hapart : ∀ i s, headers.getD i none = some s → s.len = 0 → ∀ j s', headers.getD j none = some s' → j ≠ i →
      s.arr ≠ s'.arr ∨ s.off + s.cap ≤ s'.off ∨ s'.off + s'.cap ≤ s.off := by
    intro i s hs h0 j s' hs' hij
    obtain ⟨d, hd, hdi, rfl⟩ := hfrom i s hs
    obtain ⟨d', hd', hdj, rfl⟩ := hfrom j s' hs'
    have h1 := hlen22 d hd
    have h2 := hlen22 d' hd'
    have h3 := hcap d hd
    have h4 := hcap d' hd'
    simp only [] at h0 ⊢
    rcases hap d hd (by omega) d' hd' (by rintro rfl; exact hij (by omega)) with c | c | c
    · exact .inl c
    · exact .inr (.inl (by omega))
    · exact .inr (.inr (by omega))
  have hbound : ∀ i s, headers.getD i none = some s → s.off + s.cap ≤ (h s.arr).length ∧ s.len ≤ s.cap := by
    intro i s hs
    obtain ⟨d, hd, -, rfl⟩ := hfrom i s hs
    have := hb d hd
    have := hcap d hd
    have := hlen22 d hd
    exact ⟨by show d.off + 21 + (d.cap - 21) ≤ (h d.arr).length; omega, by show d.len - 22 ≤ d.cap - 21; omega⟩
  have hmain : heldShards e.k (shardSize P) headers rec (storesHeap e.k (shardSize P) headers rec h) = rec.take e.k := by
    apply List.ext_getElem?
    intro i
    by_cases hi : i < e.k
    · rw [List.getElem?_take_of_lt hi, heldShards, List.getElem?_map, List.getElem?_range hi, Option.map_some,
        List.getElem?_eq_getElem (by omega)]
      congr 1
      have hri : rec.getD i [] = rec[i] := by
        rw [List.getD_eq_getElem?_getD, List.getElem?_eq_getElem (by omega), Option.getD_some]
      rw [heldShard, ← hri]
      cases hh : headers.getD i none with
      | none => rfl
      | some s =>
        simp only []
        have hbd := hbound i s hh
        by_cases hl : s.len ≠ 0
        · rw [if_pos hl]
          have hPi := hwin i s hh
          rw [hkeep i (by rw [hPi]; intro c; exact hl (by simpa using congrArg List.length c)), hPi]
          unfold window
          apply List.map_congr_left
          intro q hq
          have hq : q < s.len := by simpa using hq
          rw [List.getD_eq_getElem?_getD, List.getD_eq_getElem?_getD]
          congr 1
          apply storesHeap_other
          intro j hj s' hs' h0 hsz
          have hbd' := hbound j s' hs'
          refine ⟨hsize j hj s' hs' h0, by omega, fun harr => ?_⟩
          have hji : i ≠ j := by
            rintro rfl
            rw [hh] at hs'
            cases hs'
            exact hl h0
          rcases hapart j s' hs' h0 i s hh hji with c | c | c
          · exact absurd harr.symm c
          · right; omega
          · left; omega
        · rw [if_neg hl]
          have hl0 : s.len = 0 := by omega
          by_cases hsz : shardSize P ≤ s.cap
          · rw [if_pos hsz]
            apply List.ext_getElem?
            intro q
            have hrl := hsize i hi s hh hl0
            by_cases hq : q < shardSize P
            · have := storesHeap_self (h := h) (rec := rec) hi hh hl0 hsz (fun j hj s' hs' h0 hsz' => by
                have hbd' := hbound j s' hs'
                refine ⟨hsize j hj s' hs' h0, by omega, fun hne => ?_⟩
                rcases hapart i s hh hl0 j s' hs' hne with c | c | c
                · exact .inl c
                · exact .inr (.inl (by omega))
                · exact .inr (.inr (by omega))) hq
              rw [window, List.getElem?_map, List.getElem?_range hq, Option.map_some, List.getD_eq_getElem?_getD, this,
                List.getElem?_eq_getElem (by omega), Option.getD_some]
            · rw [List.getElem?_eq_none (by simp; omega), List.getElem?_eq_none (by omega)]
          · rw [if_neg hsz]
    · rw [List.getElem?_eq_none (by simp [heldShards]; omega), List.getElem?_eq_none (by simp; omega)]
  rw [hmain, List.take_append_drop]

/-- The condition on the result: that of a call alone, with the shards `Join` finds in memory. -/
def JoinedResult (arch : Arch) (env : Env) (ssData : List (Option Slice)) (parts threshold : Int) (h : HeapF)
    (_ : List Byte) (o : Outcome (List (List Byte))) : Prop :=
  o = (fun s => [s]) <$> combineWith { env with arch } (withNils ssData ((ssData.filterMap id).map (contents h)))
    ((ssData.filterMap id).map (·.cap)) parts threshold (heldAfter ssData parts threshold h)

/-- Postcondition: as for the other calls (unless a share overlaps one without payload), and the stores. -/
def StoresPost (arch : Arch) (env : Env) (ssData : List (Option Slice)) (parts threshold : Int) (W0 : Set Loc) (h : HeapF) :
    Post (Outcome (List Slice)) := fun r W' h' log =>
  ResultPost (.krawczykCombine env ssData parts threshold) (JoinedResult arch env ssData parts threshold h) r W' h' log ∧
  W0 ⊆ W' ∧
  (((∀ slices, r ≠ ok slices) ∧ Agree W0 h h') ∨
    ∃ em rec, separate ((ssData.filterMap id).map (contents h)) parts = ok em ∧
      (⟨threshold.toNat, (parts - threshold).toNat⟩ : Encoder).reconstructData env.lib em.1 = ok rec ∧
      Agree W0 (storesHeap threshold.toNat (shardSize em.1)
        (placeHeaders parts.toNat ((ssData.filterMap id).zip ((ssData.filterMap id).map (contents h)))) rec h) h')

theorem storesPost_stable (arch : Arch) (env : Env) (ssData : List (Option Slice)) (parts threshold : Int) (W0 : Set Loc)
    (h : HeapF) : Stable R (StoresPost arch env ssData parts threshold W0 h) := by
  rintro r W h1 h2 log hag ⟨p1, p2, p3⟩
  have hag' : Agree W0 h1 h2 := hag.mono (p2.trans Set.subset_union_left)
  have tr : ∀ g : HeapF, Agree W0 g h1 → Agree W0 g h2 := fun g hg a i hm => (hg a i hm).trans (hag' a i hm)
  refine ⟨resultPost_stable _ _ r W h1 h2 log hag p1, p2, ?_⟩
  rcases p3 with ⟨h3, h4⟩ | ⟨em, rec, h3, h4, h5⟩
  · exact .inl ⟨h3, tr _ h4⟩
  · exact .inr ⟨em, rec, h3, h4, tr _ h5⟩

theorem storesPost_widen (arch : Arch) (env : Env) (ssData : List (Option Slice)) (parts threshold : Int) (W0 : Set Loc)
    (h : HeapF) : ∀ r W W' h' log, W ⊆ W' → StoresPost arch env ssData parts threshold W0 h r W h' log →
      StoresPost arch env ssData parts threshold W0 h r W' h' log :=
  fun r W W' h' log hs ⟨p1, p2, p3⟩ => ⟨resultPost_widen _ _ r W W' h' log hs p1, p2.trans hs, p3⟩

theorem new_encoder {lib : RSLib} {k m : Int} {e : Encoder} (h : RS.new lib k m = ok e) :
    e = ⟨k.toNat, m.toNat⟩ ∧ 0 < k ∧ k.toNat + m.toNat ≤ 256 := by
  unfold RS.new at h
  repeat' split at h
  all_goals first | cases h; done | (cases h; refine ⟨rfl, ?_, ?_⟩ <;> omega)

theorem wp_krawczykCombine_stores (arch : Arch) {env : Env} (hc : env.lib.Contract) {ssData : List (Option Slice)}
    {parts threshold : Int} {W : Set Loc} {h : HeapF} (hW : exposed (ssData.filterMap id) ⊆ W)
    (hR : ∀ s ∈ ssData.filterMap id, ∀ i < s.len, (s.arr, s.off + i) ∈ W ∪ R)
    (hb : ∀ s ∈ ssData.filterMap id, s.off + s.cap ≤ (h s.arr).length) (hcap : ∀ s ∈ ssData.filterMap id, s.len ≤ s.cap) :
    wp R (krawczykCombineP { env with arch } ssData parts threshold) (StoresPost arch env ssData parts threshold W h) W h [] := by
  have hbl : ∀ s ∈ ssData.filterMap id, InBounds h s := by
    intro s hs
    have := hb s hs
    have := hcap s hs
    unfold InBounds; omega
  have hstab := storesPost_stable (R := R) arch env ssData parts threshold W h
  have hwid := storesPost_widen arch env ssData parts threshold W h
  unfold StoresPost at hstab hwid ⊢
  have hJ : ∀ o, JoinedResult arch env ssData parts threshold h [] o ↔ o = (fun s => [s]) <$> combineWith { env with arch }
      (withNils ssData ((ssData.filterMap id).map (contents h))) ((ssData.filterMap id).map (·.cap)) parts threshold
      (heldAfter ssData parts threshold h) := fun _ => Iff.rfl
  have hH : ∀ P rec, heldAfter ssData parts threshold h P rec = heldShards threshold.toNat (shardSize P)
      (placeHeaders parts.toNat ((ssData.filterMap id).zip ((ssData.filterMap id).map (contents h)))) rec
      (storesHeap threshold.toNat (shardSize P)
        (placeHeaders parts.toNat ((ssData.filterMap id).zip ((ssData.filterMap id).map (contents h)))) rec h) ++
      rec.drop threshold.toNat := fun _ _ => rfl
  generalize heldAfter ssData parts threshold h = F at hJ hH
  generalize JoinedResult arch env ssData parts threshold h = J at hJ hstab hwid ⊢
  generalize hins : (ssData.filterMap id).map (contents h) = ins at hJ hH hstab hwid ⊢
  have hT : ∃ T, combineWith { env with arch } (withNils ssData ins) ((ssData.filterMap id).map (·.cap)) parts threshold F = T := ⟨_, rfl⟩
  obtain ⟨T, hT⟩ := hT
  have hT0 := hT
  have hcp : ∀ W' h', (∀ c, T ≠ ok c) →
      ResultPost (.krawczykCombine env ssData parts threshold) J ((fun _ => []) <$> T) W' h' [] := by
    intro W' h' hn
    refine ⟨?_, fun slices e => absurd e (nonok_map_ne hn _)⟩
    rw [hJ, hT, map_nonok hn]
  have hno : (∀ c, T ≠ ok c) → (ResultPost (.krawczykCombine env ssData parts threshold) J ((fun _ => ([] : List Slice)) <$> T) W h [] ∧
      W ⊆ W ∧ (((∀ slices, ((fun _ => ([] : List Slice)) <$> T) ≠ ok slices) ∧ Agree W h h) ∨
        ∃ em rec, separate ins parts = ok em ∧
          (⟨threshold.toNat, (parts - threshold).toNat⟩ : Encoder).reconstructData env.lib em.1 = ok rec ∧
          Agree W (storesHeap threshold.toNat (shardSize em.1)
            (placeHeaders parts.toNat ((ssData.filterMap id).zip ins)) rec h) h)) := fun hn =>
    ⟨hcp W h hn, le_refl W, .inl ⟨fun slices => nonok_map_ne hn slices, Agree.refl W h⟩⟩
  refine wp_krawczykHead hins hR hbl hT.symm hstab hwid hno ?_
  clear hT
  intro em key lb n hu hpos hsep hT
  have hpass := checkArgs_ok hu
  have hp : 0 < parts ∧ parts ≤ 255 := ⟨hpos, hpass.2.2.2.2⟩
  have hlen : ∀ s ∈ ssData.filterMap id, (contents h s).length = s.len := by
    intro s hs
    rw [contents_eq (hbl s hs), length_window]
  rw [separateCap_ok (by rw [← hins]; simp) ?_ hp.2 (by omega)] at hsep
  swap
  · rw [← hins]
    intro x hx
    rw [List.zip_map', List.mem_map] at hx
    obtain ⟨s, hs, rfl⟩ := hx
    have := hcap s hs
    simp only []
    rw [hlen s hs]
    omega
  unfold krawczykDecodeP
  refine wp_call_bind hT hno ?_
  clear hT
  intro decoder hdec hT
  obtain ⟨rfl, hk0, hkm⟩ := new_encoder hdec
  refine wp_bind _ _ _ _ _ ?_
  rw [← hins]
  refine wp_readHeaders hR hbl (fun s hs => by
    rw [← hlen s hs]; exact separate_len hp hsep _ (by rw [← hins]; exact List.mem_map_of_mem hs)) fun l hl => ?_
  rw [hins] at hl ⊢
  rw [hl, ← place_of_separate hp hsep]
  refine wp_call_bind hT hno ?_
  clear hT
  intro rec hrec hT
  have hem : em.1 = place parts.toNat ins ∧ ∀ d ∈ ins, 22 ≤ d.length := by
    have h1 := hsep
    rw [separate_eq _ hp] at h1
    cases hf : ins.findSome? (fault parts) with
    | some o => rw [hf] at h1; cases o <;> cases h1
    | none =>
      rw [hf] at h1
      rw [List.findSome?_eq_none_iff] at hf
      cases h1
      exact ⟨rfl, fun d hd => Own.fault_none (hf d hd)⟩
  have hz : ((ssData.filterMap id).zip ins).map (·.2) = ins := by
    rw [List.map_snd_zip]; rw [← hins]; simp
  have hzl : ∀ d ∈ (ssData.filterMap id).zip ins, d.2.length = d.1.len := by
    intro d hd
    rw [← hins, List.zip_map_right] at hd
    obtain ⟨⟨x, y⟩, hx, rfl⟩ := List.mem_map.1 hd
    have : x = y ∧ x ∈ ssData.filterMap id := by
      rw [List.zip_eq_zipWith] at hx
      obtain ⟨q, hq, e⟩ := List.getElem_of_mem hx
      simp at e
      obtain ⟨rfl, rfl⟩ := e
      exact ⟨rfl, List.getElem_mem _⟩
    obtain ⟨rfl, hm⟩ := this
    exact hlen _ hm
  have hhd : ∀ i s, (placeHeaders parts.toNat ((ssData.filterMap id).zip ins)).getD i none = some s →
      ∃ d ∈ ssData.filterMap id, 22 ≤ d.len ∧ s = ⟨d.arr, d.off + 21, d.len - 22, d.cap - 21⟩ := by
    intro i s hs
    obtain ⟨d, hd, -, rfl⟩ := header_from hs
    refine ⟨d.1, (List.of_mem_zip hd).1, ?_, rfl⟩
    rw [← hzl d hd]
    exact hem.2 d.2 (List.of_mem_zip hd).2
  have hstore : ∀ i < threshold.toNat, ∀ s, (placeHeaders parts.toNat ((ssData.filterMap id).zip ins)).getD i none = some s →
      s.len = 0 → shardSize em.1 ≤ s.cap → (∀ q < shardSize em.1, (s.arr, s.off + q) ∈ W) ∧
      s.off + shardSize em.1 ≤ (h s.arr).length ∧ (rec.getD i []).length = shardSize em.1 := by
    intro i hi s hs h0 hsz
    have hsh := header_shard parts.toNat _ hzl i s hs
    rw [hz, ← hem.1, h0] at hsh
    have hrl : (rec.getD i []).length = shardSize em.1 := reconstruct_missing hc (by simp; omega) hkm hrec hi hsh
    obtain ⟨d, hd1, hd2, rfl⟩ := hhd i s hs
    simp only [] at h0 hsz
    have hc1 := hb d hd1
    refine ⟨fun q hq => hW ⟨d, hd1, by omega, rfl, by simp only []; omega, by simp only []; omega⟩, ?_, hrl⟩
    have := hcap d hd1
    show d.off + 21 + shardSize em.1 ≤ (h d.arr).length
    omega
  refine wp_bind _ _ _ _ _ (wp_reconstructStores ?_ ?_)
  · intro i hi s hs h0 hsz
    obtain ⟨g1, g2, g3⟩ := hstore i hi s hs h0 hsz
    rw [g3]
    exact ⟨g1, g2⟩
  · show wp R _ _ W (storesHeap threshold.toNat _ _ rec h) []
    have hst : ∃ em' rec', separate ins parts = ok em' ∧
        (⟨threshold.toNat, (parts - threshold).toNat⟩ : Encoder).reconstructData env.lib em'.1 = ok rec' ∧
        Agree W (storesHeap threshold.toNat (shardSize em'.1) (placeHeaders parts.toNat ((ssData.filterMap id).zip ins)) rec' h)
          (storesHeap threshold.toNat (shardSize em.1) (placeHeaders parts.toNat ((ssData.filterMap id).zip ins)) rec h) :=
      ⟨em, rec, hsep, hrec, Agree.refl _ _⟩
    refine wp_bind _ _ _ _ _ (wp_readShards ?_ ?_)
    · intro i hi s hs
      have hi : i < threshold.toNat := hi
      rw [storesHeap_length (fun j hj s' a b c => by have := hstore j hj s' a b c; rw [this.2.2]; exact this.2.1)]
      refine ⟨fun hl => ?_, fun h0 hsz => ?_⟩
      · obtain ⟨d, hd1, hd2, rfl⟩ := hhd i s hs
        have := hb d hd1
        have := hcap d hd1
        refine ⟨fun q hq => ?_, by show d.off + 21 + (d.len - 22) ≤ (h d.arr).length; omega⟩
        have hq : q < d.len - 22 := hq
        have := hR d hd1 (21 + q) (by omega)
        rw [← Nat.add_assoc] at this
        exact this
      · have := hstore i hi s hs h0 hsz
        exact ⟨fun q hq => Or.inl (this.1 q hq), this.2.1⟩
    show wp R (Prog.call ((⟨threshold.toNat, (parts - threshold).toNat⟩ : Encoder).join (heldShards threshold.toNat _ _ _ _ ++
      rec.drop threshold.toNat) _) _) _ _ _ _
    rw [← hH em.1 rec]
    generalize storesHeap threshold.toNat (shardSize em.1) (placeHeaders parts.toNat ((ssData.filterMap id).zip ins)) rec h = hS at hst
    refine wp_call_bind hT (fun hn => ⟨hcp _ _ hn, le_refl W, .inr hst⟩) ?_
    clear hT
    intro ct _ hT
    refine wp_call_outcome ?_ (fun hn => ?_)
    · intro secret hsec a ha
      refine wp_bind _ _ _ _ _ (wp_writeAll (fun i _ => Or.inr rfl) (by rw [Function.update_self]; simp) ?_)
      rw [Function.update_self, Function.update_idem]
      have hT' : combineWith { env with arch } (withNils ssData ins) ((ssData.filterMap id).map (·.cap)) parts threshold F = ok secret := by
        rw [← hsec, ← hT]; exact hT0
      refine ⟨⟨?_, ?_⟩, Set.subset_union_left, .inr ?_⟩
      · rw [hJ, hT', map_ok, map_ok]
        congr 1
        simp [contents, writeAt]
      · intro slices hsl
        cases hsl
        refine ⟨⟨a, _, rfl⟩, ?_⟩
        intro s hs
        have : s = ⟨a, 0, secret.length, secret.length⟩ := by simpa using hs
        subst this
        refine ⟨Set.subset_union_right, ?_, le_rfl⟩
        show 0 + secret.length ≤ _
        rw [Function.update_self]; simp [writeAt]
      · obtain ⟨em', rec', g1, g2, g3⟩ := hst
        refine ⟨em', rec', g1, g2, fun b i hm => ?_⟩
        rw [g3 b i hm, Function.update_of_ne]
        rintro rfl
        exact ha i (Or.inl hm)
    · rw [← hT] at hn ⊢
      exact ⟨hcp _ _ hn, le_refl W, .inr hst⟩

end Verif.Proofs.Own
