import Verif.Proofs.HeapKrawczyk
import Verif.Proofs.KrawczykCap

/-! # The shards krawczyk.Combine works on, as windows of the shares -/

namespace Verif.Proofs.Own
open Verif Outcome Galois Shamir Spec Pool Csprng RS Krawczyk Verif.Heap

variable {R : Set Loc}

/-! ## Headers and shards -/

/-- The headers left by the loop krawczyk.go:216-224, for shares and their bytes. -/
def placeHeaders (n : Nat) (ssData : List (Slice × List Byte)) : List (Option Slice) :=
  ssData.foldl (fun acc d => acc.set (d.2.getLastD 0).toNat
    (some ⟨d.1.arr, d.1.off + 21, d.1.len - 22, d.1.cap - 21⟩)) (List.replicate n none)

theorem place_append' (n : Nat) (sub : List (Slice × List Byte)) (d : Slice × List Byte) :
    placeHeaders n (sub ++ [d]) = (placeHeaders n sub).set (d.2.getLastD 0).toNat
      (some ⟨d.1.arr, d.1.off + 21, d.1.len - 22, d.1.cap - 21⟩) := by
  simp [placeHeaders]

theorem length_placeHeaders (n : Nat) (ds : List (Slice × List Byte)) : (placeHeaders n ds).length = n := by
  induction ds using List.reverseRecOn with
  | nil => simp [placeHeaders]
  | append_singleton ds d ih => rw [place_append']; simpa using ih

theorem getLastD_partId (d : List Byte) : d.getLastD 0 = partId d := by
  unfold partId
  rw [List.getLastD_eq_getLast?, List.getLast?_eq_getElem?, List.getD_eq_getElem?_getD]

theorem length_shardOf (d : List Byte) : (shardOf d).length = d.length - 22 := by
  unfold shardOf; simp; omega

theorem window_shardOf {h : HeapF} {s : Slice} (hb : InBounds h s) :
    window (h s.arr) (s.off + 21) (s.len - 22) = shardOf (contents h s) := by
  have hl : (contents h s).length = s.len := by
    rw [contents_eq hb, length_window]
  unfold InBounds at hb
  apply List.ext_getElem?
  intro q
  unfold shardOf window
  rw [hl]
  by_cases hq : q < s.len - 22
  · rw [List.getElem?_take_of_lt (by omega), List.getElem?_drop]
    unfold contents
    rw [List.getElem?_take_of_lt (by omega), List.getElem?_drop]
    rw [List.getElem?_map, List.getElem?_range hq, Option.map_some, List.getD_eq_getElem?_getD,
      show s.off + (21 + q) = s.off + 21 + q by omega, List.getElem?_eq_getElem (by omega), Option.getD_some]
  · rw [List.getElem?_eq_none (by simp; omega), List.getElem?_eq_none (by simp; omega)]

/-- A header shows the shard with its number. -/
theorem header_window (n : Nat) (h : HeapF) (ss : List Slice) (hb : ∀ s ∈ ss, InBounds h s) (i : Nat) :
    (place n (ss.map (contents h))).getD i [] =
      match (placeHeaders n (ss.zip (ss.map (contents h)))).getD i none with
      | some s => window (h s.arr) s.off s.len
      | none => [] := by
  induction ss using List.reverseRecOn with
  | nil =>
    simp [place, placeHeaders, List.getElem?_replicate]
    split <;> rfl
  | append_singleton ss s ih =>
    have ih := ih (fun s hs => hb s (by simp [hs]))
    have hz : (ss ++ [s]).zip ((ss ++ [s]).map (contents h)) = ss.zip (ss.map (contents h)) ++ [(s, contents h s)] := by
      rw [List.map_append, List.zip_append (by simp)]; rfl
    rw [hz, place_append', getLastD_partId, List.map_append, List.map_cons, List.map_nil, place_append,
      List.getD_eq_getElem?_getD, List.getElem?_set, length_place, List.getD_eq_getElem?_getD, List.getElem?_set,
      length_placeHeaders]
    by_cases e : (partId (contents h s)).toNat = i
    · rw [if_pos e, if_pos e]
      by_cases hn : (partId (contents h s)).toNat < n
      · rw [if_pos hn, if_pos hn]
        exact (window_shardOf (hb s (by simp))).symm
      · rw [if_neg hn, if_neg hn]; rfl
    · rw [if_neg e, if_neg e, ← List.getD_eq_getElem?_getD, ← List.getD_eq_getElem?_getD]
      exact ih

/-- A header shows the shard with its number. -/
theorem header_shard (n : Nat) (ds : List (Slice × List Byte)) (hlen : ∀ d ∈ ds, d.2.length = d.1.len) (i : Nat) (s : Slice)
    (h : (placeHeaders n ds).getD i none = some s) : ((place n (ds.map (·.2))).getD i []).length = s.len := by
  induction ds using List.reverseRecOn generalizing s with
  | nil =>
    have h : (List.replicate n (none : Option Slice)).getD i none = some s := h
    rw [List.getD_eq_getElem?_getD, List.getElem?_replicate] at h
    split at h <;> cases h
  | append_singleton ds d ih =>
    rw [place_append', getLastD_partId, List.getD_eq_getElem?_getD, List.getElem?_set, length_placeHeaders] at h
    rw [List.map_append, List.map_cons, List.map_nil, place_append, List.getD_eq_getElem?_getD, List.getElem?_set, length_place]
    by_cases e : (partId d.2).toNat = i
    · rw [if_pos e] at h ⊢
      split at h
      · rename_i hn
        rw [if_pos hn]
        cases h
        rw [Option.getD_some, length_shardOf, hlen d (by simp)]
      · cases h
    · rw [if_neg e] at h ⊢
      rw [← List.getD_eq_getElem?_getD] at h ⊢
      exact ih (fun d hd => hlen d (by simp [hd])) s h

/-- A header comes from a share with that number. -/
theorem header_from {n : Nat} {ds : List (Slice × List Byte)} {i : Nat} {s : Slice}
    (h : (placeHeaders n ds).getD i none = some s) : ∃ d ∈ ds, (partId d.2).toNat = i ∧
      s = ⟨d.1.arr, d.1.off + 21, d.1.len - 22, d.1.cap - 21⟩ := by
  induction ds using List.reverseRecOn with
  | nil =>
    have h : (List.replicate n (none : Option Slice)).getD i none = some s := h
    rw [List.getD_eq_getElem?_getD, List.getElem?_replicate] at h
    split at h <;> cases h
  | append_singleton ds d ih =>
    rw [place_append', getLastD_partId, List.getD_eq_getElem?_getD, List.getElem?_set, length_placeHeaders] at h
    by_cases e : (partId d.2).toNat = i
    · rw [if_pos e] at h
      split at h
      · cases h; exact ⟨d, by simp, e, rfl⟩
      · cases h
    · rw [if_neg e, ← List.getD_eq_getElem?_getD] at h
      obtain ⟨d', h1, h2⟩ := ih h
      exact ⟨d', by simp [h1], h2⟩

/-! ## The shards in memory -/

/-- Shard `i` as `Join` finds it. -/
def heldShard (size : Nat) (headers : List (Option Slice)) (rec : List (List Byte)) (h : HeapF) (i : Nat) : List Byte :=
  match headers.getD i none with
  | some s =>
    if s.len ≠ 0 then window (h s.arr) s.off s.len
    else if size ≤ s.cap then window (h s.arr) s.off size
    else rec.getD i []
  | none => rec.getD i []

/-- The first `k` shards as `Join` finds them. -/
def heldShards (k size : Nat) (headers : List (Option Slice)) (rec : List (List Byte)) (h : HeapF) : List (List Byte) :=
  (List.range k).map (heldShard size headers rec h)

theorem wp_readShards {k size : Nat} {headers : List (Option Slice)} {rec : List (List Byte)} {W : Set Loc} {h : HeapF}
    {log : List Byte} {Q : Post (List (List Byte))}
    (hh : ∀ i < k, ∀ s, headers.getD i none = some s →
      (s.len ≠ 0 → (∀ q < s.len, (s.arr, s.off + q) ∈ W ∪ R) ∧ s.off + s.len ≤ (h s.arr).length) ∧
      (s.len = 0 → size ≤ s.cap → (∀ q < size, (s.arr, s.off + q) ∈ W ∪ R) ∧ s.off + size ≤ (h s.arr).length))
    (hQ : Q (heldShards k size headers rec h) W h log) : wp R (readShardsP k size headers rec) Q W h log := by
  unfold readShardsP
  refine wp_mono ?_ _ _ _ _ (wp_forUp
    (fun i acc W' h' log' => acc = heldShards i size headers rec h ∧ W' = W ∧ h' = h ∧ log' = log) ⟨rfl, rfl, rfl, rfl⟩ ?_)
  · rintro _ W' h' log' ⟨rfl, rfl, rfl, rfl⟩; exact hQ
  · rintro i hi _ W' h' log' ⟨rfl, rfl, rfl, rfl⟩
    have step : ∀ l, l = heldShard size headers rec h' i →
        heldShards i size headers rec h' ++ [l] = heldShards (i + 1) size headers rec h' := by
      rintro l rfl
      simp [heldShards, List.range_succ]
    cases e : headers.getD i none with
    | none => exact ⟨step _ (by rw [heldShard, e]), rfl, rfl, rfl⟩
    | some s =>
      obtain ⟨h1, h2⟩ := hh i hi s e
      simp only []
      by_cases hl : s.len ≠ 0
      · rw [if_pos hl]
        refine wp_bind _ _ _ _ _ (wp_readAll (h1 hl).1 (h1 hl).2 ?_)
        exact ⟨step _ (by rw [heldShard, e]; simp only []; rw [if_pos hl]), rfl, rfl, rfl⟩
      · rw [if_neg hl]
        by_cases hc : size ≤ s.cap
        · rw [if_pos hc]
          have hl0 : s.len = 0 := by omega
          refine wp_bind _ _ _ _ _ (wp_readAll (h2 hl0 hc).1 (h2 hl0 hc).2 ?_)
          exact ⟨step _ (by rw [heldShard, e]; simp only []; rw [if_neg hl, if_pos hc]), rfl, rfl, rfl⟩
        · rw [if_neg hc]
          exact ⟨step _ (by rw [heldShard, e]; simp only []; rw [if_neg hl, if_neg hc]), rfl, rfl, rfl⟩

/-- ReconstructData leaves the shards that are present alone. -/
theorem reconstruct_keep {lib : RSLib} {e : Encoder} {P Q : List (List Byte)} (h : e.reconstructData lib P = ok Q) :
    Q.length = e.k + e.m ∧ P.length = e.k + e.m ∧ ∀ i, P.getD i [] ≠ [] → Q.getD i [] = P.getD i [] := by
  unfold Encoder.reconstructData at h
  by_cases h1 : P.length ≠ e.k + e.m
  · rw [if_pos h1] at h; cases h
  rw [if_neg h1] at h
  have h1 : P.length = e.k + e.m := by omega
  repeat' split at h
  · cases h
  · cases h
  · cases h; exact ⟨h1, h1, fun _ _ => rfl⟩
  · cases h
  · cases h
    refine ⟨by simpa using h1, h1, fun i hi => ?_⟩
    rw [List.getD_eq_getElem?_getD] at hi ⊢
    rw [List.getD_eq_getElem?_getD, List.getElem?_mapIdx]
    cases hP : P[i]? with
    | none => rfl
    | some s =>
      rw [hP] at hi
      have hi : s ≠ [] := hi
      simp [hi]

end Verif.Proofs.Own
