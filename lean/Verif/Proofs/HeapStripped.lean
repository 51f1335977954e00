import Verif.Proofs.HeapStores

/-! # Memory after krawczyk.Combine: exact content -/

namespace Verif.Proofs.Own
open Verif Outcome Galois Shamir Spec Pool Csprng RS Krawczyk Verif.Heap

/-- With distinct part numbers, each share has its header. -/
theorem header_get {n : Nat} {ds : List (Slice × List Byte)} (hnd : (ds.map fun d => (partId d.2).toNat).Nodup)
    {d : Slice × List Byte} (hd : d ∈ ds) (hn : (partId d.2).toNat < n) :
    (placeHeaders n ds).getD (partId d.2).toNat none = some ⟨d.1.arr, d.1.off + 21, d.1.len - 22, d.1.cap - 21⟩ := by
  induction ds using List.reverseRecOn with
  | nil => cases hd
  | append_singleton ds e ih =>
    rw [List.map_append, List.nodup_append] at hnd
    rw [place_append', getLastD_partId, List.getD_eq_getElem?_getD, List.getElem?_set, length_placeHeaders]
    rcases List.mem_append.1 hd with hd | hd
    · rw [if_neg, ← List.getD_eq_getElem?_getD]
      · exact ih hnd.1 hd
      · intro c
        exact hnd.2.2 _ (List.mem_map.2 ⟨d, hd, rfl⟩) _ (by simp) c.symm
    · have : d = e := by simpa using hd
      subst this
      rw [if_pos rfl, if_pos hn]; rfl

/-! ## Concurrent executions -/

variable {ι : Type} [DecidableEq ι]

/-- What a goroutine has to establish. -/
def postOf (arch : Arch) (σ : Shared) (calls : ι → Call) (i0 : ι) (env : Env) (ssData : List (Option Slice)) (parts threshold : Int)
    (i : ι) : Post (Outcome (List Slice)) :=
  if i = i0 then StoresPost arch env ssData parts threshold (exposed (ssData.filterMap id)) σ.heap
  else CallPost arch (calls i) ((calls i).inputs.map (contents σ.heap))

theorem postOf_stable (arch : Arch) (σ : Shared) (calls : ι → Call) (i0 : ι) (env : Env) (ssData : List (Option Slice))
    (parts threshold : Int) (R : ι → Set Loc) (i : ι) : Stable (R i) (postOf arch σ calls i0 env ssData parts threshold i) := by
  unfold postOf
  split
  · exact storesPost_stable _ _ _ _ _ _ _
  · exact callPost_stable _ _ _

theorem inv_stores (arch : Arch) {σ : Shared} {calls : ι → Call} (hs : Start σ calls) {i0 : ι} {env : Env}
    {ssData : List (Option Slice)} {parts threshold : Int} (hi : calls i0 = .krawczykCombine env ssData parts threshold)
    (hc : env.lib.Contract) (hcap : ∀ s ∈ ssData.filterMap id, s.off + s.cap ≤ (σ.heap s.arr).length)
    (ha : ∀ j, j ≠ i0 → Admissible (calls j))
    (hd : ∀ j, j ≠ i0 → ∀ s ∈ (calls j).inputs, ∀ k < s.len, (s.arr, s.off + k) ∉ exposed (ssData.filterMap id)) :
    Inv (fun _ => preexisting σ \ exposed (ssData.filterMap id)) (postOf arch σ calls i0 env ssData parts threshold)
      (fun i => if i = i0 then exposed (ssData.filterMap id) else ∅) (initial arch σ calls) := by
  have hin : ∀ s ∈ ssData.filterMap id, InBounds σ.heap s ∧ s.len ≤ s.cap ∧ s.arr < σ.next ∧ ∀ p, s.arr ∉ σ.pool p := by
    intro s hm
    exact hs.inputs i0 s (by rw [hi]; exact hm)
  have hpre : exposed (ssData.filterMap id) ⊆ preexisting σ := by
    rintro l ⟨s, hm, -, h1, -⟩
    have := hin s hm
    exact ⟨by rw [h1]; exact this.2.2.1, by rw [h1]; exact this.2.2.2⟩
  have hW : ∀ i, (if i = i0 then exposed (ssData.filterMap id) else ∅) ⊆ preexisting σ := by
    intro i; split
    · exact hpre
    · exact Set.empty_subset _
  have hpool : ∀ a ∈ pooled σ, Fresh (preexisting σ) a := by
    intro a h k hm
    obtain ⟨p, h⟩ := mem_pooled.1 h
    exact hm.2 p h
  have hnew : ∀ a, σ.next ≤ a → Fresh (preexisting σ) a := fun a h k hm => absurd hm.1 (Nat.not_lt_of_le h)
  constructor
  · intro i j hij
    by_cases h1 : i = i0
    · rw [if_pos h1, if_neg (fun h2 => hij (h1.trans h2.symm))]; exact Set.disjoint_empty _
    · rw [if_neg h1]; exact Set.empty_disjoint _
  · intro i j
    by_cases h1 : i = i0
    · rw [if_pos h1]; exact Set.disjoint_sdiff_right
    · rw [if_neg h1]; exact Set.empty_disjoint _
  · exact hs.poolNodup
  · intro a h
    obtain ⟨p, h⟩ := mem_pooled.1 h
    exact hs.poolLt p a h
  · intro a h i; exact (hpool a h).mono (hW i)
  · intro a h i; exact (hpool a h).mono Set.sdiff_subset
  · intro a h i; exact (hnew a h).mono (hW i)
  · intro a h i; exact (hnew a h).mono Set.sdiff_subset
  · intro i
    show wp _ ((calls i).prog arch) _ _ σ.heap []
    unfold postOf
    by_cases h1 : i = i0
    · subst h1
      rw [if_pos rfl, if_pos rfl, hi]
      refine wp_krawczykCombine_stores arch hc le_rfl ?_ hcap (fun s hm => (hin s hm).2.1)
      intro s hm k hk
      have := hin s hm
      by_cases he : (s.arr, s.off + k) ∈ exposed (ssData.filterMap id)
      · exact Or.inl he
      · exact Or.inr ⟨⟨this.2.2.1, this.2.2.2⟩, he⟩
    · rw [if_neg h1, if_neg h1]
      refine wp_call arch (ha i h1) ?_ (fun s hm => (hs.inputs i s hm).1) (fun s hm => (hs.inputs i s hm).2.1)
      intro s hm k hk
      have := hs.inputs i s hm
      exact ⟨⟨this.2.2.1, this.2.2.2⟩, hd i h1 s hm k hk⟩

theorem stores_reach (arch : Arch) {σ : Shared} {calls : ι → Call} (hs : Start σ calls) {i0 : ι} {env : Env}
    {ssData : List (Option Slice)} {parts threshold : Int} (hi : calls i0 = .krawczykCombine env ssData parts threshold)
    (hc : env.lib.Contract) (hcap : ∀ s ∈ ssData.filterMap id, s.off + s.cap ≤ (σ.heap s.arr).length)
    (ha : ∀ j, j ≠ i0 → Admissible (calls j))
    (hd : ∀ j, j ≠ i0 → ∀ s ∈ (calls j).inputs, ∀ k < s.len, (s.arr, s.off + k) ∉ exposed (ssData.filterMap id))
    {c : Config ι (Outcome (List Slice))} (hr : Reach (initial arch σ calls) c) :
    ∃ W, Inv (fun _ => preexisting σ \ exposed (ssData.filterMap id)) (postOf arch σ calls i0 env ssData parts threshold) W c ∧
      Agree (preexisting σ \ exposed (ssData.filterMap id)) σ.heap c.shared.heap := by
  obtain ⟨W, I, k1, -⟩ := inv_reach (postOf_stable arch σ calls i0 env ssData parts threshold _)
    (inv_stores arch hs hi hc hcap ha hd) hr
  exact ⟨W, I, k1 i0⟩

end Verif.Proofs.Own
