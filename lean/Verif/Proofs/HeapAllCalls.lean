import Verif.Proofs.HeapKCombine

/-! # Every call meets its specification in the presence of other calls: all calls -/

namespace Verif.Proofs.Own
open Verif Outcome Galois Shamir Spec Pool Csprng RS Verif.Heap

variable {R : Set Loc}

/-- Every call meets its specification. -/
theorem wp_call (arch : Arch) {c : Call} (hc : Admissible c) {W : Set Loc} {h : HeapF}
    (hR : ∀ s ∈ c.inputs, ∀ i < s.len, (s.arr, s.off + i) ∈ R) (hb : ∀ s ∈ c.inputs, InBounds h s)
    (hcap : ∀ s ∈ c.inputs, s.len ≤ s.cap) :
    wp R (c.prog arch) (CallPost arch c (c.inputs.map (contents h))) W h [] := by
  cases c with
  | split s p t perm => exact wp_split arch hc (hR s (by simp [Call.inputs])) ⟨hb s (by simp [Call.inputs]), rfl⟩
  | splitWithRandomizer f s p t r =>
    exact wp_splitWithRandomizer arch f hc (hR s (by simp [Call.inputs])) ⟨hb s (by simp [Call.inputs]), rfl⟩
  | splitWithRandomizerOld s p t r =>
    have h1 : r.perm 255#8 ≠ panic := hc
    obtain ⟨xs, hx, hp⟩ : ∃ xs, r.perm 255#8 = ok xs ∧ xs.length = 255 := by
      rcases perm_cases r 255#8 with ⟨h, -⟩ | ⟨⟨xs, h, hp⟩, -⟩
      · exact absurd h h1
      · exact ⟨xs, h, by rw [hp.length_eq, length_identBytes]; rfl⟩
    exact wp_splitWithRandomizerOld arch hx hp (hR s (by simp [Call.inputs])) ⟨hb s (by simp [Call.inputs]), rfl⟩
  | combine parts => exact wp_combine arch (fun s hs i hi => Or.inr (hR s hs i hi)) hb
  | splitGeneric s p t perm =>
    exact wp_splitGeneric arch hc (hR s (by simp [Call.inputs])) ⟨hb s (by simp [Call.inputs]), rfl⟩
  | regenerate f parts n => exact wp_regenerate arch f (fun s hs i hi => Or.inr (hR s hs i hi)) hb
  | krawczykSplit env s p t perm =>
    exact wp_krawczykSplit arch hc.2 hc.1 (hR s (by simp [Call.inputs])) ⟨hb s (by simp [Call.inputs]), rfl⟩
  | krawczykSplitWithRandomizer env f s p t r =>
    exact wp_krawczykSplitWithRandomizer arch hc.1 f hc.2 (hR s (by simp [Call.inputs])) ⟨hb s (by simp [Call.inputs]), rfl⟩
  | krawczykCombine env ss p t =>
    exact wp_krawczykCombine arch hc (fun s hs i hi => Or.inr (hR s hs i hi)) hb hcap

end Verif.Proofs.Own
