import Verif.Proofs.HeapStripped
import Verif.Proofs.KrawczykTamper

/-! # krawczyk.Combine on shares that overlap in memory -/

namespace Verif.Proofs.Own
open Verif Outcome Galois Shamir Spec Pool Csprng RS Krawczyk Verif.Heap

theorem bind_ok_iff {α β : Type} {o : Outcome α} {f : α → Outcome β} {b : β} (h : o >>= f = ok b) : ∃ a, o = ok a ∧ f a = ok b := by
  cases o with
  | ok a => exact ⟨a, rfl, h⟩
  | _ => cases h

theorem decrypt_mask {env : Env} {ct key secret M : List Byte} (h : decrypt env ct key = ok secret) :
    decrypt env (List.zipWith (· ^^^ ·) ct M) key = ok (List.zipWith (· ^^^ ·) secret M) := by
  by_cases hg : goodKey key
  · rw [decrypt_ok env _ hg] at h ⊢
    cases h
    rw [xorKs_zipWith]
  · rw [decrypt_err env _ hg] at h; cases h

/-- If what `Join` finds differs from what `ReconstructData` returned by a mask, so does the result from the secret. -/
theorem combineWith_masked {env : Env} {ssData : List (Option (List Byte))} {caps : List Nat} {parts threshold : Int}
    {f : List (List Byte) → List (List Byte) → List (List Byte)} {secret M : List Byte}
    (h : combineCap env ssData caps parts threshold = ok secret)
    (hf : ∀ em decoder rec, (∃ n, 0 < parts ∧ parts ≤ 255 ∧ checkArgs n parts threshold = ok ()) →
      separateCap (ssData.filterMap id) caps parts = ok em →
      RS.new env.lib threshold (parts - threshold) = ok decoder → decoder.reconstructData env.lib em.1 = ok rec →
      decoder.k ≤ (f em.1 rec).length ∧ M.length = ((rec.take decoder.k).flatten).length ∧
      ((f em.1 rec).take decoder.k).flatten = List.zipWith (· ^^^ ·) (rec.take decoder.k).flatten M) :
    combineWith env ssData caps parts threshold f = ok (List.zipWith (· ^^^ ·) secret M) := by
  unfold combineCap at h
  unfold combineWith
  obtain ⟨d0, h0, h⟩ := bind_ok_iff h
  rw [h0, ok_bind]
  obtain ⟨u, h1, h⟩ := bind_ok_iff h
  rw [h1, ok_bind]
  obtain ⟨bytes, h2, h⟩ := bind_ok_iff h
  rw [h2, ok_bind]
  obtain ⟨em, h3, h⟩ := bind_ok_iff h
  rw [h3, ok_bind]
  obtain ⟨md, h4, h⟩ := bind_ok_iff h
  rw [h4, ok_bind]
  obtain ⟨key, h5, h⟩ := bind_ok_iff h
  rw [h5, ok_bind]
  obtain ⟨lb, h6, h⟩ := bind_ok_iff h
  rw [h6, ok_bind]
  by_cases hlb : lb.length < 4
  · rw [if_pos hlb] at h; cases h
  rw [if_neg hlb] at h ⊢
  obtain ⟨dec, h7, h⟩ := bind_ok_iff h
  rw [h7, ok_bind]
  obtain ⟨rec, h8, h⟩ := bind_ok_iff h
  rw [h8, ok_bind]
  obtain ⟨ct, h9, h⟩ := bind_ok_iff h
  have hpass := checkArgs_ok h1
  have hp : 0 < parts := by
    by_contra c
    rw [separateCap_neg _ _ (by have := hpass.2.2.1; omega)] at h3
    cases h3
  rw [clean_eq] at h2
  cases h2
  obtain ⟨hl, hM, hfl⟩ := hf em dec rec ⟨_, hp, hpass.2.2.2.2, h1⟩ h3 h7 h8
  unfold Encoder.join at h9 ⊢
  rw [if_neg (by omega), hfl]
  split at h9
  · cases h9
  split at h9
  · cases h9
  rename_i hlen
  cases h9
  rw [if_neg (by rw [List.length_zipWith]; omega), ok_bind, List.take_zipWith]
  have := decrypt_mask (M := M.take (leUint32 (lb.take 4)).toNat) h
  rw [this]
  congr 1
  have hsl : secret.length ≤ (leUint32 (lb.take 4)).toNat := by
    by_cases hg : goodKey key
    · rw [decrypt_ok env _ hg] at h
      cases h
      simp
    · rw [decrypt_err env _ hg] at h; cases h
  apply List.ext_getElem?
  intro i
  rw [List.getElem?_zipWith, List.getElem?_zipWith]
  by_cases hi : i < (leUint32 (lb.take 4)).toNat
  · rw [List.getElem?_take_of_lt hi]
  · rw [List.getElem?_eq_none (l := secret) (by omega)]

end Verif.Proofs.Own
