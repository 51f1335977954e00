import Verif.Proofs.HeapParts
import Verif.Proofs.KrawczykResults

/-! # SplitGeneric, Regenerate and the krawczyk functions meet their specification in the presence of other calls -/

namespace Verif.Proofs.Own
open Verif Outcome Galois Shamir Spec Pool Csprng Verif.Heap

variable {R : Set Loc}

theorem window_contents {s : Slice} {bs : List Byte} {h : HeapF} (hs : Shows s bs h) : window (h s.arr) s.off s.len = bs := by
  rw [← contents_eq hs.1]; exact hs.2

theorem wp_splitGeneric (arch : Arch) {secret : Slice} {bs : List Byte} {parts threshold : Int} {perm : List Nat}
    {W : Set Loc} {h : HeapF} (hperm : perm.Perm (List.range 255))
    (hR : ∀ i < secret.len, (secret.arr, secret.off + i) ∈ R) (hs : Shows secret bs h) :
    wp R (splitGenericP secret parts threshold perm) (CallPost arch (.splitGeneric secret parts threshold perm) [bs]) W h [] := by
  have hlen := hs.length
  unfold splitGenericP
  rw [← hlen]
  refine wp_checkP (bs := bs) ?_ ?_
  · intro e he
    refine ⟨fun src _ => ?_, fun _ c => by cases c⟩
    rw [List.headD_cons, splitGeneric_invalid perm _ he]; rfl
  · intro hv
    refine wp_bind _ _ _ _ _ (wp_drawAll ?_)
    intro rs hrs
    rw [hlen]
    refine wp_bind _ _ _ _ _ (wp_readAll (fun i hi => Or.inr (hR i hi)) hs.1 ?_)
    rw [window_contents hs]
    have hcong : ∀ src, Delivers src ([] ++ rs) → splitGeneric bs parts threshold perm src
        = splitGeneric bs parts threshold perm (fun k => rs.getD k 0) := by
      intro src hsrc
      rw [List.nil_append] at hsrc
      have hpl : parts.toNat ≤ perm.length := by
        rw [hperm.length_eq, List.length_range]; have := hv.2.1; omega
      rw [splitGeneric_valid perm _ hv hpl, splitGeneric_valid perm _ hv hpl]
      congr 3
      unfold rowsF
      apply List.map_congr_left
      intro p hp
      apply List.map_congr_left
      intro i hi
      have hp : p < bs.length := by simpa using hp
      have hi : i < threshold.toNat := by simpa using hi
      unfold genericCoeff
      split
      · rfl
      · refine hsrc _ ?_
        rw [hrs]
        calc (threshold.toNat - 1) * p + (i - 1) < (threshold.toNat - 1) * p + (threshold.toNat - 1) := by omega
          _ = (threshold.toNat - 1) * (p + 1) := by rw [Nat.mul_succ]
          _ ≤ _ := Nat.mul_le_mul_left _ hp
    refine wp_call_outcome ?_ ?_
    · intro rows hrows
      refine wp_bind _ _ _ _ _ (wp_storeRows ?_)
      intro slices W' h' hW hfr hc hsep hsl
      refine ⟨fun src hsrc => ?_, ?_⟩
      · rw [List.headD_cons, hcong src hsrc, hrows, map_ok, hc]
      · intro slices' e
        cases e
        exact ⟨hsep, fun s hm => ⟨(hsl s hm).1, (hsl s hm).2.2⟩⟩
    · intro hno
      refine ⟨fun src hsrc => ?_, fun slices e => absurd e (nonok_map_ne hno _)⟩
      rw [List.headD_cons, hcong src hsrc, map_nonok_id hno]

end Verif.Proofs.Own
