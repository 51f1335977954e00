import Verif.Proofs.HeapSplit
import Verif.Proofs.Results
import Verif.Proofs.Combine

/-! # Every call meets its specification in the presence of other calls -/

namespace Verif.Proofs.Own
open Verif Outcome Galois Shamir Spec Pool Csprng Verif.Heap

variable {R : Set Loc}

/-- Every slice is an array of its own, without spare capacity. -/
def Separate (slices : List Slice) : Prop :=
  (slices.map Slice.arr).Nodup ∧ ∀ s ∈ slices, s.off = 0 ∧ s.cap = s.len

/-- Rows of length `c` of one array, without spare capacity. -/
def matrix (buff : Arr) (c n : Nat) : List Slice := (List.range n).map fun i => ⟨buff, c * i, c, c⟩

/-- Shape of the returned slices. -/
def Shape (c : Call) (slices : List Slice) : Prop :=
  match c with
  | .split s parts _ _ => ∃ buff, slices = layout buff s.len parts.toNat
  | .splitWithRandomizer _ s parts _ _ => ∃ buff, slices = layout buff s.len parts.toNat
  | .splitWithRandomizerOld s parts _ _ => ∃ buff, slices = layout buff s.len parts.toNat
  | .splitGeneric _ _ _ _ => Separate slices
  | .combine _ => ∃ a n, slices = [⟨a, 0, n, n⟩]
  | .regenerate _ _ _ => Separate slices
  | .krawczykSplit _ _ parts _ _ => ∃ buff c, slices = matrix buff c parts.toNat
  | .krawczykSplitWithRandomizer _ _ _ parts _ _ => ∃ buff c, slices = matrix buff c parts.toNat
  | .krawczykCombine _ _ _ _ => ∃ a n, slices = [⟨a, 0, n, n⟩]

/-- What a call guarantees when it is done. -/
def CallPost (arch : Arch) (c : Call) (ins : List (List Byte)) : Post (Outcome (List Slice)) := fun r W h log =>
  Correct arch c ins log ((fun l => l.map (contents h)) <$> r) ∧
  ∀ slices, r = ok slices → Shape c slices ∧ ∀ s ∈ slices, own s.arr ⊆ W ∧ s.off + s.cap ≤ (h s.arr).length ∧ s.len ≤ s.cap

/-- The same with another condition on the result. -/
def ResultPost (c : Call) (C : List Byte → Outcome (List (List Byte)) → Prop) : Post (Outcome (List Slice)) := fun r W h log =>
  C log ((fun l => l.map (contents h)) <$> r) ∧
  ∀ slices, r = ok slices → Shape c slices ∧ ∀ s ∈ slices, own s.arr ⊆ W ∧ s.off + s.cap ≤ (h s.arr).length ∧ s.len ≤ s.cap

theorem resultPost_stable (c : Call) (C : List Byte → Outcome (List (List Byte)) → Prop) : Stable R (ResultPost c C) := by
  rintro r W h h' log hag ⟨h1, h2⟩
  have key : (fun l => l.map (contents h')) <$> r = (fun l => l.map (contents h)) <$> r := by
    cases r with
    | ok slices =>
      simp only [map_ok, Outcome.ok.injEq]
      apply List.map_congr_left
      intro s hs
      have e : h s.arr = h' s.arr := agree_eq hag (sub_left ((h2 slices rfl).2 s hs).1)
      simp only [contents, e]
    | _ => rfl
  refine ⟨by rw [key]; exact h1, fun slices hr => ⟨(h2 slices hr).1, fun s hs => ?_⟩⟩
  obtain ⟨a, b, d⟩ := (h2 slices hr).2 s hs
  have e : h s.arr = h' s.arr := agree_eq hag (sub_left a)
  exact ⟨a, e ▸ b, d⟩

theorem callPost_stable (arch : Arch) (c : Call) (ins : List (List Byte)) : Stable R (CallPost arch c ins) :=
  resultPost_stable c (Correct arch c ins)

theorem resultPost_widen (c : Call) (C : List Byte → Outcome (List (List Byte)) → Prop) :
    ∀ r W W' h log, W ⊆ W' → ResultPost c C r W h log → ResultPost c C r W' h log :=
  fun _ _ _ _ _ hs h => ⟨h.1, fun slices e => ⟨(h.2 slices e).1, fun s hm =>
    ⟨((h.2 slices e).2 s hm).1.trans hs, ((h.2 slices e).2 s hm).2⟩⟩⟩

theorem callPost_widen (arch : Arch) (c : Call) (ins : List (List Byte)) :
    ∀ r W W' h log, W ⊆ W' → CallPost arch c ins r W h log → CallPost arch c ins r W' h log :=
  resultPost_widen c (Correct arch c ins)

theorem layout_mem {buff : Arr} {N n : Nat} {s : Slice} (hs : s ∈ layout buff N n) :
    s.arr = buff ∧ s.off + s.cap = (N + 1) * n ∧ s.len ≤ s.cap := by
  obtain ⟨i, hi, rfl⟩ := List.mem_map.1 hs
  have hi : i < n := by simpa using hi
  have hle : (N + 1) * i + (N + 1) ≤ (N + 1) * n := by rw [← Nat.mul_succ]; exact Nat.mul_le_mul_left _ hi
  refine ⟨rfl, ?_, ?_⟩
  · show (N + 1) * i + ((N + 1) * n - (N + 1) * i) = (N + 1) * n
    omega
  · show N + 1 ≤ (N + 1) * n - (N + 1) * i
    omega

/-- The argument checks. -/
theorem wp_checkP {bs : List Byte} {parts threshold : Int} {k : Prog (Outcome (List Slice))}
    {Q : Post (Outcome (List Slice))} {W : Set Loc} {h : HeapF} {log : List Byte}
    (herr : ∀ e, argError bs parts threshold = some e → Q (err e) W h log)
    (hok : ValidArgs bs parts threshold → wp R k Q W h log) :
    wp R (checkP bs.length parts threshold k) Q W h log := by
  unfold checkP
  by_cases h1 : parts < threshold
  · rw [if_pos h1]; exact herr .partsLtThreshold (by simp [argError, h1])
  rw [if_neg h1]
  by_cases h2 : parts > 255
  · rw [if_pos h2]; exact herr .partsExceed255 (by simp [argError, h1, h2])
  rw [if_neg h2]
  by_cases h3 : threshold < 2
  · rw [if_pos h3]; exact herr .thresholdLt2 (by simp [argError, h1, h2, h3])
  rw [if_neg h3, if_neg (by omega)]
  by_cases h4 : bs.length = 0
  · rw [if_pos h4]
    exact herr .emptySecret (by simp [argError, h1, h2, h3, List.length_eq_zero_iff.1 h4])
  rw [if_neg h4]
  exact hok ⟨by omega, by omega, by omega, fun e => h4 (by simp [e])⟩

theorem shows_frame {s : Slice} {bs : List Byte} {h h' : HeapF} (hs : Shows s bs h) (hN : 0 < s.len)
    (hR : ∀ i < s.len, (s.arr, s.off + i) ∈ R) (hf : Frame R h h') : Shows s bs h' := by
  have e : h' s.arr = h s.arr := hf _ (not_fresh_mem (hR 0 hN))
  refine ⟨by rw [e]; exact hs.1, ?_⟩
  rw [← hs.2]; simp only [contents, e]

theorem rowsOf_congr {pol pol' : List Byte} {t N : Nat} (h : ∀ k < t * N, pol.getD k 0 = pol'.getD k 0) :
    rowsOf pol t N = rowsOf pol' t N := by
  unfold rowsOf
  apply List.map_congr_left
  intro p hp
  have hp : p < N := by simpa using hp
  apply List.map_congr_left
  intro i hi
  have hi : i < t := by simpa using hi
  apply h
  calc t * p + i < t * p + t := by omega
    _ = t * (p + 1) := by ring
    _ ≤ t * N := Nat.mul_le_mul_left _ hp

/-- The resulting slices of the common part belong to the call. -/
theorem layout_owned {buff : Arr} {N n : Nat} {W : Set Loc} {h : HeapF} (hb : own buff ⊆ W)
    (hl : (h buff).length = (N + 1) * n) :
    ∀ s ∈ layout buff N n, own s.arr ⊆ W ∧ s.off + s.cap ≤ (h s.arr).length ∧ s.len ≤ s.cap := by
  intro s hs
  obtain ⟨h1, h2, h3⟩ := layout_mem hs
  rw [h1]
  exact ⟨hb, (h2.trans hl.symm).le, h3⟩

theorem wp_split (arch : Arch) {secret : Slice} {bs : List Byte} {parts threshold : Int} {perm : List Nat}
    {W : Set Loc} {h : HeapF} (hperm : perm.Perm (List.range 255))
    (hR : ∀ i < secret.len, (secret.arr, secret.off + i) ∈ R) (hs : Shows secret bs h) :
    wp R (splitP arch secret parts threshold perm) (CallPost arch (.split secret parts threshold perm) [bs]) W h [] := by
  have hlen := hs.length
  unfold splitP
  rw [← hlen]
  refine wp_checkP (bs := bs) ?_ ?_
  · intro e he
    refine ⟨fun src _ ps => ?_, fun _ c => by cases c⟩
    rw [List.headD_cons, split_invalid arch perm _ ps he]; rfl
  · intro hv
    have ht : 0 < threshold.toNat := by have := hv.2.2.1; omega
    have hN : 0 < bs.length := List.length_pos_iff.2 hv.2.2.2
    have hpl : parts.toNat ≤ perm.length := by
      rw [hperm.length_eq, List.length_range]; have := hv.2.1; omega
    rw [hlen]
    refine wp_sharesP arch (fills_rand (bs := bs) ht (hlen ▸ hN) hR) ht (hlen ▸ hN)
      (fun h' hf => shows_frame hs (hlen ▸ hN) hR hf) ?_
    intro buff W' h' stale vs pol hb hl _ _ hP hc
    refine ⟨fun src hsrc ps => ?_, ?_⟩
    · obtain ⟨pp, e⟩ := split_valid arch perm src ps hv hpl
      rw [List.nil_append] at hsrc
      rw [List.headD_cons, e, map_ok, map_ok]
      congr 1
      rw [hc, hlen]
      congr 2
      apply rowsOf_congr
      intro k hk
      rw [hP.2 k (by rw [hlen]; exact hk)]
      unfold polSplit
      congr 2
      conv_lhs => rw [← map_getD_range vs]
      rw [hP.1]
      exact List.map_congr_left fun k hk => (hsrc k (by rw [hP.1]; simpa using hk)).symm
    · intro slices hsl
      cases hsl
      exact ⟨⟨buff, rfl⟩, layout_owned hb hl⟩

theorem wp_splitWithRandomizer (arch : Arch) (fuel : Nat) {secret : Slice} {bs : List Byte} {parts threshold : Int}
    {r : CSPRNG} {W : Set Loc} {h : HeapF} (hx : ∃ xs, r.getUniqueBytes fuel (BitVec.ofInt 8 parts) = ok xs)
    (hR : ∀ i < secret.len, (secret.arr, secret.off + i) ∈ R) (hs : Shows secret bs h) :
    wp R (splitWithRandomizerP arch fuel secret parts threshold r)
      (CallPost arch (.splitWithRandomizer fuel secret parts threshold r) [bs]) W h [] := by
  have hlen := hs.length
  obtain ⟨xs, hx⟩ := hx
  unfold splitWithRandomizerP
  rw [← hlen]
  refine wp_checkP (bs := bs) ?_ ?_
  · intro e he
    refine ⟨⟨⟨⟨[], 0⟩, ⟨[], 0⟩⟩, ?_⟩, fun _ c => by cases c⟩
    rw [List.headD_cons, splitWithRandomizer_invalid arch fuel r _ he]; rfl
  · intro hv
    have ht : 0 < threshold.toNat := by have := hv.2.2.1; omega
    have hN : 0 < bs.length := List.length_pos_iff.2 hv.2.2.2
    have hxl : parts.toNat ≤ xs.length := by
      have h3 := (getUnique_ok_spec hx).1
      have := hv.1; have := hv.2.1; have := hv.2.2.1
      rw [h3, ofInt_toNat (by omega) (by omega)]
    rw [hx]
    refine wp_bind _ _ _ _ _ ?_
    rw [hlen]
    refine wp_sharesP arch (fills_randomizer (bs := bs) r ht (hlen ▸ hN) hR) ht (hlen ▸ hN)
      (fun h' hf => shows_frame hs (hlen ▸ hN) hR hf) ?_
    intro buff W' h' stale vs pol hb hl hst _ hP hc
    refine ⟨⟨⟨⟨[⟨stale⟩], 1⟩, ⟨[], 0⟩⟩, ?_⟩, ?_⟩
    · have e := splitWithRandomizer_valid arch fuel r ⟨⟨[⟨stale⟩], 1⟩, ⟨[], 0⟩⟩ hv xs hx hxl
      obtain ⟨pp, e⟩ := e
      rw [List.headD_cons, e, map_ok, map_ok]
      congr 1
      rw [hc, hlen]
      congr 2
      apply rowsOf_congr
      intro k hk
      rw [hP.2 k (by rw [hlen]; exact hk)]
      unfold polRandomizer
      congr 3
      simp [staleBuf, BytesBufferPool.get, Buf.grow, hst]
    · intro slices hsl
      cases hsl
      exact ⟨⟨buff, rfl⟩, layout_owned hb hl⟩

theorem wp_splitWithRandomizerOld (arch : Arch) {secret : Slice} {bs : List Byte} {parts threshold : Int}
    {r : CSPRNG} {W : Set Loc} {h : HeapF} {xs : List Byte} (hx : r.perm 255#8 = ok xs) (hxl : xs.length = 255)
    (hR : ∀ i < secret.len, (secret.arr, secret.off + i) ∈ R) (hs : Shows secret bs h) :
    wp R (splitWithRandomizerOldP arch secret parts threshold r)
      (CallPost arch (.splitWithRandomizerOld secret parts threshold r) [bs]) W h [] := by
  have hlen := hs.length
  unfold splitWithRandomizerOldP
  rw [← hlen]
  refine wp_checkP (bs := bs) ?_ ?_
  · intro e he
    refine ⟨fun ps => ?_, fun _ c => by cases c⟩
    rw [List.headD_cons, splitOld_invalid arch r _ he]; rfl
  · intro hv
    have ht : 0 < threshold.toNat := by have := hv.2.2.1; omega
    have hN : 0 < bs.length := List.length_pos_iff.2 hv.2.2.2
    have hxl : parts.toNat ≤ xs.length := by
      rw [hxl]; have := hv.2.1; omega
    rw [hx]
    refine wp_bind _ _ _ _ _ ?_
    rw [hlen]
    refine wp_sharesP arch (fills_randomizer (bs := bs) r ht (hlen ▸ hN) hR) ht (hlen ▸ hN)
      (fun h' hf => shows_frame hs (hlen ▸ hN) hR hf) ?_
    intro buff W' h' stale vs pol hb hl hst hz hP hc
    refine ⟨fun ps => ?_, ?_⟩
    · obtain ⟨pp, e⟩ := splitOld_valid arch r ps hv xs hx hxl
      rw [List.headD_cons, e, map_ok, map_ok]
      refine congrArg ok ?_
      rw [hc]
      refine congrArg (fun x => List.map (shareOf x) _) ?_
      unfold rowsOf rowsF
      rw [hlen]
      apply List.map_congr_left
      intro p hp
      have hp : p < secret.len := by simpa using hp
      apply List.map_congr_left
      intro i hi
      have hi : i < threshold.toNat := by simpa using hi
      have hlt : threshold.toNat * p + i < threshold.toNat * bs.length := by
        rw [hlen]
        calc threshold.toNat * p + i < threshold.toNat * p + threshold.toNat := by omega
          _ = threshold.toNat * (p + 1) := by ring
          _ ≤ threshold.toNat * secret.len := Nat.mul_le_mul_left _ hp
      rw [hP.2 _ hlt, withIntercepts_getD ht (by rw [length_read, hst, hlen]) hlt, hz rfl]
      rw [Nat.mul_add_mod, Nat.mod_eq_of_lt hi, Nat.mul_add_div ht, Nat.div_eq_of_lt hi, Nat.add_zero]
      rw [hlen] at hlt
      rw [read_getD _ _ (by simpa using hlt)]
      unfold oldCoeff
      by_cases h0 : i = 0
      · simp [h0]
      · simp [h0, List.getD_eq_getElem?_getD, List.getElem?_replicate, hlt]
    · intro slices hsl
      cases hsl
      exact ⟨⟨buff, rfl⟩, layout_owned hb hl⟩

end Verif.Proofs.Own
