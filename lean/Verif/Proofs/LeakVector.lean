import Verif.Proofs.LeakRules

/-! # What the vector functions of galois show -/

namespace Verif.Leak
open Verif Outcome Galois Pool Proofs Spec Spec.Leak

theorem idx_val {l : List Byte} {i : Nat} {a : Byte} (h : Verif.idx l i = ok a) : a = l.getD i 0 := by
  rw [idx_eq_ok] at h
  simp [List.getD_eq_getElem?_getD, h]

theorem both_mulTail (c : Byte) (d : Nat) {inp inp' : List Byte} (hl : inp.length = inp'.length) (out out' : List Byte) :
    Both (∀ j, d ≤ j → j < inp.length → inp.getD j 0 = inp'.getD j 0) (fun _ _ => True)
      (mulTail c d inp out) (mulTail c d inp' out') := by
  refine (both_forUp (by rw [hl]) (fun i => inp.getD (d + i) 0 = inp'.getD (d + i) 0) (fun _ _ _ => True) trivial ?_).weaken
    ?_ fun _ _ _ _ _ => trivial
  · intro i _ s t _
    refine (both_shows (.elem (d + i)) _ _).same fun a b ha hb _ => ?_
    have ha := idx_val ha
    have hb := idx_val hb
    refine ((both_table (e := .mul c a) (e' := .mul c b) rfl _ _).bind (K' := True) (M := fun _ _ => True) fun _ _ _ _ _ => ?_).weaken ?_
      fun _ _ _ _ _ => trivial
    · exact both_shows _ _ _
    · rw [← ha, ← hb]; simp
  · constructor
    · intro h j h1 h2
      have := h (j - d) (by omega)
      rwa [Nat.add_sub_cancel' h1] at this
    · intro h i hi
      exact h (d + i) (by omega) (by omega)

theorem both_mulGeneric (c : Byte) {inp inp' : List Byte} (hl : inp.length = inp'.length) :
    Both (∀ j, j < inp.length → inp.getD j 0 = inp'.getD j 0) (fun _ _ => True)
      (mulConstVectorGeneric c inp) (mulConstVectorGeneric c inp') := by
  refine (both_forUp hl (fun i => inp.getD i 0 = inp'.getD i 0)
    (fun i s t => s.length = inp.length ∧ t.length = inp.length ∧ ∀ j, i ≤ j → s.getD j 0 = inp.getD j 0 ∧ t.getD j 0 = inp'.getD j 0)
    ⟨rfl, hl.symm, fun _ _ => ⟨rfl, rfl⟩⟩ ?_).weaken Iff.rfl fun _ _ _ _ _ => trivial
  intro i hi s t ⟨hs, ht, hst⟩
  refine (both_shows (.elem i) _ _).same fun a b ha hb _ => ?_
  have ha := idx_val ha
  have hb := idx_val hb
  refine ((both_table (e := .mul a c) (e' := .mul b c) rfl _ _).bind (K' := True) fun v w _ _ _ => ?_).weaken ?_
    fun _ _ _ _ h => h
  · refine (both_shows (.elem i) _ _).weaken Iff.rfl fun s' t' hs' ht' _ => ?_
    rw [out_shows, setIdx_ok (by omega)] at hs' ht'
    cases hs'; cases ht'
    refine ⟨by simpa using hs, by simpa using ht, fun j hj => ?_⟩
    have hne : i ≠ j := by omega
    have := hst j (by omega)
    simpa [List.getD_eq_getElem?_getD, List.getElem?_set_ne hne] using this
  · rw [ha, hb, (hst i le_rfl).1, (hst i le_rfl).2]; simp

theorem length_mulBlocks {w : Nat} (hw : 0 < w) {c : Byte} {inp out r : List Byte} {e : Ev}
    (h : (shows e (galMulBlocks w (mulTableLow c) (mulTableHigh c) inp out)).out = ok r) (hl : inp.length ≤ out.length) :
    r.length = out.length := by
  rw [out_shows, galMulBlocks_eq hw c inp out hl] at h
  cases h
  exact length_filled (le_trans (Nat.mul_div_le _ _) hl)

theorem both_mulConstVector (arch : Arch) (c : Byte) {inp inp' : List Byte} (hl : inp.length = inp'.length) :
    Both (c ≠ 1 ∨ arch = .noasm → ∀ j, lookupsFrom arch inp.length ≤ j → j < inp.length → inp.getD j 0 = inp'.getD j 0)
      (fun _ _ => True) (mulConstVector arch c inp) (mulConstVector arch c inp') := by
  cases arch with
  | noasm =>
    refine (both_mulGeneric c hl).weaken ?_ fun _ _ _ _ h => h
    simp [lookupsFrom]
  | arm64 =>
    refine both_test (c = 1) (c = 1) Iff.rfl ?_
    by_cases hc : c = 1
    · simp only [hc, decide_true, if_true]
      refine (show Both True _ _ _ from ?_).weaken (by simp) fun _ _ _ _ h => h
      unfold copyInto
      simp only [List.length_replicate, hl]
      exact both_shows _ _ _
    · simp only [hc, decide_false]
      have e : (inp.length >>> 5) <<< 5 = inp.length - inp.length % 32 := by
        rw [Nat.shiftLeft_eq, Nat.shiftRight_eq_div_pow]; omega
      rw [hl.symm]
      refine (both_shows _ _ _).same fun a b _ _ _ => ?_
      refine both_test _ _ Iff.rfl ?_
      rw [e]
      by_cases hr : inp.length % 32 = 0
      · have : ¬ 0 < inp.length - (inp.length - inp.length % 32) := by omega
        simp only [this, decide_false]
        refine (both_pure trivial).weaken ?_ fun _ _ _ _ h => h
        simp only [lookupsFrom, hr]
        refine ⟨fun _ _ j h1 h2 => by omega, fun _ => trivial⟩
      · have : 0 < inp.length - (inp.length - inp.length % 32) := by
          have := Nat.mod_le inp.length 32; omega
        simp only [this, decide_true]
        refine (both_mulTail c _ hl _ _).weaken ?_ fun _ _ _ _ h => h
        exact ⟨fun h _ => h, fun h => h (Or.inl hc)⟩
  | amd64 cpu =>
    refine both_test (c = 1) (c = 1) Iff.rfl ?_
    by_cases hc : c = 1
    · simp only [hc, decide_true, if_true]
      refine (show Both True _ _ _ from ?_).weaken (by simp) fun _ _ _ _ h => h
      unfold copyInto
      simp only [List.length_replicate, hl]
      exact both_shows _ _ _
    · simp only [hc, decide_false]
      refine both_test _ _ Iff.rfl ?_
      by_cases ha : cpu.avx2 = true
      · simp only [ha, decide_true, if_true]
        rw [← hl]
        have e6 : (inp.length >>> 6) <<< 6 = inp.length - inp.length % 64 := by
          rw [Nat.shiftLeft_eq, Nat.shiftRight_eq_div_pow]; omega
        have hm := Nat.mod_le inp.length 64
        refine Both.same (L := fun p q => p.1 = (if 128 ≤ inp.length then inp.length - inp.length % 64 else 0) ∧ q.1 = p.1 ∧
          p.2.length = inp.length ∧ q.2.length = inp.length) ?_ ?_
        · refine both_test _ _ Iff.rfl ?_
          by_cases hb : bigSwitchover ≤ inp.length
          · simp only [hb, decide_true, if_true]
            refine (both_shows _ _ _).same fun a b h1 h2 _ => both_pure ?_
            have h1 := length_mulBlocks (by omega) h1 (by simp)
            have h2 := length_mulBlocks (by omega) h2 (by simp [hl])
            simp only [List.length_replicate] at h1 h2
            refine ⟨?_, rfl, h1, h2⟩
            rw [if_pos (show 128 ≤ inp.length from hb), ← e6]
          · simp only [hb, decide_false]
            refine both_pure ⟨?_, rfl, by simp, by simp⟩
            rw [if_neg (show ¬ 128 ≤ inp.length from hb)]
        · rintro ⟨d, o⟩ ⟨d', o'⟩ _ _ ⟨h1, h2, h3, h4⟩
          simp only at h1 h2 h3 h4
          obtain rfl := h2.symm
          simp only [h3, h4]
          have hd : d ≤ inp.length := by rw [h1]; split <;> omega
          refine (both_shows _ _ _).same fun i1 i1' g1 g1' _ => (both_shows _ _ _).same fun o1 o1' k1 k1' _ => ?_
          rw [out_shows, slice_ok hd (by omega)] at g1
          rw [out_shows, slice_ok hd (by omega)] at g1'
          rw [out_shows, slice_ok hd (by omega)] at k1
          rw [out_shows, slice_ok hd (by omega)] at k1'
          cases g1; cases g1'; cases k1; cases k1'
          have l1 : ((inp.drop d).take (inp.length - d)).length = inp.length - d := by simp
          have l2 : ((inp'.drop d).take (inp.length - d)).length = inp.length - d := by simp [← hl]
          rw [l1, l2]
          refine Both.same (L := fun p q => p.1 = (if 32 < inp.length - d then d + (inp.length - d - (inp.length - d) % 32) else d)
            ∧ q.1 = p.1) ?_ ?_
          · refine both_test _ _ Iff.rfl ?_
            by_cases hb : 32 < inp.length - d
            · simp only [hb, decide_true, if_true]
              refine (both_shows _ _ _).same fun a b h1 h2 _ => both_pure ⟨?_, rfl⟩
              simp only
              rw [Nat.shiftLeft_eq, Nat.shiftRight_eq_div_pow]
              omega
            · simp only [hb, decide_false]
              exact both_pure ⟨by simp, rfl⟩
          · rintro ⟨e, p⟩ ⟨e', p'⟩ _ _ ⟨f1, f2⟩
            simp only at f1 f2
            obtain rfl := f2.symm
            have ee : e = lookupsFrom (.amd64 cpu) inp.length := by
              simp only [lookupsFrom, ha, if_true]
              split at h1 <;> split at f1 <;> (try split) <;> (try split) <;> omega
            rw [ee]
            refine (both_mulTail c _ hl _ _).weaken ?_ fun _ _ _ _ h => h
            exact ⟨fun h _ => h, fun h => h (Or.inl hc)⟩
      · simp only [ha, decide_false]
        refine both_test _ _ Iff.rfl ?_
        by_cases hs : cpu.ssse3 = true
        · simp only [hs, decide_true, if_true]
          rw [← hl]
          refine (both_shows _ _ _).same fun a b h1 h2 _ => ?_
          have h1 := length_mulBlocks (by omega) h1 (by simp)
          have h2 := length_mulBlocks (by omega) h2 (by simp [hl])
          simp only [List.length_replicate] at h1 h2
          rw [h1, h2]
          refine both_test _ _ Iff.rfl ?_
          have e : (if decide (inp.length >>> 4 <<< 4 < inp.length) = true then inp.length >>> 4 <<< 4 else 0)
              = lookupsFrom (.amd64 cpu) inp.length := by
            have e : (inp.length >>> 4) <<< 4 = inp.length - inp.length % 16 := by
              rw [Nat.shiftLeft_eq, Nat.shiftRight_eq_div_pow]; omega
            rw [e]
            simp only [lookupsFrom, ha, hs, decide_eq_true_eq]
            have := Nat.mod_le inp.length 16
            by_cases h0 : inp.length % 16 = 0
            · simp [h0]
            · simp only [h0, if_false, if_true]
              simp
              omega
          rw [e]
          refine (both_mulTail c _ hl _ _).weaken ?_ fun _ _ _ _ h => h
          exact ⟨fun h _ => h, fun h => h (Or.inl hc)⟩
        · simp only [hs, decide_false]
          refine (both_mulTail c _ hl _ _).weaken ?_ fun _ _ _ _ h => h
          have e : lookupsFrom (.amd64 cpu) inp.length = 0 := by simp [lookupsFrom, ha, hs]
          rw [e]
          exact ⟨fun h _ => h, fun h => h (Or.inl hc)⟩

/-! ## AddVector shows nothing about the data -/

theorem both_xorTail (d : Nat) {inp inp' : List Byte} (hl : inp.length = inp'.length) (out out' : List Byte) :
    Both True (fun _ _ => True) (xorTail d inp out) (xorTail d inp' out') :=
  both_forUp' (by rw [hl]) (fun _ _ _ => True) trivial fun _ _ _ _ _ =>
    (both_shows _ _ _).same fun _ _ _ _ _ => (both_shows _ _ _).same fun _ _ _ _ _ => both_shows _ _ _

theorem length_xorBlocks {w : Nat} (hw : 0 < w) {inp out r : List Byte} {e : Ev}
    (h : (shows e (xorBlocks w inp out)).out = ok r) (hl : inp.length ≤ out.length) : r.length = out.length := by
  have hle := le_trans (Nat.mul_div_le inp.length w) hl
  rw [out_shows, xorBlocks_eq hw inp out hle] at h
  cases h
  exact length_filled hle

theorem both_batchLoop (a b a' b' : List Byte) (ha : a.length = a'.length) (hb : b.length = b'.length) :
    Both True (fun _ _ => True) (addVectorBatchLoop a b) (addVectorBatchLoop a' b') := by
  induction h : b.length using Nat.strong_induction_on generalizing a b a' b' with
  | _ n ih =>
    unfold addVectorBatchLoop
    by_cases h32 : 32 ≤ b.length
    · rw [dif_pos h32, dif_pos (by omega)]
      refine (both_shows _ _ _).same fun _ _ _ _ _ => (both_shows _ _ _).same fun _ _ _ _ _ =>
        (both_shows _ _ _).same fun _ _ _ _ _ => (both_shows _ _ _).same fun _ _ _ _ _ =>
        (both_shows _ _ _).same fun _ _ _ _ _ => (both_shows _ _ _).same fun _ _ _ _ _ => ?_
      rw [← ha]
      refine (both_shows _ _ _).same fun a1 a1' h1 h1' _ => ?_
      refine (ih (b.drop 32).length (by simp; omega) a1 (b.drop 32) a1' (b'.drop 32) ?_ (by simp [hb]) rfl).same
        fun _ _ _ _ _ => both_pure trivial
      rw [out_shows] at h1 h1'
      by_cases hle : 32 ≤ a.length
      · rw [slice_ok hle le_rfl] at h1
        rw [slice_ok hle (by omega)] at h1'
        cases h1; cases h1'
        simp [ha]
      · unfold Verif.slice at h1
        rw [if_neg (by omega)] at h1
        cases h1
    · rw [dif_neg h32, dif_neg (by omega)]
      refine (both_shows _ _ _).same fun _ _ _ _ _ => both_forUp' ha (fun _ _ _ => True) trivial fun _ _ _ _ _ =>
        (both_shows _ _ _).same fun _ _ _ _ _ => (both_shows _ _ _).same fun _ _ _ _ _ => both_shows _ _ _

theorem both_addVector (arch : Arch) {a b a' b' : List Byte} (hab : a.length = b.length) (ha : a.length = a'.length)
    (hb : b.length = b'.length) : Both True (fun _ _ => True) (addVector arch a b) (addVector arch a' b') := by
  cases arch with
  | noasm =>
    refine both_test _ _ (by rw [ha, hb]) ?_
    have hne : decide (a.length ≠ b.length) = false := by simp [hab]
    rw [hne]
    refine both_test _ _ (by rw [ha]) ?_
    cases decide (256 ≤ a.length)
    · refine both_forUp' ha (fun _ _ _ => True) trivial fun _ _ _ _ _ =>
        (both_shows _ _ _).same fun _ _ _ _ _ => (both_shows _ _ _).same fun _ _ _ _ _ => both_shows _ _ _
    · refine both_test _ _ (by rw [ha, hb]) ?_
      rw [hne]
      exact both_batchLoop a b a' b' ha hb
  | arm64 =>
    show Both True _ (addVectorArm64 a b) (addVectorArm64 a' b')
    unfold addVectorArm64
    rw [← ha]
    refine (both_shows _ _ _).same fun o o' _ _ _ => both_test _ _ Iff.rfl ?_
    cases decide (0 < a.length - (a.length >>> 5) <<< 5)
    · exact both_pure trivial
    · exact both_xorTail _ ha _ _
  | amd64 cpu =>
    show Both True _ (addVectorAmd64 cpu a b) (addVectorAmd64 cpu a' b')
    unfold addVectorAmd64
    rw [← ha]
    refine both_test _ _ Iff.rfl ?_
    cases decide (cpu.sse2 = true)
    · exact (both_shows _ _ _).same fun _ _ _ _ _ => both_xorTail _ ha _ _
    · refine Both.same (L := fun p q => q.1 = p.1 ∧ p.1 ≤ a.length ∧ p.2.length = a.length ∧ q.2.length = a.length) ?_ ?_
      · refine both_test _ _ Iff.rfl ?_
        cases decide (bigSwitchover ≤ a.length)
        · exact both_pure ⟨rfl, Nat.zero_le _, hab.symm, by rw [← hb, hab]⟩
        · refine (both_shows _ _ _).same fun o o' h1 h2 _ => both_pure ⟨rfl, ?_, ?_, ?_⟩
          · simp only [Nat.shiftLeft_eq, Nat.shiftRight_eq_div_pow]; omega
          · exact (length_xorBlocks (by omega) h1 (by omega)).trans hab.symm
          · exact (length_xorBlocks (by omega) h2 (by omega)).trans (by omega)
      · rintro ⟨d, o⟩ ⟨d', o'⟩ _ _ ⟨h1, hd, h3, h4⟩
        simp only at h1 hd h3 h4
        obtain rfl := h1.symm
        simp only [h3, h4]
        refine (both_shows _ _ _).same fun i1 i1' g1 g1' _ => (both_shows _ _ _).same fun o1 o1' k1 k1' _ => ?_
        rw [out_shows, slice_ok hd (by omega)] at g1
        rw [out_shows, slice_ok hd (by omega)] at g1'
        cases g1; cases g1'
        have l1 : ((a.drop d).take (a.length - d)).length = a.length - d := by simp
        have l2 : ((a'.drop d).take (a.length - d)).length = a.length - d := by simp [← ha]
        rw [l1, l2]
        refine Both.same (L := fun p q => q.1 = p.1) ?_ ?_
        · refine both_test _ _ Iff.rfl ?_
          cases decide (16 ≤ a.length - d)
          · exact both_pure rfl
          · exact (both_shows _ _ _).same fun _ _ _ _ _ => both_pure rfl
        · rintro ⟨e, p⟩ ⟨e', p'⟩ _ _ f2
          simp only at f2
          obtain rfl := f2.symm
          exact (both_shows _ _ _).same fun _ _ _ _ _ => both_xorTail _ ha _ _

end Verif.Leak
