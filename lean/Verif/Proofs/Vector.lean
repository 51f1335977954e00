import Verif.Proofs.Field
import Verif.Proofs.Words

/-! # The vector routines of every build compute elementwise products and sums -/

namespace Verif.Proofs
open Verif Spec Outcome Galois

/-- Elementwise GF(2^8) sum of two byte strings. -/
def xorBytes (a b : List Byte) : List Byte := List.zipWith (· ^^^ ·) a b

theorem getElem?_ge {α : Type} {l : List α} {i : Nat} (h : l.length ≤ i) : l[i]? = none :=
  List.getElem?_eq_none h

theorem writeAt_filled {α : Type} (g : Nat → α) (out : List α) (d : Nat) (w : Nat) (bytes : List α)
    (hb : bytes = (List.range w).map fun i => g (d + i)) (h : d + w ≤ out.length) :
    writeAt (filled g out d) d bytes = filled g out (d + w) := by
  subst hb
  apply List.ext_getElem?
  intro k
  rw [getElem?_filled h]
  unfold writeAt
  have l1 : ((filled g out d).take d).length = d := by rw [List.length_take, length_filled (by omega)]; omega
  by_cases h1 : k < d
  · rw [List.append_assoc, List.getElem?_append_left (by omega), List.getElem?_take, if_pos h1,
      getElem?_filled (by omega), if_pos h1, if_pos (by omega)]
  · by_cases h2 : k < d + w
    · rw [List.append_assoc, List.getElem?_append_right (by omega), List.getElem?_append_left (by simp [l1]; omega),
        l1, List.getElem?_map, List.getElem?_range (by omega), if_pos h2]
      simp only [Option.map_some]
      congr 2; omega
    · rw [List.getElem?_append_right (by simp [l1]; omega), List.getElem?_drop, getElem?_filled (by omega),
        if_neg h2]
      simp only [List.length_append, l1, List.length_map, List.length_range]
      have : d + w + (k - (d + w)) = k := by omega
      rw [this, if_neg h1]

theorem drop_filled {α : Type} (g : Nat → α) (out : List α) (d : Nat) :
    (filled g out d).drop d = out.drop d := by
  simp [filled]

theorem filled_filled {α : Type} (g : Nat → α) (out : List α) (d d' : Nat) (h : d + d' ≤ out.length) :
    writeAt (filled g out d) d (filled (fun i => g (d + i)) (out.drop d) d') = filled g out (d + d') := by
  apply List.ext_getElem?
  intro k
  rw [getElem?_filled h]
  unfold writeAt
  have l1 : ((filled g out d).take d).length = d := by rw [List.length_take, length_filled (by omega)]; omega
  have l2 : (filled (fun i => g (d + i)) (out.drop d) d').length = out.length - d := by
    rw [length_filled (by simp; omega)]; simp
  by_cases h1 : k < d
  · rw [List.append_assoc, List.getElem?_append_left (by omega), List.getElem?_take, if_pos h1,
      getElem?_filled (by omega), if_pos h1, if_pos (by omega)]
  · by_cases h3 : k < out.length
    · rw [List.append_assoc, List.getElem?_append_right (by omega), List.getElem?_append_left (by omega),
        getElem?_filled (by simp; omega), l1]
      by_cases h2 : k < d + d'
      · rw [if_pos h2, if_pos (by omega)]; congr 2; omega
      · rw [if_neg h2, if_neg (by omega), List.getElem?_drop]; congr 1; omega
    · rw [if_neg (by omega), getElem?_ge (l := out) (by omega), getElem?_ge]
      rw [List.length_append, List.length_append, List.length_drop, l1, l2, length_filled (by omega)]; omega

theorem window_eq {l : List Byte} {d w : Nat} (h : d + w ≤ l.length) :
    (l.drop d).take w = (List.range w).map fun i => l.getD (d + i) 0 := by
  apply List.ext_getElem?
  intro k
  rw [List.getElem?_take, List.getElem?_map, List.getElem?_drop]
  by_cases hk : k < w
  · rw [if_pos hk, List.getElem?_range hk]
    have : d + k < l.length := by omega
    simp [List.getD_eq_getElem?_getD, List.getElem?_eq_getElem this]
  · rw [if_neg hk, getElem?_ge (l := List.range w) (by simp; omega)]; rfl

/-! ## Multiplication -/

/-- what `MulConstVector` is to put at position `i` -/
def mulAt (c : Byte) (inp : List Byte) (i : Nat) : Byte := mulSpec c (inp.getD i 0)

theorem galMulBlocks_eq {w : Nat} (hw : 0 < w) (c : Byte) (inp out : List Byte) (hl : inp.length ≤ out.length) :
    galMulBlocks w (mulTableLow c) (mulTableHigh c) inp out
      = ok (filled (mulAt c inp) out (w * (inp.length / w))) := by
  have hle : w * (inp.length / w) ≤ inp.length := Nat.mul_div_le _ _
  unfold galMulBlocks
  rw [forUp_eq (fun k => filled (mulAt c inp) out (w * k))]
  · simp
  · intro k hk
    have hk' : w * (k + 1) ≤ inp.length := le_trans (Nat.mul_le_mul_left w (by omega)) hle
    rw [Nat.mul_succ] at hk'
    rw [asmLoad, if_pos (by omega), ok_bind, asmStore, if_pos]
    · rw [writeAt_filled _ _ _ w, Nat.mul_succ]
      · rw [window_eq hk', List.map_map]
        apply List.map_congr_left
        intro i _
        simp [mulAt, nibbleMul_eq]
      · omega
    · rw [length_filled (by omega)]; simp; omega

theorem mulTail_eq (c : Byte) (d : Nat) (inp out : List Byte) (hd : d ≤ inp.length)
    (hl : inp.length ≤ out.length) :
    mulTail c d inp (filled (mulAt c inp) out d) = ok (filled (mulAt c inp) out inp.length) := by
  unfold mulTail
  have e : inp.length = d + (inp.length - d) := by omega
  rw [forUp_eq (fun i => filled (mulAt c inp) out (d + i)) (by simp)]
  · rw [← e]
  · intro i hi
    rw [idx_ok (by omega), ok_bind, setIdx_filled (by omega), Nat.add_assoc]
    rw [galois_mulTable_eq, mulAt]
    have : d + i < inp.length := by omega
    simp [List.getD_eq_getElem?_getD, List.getElem?_eq_getElem this]

theorem mulAt_all (c : Byte) (inp out : List Byte) (hl : inp.length = out.length) :
    filled (mulAt c inp) out inp.length = inp.map (mulSpec c) := by
  rw [filled_all hl]
  exact range_map_getElem inp (mulSpec c) 0

theorem shift_down (n k : Nat) : (n >>> k) <<< k = 2 ^ k * (n / 2 ^ k) := by
  rw [Nat.shiftLeft_eq, Nat.shiftRight_eq_div_pow, Nat.mul_comm]

theorem shift6 (n : Nat) : (n >>> 6) <<< 6 = 64 * (n / 64) := shift_down n 6
theorem shift5 (n : Nat) : (n >>> 5) <<< 5 = 32 * (n / 32) := shift_down n 5
theorem shift4 (n : Nat) : (n >>> 4) <<< 4 = 16 * (n / 16) := shift_down n 4

theorem mulConstVectorGeneric_eq (c : Byte) (a : List Byte) :
    mulConstVectorGeneric c a = ok (a.map (mulSpec c)) := by
  unfold mulConstVectorGeneric
  rw [forUp_fill (mulAt c a) (le_refl _), mulAt_all _ _ _ rfl]
  intro i hi
  rw [idx_filled hi, ok_bind, setIdx_filled hi]
  rw [galMultiply_eq, mulSpec_comm, mulAt]
  simp [List.getD_eq_getElem?_getD, List.getElem?_eq_getElem hi]

theorem map_one (a : List Byte) : a.map (mulSpec 1) = a := by
  conv_rhs => rw [← List.map_id a]
  exact List.map_congr_left fun x _ => one_mulSpec x

theorem mulConstVectorArm64_eq (c : Byte) (a : List Byte) :
    mulConstVectorArm64 c a = ok (a.map (mulSpec c)) := by
  unfold mulConstVectorArm64 mulConstVectorArm64With; simp only [blocks]
  by_cases h1 : c = 1
  · subst h1
    simp only [if_true]
    rw [copyInto_same (by simp), map_one]; rfl
  rw [if_neg h1, galMulBlocks_eq (by omega) c a _ (by simp)]
  simp only [Outcome.pure_eq, ok_bind, shift5]
  have hle : 32 * (a.length / 32) ≤ a.length := Nat.mul_div_le _ _
  change (if 0 < a.length - 32 * (a.length / 32) then mulTail c (32 * (a.length / 32)) a _ else _) = _
  split
  · rw [mulTail_eq _ _ _ _ hle (by simp), mulAt_all _ _ _ (by simp)]
  · have : 32 * (a.length / 32) = a.length := by omega
    rw [this, mulAt_all _ _ _ (by simp)]

theorem mulAt_drop (c : Byte) (a : List Byte) (d : Nat) :
    mulAt c (a.drop d) = fun i => mulAt c a (d + i) := by
  funext i
  simp [mulAt, List.getD_eq_getElem?_getD, List.getElem?_drop]

theorem mulConstVectorAmd64_eq (cpu : Cpu) (c : Byte) (a : List Byte) :
    mulConstVectorAmd64 cpu c a = ok (a.map (mulSpec c)) := by
  unfold mulConstVectorAmd64 mulConstVectorAmd64With; simp only [blocks]
  by_cases h1 : c = 1
  · subst h1
    simp only [if_true]
    rw [copyInto_same (by simp), map_one]; rfl
  rw [if_neg h1]
  simp only [Outcome.pure_eq, ok_bind]
  set out := List.replicate a.length (0 : Byte) with hout
  have hol : out.length = a.length := by simp [hout]
  split
  · -- AVX2
    have step1 : ∃ d, d ≤ a.length ∧
        (if bigSwitchover ≤ a.length then do
          let o ← galMulBlocks 64 (mulTableLow c) (mulTableHigh c) a out
          (ok ((a.length >>> 6) <<< 6, o) : Outcome (Nat × List Byte))
        else ok (0, out)) = ok (d, filled (mulAt c a) out d) := by
      split
      · refine ⟨64 * (a.length / 64), Nat.mul_div_le _ _, ?_⟩
        rw [galMulBlocks_eq (by omega) c a _ (by omega), ok_bind, shift6]
      · exact ⟨0, by omega, by simp⟩
    obtain ⟨d, hd, e1⟩ := step1
    rw [e1, ok_bind, slice_ok hd (le_refl _), ok_bind]
    rw [slice_ok (by rw [length_filled (by omega)]; omega) (le_refl _), ok_bind, length_filled (by omega),
      drop_filled]
    have ta : ((a.drop d).take (a.length - d)) = a.drop d := by
      rw [List.take_of_length_le (by simp)]
    have tb : ((out.drop d).take (out.length - d)) = out.drop d := by
      rw [List.take_of_length_le (by simp)]
    simp only [ta, tb]
    have step2 : ∃ d', d' ≤ a.length ∧
        (if 32 < (a.drop d).length then do
          let o ← galMulBlocks 32 (mulTableLow c) (mulTableHigh c) (a.drop d) (out.drop d)
          (ok (d + (((a.drop d).length >>> 5) <<< 5), writeAt (filled (mulAt c a) out d) d o) : Outcome (Nat × List Byte))
        else ok (d, filled (mulAt c a) out d)) = ok (d', filled (mulAt c a) out d') := by
      split
      · have hle : 32 * ((a.drop d).length / 32) ≤ (a.drop d).length := Nat.mul_div_le _ _
        have hle2 : d + 32 * ((a.drop d).length / 32) ≤ a.length := by
          have : (a.drop d).length = a.length - d := by simp
          omega
        refine ⟨d + 32 * ((a.drop d).length / 32), hle2, ?_⟩
        rw [galMulBlocks_eq (by omega) c _ _ (by simp [hol]), ok_bind, shift5, mulAt_drop,
          filled_filled _ _ _ _ (by omega)]
      · exact ⟨d, hd, rfl⟩
    obtain ⟨d', hd', e2⟩ := step2
    rw [e2, ok_bind, mulTail_eq _ _ _ _ hd' (by omega), mulAt_all _ _ _ hol.symm]
  · split
    · -- SSSE3
      rw [galMulBlocks_eq (by omega) c a _ (by omega), ok_bind, shift4]
      have hle : 16 * (a.length / 16) ≤ a.length := Nat.mul_div_le _ _
      rw [length_filled (by omega)]
      change mulTail c (if 16 * (a.length / 16) < out.length then _ else 0) a _ = _
      split
      · rw [mulTail_eq _ _ _ _ hle (by omega), mulAt_all _ _ _ hol.symm]
      · -- everything was done by the blocks; the tail loop runs again over the whole vector
        have hd : 16 * (a.length / 16) = a.length := by omega
        rw [hd]
        have hidem := mulTail_eq c 0 a (filled (mulAt c a) out a.length) (by omega)
          (by rw [length_filled (by omega)]; omega)
        rw [filled_zero] at hidem
        rw [hidem, mulAt_all _ _ _ (by rw [length_filled (by omega)]; omega)]
    · have := mulTail_eq c 0 a out (by omega) (by omega)
      rw [filled_zero] at this
      rw [this, mulAt_all _ _ _ hol.symm]

/-- `MulConstVector` on every build. -/
theorem mulConstVector_eq (arch : Arch) (c : Byte) (a : List Byte) :
    mulConstVector arch c a = ok (a.map (mulSpec c)) := by
  cases arch
  · exact mulConstVectorAmd64_eq _ c a
  · exact mulConstVectorArm64_eq c a
  · exact mulConstVectorGeneric_eq c a

/-! ## Addition -/

/-- what `AddVector` is to put at position `i` -/
def xorAt (inp out : List Byte) (i : Nat) : Byte := inp.getD i 0 ^^^ out.getD i 0

theorem xorAt_all (inp out : List Byte) (hl : inp.length = out.length) :
    filled (xorAt inp out) out inp.length = xorBytes inp out := by
  rw [filled_all hl]
  unfold xorBytes
  apply List.ext_getElem
  · simp [hl]
  · intro k h1 h2
    simp only [List.length_map, List.length_range] at h1
    have h3 : k < out.length := by omega
    simp [xorAt, List.getD_eq_getElem?_getD, List.getElem?_eq_getElem h1, List.getElem?_eq_getElem h3]

theorem zipWith_range (f : Byte → Byte → Byte) (g h : Nat → Byte) (w : Nat) :
    List.zipWith f ((List.range w).map g) ((List.range w).map h) = (List.range w).map fun i => f (g i) (h i) := by
  apply List.ext_getElem
  · simp
  · intro k h1 h2; simp

theorem xorBlocks_eq {w : Nat} (hw : 0 < w) (inp out : List Byte) (hl : w * (inp.length / w) ≤ out.length) :
    xorBlocks w inp out = ok (filled (xorAt inp out) out (w * (inp.length / w))) := by
  have hle : w * (inp.length / w) ≤ inp.length := Nat.mul_div_le _ _
  unfold xorBlocks
  rw [forUp_eq (fun k => filled (xorAt inp out) out (w * k))]
  · simp
  · intro k hk
    have hk1 : w * (k + 1) ≤ w * (inp.length / w) := Nat.mul_le_mul_left w (by omega)
    rw [Nat.mul_succ] at hk1
    have hk' : w * k + w ≤ inp.length := by omega
    rw [asmLoad, if_pos (by omega), ok_bind, asmLoad, if_pos (by rw [length_filled (by omega)]; omega), ok_bind,
      drop_filled, window_eq hk', window_eq (l := out) (by omega), zipWith_range, asmStore, if_pos]
    · exact congrArg ok ((writeAt_filled (xorAt inp out) out (w * k) w _ rfl (by omega)).trans (by rw [Nat.mul_succ]))
    · rw [length_filled (by omega)]; simp; omega

/-- A block that does not fit in the destination is loaded and stored outside of it. -/
theorem xorBlocks_corrupt {w : Nat} (hw : 0 < w) (inp out : List Byte) (hl : out.length < w * (inp.length / w)) :
    xorBlocks w inp out = corrupt := by
  have hle : w * (inp.length / w) ≤ inp.length := Nat.mul_div_le _ _
  have hlo : w * (out.length / w) ≤ out.length := Nat.mul_div_le _ _
  have hlt : out.length < w * (out.length / w) + w := by
    have := Nat.mod_lt out.length hw
    have := Nat.div_add_mod out.length w
    omega
  have hk0 : out.length / w < inp.length / w := by
    by_contra h
    have : w * (inp.length / w) ≤ w * (out.length / w) := Nat.mul_le_mul_left w (by omega)
    omega
  unfold xorBlocks
  refine forUp_fail (k := out.length / w) hk0 (fun k => filled (xorAt inp out) out (w * k)) (by simp) ?_ ?_ (by simp)
  · intro k hk
    have hk1 : w * (k + 1) ≤ w * (out.length / w) := Nat.mul_le_mul_left w (by omega)
    rw [Nat.mul_succ] at hk1
    have hk' : w * k + w ≤ inp.length := by omega
    rw [asmLoad, if_pos (by omega), ok_bind, asmLoad, if_pos (by rw [length_filled (by omega)]; omega), ok_bind,
      drop_filled, window_eq hk', window_eq (l := out) (by omega), zipWith_range, asmStore, if_pos]
    · exact congrArg ok ((writeAt_filled (xorAt inp out) out (w * k) w _ rfl (by omega)).trans (by rw [Nat.mul_succ]))
    · rw [length_filled (by omega)]; simp; omega
  · have hk1 : w * (out.length / w + 1) ≤ w * (inp.length / w) := Nat.mul_le_mul_left w (by omega)
    rw [Nat.mul_succ] at hk1
    rw [asmLoad, if_pos (by omega), ok_bind, asmLoad, if_neg (by rw [length_filled (by omega)]; omega)]
    rfl

theorem xorTail_eq (d : Nat) (inp out : List Byte) (hd : d ≤ inp.length) (hl : inp.length ≤ out.length) :
    xorTail d inp (filled (xorAt inp out) out d) = ok (filled (xorAt inp out) out inp.length) := by
  unfold xorTail
  have e : inp.length = d + (inp.length - d) := by omega
  rw [forUp_eq (fun i => filled (xorAt inp out) out (d + i)) (by simp)]
  · rw [← e]
  · intro i hi
    have h1 : d + i < inp.length := by omega
    have h2 : d + i < out.length := by omega
    rw [idx_ok (by omega), ok_bind, idx_filled (by omega), ok_bind, setIdx_filled (by omega), Nat.add_assoc]
    simp [xorAt, List.getD_eq_getElem?_getD, List.getElem?_eq_getElem h1, List.getElem?_eq_getElem h2,
      BitVec.xor_comm]

theorem addVectorArm64_le {a b : List Byte} (hl : a.length ≤ b.length) :
    addVectorArm64 a b = ok (filled (xorAt a b) b a.length) := by
  unfold addVectorArm64 addVectorArm64With; simp only [blocks]
  have hle : 32 * (a.length / 32) ≤ a.length := Nat.mul_div_le _ _
  rw [xorBlocks_eq (by omega) a b (by omega)]
  simp only [Outcome.pure_eq, ok_bind, shift5]
  change (if 0 < a.length - 32 * (a.length / 32) then xorTail (32 * (a.length / 32)) a _ else _) = _
  split
  · rw [xorTail_eq _ _ _ hle (by omega)]
  · have : 32 * (a.length / 32) = a.length := by omega
    rw [this]

theorem addVectorArm64_eq {a b : List Byte} (hl : a.length = b.length) :
    addVectorArm64 a b = ok (xorBytes a b) := by
  rw [addVectorArm64_le (by omega), xorAt_all _ _ hl]

theorem xorAt_drop (a b : List Byte) (d : Nat) :
    xorAt (a.drop d) (b.drop d) = fun i => xorAt a b (d + i) := by
  funext i
  simp [xorAt, List.getD_eq_getElem?_getD, List.getElem?_drop]

theorem addVectorAmd64_le (cpu : Cpu) {a b : List Byte} (hl : a.length ≤ b.length) :
    addVectorAmd64 cpu a b = ok (filled (xorAt a b) b a.length) := by
  unfold addVectorAmd64 addVectorAmd64With; simp only [blocks]
  simp only [Outcome.pure_eq]
  split
  · have step1 : ∃ d, d ≤ a.length ∧
        (if bigSwitchover ≤ a.length then do
          let o ← xorBlocks 64 a b
          (ok ((a.length >>> 6) <<< 6, o) : Outcome (Nat × List Byte))
        else ok (0, b)) = ok (d, filled (xorAt a b) b d) := by
      split
      · refine ⟨64 * (a.length / 64), Nat.mul_div_le _ _, ?_⟩
        rw [xorBlocks_eq (by omega) a b (le_trans (Nat.mul_div_le _ _) hl), ok_bind, shift6]
      · exact ⟨0, by omega, by simp⟩
    obtain ⟨d, hd, e1⟩ := step1
    rw [e1, ok_bind, slice_ok hd (le_refl _), ok_bind]
    rw [slice_ok (by rw [length_filled (by omega)]; omega) (le_refl _), ok_bind, length_filled (by omega),
      drop_filled]
    have ta : ((a.drop d).take (a.length - d)) = a.drop d := by
      rw [List.take_of_length_le (by simp)]
    have tb : ((b.drop d).take (b.length - d)) = b.drop d := by
      rw [List.take_of_length_le (by simp)]
    simp only [ta, tb]
    have step2 : ∃ d', d' ≤ a.length ∧
        (if 16 ≤ (a.drop d).length then do
          let o ← xorBlocks 16 (a.drop d) (b.drop d)
          (ok (d + (((a.drop d).length >>> 4) <<< 4), writeAt (filled (xorAt a b) b d) d o) : Outcome (Nat × List Byte))
        else ok (d, filled (xorAt a b) b d)) = ok (d', filled (xorAt a b) b d') := by
      split
      · have hle : 16 * ((a.drop d).length / 16) ≤ (a.drop d).length := Nat.mul_div_le _ _
        have hle2 : d + 16 * ((a.drop d).length / 16) ≤ a.length := by
          have : (a.drop d).length = a.length - d := by simp
          omega
        refine ⟨d + 16 * ((a.drop d).length / 16), hle2, ?_⟩
        rw [xorBlocks_eq (by omega) _ _ (le_trans hle (by simp; omega)), ok_bind, shift4, xorAt_drop,
          filled_filled _ _ _ _ (by omega)]
      · exact ⟨d, hd, rfl⟩
    obtain ⟨d', hd', e2⟩ := step2
    rw [e2, ok_bind, slice_ok (by omega) (by rw [length_filled (by omega)]; omega), ok_bind,
      xorTail_eq _ _ _ hd' (by omega)]
  · rw [slice_ok (by omega) (by omega), ok_bind]
    have := xorTail_eq 0 a b (by omega) (by omega)
    rw [filled_zero] at this
    rw [this]

theorem addVectorAmd64_eq (cpu : Cpu) {a b : List Byte} (hl : a.length = b.length) :
    addVectorAmd64 cpu a b = ok (xorBytes a b) := by
  rw [addVectorAmd64_le cpu (by omega), xorAt_all _ _ hl]

/-! Mismatched lengths -/

theorem filled_short (a b : List Byte) (hl : a.length ≤ b.length) :
    filled (xorAt a b) b a.length = xorBytes a (b.take a.length) ++ b.drop a.length := by
  have h1 : a.length = (b.take a.length).length := by simp; omega
  have : xorBytes a (b.take a.length) = (List.range a.length).map (xorAt a b) := by
    rw [← xorAt_all _ _ h1, filled_all h1]
    apply List.map_congr_left
    intro i hi
    have hi : i < a.length := by simpa using hi
    simp [xorAt, List.getD_eq_getElem?_getD, List.getElem?_take, hi]
  rw [this]; rfl

theorem xorTail_panic {d : Nat} {inp out o : List Byte} (ho : o = filled (xorAt inp out) out d)
    (hd : d ≤ out.length) (hl : out.length < inp.length) :
    xorTail d inp o = panic := by
  subst ho
  unfold xorTail
  refine forUp_fail (k := out.length - d) (by omega) (fun i => filled (xorAt inp out) out (d + i)) (by simp) ?_ ?_
    (by simp)
  · intro i hi
    have h1 : d + i < inp.length := by omega
    have h2 : d + i < out.length := by omega
    rw [idx_ok (by omega), ok_bind, idx_filled (by omega), ok_bind, setIdx_filled (by omega), Nat.add_assoc]
    simp [xorAt, List.getD_eq_getElem?_getD, List.getElem?_eq_getElem h1, List.getElem?_eq_getElem h2,
      BitVec.xor_comm]
  · rw [idx_ok (by omega), ok_bind, idx_panic]
    · rfl
    · rw [length_filled (by omega)]; omega

theorem addVectorArm64_long {a b : List Byte} (hl : b.length < a.length) :
    addVectorArm64 a b = if b.length < 32 * (a.length / 32) then corrupt else panic := by
  unfold addVectorArm64 addVectorArm64With
  have hle : 32 * (a.length / 32) ≤ a.length := Nat.mul_div_le _ _
  by_cases h : b.length < 32 * (a.length / 32)
  · rw [if_pos h]
    simp only [blocks, xorBlocks_corrupt (by omega : 0 < 32) _ _ h]; rfl
  · rw [if_neg h]
    simp only [blocks, xorBlocks_eq (by omega : 0 < 32) a b (by omega)]
    simp only [Outcome.pure_eq, ok_bind, shift5]
    change (if 0 < a.length - 32 * (a.length / 32) then xorTail (32 * (a.length / 32)) a _ else _) = _
    rw [if_pos (by omega), xorTail_panic rfl (by omega) hl]

theorem addVectorAmd64_long (cpu : Cpu) {a b : List Byte} (hl : b.length < a.length) :
    addVectorAmd64 cpu a b = if cpu.sse2 ∧ b.length < 16 * (a.length / 16) then corrupt else panic := by
  unfold addVectorAmd64 addVectorAmd64With; simp only [blocks]
  simp only [Outcome.pure_eq]
  by_cases hs : cpu.sse2 = true
  · rw [if_pos hs]
    simp only [hs, true_and]
    by_cases h64 : bigSwitchover ≤ a.length ∧ b.length < 64 * (a.length / 64)
    · rw [if_pos h64.1, xorBlocks_corrupt (by omega) _ _ h64.2, if_pos (by omega)]; rfl
    have step1 : ∃ d, d ≤ b.length ∧ (d = 0 ∧ a.length < 128 ∨ d = 64 * (a.length / 64)) ∧
        (if bigSwitchover ≤ a.length then do
          let o ← xorBlocks 64 a b
          (ok ((a.length >>> 6) <<< 6, o) : Outcome (Nat × List Byte))
        else ok (0, b)) = ok (d, filled (xorAt a b) b d) := by
      unfold bigSwitchover at *
      split
      · refine ⟨64 * (a.length / 64), by omega, .inr rfl, ?_⟩
        rw [xorBlocks_eq (by omega) a b (by omega), ok_bind, shift6]
      · exact ⟨0, by omega, .inl ⟨rfl, by omega⟩, by simp⟩
    obtain ⟨d, hd, hdd, e1⟩ := step1
    rw [e1, ok_bind, slice_ok (by omega) (le_refl _), ok_bind]
    rw [slice_ok (by rw [length_filled (by omega)]; omega) (le_refl _), ok_bind, length_filled (by omega),
      drop_filled]
    have ta : ((a.drop d).take (a.length - d)) = a.drop d := by
      rw [List.take_of_length_le (by simp)]
    have tb : ((b.drop d).take (b.length - d)) = b.drop d := by
      rw [List.take_of_length_le (by simp)]
    simp only [ta, tb]
    have la : (a.drop d).length = a.length - d := by simp
    have lb : (b.drop d).length = b.length - d := by simp
    by_cases hc : b.length < 16 * (a.length / 16)
    · rw [if_pos hc, if_pos (by omega), xorBlocks_corrupt (by omega) _ _ (by rw [la, lb]; omega)]
      rfl
    · rw [if_neg hc]
      have step2 : ∃ d', d' ≤ b.length ∧
          (if 16 ≤ (a.drop d).length then do
            let o ← xorBlocks 16 (a.drop d) (b.drop d)
            (ok (d + (((a.drop d).length >>> 4) <<< 4), writeAt (filled (xorAt a b) b d) d o) : Outcome (Nat × List Byte))
          else ok (d, filled (xorAt a b) b d)) = ok (d', filled (xorAt a b) b d') := by
        split
        · refine ⟨d + 16 * ((a.drop d).length / 16), by omega, ?_⟩
          rw [xorBlocks_eq (by omega) _ _ (by omega), ok_bind, shift4, xorAt_drop,
            filled_filled _ _ _ _ (by omega)]
        · exact ⟨d, hd, rfl⟩
      obtain ⟨d', hd', e2⟩ := step2
      rw [e2, ok_bind]
      simp only [slice]
      rw [if_neg (by rw [length_filled (by omega)]; omega)]
      rfl
  · rw [if_neg hs, if_neg (by simp [hs])]
    simp only [slice]
    rw [if_neg (by omega)]
    rfl

theorem xorBytes_append {a b c d : List Byte} (h : a.length = b.length) :
    xorBytes (a ++ c) (b ++ d) = xorBytes a b ++ xorBytes c d := by
  unfold xorBytes; exact List.zipWith_append h

theorem xorBytes_comm (a b : List Byte) : xorBytes a b = xorBytes b a := by
  unfold xorBytes
  rw [List.zipWith_comm]
  congr 1; funext x y; exact BitVec.xor_comm _ _

theorem block32_eq (x y : List Byte) (hx : x.length = 32) (hy : 32 ≤ y.length) :
    (lePutUint64 (leUint64 ((y.drop (8 * 0)).take 8) ^^^ leUint64 ((x.drop (8 * 0)).take 8)) ++
     lePutUint64 (leUint64 ((y.drop (8 * 1)).take 8) ^^^ leUint64 ((x.drop (8 * 1)).take 8)) ++
     lePutUint64 (leUint64 ((y.drop (8 * 2)).take 8) ^^^ leUint64 ((x.drop (8 * 2)).take 8)) ++
     lePutUint64 (leUint64 ((y.drop (8 * 3)).take 8) ^^^ leUint64 ((x.drop (8 * 3)).take 8)))
      = xorBytes x (y.take 32) := by
  rw [lePutUint64_xor (by simp; omega) (by simp; omega), lePutUint64_xor (by simp; omega) (by simp; omega),
    lePutUint64_xor (by simp; omega) (by simp; omega), lePutUint64_xor (by simp; omega) (by simp; omega)]
  rw [xorBytes_comm]
  unfold xorBytes
  rw [← List.zipWith_append (by simp; omega), ← List.zipWith_append (by simp; omega),
    ← List.zipWith_append (by simp; omega)]
  have chop : ∀ l : List Byte, 32 ≤ l.length →
      (l.drop (8 * 0)).take 8 ++ (l.drop (8 * 1)).take 8 ++ (l.drop (8 * 2)).take 8 ++ (l.drop (8 * 3)).take 8
        = l.take 32 := by
    intro l _
    have e3 : l.take 32 = l.take 24 ++ (l.drop 24).take 8 := by rw [← List.take_add]
    have e2 : l.take 24 = l.take 16 ++ (l.drop 16).take 8 := by rw [← List.take_add]
    have e1 : l.take 16 = l.take 8 ++ (l.drop 8).take 8 := by rw [← List.take_add]
    rw [e3, e2, e1]; simp
  rw [chop y hy, chop x (by omega), List.take_of_length_le (l := x) (by omega)]

theorem genericLoop_eq {a b : List Byte} (hl : a.length = b.length)
    (f : Byte → Byte → Byte) (hf : ∀ x y, f x y = x ^^^ y) :
    forUp a.length (fun i b => do
      let val ← idx a i
      let bi ← idx b i
      setIdx b i (f val bi)) b = ok (xorBytes a b) := by
  rw [forUp_fill (xorAt a b) (by omega), xorAt_all _ _ hl]
  intro i hi
  have h2 : i < b.length := by omega
  rw [idx_ok hi, ok_bind, idx_filled h2, ok_bind, setIdx_filled h2]
  simp [xorAt, List.getD_eq_getElem?_getD, List.getElem?_eq_getElem hi, List.getElem?_eq_getElem h2, hf]

theorem addVectorBatchLoop_eq (a b : List Byte) (hl : a.length = b.length) :
    addVectorBatchLoop a b = ok (xorBytes a b) := by
  induction hn : b.length using Nat.strong_induction_on generalizing a b with
  | _ n ih =>
    unfold addVectorBatchLoop
    split
    · rename_i h
      rw [slice_ok (by omega) (by omega), ok_bind, slice_ok (by omega) (le_refl _), ok_bind]
      simp only [List.drop_zero, Nat.sub_zero]
      rw [List.take_of_length_le (i := a.length - 32) (by simp), ih (b.length - 32) (by omega) _ _ (by simp [hl]) (by simp),
        ok_bind]
      simp only [Outcome.pure_eq]
      rw [block32_eq _ _ (by simp; omega) h, ← xorBytes_append (by simp; omega), List.take_append_drop,
        List.take_append_drop]
    · have := genericLoop_eq hl (fun x y => y ^^^ x) (fun x y => BitVec.xor_comm _ _)
      exact this

theorem addVectorBatchGeneric_eq {a b : List Byte} (hl : a.length = b.length) :
    addVectorBatchGeneric a b = ok (xorBytes a b) := by
  unfold addVectorBatchGeneric
  rw [if_neg (by simpa using hl), addVectorBatchLoop_eq _ _ hl]

theorem addVectorGeneric_eq {a b : List Byte} (hl : a.length = b.length) :
    addVectorGeneric a b = ok (xorBytes a b) := by
  unfold addVectorGeneric
  rw [if_neg (by simpa using hl)]
  split
  · exact addVectorBatchGeneric_eq hl
  · exact genericLoop_eq hl galAdd (fun _ _ => rfl)

/-- `AddVector` on every build. -/
theorem addVector_eq (arch : Arch) {a b : List Byte} (hl : a.length = b.length) :
    addVector arch a b = ok (xorBytes a b) := by
  cases arch
  · exact addVectorAmd64_eq _ hl
  · exact addVectorArm64_eq hl
  · exact addVectorGeneric_eq hl

end Verif.Proofs
