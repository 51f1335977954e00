import Verif.Spec.Asm
import Verif.Proofs.AsmOverrun

/-! # The vector functions on the machine agree with the block-loop model -/

namespace Verif.Proofs
open Verif Outcome Asm Galois Spec

theorem bind_congr_ok {α β : Type} {x : Outcome α} {f g : α → Outcome β} (h : ∀ a, x = ok a → f a = g a) :
    (x >>= f) = (x >>= g) := by
  cases x <;> first | exact h _ rfl | rfl

theorem galMulBlocks_length {w : Nat} (hw : 0 < w) {c : Byte} {inp out o : List Byte} (hl : inp.length ≤ out.length)
    (h : galMulBlocks w (mulTableLow c) (mulTableHigh c) inp out = ok o) : o.length = out.length := by
  rw [galMulBlocks_eq hw c inp out hl, ok.injEq] at h
  subst h
  exact length_filled (le_trans (Nat.mul_div_le _ _) hl)

theorem xorBlocks_length {w : Nat} (hw : 0 < w) {inp out o : List Byte}
    (h : xorBlocks w inp out = ok o) : o.length = out.length := by
  by_cases hl : w * (inp.length / w) ≤ out.length
  · rw [xorBlocks_eq hw inp out hl, ok.injEq] at h
    subst h
    exact length_filled hl
  · rw [xorBlocks_corrupt hw inp out (by omega)] at h
    cases h

theorem slice_drop {α : Type} {l l' : List α} {d e : Nat} (h : slice l d e = ok l') (he : e = l.length) :
    l' = l.drop d ∧ d ≤ l.length := by
  subst he
  unfold slice at h
  split at h
  · rename_i hd
    cases h
    exact ⟨by rw [List.take_of_length_le (by simp)], hd.1⟩
  · cases h

/-- Kernels that agree with the block loops on the calls `MulConstVector(c, a)` makes. -/
def MulAgree (k : Kernels) (c : Byte) (a : List Byte) : Prop :=
  ∀ w d out, (w = 16 ∨ w = 32 ∨ w = 64) → d ≤ a.length → out.length = a.length - d →
    k.mul w d (mulTableLow c) (mulTableHigh c) (a.drop d) out =
      galMulBlocks w (mulTableLow c) (mulTableHigh c) (a.drop d) out

/-- Kernels that agree with the block loops on the calls `AddVector(a, b)` makes. -/
def XorAgree (k : Kernels) (a b : List Byte) : Prop :=
  ∀ w d out, (w = 16 ∨ w = 64) → d ≤ a.length → d ≤ b.length → out.length = b.length - d →
    k.xor w d (a.drop d) out = xorBlocks w (a.drop d) out

theorem mulAmd64_agree {k : Kernels} {c : Byte} {a : List Byte} (h : MulAgree k c a) (cpu : Cpu) :
    mulConstVectorAmd64With k cpu c a = mulConstVectorAmd64 cpu c a := by
  unfold mulConstVectorAmd64 mulConstVectorAmd64With
  have h64 := h 64 0 (List.replicate a.length 0) (by omega) (by omega) (by simp)
  have h16 := h 16 0 (List.replicate a.length 0) (by omega) (by omega) (by simp)
  rw [List.drop_zero] at h64 h16
  simp only [h64, h16]
  show ite _ _ _ = ite _ _ _
  split
  · rfl
  split
  · apply bind_congr_ok
    rintro ⟨d, o⟩ ho
    have hol : o.length = a.length := by
      split at ho
      · obtain ⟨o', ho', e⟩ := bind_eq_ok.mp ho
        cases e
        exact (galMulBlocks_length (by omega) (by simp) ho').trans (by simp)
      · cases ho; simp
    apply bind_congr_ok
    intro in1 hi
    obtain ⟨rfl, hd⟩ := slice_drop hi rfl
    apply bind_congr_ok
    intro out1 hout
    obtain ⟨rfl, hd'⟩ := slice_drop hout rfl
    simp only [h 32 d (o.drop d) (by omega) hd (by simp [hol])]
    rfl
  · rfl

theorem addAmd64_agree {k : Kernels} {a b : List Byte} (h : XorAgree k a b) (cpu : Cpu) :
    addVectorAmd64With k cpu a b = addVectorAmd64 cpu a b := by
  unfold addVectorAmd64 addVectorAmd64With
  have h64 := h 64 0 b (by omega) (by omega) (by omega) (by simp)
  rw [List.drop_zero] at h64
  simp only [h64]
  split
  · apply bind_congr_ok
    rintro ⟨d, o⟩ ho
    have hol : o.length = b.length := by
      split at ho
      · obtain ⟨o', ho', e⟩ := bind_eq_ok.mp ho
        cases e
        exact xorBlocks_length (by omega) ho'
      · cases ho; rfl
    apply bind_congr_ok
    intro in1 hi
    obtain ⟨rfl, hd⟩ := slice_drop hi rfl
    apply bind_congr_ok
    intro out1 hout
    obtain ⟨rfl, hd'⟩ := slice_drop hout rfl
    have hd2 : d ≤ o.length := hd'
    simp only [h 16 d (o.drop d) (by omega) hd (by omega) (by simp [hol])]
    rfl
  · rfl

theorem mulTableLow_length (c : Byte) : (mulTableLow c).length = 16 := by simp [mulTableLow, rowBytes]
theorem mulTableHigh_length (c : Byte) : (mulTableHigh c).length = 16 := by simp [mulTableHigh, rowBytes]

theorem placed_mul {p : Place} {n : Nat} (hv : Valid p n n) (c : Byte) {a : List Byte} (ha : a.length = n) {d : Nat}
    (hd : d ≤ n) {out : List Byte} (ho : out.length = n - d) :
    PlacedMul ⟨p.low, mulTableLow c⟩ ⟨p.high, mulTableHigh c⟩ ⟨p.inp + d, a.drop d⟩ ⟨p.out + d, out⟩ := by
  have l1 := mulTableLow_length c
  have l2 := mulTableHigh_length c
  have l3 : (a.drop d).length = n - d := by rw [List.length_drop, ha]
  obtain ⟨v1, v2, v3, v4, v5, v6, v7, v8, v9, v10, v11, v12⟩ := hv
  unfold NoOverlap at v1 v2 v3 v4 v5 v6
  refine ⟨⟨?_, ?_, ?_, by simp, ?_⟩, l1, l2⟩
  · simp only [List.cons_append, List.nil_append, List.pairwise_cons, List.mem_cons, List.not_mem_nil, or_false,
      forall_eq_or_imp, forall_eq, Apart, l1, l2, l3, ho]
    refine ⟨⟨?_, ?_, ?_⟩, ⟨?_, ?_⟩, ?_, by simp, List.Pairwise.nil⟩ <;> omega
  · simp only [List.cons_append, List.nil_append, List.mem_cons, List.not_mem_nil, or_false,
      forall_eq_or_imp, forall_eq, l1, l2, l3, ho]
    refine ⟨?_, ?_, ?_, ?_⟩ <;> omega
  · simp only [List.cons_append, List.nil_append, List.mem_cons, List.not_mem_nil, or_false,
      forall_eq_or_imp, forall_eq, l1, l2, l3, ho]
    refine ⟨?_, ?_, ?_, ?_⟩ <;> omega
  · simp only [Apart, l3, ho]; omega

theorem placed_xor {p : Place} {n m : Nat} (hv : Valid p n m) {a : List Byte} (ha : a.length = n) {d : Nat}
    (hd : d ≤ n) (hd' : d ≤ m) {out : List Byte} (ho : out.length = m - d) :
    Placed [⟨p.inp + d, a.drop d⟩] ⟨p.inp + d, a.drop d⟩ ⟨p.out + d, out⟩ := by
  have l3 : (a.drop d).length = n - d := by rw [List.length_drop, ha]
  obtain ⟨v1, v2, v3, v4, v5, v6, v7, v8, v9, v10, v11, v12⟩ := hv
  unfold NoOverlap at v1 v2 v3 v4 v5 v6
  refine ⟨?_, ?_, ?_, by simp, ?_⟩
  · simp only [List.cons_append, List.nil_append, List.pairwise_cons, List.mem_cons, List.not_mem_nil, or_false,
      forall_eq, Apart, l3, ho]
    refine ⟨?_, by simp, List.Pairwise.nil⟩; omega
  · simp only [List.cons_append, List.nil_append, List.mem_cons, List.not_mem_nil, or_false,
      forall_eq_or_imp, forall_eq, l3, ho]
    refine ⟨?_, ?_⟩ <;> omega
  · simp only [List.cons_append, List.nil_append, List.mem_cons, List.not_mem_nil, or_false,
      forall_eq_or_imp, forall_eq, l3, ho]
    refine ⟨?_, ?_⟩ <;> omega
  · simp only [Apart, l3, ho]; omega

theorem nibble_fill (c : Byte) (inp out : List Byte) (d : Nat) :
    filled (fun i => nibbleMul (mulTableLow c) (mulTableHigh c) (inp.getD i 0)) out d = filled (mulAt c inp) out d := by
  congr 1; funext i; exact nibbleMul_eq _ _

theorem amd64_mulAgree {p : Place} {c : Byte} {a : List Byte} (hv : Valid p a.length a.length) :
    MulAgree (amd64Kernels p) c a := by
  intro w d out hw hd ho
  have hp := placed_mul hv c rfl hd ho
  have l3 : (a.drop d).length = a.length - d := by rw [List.length_drop]
  have hf := hv.fuel
  rcases hw with rfl | rfl | rfl
  · rw [galMulBlocks_eq (by omega) _ _ _ (by omega)]
    exact (ssse3_call hp (le_trans (Nat.mul_div_le _ _) (by show (a.drop d).length ≤ out.length; omega)) _
      (le_trans (Nat.add_le_add_right (Nat.div_le_self _ _) 4) (by show (a.drop d).length + 4 ≤ p.fuel; omega))).trans (congrArg ok (nibble_fill _ _ _ _))
  · rw [galMulBlocks_eq (by omega) _ _ _ (by omega)]
    exact (avx2_call hp (le_trans (Nat.mul_div_le _ _) (by show (a.drop d).length ≤ out.length; omega)) _
      (le_trans (Nat.add_le_add_right (Nat.div_le_self _ _) 4) (by show (a.drop d).length + 4 ≤ p.fuel; omega))).trans (congrArg ok (nibble_fill _ _ _ _))
  · rw [galMulBlocks_eq (by omega) _ _ _ (by omega)]
    exact (avx2_64_call hp (le_trans (Nat.mul_div_le _ _) (by show (a.drop d).length ≤ out.length; omega)) _
      (le_trans (Nat.add_le_add_right (Nat.div_le_self _ _) 4) (by show (a.drop d).length + 4 ≤ p.fuel; omega))).trans (congrArg ok (nibble_fill _ _ _ _))

/-- arm64: width 32 only. -/
theorem arm64_mul {p : Place} {c : Byte} {a : List Byte} (hv : Valid p a.length a.length) :
    mulConstVectorArm64With (arm64Kernels p) c a = mulConstVectorArm64 c a := by
  unfold mulConstVectorArm64 mulConstVectorArm64With
  have hp := placed_mul hv c rfl (Nat.zero_le _) (out := List.replicate a.length 0) (by simp)
  have hf := hv.fuel
  rw [List.drop_zero] at hp
  have e : (arm64Kernels p).mul 32 0 (mulTableLow c) (mulTableHigh c) a (List.replicate a.length 0) =
      galMulBlocks 32 (mulTableLow c) (mulTableHigh c) a (List.replicate a.length 0) := by
    rw [galMulBlocks_eq (by omega) _ _ _ (by simp)]
    exact (neon_call hp (le_trans (Nat.mul_div_le _ _) (by simp)) _
      (le_trans (Nat.add_le_add_right (Nat.div_le_self _ _) 4) hf)).trans (congrArg ok (nibble_fill _ _ _ _))
  simp only [e]
  rfl

theorem amd64_xor {p : Place} {a b : List Byte} (hv : Valid p a.length b.length) {w d : Nat} {out : List Byte}
    (hw : w = 16 ∨ w = 64) (hd : d ≤ a.length) (hd' : d ≤ b.length) (ho : out.length = b.length - d) :
    (amd64Kernels p).xor w d (a.drop d) out = xorBlocks w (a.drop d) out := by
  have hp := placed_xor hv rfl hd hd' ho
  have l3 : (a.drop d).length = a.length - d := by rw [List.length_drop]
  have hf := hv.fuel
  have hg := hv.outGap
  have hff (w : Nat) : (a.drop d).length / w + 4 ≤ p.fuel :=
    le_trans (Nat.add_le_add_right (Nat.div_le_self _ _) 4) (by omega)
  have hb : p.out + d + (a.drop d).length < 2 ^ 64 := by omega
  rcases hw with rfl | rfl
  · by_cases hl : 16 * ((a.drop d).length / 16) ≤ out.length
    · rw [xorBlocks_eq (by omega) _ _ hl]
      exact sse2_call hp hl _ (hff 16)
    · rw [xorBlocks_corrupt (by omega) _ _ (by omega)]
      exact sse2_corrupt hp hb (by show out.length < _ * ((a.drop d).length / _); omega) _ (hff 16)
  · by_cases hl : 64 * ((a.drop d).length / 64) ≤ out.length
    · rw [xorBlocks_eq (by omega) _ _ hl]
      exact sse2_64_call hp hl _ (hff 64)
    · rw [xorBlocks_corrupt (by omega) _ _ (by omega)]
      exact sse2_64_corrupt hp hb (by show out.length < _ * ((a.drop d).length / _); omega) _ (hff 64)

theorem arm64_add {p : Place} {a b : List Byte} (hv : Valid p a.length b.length) :
    addVectorArm64With (arm64Kernels p) a b = addVectorArm64 a b := by
  unfold addVectorArm64 addVectorArm64With
  have hp := placed_xor hv rfl (Nat.zero_le _) (Nat.zero_le _) (out := b) (by simp)
  have hf := hv.fuel
  have hff : a.length / 32 + 4 ≤ p.fuel := le_trans (Nat.add_le_add_right (Nat.div_le_self _ _) 4) (by omega)
  have hg := hv.outGap
  rw [List.drop_zero] at hp
  have e : (arm64Kernels p).xor 32 0 a b = xorBlocks 32 a b := by
    by_cases hl : 32 * (a.length / 32) ≤ b.length
    · rw [xorBlocks_eq (by omega) _ _ hl]
      exact neonAdd_call hp hl _ hff
    · rw [xorBlocks_corrupt (by omega) _ _ (by omega)]
      exact neonAdd_corrupt hp (by show p.out + 0 + a.length < _; omega) (by show b.length < _ * (a.length / _); omega) _ hff
  simp only [e]
  rfl

/-- `MulConstVector`, its assembly executed on the machine. -/
theorem mulConstVectorOn_eq {p : Place} {a : List Byte} (hv : Valid p a.length a.length) (arch : Arch) (c : Byte) :
    mulConstVectorOn p arch c a = mulConstVector arch c a := by
  cases arch
  · exact mulAmd64_agree (amd64_mulAgree hv) _
  · exact arm64_mul hv
  · rfl

/-- `AddVector`, its assembly executed on the machine. -/
theorem addVectorOn_eq {p : Place} {a b : List Byte} (hv : Valid p a.length b.length) (arch : Arch) :
    addVectorOn p arch a b = addVector arch a b := by
  cases arch
  · exact addAmd64_agree (fun w d out hw hd hd' ho => amd64_xor hv hw hd hd' ho) _
  · exact arm64_add hv
  · rfl

end Verif.Proofs
