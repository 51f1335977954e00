import Verif.Proofs.AsmCalls

/-! # C05, C06, C07, C51: the assembly itself

The routines of galois/vector_amd64.s and vector_arm64.s, executed instruction by instruction (`Verif.Model.Asm`), for every
length, every placement of the slices in memory (in particular every alignment) and every initial content of the registers. -/

namespace Verif.Props
open Verif Outcome Galois Spec Proofs Asm

/-- C05 with the assembly executed: on every build and at all addresses `MulConstVector(c, in)` returns the elementwise
products; the assembly does not fault and does not access memory outside of its slices. -/
theorem C05_machine (arch : Arch) (c : Byte) (a : List Byte) (p : Place) (hp : Valid p a.length a.length) :
    ∃ out, mulConstVectorOn p arch c a = ok out ∧ out.length = a.length ∧
      ∀ i, (h : i < a.length) → out[i]? = some (galMultiply c a[i]) := by
  refine ⟨_, (mulConstVectorOn_eq hp arch c).trans (mulConstVector_eq arch c a), by simp, fun i h => ?_⟩
  rw [List.getElem?_map, List.getElem?_eq_getElem h, galMultiply_eq]; rfl

/-- C06 with the assembly executed: `AddVector` of vectors of equal length returns the elementwise xor. -/
theorem C06_machine (arch : Arch) (a b : List Byte) (hl : a.length = b.length) (p : Place)
    (hp : Valid p a.length b.length) :
    ∃ out, addVectorOn p arch a b = ok out ∧ out.length = a.length ∧
      ∀ i, (h : i < a.length) → out[i]? = some (galAdd a[i] (b[i]'(hl ▸ h))) := by
  refine ⟨_, (addVectorOn_eq hp arch).trans (addVector_eq arch hl), by simp [xorBytes, hl], fun i h => ?_⟩
  have h' : i < b.length := hl ▸ h
  unfold xorBytes
  rw [List.getElem?_eq_getElem (by simp; omega)]
  simp [galAdd]

/-- C07 with the assembly executed: a first vector that is longer than the second one by a block makes the
assembly access memory behind the second vector (`corrupt`), and anything else longer panics. -/
theorem C07_machine (a b : List Byte) (hl : b.length < a.length) (p : Place) (hp : Valid p a.length b.length) :
    addVectorOn p .arm64 a b = (if b.length < 32 * (a.length / 32) then corrupt else panic) ∧
    (∀ cpu, addVectorOn p (.amd64 cpu) a b =
      if cpu.sse2 = true ∧ b.length < 16 * (a.length / 16) then corrupt else panic) ∧
    addVectorOn p .noasm a b = panic := by
  refine ⟨(addVectorOn_eq hp _).trans (addVectorArm64_long hl), fun cpu =>
    (addVectorOn_eq hp _).trans (addVectorAmd64_long cpu hl), ?_⟩
  simp [addVectorOn, addVectorGeneric, show a.length ≠ b.length by omega]

/-- A placement: tables at 16-byte boundaries, `in` at an odd address, `out` 7 bytes behind it; arbitrary registers. -/
def anywhere (regs : Nat → Nat → State) (n : Nat) : Place :=
  { low := 0x1000, high := 0x1010, inp := 0x1021, out := 0x1021 + n + 7, regs := regs, fuel := n + 4 }

theorem anywhere_valid (regs : Nat → Nat → State) {n m : Nat} (hn : n < 2 ^ 40) (hm : m < 2 ^ 40) :
    Valid (anywhere regs n) n m := by
  constructor <;> simp only [anywhere, NoOverlap] <;> omega

example (regs : Nat → Nat → State) (c : Byte) (a : List Byte) (ha : a.length = 200) :
    ∃ out, mulConstVectorOn (anywhere regs 200) (.amd64 ⟨true, true, true⟩) c a = ok out ∧
      out[199]? = some (galMultiply c a[199]) := by
  obtain ⟨out, h1, _, h3⟩ := C05_machine (.amd64 ⟨true, true, true⟩) c a (anywhere regs 200)
    (by rw [ha]; exact anywhere_valid regs (by omega) (by omega))
  exact ⟨out, h1, h3 199 (by omega)⟩

/-- A 32-byte first vector and a 31-byte second one: the bytes behind the second one are overwritten. -/
example (regs : Nat → Nat → State) (a b : List Byte) (ha : a.length = 32) (hb : b.length = 31) :
    addVectorOn (anywhere regs 32) .arm64 a b = corrupt := by
  have := (C07_machine a b (by omega) (anywhere regs 32) (by rw [ha]; exact anywhere_valid regs (by omega) (by omega))).1
  rwa [if_pos (by rw [ha, hb]; decide)] at this

/-- What a call of a fused routine needs (the same as `Valid`). -/
def FusedPlace (low high pin pout : Nat) (inp out : List Byte) (fuel : Nat) : Prop :=
  ∃ regs, Valid ⟨low, high, pin, pout, regs, fuel⟩ inp.length out.length ∧ inp.length ≤ out.length

/-- The documented result (vector_amd64.go:55-61): `out[n] ^= c * in[n]`, for the blocks of `w` bytes that `in` has in full. -/
def fusedResult (w : Nat) (c : Byte) (inp out : List Byte) : List Byte :=
  (List.range out.length).map fun i =>
    if i < w * (inp.length / w) then galMultiply c (inp.getD i 0) ^^^ out.getD i 0 else out.getD i 0

theorem fused_filled {w : Nat} {c : Byte} {inp out : List Byte} (hl : inp.length ≤ out.length) :
    filled (fun i => nibbleMul (mulTableLow c) (mulTableHigh c) (inp.getD i 0) ^^^ out.getD i 0) out (w * (inp.length / w))
      = fusedResult w c inp out := by
  have hle : w * (inp.length / w) ≤ out.length := le_trans (Nat.mul_div_le _ _) hl
  apply List.ext_getElem?
  intro k
  rw [getElem?_filled hle, fusedResult, List.getElem?_map]
  by_cases hk : k < out.length
  · rw [List.getElem?_range hk, Option.map_some]
    by_cases hk' : k < w * (inp.length / w)
    · simp only [hk', if_true]
      rw [nibbleMul_eq, galMultiply_eq]
    · simp only [hk', if_false]
      rw [List.getD_eq_getElem?_getD, List.getElem?_eq_getElem hk]; rfl
  · rw [List.getElem?_eq_none (l := List.range _) (by simpa using hk), if_neg (by omega), List.getElem?_eq_none (by omega)]; rfl

theorem fused_placed (c : Byte) {low high pin pout : Nat} {inp out : List Byte} {fuel : Nat}
    (h : FusedPlace low high pin pout inp out fuel) :
    PlacedMul ⟨low, mulTableLow c⟩ ⟨high, mulTableHigh c⟩ ⟨pin, inp⟩ ⟨pout, out⟩ := by
  obtain ⟨regs, hv, hl⟩ := h
  have l1 := mulTableLow_length c
  have l2 := mulTableHigh_length c
  obtain ⟨v1, v2, v3, v4, v5, v6, v7, v8, v9, v10, v11, v12⟩ := hv
  unfold NoOverlap at v1 v2 v3 v4 v5 v6
  simp only at v1 v2 v3 v4 v5 v6 v7 v8 v9 v10
  refine ⟨⟨?_, ?_, ?_, by simp, ?_⟩, l1, l2⟩
  · simp only [List.cons_append, List.nil_append, List.pairwise_cons, List.mem_cons, List.not_mem_nil, or_false,
      forall_eq_or_imp, forall_eq, Apart, l1, l2]
    refine ⟨⟨?_, ?_, ?_⟩, ⟨?_, ?_⟩, ?_, by simp, List.Pairwise.nil⟩ <;> omega
  · simp only [List.cons_append, List.nil_append, List.mem_cons, List.not_mem_nil, or_false,
      forall_eq_or_imp, forall_eq, l1, l2]
    refine ⟨?_, ?_, ?_, ?_⟩ <;> omega
  · simp only [List.cons_append, List.nil_append, List.mem_cons, List.not_mem_nil, or_false,
      forall_eq_or_imp, forall_eq, l1, l2]
    refine ⟨?_, ?_, ?_, ?_⟩ <;> omega
  · simp only [Apart]; omega

/-- C51: the fused multiply-and-add routines compute `out[n] ^= c * in[n]`, on every placement, and touch nothing else. -/
theorem C51_fused (c : Byte) (low high pin pout : Nat) (inp out : List Byte) (fuel : Nat) (init : State)
    (h : FusedPlace low high pin pout inp out fuel) :
    call Routines.galMulSSSE3Xor fuel init [⟨low, mulTableLow c⟩, ⟨high, mulTableHigh c⟩, ⟨pin, inp⟩] ⟨pout, out⟩ =
      ok (fusedResult 16 c inp out) ∧
    call Routines.galMulAVX2Xor fuel init [⟨low, mulTableLow c⟩, ⟨high, mulTableHigh c⟩, ⟨pin, inp⟩] ⟨pout, out⟩ =
      ok (fusedResult 32 c inp out) ∧
    call Routines.galMulAVX2Xor_64 fuel init [⟨low, mulTableLow c⟩, ⟨high, mulTableHigh c⟩, ⟨pin, inp⟩] ⟨pout, out⟩ =
      ok (fusedResult 64 c inp out) ∧
    call Routines.galMulXorNEON fuel init [⟨low, mulTableLow c⟩, ⟨high, mulTableHigh c⟩, ⟨pin, inp⟩] ⟨pout, out⟩ =
      ok (fusedResult 32 c inp out) := by
  have hp := fused_placed c h
  obtain ⟨regs, hv, hl⟩ := h
  have hf : ∀ w, inp.length / w + 4 ≤ fuel := fun w =>
    le_trans (Nat.add_le_add_right (Nat.div_le_self _ _) 4) hv.fuel
  have hn : ∀ w, w * (inp.length / w) ≤ out.length := fun w => le_trans (Nat.mul_div_le _ _) hl
  exact ⟨(ssse3Xor_call hp (hn 16) init (hf 16)).trans (congrArg ok (fused_filled hl)),
    (avx2Xor_call hp (hn 32) init (hf 32)).trans (congrArg ok (fused_filled hl)),
    (avx2Xor_64_call hp (hn 64) init (hf 64)).trans (congrArg ok (fused_filled hl)),
    (neonXor_call hp (hn 32) init (hf 32)).trans (congrArg ok (fused_filled hl))⟩

example (x y : Byte) : FusedPlace 0x1000 0x1010 0x1021 0x1100 (List.replicate 100 x) (List.replicate 101 y) 104 :=
  ⟨fun _ _ => ⟨fun _ => 0, fun _ _ => 0, false, false, fun _ => 0, fun _ => false, fun _ => false, fun _ => 0⟩, by
    constructor <;> simp only [NoOverlap, List.length_replicate] <;> omega, by simp⟩

example (regs : Nat → Nat → State) (a b : List Byte) (ha : a.length = 200) (hb : b.length = 200) :
    ∃ out, addVectorOn (anywhere regs 200) (.amd64 ⟨true, false, false⟩) a b = ok out ∧
      out[199]? = some (galAdd a[199] b[199]) := by
  obtain ⟨out, h1, _, h3⟩ := C06_machine (.amd64 ⟨true, false, false⟩) a b (by omega) (anywhere regs 200)
    (by rw [ha, hb]; exact anywhere_valid regs (by omega) (by omega))
  exact ⟨out, h1, h3 199 (by omega)⟩

/-- C51: 100 bytes, of which the AVX2 routine handles the first 96. -/
example (init : State) (c x y : Byte) :
    call Routines.galMulAVX2Xor 104 init [⟨0x1000, mulTableLow c⟩, ⟨0x1010, mulTableHigh c⟩, ⟨0x1021, List.replicate 100 x⟩]
      ⟨0x1100, List.replicate 101 y⟩ = ok (fusedResult 32 c (List.replicate 100 x) (List.replicate 101 y)) :=
  (C51_fused c _ _ _ _ _ _ _ init
    ⟨fun _ _ => ⟨fun _ => 0, fun _ _ => 0, false, false, fun _ => 0, fun _ => false, fun _ => false, fun _ => 0⟩, by
      constructor <;> simp only [NoOverlap, List.length_replicate] <;> omega, by simp⟩).2.1

end Verif.Props
