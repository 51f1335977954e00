import Verif.Proofs.Vector

/-! # C05–C07: the vector routines

`Arch` ranges over the builds: amd64 with any combination of CPU features, arm64, and pure Go. -/

namespace Verif.Props
open Verif Outcome Galois Spec Proofs

/-- C05: on every build `MulConstVector(c,in)` returns the elementwise products; it neither panics nor
accesses memory outside of its slices. -/
theorem C05_mulConstVector (arch : Arch) (c : Byte) (a : List Byte) :
    ∃ out, mulConstVector arch c a = ok out ∧ out.length = a.length ∧
      ∀ i, (h : i < a.length) → out[i]? = some (galMultiply c a[i]) := by
  refine ⟨_, mulConstVector_eq arch c a, by simp, fun i h => ?_⟩
  rw [List.getElem?_map, List.getElem?_eq_getElem h, galMultiply_eq]; rfl

/-- C06: on every build `AddVector` of vectors of equal length returns the elementwise xor; it neither
panics nor accesses memory outside of its slices. -/
theorem C06_addVector (arch : Arch) (a b : List Byte) (hl : a.length = b.length) :
    ∃ out, addVector arch a b = ok out ∧ out.length = a.length ∧
      ∀ i, (h : i < a.length) → out[i]? = some (galAdd a[i] (b[i]'(hl ▸ h))) := by
  refine ⟨_, addVector_eq arch hl, by simp [xorBytes, hl], fun i h => ?_⟩
  have h' : i < b.length := hl ▸ h
  unfold xorBytes
  rw [List.getElem?_eq_getElem (by simp; omega)]
  simp [galAdd]

/-- C06: so do the exported generic and batch versions. -/
theorem C06_addVector_generic (a b : List Byte) (hl : a.length = b.length) :
    addVectorGeneric a b = ok (List.zipWith galAdd a b) ∧ addVectorBatchGeneric a b = ok (List.zipWith galAdd a b) :=
  ⟨addVectorGeneric_eq hl, addVectorBatchGeneric_eq hl⟩

/-- C05: so does the exported generic version. -/
theorem C05_mulConstVector_generic (c : Byte) (a : List Byte) :
    mulConstVectorGeneric c a = ok (a.map (galMultiply c)) := by
  rw [mulConstVectorGeneric_eq]
  congr 1
  exact List.map_congr_left fun x _ => (galMultiply_eq c x).symm

example : ∃ cpu : Cpu, cpu.avx2 = false ∧ cpu.ssse3 = true := ⟨⟨true, true, false⟩, rfl, rfl⟩

/-- C07 holds in the pure-Go build: vectors of different length make `AddVector` panic. -/
theorem C07_noasm_panics (a b : List Byte) (hl : a.length ≠ b.length) : addVector .noasm a b = panic := by
  simp [addVector, addVectorGeneric, hl]

/-- C07 is violated on arm64: when the first vector is longer and one of its 32-byte blocks does not fit
in the second one the assembly accesses memory behind the second vector; otherwise the scalar tail
panics. -/
theorem C07_arm64_mismatch (a b : List Byte) (hl : b.length < a.length) :
    (b.length < 32 * (a.length / 32) → addVector .arm64 a b = corrupt) ∧
    (32 * (a.length / 32) ≤ b.length → addVector .arm64 a b = panic) := by
  refine ⟨fun h => ?_, fun h => ?_⟩
  · exact (addVectorArm64_long hl).trans (if_pos h)
  · exact (addVectorArm64_long hl).trans (if_neg (by omega))

/-- C07 is violated on amd64: the same with 16-byte blocks on CPUs with SSE2; without SSE2 it panics. -/
theorem C07_amd64_mismatch (cpu : Cpu) (a b : List Byte) (hl : b.length < a.length) :
    (cpu.sse2 = true → b.length < 16 * (a.length / 16) → addVector (.amd64 cpu) a b = corrupt) ∧
    (cpu.sse2 = false ∨ 16 * (a.length / 16) ≤ b.length → addVector (.amd64 cpu) a b = panic) := by
  refine ⟨fun h1 h => ?_, fun h => ?_⟩
  · exact (addVectorAmd64_long cpu hl).trans (if_pos ⟨h1, h⟩)
  · refine (addVectorAmd64_long cpu hl).trans (if_neg ?_)
    rintro ⟨h1, h2⟩
    rcases h with h | h
    · rw [h] at h1; cases h1
    · omega

/-- C07 is violated by both assembly builds when the first vector is shorter: the call returns normally,
with the tail of the second vector left as it was. -/
theorem C07_asm_short (a b : List Byte) (hl : a.length ≤ b.length) :
    addVector .arm64 a b = ok (List.zipWith galAdd a (b.take a.length) ++ b.drop a.length) ∧
    ∀ cpu, addVector (.amd64 cpu) a b = ok (List.zipWith galAdd a (b.take a.length) ++ b.drop a.length) :=
  ⟨(addVectorArm64_le hl).trans (congrArg ok (filled_short a b hl)),
   fun cpu => (addVectorAmd64_le cpu hl).trans (congrArg ok (filled_short a b hl))⟩

example : addVector .arm64 (List.replicate 32 1) (List.replicate 31 1) = corrupt :=
  (C07_arm64_mismatch _ _ (by simp)).1 (by simp)
example : addVector (.amd64 ⟨true, true, true⟩) (List.replicate 16 1) (List.replicate 15 1) = corrupt :=
  (C07_amd64_mismatch _ _ _ (by simp)).1 rfl (by simp)
example : addVector .arm64 [1] [2, 3] = ok [3, 3] := (C07_asm_short [1] [2, 3] (by simp)).1

example : addVector .noasm [1, 2] [3] = panic := C07_noasm_panics _ _ (by decide)
example : ∃ out, addVector (.amd64 ⟨true, true, true⟩) (List.replicate 33 5) (List.replicate 33 3) = ok out ∧ out.length = 33 := by
  obtain ⟨out, h1, h2, -⟩ := C06_addVector (.amd64 ⟨true, true, true⟩) (List.replicate 33 5) (List.replicate 33 3) (by simp)
  exact ⟨out, h1, by simpa using h2⟩
example : addVectorBatchGeneric [1, 2, 3] [4, 5, 6] = ok [5, 7, 5] := (C06_addVector_generic [1, 2, 3] [4, 5, 6] rfl).2

end Verif.Props
