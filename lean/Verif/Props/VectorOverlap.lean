import Verif.Proofs.VectorMem

/-! # C69: `AddVector` on overlapping slices

Both arguments are slices of `n` bytes of one memory, `a` at address `pa` and `b` at address `pb`, which may overlap in any
way; the assembly is executed instruction by instruction, with any content of the registers. -/

namespace Verif.Props
open Verif Outcome Galois Spec Proofs OneMem

/-- C69, exactly: for every build, length and placement the call returns `b`, changes nothing outside of `b`, and byte `i` of `b` is
xored with the byte of `a` that was there before the call, unless that byte is a byte of `b` in an earlier block: then with its
new value. -/
theorem C69_exact (mc : Machine) (arch : Arch) (pa pb n : Nat) (hf : Fits mc pa pb n) (m : Mem) :
    ∃ m', OneMem.addVector mc arch ⟨pa, n⟩ ⟨pb, n⟩ m = ok (m', ⟨pb, n⟩) ∧
      (∀ x, ¬ (pb ≤ x ∧ x < pb + n) → m' x = m x) ∧
      ∀ i < n, m' (pb + i) =
        (if pb ≤ pa + i ∧ pa + i < pb + blockStart arch n i then m' (pa + i) else m (pa + i)) ^^^ m (pb + i) := by
  obtain ⟨m', e, g⟩ := addVector_good arch hf m
  exact ⟨m', e, g.rest, g.done⟩

/-- C69, the safe overlaps: when `b` starts at or before `a`, or behind the end of `a`, every build computes the elementwise
sum of the vectors as they were before the call. -/
theorem C69_sum (mc : Machine) (arch : Arch) (pa pb n : Nat) (hf : Fits mc pa pb n) (h : pb ≤ pa ∨ pa + n ≤ pb) (m : Mem) :
    ∃ m', OneMem.addVector mc arch ⟨pa, n⟩ ⟨pb, n⟩ m = ok (m', ⟨pb, n⟩) ∧ SumOfOld pa pb n m m' := by
  obtain ⟨m', e, g⟩ := addVector_good arch hf m
  refine ⟨m', e, fun i hi => ?_, g.rest⟩
  have := blockStart_le arch n i
  rw [g.done i hi, if_neg (by omega)]

/-- `AddVector(a, a)` sets `a` to zero. -/
theorem C69_same (mc : Machine) (arch : Arch) (pa n : Nat) (hf : Fits mc pa pa n) (m : Mem) :
    ∃ m', OneMem.addVector mc arch ⟨pa, n⟩ ⟨pa, n⟩ m = ok (m', ⟨pa, n⟩) ∧ (∀ i < n, m' (pa + i) = 0) ∧
      ∀ x, ¬ (pa ≤ x ∧ x < pa + n) → m' x = m x := by
  obtain ⟨m', e, g1, g2⟩ := C69_sum mc arch pa pa n hf (Or.inl (le_refl _)) m
  exact ⟨m', e, fun i hi => by rw [g1 i hi, BitVec.xor_self]; rfl, g2⟩

theorem width_start (arch : Arch) {n i : Nat} (hi : i < n) : i < blockStart arch n i + blockWidth arch n := by
  unfold blockStart blockWidth
  cases arch <;> simp only <;> split <;> (try split) <;> (try split) <;> (try split) <;> (try split) <;> omega

theorem first_block (arch : Arch) {n i : Nat} (hn : 0 < n) (hi : i < blockWidth arch n) : i < n ∧ blockStart arch n i = 0 := by
  unfold blockWidth at hi
  unfold blockStart
  cases arch with
  | amd64 cpu =>
    simp only at hi ⊢
    by_cases hs : cpu.sse2
    · rw [if_pos hs] at hi ⊢
      split at hi
      · exact ⟨by omega, by rw [if_pos (by omega)]; omega⟩
      · split at hi
        · exact ⟨by omega, by rw [if_neg (by omega), if_pos (by omega)]; omega⟩
        · exact ⟨by omega, by rw [if_neg (by omega), if_neg (by omega)]; omega⟩
    · rw [if_neg hs] at hi ⊢
      exact ⟨by omega, by omega⟩
  | arm64 =>
    simp only at hi ⊢
    split at hi
    · exact ⟨by omega, by rw [if_pos (by omega)]; omega⟩
    · exact ⟨by omega, by rw [if_neg (by omega)]; omega⟩
  | noasm =>
    simp only at hi ⊢
    split at hi
    · exact ⟨by omega, by rw [if_pos (by omega)]; omega⟩
    · exact ⟨by omega, by rw [if_neg (by omega)]; omega⟩

/-- C69, `b` starts inside of `a`, at least one block behind its start: every build computes what a loop over the bytes, first
to last, computes. -/
theorem C69_behind (mc : Machine) (arch : Arch) (pa pb n : Nat) (hf : Fits mc pa pb n) (h : pa < pb)
    (hw : blockWidth arch n ≤ pb - pa) (m : Mem) :
    ∃ m', OneMem.addVector mc arch ⟨pa, n⟩ ⟨pb, n⟩ m = ok (m', ⟨pb, n⟩) ∧ ByteByByte pa pb n m m' := by
  obtain ⟨m', e, g⟩ := addVector_good arch hf m
  refine ⟨m', e, fun i hi => ?_, g.rest⟩
  have := width_start arch hi
  rw [g.done i hi]
  by_cases hc : i < pb - pa
  · rw [if_neg (by omega), if_pos hc]
  · rw [if_pos (by omega), if_neg hc]

/-- The byte-by-byte result is unique. -/
theorem byteByByte_unique {pa pb n : Nat} {m m1 m2 : Mem} (h : pa < pb) (h1 : ByteByByte pa pb n m m1)
    (h2 : ByteByByte pa pb n m m2) : m1 = m2 := by
  have key : ∀ i, i < n → m1 (pb + i) = m2 (pb + i) := by
    intro i
    induction i using Nat.strong_induction_on with
    | _ i ih =>
      intro hi
      rw [h1.1 i hi, h2.1 i hi]
      by_cases hc : i < pb - pa
      · rw [if_pos hc, if_pos hc]
      · rw [if_neg hc, if_neg hc]
        have := ih (i - (pb - pa)) (by omega) (by omega)
        rw [show pa + i = pb + (i - (pb - pa)) by omega, this]
  funext x
  by_cases hx : pb ≤ x ∧ x < pb + n
  · have := key (x - pb) (by omega)
    rwa [show pb + (x - pb) = x by omega] at this
  · rw [h1.2 x hx, h2.2 x hx]

/-- C69, portability: for slices that do not overlap, overlap with `b` at or before `a`, or overlap with `b` 64 bytes or more
behind `a`, the result is the same on every build. -/
theorem C69_portable (mc mc' : Machine) (arch arch' : Arch) (pa pb n : Nat) (hf : Fits mc pa pb n) (hf' : Fits mc' pa pb n)
    (h : pb ≤ pa ∨ pa + n ≤ pb ∨ 64 ≤ pb - pa) (m : Mem) :
    OneMem.addVector mc arch ⟨pa, n⟩ ⟨pb, n⟩ m = OneMem.addVector mc' arch' ⟨pa, n⟩ ⟨pb, n⟩ m := by
  by_cases hs : pb ≤ pa ∨ pa + n ≤ pb
  · obtain ⟨m1, e1, a1, b1⟩ := C69_sum mc arch pa pb n hf hs m
    obtain ⟨m2, e2, a2, b2⟩ := C69_sum mc' arch' pa pb n hf' hs m
    have : m1 = m2 := by
      funext x
      by_cases hx : pb ≤ x ∧ x < pb + n
      · have := (a1 (x - pb) (by omega)).trans (a2 (x - pb) (by omega)).symm
        rwa [show pb + (x - pb) = x by omega] at this
      · rw [b1 x hx, b2 x hx]
    rw [e1, e2, this]
  · have w (arch : Arch) : blockWidth arch n ≤ 64 := by
      unfold blockWidth
      cases arch <;> simp only <;> split <;> (try split) <;> (try split) <;> omega
    obtain ⟨m1, e1, g1⟩ := C69_behind mc arch pa pb n hf (by omega) (le_trans (w arch) (by omega)) m
    obtain ⟨m2, e2, g2⟩ := C69_behind mc' arch' pa pb n hf' (by omega) (le_trans (w arch') (by omega)) m
    rw [e1, e2, byteByByte_unique (by omega) g1 g2]

/-- C69, the limit is sharp: when `b` starts inside of the first block of `a`, byte `pb - pa` of `b` is xored with the old first
byte of `b`.  A build with smaller blocks uses the new one, so that the results of the two builds differ unless the first byte of
`a` is zero. -/
theorem C69_sharp (mc mc' : Machine) (arch arch' : Arch) (pa pb n : Nat) (hf : Fits mc pa pb n) (hf' : Fits mc' pa pb n)
    (hn : 0 < n) (h : pa < pb) (hw : pb - pa < blockWidth arch n) (hw' : blockWidth arch' n ≤ pb - pa) (m : Mem) :
    ∃ m1 m2, OneMem.addVector mc arch ⟨pa, n⟩ ⟨pb, n⟩ m = ok (m1, ⟨pb, n⟩) ∧
      OneMem.addVector mc' arch' ⟨pa, n⟩ ⟨pb, n⟩ m = ok (m2, ⟨pb, n⟩) ∧
      m1 (pb + (pb - pa)) = m pb ^^^ m (pb + (pb - pa)) ∧
      m2 (pb + (pb - pa)) = (m pa ^^^ m pb) ^^^ m (pb + (pb - pa)) ∧
      (m pa ≠ 0 → m1 ≠ m2) := by
  obtain ⟨m1, e1, g1⟩ := addVector_good arch hf m
  obtain ⟨m2, e2, g2, _⟩ := C69_behind mc' arch' pa pb n hf' h hw' m
  obtain ⟨hd, hb⟩ := first_block arch hn hw
  have v1 := g1.done _ hd
  rw [hb, if_neg (by omega), show pa + (pb - pa) = pb by omega] at v1
  have v2 := g2 _ hd
  have v0 := g2 0 hn
  rw [if_pos (by omega)] at v0
  rw [if_neg (by omega), show pa + (pb - pa) = pb + 0 by omega, v0] at v2
  simp only [Nat.add_zero] at v2
  refine ⟨m1, m2, e1, e2, v1, v2, fun hne heq => hne ?_⟩
  rw [heq, v2] at v1
  have := congrArg (fun x => x ^^^ m (pb + (pb - pa)) ^^^ m pb) v1
  simpa [BitVec.xor_assoc] using this

/-! ## Instances -/

/-- The machine with enough fuel for vectors of `n` bytes and arbitrary registers. -/
def machineFor (regs : Nat → Nat → Asm.State) (n : Nat) : Machine := ⟨regs, n + 4⟩

theorem machineFor_fits (regs : Nat → Nat → Asm.State) {pa pb n : Nat} (ha : pa + n < 2 ^ 63) (hb : pb + n < 2 ^ 63) :
    Fits (machineFor regs n) pa pb n := ⟨ha, hb, le_refl _⟩

/-- `AddVector(x[3:203], x[0:200])` on amd64 with SSE2. -/
example (regs : Nat → Nat → Asm.State) (m : Mem) :
    ∃ m', OneMem.addVector (machineFor regs 200) (.amd64 ⟨true, true, true⟩) ⟨0x1003, 200⟩ ⟨0x1000, 200⟩ m = ok (m', ⟨0x1000, 200⟩) ∧
      m' 0x1000 = m 0x1003 ^^^ m 0x1000 := by
  obtain ⟨m', e, h, _⟩ := C69_sum (machineFor regs 200) (.amd64 ⟨true, true, true⟩) 0x1003 0x1000 200
    (machineFor_fits regs (by omega) (by omega)) (Or.inl (by omega)) m
  exact ⟨m', e, h 0 (by omega)⟩

/-- `AddVector(x[0:32], x[1:33])`: arm64 and the pure-Go build disagree. -/
example (regs : Nat → Nat → Asm.State) (m : Mem) (h : m 0x1000 = 7) :
    ∃ m1 m2, OneMem.addVector (machineFor regs 32) .arm64 ⟨0x1000, 32⟩ ⟨0x1001, 32⟩ m = ok (m1, ⟨0x1001, 32⟩) ∧
      OneMem.addVector (machineFor regs 32) .noasm ⟨0x1000, 32⟩ ⟨0x1001, 32⟩ m = ok (m2, ⟨0x1001, 32⟩) ∧ m1 ≠ m2 := by
  obtain ⟨m1, m2, e1, e2, _, _, hne⟩ := C69_sharp (machineFor regs 32) (machineFor regs 32) .arm64 .noasm 0x1000 0x1001 32
    (machineFor_fits regs (by omega) (by omega)) (machineFor_fits regs (by omega) (by omega)) (by omega) (by omega) (by decide)
    (by decide) m
  exact ⟨m1, m2, e1, e2, hne (by rw [h]; decide)⟩

/-- `AddVector(x[0:300], x[100:400])`: all builds agree. -/
example (regs : Nat → Nat → Asm.State) (m : Mem) :
    OneMem.addVector (machineFor regs 300) .arm64 ⟨0x1000, 300⟩ ⟨0x1064, 300⟩ m =
      OneMem.addVector (machineFor regs 300) .noasm ⟨0x1000, 300⟩ ⟨0x1064, 300⟩ m :=
  C69_portable _ _ _ _ _ _ _ (machineFor_fits regs (by omega) (by omega)) (machineFor_fits regs (by omega) (by omega))
    (Or.inr (Or.inr (by omega))) m

end Verif.Props
