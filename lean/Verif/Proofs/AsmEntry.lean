import Verif.Proofs.AsmLoop

/-! # The entry blocks of the assembly routines -/

set_option linter.unusedSimpArgs false

namespace Verif.Proofs
open Verif Outcome Asm

/-- What holds when a routine has read its arguments: `n` iterations are to be done. -/
structure Entered (n : Nat) (rin rout : Gp) (ain aout : BitVec 64) (Cnt : Nat → State → Prop) (T : State → Prop)
    (s0 s1 : State) : Prop where
  mem : s1.mem = s0.mem
  readable : s1.readable = s0.readable
  writable : s1.writable = s0.writable
  gin : s1.gp rin = ain
  gout : s1.gp rout = aout
  cnt : 0 < n → Cnt n s1
  tabs : 0 < n → T s1

theorem shr_toNat (x : BitVec 64) (k : Nat) : (x >>> k).toNat = x.toNat / 2 ^ k := by
  rw [BitVec.toNat_ushiftRight, Nat.shiftRight_eq_div_pow]

theorem beq0 (x : BitVec 64) : (x == 0#64) = decide (x.toNat = 0) := by
  apply Bool.eq_iff_iff.mpr
  rw [beq_iff_eq, decide_eq_true_eq]
  exact ⟨fun h => by rw [h]; rfl, fun h => BitVec.eq_of_toNat_eq h⟩



/-- The entry block of an amd64 routine sets ZF when there is nothing to do. -/
abbrev EntryX (n : Nat) (ain aout : BitVec 64) (T : State → Prop) (s s1 : State) : Prop :=
  Entered n .si .dx ain aout CntX T s s1 ∧ s1.zf = decide (n = 0)

theorem sse2_entry (s : State) :
    Post (EntryX ((s.args 8).toNat / 16) (s.args 0) (s.args 24) (fun _ => True) s)
      (execAll (Routines.sSE2XorSlice.getD 0 ⟨[], .ret⟩).body s) := by
  simp only [Routines.sSE2XorSlice, List.getD_cons_zero, execAll, exec, ok_bind, State.setG, State.setGZ, Post_ok]
  refine ⟨⟨rfl, rfl, rfl, rfl, rfl, fun _ => ?_, fun _ => trivial⟩, ?_⟩
  · simp [CntX, Nat.shiftRight_eq_div_pow]
  · simp [beq0, Nat.shiftRight_eq_div_pow]

theorem sse2_64_entry (s : State) :
    Post (EntryX ((s.args 8).toNat / 64) (s.args 0) (s.args 24) (fun _ => True) s)
      (execAll (Routines.sSE2XorSlice_64.getD 0 ⟨[], .ret⟩).body s) := by
  simp only [Routines.sSE2XorSlice_64, List.getD_cons_zero, execAll, exec, ok_bind, State.setG, State.setGZ, Post_ok]
  refine ⟨⟨rfl, rfl, rfl, rfl, rfl, fun _ => ?_, fun _ => trivial⟩, ?_⟩
  · simp [CntX, Nat.shiftRight_eq_div_pow]
  · simp [beq0, Nat.shiftRight_eq_div_pow]

theorem avx2_entry (low high : List Byte) (s : State) (h1 : Can s.readable (s.args 0).toNat 16)
    (h2 : Can s.readable (s.args 24).toNat 16) (hl : ∀ i < 16, s.mem ((s.args 0).toNat + i) = low.getD i 0)
    (hh : ∀ i < 16, s.mem ((s.args 24).toNat + i) = high.getD i 0) :
    Post (EntryX ((s.args 56).toNat / 32) (s.args 48) (s.args 72) (Tabs 32 low high) s)
      (execAll (Routines.galMulAVX2.getD 0 ⟨[], .ret⟩).body s) := by
  simp only [Routines.galMulAVX2, List.getD_cons_zero, execAll, exec, checkAligned, State.ea]
  simp [-BitVec.toNat_add, load_ok, State.setV, State.setG, State.setGZ, h1, h2]
  refine ⟨⟨?_, ?_, ?_, ?_, ?_, fun _ => ?_, fun _ => ?_⟩, ?_⟩ <;> try simp
  · simp [CntX, Nat.shiftRight_eq_div_pow]
  · intro i hi
    have h16 : i % 16 < 16 := Nat.mod_lt _ (by decide)
    have h16' : i / 16 ≠ 1 → i % 16 = i := by omega
    have e1 := hl _ h16
    have e2 := hh _ h16
    by_cases hd : i / 16 = 1
    · simp [hi, hd, h16, e1, e2]
    · have hi' : i < 16 := by omega
      rw [h16' hd] at e1 e2
      simp [hi, hd, hi', h16' hd, e1, e2]
  · simp [beq0, Nat.shiftRight_eq_div_pow]

theorem avx2Xor_entry (low high : List Byte) (s : State) (h1 : Can s.readable (s.args 0).toNat 16)
    (h2 : Can s.readable (s.args 24).toNat 16) (hl : ∀ i < 16, s.mem ((s.args 0).toNat + i) = low.getD i 0)
    (hh : ∀ i < 16, s.mem ((s.args 24).toNat + i) = high.getD i 0) :
    Post (EntryX ((s.args 56).toNat / 32) (s.args 48) (s.args 72) (Tabs 32 low high) s)
      (execAll (Routines.galMulAVX2Xor.getD 0 ⟨[], .ret⟩).body s) := by
  simp only [Routines.galMulAVX2Xor, List.getD_cons_zero, execAll, exec, checkAligned, State.ea]
  simp [-BitVec.toNat_add, load_ok, State.setV, State.setG, State.setGZ, h1, h2]
  refine ⟨⟨?_, ?_, ?_, ?_, ?_, fun _ => ?_, fun _ => ?_⟩, ?_⟩ <;> try simp
  · simp [CntX, Nat.shiftRight_eq_div_pow]
  · intro i hi
    have h16 : i % 16 < 16 := Nat.mod_lt _ (by decide)
    have h16' : i / 16 ≠ 1 → i % 16 = i := by omega
    have e1 := hl _ h16
    have e2 := hh _ h16
    by_cases hd : i / 16 = 1
    · simp [hi, hd, h16, e1, e2]
    · have hi' : i < 16 := by omega
      rw [h16' hd] at e1 e2
      simp [hi, hd, hi', h16' hd, e1, e2]
  · simp [beq0, Nat.shiftRight_eq_div_pow]

theorem avx2_64_entry (low high : List Byte) (s : State) (h1 : Can s.readable (s.args 0).toNat 16)
    (h2 : Can s.readable (s.args 24).toNat 16) (hl : ∀ i < 16, s.mem ((s.args 0).toNat + i) = low.getD i 0)
    (hh : ∀ i < 16, s.mem ((s.args 24).toNat + i) = high.getD i 0) :
    Post (EntryX ((s.args 56).toNat / 64) (s.args 48) (s.args 72) (Tabs 32 low high) s)
      (execAll (Routines.galMulAVX2_64.getD 0 ⟨[], .ret⟩).body s) := by
  simp only [Routines.galMulAVX2_64, List.getD_cons_zero, execAll, exec, checkAligned, State.ea]
  simp [-BitVec.toNat_add, load_ok, State.setV, State.setG, State.setGZ, h1, h2]
  refine ⟨⟨?_, ?_, ?_, ?_, ?_, fun _ => ?_, fun _ => ?_⟩, ?_⟩ <;> try simp
  · simp [CntX, Nat.shiftRight_eq_div_pow]
  · intro i hi
    have h16 : i % 16 < 16 := Nat.mod_lt _ (by decide)
    have h16' : i / 16 ≠ 1 → i % 16 = i := by omega
    have e1 := hl _ h16
    have e2 := hh _ h16
    by_cases hd : i / 16 = 1
    · simp [hi, hd, h16, e1, e2]
    · have hi' : i < 16 := by omega
      rw [h16' hd] at e1 e2
      simp [hi, hd, hi', h16' hd, e1, e2]
  · simp [beq0, Nat.shiftRight_eq_div_pow]

theorem avx2Xor_64_entry (low high : List Byte) (s : State) (h1 : Can s.readable (s.args 0).toNat 16)
    (h2 : Can s.readable (s.args 24).toNat 16) (hl : ∀ i < 16, s.mem ((s.args 0).toNat + i) = low.getD i 0)
    (hh : ∀ i < 16, s.mem ((s.args 24).toNat + i) = high.getD i 0) :
    Post (EntryX ((s.args 56).toNat / 64) (s.args 48) (s.args 72) (Tabs 32 low high) s)
      (execAll (Routines.galMulAVX2Xor_64.getD 0 ⟨[], .ret⟩).body s) := by
  simp only [Routines.galMulAVX2Xor_64, List.getD_cons_zero, execAll, exec, checkAligned, State.ea]
  simp [-BitVec.toNat_add, load_ok, State.setV, State.setG, State.setGZ, h1, h2]
  refine ⟨⟨?_, ?_, ?_, ?_, ?_, fun _ => ?_, fun _ => ?_⟩, ?_⟩ <;> try simp
  · simp [CntX, Nat.shiftRight_eq_div_pow]
  · intro i hi
    have h16 : i % 16 < 16 := Nat.mod_lt _ (by decide)
    have h16' : i / 16 ≠ 1 → i % 16 = i := by omega
    have e1 := hl _ h16
    have e2 := hh _ h16
    by_cases hd : i / 16 = 1
    · simp [hi, hd, h16, e1, e2]
    · have hi' : i < 16 := by omega
      rw [h16' hd] at e1 e2
      simp [hi, hd, hi', h16' hd, e1, e2]
  · simp [beq0, Nat.shiftRight_eq_div_pow]

theorem ssse3_entry (low high : List Byte) (s : State) (h1 : Can s.readable (s.args 0).toNat 16)
    (h2 : Can s.readable (s.args 24).toNat 16) (hl : ∀ i < 16, s.mem ((s.args 0).toNat + i) = low.getD i 0)
    (hh : ∀ i < 16, s.mem ((s.args 24).toNat + i) = high.getD i 0) :
    Post (fun s1 => EntryX ((s.args 56).toNat / 16) (s.args 48) (s.args 72) (Tabs 16 low high) s s1 ∧
        s1.gp .ax = s.args 48 &&& 15#64 ∧ s1.gp .bx = s.args 72 &&& 15#64)
      (execAll (Routines.galMulSSSE3.getD 0 ⟨[], .ret⟩).body s) := by
  simp only [Routines.galMulSSSE3, List.getD_cons_zero, execAll, exec, checkAligned, State.ea]
  simp [-BitVec.toNat_add, load_ok, State.setV, State.setG, State.setGZ, h1, h2]
  refine ⟨⟨?_, ?_, ?_, ?_, ?_, fun _ => ?_, fun _ => ?_⟩, ?_⟩ <;> try simp
  · simp [CntX, Nat.shiftRight_eq_div_pow]
  · intro i hi
    have e1 := hl _ hi
    have e2 := hh _ hi
    have e3 : i % 16 = i := by omega
    have e4 : i / 16 = 0 := by omega
    simp [hi, e1, e2, e3, shuffle, e4]
  · simp [beq0, Nat.shiftRight_eq_div_pow]

/-- the alignment test -/
theorem ssse3_test (s : State) :
    execAll (Routines.galMulSSSE3.getD 1 ⟨[], .ret⟩).body s =
      ok { s.setG .bx (s.gp .bx ||| s.gp .ax) with zf := s.gp .bx ||| s.gp .ax == 0#64 } := by
  simp only [Routines.galMulSSSE3, List.getD_cons_succ, List.getD_cons_zero, execAll, exec]
  simp [State.setG, State.setGZ]

theorem ssse3Xor_entry (low high : List Byte) (s : State) (h1 : Can s.readable (s.args 0).toNat 16)
    (h2 : Can s.readable (s.args 24).toNat 16) (hl : ∀ i < 16, s.mem ((s.args 0).toNat + i) = low.getD i 0)
    (hh : ∀ i < 16, s.mem ((s.args 24).toNat + i) = high.getD i 0) :
    Post (fun s1 => EntryX ((s.args 56).toNat / 16) (s.args 48) (s.args 72) (Tabs 16 low high) s s1 ∧
        s1.gp .ax = s.args 48 &&& 15#64 ∧ s1.gp .bx = s.args 72 &&& 15#64)
      (execAll (Routines.galMulSSSE3Xor.getD 0 ⟨[], .ret⟩).body s) := by
  simp only [Routines.galMulSSSE3Xor, List.getD_cons_zero, execAll, exec, checkAligned, State.ea]
  simp [-BitVec.toNat_add, load_ok, State.setV, State.setG, State.setGZ, h1, h2]
  refine ⟨⟨?_, ?_, ?_, ?_, ?_, fun _ => ?_, fun _ => ?_⟩, ?_⟩ <;> try simp
  · simp [CntX, Nat.shiftRight_eq_div_pow]
  · intro i hi
    have e1 := hl _ hi
    have e2 := hh _ hi
    have e3 : i % 16 = i := by omega
    have e4 : i / 16 = 0 := by omega
    simp [hi, e1, e2, e3, shuffle, e4]
  · simp [beq0, Nat.shiftRight_eq_div_pow]

/-- the alignment test -/
theorem ssse3Xor_test (s : State) :
    execAll (Routines.galMulSSSE3Xor.getD 1 ⟨[], .ret⟩).body s =
      ok { s.setG .bx (s.gp .bx ||| s.gp .ax) with zf := s.gp .bx ||| s.gp .ax == 0#64 } := by
  simp only [Routines.galMulSSSE3Xor, List.getD_cons_succ, List.getD_cons_zero, execAll, exec]
  simp [State.setG, State.setGZ]

/-- The entry block of an arm64 routine sets N when there is nothing to do. -/
abbrev EntryN (len : Nat) (ain aout : BitVec 64) (s s1 : State) : Prop :=
  Entered (len / 32) .r1 .r5 ain aout (CntN (len % 32)) (fun _ => True) s s1 ∧ s1.nf = decide (len < 32) ∧ s1.args = s.args

theorem sub32 {len : Nat} {x : BitVec 64} (hx : x.toNat = len) (hlen : len < 2 ^ 63) :
    (x - 32#64).toNat = (if len < 32 then 2 ^ 64 - 32 + len else len - 32) ∧ (x - 32#64).msb = decide (len < 32) := by
  have e32 : (32#64).toNat = 32 := rfl
  have e := BitVec.toNat_sub x 32#64
  rw [e32, hx] at e
  rw [msb_lt, e]
  by_cases h : len < 32
  · have e : (2 ^ 64 - 32 + len) % 2 ^ 64 = 2 ^ 64 - 32 + len := by rw [Nat.mod_eq_of_lt]; omega
    rw [e, if_pos h]
    refine ⟨rfl, ?_⟩
    rw [decide_eq_true h, decide_eq_true_eq]; omega
  · have e : (2 ^ 64 - 32 + len) % 2 ^ 64 = len - 32 := by omega
    rw [e, if_neg h]
    refine ⟨rfl, ?_⟩
    rw [decide_eq_false h, decide_eq_false_iff_not]; omega

theorem cntN_entry {len : Nat} {s : State} {x : BitVec 64} (hx : x.toNat = len) (hlen : len < 2 ^ 63) (hs : s.gp .r2 = x - 32#64)
    (h : 0 < len / 32) : CntN (len % 32) (len / 32) s := by
  have := (sub32 hx hlen).1
  rw [if_neg (by omega)] at this
  rw [CntN, if_neg (by omega), hs, this]
  omega

theorem neon_entry (s : State) (hlen : (s.args 56).toNat < 2 ^ 63) :
    Post (EntryN (s.args 56).toNat (s.args 48) (s.args 72) s)
      (execAll (Routines.galMulNEON.getD 0 ⟨[], .ret⟩).body s) := by
  simp only [Routines.galMulNEON, List.getD_cons_zero, execAll, exec, ok_bind, State.setG, State.setGZ, Post_ok]
  refine ⟨⟨rfl, rfl, rfl, rfl, rfl, fun h => ?_, fun _ => trivial⟩, ?_, rfl⟩
  · exact cntN_entry rfl hlen (by simp) h
  · simpa using (sub32 rfl hlen).2

theorem neonXor_entry (s : State) (hlen : (s.args 56).toNat < 2 ^ 63) :
    Post (EntryN (s.args 56).toNat (s.args 48) (s.args 72) s)
      (execAll (Routines.galMulXorNEON.getD 0 ⟨[], .ret⟩).body s) := by
  simp only [Routines.galMulXorNEON, List.getD_cons_zero, execAll, exec, ok_bind, State.setG, State.setGZ, Post_ok]
  refine ⟨⟨rfl, rfl, rfl, rfl, rfl, fun h => ?_, fun _ => trivial⟩, ?_, rfl⟩
  · exact cntN_entry rfl hlen (by simp) h
  · simpa using (sub32 rfl hlen).2

theorem neonAdd_entry (s : State) (hlen : (s.args 8).toNat < 2 ^ 63) :
    Post (EntryN (s.args 8).toNat (s.args 0) (s.args 24) s)
      (execAll (Routines.galXorNEON.getD 0 ⟨[], .ret⟩).body s) := by
  simp only [Routines.galXorNEON, List.getD_cons_zero, execAll, exec, ok_bind, State.setG, State.setGZ, Post_ok]
  refine ⟨⟨rfl, rfl, rfl, rfl, rfl, fun h => ?_, fun _ => trivial⟩, ?_, rfl⟩
  · exact cntN_entry rfl hlen (by simp) h
  · simpa using (sub32 rfl hlen).2

/-- tables and mask -/
theorem neon_tabs (low high : List Byte) (s : State) (h1 : Can s.readable (s.args 0).toNat 16)
    (h2 : Can s.readable (s.args 24).toNat 16) (hl : ∀ i < 16, s.mem ((s.args 0).toNat + i) = low.getD i 0)
    (hh : ∀ i < 16, s.mem ((s.args 24).toNat + i) = high.getD i 0) :
    Post (fun s1 => (s1.mem = s.mem ∧ s1.readable = s.readable ∧ s1.writable = s.writable) ∧ (s1.gp .r1 = s.gp .r1 ∧
        s1.gp .r5 = s.gp .r5 ∧ s1.gp .r2 = s.gp .r2) ∧ Tabs 16 low high s1)
      (execAll (Routines.galMulNEON.getD 1 ⟨[], .ret⟩).body s) := by
  simp only [Routines.galMulNEON, List.getD_cons_succ, List.getD_cons_zero, execAll, exec, loadMany]
  simp [-BitVec.toNat_add, load_ok, State.setV, State.setG, State.setGZ, h1, h2]
  intro i hi
  have e1 := hl _ hi
  have e2 := hh _ hi
  have e3 : i % 16 = i := by omega
  simp [hi, e1, e2, e3]

/-- tables and mask -/
theorem neonXor_tabs (low high : List Byte) (s : State) (h1 : Can s.readable (s.args 0).toNat 16)
    (h2 : Can s.readable (s.args 24).toNat 16) (hl : ∀ i < 16, s.mem ((s.args 0).toNat + i) = low.getD i 0)
    (hh : ∀ i < 16, s.mem ((s.args 24).toNat + i) = high.getD i 0) :
    Post (fun s1 => (s1.mem = s.mem ∧ s1.readable = s.readable ∧ s1.writable = s.writable) ∧ (s1.gp .r1 = s.gp .r1 ∧
        s1.gp .r5 = s.gp .r5 ∧ s1.gp .r2 = s.gp .r2) ∧ Tabs 16 low high s1)
      (execAll (Routines.galMulXorNEON.getD 1 ⟨[], .ret⟩).body s) := by
  simp only [Routines.galMulXorNEON, List.getD_cons_succ, List.getD_cons_zero, execAll, exec, loadMany]
  simp [-BitVec.toNat_add, load_ok, State.setV, State.setG, State.setGZ, h1, h2]
  intro i hi
  have e1 := hl _ hi
  have e2 := hh _ hi
  have e3 : i % 16 = i := by omega
  simp [hi, e1, e2, e3]

end Verif.Proofs
