import Verif.Proofs.Asm

/-! # The xor routines on a destination that is too short -/

set_option linter.unusedSimpArgs false

namespace Verif.Proofs
open Verif Outcome Asm

theorem load_bad {s : State} {a n : Nat} (h : ¬ Can s.readable a n) : s.load a n = corrupt := if_neg h
theorem store_bad {s : State} {a n : Nat} {f : Nat → Byte} (h : ¬ Can s.writable a n) : s.store a n f = corrupt := if_neg h

theorem Can.append {p : Nat → Bool} {a m n : Nat} (h1 : Can p a m) (h2 : Can p (a + m) n) : Can p a (m + n) := by
  intro i hi
  by_cases h : i < m
  · exact h1 i h
  · have := h2 (i - m) (by omega)
    rwa [show a + m + (i - m) = a + i by omega] at this

theorem sse2_bad (s : State) (h1 : Can s.readable (s.gp .si).toNat 16) (hw : ¬ Can s.writable (s.gp .dx).toNat 16) :
    execAll (Routines.sSE2XorSlice.getD 1 ⟨[], .ret⟩).body s = corrupt := by
  simp only [Routines.sSE2XorSlice, List.getD_cons_succ, List.getD_cons_zero, execAll, exec, checkAligned, State.ea]
  by_cases h2 : Can s.readable (s.gp .dx).toNat 16
  · simp [load_ok, store_bad, State.setV, State.setG, State.setGZ, h1, h2, hw]
  · simp [load_ok, load_bad, State.setV, State.setG, State.setGZ, h1, h2]

theorem sse2_64_bad (s : State) (b1 : (s.gp .si).toNat + 64 < 2 ^ 64) (b2 : (s.gp .dx).toNat + 64 < 2 ^ 64)
    (h1 : Can s.readable (s.gp .si).toNat 64) (hw : ¬ Can s.writable (s.gp .dx).toNat 64) :
    execAll (Routines.sSE2XorSlice_64.getD 1 ⟨[], .ret⟩).body s = corrupt := by
  have a0 := h1.sub 0 16 (by omega)
  have a1 := h1.sub 16 16 (by omega)
  have a2 := h1.sub 32 16 (by omega)
  have a3 := h1.sub 48 16 (by omega)
  have e1 := toNat_add64 b1 (k := 16) (by omega)
  have e2 := toNat_add64 b1 (k := 32) (by omega)
  have e3 := toNat_add64 b1 (k := 48) (by omega)
  have f1 := toNat_add64 b2 (k := 16) (by omega)
  have f2 := toNat_add64 b2 (k := 32) (by omega)
  have f3 := toNat_add64 b2 (k := 48) (by omega)
  rw [Nat.add_zero] at a0
  simp only [Routines.sSE2XorSlice_64, List.getD_cons_succ, List.getD_cons_zero, execAll, exec, checkAligned, State.ea]
  simp [-BitVec.toNat_add, load_ok, State.setV, State.setG, State.setGZ, a0, a1, a2, a3, e1, e2, e3, f1, f2, f3]
  by_cases r0 : Can s.readable (s.gp .dx).toNat 16
  swap
  · simp [-BitVec.toNat_add, load_bad, r0]
  by_cases r1 : Can s.readable ((s.gp .dx).toNat + 16) 16
  swap
  · simp [-BitVec.toNat_add, load_ok, load_bad, r0, r1, f1]
  by_cases r2 : Can s.readable ((s.gp .dx).toNat + 32) 16
  swap
  · simp [-BitVec.toNat_add, load_ok, load_bad, r0, r1, r2, f1, f2]
  by_cases r3 : Can s.readable ((s.gp .dx).toNat + 48) 16
  swap
  · simp [-BitVec.toNat_add, load_ok, load_bad, r0, r1, r2, r3, f1, f2, f3]
  simp [-BitVec.toNat_add, load_ok, r0, r1, r2, r3, f1, f2, f3]
  by_cases w0 : Can s.writable (s.gp .dx).toNat 16
  swap
  · simp [-BitVec.toNat_add, store_bad, w0]
  by_cases w1 : Can s.writable ((s.gp .dx).toNat + 16) 16
  swap
  · simp [-BitVec.toNat_add, store_ok, store_bad, w0, w1, f1]
  by_cases w2 : Can s.writable ((s.gp .dx).toNat + 32) 16
  swap
  · simp [-BitVec.toNat_add, store_ok, store_bad, w0, w1, w2, f1, f2]
  by_cases w3 : Can s.writable ((s.gp .dx).toNat + 48) 16
  swap
  · simp [-BitVec.toNat_add, store_ok, store_bad, w0, w1, w2, w3, f1, f2, f3]
  exact absurd (((w0.append w1).append w2).append w3) hw

theorem neonAdd_bad (s : State) (h1 : Can s.readable (s.gp .r1).toNat 32) (hw : ¬ Can s.writable (s.gp .r5).toNat 32) :
    execAll (Routines.galXorNEON.getD 1 ⟨[], .ret⟩).body s = corrupt := by
  have a0 := h1.sub 0 16 (by omega)
  have a1 := h1.sub 16 16 (by omega)
  rw [Nat.add_zero] at a0
  simp only [Routines.galXorNEON, List.getD_cons_succ, List.getD_cons_zero, execAll, exec, loadMany, storeMany]
  simp [load_ok, State.setV, State.setG, State.setGZ, a0, a1]
  by_cases r0 : Can s.readable (s.gp .r5).toNat 16
  swap
  · simp [load_bad, r0]
  by_cases r1 : Can s.readable ((s.gp .r5).toNat + 16) 16
  swap
  · simp [load_ok, load_bad, r0, r1]
  simp [load_ok, r0, r1]
  by_cases w0 : Can s.writable (s.gp .r5).toNat 16
  swap
  · simp [store_bad, w0]
  by_cases w1 : Can s.writable ((s.gp .r5).toNat + 16) 16
  swap
  · simp [store_ok, store_bad, w0, w1]
  exact absurd (w0.append w1) hw

/-- A loop that does not fit in the destination accesses memory outside of it. -/
theorem loop_bad {code : Code} {L E : Nat} {body : List Instr} {c : Cond} {w : Nat} {F : Byte → Byte → Byte} {rin rout : Gp}
    {C : State → State → Prop} {Cnt : Nat → State → Prop} (hw : 0 < w)
    (hcode : code[L]? = some ⟨body, .jcc c L E⟩)
    (hbody : ∀ s, Ready w rin rout s → Post (fun s' => Iter w F rin rout s s' ∧ C s s') (execAll body s))
    (hcnt : ∀ k s s', Cnt (k + 1) s → C s s' → Cnt k s' ∧ c.holds s' = decide (0 < k))
    (hbad : ∀ s, (s.gp rin).toNat + w < 2 ^ 64 → (s.gp rout).toNat + w < 2 ^ 64 → Can s.readable (s.gp rin).toNat w →
      ¬ Can s.writable (s.gp rout).toNat w → execAll body s = corrupt) :
    ∀ (n : Nat) (s : State), Cnt n s → (s.gp rin).toNat + w * n < 2 ^ 64 → (s.gp rout).toNat + w * n < 2 ^ 64 →
      Can s.readable (s.gp rin).toNat (w * n) → (∀ a, s.writable a = true → s.readable a = true) →
      ¬ Can s.writable (s.gp rout).toNat (w * n) → ∀ fuel, run code (n + fuel) L s = corrupt := by
  intro n
  induction n with
  | zero => intro s _ _ _ _ _ h; exact absurd (fun i hi => absurd hi (by omega)) h
  | succ n ih =>
    intro s h1 h2 h3 h4 h5 h6 fuel
    have e : w * (n + 1) = w * n + w := Nat.mul_succ _ _
    rw [e] at h2 h3 h4 h6
    rw [show n + 1 + fuel = (n + fuel) + 1 by omega]
    have hin : Can s.readable (s.gp rin).toNat w := fun i hi => h4 i (by omega)
    by_cases hcan : Can s.writable (s.gp rout).toNat w
    · obtain ⟨s', ex, it, hc⟩ := (hbody s ⟨by omega, by omega, hin, fun i hi => h5 _ (hcan i hi), hcan⟩).elim
      obtain ⟨c1, c2⟩ := hcnt n s s' h1 hc
      have ei : (s'.gp rin).toNat = (s.gp rin).toNat + w := by
        rw [it.inp]; exact toNat_add64 (n := w) (by omega) (le_refl _)
      have eo : (s'.gp rout).toNat = (s.gp rout).toNat + w := by
        rw [it.out]; exact toNat_add64 (n := w) (by omega) (le_refl _)
      rw [run_jcc _ hcode ex, c2]
      have hn : 0 < n := by
        rcases Nat.eq_zero_or_pos n with rfl | h
        · exact absurd (by simpa using hcan) h6
        · exact h
      rw [decide_eq_true hn, if_pos rfl]
      refine ih s' c1 (by omega) (by omega) ?_ ?_ ?_ fuel
      · rw [it.readable, ei]; exact h4.sub w (w * n) (by omega)
      · rw [it.readable, it.writable]; exact h5
      · rw [it.writable, eo]
        intro h
        apply h6
        have := hcan.append h
        rwa [Nat.add_comm] at this
    · rw [run, hcode]
      simp only [hbad s (by omega) (by omega) hin hcan]
      rfl

/-- The same for a call. -/
theorem routine_bad {code : Code} {L E w n : Nat} {body : List Instr} {c : Cond} {F : Byte → Byte → Byte} {rin rout : Gp}
    {C : State → State → Prop} {Cnt : Nat → State → Prop} {init : State} {inp dst : Arg} (hw : 0 < w)
    (hp : Placed [inp] inp dst) (hn : w * n ≤ inp.bytes.length) (hb : dst.base + inp.bytes.length < 2 ^ 64)
    (hn' : dst.bytes.length < w * n)
    (hcode : code[L]? = some ⟨body, .jcc c L E⟩)
    (hbody : ∀ s, Ready w rin rout s → Post (fun s' => Iter w F rin rout s s' ∧ C s s') (execAll body s))
    (hcnt : ∀ k s s', Cnt (k + 1) s → C s s' → Cnt k s' ∧ c.holds s' = decide (0 < k))
    (hbad : ∀ s, (s.gp rin).toNat + w < 2 ^ 64 → (s.gp rout).toNat + w < 2 ^ 64 → Can s.readable (s.gp rin).toNat w →
      ¬ Can s.writable (s.gp rout).toNat w → execAll body s = corrupt)
    (s1 : State)
    (hrun : ∀ fuel, run code (1 + fuel) 0 (initial init [inp] dst) = run code fuel (if n = 0 then E else L) s1)
    (hent : Entered n rin rout (BitVec.ofNat 64 inp.base) (BitVec.ofNat 64 dst.base) Cnt (fun _ => True)
      (initial init [inp] dst) s1) (fuel : Nat) :
    call code (1 + n + fuel) init [inp] dst = corrupt := by
  have hd : dst ∈ [inp] ++ [dst] := by simp
  have hi : inp ∈ [inp] ++ [dst] := by simp
  have eb := toNat_base hp hd
  have ei := toNat_base hp hi
  have b1 := hp.bound _ hi
  have h0 : n ≠ 0 := by rintro rfl; omega
  have := loop_bad hw hcode hbody hcnt hbad n s1 (hent.cnt (by omega)) (by rw [hent.gin, ei]; omega)
    (by rw [hent.gout, eb]; omega) (by rw [hent.readable, hent.gin, ei]; exact can_mem hi hn)
    (by
      rw [hent.readable, hent.writable]
      intro a ha
      exact List.any_eq_true.mpr ⟨dst, hd, ha⟩)
    (by
      rw [hent.writable, hent.gout, eb]
      intro h
      have h1 := h dst.bytes.length hn'
      rw [show (initial init [inp] dst).writable = dst.contains from rfl, contains_iff] at h1
      omega) fuel
  rw [call_eq, Nat.add_assoc, hrun, if_neg h0, this]
  rfl

theorem sse2_corrupt {inp out : Arg} (hp : Placed [inp] inp out) (hb : out.base + inp.bytes.length < 2 ^ 64)
    (hn : out.bytes.length < 16 * (inp.bytes.length / 16)) (init : State) {fuel : Nat} (hf : inp.bytes.length / 16 + 4 ≤ fuel) :
    call Routines.sSE2XorSlice fuel init [inp] out = corrupt := by
  obtain ⟨s1, h1, h2, h3⟩ := (sse2_entry (initial init [inp] out)).elim
  rw [hp.len init] at h2 h3
  have := routine_bad (code := Routines.sSE2XorSlice) (L := 1) (E := 2) (w := 16) (n := inp.bytes.length / 16) (by omega) hp
    (mul_div_le' _ _) hb hn rfl sse2_body cntX_step (fun s _ _ h w => sse2_bad s h w) s1
    (fun f => by
      rw [Nat.add_comm, run_jcc f rfl h1, Cond.holds, h3]
      by_cases h0 : inp.bytes.length / 16 = 0 <;> simp only [h0, decide_true, decide_false, if_true, if_false] <;> rfl) h2
    (fuel - (inp.bytes.length / 16 + 1))
  rwa [show 1 + inp.bytes.length / 16 + (fuel - (inp.bytes.length / 16 + 1)) = fuel by omega] at this

theorem sse2_64_corrupt {inp out : Arg} (hp : Placed [inp] inp out) (hb : out.base + inp.bytes.length < 2 ^ 64)
    (hn : out.bytes.length < 64 * (inp.bytes.length / 64)) (init : State) {fuel : Nat} (hf : inp.bytes.length / 64 + 4 ≤ fuel) :
    call Routines.sSE2XorSlice_64 fuel init [inp] out = corrupt := by
  obtain ⟨s1, h1, h2, h3⟩ := (sse2_64_entry (initial init [inp] out)).elim
  rw [hp.len init] at h2 h3
  have := routine_bad (code := Routines.sSE2XorSlice_64) (L := 1) (E := 2) (w := 64) (n := inp.bytes.length / 64) (by omega) hp
    (mul_div_le' _ _) hb hn rfl sse2_64_body cntX_step sse2_64_bad s1
    (fun f => by
      rw [Nat.add_comm, run_jcc f rfl h1, Cond.holds, h3]
      by_cases h0 : inp.bytes.length / 64 = 0 <;> simp only [h0, decide_true, decide_false, if_true, if_false] <;> rfl) h2
    (fuel - (inp.bytes.length / 64 + 1))
  rwa [show 1 + inp.bytes.length / 64 + (fuel - (inp.bytes.length / 64 + 1)) = fuel by omega] at this

theorem neonAdd_corrupt {inp out : Arg} (hp : Placed [inp] inp out) (hb : out.base + inp.bytes.length < 2 ^ 64)
    (hn : out.bytes.length < 32 * (inp.bytes.length / 32)) (init : State) {fuel : Nat} (hf : inp.bytes.length / 32 + 4 ≤ fuel) :
    call Routines.galXorNEON fuel init [inp] out = corrupt := by
  obtain ⟨s1, h1, h2, h3, h4⟩ := (neonAdd_entry (initial init [inp] out)
    (by rw [hp.len]; exact hp.small _ (by simp))).elim
  rw [hp.len init] at h2 h3
  have hr : inp.bytes.length % 32 < 32 := Nat.mod_lt _ (by decide)
  have := routine_bad (code := Routines.galXorNEON) (L := 1) (E := 2) (w := 32) (n := inp.bytes.length / 32) (by omega) hp
    (mul_div_le' _ _) hb hn rfl neonAdd_body (cntN_step hr) (fun s _ _ h w => neonAdd_bad s h w) s1
    (fun f => by
      rw [Nat.add_comm, run_jcc f rfl h1, Cond.holds, h3]
      by_cases h0 : inp.bytes.length / 32 = 0
      · rw [decide_eq_true (by omega)]; simp only [h0, if_true]
      · rw [decide_eq_false (by omega)]; simp only [h0, if_false]; rfl) h2
    (fuel - (inp.bytes.length / 32 + 1))
  rwa [show 1 + inp.bytes.length / 32 + (fuel - (inp.bytes.length / 32 + 1)) = fuel by omega] at this

end Verif.Proofs
