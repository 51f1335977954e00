import Verif.Spec.VectorMem
import Verif.Proofs.Asm

/-! # `AddVector` on two slices of one memory -/

namespace Verif.Proofs
open Verif Outcome Asm OneMem Spec

/-- The memory after the first `k` bytes have been processed. -/
structure Good (start : Nat → Nat) (pa pb : Nat) (m : Mem) (k : Nat) (mem : Mem) : Prop where
  rest : ∀ x, ¬ (pb ≤ x ∧ x < pb + k) → mem x = m x
  done : ∀ i < k, mem (pb + i) =
    (if pb ≤ pa + i ∧ pa + i < pb + start i then mem (pa + i) else m (pa + i)) ^^^ m (pb + i)

theorem Good.zero (start : Nat → Nat) (pa pb : Nat) (m : Mem) : Good start pa pb m 0 m :=
  ⟨fun _ _ => rfl, fun _ h => absurd h (Nat.not_lt_zero _)⟩

/-- One block. -/
theorem Good.step {start : Nat → Nat} {pa pb : Nat} {m mem mem' : Mem} {k w : Nat} (h : Good start pa pb m k mem)
    (hle : ∀ i, start i ≤ i) (hst : ∀ i, k ≤ i → i < k + w → start i = k)
    (hm : ∀ x, mem' x = if pb + k ≤ x ∧ x < pb + k + w then mem (pa + k + (x - (pb + k))) ^^^ mem x else mem x) :
    Good start pa pb m (k + w) mem' := by
  have old (x : Nat) (hx : ¬ (pb + k ≤ x ∧ x < pb + k + w)) : mem' x = mem x := by rw [hm, if_neg hx]
  refine ⟨fun x hx => ?_, fun i hi => ?_⟩
  · rw [old x (by omega), h.rest x (by omega)]
  · by_cases hik : i < k
    · have hl := hle i
      rw [old _ (by omega), h.done i hik]
      by_cases hc : pb ≤ pa + i ∧ pa + i < pb + start i
      · rw [if_pos hc, if_pos hc, old _ (by omega)]
      · rw [if_neg hc, if_neg hc]
    · have e : pa + k + (pb + i - (pb + k)) = pa + i := by omega
      rw [hm, if_pos (by omega), e, hst i (by omega) hi, h.rest (pb + i) (by omega)]
      by_cases hc : pb ≤ pa + i ∧ pa + i < pb + k
      · rw [if_pos hc, old _ (by omega)]
      · rw [if_neg hc, h.rest _ hc]

/-- What `n` iterations starting in `s` need. -/
structure Room (w n : Nat) (rin rout : Gp) (s : State) : Prop where
  inp : (s.gp rin).toNat + w * n < 2 ^ 64
  out : (s.gp rout).toNat + w * n < 2 ^ 64
  canIn : Can s.readable (s.gp rin).toNat (w * n)
  canOut : Can s.readable (s.gp rout).toNat (w * n)
  canStore : Can s.writable (s.gp rout).toNat (w * n)

theorem Room.ready {w n : Nat} {rin rout : Gp} {s : State} (h : Room w (n + 1) rin rout s) :
    Ready w rin rout s := by
  have e : w * (n + 1) = w * n + w := Nat.mul_succ _ _
  have h1 := h.inp
  have h2 := h.out
  rw [e] at h1 h2
  exact ⟨by omega, by omega, fun i hi => h.canIn i (by rw [e]; omega), fun i hi => h.canOut i (by rw [e]; omega),
    fun i hi => h.canStore i (by rw [e]; omega)⟩

theorem Room.next {w n : Nat} {F : Byte → Byte → Byte} {rin rout : Gp} {s s' : State}
    (h : Room w (n + 1) rin rout s) (it : Iter w F rin rout s s') :
    Room w n rin rout s' ∧ (s'.gp rin).toNat = (s.gp rin).toNat + w ∧ (s'.gp rout).toNat = (s.gp rout).toNat + w := by
  have e : w * (n + 1) = w * n + w := Nat.mul_succ _ _
  have h1 := h.inp
  have h2 := h.out
  rw [e] at h1 h2
  have ei : (s'.gp rin).toNat = (s.gp rin).toNat + w := by
    rw [it.inp]; exact toNat_add64 (n := w) (by omega) (le_refl _)
  have eo : (s'.gp rout).toNat = (s.gp rout).toNat + w := by
    rw [it.out]; exact toNat_add64 (n := w) (by omega) (le_refl _)
  refine ⟨⟨by omega, by omega, ?_, ?_, ?_⟩, ei, eo⟩
  · rw [it.readable, ei]
    exact h.canIn.sub w (w * n) (by rw [e]; omega)
  · rw [it.readable, eo]
    exact h.canOut.sub w (w * n) (by rw [e]; omega)
  · rw [it.writable, eo]
    exact h.canStore.sub w (w * n) (by rw [e]; omega)

/-- The loop of an xor routine, overlapping or not. -/
theorem loop_good {code : Code} {L E : Nat} {body : List Instr} {c : Cond} {w : Nat} {rin rout : Gp}
    {C : State → State → Prop} {Cnt : Nat → State → Prop} {start : Nat → Nat} {pa pb : Nat} {m : Mem}
    (hle : ∀ i, start i ≤ i)
    (hcode : code[L]? = some ⟨body, .jcc c L E⟩)
    (hbody : ∀ s, Ready w rin rout s →
      Post (fun s' => Iter w (fun x y => x ^^^ y) rin rout s s' ∧ C s s') (execAll body s))
    (hcnt : ∀ k s s', Cnt (k + 1) s → C s s' → Cnt k s' ∧ c.holds s' = decide (0 < k)) :
    ∀ (n : Nat) (s : State) (k : Nat), Cnt (n + 1) s → Room w (n + 1) rin rout s →
      (s.gp rin).toNat = pa + k → (s.gp rout).toNat = pb + k →
      (∀ j ≤ n, ∀ i, k + w * j ≤ i → i < k + w * j + w → start i = k + w * j) → Good start pa pb m k s.mem →
      ∃ s', (∀ fuel, run code (n + 1 + fuel) L s = run code fuel E s') ∧ Good start pa pb m (k + w * (n + 1)) s'.mem := by
  intro n
  induction n with
  | zero =>
    intro s k h1 h2 hi ho hst hg
    obtain ⟨s', e, it, hc⟩ := (hbody s h2.ready).elim
    obtain ⟨c1, c2⟩ := hcnt 0 s s' h1 hc
    refine ⟨s', fun fuel => ?_, ?_⟩
    · rw [Nat.zero_add, Nat.add_comm, run, hcode]
      simp only [e, ok_bind, c2]
      rfl
    · rw [Nat.zero_add, Nat.mul_one]
      refine hg.step hle (fun i a b => ?_) (fun x => ?_)
      · have := hst 0 (le_refl _) i (by omega) (by omega); omega
      · rw [it.mem, hi, ho]
  | succ n ih =>
    intro s k h1 h2 hi ho hst hg
    obtain ⟨s', e, it, hc⟩ := (hbody s h2.ready).elim
    obtain ⟨c1, c2⟩ := hcnt (n + 1) s s' h1 hc
    obtain ⟨nx, ei, eo⟩ := h2.next it
    have hg' : Good start pa pb m (k + w) s'.mem := by
      refine hg.step hle (fun i a b => ?_) (fun x => ?_)
      · have := hst 0 (Nat.zero_le _) i (by omega) (by omega); omega
      · rw [it.mem, hi, ho]
    obtain ⟨s2, r2, m2⟩ := ih s' (k + w) c1 nx (by omega) (by omega) (fun j hj i a b => by
      have e : w * (j + 1) = w * j + w := Nat.mul_succ _ _
      have := hst (j + 1) (by omega) i (by omega) (by omega); omega) hg'
    refine ⟨s2, fun fuel => ?_, ?_⟩
    · have : n + 1 + 1 + fuel = (n + 1 + fuel) + 1 := by omega
      rw [this, run, hcode]
      simp only [e, ok_bind, c2, Nat.succ_pos, decide_true, if_true]
      exact r2 fuel
    · have e : w * (n + 1 + 1) = w * (n + 1) + w := Nat.mul_succ _ _
      have : k + w * (n + 1 + 1) = k + w + w * (n + 1) := by omega
      rw [this]; exact m2

/-- The state in which `call` enters the routine. -/
def entry (init : State) (inp dst : Span) (m : Mem) : State :=
  { init with
    mem := m
    readable := fun a => ([inp] ++ [dst]).any (·.contains a)
    writable := dst.contains
    args := OneMem.frame ([inp] ++ [dst]) }

theorem span_contains (x : Span) (a : Nat) : x.contains a = true ↔ x.base ≤ a ∧ a < x.base + x.len := by
  simp [Span.contains]

/-- A routine that enters the loop with `n` iterations to do (or goes directly to its end). -/
theorem routine_good {code : Code} {L E w n : Nat} {body : List Instr} {c : Cond} {rin rout : Gp}
    {C : State → State → Prop} {Cnt : Nat → State → Prop} {start : Nat → Nat} {pa pb : Nat} {m : Mem}
    {init : State} {inp dst : Span} {k : Nat} {mem : Mem}
    (hle : ∀ i, start i ≤ i)
    (hcode : code[L]? = some ⟨body, .jcc c L E⟩)
    (hbody : ∀ s, Ready w rin rout s →
      Post (fun s' => Iter w (fun x y => x ^^^ y) rin rout s s' ∧ C s s') (execAll body s))
    (hcnt : ∀ k s s', Cnt (k + 1) s → C s s' → Cnt k s' ∧ c.holds s' = decide (0 < k))
    (hn : w * n ≤ inp.len) (hn' : w * n ≤ dst.len) (hi : inp.base = pa + k) (ho : dst.base = pb + k)
    (bi : inp.base + inp.len < 2 ^ 63) (bo : dst.base + dst.len < 2 ^ 63)
    (hst : ∀ j < n, ∀ i, k + w * j ≤ i → i < k + w * j + w → start i = k + w * j)
    (hg : Good start pa pb m k mem) (s1 : State)
    (hrun : ∀ fuel, run code (1 + fuel) 0 (entry init inp dst mem) = run code fuel (if n = 0 then E else L) s1)
    (hent : Entered n rin rout (BitVec.ofNat 64 inp.base) (BitVec.ofNat 64 dst.base) Cnt (fun _ => True)
      (entry init inp dst mem) s1)
    (hexit : ∀ s fuel, run code (fuel + 1) E s = ok s) (fuel : Nat) (hf : n + 3 ≤ fuel) :
    ∃ mem', OneMem.call code fuel init [inp] dst mem = ok mem' ∧ Good start pa pb m (k + w * n) mem' := by
  have ei : (BitVec.ofNat 64 inp.base).toNat = inp.base := by
    rw [BitVec.toNat_ofNat, Nat.mod_eq_of_lt]; omega
  have eo : (BitVec.ofNat 64 dst.base).toNat = dst.base := by
    rw [BitVec.toNat_ofNat, Nat.mod_eq_of_lt]; omega
  have hc : OneMem.call code fuel init [inp] dst mem = (run code fuel 0 (entry init inp dst mem) >>= fun s => ok s.mem) := rfl
  rw [hc]
  by_cases h0 : n = 0
  · subst h0
    have := hrun (fuel - 2 + 1)
    rw [if_pos rfl, hexit, show 1 + (fuel - 2 + 1) = fuel by omega] at this
    refine ⟨s1.mem, by rw [this]; rfl, ?_⟩
    rw [Nat.mul_zero, Nat.add_zero, hent.mem]; exact hg
  · obtain ⟨q, rfl⟩ : ∃ q, n = q + 1 := ⟨n - 1, by omega⟩
    have hreg : Room w (q + 1) rin rout s1 := by
      refine ⟨?_, ?_, ?_, ?_, ?_⟩
      · rw [hent.gin, ei]; omega
      · rw [hent.gout, eo]; omega
      · rw [hent.readable, hent.gin, ei]
        exact fun i h => List.any_eq_true.mpr ⟨inp, by simp, (span_contains _ _).mpr ⟨by omega, by omega⟩⟩
      · rw [hent.readable, hent.gout, eo]
        exact fun i h => List.any_eq_true.mpr ⟨dst, by simp, (span_contains _ _).mpr ⟨by omega, by omega⟩⟩
      · rw [hent.writable, hent.gout, eo]
        exact fun i h => (span_contains _ _).mpr ⟨by omega, by omega⟩
    obtain ⟨s2, r2, g2⟩ := loop_good hle hcode hbody hcnt q s1 k (hent.cnt (by omega)) hreg (by rw [hent.gin, ei, hi])
      (by rw [hent.gout, eo, ho]) (fun j hj => hst j (by omega)) (by rw [hent.mem]; exact hg)
    have := hrun (q + 1 + (fuel - (q + 3) + 1))
    rw [if_neg h0, r2, hexit, show 1 + (q + 1 + (fuel - (q + 3) + 1)) = fuel by omega] at this
    exact ⟨s2.mem, by rw [this]; rfl, g2⟩

theorem entry_len (init : State) (inp dst : Span) (m : Mem) (h : inp.len < 2 ^ 63) :
    ((entry init inp dst m).args 8).toNat = inp.len := by
  show (BitVec.ofNat 64 inp.len).toNat = inp.len
  rw [BitVec.toNat_ofNat, Nat.mod_eq_of_lt]; omega

section
variable {start : Nat → Nat} {pa pb : Nat} {m : Mem} {inp dst : Span} {k : Nat} {mem : Mem}

theorem sse2_good (hle : ∀ i, start i ≤ i) (init : State) (hl : inp.len = dst.len) (hi : inp.base = pa + k)
    (ho : dst.base = pb + k) (bi : inp.base + inp.len < 2 ^ 63) (bo : dst.base + dst.len < 2 ^ 63)
    (hst : ∀ j < inp.len / 16, ∀ i, k + 16 * j ≤ i → i < k + 16 * j + 16 → start i = k + 16 * j)
    (hg : Good start pa pb m k mem) {fuel : Nat} (hf : inp.len + 4 ≤ fuel) :
    ∃ mem', OneMem.call Routines.sSE2XorSlice fuel init [inp] dst mem = ok mem' ∧
      Good start pa pb m (k + 16 * (inp.len / 16)) mem' := by
  obtain ⟨s1, h1, h2, h3⟩ := (sse2_entry (entry init inp dst mem)).elim
  rw [entry_len _ _ _ _ (by omega)] at h2 h3
  exact routine_good (code := Routines.sSE2XorSlice) (L := 1) (E := 2) hle rfl sse2_body cntX_step (by omega) (by omega) hi ho bi bo
    hst hg s1 (fun f => by
      rw [Nat.add_comm, run_jcc f rfl h1, Cond.holds, h3]
      by_cases h0 : inp.len / 16 = 0 <;> simp only [h0, decide_true, decide_false, if_true, if_false] <;> rfl) h2
    (fun s f => run_ret _ rfl rfl) fuel (by omega)

theorem sse2_64_good (hle : ∀ i, start i ≤ i) (init : State) (hl : inp.len = dst.len) (hi : inp.base = pa + k)
    (ho : dst.base = pb + k) (bi : inp.base + inp.len < 2 ^ 63) (bo : dst.base + dst.len < 2 ^ 63)
    (hst : ∀ j < inp.len / 64, ∀ i, k + 64 * j ≤ i → i < k + 64 * j + 64 → start i = k + 64 * j)
    (hg : Good start pa pb m k mem) {fuel : Nat} (hf : inp.len + 4 ≤ fuel) :
    ∃ mem', OneMem.call Routines.sSE2XorSlice_64 fuel init [inp] dst mem = ok mem' ∧
      Good start pa pb m (k + 64 * (inp.len / 64)) mem' := by
  obtain ⟨s1, h1, h2, h3⟩ := (sse2_64_entry (entry init inp dst mem)).elim
  rw [entry_len _ _ _ _ (by omega)] at h2 h3
  exact routine_good (code := Routines.sSE2XorSlice_64) (L := 1) (E := 2) hle rfl sse2_64_body cntX_step (by omega) (by omega) hi ho
    bi bo hst hg s1 (fun f => by
      rw [Nat.add_comm, run_jcc f rfl h1, Cond.holds, h3]
      by_cases h0 : inp.len / 64 = 0 <;> simp only [h0, decide_true, decide_false, if_true, if_false] <;> rfl) h2
    (fun s f => run_ret _ rfl rfl) fuel (by omega)

theorem neon_good (hle : ∀ i, start i ≤ i) (init : State) (hl : inp.len = dst.len) (hi : inp.base = pa + k)
    (ho : dst.base = pb + k) (bi : inp.base + inp.len < 2 ^ 63) (bo : dst.base + dst.len < 2 ^ 63)
    (hst : ∀ j < inp.len / 32, ∀ i, k + 32 * j ≤ i → i < k + 32 * j + 32 → start i = k + 32 * j)
    (hg : Good start pa pb m k mem) {fuel : Nat} (hf : inp.len + 4 ≤ fuel) :
    ∃ mem', OneMem.call Routines.galXorNEON fuel init [inp] dst mem = ok mem' ∧
      Good start pa pb m (k + 32 * (inp.len / 32)) mem' := by
  obtain ⟨s1, h1, h2, h3, h4⟩ := (neonAdd_entry (entry init inp dst mem) (by
    rw [entry_len _ _ _ _ (by omega)]; omega)).elim
  rw [entry_len _ _ _ _ (by omega)] at h2 h3
  exact routine_good (code := Routines.galXorNEON) (L := 1) (E := 2) hle rfl neonAdd_body
    (cntN_step (Nat.mod_lt _ (by decide))) (by omega) (by omega) hi ho bi bo hst hg s1 (fun f => by
      rw [Nat.add_comm, run_jcc f rfl h1, Cond.holds, h3]
      by_cases h0 : inp.len / 32 = 0
      · rw [decide_eq_true (by omega)]; simp only [h0, if_true]
      · rw [decide_eq_false (by omega)]; simp only [h0, if_false]; rfl) h2
    (fun s f => run_ret _ rfl rfl) fuel (by omega)

/-- One byte. -/
theorem byte_good (hle : ∀ i, start i ≤ i) (hst : start k = k) (hg : Good start pa pb m k mem) :
    Good start pa pb m (k + 1) (fun a => if a = pb + k then mem (pb + k) ^^^ mem (pa + k) else mem a) := by
  refine hg.step hle (fun i a b => ?_) (fun x => ?_)
  · rw [show i = k by omega, hst]
  · by_cases hx : x = pb + k
    · subst hx
      rw [if_pos rfl, if_pos (by omega), BitVec.xor_comm]; congr 2; omega
    · rw [if_neg hx, if_neg (by omega)]

theorem xorTail_good (hle : ∀ i, start i ≤ i) {d : Nat} (hl : inp.len = dst.len) (hi : inp.base + d = pa + k)
    (ho : dst.base + d = pb + k) (hst : ∀ i, k ≤ i → i < k + (inp.len - d) → start i = i) (hg : Good start pa pb m k mem) :
    ∃ mem', OneMem.xorTail d inp dst mem = ok mem' ∧ Good start pa pb m (k + (inp.len - d)) mem' := by
  unfold OneMem.xorTail
  refine forUp_inv (fun j mm => Good start pa pb m (k + j) mm) hg (fun i h mm hmm => ?_)
  unfold OneMem.get OneMem.set
  rw [if_pos (by omega), ok_bind, if_pos (by omega), ok_bind, if_pos (by omega)]
  refine ⟨_, rfl, ?_⟩
  have := byte_good hle (hst (k + i) (by omega) (by omega)) hmm
  rw [show inp.base + (d + i) = pa + (k + i) by omega, show dst.base + (d + i) = pb + (k + i) by omega]
  exact this

theorem slice_span {x : Span} {s e : Nat} (h : s ≤ e) (h' : e ≤ x.len) : x.slice s e = ok ⟨x.base + s, e - s⟩ :=
  if_pos ⟨h, h'⟩

theorem getUint64_ok {mm : Mem} {x : Span} (h : 8 ≤ x.len) :
    getUint64 mm x = ok (leUint64 ((List.range 8).map fun q => mm (x.base + q))) := if_pos h

theorem putUint64_ok {mm : Mem} {x : Span} {v : BitVec 64} (h : 8 ≤ x.len) :
    putUint64 mm x v = ok (fun a => if x.base ≤ a ∧ a < x.base + 8 then (lePutUint64 v).getD (a - x.base) 0 else mm a) :=
  if_pos h

/-- A word of the sum. -/
theorem word_xor (mm : Mem) (p q i : Nat) (hi : i < 8) :
    (lePutUint64 (leUint64 ((List.range 8).map fun j => mm (p + j)) ^^^
      leUint64 ((List.range 8).map fun j => mm (q + j)))).getD i 0 = mm (q + i) ^^^ mm (p + i) := by
  rw [lePutUint64_xor (by simp) (by simp), List.getD_eq_getElem?_getD, List.getElem?_eq_getElem (by simpa using hi)]
  simp [BitVec.xor_comm]

theorem batch_good (hle : ∀ i, start i ≤ i) {n : Nat} (hst : ∀ i < n, start i = if i < 32 * (n / 32) then 32 * (i / 32) else i) :
    ∀ (q : Nat) (a b : Span) (k : Nat) (mem : Mem), a.len = b.len → b.len = q → k + q = n → k % 32 = 0 → a.base = pa + k →
      b.base = pb + k → Good start pa pb m k mem →
      ∃ mem', OneMem.addVectorBatchLoop a b mem = ok mem' ∧ Good start pa pb m n mem' := by
  intro q
  induction q using Nat.strong_induction_on with
  | _ q ih =>
    intro a b k mem hl hb hk h32 ha hbb hg
    unfold OneMem.addVectorBatchLoop
    by_cases h : 32 ≤ b.len
    · rw [dif_pos h]
      rw [slice_span (x := a) (by omega) (by omega), ok_bind]
      simp only [slice_span (x := b) (Nat.zero_le _) (Nat.le_refl _), slice_span (x := b) (show 8 ≤ b.len by omega) (Nat.le_refl _),
        slice_span (x := b) (show 16 ≤ b.len by omega) (Nat.le_refl _),
        slice_span (x := b) (show 24 ≤ b.len by omega) (Nat.le_refl _),
        slice_span (x := a) (show 32 ≤ a.len by omega) (Nat.le_refl _), ok_bind]
      rw [slice_span (x := ⟨a.base + 0, 32 - 0⟩) (s := 0) (by simp) (by simp), slice_span (x := ⟨a.base + 0, 32 - 0⟩) (s := 8) (by simp) (by simp),
        slice_span (x := ⟨a.base + 0, 32 - 0⟩) (s := 16) (by simp) (by simp), slice_span (x := ⟨a.base + 0, 32 - 0⟩) (s := 24) (by simp) (by simp)]
      simp only [ok_bind, Nat.add_zero, Nat.sub_zero]
      simp only [getUint64_ok (x := ⟨b.base, b.len⟩) (show 8 ≤ b.len by omega), getUint64_ok (x := ⟨b.base + 8, b.len - 8⟩) (show 8 ≤ b.len - 8 by omega),
        getUint64_ok (x := ⟨b.base + 16, b.len - 16⟩) (show 8 ≤ b.len - 16 by omega),
        getUint64_ok (x := ⟨b.base + 24, b.len - 24⟩) (show 8 ≤ b.len - 24 by omega),
        getUint64_ok (x := ⟨a.base, 32⟩) (show 8 ≤ 32 by omega), getUint64_ok (x := ⟨a.base + 8, 32 - 8⟩) (show 8 ≤ 32 - 8 by omega),
        getUint64_ok (x := ⟨a.base + 16, 32 - 16⟩) (show 8 ≤ 32 - 16 by omega),
        getUint64_ok (x := ⟨a.base + 24, 32 - 24⟩) (show 8 ≤ 32 - 24 by omega), ok_bind,
        putUint64_ok (x := ⟨b.base, b.len⟩) (show 8 ≤ b.len by omega), putUint64_ok (x := ⟨b.base + 8, b.len - 8⟩) (show 8 ≤ b.len - 8 by omega),
        putUint64_ok (x := ⟨b.base + 16, b.len - 16⟩) (show 8 ≤ b.len - 16 by omega),
        putUint64_ok (x := ⟨b.base + 24, b.len - 24⟩) (show 8 ≤ b.len - 24 by omega)]
      refine ih (q - 32) (by omega) _ _ (k + 32) _ (by simp only; omega) (by simp only; omega) (by omega) (by omega) (by simp only; omega)
        (by simp only; omega) (hg.step hle (fun i u v => ?_) (fun x => ?_))
      · rw [hst i (by omega), if_pos (by omega)]; omega
      · rw [← ha, ← hbb]
        by_cases h3 : b.base + 24 ≤ x ∧ x < b.base + 24 + 8
        · rw [if_pos h3, if_pos (by omega), word_xor _ _ _ _ (by omega)]
          congr 2 <;> omega
        rw [if_neg h3]
        by_cases h2 : b.base + 16 ≤ x ∧ x < b.base + 16 + 8
        · rw [if_pos h2, if_pos (by omega), word_xor _ _ _ _ (by omega)]
          congr 2 <;> omega
        rw [if_neg h2]
        by_cases h1 : b.base + 8 ≤ x ∧ x < b.base + 8 + 8
        · rw [if_pos h1, if_pos (by omega), word_xor _ _ _ _ (by omega)]
          congr 2 <;> omega
        rw [if_neg h1]
        by_cases h0 : b.base ≤ x ∧ x < b.base + 8
        · rw [if_pos h0, if_pos (by omega), word_xor _ _ _ _ (by omega)]
          congr 2 <;> omega
        rw [if_neg h0, if_neg (by omega)]
    · rw [dif_neg h]
      obtain ⟨mem', e, g⟩ := xorTail_good (d := 0) hle hl (by omega) (by omega) (fun i u v => by
        rw [hst i (by omega), if_neg (by omega)]) hg
      exact ⟨mem', e, by rw [show n = k + (a.len - 0) by omega]; exact g⟩

theorem generic_good (hle : ∀ i, start i ≤ i) {n : Nat}
    (hst : ∀ i < n, start i = blockStart .noasm n i) :
    ∃ mem', OneMem.addVectorGeneric ⟨pa, n⟩ ⟨pb, n⟩ m = ok mem' ∧ Good start pa pb m n mem' := by
  unfold OneMem.addVectorGeneric
  rw [if_neg (by simp)]
  by_cases h : 256 ≤ n
  · rw [if_pos h, OneMem.addVectorBatchGeneric, if_neg (by simp)]
    refine batch_good hle (fun i hi => ?_) n _ _ 0 m rfl rfl (by omega) rfl rfl rfl (Good.zero _ _ _ _)
    rw [hst i hi]; simp [blockStart, h]
  · rw [if_neg h]
    refine forUp_inv (fun j mm => Good start pa pb m j mm) (Good.zero _ _ _ _) (fun i hi mm hmm => ?_)
    unfold OneMem.get OneMem.set
    rw [if_pos hi, ok_bind, if_pos hi, ok_bind, if_pos hi]
    refine ⟨_, rfl, ?_⟩
    have := byte_good hle (by rw [hst i hi]; simp [blockStart, h]) hmm
    simp only [Galois.galAdd, BitVec.xor_comm (mm (pa + i))]
    exact this

theorem arm64_good (hle : ∀ i, start i ≤ i) {n : Nat} {mc : Machine} (hf : Fits mc pa pb n)
    (hst : ∀ i < n, start i = blockStart .arm64 n i) :
    ∃ mem', OneMem.addVectorArm64 mc ⟨pa, n⟩ ⟨pb, n⟩ m = ok mem' ∧ Good start pa pb m n mem' := by
  unfold OneMem.addVectorArm64
  obtain ⟨m1, e1, g1⟩ := neon_good (inp := ⟨pa, n⟩) (dst := ⟨pb, n⟩) (k := 0) hle (mc.regs 32 0) rfl rfl rfl hf.aEnd hf.bEnd
    (fun j hj i u v => by
      rw [hst i (by simp only at hj; omega)]; simp only [blockStart]; simp only at hj; rw [if_pos (by omega)]; omega)
    (Good.zero start pa pb m) hf.fuel
  rw [e1, ok_bind]
  have ed : (n >>> 5) <<< 5 = 32 * (n / 32) := by
    rw [Nat.shiftLeft_eq, Nat.shiftRight_eq_div_pow]; omega
  simp only [ed]
  simp only [Nat.zero_add] at g1
  by_cases h : 0 < n - 32 * (n / 32)
  · rw [if_pos h]
    obtain ⟨m2, e2, g2⟩ := xorTail_good (inp := ⟨pa, n⟩) (dst := ⟨pb, n⟩) (d := 32 * (n / 32)) hle rfl rfl rfl (fun i u v => by
      simp only at v
      rw [hst i (by omega)]; simp only [blockStart]; rw [if_neg (by omega)]) g1
    exact ⟨m2, e2, by rw [show 32 * (n / 32) + (n - 32 * (n / 32)) = n by omega] at g2; exact g2⟩
  · rw [if_neg h]
    exact ⟨m1, rfl, by rw [show 32 * (n / 32) = n by omega] at g1; exact g1⟩

theorem amd64_good (hle : ∀ i, start i ≤ i) {n : Nat} {mc : Machine} (hf : Fits mc pa pb n) (cpu : Galois.Cpu)
    (hst : ∀ i < n, start i = blockStart (.amd64 cpu) n i) :
    ∃ mem', OneMem.addVectorAmd64 mc cpu ⟨pa, n⟩ ⟨pb, n⟩ m = ok mem' ∧ Good start pa pb m n mem' := by
  have h1 := hf.aEnd
  have h2 := hf.bEnd
  have h3 := hf.fuel
  have ed6 (n : Nat) : (n >>> 6) <<< 6 = 64 * (n / 64) := by
    rw [Nat.shiftLeft_eq, Nat.shiftRight_eq_div_pow]; omega
  have ed4 (n : Nat) : (n >>> 4) <<< 4 = 16 * (n / 16) := by
    rw [Nat.shiftLeft_eq, Nat.shiftRight_eq_div_pow]; omega
  unfold OneMem.addVectorAmd64
  by_cases hs : cpu.sse2
  · have bs (i : Nat) (hi : i < n) : start i = if 128 ≤ n ∧ i < 64 * (n / 64) then 64 * (i / 64)
        else if i < 16 * (n / 16) then 16 * (i / 16) else i := by
      rw [hst i hi]; simp [blockStart, hs]
    -- after the blocks of 64 bytes
    obtain ⟨d, mm, g, hd, hd16, hdn, hdb⟩ : ∃ d mm, Good start pa pb m d mm ∧
        (if Galois.bigSwitchover ≤ n then do
          let m ← OneMem.call Routines.sSE2XorSlice_64 mc.fuel (mc.regs 64 0) [⟨pa, n⟩] ⟨pb, n⟩ m
          let done := (n >>> 6) <<< 6
          pure (done, ← Span.slice ⟨pa, n⟩ done n, ← Span.slice ⟨pb, n⟩ done n, m)
        else pure (0, ⟨pa, n⟩, ⟨pb, n⟩, m)) = (ok (d, ⟨pa + d, n - d⟩, ⟨pb + d, n - d⟩, mm) : Outcome (Nat × Span × Span × Mem)) ∧
        d % 16 = 0 ∧ d ≤ n ∧ ∀ i, d ≤ i → i < n → start i = if i < 16 * (n / 16) then 16 * (i / 16) else i := by
      unfold Galois.bigSwitchover
      by_cases hb : 128 ≤ n
      · obtain ⟨m1, e1, g1⟩ := sse2_64_good (inp := ⟨pa, n⟩) (dst := ⟨pb, n⟩) (k := 0) hle (mc.regs 64 0) rfl rfl rfl h1 h2
          (fun j hj i u v => by
            simp only at hj
            rw [bs i (by omega), if_pos ⟨hb, by omega⟩]; omega) (Good.zero start pa pb m) h3
        simp only [Nat.zero_add] at g1
        refine ⟨64 * (n / 64), m1, g1, ?_, by omega, by omega, fun i u v => ?_⟩
        · rw [if_pos hb, e1, ok_bind]
          simp only [ed6]
          rw [slice_span (by omega) (by simp), ok_bind, slice_span (by omega) (by simp), ok_bind]
          rfl
        · rw [bs i v, if_neg (by omega)]
      · refine ⟨0, m, Good.zero _ _ _ _, ?_, by omega, by omega, fun i u v => ?_⟩
        · rw [if_neg hb]; rfl
        · rw [bs i v, if_neg (by omega)]
    rw [if_pos hs]
    simp only
    rw [hd, ok_bind]
    simp only
    -- after the blocks of 16 bytes
    obtain ⟨e, m2, g2, he, he16, hen, heb⟩ : ∃ e m2, Good start pa pb m e m2 ∧
        (if 16 ≤ n - d then do
          let m ← OneMem.call Routines.sSE2XorSlice mc.fuel (mc.regs 16 d) [⟨pa + d, n - d⟩] ⟨pb + d, n - d⟩ mm
          let done := ((n - d) >>> 4) <<< 4
          pure (← Span.slice ⟨pa + d, n - d⟩ done (n - d), ← Span.slice ⟨pb + d, n - d⟩ done (n - d), m)
        else pure (⟨pa + d, n - d⟩, ⟨pb + d, n - d⟩, mm)) = (ok (⟨pa + e, n - e⟩, ⟨pb + e, n - e⟩, m2) : Outcome (Span × Span × Mem)) ∧
        d ≤ e ∧ e ≤ n ∧ ∀ i, e ≤ i → i < n → start i = i := by
      by_cases hb : 16 ≤ n - d
      · obtain ⟨m1, e1, g1⟩ := sse2_good (inp := ⟨pa + d, n - d⟩) (dst := ⟨pb + d, n - d⟩) (k := d) hle (mc.regs 16 d) rfl rfl rfl
          (by simp only; omega) (by simp only; omega) (fun j hj i u v => by
            simp only at hj
            rw [hdb i (by omega) (by omega), if_pos (by omega)]; omega) g (fuel := mc.fuel) (by simp only; omega)
        refine ⟨_, m1, g1, ?_, by omega, by simp only; omega, fun i u v => ?_⟩
        · rw [if_pos hb, e1, ok_bind]
          simp only [ed4]
          rw [slice_span (by omega) (by simp), ok_bind, slice_span (by omega) (by simp), ok_bind]
          simp only [Nat.add_assoc, Nat.sub_sub]
          rfl
        · simp only at u
          rw [hdb i (by omega) v, if_neg (by omega)]
      · refine ⟨d, mm, g, ?_, by omega, by omega, fun i u v => ?_⟩
        · rw [if_neg hb]; rfl
        · rw [hdb i u v, if_neg (by omega)]
    rw [he, ok_bind]
    simp only
    rw [slice_span (by simp) (by simp), ok_bind]
    obtain ⟨m3, e3, g3⟩ := xorTail_good (inp := ⟨pa + e, n - e⟩) (dst := ⟨pb + e + 0, n - e - 0⟩) (d := 0) (k := e) (pa := pa) (pb := pb) hle rfl rfl rfl
      (fun i u v => heb i u (by simp only at v; omega)) g2
    exact ⟨m3, e3, by simp only at g3; rw [show e + (n - e - 0) = n by omega] at g3; exact g3⟩
  · rw [if_neg hs]
    simp only [Outcome.pure_eq, ok_bind]
    rw [slice_span (by simp) (by simp), ok_bind]
    obtain ⟨m3, e3, g3⟩ := xorTail_good (inp := ⟨pa, n⟩) (dst := ⟨pb + 0, n - 0⟩) (d := 0) (k := 0) hle rfl rfl rfl
      (fun i u v => by simp only at v; rw [hst i (by omega)]; simp [blockStart, hs]) (Good.zero start pa pb m)
    exact ⟨m3, e3, by simp only [Nat.zero_add, Nat.sub_zero] at g3; exact g3⟩

theorem blockStart_le (arch : Galois.Arch) (n i : Nat) : blockStart arch n i ≤ i := by
  unfold blockStart
  cases arch <;> simp only <;> split <;> (try split) <;> (try split) <;> omega

theorem addVector_good (arch : Galois.Arch) {n : Nat} {mc : Machine} (hf : Fits mc pa pb n) (m : Mem) :
    ∃ mem', OneMem.addVector mc arch ⟨pa, n⟩ ⟨pb, n⟩ m = ok (mem', ⟨pb, n⟩) ∧ Good (blockStart arch n) pa pb m n mem' := by
  have hle := blockStart_le arch n
  cases arch with
  | amd64 cpu =>
    obtain ⟨mem', e, g⟩ := amd64_good (m := m) hle hf cpu (fun _ _ => rfl)
    exact ⟨mem', by unfold OneMem.addVector; simp only; rw [e]; rfl, g⟩
  | arm64 =>
    obtain ⟨mem', e, g⟩ := arm64_good (m := m) hle hf (fun _ _ => rfl)
    exact ⟨mem', by unfold OneMem.addVector; simp only; rw [e]; rfl, g⟩
  | noasm =>
    obtain ⟨mem', e, g⟩ := generic_good (pa := pa) (pb := pb) (m := m) hle (fun _ _ => rfl)
    exact ⟨mem', by unfold OneMem.addVector; simp only; rw [e]; rfl, g⟩

end

end Verif.Proofs
