import Verif.Proofs.AsmBody

/-! # The loops of the assembly routines, for any number of iterations -/

namespace Verif.Proofs
open Verif Outcome Asm

/-- What `n` iterations starting in `s` need. -/
structure Region (w n : Nat) (rin rout : Gp) (s : State) : Prop where
  inp : (s.gp rin).toNat + w * n < 2 ^ 64
  out : (s.gp rout).toNat + w * n < 2 ^ 64
  canIn : Can s.readable (s.gp rin).toNat (w * n)
  canOut : Can s.readable (s.gp rout).toNat (w * n)
  canStore : Can s.writable (s.gp rout).toNat (w * n)
  apart : (s.gp rout).toNat ≤ (s.gp rin).toNat ∨ (s.gp rin).toNat + w * n ≤ (s.gp rout).toNat

/-- The memory after `n` iterations starting in `s`. -/
def memAfter (w n : Nat) (F : Byte → Byte → Byte) (rin rout : Gp) (s : State) (b : Nat) : Byte :=
  if (s.gp rout).toNat ≤ b ∧ b < (s.gp rout).toNat + w * n then
    F (s.mem ((s.gp rin).toNat + (b - (s.gp rout).toNat))) (s.mem b) else s.mem b

theorem Region.ready {w n : Nat} {rin rout : Gp} {s : State} (h : Region w (n + 1) rin rout s) :
    Ready w rin rout s := by
  have e : w * (n + 1) = w * n + w := Nat.mul_succ _ _
  have h1 := h.inp
  have h2 := h.out
  rw [e] at h1 h2
  exact ⟨by omega, by omega, fun i hi => h.canIn i (by rw [e]; omega), fun i hi => h.canOut i (by rw [e]; omega),
    fun i hi => h.canStore i (by rw [e]; omega)⟩

theorem Iter.next {w n : Nat} {F : Byte → Byte → Byte} {rin rout : Gp} {s s' : State}
    (h : Region w (n + 1) rin rout s) (it : Iter w F rin rout s s') :
    Region w n rin rout s' ∧ ∀ b, memAfter w n F rin rout s' b = memAfter w (n + 1) F rin rout s b := by
  have e : w * (n + 1) = w * n + w := Nat.mul_succ _ _
  have h1 := h.inp
  have h2 := h.out
  have h3 := h.apart
  rw [e] at h1 h2 h3
  have ei : (s'.gp rin).toNat = (s.gp rin).toNat + w := by
    rw [it.inp]; exact toNat_add64 (n := w) (by omega) (le_refl _)
  have eo : (s'.gp rout).toNat = (s.gp rout).toNat + w := by
    rw [it.out]; exact toNat_add64 (n := w) (by omega) (le_refl _)
  constructor
  · refine ⟨by omega, by omega, ?_, ?_, ?_, by omega⟩
    · rw [it.readable, ei]
      exact h.canIn.sub w (w * n) (by rw [e]; omega)
    · rw [it.readable, eo]
      exact h.canOut.sub w (w * n) (by rw [e]; omega)
    · rw [it.writable, eo]
      exact h.canStore.sub w (w * n) (by rw [e]; omega)
  · intro b
    unfold memAfter
    rw [ei, eo, e]
    by_cases hb : (s.gp rout).toNat ≤ b ∧ b < (s.gp rout).toNat + (w * n + w)
    · rw [if_pos hb]
      by_cases hb' : b < (s.gp rout).toNat + w
      · rw [if_neg (by omega), it.mem, if_pos (by omega)]
      · rw [if_pos (by omega), it.mem, it.mem, if_neg (by omega), if_neg (by omega)]
        congr 2; omega
    · rw [if_neg (by omega), it.mem, if_neg (by omega), if_neg hb]

/-- A loop whose body satisfies `Iter` and whose counter reaches zero after `n` iterations. -/
theorem loop {code : Code} {L E : Nat} {body : List Instr} {c : Cond} {w : Nat} {F : Byte → Byte → Byte} {rin rout : Gp}
    {C : State → State → Prop} {T : State → Prop} {Cnt : Nat → State → Prop}
    (hcode : code[L]? = some ⟨body, .jcc c L E⟩)
    (hbody : ∀ s, Ready w rin rout s → T s →
      Post (fun s' => Iter w F rin rout s s' ∧ C s s' ∧ T s') (execAll body s))
    (hcnt : ∀ k s s', Cnt (k + 1) s → C s s' → Cnt k s' ∧ c.holds s' = decide (0 < k)) :
    ∀ (n : Nat) (s : State), Cnt (n + 1) s → T s → Region w (n + 1) rin rout s →
      ∃ s', (∀ fuel, run code (n + 1 + fuel) L s = run code fuel E s') ∧
        ∀ b, s'.mem b = memAfter w (n + 1) F rin rout s b := by
  intro n
  induction n with
  | zero =>
    intro s h1 h2 h3
    obtain ⟨s', e, it, hc, ht⟩ := (hbody s h3.ready h2).elim
    obtain ⟨c1, c2⟩ := hcnt 0 s s' h1 hc
    refine ⟨s', fun fuel => ?_, fun b => ?_⟩
    · rw [Nat.zero_add, Nat.add_comm, run, hcode]
      simp only [e, ok_bind, c2]
      rfl
    · rw [← (Iter.next h3 it).2 b]
      unfold memAfter
      rw [if_neg (by omega)]
  | succ n ih =>
    intro s h1 h2 h3
    obtain ⟨s', e, it, hc, ht⟩ := (hbody s h3.ready h2).elim
    obtain ⟨c1, c2⟩ := hcnt (n + 1) s s' h1 hc
    obtain ⟨nx, nm⟩ := Iter.next h3 it
    obtain ⟨s2, r2, m2⟩ := ih s' c1 ht nx
    refine ⟨s2, fun fuel => ?_, fun b => ?_⟩
    · have : n + 1 + 1 + fuel = (n + 1 + fuel) + 1 := by omega
      rw [this, run, hcode]
      simp only [e, ok_bind, c2, Nat.succ_pos, decide_true, if_true]
      exact r2 fuel
    · rw [m2, nm]

/-- The amd64 counter. -/
def CntX (k : Nat) (s : State) : Prop := (s.gp .r9).toNat = k

theorem cntX_step (k : Nat) (s s' : State) (h : CntX (k + 1) s) (hc : Count s s') :
    CntX k s' ∧ Cond.holds .nonzero s' = decide (0 < k) := by
  have e : (s.gp .r9 - 1#64).toNat = k := by
    have := (s.gp .r9).isLt
    rw [BitVec.toNat_sub, h]
    have : (1#64).toNat = 1 := rfl
    rw [this]
    unfold CntX at h
    omega
  refine ⟨by rw [CntX, hc.1, e], ?_⟩
  rw [Cond.holds, hc.2]
  have : (s.gp .r9 - 1#64 == 0#64) = decide (k = 0) := by
    rw [← e]
    apply Bool.eq_iff_iff.mpr
    rw [beq_iff_eq, decide_eq_true_eq]
    constructor
    · intro h; rw [h]; rfl
    · intro h; exact BitVec.eq_of_toNat_eq h
  rw [this]
  by_cases hk : k = 0 <;> simp [hk, Nat.pos_of_ne_zero]

/-- The arm64 counter: `R2 = 32 * (iterations left - 1) + rest`, negative when nothing is left. -/
def CntN (r : Nat) (k : Nat) (s : State) : Prop :=
  if k = 0 then (s.gp .r2).msb = true else (s.gp .r2).toNat = 32 * (k - 1) + r ∧ 32 * (k - 1) + r < 2 ^ 63

theorem msb_lt {x : BitVec 64} : x.msb = decide (2 ^ 63 ≤ x.toNat) := BitVec.msb_eq_decide x

theorem cntN_step {r : Nat} (hr : r < 32) (k : Nat) (s s' : State) (h : CntN r (k + 1) s) (hc : CountN s s') :
    CntN r k s' ∧ Cond.holds .plus s' = decide (0 < k) := by
  rw [CntN, if_neg (by omega)] at h
  obtain ⟨h1, h2⟩ := h
  have e32 : (32#64).toNat = 32 := rfl
  have e := BitVec.toNat_sub (s.gp .r2) 32#64
  rw [e32, h1] at e
  rw [Cond.holds, hc.2, msb_lt, e]
  unfold CntN
  rw [hc.1, msb_lt, e]
  by_cases hk : k = 0
  · subst hk
    have : (2 ^ 64 - 32 + (32 * (0 + 1 - 1) + r)) % 2 ^ 64 = 2 ^ 64 - 32 + r := by
      rw [Nat.mod_eq_of_lt] <;> omega
    rw [this]
    simp
    omega
  · have : (2 ^ 64 - 32 + (32 * (k + 1 - 1) + r)) % 2 ^ 64 = 32 * (k - 1) + r := by
      omega
    rw [this, if_neg hk]
    refine ⟨⟨rfl, by omega⟩, ?_⟩
    have h3 : ¬ 2 ^ 63 ≤ 32 * (k - 1) + r := by omega
    rw [decide_eq_false h3]
    simp [Nat.pos_of_ne_zero hk]

end Verif.Proofs
