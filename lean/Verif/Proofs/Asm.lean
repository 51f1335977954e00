import Verif.Proofs.AsmEntry

/-! # The assembly routines compute the block loops of `Verif.Model.Vector` -/

namespace Verif.Proofs
open Verif Outcome Asm

/-- Two slices do not overlap. -/
def Apart (x y : Arg) : Prop := x.base + x.bytes.length ≤ y.base ∨ y.base + y.bytes.length ≤ x.base

theorem contains_iff (x : Arg) (a : Nat) : x.contains a = true ↔ x.base ≤ a ∧ a < x.base + x.bytes.length := by
  simp [Arg.contains]

theorem memOf_eq {xs : List Arg} (h : xs.Pairwise Apart) {x : Arg} (hx : x ∈ xs) {i : Nat} (hi : i < x.bytes.length) :
    memOf xs (x.base + i) = x.bytes.getD i 0 := by
  induction xs with
  | nil => cases hx
  | cons y ys ih =>
    rw [List.pairwise_cons] at h
    unfold memOf
    rcases List.mem_cons.mp hx with rfl | hm
    · rw [if_pos ((contains_iff _ _).mpr ⟨by omega, by omega⟩)]
      congr 1; omega
    · rw [if_neg, ih h.2 hm]
      rw [contains_iff]
      have := h.1 x hm
      unfold Apart at this
      omega

theorem can_mem {xs : List Arg} {x : Arg} (hx : x ∈ xs) {n : Nat} (hn : n ≤ x.bytes.length) :
    Can (fun a => xs.any (·.contains a)) x.base n := fun i hi =>
  List.any_eq_true.mpr ⟨x, hx, (contains_iff _ _).mpr ⟨by omega, by omega⟩⟩

theorem can_contains {x : Arg} {n : Nat} (hn : n ≤ x.bytes.length) : Can x.contains x.base n := fun i hi =>
  (contains_iff _ _).mpr ⟨by omega, by omega⟩

/-- The state in which `call` enters the routine. -/
def initial (init : State) (xs : List Arg) (dst : Arg) : State :=
  { init with
    mem := memOf (xs ++ [dst])
    readable := fun a => (xs ++ [dst]).any (·.contains a)
    writable := dst.contains
    args := frame (xs ++ [dst]) }

theorem call_eq (code : Code) (fuel : Nat) (init : State) (xs : List Arg) (dst : Arg) :
    call code fuel init xs dst = (run code fuel 0 (initial init xs dst) >>= fun s =>
      ok ((List.range dst.bytes.length).map fun i => s.mem (dst.base + i))) := rfl

theorem run_jcc {code : Code} {b : Nat} {body : List Instr} {c : Cond} {t n : Nat} {s s' : State} (fuel : Nat)
    (h : code[b]? = some ⟨body, .jcc c t n⟩) (e : execAll body s = ok s') :
    run code (fuel + 1) b s = run code fuel (if c.holds s' then t else n) s' := by
  rw [run, h]; simp only [e, ok_bind]
theorem run_jmp {code : Code} {b : Nat} {body : List Instr} {t : Nat} {s s' : State} (fuel : Nat)
    (h : code[b]? = some ⟨body, .jmp t⟩) (e : execAll body s = ok s') :
    run code (fuel + 1) b s = run code fuel t s' := by
  rw [run, h]; simp only [e, ok_bind]
theorem run_ret {code : Code} {b : Nat} {body : List Instr} {s s' : State} (fuel : Nat)
    (h : code[b]? = some ⟨body, .ret⟩) (e : execAll body s = ok s') :
    run code (fuel + 1) b s = ok s' := by
  rw [run, h]; simp only [e, ok_bind]

/-- Where the slices of a call are. -/
structure Placed (xs : List Arg) (inp dst : Arg) : Prop where
  apart : (xs ++ [dst]).Pairwise Apart
  bound : ∀ x ∈ xs ++ [dst], x.base + x.bytes.length < 2 ^ 64
  small : ∀ x ∈ xs ++ [dst], x.bytes.length < 2 ^ 63
  mem : inp ∈ xs
  sep : Apart inp dst

theorem toNat_base {xs : List Arg} {inp dst x : Arg} (h : Placed xs inp dst) (hx : x ∈ xs ++ [dst]) :
    (BitVec.ofNat 64 x.base).toNat = x.base := by
  have := h.bound x hx
  rw [BitVec.toNat_ofNat, Nat.mod_eq_of_lt]; omega
theorem toNat_len {xs : List Arg} {inp dst x : Arg} (h : Placed xs inp dst) (hx : x ∈ xs ++ [dst]) :
    (BitVec.ofNat 64 x.bytes.length).toNat = x.bytes.length := by
  have := h.small x hx
  rw [BitVec.toNat_ofNat, Nat.mod_eq_of_lt]; omega

/-- A routine that enters the loop with `n` iterations to do (or goes directly to its end) fills the first `n` blocks
of the destination. -/
theorem routine {code : Code} {L E e w n : Nat} {body : List Instr} {c : Cond} {F : Byte → Byte → Byte} {rin rout : Gp}
    {C : State → State → Prop} {T : State → Prop} {Cnt : Nat → State → Prop} {init : State} {xs : List Arg} {inp dst : Arg}
    (hp : Placed xs inp dst) (hn : w * n ≤ inp.bytes.length) (hn' : w * n ≤ dst.bytes.length)
    (hcode : code[L]? = some ⟨body, .jcc c L E⟩)
    (hbody : ∀ s, Ready w rin rout s → T s →
      Post (fun s' => Iter w F rin rout s s' ∧ C s s' ∧ T s') (execAll body s))
    (hcnt : ∀ k s s', Cnt (k + 1) s → C s s' → Cnt k s' ∧ c.holds s' = decide (0 < k))
    (s1 : State)
    (hrun : ∀ fuel, run code (e + fuel) 0 (initial init xs dst) = run code fuel (if n = 0 then E else L) s1)
    (hent : Entered n rin rout (BitVec.ofNat 64 inp.base) (BitVec.ofNat 64 dst.base) Cnt T (initial init xs dst) s1)
    (hexit : ∀ s, ∃ s', (∀ fuel, run code (fuel + 2) E s = ok s') ∧ s'.mem = s.mem) (fuel : Nat) :
    call code (e + n + 2 + fuel) init xs dst =
      ok (filled (fun i => F (inp.bytes.getD i 0) (dst.bytes.getD i 0)) dst.bytes (w * n)) := by
  have hd : dst ∈ xs ++ [dst] := by simp
  have hi : inp ∈ xs ++ [dst] := by simp [hp.mem]
  have eb := toNat_base hp hd
  have ei := toNat_base hp hi
  have main : ∃ s', (∀ fuel, run code (e + n + 2 + fuel) 0 (initial init xs dst) = ok s') ∧
      ∀ b, s'.mem b = memAfter w n F rin rout s1 b := by
    by_cases h0 : n = 0
    · obtain ⟨s', h1, h2⟩ := hexit s1
      refine ⟨s', fun fuel => ?_, fun b => ?_⟩
      · have := hrun (fuel + 2)
        rw [if_pos h0, h1] at this
        rw [← this]; congr 1; omega
      · rw [h2, memAfter, if_neg]; subst h0; omega
    · obtain ⟨m, rfl⟩ : ∃ m, n = m + 1 := ⟨n - 1, by omega⟩
      have hreg : Region w (m + 1) rin rout s1 := by
        have b1 := hp.bound _ hi
        have b2 := hp.bound _ hd
        refine ⟨?_, ?_, ?_, ?_, ?_, ?_⟩
        · rw [hent.gin, ei]; omega
        · rw [hent.gout, eb]; omega
        · rw [hent.readable, hent.gin, ei]; exact can_mem hi hn
        · rw [hent.readable, hent.gout, eb]; exact can_mem hd hn'
        · rw [hent.writable, hent.gout, eb]; exact can_contains hn'
        · rw [hent.gin, hent.gout, eb, ei]
          have := hp.sep
          unfold Apart at this
          omega
      obtain ⟨s2, r2, m2⟩ := loop hcode hbody hcnt m s1 (hent.cnt (by omega)) (hent.tabs (by omega)) hreg
      obtain ⟨s', h1, h2⟩ := hexit s2
      refine ⟨s', fun fuel => ?_, fun b => ?_⟩
      · have := hrun (m + 1 + (fuel + 2))
        rw [if_neg h0, r2, h1] at this
        rw [← this]; congr 1; omega
      · rw [h2, m2]
  obtain ⟨s', h1, h2⟩ := main
  rw [call_eq, h1, ok_bind]
  congr 1
  apply List.ext_getElem?
  intro k
  rw [getElem?_filled hn', List.getElem?_map]
  have m1 (i : Nat) (h : i < dst.bytes.length) : s1.mem (dst.base + i) = dst.bytes.getD i 0 := by
    rw [hent.mem]; exact memOf_eq hp.apart hd h
  have m2 (i : Nat) (h : i < inp.bytes.length) : s1.mem (inp.base + i) = inp.bytes.getD i 0 := by
    rw [hent.mem]; exact memOf_eq hp.apart hi h
  by_cases hk : k < dst.bytes.length
  · rw [List.getElem?_range hk, Option.map_some, h2, memAfter, hent.gin, hent.gout, eb, ei]
    by_cases hk' : k < w * n
    · rw [if_pos hk', if_pos (by omega), m1 _ hk]
      have e1 : inp.base + (dst.base + k - dst.base) = inp.base + k := by omega
      rw [e1, m2 _ (by omega)]
    · rw [if_neg hk', if_neg (by omega), m1 _ hk, List.getD_eq_getElem?_getD, List.getElem?_eq_getElem hk]
      rfl
  · rw [List.getElem?_eq_none (by simpa using hk), if_neg (by omega), List.getElem?_eq_none (by omega)]
    rfl


/-! ## The routines -/

/-- What a call needs: the slices lie in memory without overlapping (the tables have 16 entries). -/
structure PlacedMul (low high inp out : Arg) : Prop extends Placed [low, high, inp] inp out where
  lowLen : low.bytes.length = 16
  highLen : high.bytes.length = 16

theorem PlacedMul.tables {low high inp out : Arg} (h : PlacedMul low high inp out) (init : State) :
    Can (initial init [low, high, inp] out).readable ((initial init [low, high, inp] out).args 0).toNat 16 ∧
    Can (initial init [low, high, inp] out).readable ((initial init [low, high, inp] out).args 24).toNat 16 ∧
    (∀ i < 16, (initial init [low, high, inp] out).mem (((initial init [low, high, inp] out).args 0).toNat + i)
      = low.bytes.getD i 0) ∧
    ∀ i < 16, (initial init [low, high, inp] out).mem (((initial init [low, high, inp] out).args 24).toNat + i)
      = high.bytes.getD i 0 := by
  have e1 : ((initial init [low, high, inp] out).args 0).toNat = low.base := toNat_base h.toPlaced (by simp)
  have e2 : ((initial init [low, high, inp] out).args 24).toNat = high.base := toNat_base h.toPlaced (by simp)
  rw [e1, e2]
  exact ⟨can_mem (by simp) h.lowLen.ge, can_mem (by simp) h.highLen.ge,
    fun i hi => memOf_eq h.apart (by simp) (by rw [h.lowLen]; exact hi),
    fun i hi => memOf_eq h.apart (by simp) (by rw [h.highLen]; exact hi)⟩

theorem PlacedMul.len {low high inp out : Arg} (h : PlacedMul low high inp out) (init : State) :
    ((initial init [low, high, inp] out).args 56).toNat = inp.bytes.length := toNat_len h.toPlaced (by simp)

theorem Placed.len {inp out : Arg} (h : Placed [inp] inp out) (init : State) :
    ((initial init [inp] out).args 8).toNat = inp.bytes.length := toNat_len h (by simp)

theorem mul_div_le' (w n : Nat) : w * (n / w) ≤ n := Nat.mul_div_le n w

theorem sse2_call {inp out : Arg} (hp : Placed [inp] inp out) (hn : 16 * (inp.bytes.length / 16) ≤ out.bytes.length)
    (init : State) {fuel : Nat} (hf : inp.bytes.length / 16 + 4 ≤ fuel) :
    call Routines.sSE2XorSlice fuel init [inp] out =
      ok (filled (fun i => inp.bytes.getD i 0 ^^^ out.bytes.getD i 0) out.bytes (16 * (inp.bytes.length / 16))) := by
  obtain ⟨s1, h1, h2, h3⟩ := (sse2_entry (initial init [inp] out)).elim
  rw [hp.len init] at h2 h3
  have := routine (code := Routines.sSE2XorSlice) (L := 1) (E := 2) (e := 1) (n := inp.bytes.length / 16) hp (mul_div_le' _ _) hn rfl
    (fun s hr _ => by
      obtain ⟨s', e, q⟩ := (sse2_body s hr).elim
      exact e ▸ (show Post (fun s' => Iter 16 (fun x y => x ^^^ y) .si .dx s s' ∧ Count s s' ∧ (fun _ => True) s') (ok s')
        from ⟨q.1, q.2, trivial⟩)) cntX_step s1
    (fun f => by
      rw [Nat.add_comm, run_jcc f rfl h1, Cond.holds, h3]
      by_cases h0 : inp.bytes.length / 16 = 0 <;> simp only [h0, decide_true, decide_false, if_true, if_false] <;> rfl) h2
    (fun s => ⟨s, fun f => run_ret _ rfl rfl, rfl⟩) (fuel - (inp.bytes.length / 16 + 3))
  rwa [show 1 + inp.bytes.length / 16 + 2 + (fuel - (inp.bytes.length / 16 + 3)) = fuel by omega] at this

theorem sse2_64_call {inp out : Arg} (hp : Placed [inp] inp out) (hn : 64 * (inp.bytes.length / 64) ≤ out.bytes.length)
    (init : State) {fuel : Nat} (hf : inp.bytes.length / 64 + 4 ≤ fuel) :
    call Routines.sSE2XorSlice_64 fuel init [inp] out =
      ok (filled (fun i => inp.bytes.getD i 0 ^^^ out.bytes.getD i 0) out.bytes (64 * (inp.bytes.length / 64))) := by
  obtain ⟨s1, h1, h2, h3⟩ := (sse2_64_entry (initial init [inp] out)).elim
  rw [hp.len init] at h2 h3
  have := routine (code := Routines.sSE2XorSlice_64) (L := 1) (E := 2) (e := 1) (n := inp.bytes.length / 64) hp (mul_div_le' _ _) hn rfl
    (fun s hr _ => by
      obtain ⟨s', e, q⟩ := (sse2_64_body s hr).elim
      exact e ▸ (show Post (fun s' => Iter 64 (fun x y => x ^^^ y) .si .dx s s' ∧ Count s s' ∧ (fun _ => True) s') (ok s')
        from ⟨q.1, q.2, trivial⟩)) cntX_step s1
    (fun f => by
      rw [Nat.add_comm, run_jcc f rfl h1, Cond.holds, h3]
      by_cases h0 : inp.bytes.length / 64 = 0 <;> simp only [h0, decide_true, decide_false, if_true, if_false] <;> rfl) h2
    (fun s => ⟨s, fun f => run_ret _ rfl rfl, rfl⟩) (fuel - (inp.bytes.length / 64 + 3))
  rwa [show 1 + inp.bytes.length / 64 + 2 + (fuel - (inp.bytes.length / 64 + 3)) = fuel by omega] at this

theorem avx2_call {low high inp out : Arg} (hp : PlacedMul low high inp out)
    (hn : 32 * (inp.bytes.length / 32) ≤ out.bytes.length) (init : State) {fuel : Nat}
    (hf : inp.bytes.length / 32 + 4 ≤ fuel) :
    call Routines.galMulAVX2 fuel init [low, high, inp] out =
      ok (filled (fun i => Galois.nibbleMul low.bytes high.bytes (inp.bytes.getD i 0)) out.bytes
        (32 * (inp.bytes.length / 32))) := by
  obtain ⟨t1, t2, t3, t4⟩ := hp.tables init
  obtain ⟨s1, h1, h2, h3⟩ := (avx2_entry low.bytes high.bytes (initial init [low, high, inp] out) t1 t2 t3 t4).elim
  rw [hp.len init] at h2 h3
  have := routine (code := Routines.galMulAVX2) (L := 1) (E := 2) (e := 1) (n := inp.bytes.length / 32) hp.toPlaced (mul_div_le' _ _)
    hn rfl (avx2_body low.bytes high.bytes) cntX_step s1
    (fun f => by
      rw [Nat.add_comm, run_jcc f rfl h1, Cond.holds, h3]
      by_cases h0 : inp.bytes.length / 32 = 0 <;> simp only [h0, decide_true, decide_false, if_true, if_false] <;> rfl) h2
    (fun s => ⟨_, fun f => run_ret _ rfl rfl, rfl⟩) (fuel - (inp.bytes.length / 32 + 3))
  rwa [show 1 + inp.bytes.length / 32 + 2 + (fuel - (inp.bytes.length / 32 + 3)) = fuel by omega] at this

theorem avx2Xor_call {low high inp out : Arg} (hp : PlacedMul low high inp out)
    (hn : 32 * (inp.bytes.length / 32) ≤ out.bytes.length) (init : State) {fuel : Nat}
    (hf : inp.bytes.length / 32 + 4 ≤ fuel) :
    call Routines.galMulAVX2Xor fuel init [low, high, inp] out =
      ok (filled (fun i => Galois.nibbleMul low.bytes high.bytes (inp.bytes.getD i 0) ^^^ out.bytes.getD i 0) out.bytes
        (32 * (inp.bytes.length / 32))) := by
  obtain ⟨t1, t2, t3, t4⟩ := hp.tables init
  obtain ⟨s1, h1, h2, h3⟩ := (avx2Xor_entry low.bytes high.bytes (initial init [low, high, inp] out) t1 t2 t3 t4).elim
  rw [hp.len init] at h2 h3
  have := routine (code := Routines.galMulAVX2Xor) (L := 1) (E := 2) (e := 1) (n := inp.bytes.length / 32) hp.toPlaced (mul_div_le' _ _)
    hn rfl (avx2Xor_body low.bytes high.bytes) cntX_step s1
    (fun f => by
      rw [Nat.add_comm, run_jcc f rfl h1, Cond.holds, h3]
      by_cases h0 : inp.bytes.length / 32 = 0 <;> simp only [h0, decide_true, decide_false, if_true, if_false] <;> rfl) h2
    (fun s => ⟨_, fun f => run_ret _ rfl rfl, rfl⟩) (fuel - (inp.bytes.length / 32 + 3))
  rwa [show 1 + inp.bytes.length / 32 + 2 + (fuel - (inp.bytes.length / 32 + 3)) = fuel by omega] at this

theorem avx2_64_call {low high inp out : Arg} (hp : PlacedMul low high inp out)
    (hn : 64 * (inp.bytes.length / 64) ≤ out.bytes.length) (init : State) {fuel : Nat}
    (hf : inp.bytes.length / 64 + 4 ≤ fuel) :
    call Routines.galMulAVX2_64 fuel init [low, high, inp] out =
      ok (filled (fun i => Galois.nibbleMul low.bytes high.bytes (inp.bytes.getD i 0)) out.bytes
        (64 * (inp.bytes.length / 64))) := by
  obtain ⟨t1, t2, t3, t4⟩ := hp.tables init
  obtain ⟨s1, h1, h2, h3⟩ := (avx2_64_entry low.bytes high.bytes (initial init [low, high, inp] out) t1 t2 t3 t4).elim
  rw [hp.len init] at h2 h3
  have := routine (code := Routines.galMulAVX2_64) (L := 1) (E := 2) (e := 1) (n := inp.bytes.length / 64) hp.toPlaced (mul_div_le' _ _)
    hn rfl (avx2_64_body low.bytes high.bytes) cntX_step s1
    (fun f => by
      rw [Nat.add_comm, run_jcc f rfl h1, Cond.holds, h3]
      by_cases h0 : inp.bytes.length / 64 = 0 <;> simp only [h0, decide_true, decide_false, if_true, if_false] <;> rfl) h2
    (fun s => ⟨_, fun f => run_ret _ rfl rfl, rfl⟩) (fuel - (inp.bytes.length / 64 + 3))
  rwa [show 1 + inp.bytes.length / 64 + 2 + (fuel - (inp.bytes.length / 64 + 3)) = fuel by omega] at this

theorem avx2Xor_64_call {low high inp out : Arg} (hp : PlacedMul low high inp out)
    (hn : 64 * (inp.bytes.length / 64) ≤ out.bytes.length) (init : State) {fuel : Nat}
    (hf : inp.bytes.length / 64 + 4 ≤ fuel) :
    call Routines.galMulAVX2Xor_64 fuel init [low, high, inp] out =
      ok (filled (fun i => Galois.nibbleMul low.bytes high.bytes (inp.bytes.getD i 0) ^^^ out.bytes.getD i 0) out.bytes
        (64 * (inp.bytes.length / 64))) := by
  obtain ⟨t1, t2, t3, t4⟩ := hp.tables init
  obtain ⟨s1, h1, h2, h3⟩ := (avx2Xor_64_entry low.bytes high.bytes (initial init [low, high, inp] out) t1 t2 t3 t4).elim
  rw [hp.len init] at h2 h3
  have := routine (code := Routines.galMulAVX2Xor_64) (L := 1) (E := 2) (e := 1) (n := inp.bytes.length / 64) hp.toPlaced (mul_div_le' _ _)
    hn rfl (avx2Xor_64_body low.bytes high.bytes) cntX_step s1
    (fun f => by
      rw [Nat.add_comm, run_jcc f rfl h1, Cond.holds, h3]
      by_cases h0 : inp.bytes.length / 64 = 0 <;> simp only [h0, decide_true, decide_false, if_true, if_false] <;> rfl) h2
    (fun s => ⟨_, fun f => run_ret _ rfl rfl, rfl⟩) (fuel - (inp.bytes.length / 64 + 3))
  rwa [show 1 + inp.bytes.length / 64 + 2 + (fuel - (inp.bytes.length / 64 + 3)) = fuel by omega] at this

/-- X6-X8 as before and both pointers aligned. -/
def TabsAligned (low high : List Byte) (s : State) : Prop :=
  Tabs 16 low high s ∧ (s.gp .si).toNat % 16 = 0 ∧ (s.gp .dx).toNat % 16 = 0

theorem aligned_of (x y : BitVec 64) (h : ((y &&& 15#64) ||| (x &&& 15#64)) = 0#64) :
    x.toNat % 16 = 0 ∧ y.toNat % 16 = 0 := by
  have e (x : BitVec 64) : x.toNat % 16 = (x &&& 15#64).toNat := by
    rw [BitVec.toNat_and]
    exact (Nat.and_two_pow_sub_one_eq_mod x.toNat 4).symm
  have hz := h
  rw [BitVec.or_eq_zero_iff] at hz
  rw [e, e, hz.1, hz.2]
  exact ⟨rfl, rfl⟩

theorem aligned_step {F : Byte → Byte → Byte} {s s' : State} (hr : Ready 16 .si .dx s) (it : Iter 16 F .si .dx s s')
    (h : (s.gp .si).toNat % 16 = 0 ∧ (s.gp .dx).toNat % 16 = 0) :
    (s'.gp .si).toNat % 16 = 0 ∧ (s'.gp .dx).toNat % 16 = 0 := by
  rw [it.inp, it.out, toNat_add64 hr.inp (le_refl _), toNat_add64 hr.out (le_refl _)]
  omega

theorem ssse3_call {low high inp out : Arg} (hp : PlacedMul low high inp out)
    (hn : 16 * (inp.bytes.length / 16) ≤ out.bytes.length) (init : State) {fuel : Nat}
    (hf : inp.bytes.length / 16 + 4 ≤ fuel) :
    call Routines.galMulSSSE3 fuel init [low, high, inp] out =
      ok (filled (fun i => Galois.nibbleMul low.bytes high.bytes (inp.bytes.getD i 0)) out.bytes
        (16 * (inp.bytes.length / 16))) := by
  obtain ⟨t1, t2, t3, t4⟩ := hp.tables init
  obtain ⟨s1, h1, ⟨h2, h3⟩, hax, hbx⟩ :=
    (ssse3_entry low.bytes high.bytes (initial init [low, high, inp] out) t1 t2 t3 t4).elim
  rw [hp.len init] at h2 h3
  have hexit : ∀ s : State, ∃ s', (∀ f, run Routines.galMulSSSE3 (f + 2) 5 s = ok s') ∧ s'.mem = s.mem :=
    fun s => ⟨s, fun f => run_ret _ rfl rfl, rfl⟩
  by_cases h0 : inp.bytes.length / 16 = 0
  · have hrun (f : Nat) : run Routines.galMulSSSE3 (1 + f) 0 (initial init [low, high, inp] out) =
        run Routines.galMulSSSE3 f (if inp.bytes.length / 16 = 0 then 5 else 4) s1 := by
      rw [Nat.add_comm, run_jcc f rfl h1, Cond.holds, h3]
      simp only [h0, decide_true, if_true]
    have := routine (code := Routines.galMulSSSE3) (L := 4) (E := 5) (e := 1) (n := inp.bytes.length / 16) hp.toPlaced
      (mul_div_le' _ _) hn rfl (ssse3_body low.bytes high.bytes) cntX_step s1 hrun h2 hexit
      (fuel - (inp.bytes.length / 16 + 3))
    rwa [show 1 + inp.bytes.length / 16 + 2 + (fuel - (inp.bytes.length / 16 + 3)) = fuel by omega] at this
  · have e1 := ssse3_test s1
    have hrun (f : Nat) : run Routines.galMulSSSE3 (2 + f) 0 (initial init [low, high, inp] out) =
        run Routines.galMulSSSE3 (f + 1) 1 s1 := by
      rw [show 2 + f = (f + 1) + 1 by omega, run_jcc (f + 1) rfl h1, Cond.holds, h3]
      simp only [h0, decide_false]; rfl
    have hent : ∀ T : State → Prop, T { s1.setG .bx (s1.gp .bx ||| s1.gp .ax) with zf := s1.gp .bx ||| s1.gp .ax == 0#64 } →
        Entered (inp.bytes.length / 16) .si .dx (BitVec.ofNat 64 inp.base) (BitVec.ofNat 64 out.base) CntX T
          (initial init [low, high, inp] out)
          { s1.setG .bx (s1.gp .bx ||| s1.gp .ax) with zf := s1.gp .bx ||| s1.gp .ax == 0#64 } :=
      fun T hT => ⟨h2.mem, h2.readable, h2.writable, h2.gin, h2.gout, fun h => h2.cnt h, fun _ => hT⟩
    by_cases hal : s1.gp .bx ||| s1.gp .ax = 0#64
    · have ha : ((s1.gp .si).toNat % 16 = 0 ∧ (s1.gp .dx).toNat % 16 = 0) := by
        rw [hax, hbx] at hal
        rw [h2.gin, h2.gout]
        exact aligned_of _ _ hal
      have := routine (code := Routines.galMulSSSE3) (L := 2) (E := 3) (e := 2) (n := inp.bytes.length / 16) hp.toPlaced
        (mul_div_le' _ _) hn rfl (T := TabsAligned low.bytes high.bytes)
        (fun s hr ht => by
          obtain ⟨s', e, q1, q2, q3⟩ := (ssse3_aligned_body low.bytes high.bytes s hr ht.1 ht.2.1 ht.2.2).elim
          exact e ▸ (show Post (fun s' => Iter 16 (fun x _ => Galois.nibbleMul low.bytes high.bytes x) .si .dx s s' ∧
            Count s s' ∧ TabsAligned low.bytes high.bytes s') (ok s') from ⟨q1, q2, q3, aligned_step hr q1 ht.2⟩)) cntX_step
        { s1.setG .bx (s1.gp .bx ||| s1.gp .ax) with zf := s1.gp .bx ||| s1.gp .ax == 0#64 }
        (fun f => by
          rw [hrun, run_jcc f rfl e1, Cond.holds]
          simp only [h0, hal, if_false]; rfl)
        (hent _ ⟨h2.tabs (by omega), ha⟩)
        (fun s => ⟨s, fun f => (run_jmp (f + 1) rfl rfl).trans (run_ret f rfl rfl), rfl⟩)
        (fuel - (inp.bytes.length / 16 + 4))
      rwa [show 2 + inp.bytes.length / 16 + 2 + (fuel - (inp.bytes.length / 16 + 4)) = fuel by omega] at this
    · have := routine (code := Routines.galMulSSSE3) (L := 4) (E := 5) (e := 2) (n := inp.bytes.length / 16) hp.toPlaced
        (mul_div_le' _ _) hn rfl (ssse3_body low.bytes high.bytes) cntX_step
        { s1.setG .bx (s1.gp .bx ||| s1.gp .ax) with zf := s1.gp .bx ||| s1.gp .ax == 0#64 }
        (fun f => by
          rw [hrun, run_jcc f rfl e1, Cond.holds]
          simp only [h0, if_false]
          rw [beq_eq_false_iff_ne.mpr hal]; rfl)
        (hent _ (h2.tabs (by omega))) hexit (fuel - (inp.bytes.length / 16 + 4))
      rwa [show 2 + inp.bytes.length / 16 + 2 + (fuel - (inp.bytes.length / 16 + 4)) = fuel by omega] at this

theorem ssse3Xor_call {low high inp out : Arg} (hp : PlacedMul low high inp out)
    (hn : 16 * (inp.bytes.length / 16) ≤ out.bytes.length) (init : State) {fuel : Nat}
    (hf : inp.bytes.length / 16 + 4 ≤ fuel) :
    call Routines.galMulSSSE3Xor fuel init [low, high, inp] out =
      ok (filled (fun i => Galois.nibbleMul low.bytes high.bytes (inp.bytes.getD i 0) ^^^ out.bytes.getD i 0) out.bytes
        (16 * (inp.bytes.length / 16))) := by
  obtain ⟨t1, t2, t3, t4⟩ := hp.tables init
  obtain ⟨s1, h1, ⟨h2, h3⟩, hax, hbx⟩ :=
    (ssse3Xor_entry low.bytes high.bytes (initial init [low, high, inp] out) t1 t2 t3 t4).elim
  rw [hp.len init] at h2 h3
  have hexit : ∀ s : State, ∃ s', (∀ f, run Routines.galMulSSSE3Xor (f + 2) 5 s = ok s') ∧ s'.mem = s.mem :=
    fun s => ⟨s, fun f => run_ret _ rfl rfl, rfl⟩
  by_cases h0 : inp.bytes.length / 16 = 0
  · have hrun (f : Nat) : run Routines.galMulSSSE3Xor (1 + f) 0 (initial init [low, high, inp] out) =
        run Routines.galMulSSSE3Xor f (if inp.bytes.length / 16 = 0 then 5 else 4) s1 := by
      rw [Nat.add_comm, run_jcc f rfl h1, Cond.holds, h3]
      simp only [h0, decide_true, if_true]
    have := routine (code := Routines.galMulSSSE3Xor) (L := 4) (E := 5) (e := 1) (n := inp.bytes.length / 16) hp.toPlaced
      (mul_div_le' _ _) hn rfl (ssse3Xor_body low.bytes high.bytes) cntX_step s1 hrun h2 hexit
      (fuel - (inp.bytes.length / 16 + 3))
    rwa [show 1 + inp.bytes.length / 16 + 2 + (fuel - (inp.bytes.length / 16 + 3)) = fuel by omega] at this
  · have e1 := ssse3Xor_test s1
    have hrun (f : Nat) : run Routines.galMulSSSE3Xor (2 + f) 0 (initial init [low, high, inp] out) =
        run Routines.galMulSSSE3Xor (f + 1) 1 s1 := by
      rw [show 2 + f = (f + 1) + 1 by omega, run_jcc (f + 1) rfl h1, Cond.holds, h3]
      simp only [h0, decide_false]; rfl
    have hent : ∀ T : State → Prop, T { s1.setG .bx (s1.gp .bx ||| s1.gp .ax) with zf := s1.gp .bx ||| s1.gp .ax == 0#64 } →
        Entered (inp.bytes.length / 16) .si .dx (BitVec.ofNat 64 inp.base) (BitVec.ofNat 64 out.base) CntX T
          (initial init [low, high, inp] out)
          { s1.setG .bx (s1.gp .bx ||| s1.gp .ax) with zf := s1.gp .bx ||| s1.gp .ax == 0#64 } :=
      fun T hT => ⟨h2.mem, h2.readable, h2.writable, h2.gin, h2.gout, fun h => h2.cnt h, fun _ => hT⟩
    by_cases hal : s1.gp .bx ||| s1.gp .ax = 0#64
    · have ha : ((s1.gp .si).toNat % 16 = 0 ∧ (s1.gp .dx).toNat % 16 = 0) := by
        rw [hax, hbx] at hal
        rw [h2.gin, h2.gout]
        exact aligned_of _ _ hal
      have := routine (code := Routines.galMulSSSE3Xor) (L := 2) (E := 3) (e := 2) (n := inp.bytes.length / 16) hp.toPlaced
        (mul_div_le' _ _) hn rfl (T := TabsAligned low.bytes high.bytes)
        (fun s hr ht => by
          obtain ⟨s', e, q1, q2, q3⟩ := (ssse3Xor_aligned_body low.bytes high.bytes s hr ht.1 ht.2.1 ht.2.2).elim
          exact e ▸ (show Post (fun s' => Iter 16 (fun x y => Galois.nibbleMul low.bytes high.bytes x ^^^ y) .si .dx s s' ∧
            Count s s' ∧ TabsAligned low.bytes high.bytes s') (ok s') from ⟨q1, q2, q3, aligned_step hr q1 ht.2⟩)) cntX_step
        { s1.setG .bx (s1.gp .bx ||| s1.gp .ax) with zf := s1.gp .bx ||| s1.gp .ax == 0#64 }
        (fun f => by
          rw [hrun, run_jcc f rfl e1, Cond.holds]
          simp only [h0, hal, if_false]; rfl)
        (hent _ ⟨h2.tabs (by omega), ha⟩)
        (fun s => ⟨s, fun f => (run_jmp (f + 1) rfl rfl).trans (run_ret f rfl rfl), rfl⟩)
        (fuel - (inp.bytes.length / 16 + 4))
      rwa [show 2 + inp.bytes.length / 16 + 2 + (fuel - (inp.bytes.length / 16 + 4)) = fuel by omega] at this
    · have := routine (code := Routines.galMulSSSE3Xor) (L := 4) (E := 5) (e := 2) (n := inp.bytes.length / 16) hp.toPlaced
        (mul_div_le' _ _) hn rfl (ssse3Xor_body low.bytes high.bytes) cntX_step
        { s1.setG .bx (s1.gp .bx ||| s1.gp .ax) with zf := s1.gp .bx ||| s1.gp .ax == 0#64 }
        (fun f => by
          rw [hrun, run_jcc f rfl e1, Cond.holds]
          simp only [h0, if_false]
          rw [beq_eq_false_iff_ne.mpr hal]; rfl)
        (hent _ (h2.tabs (by omega))) hexit (fuel - (inp.bytes.length / 16 + 4))
      rwa [show 2 + inp.bytes.length / 16 + 2 + (fuel - (inp.bytes.length / 16 + 4)) = fuel by omega] at this

theorem neon_call {low high inp out : Arg} (hp : PlacedMul low high inp out)
    (hn : 32 * (inp.bytes.length / 32) ≤ out.bytes.length) (init : State) {fuel : Nat}
    (hf : inp.bytes.length / 32 + 4 ≤ fuel) :
    call Routines.galMulNEON fuel init [low, high, inp] out =
      ok (filled (fun i => Galois.nibbleMul low.bytes high.bytes (inp.bytes.getD i 0)) out.bytes
        (32 * (inp.bytes.length / 32))) := by
  obtain ⟨t1, t2, t3, t4⟩ := hp.tables init
  obtain ⟨s1, h1, h2, h3, h4⟩ := (neon_entry (initial init [low, high, inp] out)
    (by rw [hp.len]; exact hp.small _ (by simp))).elim
  rw [hp.len init] at h2 h3
  have hr : inp.bytes.length % 32 < 32 := Nat.mod_lt _ (by decide)
  have hexit : ∀ s : State, ∃ s', (∀ f, run Routines.galMulNEON (f + 2) 3 s = ok s') ∧ s'.mem = s.mem :=
    fun s => ⟨s, fun f => run_ret _ rfl rfl, rfl⟩
  by_cases h0 : inp.bytes.length / 32 = 0
  · have := routine (code := Routines.galMulNEON) (L := 2) (E := 3) (e := 1) (n := inp.bytes.length / 32) hp.toPlaced
      (mul_div_le' _ _) hn rfl (neon_body low.bytes high.bytes) (cntN_step hr) s1
      (fun f => by
        rw [Nat.add_comm, run_jcc f rfl h1, Cond.holds, h3, decide_eq_true (by omega)]
        simp only [h0, if_true])
      ⟨h2.mem, h2.readable, h2.writable, h2.gin, h2.gout, h2.cnt, fun h => absurd h0 (by omega)⟩ hexit
      (fuel - (inp.bytes.length / 32 + 3))
    rwa [show 1 + inp.bytes.length / 32 + 2 + (fuel - (inp.bytes.length / 32 + 3)) = fuel by omega] at this
  · rw [← h4, ← h2.readable] at t1 t2
    rw [← h4, ← h2.mem] at t3 t4
    obtain ⟨s2, e2, ⟨m1, m2, m3⟩, ⟨g1, g2, g3⟩, ht⟩ := (neon_tabs low.bytes high.bytes s1 t1 t2 t3 t4).elim
    have := routine (code := Routines.galMulNEON) (L := 2) (E := 3) (e := 2) (n := inp.bytes.length / 32) hp.toPlaced
      (mul_div_le' _ _) hn rfl (neon_body low.bytes high.bytes) (cntN_step hr) s2
      (fun f => by
        rw [show 2 + f = (f + 1) + 1 by omega, run_jcc (f + 1) rfl h1, Cond.holds, h3, decide_eq_false (by omega)]
        simp only [h0, if_false]
        exact run_jmp f rfl e2)
      ⟨m1.trans h2.mem, m2.trans h2.readable, m3.trans h2.writable, g1.trans h2.gin, g2.trans h2.gout,
        fun h => by have := h2.cnt h; unfold CntN at this ⊢; rwa [g3], fun _ => ht⟩ hexit
      (fuel - (inp.bytes.length / 32 + 4))
    rwa [show 2 + inp.bytes.length / 32 + 2 + (fuel - (inp.bytes.length / 32 + 4)) = fuel by omega] at this

theorem neonXor_call {low high inp out : Arg} (hp : PlacedMul low high inp out)
    (hn : 32 * (inp.bytes.length / 32) ≤ out.bytes.length) (init : State) {fuel : Nat}
    (hf : inp.bytes.length / 32 + 4 ≤ fuel) :
    call Routines.galMulXorNEON fuel init [low, high, inp] out =
      ok (filled (fun i => Galois.nibbleMul low.bytes high.bytes (inp.bytes.getD i 0) ^^^ out.bytes.getD i 0) out.bytes
        (32 * (inp.bytes.length / 32))) := by
  obtain ⟨t1, t2, t3, t4⟩ := hp.tables init
  obtain ⟨s1, h1, h2, h3, h4⟩ := (neonXor_entry (initial init [low, high, inp] out)
    (by rw [hp.len]; exact hp.small _ (by simp))).elim
  rw [hp.len init] at h2 h3
  have hr : inp.bytes.length % 32 < 32 := Nat.mod_lt _ (by decide)
  have hexit : ∀ s : State, ∃ s', (∀ f, run Routines.galMulXorNEON (f + 2) 3 s = ok s') ∧ s'.mem = s.mem :=
    fun s => ⟨s, fun f => run_ret _ rfl rfl, rfl⟩
  by_cases h0 : inp.bytes.length / 32 = 0
  · have := routine (code := Routines.galMulXorNEON) (L := 2) (E := 3) (e := 1) (n := inp.bytes.length / 32) hp.toPlaced
      (mul_div_le' _ _) hn rfl (neonXor_body low.bytes high.bytes) (cntN_step hr) s1
      (fun f => by
        rw [Nat.add_comm, run_jcc f rfl h1, Cond.holds, h3, decide_eq_true (by omega)]
        simp only [h0, if_true])
      ⟨h2.mem, h2.readable, h2.writable, h2.gin, h2.gout, h2.cnt, fun h => absurd h0 (by omega)⟩ hexit
      (fuel - (inp.bytes.length / 32 + 3))
    rwa [show 1 + inp.bytes.length / 32 + 2 + (fuel - (inp.bytes.length / 32 + 3)) = fuel by omega] at this
  · rw [← h4, ← h2.readable] at t1 t2
    rw [← h4, ← h2.mem] at t3 t4
    obtain ⟨s2, e2, ⟨m1, m2, m3⟩, ⟨g1, g2, g3⟩, ht⟩ := (neonXor_tabs low.bytes high.bytes s1 t1 t2 t3 t4).elim
    have := routine (code := Routines.galMulXorNEON) (L := 2) (E := 3) (e := 2) (n := inp.bytes.length / 32) hp.toPlaced
      (mul_div_le' _ _) hn rfl (neonXor_body low.bytes high.bytes) (cntN_step hr) s2
      (fun f => by
        rw [show 2 + f = (f + 1) + 1 by omega, run_jcc (f + 1) rfl h1, Cond.holds, h3, decide_eq_false (by omega)]
        simp only [h0, if_false]
        exact run_jmp f rfl e2)
      ⟨m1.trans h2.mem, m2.trans h2.readable, m3.trans h2.writable, g1.trans h2.gin, g2.trans h2.gout,
        fun h => by have := h2.cnt h; unfold CntN at this ⊢; rwa [g3], fun _ => ht⟩ hexit
      (fuel - (inp.bytes.length / 32 + 4))
    rwa [show 2 + inp.bytes.length / 32 + 2 + (fuel - (inp.bytes.length / 32 + 4)) = fuel by omega] at this

theorem neonAdd_call {inp out : Arg} (hp : Placed [inp] inp out) (hn : 32 * (inp.bytes.length / 32) ≤ out.bytes.length)
    (init : State) {fuel : Nat} (hf : inp.bytes.length / 32 + 4 ≤ fuel) :
    call Routines.galXorNEON fuel init [inp] out =
      ok (filled (fun i => inp.bytes.getD i 0 ^^^ out.bytes.getD i 0) out.bytes (32 * (inp.bytes.length / 32))) := by
  obtain ⟨s1, h1, h2, h3, h4⟩ := (neonAdd_entry (initial init [inp] out)
    (by rw [hp.len]; exact hp.small _ (by simp))).elim
  rw [hp.len init] at h2 h3
  have hr : inp.bytes.length % 32 < 32 := Nat.mod_lt _ (by decide)
  have := routine (code := Routines.galXorNEON) (L := 1) (E := 2) (e := 1) (n := inp.bytes.length / 32) hp (mul_div_le' _ _) hn rfl
    (fun s hr _ => by
      obtain ⟨s', e, q⟩ := (neonAdd_body s hr).elim
      exact e ▸ (show Post (fun s' => Iter 32 (fun x y => x ^^^ y) .r1 .r5 s s' ∧ CountN s s' ∧ (fun _ => True) s') (ok s')
        from ⟨q.1, q.2, trivial⟩)) (cntN_step hr) s1
    (fun f => by
      rw [Nat.add_comm, run_jcc f rfl h1, Cond.holds, h3]
      by_cases h0 : inp.bytes.length / 32 = 0
      · rw [decide_eq_true (by omega)]; simp only [h0, if_true]
      · rw [decide_eq_false (by omega)]; simp only [h0, if_false]; rfl) h2
    (fun s => ⟨s, fun f => run_ret _ rfl rfl, rfl⟩) (fuel - (inp.bytes.length / 32 + 3))
  rwa [show 1 + inp.bytes.length / 32 + 2 + (fuel - (inp.bytes.length / 32 + 3)) = fuel by omega] at this

end Verif.Proofs
