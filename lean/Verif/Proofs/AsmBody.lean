import Verif.Tables.Asm
import Verif.Proofs.Vector

/-! # The loop bodies of the assembly routines, executed symbolically -/


set_option linter.unusedSimpArgs false

namespace Verif.Proofs
open Verif Outcome Asm

/-- All `n` addresses from `a` on satisfy `p`. -/
def Can (p : Nat → Bool) (a n : Nat) : Prop := ∀ i < n, p (a + i) = true

theorem load_ok {s : State} {a n : Nat} (h : Can s.readable a n) :
    s.load a n = ok fun i => s.mem (a + i) := if_pos h
theorem store_ok {s : State} {a n : Nat} {f : Nat → Byte} (h : Can s.writable a n) :
    s.store a n f = ok { s with mem := fun b => if a ≤ b ∧ b < a + n then f (b - a) else s.mem b } := if_pos h

theorem Can.sub {p : Nat → Bool} {a n : Nat} (h : Can p a n) (d m : Nat) (hm : d + m ≤ n) : Can p (a + d) m := by
  intro i hi
  have := h (d + i) (by omega)
  rwa [← Nat.add_assoc] at this

/-- The computation ends normally in a state satisfying `Q`. -/
def Post {α : Type} (Q : α → Prop) (o : Outcome α) : Prop := match o with | ok s => Q s | _ => False
@[simp] theorem Post_ok {α : Type} (Q : α → Prop) (s : α) : Post Q (ok s) = Q s := rfl

theorem Post.elim {α : Type} {Q : α → Prop} {o : Outcome α} (h : Post Q o) : ∃ s, o = ok s ∧ Q s := by
  cases o <;> first | exact ⟨_, rfl, h⟩ | exact False.elim h

/-- Every iteration of a loop: the next `w` bytes at `rin` and `rout` are combined with `F` and stored at `rout`. -/
structure Iter (w : Nat) (F : Byte → Byte → Byte) (rin rout : Gp) (s s' : State) : Prop where
  inp : s'.gp rin = s.gp rin + BitVec.ofNat 64 w
  out : s'.gp rout = s.gp rout + BitVec.ofNat 64 w
  readable : s'.readable = s.readable
  writable : s'.writable = s.writable
  mem : ∀ b, s'.mem b = if (s.gp rout).toNat ≤ b ∧ b < (s.gp rout).toNat + w then
    F (s.mem ((s.gp rin).toNat + (b - (s.gp rout).toNat))) (s.mem b) else s.mem b

/-- What an iteration needs. -/
structure Ready (w : Nat) (rin rout : Gp) (s : State) : Prop where
  inp : (s.gp rin).toNat + w < 2 ^ 64
  out : (s.gp rout).toNat + w < 2 ^ 64
  canIn : Can s.readable (s.gp rin).toNat w
  canOut : Can s.readable (s.gp rout).toNat w
  canStore : Can s.writable (s.gp rout).toNat w

/-- The counter of the amd64 loops: `SUBQ $1, R9; JNZ`. -/
def Count (s s' : State) : Prop := s'.gp .r9 = s.gp .r9 - 1#64 ∧ s'.zf = (s.gp .r9 - 1#64 == 0#64)

/-- The counter of the arm64 loops: `SUBS $32, R2; BPL`. -/
def CountN (s s' : State) : Prop := s'.gp .r2 = s.gp .r2 - 32#64 ∧ s'.nf = (s.gp .r2 - 32#64).msb

/-- X6/Y6/V6 and X7/Y7/V7 hold the tables, X8/Y8/V8 the mask (in each 16-byte half of the low `n` bytes). -/
def Tabs (n : Nat) (low high : List Byte) (s : State) : Prop :=
  ∀ i < n, s.vec 6 i = low.getD (i % 16) 0 ∧ s.vec 7 i = high.getD (i % 16) 0 ∧ s.vec 8 i = 0x0f#8

theorem toNat_add64 {x : BitVec 64} {k n : Nat} (h : x.toNat + n < 2 ^ 64) (hk : k ≤ n) :
    (x + BitVec.ofNat 64 k).toNat = x.toNat + k := by
  rw [BitVec.toNat_add, BitVec.toNat_ofNat]; omega

theorem srl64_mask (f : Nat → Byte) (i : Nat) : srl64 4 f i &&& 0x0f#8 = f i >>> 4 := by
  unfold srl64 lane
  apply BitVec.eq_of_getLsbD_eq
  intro k hk
  rw [BitVec.getLsbD_and, BitVec.getLsbD_setWidth, BitVec.getLsbD_ushiftRight, BitVec.getLsbD_ushiftRight,
    BitVec.getLsbD_ushiftRight]
  by_cases h4 : k < 4
  · have e1 : (4 + (8 * (i % 8) + k)) / 8 = i % 8 := by omega
    have e2 : (4 + (8 * (i % 8) + k)) % 8 = 4 + k := by omega
    rw [leUint64_bit _ _ (by omega), e1, e2, List.getD_eq_getElem?_getD, List.getElem?_map,
      List.getElem?_range (by omega)]
    have e3 : 8 * (i / 8) + i % 8 = i := by omega
    have : (0x0f#8).getLsbD k = true := by
      have : k = 0 ∨ k = 1 ∨ k = 2 ∨ k = 3 := by omega
      rcases this with rfl | rfl | rfl | rfl <;> rfl
    simp [e3, this, hk]
  · have : (0x0f#8).getLsbD k = false := by
      have : k = 4 ∨ k = 5 ∨ k = 6 ∨ k = 7 := by omega
      rcases this with rfl | rfl | rfl | rfl <;> rfl
    rw [this, BitVec.getLsbD_of_ge (f i) _ (by omega)]; simp

theorem nibble_lt (x : Byte) : (x &&& 0x0f#8).toNat < 16 := by
  rw [BitVec.toNat_and]; exact Nat.lt_of_le_of_lt Nat.and_le_right (by decide)

theorem nibble_and (x : Byte) : (x &&& 0x0f#8) &&& 0x0f#8 = x &&& 0x0f#8 := by
  rw [BitVec.and_assoc, BitVec.and_self]

theorem high_and (x : Byte) : (x >>> 4) &&& 0x0f#8 = x >>> 4 := by
  revert x; decide +kernel

theorem high_lt (x : Byte) : (x >>> 4).toNat < 16 := by
  rw [← high_and]; exact nibble_lt _

theorem shuffle_nibble (table idx : Nat → Byte) (i : Nat) (x : Byte) (h : idx i = x &&& 0x0f#8) :
    shuffle table idx i = table (16 * (i / 16) + (x &&& 0x0f#8).toNat) := by
  have : (x &&& 0x0f#8).getLsbD 7 = false := by rw [BitVec.getLsbD_and]; simp
  unfold shuffle
  rw [h, this, nibble_and]; rfl

/-- the two table look-ups -/
theorem shuffle_low {n : Nat} {low : List Byte} {T idx : Nat → Byte} (hT : ∀ j < n, T j = low.getD (j % 16) 0) {i : Nat}
    {x : Byte} (hn : n % 16 = 0) (hi : i < n) (h : idx i = x &&& 0x0f#8) :
    shuffle T idx i = low.getD (x &&& 0x0f#8).toNat 0 := by
  have := nibble_lt x
  rw [shuffle_nibble _ _ _ _ h, hT _ (by omega)]
  congr 1; omega

theorem shuffle_high {n : Nat} {high : List Byte} {T idx : Nat → Byte} (hT : ∀ j < n, T j = high.getD (j % 16) 0) {i : Nat}
    {x : Byte} (hn : n % 16 = 0) (hi : i < n) (h : idx i = x >>> 4) :
    shuffle T idx i = high.getD (x >>> 4).toNat 0 := by
  have := high_lt x
  rw [shuffle_nibble _ _ _ _ (h.trans (high_and x).symm), high_and, hT _ (by omega)]
  congr 1; omega

/-! ## Loop bodies -/

theorem sse2_body (s : State) (h : Ready 16 .si .dx s) :
    Post (fun s' => Iter 16 (fun x y => x ^^^ y) .si .dx s s' ∧ Count s s')
      (execAll (Routines.sSE2XorSlice.getD 1 ⟨[], .ret⟩).body s) := by
  have h1 := h.canIn
  have h2 := h.canOut
  have h3 := h.canStore
  simp only [Routines.sSE2XorSlice, List.getD_cons_succ, List.getD_cons_zero, execAll, exec, checkAligned, State.ea]
  simp [load_ok, store_ok, State.setV, State.setG, State.setGZ, h1, h2, h3]
  refine ⟨⟨?_, ?_, ?_, ?_, ?_⟩, ?_, ?_⟩ <;> simp
  intro b
  generalize (s.gp .dx).toNat = d
  generalize (s.gp .si).toNat = c
  by_cases hb : d ≤ b ∧ b < d + 16
  · have h1 : b - d < 16 := by omega
    have h2 : d + (b - d) = b := by omega
    simp only [hb, h1, h2, and_self, if_true]
    exact BitVec.xor_comm _ _
  · simp only [hb, if_false]

theorem sse2_64_body (s : State) (h : Ready 64 .si .dx s) :
    Post (fun s' => Iter 64 (fun x y => x ^^^ y) .si .dx s s' ∧ Count s s')
      (execAll (Routines.sSE2XorSlice_64.getD 1 ⟨[], .ret⟩).body s) := by
  have a0 := h.canIn.sub 0 16 (by omega)
  have a1 := h.canIn.sub 16 16 (by omega)
  have a2 := h.canIn.sub 32 16 (by omega)
  have a3 := h.canIn.sub 48 16 (by omega)
  have b0 := h.canOut.sub 0 16 (by omega)
  have b1 := h.canOut.sub 16 16 (by omega)
  have b2 := h.canOut.sub 32 16 (by omega)
  have b3 := h.canOut.sub 48 16 (by omega)
  have c0 := h.canStore.sub 0 16 (by omega)
  have c1 := h.canStore.sub 16 16 (by omega)
  have c2 := h.canStore.sub 32 16 (by omega)
  have c3 := h.canStore.sub 48 16 (by omega)
  have e (k : Nat) (hk : k ≤ 64) := toNat_add64 h.inp hk
  have e1 := e 16 (by omega)
  have e2 := e 32 (by omega)
  have e3 := e 48 (by omega)
  have f (k : Nat) (hk : k ≤ 64) := toNat_add64 h.out hk
  have f1 := f 16 (by omega)
  have f2 := f 32 (by omega)
  have f3 := f 48 (by omega)
  clear e f
  rw [Nat.add_zero] at a0 b0 c0
  simp only [Routines.sSE2XorSlice_64, List.getD_cons_succ, List.getD_cons_zero, execAll, exec, checkAligned, State.ea]
  simp [-BitVec.toNat_add, load_ok, store_ok, State.setV, State.setG, State.setGZ, a0, a1, a2, a3, b0, b1, b2, b3, c0, c1, c2, c3, e1, e2, e3,
    f1, f2, f3]
  clear a0 a1 a2 a3 b0 b1 b2 b3 c0 c1 c2 c3 e1 e2 e3 f1 f2 f3 h
  refine ⟨⟨?_, ?_, ?_, ?_, ?_⟩, ?_, ?_⟩ <;> simp
  intro b
  generalize (s.gp .dx).toNat = d
  generalize (s.gp .si).toNat = c
  by_cases hb : d ≤ b ∧ b < d + 64
  · rw [if_pos hb]
    by_cases k1 : b < d + 16
    · have h1 : b - d < 16 := by omega
      have h2 : d + (b - d) = b := by omega
      rw [if_neg (by omega), if_neg (by omega), if_neg (by omega), if_pos (by omega)]
      simp only [h1, h2, if_true]
      exact BitVec.xor_comm _ _
    · by_cases k2 : b < d + 32
      · have h1 : b - (d + 16) < 16 := by omega
        have h2 : d + 16 + (b - (d + 16)) = b := by omega
        have h3 : c + 16 + (b - (d + 16)) = c + (b - d) := by omega
        rw [if_neg (by omega), if_neg (by omega), if_pos (by omega)]
        simp only [h1, h2, h3, if_true]
        exact BitVec.xor_comm _ _
      · by_cases k3 : b < d + 48
        · have h1 : b - (d + 32) < 16 := by omega
          have h2 : d + 32 + (b - (d + 32)) = b := by omega
          have h3 : c + 32 + (b - (d + 32)) = c + (b - d) := by omega
          rw [if_neg (by omega), if_pos (by omega)]
          simp only [h1, h2, h3, if_true]
          exact BitVec.xor_comm _ _
        · have h1 : b - (d + 48) < 16 := by omega
          have h2 : d + 48 + (b - (d + 48)) = b := by omega
          have h3 : c + 48 + (b - (d + 48)) = c + (b - d) := by omega
          rw [if_pos (by omega)]
          simp only [h1, h2, h3, if_true]
          exact BitVec.xor_comm _ _
  · rw [if_neg hb, if_neg (by omega), if_neg (by omega), if_neg (by omega), if_neg (by omega)]


theorem ssse3_body (low high : List Byte) (s : State) (h : Ready 16 .si .dx s) (ht : Tabs 16 low high s) :
    Post (fun s' => Iter 16 (fun x _ => Galois.nibbleMul low high x) .si .dx s s' ∧ Count s s' ∧ Tabs 16 low high s')
      (execAll (Routines.galMulSSSE3.getD 4 ⟨[], .ret⟩).body s) := by
  have h1 := h.canIn
  have h3 := h.canStore
  simp only [Routines.galMulSSSE3, List.getD_cons_succ, List.getD_cons_zero, execAll, exec, checkAligned, State.ea]
  simp [load_ok, store_ok, State.setV, State.setG, State.setGZ, h1, h3]
  refine ⟨⟨?_, ?_, ?_, ?_, ?_⟩, ⟨?_, ?_⟩, ?_⟩ <;> try simp
  · intro b
    generalize (s.gp .dx).toNat = d
    generalize (s.gp .si).toNat = c
    by_cases hb : d ≤ b ∧ b < d + 16
    · have h1 : b - d < 16 := by omega
      simp only [hb, h1, and_self, if_true]
      rw [shuffle_high (n := 16) (high := high) (x := s.mem (c + (b - d))) _ rfl h1,
        shuffle_low (n := 16) (low := low) (x := s.mem (c + (b - d))) _ rfl h1]
      · exact BitVec.xor_comm _ _
      · simp only [h1, if_true, (ht _ h1).2.2]
      · intro j hj
        simp only [hj, if_true, (ht _ hj).1]
      · simp only [h1, if_true, (ht _ h1).2.2, srl64_mask]
      · intro j hj
        simp only [hj, if_true, (ht _ hj).2.1]
    · simp only [hb, if_false]
  · intro i hi
    exact ht i hi

theorem ssse3_aligned_body (low high : List Byte) (s : State) (h : Ready 16 .si .dx s) (ht : Tabs 16 low high s) (al : (s.gp .si).toNat % 16 = 0) (al' : (s.gp .dx).toNat % 16 = 0) :
    Post (fun s' => Iter 16 (fun x _ => Galois.nibbleMul low high x) .si .dx s s' ∧ Count s s' ∧ Tabs 16 low high s')
      (execAll (Routines.galMulSSSE3.getD 2 ⟨[], .ret⟩).body s) := by
  have h1 := h.canIn
  have h3 := h.canStore
  simp only [Routines.galMulSSSE3, List.getD_cons_succ, List.getD_cons_zero, execAll, exec, checkAligned, State.ea]
  simp [load_ok, store_ok, State.setV, State.setG, State.setGZ, h1, al, al', h3]
  refine ⟨⟨?_, ?_, ?_, ?_, ?_⟩, ⟨?_, ?_⟩, ?_⟩ <;> try simp
  · intro b
    clear al al'
    generalize (s.gp .dx).toNat = d
    generalize (s.gp .si).toNat = c
    by_cases hb : d ≤ b ∧ b < d + 16
    · have h1 : b - d < 16 := by omega
      simp only [hb, h1, and_self, if_true]
      rw [shuffle_high (n := 16) (high := high) (x := s.mem (c + (b - d))) _ rfl h1,
        shuffle_low (n := 16) (low := low) (x := s.mem (c + (b - d))) _ rfl h1]
      · exact BitVec.xor_comm _ _
      · simp only [h1, if_true, (ht _ h1).2.2]
      · intro j hj
        simp only [hj, if_true, (ht _ hj).1]
      · simp only [h1, if_true, (ht _ h1).2.2, srl64_mask]
      · intro j hj
        simp only [hj, if_true, (ht _ hj).2.1]
    · simp only [hb, if_false]
  · intro i hi
    exact ht i hi

theorem ssse3Xor_body (low high : List Byte) (s : State) (h : Ready 16 .si .dx s) (ht : Tabs 16 low high s) :
    Post (fun s' => Iter 16 (fun x y => Galois.nibbleMul low high x ^^^ y) .si .dx s s' ∧ Count s s' ∧ Tabs 16 low high s')
      (execAll (Routines.galMulSSSE3Xor.getD 4 ⟨[], .ret⟩).body s) := by
  have h1 := h.canIn
  have h2 := h.canOut
  have h3 := h.canStore
  simp only [Routines.galMulSSSE3Xor, List.getD_cons_succ, List.getD_cons_zero, execAll, exec, checkAligned, State.ea]
  simp [load_ok, store_ok, State.setV, State.setG, State.setGZ, h1, h2, h3]
  refine ⟨⟨?_, ?_, ?_, ?_, ?_⟩, ⟨?_, ?_⟩, ?_⟩ <;> try simp
  · intro b
    generalize (s.gp .dx).toNat = d
    generalize (s.gp .si).toNat = c
    by_cases hb : d ≤ b ∧ b < d + 16
    · have h1 : b - d < 16 := by omega
      have h2 : d + (b - d) = b := by omega
      simp only [hb, h1, h2, and_self, if_true]
      rw [shuffle_high (n := 16) (high := high) (x := s.mem (c + (b - d))) _ rfl h1,
        shuffle_low (n := 16) (low := low) (x := s.mem (c + (b - d))) _ rfl h1]
      · rw [BitVec.xor_comm (high.getD _ _)]
        rfl
      · simp only [h1, if_true, (ht _ h1).2.2]
      · intro j hj
        simp only [hj, if_true, (ht _ hj).1]
      · simp only [h1, if_true, (ht _ h1).2.2, srl64_mask]
      · intro j hj
        simp only [hj, if_true, (ht _ hj).2.1]
    · simp only [hb, if_false]
  · intro i hi
    exact ht i hi

theorem ssse3Xor_aligned_body (low high : List Byte) (s : State) (h : Ready 16 .si .dx s) (ht : Tabs 16 low high s) (al : (s.gp .si).toNat % 16 = 0) (al' : (s.gp .dx).toNat % 16 = 0) :
    Post (fun s' => Iter 16 (fun x y => Galois.nibbleMul low high x ^^^ y) .si .dx s s' ∧ Count s s' ∧ Tabs 16 low high s')
      (execAll (Routines.galMulSSSE3Xor.getD 2 ⟨[], .ret⟩).body s) := by
  have h1 := h.canIn
  have h2 := h.canOut
  have h3 := h.canStore
  simp only [Routines.galMulSSSE3Xor, List.getD_cons_succ, List.getD_cons_zero, execAll, exec, checkAligned, State.ea]
  simp [load_ok, store_ok, State.setV, State.setG, State.setGZ, h1, h2, al, al', h3]
  refine ⟨⟨?_, ?_, ?_, ?_, ?_⟩, ⟨?_, ?_⟩, ?_⟩ <;> try simp
  · intro b
    clear al al'
    generalize (s.gp .dx).toNat = d
    generalize (s.gp .si).toNat = c
    by_cases hb : d ≤ b ∧ b < d + 16
    · have h1 : b - d < 16 := by omega
      have h2 : d + (b - d) = b := by omega
      simp only [hb, h1, h2, and_self, if_true]
      rw [shuffle_high (n := 16) (high := high) (x := s.mem (c + (b - d))) _ rfl h1,
        shuffle_low (n := 16) (low := low) (x := s.mem (c + (b - d))) _ rfl h1]
      · rw [BitVec.xor_comm (high.getD _ _)]
        rfl
      · simp only [h1, if_true, (ht _ h1).2.2]
      · intro j hj
        simp only [hj, if_true, (ht _ hj).1]
      · simp only [h1, if_true, (ht _ h1).2.2, srl64_mask]
      · intro j hj
        simp only [hj, if_true, (ht _ hj).2.1]
    · simp only [hb, if_false]
  · intro i hi
    exact ht i hi

theorem avx2_body (low high : List Byte) (s : State) (h : Ready 32 .si .dx s) (ht : Tabs 32 low high s) :
    Post (fun s' => Iter 32 (fun x _ => Galois.nibbleMul low high x) .si .dx s s' ∧ Count s s' ∧ Tabs 32 low high s')
      (execAll (Routines.galMulAVX2.getD 1 ⟨[], .ret⟩).body s) := by
  have h1 := h.canIn
  have h3 := h.canStore
  simp only [Routines.galMulAVX2, List.getD_cons_succ, List.getD_cons_zero, execAll, exec, State.ea]
  simp [load_ok, store_ok, State.setV, State.setG, State.setGZ, h1, h3]
  refine ⟨⟨?_, ?_, ?_, ?_, ?_⟩, ⟨?_, ?_⟩, ?_⟩ <;> try simp
  · intro b
    generalize (s.gp .dx).toNat = d
    generalize (s.gp .si).toNat = c
    by_cases hb : d ≤ b ∧ b < d + 32
    · have h1 : b - d < 32 := by omega
      simp only [hb, h1, and_self, if_true]
      rw [shuffle_low (n := 32) (low := low) (x := s.mem (c + (b - d))) _ rfl h1,
        shuffle_high (n := 32) (high := high) (x := s.mem (c + (b - d))) _ rfl h1]
      · rfl
      · simp only [h1, if_true, (ht _ h1).2.2, srl64_mask]
      · exact fun j hj => (ht _ hj).2.1
      · simp only [h1, if_true, (ht _ h1).2.2]
      · exact fun j hj => (ht _ hj).1
    · simp only [hb, if_false]
  · intro i hi
    exact ht i hi

theorem avx2Xor_body (low high : List Byte) (s : State) (h : Ready 32 .si .dx s) (ht : Tabs 32 low high s) :
    Post (fun s' => Iter 32 (fun x y => Galois.nibbleMul low high x ^^^ y) .si .dx s s' ∧ Count s s' ∧ Tabs 32 low high s')
      (execAll (Routines.galMulAVX2Xor.getD 1 ⟨[], .ret⟩).body s) := by
  have h1 := h.canIn
  have h2 := h.canOut
  have h3 := h.canStore
  simp only [Routines.galMulAVX2Xor, List.getD_cons_succ, List.getD_cons_zero, execAll, exec, State.ea]
  simp [load_ok, store_ok, State.setV, State.setG, State.setGZ, h1, h2, h3]
  refine ⟨⟨?_, ?_, ?_, ?_, ?_⟩, ⟨?_, ?_⟩, ?_⟩ <;> try simp
  · intro b
    generalize (s.gp .dx).toNat = d
    generalize (s.gp .si).toNat = c
    by_cases hb : d ≤ b ∧ b < d + 32
    · have h1 : b - d < 32 := by omega
      have h2 : d + (b - d) = b := by omega
      simp only [hb, h1, h2, and_self, if_true]
      rw [shuffle_low (n := 32) (low := low) (x := s.mem (c + (b - d))) _ rfl h1,
        shuffle_high (n := 32) (high := high) (x := s.mem (c + (b - d))) _ rfl h1]
      · rfl
      · simp only [h1, if_true, (ht _ h1).2.2, srl64_mask]
      · exact fun j hj => (ht _ hj).2.1
      · simp only [h1, if_true, (ht _ h1).2.2]
      · exact fun j hj => (ht _ hj).1
    · simp only [hb, if_false]
  · intro i hi
    exact ht i hi

theorem avx2_64_body (low high : List Byte) (s : State) (h : Ready 64 .si .dx s) (ht : Tabs 32 low high s) :
    Post (fun s' => Iter 64 (fun x _ => Galois.nibbleMul low high x) .si .dx s s' ∧ Count s s' ∧ Tabs 32 low high s')
      (execAll (Routines.galMulAVX2_64.getD 1 ⟨[], .ret⟩).body s) := by
  have a0 := h.canIn.sub 0 32 (by omega)
  have a1 := h.canIn.sub 32 32 (by omega)
  have c0 := h.canStore.sub 0 32 (by omega)
  have c1 := h.canStore.sub 32 32 (by omega)
  have e1 := toNat_add64 h.inp (k := 32) (by omega)
  have f1 := toNat_add64 h.out (k := 32) (by omega)
  rw [Nat.add_zero] at a0 c0 
  simp only [Routines.galMulAVX2_64, List.getD_cons_succ, List.getD_cons_zero, execAll, exec, State.ea]
  simp [-BitVec.toNat_add, load_ok, store_ok, State.setV, State.setG, State.setGZ, a0, a1, c0, c1, e1, f1]
  clear a0 a1  c0 c1 e1 f1 h
  refine ⟨⟨?_, ?_, ?_, ?_, ?_⟩, ⟨?_, ?_⟩, ?_⟩ <;> try simp
  · intro b
    generalize (s.gp .dx).toNat = d
    generalize (s.gp .si).toNat = c
    by_cases hb : d ≤ b ∧ b < d + 64
    · rw [if_pos hb]
      by_cases k1 : b < d + 32
      · have h1 : b - d < 32 := by omega
        have h2 : d + (b - d) = b := by omega
        have h3 : c + (b - d) = c + (b - d) := by omega
        rw [if_neg (by omega), if_pos (by omega)]
        simp only [h1, if_true]
        rw [shuffle_low (n := 32) (low := low) (x := s.mem (c + (b - d))) _ rfl h1,
          shuffle_high (n := 32) (high := high) (x := s.mem (c + (b - d))) _ rfl h1]
        · rfl
        · simp only [h1, h3, if_true, (ht _ h1).2.2, srl64_mask]
        · exact fun j hj => (ht _ hj).2.1
        · simp only [h1, h3, if_true, (ht _ h1).2.2]
        · exact fun j hj => (ht _ hj).1
      · have h1 : b - (d + 32) < 32 := by omega
        have h2 : d + 32 + (b - (d + 32)) = b := by omega
        have h3 : c + 32 + (b - (d + 32)) = c + (b - d) := by omega
        rw [if_pos (by omega)]
        simp only [h1, if_true]
        rw [shuffle_low (n := 32) (low := low) (x := s.mem (c + (b - d))) _ rfl h1,
          shuffle_high (n := 32) (high := high) (x := s.mem (c + (b - d))) _ rfl h1]
        · rfl
        · simp only [h1, h3, if_true, (ht _ h1).2.2, srl64_mask]
        · exact fun j hj => (ht _ hj).2.1
        · simp only [h1, h3, if_true, (ht _ h1).2.2]
        · exact fun j hj => (ht _ hj).1
    · rw [if_neg hb, if_neg (by omega), if_neg (by omega)]
  · intro i hi
    exact ht i hi

theorem avx2Xor_64_body (low high : List Byte) (s : State) (h : Ready 64 .si .dx s) (ht : Tabs 32 low high s) :
    Post (fun s' => Iter 64 (fun x y => Galois.nibbleMul low high x ^^^ y) .si .dx s s' ∧ Count s s' ∧ Tabs 32 low high s')
      (execAll (Routines.galMulAVX2Xor_64.getD 1 ⟨[], .ret⟩).body s) := by
  have a0 := h.canIn.sub 0 32 (by omega)
  have a1 := h.canIn.sub 32 32 (by omega)
  have b0 := h.canOut.sub 0 32 (by omega)
  have b1 := h.canOut.sub 32 32 (by omega)
  have c0 := h.canStore.sub 0 32 (by omega)
  have c1 := h.canStore.sub 32 32 (by omega)
  have e1 := toNat_add64 h.inp (k := 32) (by omega)
  have f1 := toNat_add64 h.out (k := 32) (by omega)
  rw [Nat.add_zero] at a0 c0 b0
  simp only [Routines.galMulAVX2Xor_64, List.getD_cons_succ, List.getD_cons_zero, execAll, exec, State.ea]
  simp [-BitVec.toNat_add, load_ok, store_ok, State.setV, State.setG, State.setGZ, a0, a1, b0, b1, c0, c1, e1, f1]
  clear a0 a1 b0 b1 c0 c1 e1 f1 h
  refine ⟨⟨?_, ?_, ?_, ?_, ?_⟩, ⟨?_, ?_⟩, ?_⟩ <;> try simp
  · intro b
    generalize (s.gp .dx).toNat = d
    generalize (s.gp .si).toNat = c
    by_cases hb : d ≤ b ∧ b < d + 64
    · rw [if_pos hb]
      by_cases k1 : b < d + 32
      · have h1 : b - d < 32 := by omega
        have h2 : d + (b - d) = b := by omega
        have h3 : c + (b - d) = c + (b - d) := by omega
        rw [if_neg (by omega), if_pos (by omega)]
        simp only [h1, h2, if_true]
        rw [shuffle_low (n := 32) (low := low) (x := s.mem (c + (b - d))) _ rfl h1,
          shuffle_high (n := 32) (high := high) (x := s.mem (c + (b - d))) _ rfl h1]
        · rfl
        · simp only [h1, h3, if_true, (ht _ h1).2.2, srl64_mask]
        · exact fun j hj => (ht _ hj).2.1
        · simp only [h1, h3, if_true, (ht _ h1).2.2]
        · exact fun j hj => (ht _ hj).1
      · have h1 : b - (d + 32) < 32 := by omega
        have h2 : d + 32 + (b - (d + 32)) = b := by omega
        have h3 : c + 32 + (b - (d + 32)) = c + (b - d) := by omega
        rw [if_pos (by omega)]
        simp only [h1, h2, if_true]
        rw [shuffle_low (n := 32) (low := low) (x := s.mem (c + (b - d))) _ rfl h1,
          shuffle_high (n := 32) (high := high) (x := s.mem (c + (b - d))) _ rfl h1]
        · rfl
        · simp only [h1, h3, if_true, (ht _ h1).2.2, srl64_mask]
        · exact fun j hj => (ht _ hj).2.1
        · simp only [h1, h3, if_true, (ht _ h1).2.2]
        · exact fun j hj => (ht _ hj).1
    · rw [if_neg hb, if_neg (by omega), if_neg (by omega)]
  · intro i hi
    exact ht i hi

theorem neon_body (low high : List Byte) (s : State) (h : Ready 32 .r1 .r5 s) (ht : Tabs 16 low high s) :
    Post (fun s' => Iter 32 (fun x _ => Galois.nibbleMul low high x) .r1 .r5 s s' ∧ CountN s s' ∧ Tabs 16 low high s')
      (execAll (Routines.galMulNEON.getD 2 ⟨[], .ret⟩).body s) := by
  have a0 := h.canIn.sub 0 16 (by omega)
  have a1 := h.canIn.sub 16 16 (by omega)
  have c0 := h.canStore.sub 0 16 (by omega)
  have c1 := h.canStore.sub 16 16 (by omega)
  rw [Nat.add_zero] at a0 c0 
  simp only [Routines.galMulNEON, List.getD_cons_succ, List.getD_cons_zero, execAll, exec, loadMany, storeMany]
  simp [load_ok, store_ok, State.setV, State.setG, State.setGZ, a0, a1, c0, c1]
  clear a0 a1  c0 c1 h
  refine ⟨⟨?_, ?_, ?_, ?_, ?_⟩, ⟨?_, ?_⟩, ?_⟩ <;> try simp
  · intro b
    generalize (s.gp .r5).toNat = d
    generalize (s.gp .r1).toNat = c
    by_cases hb : d ≤ b ∧ b < d + 32
    · rw [if_pos hb]
      by_cases k1 : b < d + 16
      · have h1 : b - d < 16 := by omega
        have h2 : d + (b - d) = b := by omega
        have h3 : c + (b - d) = c + (b - d) := by omega
        have h4 := nibble_lt (s.mem (c + (b - d)))
        have h5 := high_lt (s.mem (c + (b - d)))
        rw [if_neg (by omega), if_pos (by omega)]
        simp only [h1, h3, if_true, (ht _ h1).2.2, h4, h5, (ht _ h4).1, (ht _ h5).2.1, Nat.mod_eq_of_lt h4, Nat.mod_eq_of_lt h5]
        rfl
      · have h1 : b - (d + 16) < 16 := by omega
        have h2 : d + 16 + (b - (d + 16)) = b := by omega
        have h3 : c + 16 + (b - (d + 16)) = c + (b - d) := by omega
        have h4 := nibble_lt (s.mem (c + (b - d)))
        have h5 := high_lt (s.mem (c + (b - d)))
        rw [if_pos (by omega)]
        simp only [h1, h3, if_true, (ht _ h1).2.2, h4, h5, (ht _ h4).1, (ht _ h5).2.1, Nat.mod_eq_of_lt h4, Nat.mod_eq_of_lt h5]
        rfl
    · rw [if_neg hb, if_neg (by omega), if_neg (by omega)]
  · intro i hi
    exact ht i hi

theorem neonXor_body (low high : List Byte) (s : State) (h : Ready 32 .r1 .r5 s) (ht : Tabs 16 low high s) :
    Post (fun s' => Iter 32 (fun x y => Galois.nibbleMul low high x ^^^ y) .r1 .r5 s s' ∧ CountN s s' ∧ Tabs 16 low high s')
      (execAll (Routines.galMulXorNEON.getD 2 ⟨[], .ret⟩).body s) := by
  have a0 := h.canIn.sub 0 16 (by omega)
  have a1 := h.canIn.sub 16 16 (by omega)
  have b0 := h.canOut.sub 0 16 (by omega)
  have b1 := h.canOut.sub 16 16 (by omega)
  have c0 := h.canStore.sub 0 16 (by omega)
  have c1 := h.canStore.sub 16 16 (by omega)
  rw [Nat.add_zero] at a0 c0 b0
  simp only [Routines.galMulXorNEON, List.getD_cons_succ, List.getD_cons_zero, execAll, exec, loadMany, storeMany]
  simp [load_ok, store_ok, State.setV, State.setG, State.setGZ, a0, a1, b0, b1, c0, c1]
  clear a0 a1 b0 b1 c0 c1 h
  refine ⟨⟨?_, ?_, ?_, ?_, ?_⟩, ⟨?_, ?_⟩, ?_⟩ <;> try simp
  · intro b
    generalize (s.gp .r5).toNat = d
    generalize (s.gp .r1).toNat = c
    by_cases hb : d ≤ b ∧ b < d + 32
    · rw [if_pos hb]
      by_cases k1 : b < d + 16
      · have h1 : b - d < 16 := by omega
        have h2 : d + (b - d) = b := by omega
        have h3 : c + (b - d) = c + (b - d) := by omega
        have h4 := nibble_lt (s.mem (c + (b - d)))
        have h5 := high_lt (s.mem (c + (b - d)))
        rw [if_neg (by omega), if_pos (by omega)]
        simp only [h1, h2, h3, if_true, (ht _ h1).2.2, h4, h5, (ht _ h4).1, (ht _ h5).2.1, Nat.mod_eq_of_lt h4, Nat.mod_eq_of_lt h5]
        rfl
      · have h1 : b - (d + 16) < 16 := by omega
        have h2 : d + 16 + (b - (d + 16)) = b := by omega
        have h3 : c + 16 + (b - (d + 16)) = c + (b - d) := by omega
        have h4 := nibble_lt (s.mem (c + (b - d)))
        have h5 := high_lt (s.mem (c + (b - d)))
        rw [if_pos (by omega)]
        simp only [h1, h2, h3, if_true, (ht _ h1).2.2, h4, h5, (ht _ h4).1, (ht _ h5).2.1, Nat.mod_eq_of_lt h4, Nat.mod_eq_of_lt h5]
        rfl
    · rw [if_neg hb, if_neg (by omega), if_neg (by omega)]
  · intro i hi
    exact ht i hi

theorem neonAdd_body (s : State) (h : Ready 32 .r1 .r5 s) :
    Post (fun s' => Iter 32 (fun x y => x ^^^ y) .r1 .r5 s s' ∧ CountN s s')
      (execAll (Routines.galXorNEON.getD 1 ⟨[], .ret⟩).body s) := by
  have a0 := h.canIn.sub 0 16 (by omega)
  have a1 := h.canIn.sub 16 16 (by omega)
  have b0 := h.canOut.sub 0 16 (by omega)
  have b1 := h.canOut.sub 16 16 (by omega)
  have c0 := h.canStore.sub 0 16 (by omega)
  have c1 := h.canStore.sub 16 16 (by omega)
  rw [Nat.add_zero] at a0 b0 c0
  simp only [Routines.galXorNEON, List.getD_cons_succ, List.getD_cons_zero, execAll, exec, loadMany, storeMany]
  simp [load_ok, store_ok, State.setV, State.setG, State.setGZ, a0, a1, b0, b1, c0, c1]
  clear a0 a1 b0 b1 c0 c1 h
  refine ⟨⟨?_, ?_, ?_, ?_, ?_⟩, ?_, ?_⟩ <;> try simp
  · intro b
    generalize (s.gp .r5).toNat = d
    generalize (s.gp .r1).toNat = c
    by_cases hb : d ≤ b ∧ b < d + 32
    · rw [if_pos hb]
      by_cases k1 : b < d + 16
      · have h1 : b - d < 16 := by omega
        have h2 : d + (b - d) = b := by omega
        rw [if_neg (by omega), if_pos (by omega)]
        simp only [h1, h2, if_true]
      · have h1 : b - (d + 16) < 16 := by omega
        have h2 : d + 16 + (b - (d + 16)) = b := by omega
        have h3 : c + 16 + (b - (d + 16)) = c + (b - d) := by omega
        rw [if_pos (by omega)]
        simp only [h1, h2, h3, if_true]
    · rw [if_neg hb, if_neg (by omega), if_neg (by omega)]

end Verif.Proofs
