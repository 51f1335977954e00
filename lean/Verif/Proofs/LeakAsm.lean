import Verif.Spec.Leak
import Verif.Tables.Asm

/-! # Observations of assembly routines do not depend on data: a checker and its soundness

The checker tracks which general purpose registers and flags are public (computed from arguments and constants only). -/

namespace Verif.Proofs.Leak
open Verif Asm Outcome Spec.Leak

/-- Public registers, ZF, NF. -/
structure Pub where
  regs : List Gp
  zf : Bool
  nf : Bool

def Pub.add (p : Pub) (r : Gp) (b : Bool) : Pub := { p with regs := if b then r :: p.regs else p.regs.filter (· ≠ r) }
def Pub.has (p : Pub) (r : Gp) : Bool := p.regs.contains r

/-- What is public after an instruction; `none` if an address it uses is not public. -/
def step (p : Pub) : Instr → Option Pub
  | .movArg _ dst => some (p.add dst true)
  | .movImm _ dst => some (p.add dst true)
  | .movGp src dst => some (p.add dst (p.has src))
  | .loadX _ base _ _ | .storeX _ _ base _ | .loadY base _ _ | .storeY _ base _ => if p.has base then some p else none
  | .shrq _ dst | .andq _ dst | .addq _ dst | .subq _ dst => some { p with zf := p.has dst }
  | .orq src dst => some { p.add dst (p.has dst && p.has src) with zf := p.has dst && p.has src }
  | .cmpq a _ => some { p with zf := p.has a }
  | .testq a b => some { p with zf := p.has a && p.has b }
  | .subs _ dst => some { p with zf := p.has dst, nf := p.has dst }
  | .vld1 _ base _ | .vst1 _ base _ => if p.has base then some p else none
  | _ => some p

def stepAll (p : Pub) : List Instr → Option Pub
  | [] => some p
  | i :: rest => match step p i with
    | none => none
    | some p' => stepAll p' rest

def condPub (p : Pub) : Cond → Bool
  | .zero | .nonzero => p.zf
  | .minus | .plus => p.nf

def Pub.le (p q : Pub) : Bool := p.regs.all q.has && (!p.zf || q.zf) && (!p.nf || q.nf)

/-- `entry b` is public at the beginning of block `b`. -/
def check (code : Code) (entry : Nat → Pub) : Bool :=
  (List.range code.length).all fun b => match code[b]? with
    | none => false
    | some blk => match stepAll (entry b) blk.body with
      | none => false
      | some p => match blk.term with
        | .ret => true
        | .jmp t => (entry t).le p
        | .jcc c t n => condPub p c && (entry t).le p && (entry n).le p

/-- Two states an observer that knows the public values cannot tell apart. -/
structure Agree (p : Pub) (s t : State) : Prop where
  regs : ∀ r, p.has r = true → s.gp r = t.gp r
  zf : p.zf = true → s.zf = t.zf
  nf : p.nf = true → s.nf = t.nf
  args : s.args = t.args
  readable : s.readable = t.readable
  writable : s.writable = t.writable

/-- Same kind of outcome, states that agree. -/
def Rel (p : Pub) : Outcome State → Outcome State → Prop
  | ok s, ok t => Agree p s t
  | ok _, _ => False
  | _, ok _ => False
  | _, _ => True

theorem has_add {p : Pub} {q r : Gp} {b : Bool} (h : (p.add q b).has r = true) : (r = q ∧ b = true) ∨ (r ≠ q ∧ p.has r = true) := by
  unfold Pub.add Pub.has at *
  cases b
  · simp at h; exact Or.inr ⟨h.2, by simpa using h.1⟩
  · simp at h
    by_cases hr : r = q
    · exact Or.inl ⟨hr, rfl⟩
    · exact Or.inr ⟨hr, by simpa [hr] using h⟩

theorem Agree.setV {p : Pub} {s t : State} (h : Agree p s t) (n r n' r' : Nat) (f g : Nat → Byte) :
    Agree p (s.setV n r f) (t.setV n' r' g) := ⟨h.regs, h.zf, h.nf, h.args, h.readable, h.writable⟩

theorem Agree.setG {p : Pub} {s t : State} (h : Agree p s t) {r : Gp} {b : Bool} {v w : BitVec 64} (hv : b = true → v = w) :
    Agree (p.add r b) (s.setG r v) (t.setG r w) := by
  refine ⟨fun q hq => ?_, h.zf, h.nf, h.args, h.readable, h.writable⟩
  rcases has_add hq with ⟨rfl, hb⟩ | ⟨hne, hp⟩
  · simp [State.setG, hv hb]
  · simp [State.setG, hne, h.regs q hp]

/-- A register updated from itself stays as public as it was. -/
theorem Agree.setSelf {p : Pub} {s t : State} (h : Agree p s t) {r : Gp} {v w : BitVec 64} (hv : p.has r = true → v = w) :
    Agree p (s.setG r v) (t.setG r w) := by
  refine ⟨fun q hq => ?_, h.zf, h.nf, h.args, h.readable, h.writable⟩
  by_cases hne : q = r
  · subst hne; simp [State.setG, hv hq]
  · simp [State.setG, hne, h.regs q hq]

theorem Agree.setGZ {p : Pub} {s t : State} (h : Agree p s t) {r : Gp} {v w : BitVec 64} (hv : p.has r = true → v = w) :
    Agree { p with zf := p.has r } (s.setGZ r v) (t.setGZ r w) := by
  have h' := h.setSelf hv
  refine ⟨h'.regs, fun hz => ?_, h.nf, h.args, h.readable, h.writable⟩
  simp only [State.setGZ]
  rw [hv hz]

theorem Agree.ea {p : Pub} {s t : State} (h : Agree p s t) {r : Gp} (hr : p.has r = true) (d : Nat) : s.ea r d = t.ea r d := by
  simp only [State.ea, h.regs r hr]

theorem rel_load {p : Pub} {s t : State} (h : Agree p s t) (a n : Nat) {F G : (Nat → Byte) → Outcome State}
    (hFG : ∀ f g, Rel p (F f) (G g)) : Rel p (s.load a n >>= F) (t.load a n >>= G) := by
  unfold State.load
  rw [h.readable]
  split
  · exact hFG _ _
  · trivial

theorem rel_store {p : Pub} {s t : State} (h : Agree p s t) (a n : Nat) (f g : Nat → Byte) :
    Rel p (s.store a n f) (t.store a n g) := by
  unfold State.store
  by_cases hw : ∀ i < n, t.writable (a + i) = true
  · rw [if_pos hw, if_pos (by rw [h.writable]; exact hw)]
    exact ⟨h.regs, h.zf, h.nf, h.args, h.readable, h.writable⟩
  · rw [if_neg hw, if_neg (by rw [h.writable]; exact hw)]
    trivial

theorem rel_aligned {p : Pub} {al : Bool} {a : Nat} {F G : Unit → Outcome State} (h : Rel p (F ()) (G ())) :
    Rel p (checkAligned al a >>= F) (checkAligned al a >>= G) := by
  unfold checkAligned
  split
  · trivial
  · exact h

theorem rel_loadMany {p : Pub} : ∀ (rs : List Nat) {s t : State} (a : Nat), Agree p s t → Rel p (loadMany s a rs) (loadMany t a rs)
  | [], _, _, _, h => h
  | _ :: rs, _, _, a, h => rel_load h _ _ fun _ _ => rel_loadMany rs (a + 16) (h.setV ..)

theorem rel_bind {p q : Pub} {x y : Outcome State} {F G : State → Outcome State} (h : Rel p x y)
    (hFG : ∀ s t, Agree p s t → Rel q (F s) (G t)) : Rel q (x >>= F) (y >>= G) := by
  cases x <;> cases y <;> first | exact hFG _ _ h | exact absurd h id | trivial

theorem rel_storeMany {p : Pub} : ∀ (rs : List Nat) {s t : State} (a : Nat), Agree p s t → Rel p (storeMany s a rs) (storeMany t a rs)
  | [], _, _, _, h => h
  | _ :: rs, _, _, a, h => rel_bind (rel_store h _ _ _ _) fun _ _ h' => rel_storeMany rs (a + 16) h'

theorem exec_rel {p p' : Pub} {s t : State} (h : Agree p s t) {i : Instr} (hi : step p i = some p') :
    obs s i = obs t i ∧ Rel p' (exec i s) (exec i t) := by
  cases i with
  | movArg off dst => cases hi; exact ⟨rfl, h.setG fun _ => by rw [h.args]⟩
  | movImm v dst => cases hi; exact ⟨rfl, h.setG fun _ => rfl⟩
  | movGp src dst => cases hi; exact ⟨rfl, h.setG fun hs => h.regs _ hs⟩
  | loadX al base disp dst =>
    simp only [step] at hi
    split at hi <;> cases hi
    rename_i hb
    refine ⟨by simp only [obs, h.ea hb], ?_⟩
    simp only [exec, h.ea hb]
    exact rel_aligned (rel_load h _ _ fun _ _ => h.setV ..)
  | storeX al src base disp =>
    simp only [step] at hi
    split at hi <;> cases hi
    rename_i hb
    refine ⟨by simp only [obs, h.ea hb], ?_⟩
    simp only [exec, h.ea hb]
    exact rel_aligned (rel_store h _ _ _ _)
  | loadY base disp dst =>
    simp only [step] at hi
    split at hi <;> cases hi
    rename_i hb
    refine ⟨by simp only [obs, h.ea hb], ?_⟩
    simp only [exec, h.ea hb]
    exact rel_load h _ _ fun _ _ => h.setV ..
  | storeY src base disp =>
    simp only [step] at hi
    split at hi <;> cases hi
    rename_i hb
    refine ⟨by simp only [obs, h.ea hb], ?_⟩
    simp only [exec, h.ea hb]
    exact rel_store h _ _ _ _
  | vld1 inc base dsts =>
    simp only [step] at hi
    split at hi <;> cases hi
    rename_i hb
    refine ⟨by simp only [obs, h.regs _ hb], ?_⟩
    simp only [exec, h.regs _ hb]
    exact rel_bind (rel_loadMany _ _ h) fun s' t' h' => h'.setSelf fun hr => by rw [h'.regs _ hr]
  | vst1 inc base srcs =>
    simp only [step] at hi
    split at hi <;> cases hi
    rename_i hb
    refine ⟨by simp only [obs, h.regs _ hb], ?_⟩
    simp only [exec, h.regs _ hb]
    exact rel_bind (rel_storeMany _ _ h) fun s' t' h' => h'.setSelf fun hr => by rw [h'.regs _ hr]
  | shrq k dst => cases hi; exact ⟨rfl, h.setGZ fun hr => by rw [h.regs _ hr]⟩
  | andq k dst => cases hi; exact ⟨rfl, h.setGZ fun hr => by rw [h.regs _ hr]⟩
  | addq k dst => cases hi; exact ⟨rfl, h.setGZ fun hr => by rw [h.regs _ hr]⟩
  | subq k dst => cases hi; exact ⟨rfl, h.setGZ fun hr => by rw [h.regs _ hr]⟩
  | orq src dst =>
    cases hi
    have hv : (p.has dst && p.has src) = true → s.gp dst ||| s.gp src = t.gp dst ||| t.gp src := by
      intro hb
      rw [Bool.and_eq_true] at hb
      rw [h.regs _ hb.1, h.regs _ hb.2]
    have h' := h.setG (r := dst) (b := p.has dst && p.has src) hv
    refine ⟨rfl, h'.regs, fun hz => ?_, h.nf, h.args, h.readable, h.writable⟩
    simp only [State.setGZ]
    rw [hv hz]
  | cmpq a k =>
    cases hi
    exact ⟨rfl, h.regs, fun hz => by simp only; rw [h.regs _ hz], h.nf, h.args, h.readable, h.writable⟩
  | testq a b =>
    cases hi
    refine ⟨rfl, h.regs, fun hz => ?_, h.nf, h.args, h.readable, h.writable⟩
    simp only [Bool.and_eq_true] at hz
    simp only
    rw [h.regs _ hz.1, h.regs _ hz.2]
  | subs k dst =>
    cases hi
    have h' := h.setGZ (r := dst) (v := s.gp dst - BitVec.ofNat 64 k) (w := t.gp dst - BitVec.ofNat 64 k)
      fun hr => by rw [h.regs _ hr]
    refine ⟨rfl, h'.regs, h'.zf, fun hz => ?_, h.args, h.readable, h.writable⟩
    simp only at hz ⊢
    rw [h.regs _ hz]
  | vzeroupper => cases hi; exact ⟨rfl, h.regs, h.zf, h.nf, h.args, h.readable, h.writable⟩
  | _ => cases hi; exact ⟨rfl, h.setV ..⟩

theorem execAll_rel {p' : Pub} : ∀ (is : List Instr) {p : Pub} {s t : State}, Agree p s t → stepAll p is = some p' →
    obsAll is s = obsAll is t ∧ Rel p' (execAll is s) (execAll is t)
  | [], p, s, t, h, hi => by cases hi; exact ⟨rfl, h⟩
  | i :: rest, p, s, t, h, hi => by
    simp only [stepAll] at hi
    split at hi
    · cases hi
    · rename_i q hq
      obtain ⟨ho, hr⟩ := exec_rel h hq
      simp only [obsAll, execAll, ho]
      revert hr
      cases exec i s <;> cases exec i t <;> intro hr <;>
        first
          | exact absurd hr id
          | exact ⟨rfl, trivial⟩
          | exact ⟨congrArg _ (execAll_rel rest hr hi).1, (execAll_rel rest hr hi).2⟩

theorem Agree.mono {p q : Pub} {s t : State} (h : Agree q s t) (hle : p.le q = true) : Agree p s t := by
  simp only [Pub.le, Bool.and_eq_true, List.all_eq_true, Bool.or_eq_true, Bool.not_eq_true'] at hle
  obtain ⟨⟨h1, h2⟩, h3⟩ := hle
  refine ⟨fun r hr => h.regs r (h1 r (by simpa [Pub.has] using hr)), fun hz => h.zf ?_, fun hn => h.nf ?_, h.args, h.readable, h.writable⟩
  · rcases h2 with h2 | h2
    · rw [h2] at hz; cases hz
    · exact h2
  · rcases h3 with h3 | h3
    · rw [h3] at hn; cases hn
    · exact h3

theorem Agree.cond {p : Pub} {s t : State} (h : Agree p s t) {c : Cond} (hc : condPub p c = true) : c.holds s = c.holds t := by
  cases c <;> simp only [Cond.holds]
  · exact h.zf hc
  · rw [h.zf hc]
  · exact h.nf hc
  · rw [h.nf hc]

/-- The checker is sound: two runs from states that agree on what is public at block `b` show the same. -/
theorem trace_eq {code : Code} {entry : Nat → Pub} (hc : check code entry = true) : ∀ (fuel b : Nat) {s t : State},
    Agree (entry b) s t → trace code fuel b s = trace code fuel b t
  | 0, _, _, _, _ => rfl
  | fuel + 1, b, s, t, h => by
    simp only [trace]
    cases hb : code[b]? with
    | none => rfl
    | some blk =>
      have hlt : b < code.length := by
        rcases Nat.lt_or_ge b code.length with hlt | hge
        · exact hlt
        · rw [List.getElem?_eq_none hge] at hb
          cases hb
      have := List.all_eq_true.1 hc b (by simpa using hlt)
      simp only [hb] at this
      split at this
      · cases this
      · rename_i p hp
        obtain ⟨ho, hr⟩ := execAll_rel _ h hp
        simp only [ho]
        revert hr
        cases execAll blk.body s <;> cases execAll blk.body t <;> intro hr <;> try (first | exact absurd hr id | rfl)
        rename_i s' t'
        have hr : Agree p s' t' := hr
        simp only
        cases hterm : blk.term with
        | ret => rfl
        | jmp j =>
          rw [hterm] at this
          simp only at this ⊢
          rw [trace_eq hc fuel j (hr.mono this)]
        | jcc c j n =>
          rw [hterm] at this
          simp only [Bool.and_eq_true] at this ⊢
          obtain ⟨⟨h1, h2⟩, h3⟩ := this
          rw [hr.cond h1]
          split
          · rw [trace_eq hc fuel j (hr.mono h2)]
          · rw [trace_eq hc fuel n (hr.mono h3)]

/-- Public at the beginning of a routine: nothing; afterwards: these registers. -/
def entryOf (regs : List Gp) (b : Nat) : Pub := if b = 0 then ⟨[], false, false⟩ else ⟨regs, false, false⟩

theorem frame_congr {xs ys : List Arg} (h : xs.map shape = ys.map shape) : frame xs = frame ys := by
  funext off
  have := congrArg (·[off / 24]?) h
  simp only [List.getElem?_map] at this
  unfold frame
  cases hx : xs[off / 24]? <;> cases hy : ys[off / 24]? <;> rw [hx, hy] at this <;> simp [shape] at this ⊢
  rw [this.1, this.2]

theorem any_congr (a : Nat) : ∀ {xs ys : List Arg}, xs.map shape = ys.map shape → xs.any (·.contains a) = ys.any (·.contains a)
  | [], [], _ => rfl
  | [], _ :: _, h => by simp at h
  | _ :: _, [], h => by simp at h
  | x :: xs, y :: ys, h => by
    simp only [List.map_cons, List.cons.injEq] at h
    simp only [List.any_cons, any_congr a h.2]
    have := h.1
    simp only [shape, Prod.mk.injEq] at this
    simp only [Arg.contains, this.1, this.2]

theorem callTrace_eq {code : Code} {regs : List Gp} (hc : check code (entryOf regs) = true) (fuel : Nat) (init init' : State)
    {xs xs' : List Arg} {dst dst' : Arg} (hx : xs.map shape = xs'.map shape) (hd : shape dst = shape dst') :
    callTrace code fuel init xs dst = callTrace code fuel init' xs' dst' := by
  have hall : (xs ++ [dst]).map shape = (xs' ++ [dst']).map shape := by simp [hx, hd]
  refine trace_eq hc fuel 0 ⟨fun r hr => ?_, fun hz => ?_, fun hn => ?_, frame_congr hall, ?_, ?_⟩
  · simp [entryOf, Pub.has] at hr
  · simp [entryOf] at hz
  · simp [entryOf] at hn
  · funext a; exact any_congr a hall
  · funext a
    simp only [shape, Prod.mk.injEq] at hd
    simp only [Arg.contains, hd.1, hd.2]

end Verif.Proofs.Leak
