import Verif.Spec.Draws
import Verif.Proofs.HeapSystem

/-! # The random bytes a program draws, whatever the memory contains -/

namespace Verif.Proofs.Own
open Verif Outcome Galois Shamir Spec Pool Csprng RS Verif.Heap

/-- Result and random bytes drawn satisfy `Q` at the end of every run. -/
def Draws {α : Type} : Prog α → (α → List Byte → Prop) → Prop
  | .ret a, Q => Q a []
  | .panic, _ => True
  | .alloc _ k, Q => ∀ a, Draws (k a) Q
  | .read _ _ k, Q => ∀ v, Draws (k v) Q
  | .write _ _ _ k, Q => Draws k Q
  | .get _ k, Q => ∀ a n, Draws (k a n) Q
  | .put _ _ k, Q => Draws k Q
  | .rand k, Q => ∀ v, Draws (k v) fun a l => Q a (v :: l)

variable {α β σ : Type}

theorem Draws.mono {Q Q' : α → List Byte → Prop} (h : ∀ a l, Q a l → Q' a l) {p : Prog α} (hp : Draws p Q) :
    Draws p Q' := by
  induction p generalizing Q Q' with
  | ret a => exact h _ _ hp
  | panic => exact hp
  | alloc n k ih => exact fun a => ih a h (hp a)
  | read a i k ih => exact fun v => ih v h (hp v)
  | write a i v k ih => exact ih h hp
  | get p k ih => exact fun a n => ih a n h (hp a n)
  | put p a k ih => exact ih h hp
  | rand k ih => exact fun v => ih v (fun a l => h a (v :: l)) (hp v)

theorem Draws.bind {Q : β → List Byte → Prop} {p : Prog α} {f : α → Prog β}
    (h : Draws p fun a l => Draws (f a) fun b m => Q b (l ++ m)) : Draws (p.bind f) Q := by
  induction p generalizing Q with
  | ret a => exact h
  | panic => exact h
  | alloc n k ih => exact fun a => ih a (h a)
  | read a i k ih => exact fun v => ih v (h v)
  | write a i v k ih => exact ih h
  | get p k ih => exact fun a n => ih a n (h a n)
  | put p a k ih => exact ih h
  | rand k ih => exact fun v => ih v (h v)

/-- A program that draws nothing. -/
def Quiet (p : Prog α) : Prop := Draws p fun _ l => l = []

theorem Quiet.bind {p : Prog α} {f : α → Prog β} (hp : Quiet p) (hf : ∀ a, Quiet (f a)) : Quiet (p.bind f) :=
  Draws.bind (Draws.mono (by rintro a l rfl; exact hf a) hp)

/-- First a program that draws nothing. -/
theorem Quiet.then {p : Prog α} {f : α → Prog β} {Q : β → List Byte → Prop} (hp : Quiet p) (hf : ∀ a, Draws (f a) Q) :
    Draws (p.bind f) Q :=
  Draws.bind (Draws.mono (by rintro a l rfl; exact hf a) hp)

/-- Last a program that draws nothing. -/
theorem Draws.thenQuiet {p : Prog α} {f : α → Prog β} {Q : List Byte → Prop} (hp : Draws p fun _ => Q)
    (hf : ∀ a, Quiet (f a)) : Draws (p.bind f) fun _ => Q :=
  Draws.bind (Draws.mono (fun a l h => Draws.mono (by rintro b m rfl; simpa using h) (hf a)) hp)

theorem quiet_forUp {n : Nat} {body : Nat → σ → Prog σ} {s : σ} (h : ∀ i s, Quiet (body i s)) : Quiet (Prog.forUp n body s) := by
  induction n with
  | zero => exact rfl
  | succ n ih => exact ih.bind (h n)

theorem quiet_forDown {n : Nat} {body : Nat → σ → Prog σ} {s : σ} (h : ∀ i s, Quiet (body i s)) :
    Quiet (Prog.forDown n body s) := by
  induction n generalizing s with
  | zero => exact rfl
  | succ n ih => exact (h n s).bind fun _ => ih

theorem quiet_lift (o : Outcome α) : Quiet (Prog.lift o) := by
  cases o with
  | ok a => exact rfl
  | _ => exact trivial

theorem quiet_readAll (a : Arr) (off n : Nat) : Quiet (Prog.readAll a off n) := quiet_forUp fun _ _ _ => rfl

theorem quiet_writeAll (a : Arr) (off : Nat) (l : List Byte) : Quiet (Prog.writeAll a off l) := quiet_forUp fun _ _ => rfl

theorem draws_drawAll (n : Nat) : Draws (Prog.drawAll n) fun rs l => l = rs ∧ rs.length = n := by
  have : ∀ m, Draws (Prog.forUp m (fun _ l => Prog.rand fun v => Prog.ret (l ++ [v])) []) fun rs l => l = rs ∧ rs.length = m := by
    intro m
    induction m with
    | zero => exact ⟨rfl, rfl⟩
    | succ m ih =>
      refine Draws.bind (Draws.mono ?_ ih)
      rintro a l ⟨rfl, rfl⟩ v
      exact ⟨rfl, by simp⟩
  exact this n

theorem draws_call {o : Outcome α} {k : α → Prog (Outcome β)} {Q : Outcome β → List Byte → Prop}
    (hok : ∀ a, o = ok a → Draws (k a) Q) (hno : ∀ r : Outcome β, (∀ b, r ≠ ok b) → ((∀ a, o ≠ ok a)) →
      (r = spin ↔ o = spin) → Q r []) :
    Draws (Prog.call o k) Q := by
  cases o with
  | ok a => exact hok a rfl
  | _ => exact hno _ (by simp) (by simp) (by simp)

theorem draws_readAll (a : Arr) (off n : Nat) : Draws (Prog.readAll a off n) fun bs l => l = [] ∧ bs.length = n := by
  unfold Prog.readAll
  induction n with
  | zero => exact ⟨rfl, rfl⟩
  | succ n ih =>
    refine Draws.bind (Draws.mono ?_ ih)
    rintro bs l ⟨rfl, rfl⟩ v
    exact ⟨rfl, by simp⟩

theorem quiet_call {o : Outcome α} {k : α → Prog (Outcome β)} (h : ∀ a, Quiet (k a)) : Quiet (Prog.call o k) :=
  draws_call (fun a _ => h a) fun _ _ _ _ => rfl

theorem quiet_storeRows (rows : List (List Byte)) : Quiet (storeRows rows) := by
  induction rows with
  | nil => exact rfl
  | cons row rest ih => exact fun a => (quiet_writeAll _ _ _).bind fun _ => ih.bind fun _ => rfl

theorem quiet_readOptSlices (l : List (Option Slice)) : Quiet (readOptSlices l) := by
  induction l with
  | nil => exact rfl
  | cons s rest ih =>
    cases s with
    | none => exact ih.bind fun _ => rfl
    | some s => exact (quiet_readAll _ _ _).bind fun _ => ih.bind fun _ => rfl

theorem quiet_grow (a : Arr) (cap n : Nat) : Quiet (grow a cap n) := by
  unfold grow
  split
  · exact rfl
  · split <;> exact fun _ => rfl

theorem quiet_acquireP (pooled : Bool) (n : Nat) : Quiet (acquireP pooled n) := by
  unfold acquireP
  split
  · exact fun a c => quiet_grow a c n
  · exact fun _ => rfl

theorem quiet_releaseP (pooled : Bool) (a : Arr) : Quiet (releaseP pooled a) := by
  unfold releaseP
  split <;> exact rfl

theorem quiet_transposeP (src dst : Arr) (N t : Nat) : Quiet (transposeP src dst N t) := by
  refine Quiet.bind (quiet_forUp fun i st => ?_) fun _ => ?_
  · exact fun _ => rfl
  · exact rfl

theorem quiet_mulP (arch : Arch) (x : Byte) (a : Arr) (N : Nat) : Quiet (mulP arch x a N) := by
  refine Quiet.bind (quiet_readAll _ _ _) fun l => Quiet.bind (quiet_lift _) fun m => ?_
  have key : ∀ d : Arr, Quiet (Prog.bind (Prog.writeAll d 0 m) fun _ => Prog.ret d) :=
    fun d => Quiet.bind (quiet_writeAll _ _ _) fun _ => by exact rfl
  dsimp only
  split
  · exact key a
  · exact fun d => key d

theorem quiet_addP (arch : Arch) (coef : Arr) (off : Nat) (m : Arr) (N : Nat) : Quiet (addP arch coef off m N) :=
  (quiet_readAll _ _ _).bind fun _ => (quiet_readAll _ _ _).bind fun _ => (quiet_lift _).bind fun _ => quiet_writeAll _ _ _

theorem quiet_evaluateP (arch : Arch) (coef : Arr) (N t : Nat) (x : Byte) (out : Arr) (off : Nat) :
    Quiet (evaluateP arch coef N t x out off) := by
  intro a c
  refine Quiet.bind (quiet_grow _ _ _) fun _ => Quiet.bind (quiet_readAll _ _ _) fun _ =>
    Quiet.bind (quiet_writeAll _ _ _) fun _ => Quiet.bind (quiet_forDown fun _ _ => ?_) fun _ =>
    Quiet.bind (quiet_readAll _ _ _) fun _ => Quiet.bind (quiet_writeAll _ _ _) fun _ => ?_
  · refine Quiet.bind (quiet_mulP _ _ _ _) fun _ => Quiet.bind (quiet_addP _ _ _ _ _) fun _ => ?_
    exact rfl
  · exact rfl

theorem quiet_setInterceptsP (s : Slice) (pb : Arr) (N t : Nat) : Quiet (setInterceptsP s pb N t) :=
  quiet_forUp fun _ _ _ => rfl

theorem draws_makePolynomialsP (s : Slice) (N t : Nat) (pb : Arr) :
    Draws (makePolynomialsP s N t pb) fun _ l => l.length = t * N := by
  refine Draws.thenQuiet (Q := fun l => l.length = t * N) ?_ fun _ => quiet_setInterceptsP _ _ _ _
  have : ∀ m, Draws (Prog.forUp m (fun j _ => Prog.rand fun v => Prog.write pb j v (Prog.ret ())) ()) fun _ l => l.length = m := by
    intro m
    induction m with
    | zero => exact rfl
    | succ m ih =>
      refine Draws.bind (Draws.mono (fun a l h v => ?_) ih)
      show (l ++ [v]).length = m + 1
      simp [h]
  exact this _

theorem quiet_makePolynomialsRandomizerP (r : CSPRNG) (s : Slice) (N t : Nat) (pb : Arr) :
    Quiet (makePolynomialsRandomizerP r s N t pb) := by
  refine Quiet.bind (quiet_forUp fun _ _ => ?_) fun _ => quiet_setInterceptsP _ _ _ _
  exact fun _ => rfl

theorem draws_sharesP {arch : Arch} {N n t : Nat} {xs : List Byte} {pooled : Bool} {mk : Arr → Prog Unit} {c : Nat}
    (h : ∀ pb, Draws (mk pb) fun _ l => l.length = c) :
    Draws (sharesP arch N n t xs pooled mk) fun r l => (∃ s, r = ok s ∧ s.length = n) ∧ l.length = c := by
  intro buff
  refine Quiet.then (quiet_forUp fun _ _ => by exact rfl) fun _ => Quiet.then (quiet_acquireP _ _) fun pb => ?_
  refine Draws.bind (Draws.mono (fun _ l hl => ?_) (h pb))
  refine Draws.mono (Q := fun r m => (∃ s, r = ok s ∧ s.length = n) ∧ m = []) ?_ ?_
  · rintro r m ⟨hs, rfl⟩
    exact ⟨hs, by simpa using hl⟩
  · refine (quiet_acquireP _ _).then fun tb => (quiet_transposeP _ _ _ _).then fun _ =>
      (quiet_forUp fun _ _ => quiet_evaluateP _ _ _ _ _ _ _).then fun _ => (quiet_releaseP _ _).then fun _ =>
      (quiet_releaseP _ _).then fun _ => ⟨⟨_, rfl, by simp⟩, rfl⟩

theorem quiet_sharesP {arch : Arch} {N n t : Nat} {xs : List Byte} {pooled : Bool} {mk : Arr → Prog Unit}
    (h : ∀ pb, Quiet (mk pb)) : Quiet (sharesP arch N n t xs pooled mk) :=
  Draws.mono (fun _ _ h => List.length_eq_zero_iff.1 h.2) (draws_sharesP (c := 0)
    fun pb => Draws.mono (fun _ _ h => by rw [h]; rfl) (h pb))

theorem draws_checkP {N : Nat} {parts threshold : Int} {k : Prog (Outcome (List Slice))}
    {Q : Outcome (List Slice) → List Byte → Prop} (he : ∀ e, Q (err e) [])
    (hk : threshold ≤ parts → parts ≤ 255 → 2 ≤ threshold → N ≠ 0 → Draws k Q) :
    Draws (checkP N parts threshold k) Q := by
  unfold checkP
  split
  · exact he _
  split
  · exact he _
  split
  · exact he _
  split
  · exact he _
  split
  · exact he _
  exact hk (by omega) (by omega) (by omega) ‹_›

theorem draws_splitP (arch : Arch) (secret : Slice) (parts threshold : Int) (perm : List Nat) :
    Draws (splitP arch secret parts threshold perm) fun r l =>
      ((∃ s, r = ok s ∧ s.length = parts.toNat ∧ 2 ≤ parts) ∧ l.length = threshold.toNat * secret.len) ∨
      ((∃ e, r = err e) ∧ l = []) :=
  draws_checkP (fun e => .inr ⟨⟨e, rfl⟩, rfl⟩) fun _ _ _ _ => (Draws.mono (fun _ _ ⟨⟨s, h1, h2⟩, h3⟩ => .inl ⟨⟨s, h1, h2, by omega⟩, h3⟩) (draws_sharesP fun _ => draws_makePolynomialsP _ _ _ _))

theorem quiet_splitWithRandomizerP (arch : Arch) (fuel : Nat) (secret : Slice) (parts threshold : Int) (r : CSPRNG) :
    Quiet (splitWithRandomizerP arch fuel secret parts threshold r) :=
  draws_checkP (fun _ => rfl) fun _ _ _ _ => (quiet_lift _).bind fun _ => quiet_sharesP fun _ => quiet_makePolynomialsRandomizerP _ _ _ _ _

theorem quiet_splitWithRandomizerOldP (arch : Arch) (secret : Slice) (parts threshold : Int) (r : CSPRNG) :
    Quiet (splitWithRandomizerOldP arch secret parts threshold r) := by
  unfold splitWithRandomizerOldP
  generalize r.perm 255#8 = o
  exact draws_checkP (fun _ => rfl) fun _ _ _ _ => Quiet.bind (quiet_lift _) fun _ =>
    quiet_sharesP fun _ => quiet_makePolynomialsRandomizerP _ _ _ _ _

theorem quiet_readTagsP (L : Nat) (l : List Slice) : ∀ seen, Quiet (readTagsP L l seen) := by
  induction l with
  | nil => exact fun _ => rfl
  | cons s rest ih =>
    intro seen v
    show Quiet (if v ∈ seen then _ else _)
    split
    · exact rfl
    · exact ih _

theorem quiet_readColumnP (j : Nat) (l : List Slice) : Quiet (readColumnP j l) := by
  induction l with
  | nil => exact rfl
  | cons s rest ih => exact fun v => Quiet.bind ih fun _ => rfl

theorem quiet_interpolateRowP (l : List Slice) (xs : List Byte) (x : Byte) (a : Arr) (N : Nat) :
    Quiet (interpolateRowP l xs x a N) :=
  quiet_forUp fun _ _ => (quiet_readColumnP _ _).bind fun _ => Quiet.bind (quiet_lift _) fun _ => rfl

theorem quiet_combineP (parts : List Slice) : Quiet (combineP parts) :=
  quiet_call fun _ _ => (quiet_readTagsP _ _ _).bind fun _ => quiet_call fun _ =>
    (quiet_interpolateRowP _ _ _ _ _).bind fun _ => rfl

theorem quiet_assembleP (parts : Nat) (es : List (List Byte)) (ms : List Slice) : Quiet (assembleP parts es ms) :=
  quiet_call fun _ => quiet_call fun _ => fun _ => (quiet_forUp fun i _ => (quiet_lift _).bind fun _ =>
    (quiet_lift _).bind fun _ => (quiet_readAll _ _ _).bind fun _ => (quiet_writeAll _ _ _).bind fun _ =>
    quiet_writeAll _ _ _).bind fun _ => rfl

theorem quiet_krawczykTailP {env : Krawczyk.Env} {secret : Slice} {key : List Byte} {parts threshold : Int}
    {share : Slice → Prog (Outcome (List Slice))} (h : ∀ s, Quiet (share s)) :
    Quiet (krawczykTailP env secret key parts threshold share) :=
  (quiet_readAll _ _ _).bind fun _ => quiet_call fun _ _ => (quiet_writeAll _ _ _).bind fun _ => (h _).bind fun _ =>
    quiet_call fun _ => quiet_assembleP _ _ _

theorem quiet_krawczykSplitWithRandomizerP (env : Krawczyk.Env) (fuel : Nat) (secret : Slice) (parts threshold : Int)
    (r : CSPRNG) : Quiet (krawczykSplitWithRandomizerP env fuel secret parts threshold r) :=
  quiet_call fun _ => quiet_krawczykTailP fun _ => quiet_splitWithRandomizerP _ _ _ _ _ _

theorem quiet_reconstructStoresP (k size : Nat) (hs : List (Option Slice)) (rec : List (List Byte)) :
    Quiet (reconstructStoresP k size hs rec) := by
  refine quiet_forUp fun i _ => ?_
  split
  · split
    · exact quiet_writeAll _ _ _
    · exact rfl
  · exact rfl

theorem quiet_readShardsP (k size : Nat) (hs : List (Option Slice)) (rec : List (List Byte)) :
    Quiet (readShardsP k size hs rec) := by
  refine quiet_forUp fun i _ => ?_
  repeat' split
  · exact (quiet_readAll _ _ _).bind fun _ => rfl
  · exact (quiet_readAll _ _ _).bind fun _ => rfl
  · exact rfl
  · exact rfl

theorem quiet_separateP (parts : Int) : ∀ (l : List Slice) (st : List (Option Slice) × List Slice),
    Quiet (separateP parts l st)
  | [], _ => rfl
  | s :: rest, (_, _) => by
    unfold separateP
    by_cases h1 : s.cap < 21
    · rw [if_pos h1]; exact rfl
    rw [if_neg h1]
    by_cases h2 : s.len = 0
    · rw [if_pos h2]; exact rfl
    rw [if_neg h2]
    intro v
    simp only []
    by_cases h3 : v > BitVec.ofInt 8 parts
    · rw [if_pos h3]; exact rfl
    rw [if_neg h3]
    intro v'
    simp only []
    by_cases h4 : s.len - 1 < 21
    · rw [if_pos h4]; exact rfl
    rw [if_neg h4]
    exact quiet_call fun _ => quiet_separateP parts rest _

theorem quiet_krawczykDecodeP (env : Krawczyk.Env) (hs : List (Option Slice)) (key : List Byte) (length : BitVec 32)
    (parts threshold : Int) : Quiet (krawczykDecodeP env hs key length parts threshold) :=
  quiet_call fun _ => (quiet_readOptSlices _).bind fun _ => quiet_call fun _ => (quiet_reconstructStoresP _ _ _ _).bind fun _ =>
    (quiet_readShardsP _ _ _ _).bind fun _ => quiet_call fun _ => quiet_call fun _ => fun _ =>
    (quiet_writeAll _ _ _).bind fun _ => rfl

theorem quiet_krawczykCombineP (env : Krawczyk.Env) (ss : List (Option Slice)) (parts threshold : Int) :
    Quiet (krawczykCombineP env ss parts threshold) := by
  refine quiet_call fun _ => quiet_call fun _ => quiet_call fun _ => ?_
  split
  · exact rfl
  · refine (quiet_separateP _ _ _).bind fun _ => quiet_call fun _ => (quiet_combineP _).bind fun _ => quiet_call fun _ =>
      quiet_call fun _ => (quiet_readAll _ _ _).bind fun _ => quiet_call fun _ => quiet_call fun _ => ?_
    split
    · exact rfl
    · exact quiet_krawczykDecodeP _ _ _ _ _ _

/-! ## Combination with the ownership logic -/

variable {R : Set Loc}

theorem wp_and_draws {Q : Post α} {D : α → List Byte → Prop} {p : Prog α} : ∀ {W h log},
    wp R p Q W h log → Draws p (fun a l => D a (log ++ l)) → wp R p (fun a W h log => Q a W h log ∧ D a log) W h log := by
  induction p with
  | ret a => intro W h log hw hd; exact ⟨hw, by simpa [Draws] using hd⟩
  | panic => intro W h log hw hd; exact hw
  | alloc n k ih => intro W h log hw hd a hf; exact ih a (hw a hf) (hd a)
  | read a i k ih => rintro W h log ⟨hm, v, hv, hw⟩ hd; exact ⟨hm, v, hv, ih v hw (hd v)⟩
  | write a i v k ih => rintro W h log ⟨hm, hl, hw⟩ hd; exact ⟨hm, hl, ih hw hd⟩
  | get p k ih => intro W h log hw hd a c hf; exact ih a _ (hw a c hf) (hd a _)
  | put p a k ih => rintro W h log ⟨hs, hw⟩ hd; exact ⟨hs, ih hw hd⟩
  | rand k ih => intro W h log hw hd v; exact ih v (hw v) (Draws.mono (fun a l h => by simpa using h) (hd v))

theorem wp_and {Q Q' : Post α} {p : Prog α} : ∀ {W h log},
    wp R p Q W h log → wp R p Q' W h log → wp R p (fun a W h log => Q a W h log ∧ Q' a W h log) W h log := by
  induction p with
  | ret a => intro W h log hw hd; exact ⟨hw, hd⟩
  | panic => intro W h log hw hd; exact hw
  | alloc n k ih => intro W h log hw hd a hf; exact ih a (hw a hf) (hd a hf)
  | read a i k ih =>
    rintro W h log ⟨hm, v, hv, hw⟩ ⟨-, v', hv', hd⟩
    rw [hv] at hv'
    cases hv'
    exact ⟨hm, v, hv, ih v hw hd⟩
  | write a i v k ih => rintro W h log ⟨hm, hl, hw⟩ hd; exact ⟨hm, hl, ih hw hd.2.2⟩
  | get p k ih => intro W h log hw hd a c hf; exact ih a _ (hw a c hf) (hd a c hf)
  | put p a k ih => rintro W h log ⟨hs, hw⟩ hd; exact ⟨hs, ih hw hd.2⟩
  | rand k ih => intro W h log hw hd v; exact ih v (hw v) (hd v)

/-- A step of a program. -/
theorem Draws.step {Q : α → List Byte → Prop} {s s' : Shared} {p p' : Prog α} {bs : List Byte} (h : Step s p s' p' bs)
    (hp : Draws p Q) : Draws p' fun a l => Q a (bs ++ l) := by
  cases h with
  | alloc => exact hp _
  | read => exact hp _
  | readPanic => exact trivial
  | write => exact hp
  | writePanic => exact trivial
  | get => exact hp _ _
  | getNew => exact hp _ _
  | put => exact hp
  | putDrop => exact hp
  | rand => exact hp _

end Verif.Proofs.Own
