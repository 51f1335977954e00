import Verif.Proofs.HeapSystem

/-! # The buffers a program takes from the pools and returns to them, whatever the memory contains -/

namespace Verif.Proofs.Own
open Verif Outcome Galois Shamir Spec Pool Csprng RS Verif.Heap

/-- On every run that starts with `n p` buffers of pool `p` in hand and does not panic, `m p` of them are in hand at the
end; there are never more than `b p`, and none is put that is not there. -/
def Keeps {α : Type} (b m : PoolId → Nat) : Prog α → (PoolId → Nat) → Prop
  | .ret _, n => n = m
  | .panic, _ => True
  | .alloc _ k, n => ∀ a, Keeps b m (k a) n
  | .read _ _ k, n => ∀ v, Keeps b m (k v) n
  | .write _ _ _ k, n => Keeps b m k n
  | .get p k, n => n p < b p ∧ ∀ a c, Keeps b m (k a c) (Function.update n p (n p + 1))
  | .put p _ k, n => 0 < n p ∧ Keeps b m k (Function.update n p (n p - 1))
  | .rand k, n => ∀ v, Keeps b m (k v) n

variable {α β σ : Type} {b : PoolId → Nat}

theorem Keeps.bind {n m l : PoolId → Nat} {p : Prog α} {f : α → Prog β} (hp : Keeps b m p n) (hf : ∀ a, Keeps b l (f a) m) :
    Keeps b l (p.bind f) n := by
  induction p generalizing n with
  | ret a => obtain rfl : n = m := hp; exact hf a
  | panic => exact trivial
  | alloc s k ih => exact fun a => ih a (hp a)
  | read a i k ih => exact fun v => ih v (hp v)
  | write a i v k ih => exact ih hp
  | get p k ih => exact ⟨hp.1, fun a c => ih a c (hp.2 a c)⟩
  | put p a k ih => exact ⟨hp.1, ih hp.2⟩
  | rand k ih => exact fun v => ih v (hp v)

/-- A program after which as many buffers are in hand as before. -/
abbrev Still (b n : PoolId → Nat) (p : Prog α) : Prop := Keeps b n p n

variable {n : PoolId → Nat}

theorem still_ret (a : α) : Still b n (.ret a) := rfl

theorem still_forUp {k : Nat} {body : Nat → σ → Prog σ} {s : σ} (h : ∀ i s, Still b n (body i s)) : Still b n (Prog.forUp k body s) := by
  induction k with
  | zero => exact rfl
  | succ k ih => exact ih.bind (h k)

theorem still_forDown {k : Nat} {body : Nat → σ → Prog σ} {s : σ} (h : ∀ i s, Still b n (body i s)) :
    Still b n (Prog.forDown k body s) := by
  induction k generalizing s with
  | zero => exact rfl
  | succ k ih => exact (h k s).bind fun _ => ih

theorem still_lift (o : Outcome α) : Still b n (Prog.lift o) := by
  cases o with
  | ok a => exact rfl
  | _ => exact trivial

theorem still_readAll (a : Arr) (off k : Nat) : Still b n (Prog.readAll a off k) := still_forUp fun _ _ _ => rfl

theorem still_writeAll (a : Arr) (off : Nat) (l : List Byte) : Still b n (Prog.writeAll a off l) := still_forUp fun _ _ => rfl

theorem still_drawAll (k : Nat) : Still b n (Prog.drawAll k) := still_forUp fun _ _ _ => rfl

theorem still_call {o : Outcome α} {k : α → Prog (Outcome β)} (h : ∀ a, Still b n (k a)) : Still b n (Prog.call o k) := by
  cases o with
  | ok a => exact h a
  | _ => exact rfl

theorem still_storeRows (rows : List (List Byte)) : Still b n (storeRows rows) := by
  induction rows with
  | nil => exact rfl
  | cons row rest ih => exact fun a => (still_writeAll _ _ _).bind fun _ => ih.bind fun _ => still_ret _

theorem still_readOptSlices (l : List (Option Slice)) : Still b n (readOptSlices l) := by
  induction l with
  | nil => exact rfl
  | cons s rest ih =>
    cases s with
    | none => exact ih.bind fun _ => still_ret _
    | some s => exact (still_readAll _ _ _).bind fun _ => ih.bind fun _ => still_ret _

theorem still_grow (a : Arr) (cap k : Nat) : Still b n (grow a cap k) := by
  unfold grow
  split
  · exact rfl
  · split <;> exact fun _ => rfl

/-- `bPool` buffers in hand: as many as in `n`, plus `k`. -/
def plus (n : PoolId → Nat) (k : Nat) : PoolId → Nat := Function.update n .bPool (n .bPool + k)

theorem keeps_acquireP (pooled : Bool) (k : Nat) (h : pooled = true → n .bPool < b .bPool) :
    Keeps b (if pooled then plus n 1 else n) (acquireP pooled k) n := by
  unfold acquireP
  cases pooled with
  | true => exact ⟨h rfl, fun a c => still_grow a c k⟩
  | false => exact fun _ => rfl

theorem keeps_releaseP (pooled : Bool) (a : Arr) : Keeps b n (releaseP pooled a) (if pooled then plus n 1 else n) := by
  unfold releaseP
  cases pooled with
  | true =>
    refine ⟨by show 0 < plus n 1 .bPool; simp [plus], ?_⟩
    show Function.update (plus n 1) .bPool (plus n 1 .bPool - 1) = n
    simp [plus]
  | false => exact rfl

theorem still_transposeP (src dst : Arr) (N t : Nat) : Still b n (transposeP src dst N t) :=
  Keeps.bind (still_forUp fun _ _ _ => rfl) fun _ => still_ret _

theorem still_mulP (arch : Arch) (x : Byte) (a : Arr) (N : Nat) : Still b n (mulP arch x a N) := by
  refine Keeps.bind (still_readAll _ _ _) fun l => Keeps.bind (still_lift _) fun m => ?_
  have key : ∀ d : Arr, Still b n (Prog.bind (Prog.writeAll d 0 m) fun _ => Prog.ret d) :=
    fun d => Keeps.bind (still_writeAll _ _ _) fun _ => still_ret _
  dsimp only
  split
  · exact key a
  · exact fun d => key d

theorem still_addP (arch : Arch) (coef : Arr) (off : Nat) (m : Arr) (N : Nat) : Still b n (addP arch coef off m N) :=
  (still_readAll _ _ _).bind fun _ => (still_readAll _ _ _).bind fun _ => (still_lift _).bind fun _ => still_writeAll _ _ _

theorem still_evaluateP (arch : Arch) (coef : Arr) (N t : Nat) (x : Byte) (out : Arr) (off : Nat) (h : n .polyPool < b .polyPool) :
    Still b n (evaluateP arch coef N t x out off) := by
  refine ⟨h, fun a c => ?_⟩
  refine Keeps.bind (still_grow _ _ _) fun _ => Keeps.bind (still_readAll _ _ _) fun _ =>
    Keeps.bind (still_writeAll _ _ _) fun _ => Keeps.bind (still_forDown fun _ _ => ?_) fun _ =>
    Keeps.bind (still_readAll _ _ _) fun _ => Keeps.bind (still_writeAll _ _ _) fun _ => ?_
  · exact Keeps.bind (still_mulP _ _ _ _) fun _ => Keeps.bind (still_addP _ _ _ _ _) fun _ => still_ret _
  · refine ⟨by simp, ?_⟩
    show Function.update (Function.update n _ _) _ _ = n
    simp

theorem still_setInterceptsP (s : Slice) (pb : Arr) (N t : Nat) : Still b n (setInterceptsP s pb N t) :=
  still_forUp fun _ _ _ => rfl

theorem still_makePolynomialsP (s : Slice) (N t : Nat) (pb : Arr) : Still b n (makePolynomialsP s N t pb) :=
  Keeps.bind (still_forUp fun _ _ _ => rfl) fun _ => still_setInterceptsP _ _ _ _

theorem still_makePolynomialsRandomizerP (r : CSPRNG) (s : Slice) (N t : Nat) (pb : Arr) :
    Still b n (makePolynomialsRandomizerP r s N t pb) :=
  Keeps.bind (still_forUp fun _ _ _ => rfl) fun _ => still_setInterceptsP _ _ _ _

theorem plus_poly (n : PoolId → Nat) (k : Nat) : plus n k .polyPool = n .polyPool := by simp [plus]

theorem still_sharesP {arch : Arch} {N k t : Nat} {xs : List Byte} {pooled : Bool} {mk : Arr → Prog Unit}
    (h1 : n .bPool + 2 ≤ b .bPool) (h2 : n .polyPool < b .polyPool) (h : ∀ n pb, Still b n (mk pb)) :
    Still b n (sharesP arch N k t xs pooled mk) := by
  intro buff
  refine Keeps.bind (still_forUp fun _ _ => by exact rfl) fun _ => Keeps.bind (keeps_acquireP _ _ (fun _ => by omega)) fun pb =>
    Keeps.bind (h _ _) fun _ => Keeps.bind (keeps_acquireP _ _ (fun hp => ?_)) fun tb => Keeps.bind (still_transposeP _ _ _ _) fun _ =>
    Keeps.bind (still_forUp fun _ _ => still_evaluateP _ _ _ _ _ _ _ ?_) fun _ => Keeps.bind (keeps_releaseP _ _) fun _ =>
    Keeps.bind (keeps_releaseP _ _) fun _ => still_ret _
  · rw [if_pos hp]; simp [plus]; omega
  · cases pooled
    · exact h2
    · show plus (plus n 1) 1 .polyPool < _
      rw [plus_poly, plus_poly]; exact h2

theorem still_checkP {N : Nat} {parts threshold : Int} {k : Prog (Outcome (List Slice))} (hk : Still b n k) :
    Still b n (checkP N parts threshold k) := by
  unfold checkP
  repeat' split
  · exact rfl
  · exact rfl
  · exact rfl
  · exact rfl
  · exact rfl
  · exact hk

theorem still_splitP (arch : Arch) (secret : Slice) (parts threshold : Int) (perm : List Nat) :
    Still atMost 0 (splitP arch secret parts threshold perm) :=
  still_checkP (still_sharesP (by decide) (by decide) fun _ _ => still_makePolynomialsP _ _ _ _)

theorem still_splitWithRandomizerP (arch : Arch) (fuel : Nat) (secret : Slice) (parts threshold : Int) (r : CSPRNG) :
    Still atMost 0 (splitWithRandomizerP arch fuel secret parts threshold r) :=
  still_checkP ((still_lift _).bind fun _ => still_sharesP (by decide) (by decide) fun _ _ => still_makePolynomialsRandomizerP _ _ _ _ _)

theorem still_splitWithRandomizerOldP (arch : Arch) (secret : Slice) (parts threshold : Int) (r : CSPRNG) :
    Still atMost 0 (splitWithRandomizerOldP arch secret parts threshold r) := by
  unfold splitWithRandomizerOldP
  generalize r.perm 255#8 = o
  exact still_checkP (Keeps.bind (still_lift _) fun _ =>
    still_sharesP (by decide) (by decide) fun _ _ => still_makePolynomialsRandomizerP _ _ _ _ _)

theorem still_splitGenericP (secret : Slice) (parts threshold : Int) (perm : List Nat) :
    Still b n (splitGenericP secret parts threshold perm) :=
  still_checkP ((still_drawAll _).bind fun _ => (still_readAll _ _ _).bind fun _ => still_call fun _ =>
    (still_storeRows _).bind fun _ => still_ret _)

theorem still_readTagsP (L : Nat) (l : List Slice) : ∀ seen, Still b n (readTagsP L l seen) := by
  induction l with
  | nil => exact fun _ => rfl
  | cons s rest ih =>
    intro seen v
    show Still b n (if v ∈ seen then _ else _)
    split
    · exact rfl
    · exact ih _

theorem still_readColumnP (j : Nat) (l : List Slice) : Still b n (readColumnP j l) := by
  induction l with
  | nil => exact rfl
  | cons s rest ih => exact fun v => ih.bind fun _ => still_ret _

theorem still_interpolateRowP (l : List Slice) (xs : List Byte) (x : Byte) (a : Arr) (N : Nat) :
    Still b n (interpolateRowP l xs x a N) :=
  still_forUp fun _ _ => (still_readColumnP _ _).bind fun _ => (still_lift _).bind fun _ => rfl

theorem still_combineP (parts : List Slice) : Still b n (combineP parts) :=
  still_call fun _ _ => (still_readTagsP _ _ _).bind fun _ => still_call fun _ =>
    (still_interpolateRowP _ _ _ _ _).bind fun _ => still_ret _

theorem still_regenLoopP (cm : List Byte) : ∀ (fuel : Nat) (x : Byte), Still b n (regenLoopP cm fuel x)
  | 0, _ => rfl
  | fuel + 1, x => by
    unfold regenLoopP
    split
    · exact fun v => still_regenLoopP cm fuel v
    · exact rfl

theorem still_regenDedupeP (fuel : Nat) (xs : List Byte) : ∀ cm, Still b n (regenDedupeP fuel cm xs) := by
  induction xs with
  | nil => exact fun _ => rfl
  | cons x rest ih =>
    exact fun cm => (still_regenLoopP _ _ _).bind fun _ => still_call fun _ => ih _

theorem still_regenRowsP (L : Nat) (parts : List Slice) (xs nxs : List Byte) : Still b n (regenRowsP L parts xs nxs) := by
  induction nxs with
  | nil => exact rfl
  | cons x rest ih => exact fun a => (still_interpolateRowP _ _ _ _ _).bind fun _ => ih.bind fun _ => still_ret _

theorem still_regenerateP (fuel : Nat) (parts : List Slice) (k : Int) : Still b n (regenerateP fuel parts k) := by
  refine still_call fun L => ?_
  split
  · exact rfl
  · exact (still_readTagsP _ _ _).bind fun _ => still_call fun _ => (still_drawAll _).bind fun _ =>
      (still_regenDedupeP _ _ _).bind fun _ => still_call fun _ => (still_readColumnP _ _).bind fun _ =>
      (still_regenRowsP _ _ _ _).bind fun _ => still_ret _

theorem still_assembleP (parts : Nat) (es : List (List Byte)) (ms : List Slice) : Still b n (assembleP parts es ms) :=
  still_call fun _ => still_call fun _ => fun _ => (still_forUp fun i _ => (still_lift _).bind fun _ =>
    (still_lift _).bind fun _ => (still_readAll _ _ _).bind fun _ => (still_writeAll _ _ _).bind fun _ =>
    still_writeAll _ _ _).bind fun _ => still_ret _

theorem still_krawczykTailP {env : Krawczyk.Env} {secret : Slice} {key : List Byte} {parts threshold : Int}
    {share : Slice → Prog (Outcome (List Slice))} (h : ∀ s, Still b n (share s)) :
    Still b n (krawczykTailP env secret key parts threshold share) :=
  (still_readAll _ _ _).bind fun _ => still_call fun _ _ => (still_writeAll _ _ _).bind fun _ => (h _).bind fun _ =>
    still_call fun _ => still_assembleP _ _ _

theorem still_reconstructStoresP (k size : Nat) (hs : List (Option Slice)) (rec : List (List Byte)) :
    Still b n (reconstructStoresP k size hs rec) := by
  refine still_forUp fun i _ => ?_
  repeat' split
  · exact still_writeAll _ _ _
  · exact rfl
  · exact rfl

theorem still_readShardsP (k size : Nat) (hs : List (Option Slice)) (rec : List (List Byte)) :
    Still b n (readShardsP k size hs rec) := by
  refine still_forUp fun i _ => ?_
  repeat' split
  · exact (still_readAll _ _ _).bind fun _ => still_ret _
  · exact (still_readAll _ _ _).bind fun _ => still_ret _
  · exact rfl
  · exact rfl

theorem still_separateP (parts : Int) : ∀ (l : List Slice) (st : List (Option Slice) × List Slice),
    Still b n (separateP parts l st)
  | [], _ => still_ret _
  | s :: rest, (_, _) => by
    unfold separateP
    by_cases h1 : s.cap < 21
    · rw [if_pos h1]; exact still_ret _
    rw [if_neg h1]
    by_cases h2 : s.len = 0
    · rw [if_pos h2]; exact still_ret _
    rw [if_neg h2]
    intro v
    simp only []
    by_cases h3 : v > BitVec.ofInt 8 parts
    · rw [if_pos h3]; exact still_ret _
    rw [if_neg h3]
    intro v'
    simp only []
    by_cases h4 : s.len - 1 < 21
    · rw [if_pos h4]; exact still_ret _
    rw [if_neg h4]
    exact still_call fun _ => still_separateP parts rest _

theorem still_krawczykDecodeP (env : Krawczyk.Env) (hs : List (Option Slice)) (key : List Byte) (length : BitVec 32)
    (parts threshold : Int) : Still b n (krawczykDecodeP env hs key length parts threshold) :=
  still_call fun _ => (still_readOptSlices _).bind fun _ => still_call fun _ => (still_reconstructStoresP _ _ _ _).bind fun _ =>
    (still_readShardsP _ _ _ _).bind fun _ => still_call fun _ => still_call fun _ => fun _ =>
    (still_writeAll _ _ _).bind fun _ => still_ret _

theorem still_krawczykCombineP (env : Krawczyk.Env) (ss : List (Option Slice)) (parts threshold : Int) :
    Still b n (krawczykCombineP env ss parts threshold) := by
  refine still_call fun _ => still_call fun _ => still_call fun _ => ?_
  split
  · exact still_ret _
  · refine (still_separateP _ _ _).bind fun _ => still_call fun _ => (still_combineP _).bind fun _ => still_call fun _ =>
      still_call fun _ => (still_readAll _ _ _).bind fun _ => still_call fun _ => still_call fun _ => ?_
    split
    · exact still_ret _
    · exact still_krawczykDecodeP _ _ _ _ _ _

theorem still_call_prog (arch : Arch) (c : Call) : Still atMost 0 (c.prog arch) := by
  cases c with
  | split => exact still_splitP _ _ _ _ _
  | splitWithRandomizer => exact still_splitWithRandomizerP _ _ _ _ _ _
  | splitWithRandomizerOld => exact still_splitWithRandomizerOldP _ _ _ _ _
  | splitGeneric => exact still_splitGenericP _ _ _ _
  | combine => exact still_combineP _
  | regenerate => exact still_regenerateP _ _ _
  | krawczykSplit => exact still_call fun _ => (still_drawAll _).bind fun _ => still_krawczykTailP fun _ => still_splitP _ _ _ _ _
  | krawczykSplitWithRandomizer => exact still_call fun _ => still_krawczykTailP fun _ => still_splitWithRandomizerP _ _ _ _ _ _
  | krawczykCombine => exact still_krawczykCombineP _ _ _ _

/-! ## Systems -/

/-- One step: pool contents and buffers in hand. -/
theorem Keeps.step {p p' : Prog α} {s s' : Shared} {bs : List Byte} (hst : Step s p s' p' bs) (h : Keeps b 0 p n)
    (hb : ∀ q, n q ≤ b q) :
    ∃ n', Keeps b 0 p' n' ∧ (∀ q, n' q ≤ b q) ∧ s'.size = s.size ∧ ∀ q,
      ((s'.pool q).length + n' q = (s.pool q).length + n q ∨
        (s.pool q = [] ∧ s'.pool q = [] ∧ n' q = n q + 1) ∨
        (s.size ≤ (s.pool q).length ∧ s'.pool q = s.pool q ∧ n' q ≤ n q)) := by
  cases hst with
  | alloc n' k => exact ⟨n, h _, hb, rfl, fun _ => .inl rfl⟩
  | read a i k v hv => exact ⟨n, h _, hb, rfl, fun _ => .inl rfl⟩
  | readPanic => exact ⟨n, trivial, hb, rfl, fun _ => .inl rfl⟩
  | write a i v _ hl => exact ⟨n, h, hb, rfl, fun _ => .inl rfl⟩
  | writePanic => exact ⟨n, trivial, hb, rfl, fun _ => .inl rfl⟩
  | get p k a rest hp =>
    refine ⟨_, h.2 a _, fun q => ?_, rfl, fun q => .inl ?_⟩
    · by_cases e : q = p
      · subst e; have := h.1; simp; omega
      · simpa [e] using hb q
    · by_cases e : q = p
      · subst e; simp [hp]; omega
      · simp [e]
  | getNew p k hp =>
    refine ⟨_, h.2 _ _, fun q => ?_, rfl, fun q => ?_⟩
    · by_cases e : q = p
      · subst e; have := h.1; simp; omega
      · simpa [e] using hb q
    · by_cases e : q = p
      · subst e; exact .inr (.inl ⟨hp, hp, by simp⟩)
      · exact .inl (by simp [e])
  | put p a _ hl =>
    refine ⟨_, h.2, fun q => ?_, rfl, fun q => .inl ?_⟩
    · by_cases e : q = p
      · subst e; have := hb q; simp; omega
      · simpa [e] using hb q
    · by_cases e : q = p
      · subst e; have := h.1; simp; omega
      · simp [e]
  | putDrop p a _ hl =>
    refine ⟨_, h.2, fun q => ?_, rfl, fun q => ?_⟩
    · by_cases e : q = p
      · subst e; have := hb q; simp; omega
      · simpa [e] using hb q
    · by_cases e : q = p
      · subst e; exact .inr (.inr ⟨by omega, rfl, by simp⟩)
      · exact .inl (by simp [e])
  | rand k v => exact ⟨n, h _, hb, rfl, fun _ => .inl rfl⟩

variable {ι : Type} [Fintype ι] [DecidableEq ι]

/-- Buffers in hand. -/
structure Held (b : PoolId → Nat) (c0 c : Config ι α) (n : ι → PoolId → Nat) : Prop where
  keeps : ∀ i, Keeps b 0 (c.thread i).prog (n i)
  le : ∀ i q, n i q ≤ b q
  size : c.shared.size = c0.shared.size
  lo : ∀ q, min c0.shared.size (c0.shared.pool q).length ≤ (c.shared.pool q).length + ∑ i, n i q
  hi : ∀ q, (c.shared.pool q).length + ∑ i, n i q ≤ max (c0.shared.pool q).length (b q * Fintype.card ι)

theorem sum_update_nat (f : ι → PoolId → Nat) (i : ι) (x : PoolId → Nat) (q : PoolId) :
    ∑ j, Function.update f i x j q + f i q = ∑ j, f j q + x q := by
  rw [← Finset.add_sum_erase _ _ (Finset.mem_univ i), ← Finset.add_sum_erase (a := i) _ (fun j => f j q) (Finset.mem_univ i)]
  have : ∑ j ∈ Finset.univ.erase i, Function.update f i x j q = ∑ j ∈ Finset.univ.erase i, f j q := by
    apply Finset.sum_congr rfl
    intro j hj
    rw [Function.update_of_ne (Finset.ne_of_mem_erase hj)]
  rw [this, Function.update_self]
  omega

theorem held_reach {c0 c : Config ι α} (h0 : ∀ i, Keeps b 0 (c0.thread i).prog 0) (hr : Reach c0 c) : ∃ n, Held b c0 c n := by
  induction hr with
  | refl =>
    refine ⟨fun _ => 0, h0, fun _ _ => Nat.zero_le _, rfl, fun q => ?_, fun q => ?_⟩
    · exact le_trans (min_le_right _ _) (Nat.le_add_right _ _)
    · simp
  | @tail c _ _ hs ih =>
    obtain ⟨n, I⟩ := ih
    cases hs with
    | mk i s' p' bs h =>
      obtain ⟨n', k1, k2, k3, k4⟩ := Keeps.step h (I.keeps i) (I.le i)
      refine ⟨Function.update n i n', fun j => ?_, fun j q => ?_, k3.trans I.size, fun q => ?_, fun q => ?_⟩
      · by_cases e : j = i
        · subst e; simpa using k1
        · simpa [e] using I.keeps j
      · by_cases e : j = i
        · subst e; simpa using k2 q
        · simpa [e] using I.le j q
      all_goals
        have hsum := sum_update_nat n i n' q
        have hlo := I.lo q
        have hhi := I.hi q
        have hle := I.le i q
        have hsz := I.size
        show _ ≤ _
        try dsimp only
        rcases k4 q with h4 | ⟨h4, h5, h6⟩ | ⟨h4, h5, h6⟩
      · omega
      · rw [h5]; rw [h4] at hlo; omega
      · rw [h5]; omega
      · omega
      · have : ∑ j, Function.update n i n' j q ≤ b q * Fintype.card ι := by
          rw [Nat.mul_comm, ← smul_eq_mul]
          refine Finset.sum_le_card_nsmul _ _ _ fun j _ => ?_
          by_cases e : j = i
          · subst e; simpa using k2 q
          · simpa [e] using I.le j q
        rw [h5]; simp; omega
      · rw [h5]; omega

end Verif.Proofs.Own
