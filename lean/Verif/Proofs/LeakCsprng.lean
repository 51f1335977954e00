import Verif.Model.LeakCsprng
import Verif.Proofs.LeakRules
import Verif.Proofs.Leak
import Verif.Proofs.Csprng

/-! # What Perm and GetUniqueBytes show -/

namespace Verif.Leak
open Verif Outcome Proofs Csprng

@[simp] theorem out_perm (r : CSPRNG) (n : Byte) : (perm r n).out = r.perm n := by
  simp [perm, CSPRNG.perm]

@[simp] theorem out_uniqueLoop (r : CSPRNG) (seen : List Byte) (fuel : Nat) (b : Byte) :
    (uniqueLoop r seen fuel b).out = r.uniqueLoop seen fuel b := by
  induction fuel generalizing b with
  | zero => rfl
  | succ f ih => simp [uniqueLoop, CSPRNG.uniqueLoop, ih]

@[simp] theorem out_getUniqueBytes (r : CSPRNG) (fuel : Nat) (n : Byte) :
    (getUniqueBytes r fuel n).out = r.getUniqueBytes fuel n := by
  simp [getUniqueBytes, CSPRNG.getUniqueBytes]

/-- The trace of a loop whose iterations show something that depends on the iteration only. -/
theorem trace_iterUp {σ : Type} (T : Nat → List Ev) (I : Nat → σ → Prop) (body : Nat → σ → Traced σ) : ∀ (n : Nat) (s t : σ),
    (iterUp n body s).out = ok t → I 0 s → (∀ i < n, ∀ s t, I i s → (body i s).out = ok t → (body i s).trace = T i ∧ I (i + 1) t) →
    (iterUp n body s).trace = (List.range n).flatMap T ∧ I n t
  | 0, s, t, h, hI, _ => by
    cases h
    exact ⟨rfl, hI⟩
  | n + 1, s, t, h, hI, hb => by
    obtain ⟨u, h1, h2⟩ := bind_eq_ok.1 (show ((iterUp n body s).out >>= fun a => (body n a).out) = ok t from h)
    obtain ⟨e1, e2⟩ := trace_iterUp T I body n s u h1 hI fun i hi => hb i (by omega)
    obtain ⟨e3, e4⟩ := hb n (by omega) u t e2 h2
    refine ⟨?_, e4⟩
    show (iterUp n body s >>= body n).trace = _
    rw [trace_bind _ _ h1, e1, e3, List.range_succ, List.flatMap_append]
    simp

theorem trace_shows_bind {α β : Type} {e : Ev} {o : Outcome α} {f : α → Traced β} {a : α} (h : o = ok a) :
    (shows e o >>= f).trace = e :: (f a).trace := by
  rw [trace_bind (shows e o) f h]; rfl

theorem trace_fill {n : Nat} {b u : List Byte} (hu : (forUp n (fun i buff => setIdx buff i (BitVec.ofNat 8 i)) b).out = ok u) :
    (forUp n (fun i buff => setIdx buff i (BitVec.ofNat 8 i)) b).trace = .loop n :: (List.range n).map Ev.elem := by
  unfold forUp
  rw [trace_shows_bind rfl]
  have := (trace_iterUp (fun i => [Ev.elem i]) (fun _ _ => True) (fun i buff => setIdx buff i (BitVec.ofNat 8 i)) n b u hu trivial
    (fun i _ s t _ _ => ⟨rfl, trivial⟩)).1
  rw [this, ← List.flatMap_pure_eq_map]
  rfl

/-- What one iteration of the loop of Perm shows. -/
def permT (r : CSPRNG) (n i : Nat) : List Ev := [.elem i, .elem i, .elem (swapPos r n i), .elem i, .elem (swapPos r n i)]

theorem trace_perm {r : CSPRNG} {n : Byte} (hn : 2 ≤ n.toNat) {l : List Byte} (h : r.perm n = ok l) :
    (perm r n).trace = .loop n.toNat :: (List.range n.toNat).map Ev.elem ++
      .loop (n.toNat - 2) :: (List.range (n.toNat - 2)).flatMap (permT r n.toNat) := by
  have hn' := n.isLt
  rw [← out_perm] at h
  unfold perm at h ⊢
  simp only [out_bind] at h
  obtain ⟨u, h1, h2⟩ := bind_eq_ok.1 h
  rw [trace_bind _ _ h1]
  rw [trace_fill h1]
  congr 1
  unfold forUp at h2 ⊢
  rw [trace_shows_bind rfl]
  rw [loop_count hn] at h2 ⊢
  congr 1
  refine (trace_iterUp (permT r n.toNat) (fun _ _ => True) _ _ u l h2 trivial ?_).1
  intro i hi s t _ ht
  refine ⟨?_, trivial⟩
  have hi' : i < n.toNat := by omega
  have e1 : (n - BitVec.ofNat 8 i).toNat = n.toNat - i := by
    rw [BitVec.toNat_sub, BitVec.toNat_ofNat]; omega
  have hne : ¬ n - BitVec.ofNat 8 i = 0 := by
    intro h
    have := congrArg BitVec.toNat h
    rw [e1] at this
    have h0 : (0 : Byte).toNat = 0 := rfl
    omega
  have e2 : (1 + r.ks i % (n - BitVec.ofNat 8 i)).toNat = swapPos r n.toNat i := by
    have : (r.ks i).toNat % (n.toNat - i) < n.toNat - i := Nat.mod_lt _ (by omega)
    rw [BitVec.toNat_add, BitVec.toNat_umod, e1, swapPos]
    have h1 : (1 : Byte).toNat = 1 := rfl
    rw [h1]; omega
  have hk : Verif.idx (r.read (List.replicate n.toNat 0)) i = ok (r.ks i) := by
    rw [read_zeros, idx_ok (by simpa using hi')]
    simp
  simp only [out_bind, out_idx, hk, ok_bind, if_neg hne, e2, out_setIdx] at ht
  obtain ⟨a, a1, ht⟩ := bind_eq_ok.1 ht
  obtain ⟨b, b1, ht⟩ := bind_eq_ok.1 ht
  obtain ⟨c, c1, ht⟩ := bind_eq_ok.1 ht
  unfold idx setIdx
  rw [trace_shows_bind hk, if_neg hne]
  rw [e2, trace_shows_bind a1, trace_shows_bind b1, trace_shows_bind c1]
  rfl

@[simp] theorem out_rperm (r : Randomizer.Randomizer) (n : Byte) : (rperm r n).out = r.perm n := by
  simp [rperm, Randomizer.Randomizer.perm]

/-- What one iteration of the loop of Perm of the package randomizer shows. -/
def rpermT (r : Randomizer.Randomizer) (n i : Nat) : List Ev := [.elem i, .elem ((r.ks (r.pos + i)).toNat % (n - 1 - i)), .elem (n - 1 - i)]

theorem trace_rperm {r r' : Randomizer.Randomizer} {n : Byte} {l : List Byte} (h : r.perm n = ok (l, r')) :
    (rperm r n).trace = .loop n.toNat :: (List.range n.toNat).map Ev.elem ++
      .loop (n.toNat - 1) :: (List.range (n.toNat - 1)).flatMap (rpermT r n.toNat) := by
  have hn' := n.isLt
  have hn : 1 ≤ n.toNat := by
    by_contra hc
    have : n = 0#8 := BitVec.eq_of_toNat_eq (by have : (0#8 : Byte).toNat = 0 := rfl; omega)
    rw [this, rperm_zero] at h
    cases h
  have hn1 : (n - 1#8).toNat = n.toNat - 1 := by
    rw [BitVec.toNat_sub]
    have : (1#8 : Byte).toNat = 1 := rfl
    omega
  rw [← out_rperm] at h
  unfold rperm at h ⊢
  rw [out_bind] at h
  obtain ⟨u, h1, h2⟩ := bind_eq_ok.1 h
  rw [trace_bind _ _ h1, trace_fill h1]
  congr 1
  rw [randomizer_read] at h2 ⊢
  simp only at h2 ⊢
  rw [out_bind] at h2
  obtain ⟨st, h2, h3⟩ := bind_eq_ok.1 h2
  rw [trace_bind _ _ h2]
  unfold forUp at h2 ⊢
  rw [trace_shows_bind rfl, hn1]
  rw [hn1] at h2
  have key := fun hb => (trace_iterUp (rpermT r n.toNat) (fun i st => st.2.toNat = n.toNat - 1 - i) _ _ _ st h2 (by simp [hn1]) hb).1
  rw [key ?_]
  · obtain ⟨b, m⟩ := st
    show _ ++ [] = _
    rw [List.append_nil]
  rintro i hi ⟨b, m⟩ t hI ht
  simp only at hI
  have hne : ¬ m = 0 := by
    rintro rfl
    have h0 : (0 : Byte).toNat = 0 := rfl
    omega
  have hk : Verif.idx ((List.range n.toNat).map fun i => r.ks (r.pos + i)) i = ok (r.ks (r.pos + i)) := by
    rw [idx_ok (by simp; omega)]
    simp
  simp only [out_bind, out_idx, hk, ok_bind, if_neg hne, out_setIdx] at ht
  obtain ⟨a, a1, ht⟩ := bind_eq_ok.1 ht
  obtain ⟨c, c1, ht⟩ := bind_eq_ok.1 ht
  cases ht
  constructor
  · simp only
    unfold idx setIdx
    rw [trace_shows_bind hk, if_neg hne, trace_shows_bind a1, trace_shows_bind c1, BitVec.toNat_umod, hI]
    rfl
  · simp only
    have h1 : (1#8 : Byte).toNat = 1 := rfl
    rw [BitVec.toNat_sub, h1]
    omega

theorem flatMap_inj {T T' : Nat → List Ev} (hl : ∀ i, (T i).length = (T' i).length) (n : Nat) :
    (List.range n).flatMap T = (List.range n).flatMap T' ↔ ∀ i < n, T i = T' i := by
  induction n with
  | zero => simp
  | succ n ih =>
    rw [List.range_succ, List.flatMap_append, List.flatMap_append]
    have hlen : ((List.range n).flatMap T).length = ((List.range n).flatMap T').length := by
      rw [List.length_flatMap, List.length_flatMap]
      congr 1
      exact List.map_congr_left fun i _ => hl i
    have happ : ∀ {a b c d : List Ev}, a.length = c.length → (a ++ b = c ++ d ↔ a = c ∧ b = d) := fun h =>
      ⟨fun e => List.append_inj e h, fun e => by rw [e.1, e.2]⟩
    rw [happ hlen]
    simp only [List.flatMap_cons, List.flatMap_nil, List.append_nil, ih]
    constructor
    · rintro ⟨h1, h2⟩ i hi
      rcases Nat.lt_succ_iff_lt_or_eq.1 hi with h | rfl
      · exact h1 i h
      · exact h2
    · exact fun h => ⟨fun i hi => h i (by omega), h n (by omega)⟩

theorem uniqueLoop_cases {r : CSPRNG} {seen : List Byte} {fuel : Nat} {b c : Byte} (h : r.uniqueLoop seen fuel b = ok c) :
    (b ∉ seen ∧ c = b ∧ (uniqueLoop r seen fuel b).trace = [.key b, .branch false]) ∨
    (b ∈ seen ∧ c = b ^^^ r.ks 0 ∧ (uniqueLoop r seen fuel b).trace = [.key b, .branch true, .elem 0, .key c, .branch false]) := by
  have fresh : ∀ {fuel : Nat} {b c : Byte}, b ∉ seen → r.uniqueLoop seen fuel b = ok c →
      c = b ∧ (uniqueLoop r seen fuel b).trace = [.key b, .branch false] := by
    intro fuel b c hb h
    cases fuel with
    | zero => cases h
    | succ f =>
      rw [uniqueLoop_fresh r hb] at h
      cases h
      refine ⟨rfl, ?_⟩
      unfold uniqueLoop
      rw [trace_shows_bind rfl, trace_bind _ _ rfl]
      simp [test, hb]
      rfl
  by_cases hb : b ∈ seen
  · right
    cases fuel with
    | zero => cases h
    | succ f =>
      by_cases hc : b ^^^ r.ks 0 ∈ seen
      · rw [uniqueLoop_spin r hb hc] at h; cases h
      · rw [uniqueLoop_step r hb] at h
        obtain ⟨h1, h2⟩ := fresh hc h
        refine ⟨hb, h1, ?_⟩
        unfold uniqueLoop
        have e : Verif.idx (r.read [b]) 0 = ok (b ^^^ r.ks 0) := rfl
        rw [trace_shows_bind rfl, trace_bind _ _ rfl]
        simp only [test, hb, decide_true, if_true]
        unfold idx
        rw [trace_shows_bind e, h2, h1]
        rfl
  · exact Or.inl ⟨hb, fresh hb h⟩

/-- What one iteration of GetUniqueBytes shows without the keys, depending on whether the byte occurred before. -/
def uniqT (i : Nat) (dup : Bool) : List Ev :=
  if dup then [.elem i, .key 0, .branch true, .elem 0, .key 0, .branch false, .elem i, .key 0]
  else [.elem i, .key 0, .branch false, .elem i, .key 0]

/-- Whether byte `i` of the key stream occurs among the first `i` results. -/
def dup (r : CSPRNG) (l : List Byte) (i : Nat) : Bool := decide (r.ks i ∈ l.take i)

theorem uniqT_inj (F F' : Nat → Bool) : ∀ (m k : Nat), (List.range' k m).flatMap (fun i => uniqT i (F i)) = (List.range' k m).flatMap (fun i => uniqT i (F' i)) →
    ∀ i, k ≤ i → i < k + m → F i = F' i
  | 0, k, _, i, h1, h2 => by omega
  | m + 1, k, h, i, h1, h2 => by
    rw [List.range'_succ, List.flatMap_cons, List.flatMap_cons] at h
    have hk : F k = F' k := by
      cases e : F k <;> cases e' : F' k <;> first | rfl | (rw [e, e'] at h; simp [uniqT] at h)
    rcases Nat.eq_or_lt_of_le h1 with rfl | h1
    · exact hk
    · rw [hk] at h
      exact uniqT_inj F F' m (k + 1) (List.append_cancel_left h) i h1 (by omega)

/-- The body of the loop of `getUniqueBytes`. -/
def uniqBody (r : CSPRNG) (fuel : Nat) (i : Nat) (st : List Byte × List Byte) : Traced (List Byte × List Byte) := do
  let (buff, isExist) := st
  let b ← idx buff i
  let b ← uniqueLoop r isExist fuel b
  let buff ← setIdx buff i b
  shows (.key b) (ok ())
  pure (buff, b :: isExist)

theorem uniq_iter {r : CSPRNG} {fuel n : Nat} : ∀ (m : Nat), m ≤ n → ∀ st, (iterUp m (uniqBody r fuel) ((List.range n).map r.ks, [])).out = ok st →
    st.1.length = n ∧ (∀ j, m ≤ j → j < n → st.1[j]? = some (r.ks j)) ∧ st.2 = (st.1.take m).reverse ∧
    (∀ i < m, st.1[i]? = some (if dup r st.1 i then r.ks i ^^^ r.ks 0 else r.ks i)) ∧
    (iterUp m (uniqBody r fuel) ((List.range n).map r.ks, [])).trace.map Ev.blind = (List.range m).flatMap (fun i => uniqT i (dup r st.1 i))
  | 0, _, st, h => by
    cases h
    refine ⟨by simp, fun j _ hj => by simp [hj], by simp, by omega, rfl⟩
  | m + 1, hm, st, h => by
    obtain ⟨u, h1, h2⟩ := bind_eq_ok.1 (show ((iterUp m (uniqBody r fuel) ((List.range n).map r.ks, [])).out >>=
      fun a => (uniqBody r fuel m a).out) = ok st from h)
    obtain ⟨a1, a2, a3, a4, a5⟩ := uniq_iter m (by omega) u h1
    obtain ⟨L, S⟩ := u
    simp only at a1 a2 a3 a4 a5
    have hb : Verif.idx L m = ok (r.ks m) := by
      have := a2 m le_rfl (by omega)
      obtain ⟨hlt, e⟩ := List.getElem?_eq_some_iff.1 this
      rw [idx_ok hlt, e]
    unfold uniqBody at h2
    simp only [out_bind, out_idx, hb, ok_bind, out_uniqueLoop, out_setIdx, out_shows, out_pure] at h2
    obtain ⟨c, c1, h2⟩ := bind_eq_ok.1 h2
    have hset : Verif.setIdx L m c = ok (L.set m c) := setIdx_ok (by omega) c
    rw [hset, ok_bind] at h2
    cases h2
    have htake : ∀ i ≤ m, (L.set m c).take i = L.take i := by
      intro i hi
      exact List.take_set_of_le hi
    have hdup : ∀ i ≤ m, dup r (L.set m c) i = dup r L i := by
      intro i hi
      unfold dup
      rw [htake i hi]
    have hmem : r.ks m ∈ S ↔ dup r L m = true := by
      rw [a3, List.mem_reverse]; simp [dup]
    have hc := uniqueLoop_cases c1
    have hcv : c = if dup r L m then r.ks m ^^^ r.ks 0 else r.ks m := by
      rcases hc with ⟨x1, x2, -⟩ | ⟨x1, x2, -⟩
      · rw [if_neg (fun h => x1 (hmem.2 h)), x2]
      · rw [if_pos (hmem.1 x1), x2]
    refine ⟨by simpa using a1, ?_, ?_, ?_, ?_⟩
    · intro j hj hjn
      simp only
      rw [List.getElem?_set_ne (by omega)]
      exact a2 j (by omega) hjn
    · simp only
      rw [List.take_add_one, List.getElem?_set_self (by omega), htake m le_rfl, a3]
      simp
    · intro i hi
      simp only
      rw [hdup i (by omega)]
      rcases Nat.lt_succ_iff_lt_or_eq.1 hi with hi | rfl
      · rw [List.getElem?_set_ne (by omega)]
        exact a4 i hi
      · rw [List.getElem?_set_self (by omega), hcv]
    · show (iterUp m (uniqBody r fuel) ((List.range n).map r.ks, []) >>= uniqBody r fuel m).trace.map Ev.blind = _
      rw [trace_bind _ _ h1, List.map_append, a5, List.range_succ, List.flatMap_append]
      congr 1
      · exact List.flatMap_congr fun i hi => by
          rw [hdup i (List.mem_range.1 hi).le]
      · simp only [List.flatMap_cons, List.flatMap_nil, List.append_nil]
        rw [hdup m le_rfl]
        unfold uniqBody
        simp only
        unfold idx setIdx
        rw [trace_shows_bind hb, trace_bind _ _ (by rw [out_uniqueLoop]; exact c1), trace_shows_bind hset, trace_shows_bind rfl]
        rcases hc with ⟨x1, x2, x3⟩ | ⟨x1, x2, x3⟩
        · have : dup r L m = false := by
            rw [Bool.eq_false_iff]
            exact fun h => x1 (hmem.2 h)
          rw [x3, this]; rfl
        · rw [x3, hmem.1 x1]; rfl

theorem trace_unique {r : CSPRNG} {fuel : Nat} {n : Byte} (hn : n.toNat < 20) {l : List Byte} (h : r.getUniqueBytes fuel n = ok l) :
    l.length = n.toNat ∧ (∀ i < n.toNat, l[i]? = some (if dup r l i then r.ks i ^^^ r.ks 0 else r.ks i)) ∧
    (getUniqueBytes r fuel n).trace.map Ev.blind
      = .branch false :: .loop n.toNat :: (List.range n.toNat).flatMap (fun i => uniqT i (dup r l i)) := by
  rw [← out_getUniqueBytes] at h
  have hlt : ¬ 20#8 ≤ n := by
    intro h
    have : 20 ≤ n.toNat := h
    omega
  have ht : (test (20#8 ≤ n)).out = ok false := by simp [hlt]
  unfold getUniqueBytes at h ⊢
  rw [out_bind, ht, ok_bind] at h
  rw [trace_bind _ _ ht]
  simp only [Bool.false_eq_true, if_false] at h ⊢
  rw [out_bind] at h
  obtain ⟨st, h1, h2⟩ := bind_eq_ok.1 h
  rw [trace_bind _ _ h1]
  cases h2
  have h1 : (iterUp n.toNat (uniqBody r fuel) ((List.range n.toNat).map r.ks, [])).out = ok st := by
    rw [← read_zeros]
    exact h1
  obtain ⟨a1, -, -, a4, a5⟩ := uniq_iter (r := r) (fuel := fuel) (n := n.toNat) n.toNat le_rfl st h1
  refine ⟨a1, a4, ?_⟩
  have e : (test (20#8 ≤ n)).trace = [.branch false] := by simp [test, hlt]
  rw [e]
  have e2 : ∀ (body : Nat → List Byte × List Byte → Traced (List Byte × List Byte)) s,
      (forUp n.toNat body s).trace = .loop n.toNat :: (iterUp n.toNat body s).trace := fun body s => by
    unfold forUp
    rw [trace_shows_bind rfl]
  rw [e2, List.map_append]
  show [Ev.branch false] ++ (Ev.loop n.toNat :: (iterUp n.toNat (uniqBody r fuel) (r.read (List.replicate n.toNat 0), [])).trace ++ []).map Ev.blind = _
  rw [List.append_nil, read_zeros, List.map_cons, a5]
  rfl

end Verif.Leak
