import Verif.Proofs.HeapSplit
import Verif.Spec.Alone

/-! # A program that runs alone

`solo` is the weakest precondition of a program that runs without any other, in terms of the exact memory and the exact
contents of the pools. -/

namespace Verif.Proofs.Alone
open Verif Outcome Galois Shamir Spec Pool Csprng Verif.Heap
open Verif.Proofs.Own (window length_window getD_of_getElem? getD_set window_getD writeAt_snoc window_writeAt_self evalRows
  getD_writeAt next_row_col Shows)

abbrev SPost (α : Type) := α → Shared → List Byte → Prop

/-- The state with other contents of array `a`. -/
def upd (σ : Shared) (a : Arr) (l : List Byte) : Shared := { σ with heap := Function.update σ.heap a l }

/-- The state with a new array. -/
def new (σ : Shared) (l : List Byte) : Shared :=
  { σ with heap := Function.update σ.heap σ.next l, next := σ.next + 1 }

/-- The state with other buffers in pool `p`. -/
def withPool (σ : Shared) (p : PoolId) (l : List Arr) : Shared := { σ with pool := Function.update σ.pool p l }

/-- Weakest precondition of a program that runs alone; `log` are the random bytes drawn so far. -/
def solo {α : Type} : Prog α → SPost α → Shared → List Byte → Prop
  | .ret a, Q, σ, log => Q a σ log
  | .panic, _, _, _ => False
  | .alloc n k, Q, σ, log => solo (k σ.next) Q (new σ (List.replicate n 0)) log
  | .read a i k, Q, σ, log => ∃ v, (σ.heap a)[i]? = some v ∧ solo (k v) Q σ log
  | .write a i v k, Q, σ, log => i < (σ.heap a).length ∧ solo k Q (upd σ a ((σ.heap a).set i v)) log
  | .get p k, Q, σ, log => (∀ a rest, σ.pool p = a :: rest → solo (k a (σ.heap a).length) Q (withPool σ p rest) log) ∧
      (σ.pool p = [] → solo (k σ.next 0) Q (new σ []) log)
  | .put p a k, Q, σ, log => ((σ.pool p).length < σ.size → solo k Q (withPool σ p (σ.pool p ++ [a])) log) ∧
      (¬ (σ.pool p).length < σ.size → solo k Q σ log)
  | .rand k, Q, σ, log => ∀ v, solo (k v) Q σ (log ++ [v])

theorem solo_step {α : Type} {p p' : Prog α} {σ σ' : Shared} {bs log : List Byte} {Q : SPost α}
    (h : Step σ p σ' p' bs) (hs : solo p Q σ log) : solo p' Q σ' (log ++ bs) := by
  cases h with
  | alloc n k => rw [List.append_nil]; exact hs
  | read a i k v hv =>
    obtain ⟨v', hv', hk⟩ := hs
    rw [hv] at hv'; cases hv'
    rw [List.append_nil]; exact hk
  | readPanic a i k hv =>
    obtain ⟨v', hv', -⟩ := hs
    rw [hv] at hv'; cases hv'
  | write a i v k hl => rw [List.append_nil]; exact hs.2
  | writePanic a i v k hl => exact absurd hs.1 hl
  | get p k a rest hp => rw [List.append_nil]; exact hs.1 a rest hp
  | getNew p k hp => rw [List.append_nil]; exact hs.2 hp
  | put p a k hl => rw [List.append_nil]; exact hs.1 hl
  | putDrop p a k hl => rw [List.append_nil]; exact hs.2 hl
  | rand k v => exact hs v

theorem solo_mono {α : Type} {Q Q' : SPost α} (hQ : ∀ a σ log, Q a σ log → Q' a σ log) (p : Prog α) :
    ∀ σ log, solo p Q σ log → solo p Q' σ log := by
  induction p with
  | ret a => intro σ log h; exact hQ a σ log h
  | panic => intro σ log h; exact h
  | alloc n k ih => intro σ log h; exact ih _ _ _ h
  | read a i k ih => rintro σ log ⟨v, hv, h⟩; exact ⟨v, hv, ih v _ _ h⟩
  | write a i v k ih => rintro σ log ⟨hl, h⟩; exact ⟨hl, ih _ _ h⟩
  | get p k ih => rintro σ log ⟨h1, h2⟩; exact ⟨fun a rest e => ih _ _ _ _ (h1 a rest e), fun e => ih _ _ _ _ (h2 e)⟩
  | put p a k ih => rintro σ log ⟨h1, h2⟩; exact ⟨fun e => ih _ _ (h1 e), fun e => ih _ _ (h2 e)⟩
  | rand k ih => intro σ log h v; exact ih v _ _ (h v)

theorem solo_bind {α β : Type} {Q : SPost β} (f : α → Prog β) (p : Prog α) :
    ∀ σ log, solo p (fun a σ log => solo (f a) Q σ log) σ log → solo (p.bind f) Q σ log := by
  induction p with
  | ret a => intro σ log h; exact h
  | panic => intro σ log h; exact h
  | alloc n k ih => intro σ log h; exact ih _ _ _ h
  | read a i k ih => rintro σ log ⟨v, hv, h⟩; exact ⟨v, hv, ih v _ _ h⟩
  | write a i v k ih => rintro σ log ⟨hl, h⟩; exact ⟨hl, ih _ _ h⟩
  | get p k ih => rintro σ log ⟨h1, h2⟩; exact ⟨fun a rest e => ih _ _ _ _ (h1 a rest e), fun e => ih _ _ _ _ (h2 e)⟩
  | put p a k ih => rintro σ log ⟨h1, h2⟩; exact ⟨fun e => ih _ _ (h1 e), fun e => ih _ _ (h2 e)⟩
  | rand k ih => intro σ log h v; exact ih v _ _ (h v)

/-! ## Loops and block accesses -/

theorem solo_forUp {τ : Type} {n : Nat} {body : Nat → τ → Prog τ} {s : τ} (I : Nat → SPost τ) {σ : Shared}
    {log : List Byte} (h0 : I 0 s σ log)
    (hs : ∀ i < n, ∀ s σ log, I i s σ log → solo (body i s) (I (i + 1)) σ log) :
    solo (Prog.forUp n body s) (I n) σ log := by
  induction n with
  | zero => exact h0
  | succ n ih =>
    refine solo_bind _ _ _ _ ?_
    refine solo_mono ?_ _ _ _ (ih fun i hi => hs i (Nat.lt_succ_of_lt hi))
    intro a σ log hI
    exact hs n (Nat.lt_succ_self n) a σ log hI

theorem solo_forDown {τ : Type} {n : Nat} {body : Nat → τ → Prog τ} {s : τ} (I : Nat → SPost τ) {σ : Shared}
    {log : List Byte} (h0 : I n s σ log)
    (hs : ∀ i < n, ∀ s σ log, I (i + 1) s σ log → solo (body i s) (I i) σ log) :
    solo (Prog.forDown n body s) (I 0) σ log := by
  induction n generalizing s σ log with
  | zero => exact h0
  | succ n ih =>
    refine solo_bind _ _ _ _ ?_
    refine solo_mono ?_ _ _ _ (hs n (Nat.lt_succ_self n) _ _ _ h0)
    intro a σ log hI
    exact ih hI fun i hi => hs i (Nat.lt_succ_of_lt hi)

theorem upd_self (σ : Shared) (a : Arr) : upd σ a (σ.heap a) = σ := by
  unfold upd; rw [Function.update_eq_self]

theorem upd_upd (σ : Shared) (a : Arr) (l l' : List Byte) : upd (upd σ a l) a l' = upd σ a l' := by
  unfold upd; simp [Function.update_idem]

@[simp] theorem upd_heap (σ : Shared) (a : Arr) (l : List Byte) : (upd σ a l).heap a = l := by
  simp [upd]

theorem upd_heap_ne {σ : Shared} {a b : Arr} {l : List Byte} (h : b ≠ a) : (upd σ a l).heap b = σ.heap b := by
  simp [upd, Function.update_of_ne h]

@[simp] theorem new_heap (σ : Shared) (l : List Byte) : (new σ l).heap σ.next = l := by
  simp [new]

theorem new_heap_ne {σ : Shared} {b : Arr} {l : List Byte} (h : b < σ.next) : (new σ l).heap b = σ.heap b := by
  simp [new, Function.update_of_ne (Nat.ne_of_lt h)]

theorem solo_readAll {a : Arr} {off n : Nat} {Q : SPost (List Byte)} {σ : Shared} {log : List Byte}
    (hl : off + n ≤ (σ.heap a).length) (hQ : Q (window (σ.heap a) off n) σ log) :
    solo (Prog.readAll a off n) Q σ log := by
  refine solo_mono ?_ _ _ _ (solo_forUp (fun i l σ' log' => l = window (σ.heap a) off i ∧ σ' = σ ∧ log' = log)
    ⟨rfl, rfl, rfl⟩ ?_)
  · rintro l σ' log' ⟨rfl, rfl, rfl⟩; exact hQ
  · rintro i hi l σ' log' ⟨rfl, rfl, rfl⟩
    refine ⟨_, getD_of_getElem? (lt_of_lt_of_le (Nat.add_lt_add_left hi _) hl), ?_, rfl, rfl⟩
    simp [window, List.range_succ]

theorem solo_writeAll {a : Arr} {off : Nat} {l : List Byte} {Q : SPost Unit} {σ : Shared} {log : List Byte}
    (hl : off + l.length ≤ (σ.heap a).length) (hQ : Q () (upd σ a (writeAt (σ.heap a) off l)) log) :
    solo (Prog.writeAll a off l) Q σ log := by
  refine solo_mono ?_ _ _ _ (solo_forUp
    (fun i _ σ' log' => σ' = upd σ a (writeAt (σ.heap a) off (l.take i)) ∧ log' = log) ⟨?_, rfl⟩ ?_)
  · rintro _ σ' log' ⟨rfl, rfl⟩
    rw [List.take_length]; exact hQ
  · have : writeAt (σ.heap a) off (l.take 0) = σ.heap a := by simp [writeAt]
    rw [this, upd_self]
  · rintro i hi _ σ' log' ⟨rfl, rfl⟩
    have hti : (l.take i).length = i := by simp; omega
    refine ⟨?_, ?_, rfl⟩
    · rw [upd_heap, length_writeAt] <;> omega
    · rw [upd_heap, upd_upd]
      congr 1
      have := writeAt_snoc (σ.heap a) (l.take i) off (l.getD i 0) (by omega)
      rw [hti] at this
      rw [this, List.take_succ, getD_of_getElem? hi]; rfl

/-! ## Separation -/

/-- The arrays in `held` and in the pools are different, and allocated. -/
structure Sep (σ : Shared) (held : List Arr) : Prop where
  nodup : (held ++ (σ.pool .bPool ++ σ.pool .polyPool)).Nodup
  lt : ∀ a ∈ held ++ (σ.pool .bPool ++ σ.pool .polyPool), a < σ.next

theorem Sep.held_lt {σ : Shared} {held : List Arr} (h : Sep σ held) {a : Arr} (ha : a ∈ held) : a < σ.next :=
  h.lt a (List.mem_append_left _ ha)

theorem Sep.pool_lt {σ : Shared} {held : List Arr} (h : Sep σ held) {p : PoolId} {a : Arr} (ha : a ∈ σ.pool p) :
    a < σ.next := by
  refine h.lt a (List.mem_append_right _ ?_)
  cases p
  · exact List.mem_append_left _ ha
  · exact List.mem_append_right _ ha

theorem Sep.not_pool {σ : Shared} {held : List Arr} (h : Sep σ held) {p : PoolId} {a : Arr} (ha : a ∈ held) :
    a ∉ σ.pool p := by
  intro hp
  refine (List.nodup_append.1 h.nodup).2.2 a ha a ?_ rfl
  cases p
  · exact List.mem_append_left _ hp
  · exact List.mem_append_right _ hp

theorem Sep.pools_disjoint {σ : Shared} {held : List Arr} (h : Sep σ held) {a : Arr} (ha : a ∈ σ.pool .bPool) :
    a ∉ σ.pool .polyPool := by
  intro hp
  exact (List.nodup_append.1 (List.nodup_append.1 h.nodup).2.1).2.2 a ha a hp rfl

/-- Changes to memory keep the arrays apart. -/
theorem Sep.mono {σ σ' : Shared} {held held' : List Arr} (h : Sep σ held) (hp : σ'.pool = σ.pool) (hn : σ.next ≤ σ'.next)
    (hh : held'.Sublist held) : Sep σ' held' := by
  constructor
  · rw [hp]; exact h.nodup.sublist (hh.append_right _)
  · rw [hp]
    intro a ha
    exact lt_of_lt_of_le (h.lt a ((hh.append_right _).mem ha)) hn

/-- A new array is apart from the others. -/
theorem Sep.new {σ : Shared} {held : List Arr} (h : Sep σ held) (l : List Byte) : Sep (new σ l) (σ.next :: held) := by
  constructor
  · show (σ.next :: (held ++ (σ.pool .bPool ++ σ.pool .polyPool))).Nodup
    exact List.nodup_cons.2 ⟨fun hm => lt_irrefl _ (h.lt _ hm), h.nodup⟩
  · intro a ha
    have ha : a ∈ σ.next :: (held ++ (σ.pool .bPool ++ σ.pool .polyPool)) := ha
    show a < σ.next + 1
    rcases List.mem_cons.1 ha with rfl | ha
    · exact Nat.lt_succ_self _
    · exact (h.lt a ha).trans (Nat.lt_succ_self _)

/-- Arrays that existed before are unchanged, except those in `X`. -/
structure Ext (X : List Arr) (σ σ' : Shared) : Prop where
  size : σ'.size = σ.size
  next : σ.next ≤ σ'.next
  heap : ∀ b < σ.next, b ∉ X → σ'.heap b = σ.heap b

theorem Ext.refl (X : List Arr) (σ : Shared) : Ext X σ σ := ⟨rfl, le_rfl, fun _ _ _ => rfl⟩

theorem Ext.trans {X : List Arr} {σ σ' σ'' : Shared} (h : Ext X σ σ') (h' : Ext X σ' σ'') : Ext X σ σ'' :=
  ⟨h'.size.trans h.size, h.next.trans h'.next, fun b hb hx =>
    (h'.heap b (lt_of_lt_of_le hb h.next) hx).trans (h.heap b hb hx)⟩

theorem Ext.mono {X Y : List Arr} {σ σ' : Shared} (h : Ext X σ σ') (hs : X ⊆ Y) : Ext Y σ σ' :=
  ⟨h.size, h.next, fun b hb hy => h.heap b hb fun hx => hy (hs hx)⟩

theorem ext_upd (σ : Shared) (a : Arr) (l : List Byte) : Ext [a] σ (upd σ a l) :=
  ⟨rfl, le_rfl, fun b _ hx => upd_heap_ne (by simpa using hx)⟩

theorem ext_upd_new {X : List Arr} {σ σ' : Shared} (h : Ext X σ σ') {a : Arr} (ha : σ.next ≤ a) (l : List Byte) :
    Ext X σ (upd σ' a l) :=
  ⟨h.size, h.next, fun b hb hx => by rw [upd_heap_ne (Nat.ne_of_lt (lt_of_lt_of_le hb ha))]; exact h.heap b hb hx⟩

theorem ext_new (X : List Arr) (σ : Shared) (l : List Byte) : Ext X σ (new σ l) :=
  ⟨rfl, Nat.le_succ _, fun _ hb _ => new_heap_ne hb⟩

theorem bufs_congr {σ σ' : Shared} {p : PoolId} (h1 : σ'.pool p = σ.pool p) (h2 : σ'.size = σ.size)
    (h3 : ∀ a ∈ σ.pool p, σ'.heap a = σ.heap a) : bufs σ' p = bufs σ p := by
  unfold bufs
  rw [h1, h2]
  congr 1
  exact List.map_congr_left fun a ha => by rw [h3 a ha]

/-- `Grow`. -/
theorem solo_grow {a : Arr} {cap n : Nat} {Q : SPost Arr} {σ : Shared} {log : List Byte} (hcap : cap = (σ.heap a).length)
    (h1 : n ≤ cap → Q a σ log) (h2 : ¬ n ≤ cap → Q σ.next (new σ (Buf.grow ⟨σ.heap a⟩ n).mem) log) :
    solo (grow a cap n) Q σ log := by
  unfold grow
  split
  · rename_i h; exact h1 h
  · rename_i h
    have h2 := h2 h
    have hb : ¬ n ≤ (σ.heap a).length := by rw [← hcap]; exact h
    have h0 : (σ.heap a = []) ↔ cap = 0 := by rw [hcap, List.length_eq_zero_iff]
    split
    · rename_i hc
      rw [Buf.grow, if_neg hb, if_pos ⟨h0.2 hc.1, hc.2⟩] at h2
      exact h2
    · rename_i hc
      rw [Buf.grow, if_neg hb, if_neg (fun c => hc ⟨h0.1 c.1, c.2⟩)] at h2
      rw [hcap]; exact h2

/-- `Get` and `Grow`. -/
theorem solo_take {p : PoolId} {n : Nat} {Q : SPost Arr} {σ : Shared} {held : List Arr} {log : List Byte} (hs : Sep σ held)
    (hQ : ∀ a σ', Sep σ' (a :: held) → Ext [] σ σ' → σ'.pool = Function.update σ.pool p (σ.pool p).tail →
      σ'.heap a = ((bufs σ p).get.1.grow n).mem → bufs σ' p = (bufs σ p).get.2 → Q a σ' log) :
    solo (.get p fun a cap => grow a cap n) Q σ log := by
  refine ⟨fun a rest hp => ?_, fun hp => ?_⟩
  · have ha : a ∈ σ.pool p := by rw [hp]; simp
    have hget : (bufs σ p).get = (⟨σ.heap a⟩, ⟨rest.map fun a => ⟨σ.heap a⟩, σ.size⟩) := by
      simp [bufs, hp, BytesBufferPool.get]
    have hperm : (held ++ (σ.pool .bPool ++ σ.pool .polyPool)).Perm
        (a :: (held ++ ((withPool σ p rest).pool .bPool ++ (withPool σ p rest).pool .polyPool))) :=
      (List.Perm.append_left held (Own.pooled_get hp)).trans List.perm_middle
    have hsep : Sep (withPool σ p rest) (a :: held) :=
      ⟨hperm.nodup_iff.1 hs.nodup, fun b hb => hs.lt b (hperm.mem_iff.2 hb)⟩
    have hpool : (withPool σ p rest).pool = Function.update σ.pool p (σ.pool p).tail := by rw [hp]; rfl
    have hb : bufs (withPool σ p rest) p = ⟨rest.map fun a => ⟨σ.heap a⟩, σ.size⟩ := by
      simp [bufs, withPool]
    refine solo_grow rfl (fun hle => ?_) (fun hle => ?_)
    · refine hQ a _ hsep (Ext.mk rfl le_rfl fun _ _ _ => rfl) hpool ?_ ?_
      · rw [hget, Buf.grow, if_pos hle]; rfl
      · rw [hget, hb]
    · refine hQ _ _ ((hsep.new _).mono rfl le_rfl ?_)
        ((Ext.mk rfl le_rfl fun _ _ _ => rfl : Ext [] σ (withPool σ p rest)).trans (ext_new _ _ _)) ?_ ?_ ?_
      · exact (List.sublist_cons_self _ _).cons_cons _
      · exact hpool
      · rw [new_heap, hget]; rfl
      · rw [hget, ← hb]
        exact bufs_congr rfl rfl fun b hb' => new_heap_ne (hsep.pool_lt hb')
  · have hget : (bufs σ p).get = (Buf.new, bufs σ p) := by simp [bufs, hp, BytesBufferPool.get]
    have hpool : σ.pool = Function.update σ.pool p (σ.pool p).tail := by
      conv_rhs => rw [show (σ.pool p).tail = σ.pool p by rw [hp]; rfl]
      rw [Function.update_eq_self]
    refine solo_grow (by rw [new_heap]; rfl) (fun hle => ?_) (fun hle => ?_)
    · refine hQ _ _ (hs.new _) (ext_new _ _ _) hpool ?_ ?_
      · rw [hget, Buf.grow, if_pos (show n ≤ Buf.new.mem.length from hle), new_heap]; rfl
      · rw [hget]
        exact bufs_congr rfl rfl fun b hb' => new_heap_ne (hs.pool_lt hb')
    · refine hQ _ _ (((hs.new _).new _).mono rfl le_rfl ?_) ((ext_new _ _ _).trans (ext_new _ _ _)) hpool ?_ ?_
      · exact (List.sublist_cons_self _ _).cons_cons _
      · rw [new_heap, hget, new_heap]; rfl
      · rw [hget]
        refine bufs_congr rfl rfl fun b hb' => ?_
        have := hs.pool_lt hb'
        rw [new_heap_ne (show b < σ.next + 1 from Nat.lt_succ_of_lt this), new_heap_ne this]

/-- `Put`. -/
theorem solo_give {α : Type} {p : PoolId} {a : Arr} {k : Prog α} {Q : SPost α} {σ : Shared} {held : List Arr}
    {log : List Byte} (hs : Sep σ (a :: held))
    (hk : ∀ σ', Sep σ' held → σ'.heap = σ.heap → σ'.next = σ.next → σ'.size = σ.size →
      (∀ q, q ≠ p → σ'.pool q = σ.pool q) → bufs σ' p = (bufs σ p).put ⟨σ.heap a⟩ → solo k Q σ' log) :
    solo (.put p a k) Q σ log := by
  refine ⟨fun hl => ?_, fun hl => ?_⟩
  · have hperm : (held ++ ((withPool σ p (σ.pool p ++ [a])).pool .bPool ++ (withPool σ p (σ.pool p ++ [a])).pool .polyPool)).Perm
        (a :: (held ++ (σ.pool .bPool ++ σ.pool .polyPool))) :=
      (List.Perm.append_left held Own.pooled_put).trans List.perm_middle
    refine hk _ ⟨hperm.nodup_iff.2 hs.nodup, fun b hb => hs.lt b (hperm.mem_iff.1 hb)⟩ rfl rfl rfl ?_ ?_
    · intro q hq
      simp [withPool, Function.update_of_ne hq]
    · simp only [bufs, withPool, Function.update_self, List.map_append, BytesBufferPool.put, List.length_map, hl, if_true]
      rfl
  · refine hk _ (hs.mono rfl le_rfl (List.sublist_cons_self _ _)) rfl rfl rfl (fun _ _ => rfl) ?_
    simp [bufs, BytesBufferPool.put, hl]

end Verif.Proofs.Alone
