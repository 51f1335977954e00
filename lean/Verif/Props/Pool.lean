import Verif.Model.Shamir
import Verif.Spec.Pool
import Verif.Spec.Heap
import Verif.Proofs.HeapSystem

/-! # C33: the buffer pool -/

namespace Verif.Props
open Verif Pool Spec Proofs

theorem after_size (p : BytesBufferPool) (ops : List PoolOp) : (after p ops).size = p.size := by
  induction ops generalizing p with
  | nil => rfl
  | cons o ops ih =>
    rw [show after p (o :: ops) = after (o.apply p) ops from rfl, ih]
    cases o with
    | get => simp only [PoolOp.apply, BytesBufferPool.get]; split <;> rfl
    | put b => simp only [PoolOp.apply, BytesBufferPool.put]; split <;> rfl

theorem after_le (p : BytesBufferPool) (hp : retained p ≤ p.size) (ops : List PoolOp) : retained (after p ops) ≤ p.size := by
  induction ops generalizing p with
  | nil => exact hp
  | cons o ops ih =>
    have e : (o.apply p).size = p.size := after_size p [o]
    rw [show after p (o :: ops) = after (o.apply p) ops from rfl, ← e]
    apply ih
    rw [e]
    unfold retained at *
    cases o with
    | get =>
      simp only [PoolOp.apply, BytesBufferPool.get]
      split
      · rename_i h; rw [h] at hp; simp only [List.length_cons] at hp ⊢; omega
      · exact hp
    | put b =>
      simp only [PoolOp.apply, BytesBufferPool.put]
      split
      · simp; omega
      · exact hp

/-- C33: a pool never keeps more buffers than its capacity, whatever the history. -/
theorem C33_capacity (numCPU : Nat) (size : Int) (ops : List PoolOp) :
    retained (after (newBytesBufferPool numCPU size) ops) ≤ poolCap numCPU size := by
  have h := after_le (newBytesBufferPool numCPU size) (by simp [retained, newBytesBufferPool]) ops
  exact h

/-- C33: number of retained buffers after each call. -/
theorem C33_retained (numCPU : Nat) (size : Int) (ops : List PoolOp) (b : Buf) :
    let p := after (newBytesBufferPool numCPU size) ops
    retained p.get.2 = retained p - 1 ∧ retained (p.put b) = min (poolCap numCPU size) (retained p + 1) := by
  intro p
  have hs : p.size = poolCap numCPU size := after_size _ _
  have hle : retained p ≤ poolCap numCPU size := C33_capacity numCPU size ops
  constructor
  · unfold retained BytesBufferPool.get
    split <;> rename_i h <;> simp [h]
  · unfold retained BytesBufferPool.put at *
    split
    · simp; omega
    · omega

/-- C33: `Put` on a full pool discards the buffer. -/
theorem C33_full_discards (p : BytesBufferPool) (b : Buf) (h : p.size ≤ retained p) : p.put b = p := by
  unfold BytesBufferPool.put
  rw [if_neg (by unfold retained at h; omega)]

/-- C33: `Get` on an empty pool returns a new, empty buffer. -/
theorem C33_empty_new (p : BytesBufferPool) (h : retained p = 0) : p.get = (Buf.new, p) := by
  unfold BytesBufferPool.get
  rw [List.length_eq_zero_iff.1 h]

theorem after_prefix (ops : List PoolOp) : ∀ (p : BytesBufferPool) (pre : List Buf) (b : Buf) (suf : List Buf),
    p.ch = pre ++ b :: suf → gets ops = pre.length → ∃ suf', (after p ops).ch = b :: suf' := by
  induction ops with
  | nil =>
    intro p pre b suf h hg
    simp only [gets, List.count_nil] at hg
    rw [List.length_eq_zero_iff.1 hg.symm] at h
    exact ⟨suf, h⟩
  | cons o ops ih =>
    intro p pre b suf h hg
    rw [show after p (o :: ops) = after (o.apply p) ops from rfl]
    cases o with
    | get =>
      rw [gets, List.count_cons_self] at hg
      cases pre with
      | nil => simp at hg
      | cons a pre =>
        refine ih _ pre b suf ?_ (by simpa [gets] using hg)
        simp [PoolOp.apply, BytesBufferPool.get, h]
    | put b' =>
      rw [gets, List.count_cons_of_ne (by simp)] at hg
      have e : (PoolOp.put b').apply p = if p.ch.length < p.size then { p with ch := p.ch ++ [b'] } else p := rfl
      rw [e]
      by_cases hlt : p.ch.length < p.size
      · rw [if_pos hlt]; exact ih _ pre b (suf ++ [b']) (by simp [h]) hg
      · rw [if_neg hlt]; exact ih _ pre b suf h hg

/-- C33, first in first out: a buffer put into a pool that keeps `m` buffers, fewer than its capacity, is returned by
the `Get` after exactly `m` further `Get` calls, whatever happens in between. -/
theorem C33_fifo (p : BytesBufferPool) (b : Buf) (h : retained p < p.size) (ops : List PoolOp) (hg : gets ops = retained p) :
    (after (p.put b) ops).get.1 = b := by
  have hput : (p.put b).ch = p.ch ++ b :: [] := by
    unfold BytesBufferPool.put
    rw [if_pos (by unfold retained at h; omega)]
  obtain ⟨suf, e⟩ := after_prefix ops (p.put b) p.ch b [] hput hg
  unfold BytesBufferPool.get
  rw [e]

/-- C33: both pools of the shamir package start empty, and keep up to 1024 buffers per processor: they accept as many, and
no more. -/
theorem C33_package_pools (numCPU : Nat) (p : BytesBufferPool)
    (hp : p = (Shamir.Pools.init numCPU).bPool ∨ p = (Shamir.Pools.init numCPU).polyPool) :
    p.get = (Buf.new, p) ∧ ∀ bs : List Buf, retained (after p (bs.map .put)) = min (1024 * numCPU) bs.length := by
  obtain rfl : p = newBytesBufferPool numCPU 0 := by rcases hp with rfl | rfl <;> rfl
  refine ⟨C33_empty_new _ rfl, fun bs => ?_⟩
  induction bs using List.reverseRecOn with
  | nil => simp [after, retained, newBytesBufferPool]
  | append_singleton bs b ih =>
    have h := (C33_retained numCPU 0 (bs.map .put) b).2
    rw [List.map_append, after, List.foldl_append]
    show retained ((after (newBytesBufferPool numCPU 0) (bs.map .put)).put b) = _
    rw [h, ih, List.length_append]
    simp only [poolCap, le_refl, if_true, List.length_cons, List.length_nil]
    omega

/-- C33 for concurrent use: whatever programs run, the pools never exceed their capacity. -/
theorem C33_concurrent_capacity {ι α : Type} [DecidableEq ι] (c c' : Heap.Config ι α)
    (h0 : ∀ p, (c.shared.pool p).length ≤ c.shared.size) (hr : Heap.Reach c c') :
    c'.shared.size = c.shared.size ∧ ∀ p, (c'.shared.pool p).length ≤ c.shared.size := by
  induction hr with
  | refl => exact ⟨rfl, h0⟩
  | @tail c _ _ hs ih =>
    cases hs with
    | mk i σ' p' bs h =>
      obtain ⟨e, ih⟩ := ih
      rw [← e] at ih ⊢
      clear e h0
      show σ'.size = c.shared.size ∧ ∀ p, (σ'.pool p).length ≤ c.shared.size
      generalize hcs : c.shared = σ at h ih ⊢
      generalize (c.thread i).prog = q at h
      cases h with
      | get p k a rest hp =>
        refine ⟨rfl, fun q => ?_⟩
        by_cases e : q = p
        · subst e
          have := ih q
          rw [hp] at this
          simp only [Function.update_self, List.length_cons] at this ⊢
          omega
        · simp only [Function.update_of_ne e]; exact ih q
      | put p a k hp =>
        refine ⟨rfl, fun q => ?_⟩
        by_cases e : q = p
        · subst e
          simp only [Function.update_self, List.length_append, List.length_cons, List.length_nil]
          omega
        · simp only [Function.update_of_ne e]; exact ih q
      | _ => exact ⟨rfl, ih⟩

/-- Goroutine `i` can take a step after which it has to continue with `q`. -/
def SysStepTo {ι α : Type} (c : Heap.Config ι α) (i : ι) (σ' : Heap.Shared) (q : Heap.Prog α) : Prop :=
  ∃ bs, Heap.Step c.shared (c.thread i).prog σ' q bs

/-- C33: `Get` and `Put` never block: in every state the call completes in one step of the calling goroutine. -/
theorem C33_never_blocks {ι α : Type} [DecidableEq ι] (c : Heap.Config ι α) (i : ι) (p : Heap.PoolId) :
    (∀ k, (c.thread i).prog = .get p k → ∃ σ' a n, SysStepTo c i σ' (k a n)) ∧
    (∀ a k, (c.thread i).prog = .put p a k → ∃ σ', SysStepTo c i σ' k) := by
  constructor
  · intro k h
    cases hp : c.shared.pool p with
    | nil => exact ⟨_, _, _, [], by rw [h]; exact .getNew _ _ _ hp⟩
    | cons a rest => exact ⟨_, _, _, [], by rw [h]; exact .get _ _ _ a rest hp⟩
  · intro a k h
    by_cases hp : (c.shared.pool p).length < c.shared.size
    · exact ⟨_, [], by rw [h]; exact .put _ _ _ _ hp⟩
    · exact ⟨_, [], by rw [h]; exact .putDrop _ _ _ _ hp⟩

/-! Non-vacuity. -/

example : (after ((newBytesBufferPool 4 2).put ⟨[1]⟩) [.put ⟨[2]⟩, .put ⟨[3]⟩]).get.1 = ⟨[1]⟩ :=
  C33_fifo (newBytesBufferPool 4 2) ⟨[1]⟩ (by decide) [.put ⟨[2]⟩, .put ⟨[3]⟩] (by decide)

example : (after (((newBytesBufferPool 4 2).put ⟨[1]⟩).put ⟨[2]⟩) [.put ⟨[3]⟩, .get]).get.1 = ⟨[2]⟩ :=
  C33_fifo ((newBytesBufferPool 4 2).put ⟨[1]⟩) ⟨[2]⟩ (by decide) [.put ⟨[3]⟩, .get] (by decide)

example : newBytesBufferPool 4 0 = ⟨[], 4096⟩ := by decide

example : (((newBytesBufferPool 4 2).put ⟨[1]⟩).put ⟨[2]⟩).put ⟨[3]⟩ = ((newBytesBufferPool 4 2).put ⟨[1]⟩).put ⟨[2]⟩ :=
  C33_full_discards _ _ (by decide)
example : (newBytesBufferPool 4 2).get = (Buf.new, newBytesBufferPool 4 2) := C33_empty_new _ (by decide)

/-- The pools of the package on a machine with 8 processors: of 9000 buffers they keep 8192. -/
example (bs : List Buf) (h : bs.length = 9000) : retained (after (Shamir.Pools.init 8).polyPool (bs.map .put)) = 8192 := by
  rw [(C33_package_pools 8 _ (.inr rfl)).2 bs, h]; decide

/-- Two goroutines that do nothing but put buffers back. -/
example (c : Heap.Config Bool Unit) (hr : Heap.Reach (⟨⟨fun _ => [], 9, fun _ => [7], 2⟩,
    fun b => ⟨.put .bPool (if b then 1 else 2) (.put .bPool (if b then 3 else 4) (.ret ())), []⟩⟩ : Heap.Config Bool Unit) c) :
    (c.shared.pool .bPool).length ≤ 2 :=
  (C33_concurrent_capacity _ c (fun p => by simp) hr).2 .bPool

end Verif.Props
