import Verif.Proofs.HeapBalance
import Verif.Proofs.AsyncBalance
import Verif.Props.Pool
import Verif.Props.Async

/-! # C67: the calls return the buffers they take from the pools

`atMost` is the number of buffers a call may have in hand at one time: two of the pool of polynomial buffers, one of the
pool of evaluation buffers.  No hypothesis is made about the arguments of the calls. -/

namespace Verif.Props
open Verif Outcome Galois Spec Proofs Proofs.Own Shamir Verif.Heap

variable {ι : Type} [Fintype ι] [DecidableEq ι]

/-- C67: when all calls have returned, whatever the interleaving, no buffer is lost: the pools have at least as many
buffers as before (or are full); and they have grown at most to the number of buffers the calls can use at one time. -/
theorem C67_all_returned (arch : Arch) (σ : Shared) (calls : ι → Call) (c : Config ι (Outcome (List Slice)))
    (hr : Reach (initial arch σ calls) c) (hret : ∀ i, ∃ r, (c.thread i).prog = .ret r) (p : PoolId) :
    min σ.size (σ.pool p).length ≤ (c.shared.pool p).length ∧
    (c.shared.pool p).length ≤ max (σ.pool p).length (atMost p * Fintype.card ι) := by
  obtain ⟨n, I⟩ := held_reach (fun i => still_call_prog arch (calls i)) hr
  have h0 : ∑ i, n i p = 0 := Finset.sum_eq_zero fun i _ => by
    obtain ⟨r, h⟩ := hret i
    have := I.keeps i
    rw [h] at this
    exact congrFun this p
  have h1 := I.lo p
  have h2 := I.hi p
  rw [h0, Nat.add_zero] at h1 h2
  exact ⟨h1, h2⟩

/-- C67: at any time, running and returned calls together have taken at most the buffers the running calls can use at
one time. -/
theorem C67_bounded_use (arch : Arch) (σ : Shared) (calls : ι → Call) (c : Config ι (Outcome (List Slice)))
    (hr : Reach (initial arch σ calls) c) (p : PoolId) :
    min σ.size (σ.pool p).length ≤ (c.shared.pool p).length + atMost p * (running c).card ∧
    (c.shared.pool p).length ≤ max (σ.pool p).length (atMost p * Fintype.card ι) := by
  obtain ⟨n, I⟩ := held_reach (fun i => still_call_prog arch (calls i)) hr
  refine ⟨le_trans (I.lo p) (Nat.add_le_add_left ?_ _), le_trans (Nat.le_add_right _ _) (I.hi p)⟩
  have h0 : ∑ i, n i p = ∑ i ∈ running c, n i p := by
    symm
    refine Finset.sum_subset (Finset.subset_univ _) fun i _ hi => ?_
    unfold running at hi
    simp only [Finset.mem_filter, Finset.mem_univ, true_and, not_forall, not_not] at hi
    obtain ⟨r, h⟩ := hi
    have := I.keeps i
    rw [h] at this
    exact congrFun this p
  rw [h0, Nat.mul_comm, ← smul_eq_mul]
  exact Finset.sum_le_card_nsmul _ _ _ fun i _ => I.le i p

/-- C67: with as many buffers in a pool as the calls can use at one time, no call ever finds the pool empty: all of them
reuse buffers, however they interleave. -/
theorem C67_reuse (arch : Arch) (σ : Shared) (calls : ι → Call) (c : Config ι (Outcome (List Slice)))
    (hr : Reach (initial arch σ calls) c) (p : PoolId) (hsize : atMost p * Fintype.card ι ≤ σ.size)
    (hfull : atMost p * Fintype.card ι ≤ (σ.pool p).length) (i : ι) (k : Arr → Nat → Prog (Outcome (List Slice)))
    (hget : (c.thread i).prog = .get p k) : c.shared.pool p ≠ [] := by
  intro he
  obtain ⟨n, I⟩ := held_reach (fun i => still_call_prog arch (calls i)) hr
  have h1 := I.lo p
  change min σ.size (σ.pool p).length ≤ _ at h1
  rw [he, List.length_nil, Nat.zero_add] at h1
  have hi : n i p < atMost p := by
    have := I.keeps i
    rw [hget] at this
    exact this.1
  have h2 : ∑ j, n j p < ∑ _j : ι, atMost p := Finset.sum_lt_sum (fun j _ => I.le j p) ⟨i, Finset.mem_univ _, hi⟩
  rw [Finset.sum_const, smul_eq_mul, Finset.card_univ, Nat.mul_comm] at h2
  omega

/-! ## Programs that make calls at any time -/

theorem progHolds_start (σ : Shared) : ProgHolds (Program.start σ) fun _ => 0 :=
  ⟨fun i c hc => by simp [Program.start] at hc, fun _ _ _ _ => rfl⟩

/-- C67: a program makes calls at any time.  At any time the buffers missing from a pool are at most those that the calls
under way can use at one time: no finished call has lost any. -/
theorem C67_program_returns (arch : Arch) (σ : Shared) (s : Program) (hr : Runs arch (Program.start σ) s) (p : PoolId) :
    min σ.size (σ.pool p).length ≤ (s.shared.pool p).length + atMost p * s.openCalls := by
  have key : ∃ n, ProgHolds s n ∧ s.shared.size = σ.size ∧ min σ.size (σ.pool p).length ≤
      (s.shared.pool p).length + ∑ i ∈ Finset.range s.calls.length, n i p := by
    induction hr with
    | refl => exact ⟨_, progHolds_start σ, rfl, le_trans (min_le_right _ _) (Nat.le_add_right _ _)⟩
    | tail _ hs ih =>
      obtain ⟨n, h, hsz, hlo⟩ := ih
      obtain ⟨e, hs⟩ := hs
      obtain ⟨n', h', hsz', hm⟩ := h.step hs
      refine ⟨n', h', hsz'.trans hsz, ?_⟩
      rcases hm p with h | ⟨h1, h2, h3⟩ | ⟨h1, h2, h3⟩ <;> omega
  obtain ⟨n, h, -, hlo⟩ := key
  exact le_trans hlo (Nat.add_le_add_left (h.sum_le p) _)

/-- C67: if there are never more than `k` calls under way at one time, the pools never grow beyond what `k` calls can
use at one time, in however long a history. -/
theorem C67_program_bounded (arch : Arch) (σ : Shared) (k : Nat) (s : Program) (hr : RunsWith arch k (Program.start σ) s)
    (p : PoolId) : (s.shared.pool p).length ≤ max (σ.pool p).length (atMost p * k) := by
  have key : ∃ n, ProgHolds s n ∧ (s.shared.pool p).length + ∑ i ∈ Finset.range s.calls.length, n i p ≤
      max (σ.pool p).length (atMost p * k) := by
    induction hr with
    | refl => exact ⟨_, progHolds_start σ, by simp [Program.start]⟩
    | tail _ hs ih =>
      obtain ⟨n, h, hhi⟩ := ih
      obtain ⟨⟨e, hs⟩, hk⟩ := hs
      obtain ⟨n', h', -, hm⟩ := h.step hs
      refine ⟨n', h', ?_⟩
      have hle := le_trans (h'.sum_le p) (Nat.mul_le_mul_left (atMost p) hk)
      rcases hm p with h | ⟨h1, h2, h3⟩ | ⟨h1, h2, h3⟩ <;> omega
  obtain ⟨n, -, h⟩ := key
  exact le_trans (Nat.le_add_right _ _) h

/-! Non-vacuity: the three calls of `Props.Concurrency`, one buffer in the pool at first. -/

example (arch : Arch) : ∃ c, Reach (initial arch exShared exCalls) c ∧ (∀ i, ∃ r, (c.thread i).prog = .ret r) ∧
    1 ≤ (c.shared.pool .bPool).length ∧ (c.shared.pool .bPool).length ≤ 6 ∧ (c.shared.pool .polyPool).length ≤ 3 := by
  obtain ⟨c, hr, hd⟩ := ((C34_terminates arch exShared exCalls exStart exAdmissible).2 _ .refl).2
  have h1 := C67_all_returned arch exShared exCalls c hr hd .bPool
  have h2 := C67_all_returned arch exShared exCalls c hr hd .polyPool
  refine ⟨c, hr, hd, le_trans ?_ h1.1, le_trans h1.2 ?_, le_trans h2.2 ?_⟩ <;> decide

/-- With six buffers in the first pool and three in the second, no call of the three allocates one. -/
example (arch : Arch) (c : Config (Fin 3) (Outcome (List Slice))) (σ : Shared) (hσ : σ.size = 8)
    (h1 : (σ.pool .bPool).length = 6) (h2 : (σ.pool .polyPool).length = 3) (hr : Reach (initial arch σ exCalls) c) (i : Fin 3)
    (p : PoolId) (k : Arr → Nat → Prog (Outcome (List Slice))) (hget : (c.thread i).prog = .get p k) : c.shared.pool p ≠ [] := by
  refine C67_reuse arch σ exCalls c hr p ?_ ?_ i k hget <;> cases p <;> simp [atMost, hσ, h1, h2]

theorem openCalls_le {arch : Arch} {s s' : Program} {i : Nat} (h : PStep arch s (.step i) s' ∨ PStep arch s (.ret i) s') :
    s'.openCalls ≤ s.openCalls := by
  unfold Program.openCalls
  rcases h with h | h
  · cases h with
    | step =>
      have hc := ‹s.calls[i]? = some _›
      have hn := ‹_ = none›
      obtain ⟨hlt, rfl⟩ := List.getElem?_eq_some_iff.1 hc
      rw [List.countP_set hlt]
      have : 0 < List.countP (fun c : CallState => c.returned.isNone) s.calls :=
        List.countP_pos_iff.2 ⟨_, List.getElem_mem hlt, by simp [hn]⟩
      rw [if_pos (by simp [hn])]; omega
  · cases h with
    | ret =>
      have hc := ‹s.calls[i]? = some _›
      have hn := ‹_ = none›
      obtain ⟨hlt, rfl⟩ := List.getElem?_eq_some_iff.1 hc
      rw [List.countP_set hlt]
      simp [hn]

theorem runsWith_of_finishes {arch : Arch} {s s' : Program} {k : Nat} (hk : s.openCalls ≤ k) (h : Finishes arch s s') :
    s'.openCalls ≤ k ∧ RunsWith arch k s s' := by
  induction h with
  | refl => exact ⟨hk, .refl⟩
  | tail _ hs ih =>
    obtain ⟨i, hs⟩ := hs
    have hle := le_trans (openCalls_le hs) ih.1
    exact ⟨hle, ih.2.tail ⟨by rcases hs with h | h <;> exact ⟨_, h⟩, hle⟩⟩

/-- A program calls `Split` and waits for the result: at the end at least the one buffer that was in the pool is there
again, and at most two. -/
example (arch : Arch) (perm : List Nat) (hp : perm.Perm (List.range 255)) : ∃ s, RunsWith arch 1 (Program.start exShared) s ∧
    s.calls.length = 1 ∧ (∀ c ∈ s.calls, c.returned.isSome) ∧ 1 ≤ (s.shared.pool .bPool).length ∧
    (s.shared.pool .bPool).length ≤ 2 ∧ (s.shared.pool .polyPool).length ≤ 1 := by
  have k0 : 0 ∈ (Program.start exShared).known := ⟨by decide, fun p => by cases p <;> decide⟩
  have hcall := PStep.call (arch := arch) (Program.start exShared) (.seq (.split ⟨0, 0, 3, 3⟩ 3 2 perm)) hp (by
    intro sl hsl
    have : sl = ⟨0, 0, 3, 3⟩ := by simpa [Job.inputs, Call.inputs] using hsl
    subst this
    exact ⟨k0, by unfold InBounds; decide, by decide⟩)
  generalize hs1 : Program.mk _ _ _ = s1 at hcall
  have hlen : s1.calls.length = 1 := by rw [← hs1]; rfl
  have hopen : s1.openCalls ≤ 1 := by rw [← hs1]; exact le_rfl
  have h1 : Runs arch (Program.start exShared) s1 := .single ⟨_, hcall⟩
  have I := pinv_runs (pinv_start arch exStart.poolNodup exStart.poolLt) h1
  obtain ⟨s, hf, hdone⟩ := finishes_all I (by
    intro c hc secret parts threshold perm' hj
    rw [← hs1] at hc
    have : c.job = .seq (.split ⟨0, 0, 3, 3⟩ 3 2 perm) := by
      rw [show c = _ from List.mem_singleton.1 hc]
    rw [this] at hj
    cases hj)
  obtain ⟨-, hw⟩ := runsWith_of_finishes hopen hf
  obtain ⟨hr1, -, hl, -⟩ := finishes_keep I hf
  have hr : RunsWith arch 1 (Program.start exShared) s := .head ⟨⟨_, hcall⟩, hopen⟩ hw
  have h0 : s.openCalls = 0 := by
    unfold Program.openCalls
    rw [List.countP_eq_zero]
    intro c hc
    simpa [Option.isSome_iff_ne_none] using hdone c hc
  have a1 := C67_program_returns arch exShared s (h1.trans hr1) .bPool
  rw [h0, Nat.mul_zero, Nat.add_zero] at a1
  exact ⟨s, hr, hl.trans hlen, hdone, le_trans (by decide) a1,
    C67_program_bounded arch exShared 1 s hr .bPool, C67_program_bounded arch exShared 1 s hr .polyPool⟩

/-- At any time while the three calls run the pool of polynomial buffers holds at most six buffers. -/
example (arch : Arch) (c : Config (Fin 3) (Outcome (List Slice))) (hr : Reach (initial arch exShared exCalls) c) :
    (c.shared.pool .bPool).length ≤ 6 :=
  le_trans (C67_bounded_use arch exShared exCalls c hr .bPool).2 (by decide)

end Verif.Props
