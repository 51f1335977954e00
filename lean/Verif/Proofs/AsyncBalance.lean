import Verif.Proofs.HeapBalance
import Verif.Proofs.Async

/-! # The buffers the calls of a program with many goroutines take from the pools and return to them -/

namespace Verif.Proofs.Own
open Verif Outcome Galois Shamir Spec Pool Csprng RS Verif.Heap

theorem still_splitPSetup {b n : PoolId → Nat} (secret : Slice) (parts threshold : Int) (perm : List Nat) :
    Still b n (splitPSetup secret parts threshold perm) := by
  unfold splitPSetup
  refine still_checkP (Keeps.bind (still_forUp fun i outs => fun a => ?_) fun outs => still_ret _)
  exact (still_lift _).bind fun xc => rfl

theorem still_workerP {b n : PoolId → Nat} (secret : Slice) (parts threshold : Int) (perm : List Nat) (outs : List Slice)
    (lo hi : BitVec 32) : Still b n (workerP secret parts threshold perm outs lo hi) := by
  unfold workerP
  refine Keeps.bind (still_forUp fun k s => fun v => ?_) fun _ => still_ret _
  refine Keeps.bind ?_ fun p => Keeps.bind (still_forUp fun i _ => ?_) fun _ => still_ret _
  · exact Keeps.bind (still_forUp fun _ _ => fun _ => rfl) fun _ => still_lift _
  · refine (still_lift _).bind fun _ => (still_lift _).bind fun _ => (still_lift _).bind fun o => ?_
    split
    · exact rfl
    · exact trivial

theorem still_job (arch : Arch) (j : Job) : Still atMost 0 (j.prog arch) := by
  cases j with
  | seq c => exact still_call_prog arch c
  | splitP => exact still_splitPSetup _ _ _ _

/-- The calling goroutine of a call has `n` buffers in hand, the others none. -/
structure ProcHolds (p : Proc) (n : PoolId → Nat) : Prop where
  main : Keeps atMost 0 p.main.prog n
  le : ∀ q, n q ≤ atMost q
  workers : ∀ w ∈ p.workers, Keeps 0 0 w.prog 0
  later : p.phase ≠ .sequential → n = 0

/-- What a step does to one pool of `l` buffers when `n` are in hand. -/
def Moves (size l n l' n' : Nat) : Prop := l' + n' = l + n ∨ (l = 0 ∧ l' = 0 ∧ n' = n + 1) ∨ (size ≤ l ∧ l' = l ∧ n' ≤ n)

theorem Keeps.moves {α : Type} {b n : PoolId → Nat} {p p' : Prog α} {s s' : Shared} {bs : List Byte} (hst : Step s p s' p' bs)
    (h : Keeps b 0 p n) (hb : ∀ q, n q ≤ b q) :
    ∃ n', Keeps b 0 p' n' ∧ (∀ q, n' q ≤ b q) ∧ s'.size = s.size ∧
      ∀ q, Moves s.size (s.pool q).length (n q) (s'.pool q).length (n' q) := by
  obtain ⟨n', k1, k2, k3, k4⟩ := Keeps.step hst h hb
  refine ⟨n', k1, k2, k3, fun q => ?_⟩
  rcases k4 q with h | ⟨h1, h2, h3⟩ | ⟨h1, h2, h3⟩
  · exact .inl h
  · exact .inr (.inl ⟨by rw [h1]; rfl, by rw [h2]; rfl, h3⟩)
  · exact .inr (.inr ⟨h1, by rw [h2], h3⟩)

theorem Moves.refl (size l n : Nat) : Moves size l n l n := .inl rfl

theorem ProcHolds.step {job : Job} {σ σ' : Shared} {p p' : Proc} {n : PoolId → Nat} (h : ProcHolds p n)
    (hs : ProcStep job σ p σ' p') :
    ∃ n', ProcHolds p' n' ∧ σ'.size = σ.size ∧ ∀ q, Moves σ.size (σ.pool q).length (n q) (σ'.pool q).length (n' q) := by
  cases hs with
  | main =>
    rename_i hp hst
    obtain ⟨n', k1, k2, k3, k4⟩ := Keeps.moves hst h.main h.le
    exact ⟨n', ⟨k1, k2, h.workers, fun hne => absurd hp hne⟩, k3, k4⟩
  | finish =>
    rename_i hp hr
    have h0 : n = 0 := by have := h.main; rw [hr] at this; exact this
    exact ⟨n, ⟨h.main, h.le, h.workers, fun _ => h0⟩, rfl, fun _ => .refl ..⟩
  | reject =>
    rename_i hp hr
    have h0 : n = 0 := by have := h.main; rw [hr] at this; exact this
    exact ⟨n, ⟨h.main, h.le, h.workers, fun _ => h0⟩, rfl, fun _ => .refl ..⟩
  | enter =>
    rename_i hp hr
    have h0 : n = 0 := by have := h.main; rw [hr] at this; exact this
    exact ⟨n, ⟨h.main, h.le, h.workers, fun _ => h0⟩, rfl, fun _ => .refl ..⟩
  | spawn =>
    have hp := ‹p.phase = _›
    refine ⟨n, ⟨h.main, h.le, fun w hw => ?_, fun _ => h.later (by rw [hp]; simp)⟩, rfl, fun _ => .refl ..⟩
    rcases List.mem_append.1 hw with hw | hw
    · exact h.workers w hw
    · rw [List.mem_singleton.1 hw]; exact still_workerP _ _ _ _ _ _ _
  | spawnPanic =>
    have hp := ‹p.phase = _›
    exact ⟨n, ⟨h.main, h.le, h.workers, fun _ => h.later (by rw [hp]; simp)⟩, rfl, fun _ => .refl ..⟩
  | exit =>
    have hp := ‹p.phase = _›
    exact ⟨n, ⟨h.main, h.le, h.workers, fun _ => h.later (by rw [hp]; simp)⟩, rfl, fun _ => .refl ..⟩
  | join =>
    rename_i hp hall
    exact ⟨n, ⟨h.main, h.le, h.workers, fun _ => h.later (by rw [hp]; simp)⟩, rfl, fun _ => .refl ..⟩
  | worker =>
    rename_i j w prog' bs hw hst
    obtain ⟨n', k1, k2, k3, k4⟩ := Keeps.moves hst (h.workers w (List.mem_of_getElem? hw)) fun _ => le_rfl
    have h0 : n' = 0 := funext fun q => Nat.le_zero.1 (k2 q)
    subst h0
    refine ⟨n, ⟨h.main, h.le, fun x hx => ?_, h.later⟩, k3, fun q => ?_⟩
    · rcases List.mem_or_eq_of_mem_set hx with hx | hx
      · exact h.workers x hx
      · rw [hx]; exact k1
    · rcases k4 q with e | ⟨-, -, e⟩ | ⟨e1, e2, -⟩
      · exact .inl (by simp only [Pi.zero_apply] at e; omega)
      · simp at e
      · exact .inl (by omega)

/-- The buffers in hand of the calls of a program. -/
structure ProgHolds (s : Program) (n : Nat → PoolId → Nat) : Prop where
  holds : ∀ i c, s.calls[i]? = some c → ProcHolds c.proc (n i)
  returned : ∀ i c, s.calls[i]? = some c → c.returned ≠ none → n i = 0

theorem sum_range_update (n : Nat → PoolId → Nat) (i : Nat) (x : PoolId → Nat) (q : PoolId) {l : Nat} (hi : i < l) :
    ∑ j ∈ Finset.range l, Function.update n i x j q + n i q = ∑ j ∈ Finset.range l, n j q + x q := by
  have hm := Finset.mem_range.2 hi
  rw [← Finset.add_sum_erase _ _ hm, ← Finset.add_sum_erase (a := i) _ (fun j => n j q) hm]
  have : ∑ j ∈ (Finset.range l).erase i, Function.update n i x j q = ∑ j ∈ (Finset.range l).erase i, n j q := by
    apply Finset.sum_congr rfl
    intro j hj
    rw [Function.update_of_ne (Finset.ne_of_mem_erase hj)]
  rw [this, Function.update_self]
  omega

theorem ProgHolds.step {arch : Arch} {s s' : Program} {e : Event} {n : Nat → PoolId → Nat} (h : ProgHolds s n)
    (hs : PStep arch s e s') :
    ∃ n', ProgHolds s' n' ∧ s'.shared.size = s.shared.size ∧
      ∀ q, Moves s.shared.size (s.shared.pool q).length (∑ i ∈ Finset.range s.calls.length, n i q)
        (s'.shared.pool q).length (∑ i ∈ Finset.range s'.calls.length, n' i q) := by
  cases hs with
  | alloc bytes => exact ⟨n, ⟨h.holds, h.returned⟩, rfl, fun _ => .refl ..⟩
  | store a k v hk hl hfree => exact ⟨n, ⟨h.holds, h.returned⟩, rfl, fun _ => .refl ..⟩
  | call job hadm hin =>
    refine ⟨Function.update n s.calls.length 0, ⟨fun i c hc => ?_, fun i c hc hr => ?_⟩, rfl, fun q => ?_⟩
    · by_cases hi : i = s.calls.length
      · subst hi
        simp only [List.getElem?_concat_length, Option.some.injEq] at hc
        subst hc
        rw [Function.update_self]
        exact ⟨still_job arch job, fun _ => Nat.zero_le _, by simp, fun hne => absurd rfl hne⟩
      · rw [Function.update_of_ne hi]
        have hlt : i < s.calls.length := by
          have := (List.getElem?_eq_some_iff.1 hc).1
          simp at this; omega
        exact h.holds i c (by rwa [List.getElem?_append_left hlt] at hc)
    · by_cases hi : i = s.calls.length
      · subst hi; simp
      · rw [Function.update_of_ne hi]
        have hlt : i < s.calls.length := by
          have := (List.getElem?_eq_some_iff.1 hc).1
          simp at this; omega
        exact h.returned i c (by rwa [List.getElem?_append_left hlt] at hc) hr
    · left
      simp only [List.length_append, List.length_singleton, Finset.sum_range_succ, Function.update_self, Pi.zero_apply, Nat.add_zero]
      congr 1
      apply Finset.sum_congr rfl
      intro j hj
      rw [Function.update_of_ne (by have := Finset.mem_range.1 hj; omega)]
  | step i c σ' p' hc hn hst =>
    obtain ⟨n', k1, k2, k3⟩ := (h.holds i c hc).step hst
    have hlt := (List.getElem?_eq_some_iff.1 hc).1
    refine ⟨Function.update n i n', ⟨fun j c' hc' => ?_, fun j c' hc' hr => ?_⟩, k2, fun q => ?_⟩
    · by_cases hj : j = i
      · subst hj
        simp only [List.getElem?_set_self hlt, Option.some.injEq] at hc'
        subst hc'
        simpa using k1
      · rw [Function.update_of_ne hj]
        exact h.holds j c' (by rwa [List.getElem?_set_ne (Ne.symm hj)] at hc')
    · by_cases hj : j = i
      · subst hj
        simp only [List.getElem?_set_self hlt, Option.some.injEq] at hc'
        subst hc'
        exact absurd hn hr
      · rw [Function.update_of_ne hj]
        exact h.returned j c' (by rwa [List.getElem?_set_ne (Ne.symm hj)] at hc') hr
    · have hsum := sum_range_update n i n' q hlt
      have hle : n i q ≤ ∑ j ∈ Finset.range s.calls.length, n j q :=
        Finset.single_le_sum (f := fun j => n j q) (fun _ _ => Nat.zero_le _) (Finset.mem_range.2 hlt)
      rw [List.length_set]
      rcases k3 q with e | ⟨e1, e2, e3⟩ | ⟨e1, e2, e3⟩
      · exact .inl (by dsimp only; omega)
      · exact .inr (.inl ⟨e1, e2, by omega⟩)
      · exact .inr (.inr ⟨e1, e2, by omega⟩)
  | ret i c r hc hn hd =>
    have hlt := (List.getElem?_eq_some_iff.1 hc).1
    refine ⟨n, ⟨fun j c' hc' => ?_, fun j c' hc' hr => ?_⟩, rfl, fun q => ?_⟩
    · by_cases hj : j = i
      · subst hj
        simp only [List.getElem?_set_self hlt, Option.some.injEq] at hc'
        subst hc'
        exact h.holds j c hc
      · exact h.holds j c' (by rwa [List.getElem?_set_ne (Ne.symm hj)] at hc')
    · by_cases hj : j = i
      · subst hj
        exact (h.holds j c hc).later (by rw [hd]; simp)
      · exact h.returned j c' (by rwa [List.getElem?_set_ne (Ne.symm hj)] at hc') hr
    · rw [List.length_set]; exact .refl ..

/-- Calls that have not returned bound the buffers in hand. -/
theorem ProgHolds.sum_le {s : Program} {n : Nat → PoolId → Nat} (h : ProgHolds s n) (q : PoolId) :
    ∑ i ∈ Finset.range s.calls.length, n i q ≤ atMost q * (s.calls.countP fun c => c.returned.isNone) := by
  obtain ⟨shared, known, calls⟩ := s
  have key : ∀ (l : List CallState) (f : Nat → PoolId → Nat),
      (∀ i c, l[i]? = some c → f i q ≤ atMost q ∧ (c.returned ≠ none → f i q = 0)) →
      ∑ i ∈ Finset.range l.length, f i q ≤ atMost q * (l.countP fun c => c.returned.isNone) := by
    intro l
    induction l with
    | nil => intro f _; simp
    | cons c l ih =>
      intro f hf
      rw [List.length_cons, Finset.sum_range_succ', List.countP_cons, Nat.mul_add]
      refine Nat.add_le_add (ih (fun i => f (i + 1)) fun i c hc => hf (i + 1) c (by simpa using hc)) ?_
      obtain ⟨h1, h2⟩ := hf 0 c rfl
      cases hc : c.returned with
      | none => simpa using h1
      | some r => simp [h2 (by simp [hc])]
  exact key calls n fun i c hc => ⟨(h.holds i c hc).le q, fun hr => by rw [h.returned i c hc hr]; rfl⟩

end Verif.Proofs.Own
