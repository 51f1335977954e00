import Verif.Proofs.Leak
import Verif.Proofs.Split
import Verif.Proofs.CombineAlg

/-! # Comparing what two runs show -/

namespace Verif.Leak
open Verif Outcome Galois Pool Proofs Spec

/-- If both runs succeed, they show the same up to the entries of tables, exactly the same if and only if `K`, and the results
are related by `L`. -/
def Both {α β : Type} (K : Prop) (L : α → β → Prop) (x : Traced α) (y : Traced β) : Prop :=
  ∀ a b, x.out = ok a → y.out = ok b →
    x.trace.map Ev.hide = y.trace.map Ev.hide ∧ (x.trace = y.trace ↔ K) ∧ L a b

theorem Both.weaken {α β : Type} {K K' : Prop} {L L' : α → β → Prop} {x : Traced α} {y : Traced β} (h : Both K L x y)
    (hK : K ↔ K') (hL : ∀ a b, x.out = ok a → y.out = ok b → L a b → L' a b) : Both K' L' x y := fun a b ha hb =>
  let ⟨h1, h2, h3⟩ := h a b ha hb
  ⟨h1, h2.trans hK, hL a b ha hb h3⟩

theorem trace_bind {α β : Type} (x : Traced α) (f : α → Traced β) {a : α} (h : x.out = ok a) :
    (x >>= f).trace = x.trace ++ (f a).trace := by
  show x.trace ++ _ = _
  rw [h]

theorem Both.bind {α β γ δ : Type} {K K' : Prop} {L : α → β → Prop} {M : γ → δ → Prop} {x : Traced α} {y : Traced β}
    {f : α → Traced γ} {g : β → Traced δ} (h : Both K L x y)
    (hfg : ∀ a b, x.out = ok a → y.out = ok b → L a b → Both K' M (f a) (g b)) : Both (K ∧ K') M (x >>= f) (y >>= g) := by
  intro c d hc hd
  simp only [out_bind] at hc hd
  obtain ⟨a, ha, hc⟩ := bind_eq_ok.1 hc
  obtain ⟨b, hb, hd⟩ := bind_eq_ok.1 hd
  obtain ⟨h1, h2, h3⟩ := h a b ha hb
  obtain ⟨g1, g2, g3⟩ := hfg a b ha hb h3 c d hc hd
  rw [trace_bind x f ha, trace_bind y g hb]
  refine ⟨by rw [List.map_append, List.map_append, h1, g1], ?_, g3⟩
  have hl : x.trace.length = y.trace.length := by simpa using congrArg List.length h1
  constructor
  · intro h
    obtain ⟨e1, e2⟩ := List.append_inj h hl
    exact ⟨h2.1 e1, g2.1 e2⟩
  · rintro ⟨k1, k2⟩
    rw [h2.2 k1, g2.2 k2]

/-- The first part shows nothing that depends on data. -/
theorem Both.same {α β γ δ : Type} {K : Prop} {L : α → β → Prop} {M : γ → δ → Prop} {x : Traced α} {y : Traced β}
    {f : α → Traced γ} {g : β → Traced δ} (h : Both True L x y)
    (hfg : ∀ a b, x.out = ok a → y.out = ok b → L a b → Both K M (f a) (g b)) : Both K M (x >>= f) (y >>= g) :=
  (h.bind hfg).weaken (by simp) fun _ _ _ _ h => h

theorem both_pure {α β : Type} {L : α → β → Prop} {a : α} {b : β} (h : L a b) :
    Both True L (pure a : Traced α) (pure b : Traced β) := by
  intro a' b' ha hb
  cases ha; cases hb
  exact ⟨rfl, by simp [pure], h⟩

theorem both_shows {α β : Type} (e : Ev) (o : Outcome α) (o' : Outcome β) :
    Both True (fun _ _ => True) (shows e o) (shows e o') := fun _ _ _ _ => ⟨rfl, by simp [shows], trivial⟩

theorem both_table {α β : Type} {e e' : Ev} (h : e.hide = e'.hide) (o : Outcome α) (o' : Outcome β) :
    Both (e = e') (fun _ _ => True) (shows e o) (shows e' o') := fun _ _ _ _ =>
  ⟨by simp [shows, h], by simp [shows], trivial⟩

theorem both_quiet {α β : Type} (o : Outcome α) (o' : Outcome β) : Both True (fun _ _ => True) (quiet o) (quiet o') :=
  fun _ _ _ _ => ⟨rfl, by simp [quiet], trivial⟩

/-- A run that fails need not be considered. -/
theorem both_fails {α β : Type} {K : Prop} {L : α → β → Prop} {x : Traced α} {y : Traced β} (h : ∀ a, x.out ≠ ok a) :
    Both K L x y := fun a _ ha => absurd ha (h a)

theorem Both.refl {α : Type} (x : Traced α) : Both True Eq x x := fun a b ha hb =>
  ⟨rfl, by simp, Outcome.ok.inj (ha.symm.trans hb)⟩

/-- A condition that holds in both runs or in neither. -/
theorem both_test {α β : Type} {K : Prop} {L : α → β → Prop} (c c' : Prop) [Decidable c] [Decidable c'] (hc : c ↔ c')
    {f : Bool → Traced α} {g : Bool → Traced β} (h : Both K L (f (decide c)) (g (decide c))) :
    Both K L (test c >>= f) (test c' >>= g) := by
  have : decide c' = decide c := by simp [hc]
  refine Both.same (L := fun a b => a = decide c ∧ b = decide c) ?_ ?_
  · intro a b ha hb
    cases ha; cases hb
    exact ⟨by simp [test, this], by simp [test, this], rfl, this⟩
  · rintro _ _ _ _ ⟨rfl, rfl⟩
    exact h

theorem both_iterUp {σ τ : Type} {n : Nat} {body : Nat → σ → Traced σ} {body' : Nat → τ → Traced τ} {s : σ} {t : τ}
    (K : Nat → Prop) (P : Nat → σ → τ → Prop) (h0 : P 0 s t)
    (h : ∀ i < n, ∀ s t, P i s t → Both (K i) (P (i + 1)) (body i s) (body' i t)) :
    Both (∀ i < n, K i) (P n) (iterUp n body s) (iterUp n body' t) := by
  induction n with
  | zero => exact (both_pure h0).weaken (by simp) fun _ _ _ _ h => h
  | succ n ih =>
    refine ((ih fun i hi => h i (by omega)).bind fun a b _ _ hP => h n (by omega) a b hP).weaken ?_ fun _ _ _ _ h => h
    constructor
    · rintro ⟨h1, h2⟩ i hi
      rcases Nat.lt_succ_iff_lt_or_eq.1 hi with hi | rfl
      · exact h1 i hi
      · exact h2
    · intro h
      exact ⟨fun i hi => h i (by omega), h n (by omega)⟩

theorem both_iterDown {σ τ : Type} {n : Nat} {body : Nat → σ → Traced σ} {body' : Nat → τ → Traced τ} {s : σ} {t : τ}
    (K : Nat → Prop) (P : Nat → σ → τ → Prop) (h0 : P n s t)
    (h : ∀ i < n, ∀ s t, P (i + 1) s t → Both (K i) (P i) (body i s) (body' i t)) :
    Both (∀ i < n, K i) (P 0) (iterDown n body s) (iterDown n body' t) := by
  induction n generalizing s t with
  | zero => exact (both_pure h0).weaken (by simp) fun _ _ _ _ h => h
  | succ n ih =>
    refine ((h n (by omega) s t h0).bind fun a b _ _ hP => ih hP fun i hi => h i (by omega)).weaken ?_ fun _ _ _ _ h => h
    constructor
    · rintro ⟨h2, h1⟩ i hi
      rcases Nat.lt_succ_iff_lt_or_eq.1 hi with hi | rfl
      · exact h1 i hi
      · exact h2
    · intro h
      exact ⟨h n (by omega), fun i hi => h i (by omega)⟩

theorem both_forUp {σ τ : Type} {n n' : Nat} (hn : n = n') {body : Nat → σ → Traced σ} {body' : Nat → τ → Traced τ} {s : σ} {t : τ}
    (K : Nat → Prop) (P : Nat → σ → τ → Prop) (h0 : P 0 s t)
    (h : ∀ i < n, ∀ s t, P i s t → Both (K i) (P (i + 1)) (body i s) (body' i t)) :
    Both (∀ i < n, K i) (P n) (forUp n body s) (forUp n' body' t) := by
  subst hn
  exact (both_shows _ _ _).same fun _ _ _ _ _ => both_iterUp K P h0 h

theorem both_forDown {σ τ : Type} {n n' : Nat} (hn : n = n') {body : Nat → σ → Traced σ} {body' : Nat → τ → Traced τ} {s : σ} {t : τ}
    (K : Nat → Prop) (P : Nat → σ → τ → Prop) (h0 : P n s t)
    (h : ∀ i < n, ∀ s t, P (i + 1) s t → Both (K i) (P i) (body i s) (body' i t)) :
    Both (∀ i < n, K i) (P 0) (forDown n body s) (forDown n' body' t) := by
  subst hn
  exact (both_shows _ _ _).same fun _ _ _ _ _ => both_iterDown K P h0 h

/-- The loop shows nothing that depends on data. -/
theorem both_forUp' {σ τ : Type} {n n' : Nat} (hn : n = n') {body : Nat → σ → Traced σ} {body' : Nat → τ → Traced τ} {s : σ} {t : τ}
    (P : Nat → σ → τ → Prop) (h0 : P 0 s t)
    (h : ∀ i < n, ∀ s t, P i s t → Both True (P (i + 1)) (body i s) (body' i t)) :
    Both True (P n) (forUp n body s) (forUp n' body' t) :=
  (both_forUp hn (fun _ => True) P h0 h).weaken (by simp) fun _ _ _ _ h => h

end Verif.Leak
