import Verif.Spec.Errors
import Mathlib.Data.List.Perm.Subperm
import Mathlib.Tactic.Linarith

/-! # Corrupted shares -/

namespace Verif.Proofs
open Verif Outcome Spec

variable {α : Type} [DecidableEq α]

@[simp] theorem differences_nil (l : List α) : differences [] l = 0 := rfl

theorem differences_cons (a b : α) (l l' : List α) :
    differences (a :: l) (b :: l') = (if a = b then 0 else 1) + differences l l' := by
  unfold differences
  by_cases h : a = b <;> simp [h, Nat.add_comm]

theorem differences_self : ∀ l : List α, differences l l = 0
  | [] => rfl
  | a :: l => by rw [differences_cons, differences_self l, if_pos rfl]

theorem differences_le : ∀ l l' : List α, differences l l' ≤ l.length
  | [], _ => Nat.zero_le _
  | _ :: _, [] => Nat.zero_le _
  | a :: l, b :: l' => by
    rw [differences_cons, List.length_cons]
    have := differences_le l l'
    split <;> omega

theorem differences_append : ∀ (a b c d : List α), a.length = c.length →
    differences (a ++ b) (c ++ d) = differences a c + differences b d
  | [], b, [], d, _ => by simp
  | x :: a, b, y :: c, d, h => by
    rw [List.cons_append, List.cons_append, differences_cons, differences_cons, differences_append a b c d (by simpa using h)]
    omega

/-- Among the elements of a sublist of the received shares, all but `differences` many are those that were sent. -/
theorem honest_part : ∀ (received given sub : List α), received.length = given.length → sub.Sublist received →
    ∃ good : List α, good.Sublist sub ∧ good.Sublist given ∧ sub.length ≤ good.length + differences received given
  | [], given, sub, _, hs => ⟨[], List.nil_sublist _, List.nil_sublist _, by simp [List.sublist_nil.1 hs]⟩
  | a :: received, b :: given, sub, hl, hs => by
    have hl' : received.length = given.length := by simpa using hl
    rw [differences_cons]
    cases hs with
    | cons _ hs =>
      obtain ⟨g, h1, h2, h3⟩ := honest_part received given sub hl' hs
      exact ⟨g, h1, h2.trans (List.sublist_cons_self _ _), by omega⟩
    | cons_cons _ hs =>
      rename_i sub
      obtain ⟨g, h1, h2, h3⟩ := honest_part received given sub hl' hs
      by_cases hab : a = b
      · subst hab
        exact ⟨a :: g, h1.cons_cons a, h2.cons_cons a, by rw [if_pos rfl, List.length_cons, List.length_cons]; omega⟩
      · exact ⟨g, h1.trans (List.sublist_cons_self _ _), h2.trans (List.sublist_cons_self _ _), by
          rw [if_neg hab, List.length_cons]; omega⟩

/-- Whatever is combined by every choice from a big enough set of received shares is the secret. -/
theorem detect {combine : List (List Byte) → Outcome (List Byte)} {t : Int} (ht : 0 ≤ t) {shares given received : List (List Byte)}
    {secret : List Byte} (hc : ∀ sub, sub.Subperm shares → t ≤ sub.length → combine sub = ok secret) (hg : given.Subperm shares)
    (hl : received.length = given.length) {e : Nat} (he : differences received given ≤ e) {sub : List (List Byte)}
    (hs : sub.Sublist received) (hn : t + e ≤ sub.length) {v : List Byte} (hv : AllCombineTo combine t sub v) : v = secret := by
  obtain ⟨g, h1, h2, h3⟩ := honest_part received given sub hl hs
  have hgl : t.toNat ≤ g.length := by omega
  have hlen : ((g.take t.toNat).length : Int) = t := by rw [List.length_take, Nat.min_eq_left hgl]; omega
  have a := hv (g.take t.toNat) ((List.take_sublist _ _).trans h1) hlen
  have b := hc (g.take t.toNat) (((List.take_sublist _ _).trans h2).subperm.trans hg) (by omega)
  rw [a] at b
  exact Outcome.ok.inj b

theorem correct {combine : List (List Byte) → Outcome (List Byte)} {t : Int} (ht : 0 ≤ t) {shares given received : List (List Byte)}
    {secret : List Byte} (hc : ∀ sub, sub.Subperm shares → t ≤ sub.length → combine sub = ok secret) (hg : given.Subperm shares)
    (hl : received.length = given.length) {e : Nat} (he : differences received given ≤ e) (hn : t + 2 * e ≤ given.length) :
    Correctable combine t e received secret := by
  refine ⟨?_, fun sub v hs hlen hv => detect ht hc hg hl he hs (by omega) hv⟩
  obtain ⟨g, h1, h2, h3⟩ := honest_part received given received hl (List.Sublist.refl _)
  have hgl : (t + e).toNat ≤ g.length := by omega
  refine ⟨g.take (t + e).toNat, (List.take_sublist _ _).trans h1, by rw [List.length_take, Nat.min_eq_left hgl]; omega, ?_⟩
  intro c hc1 hc2
  exact hc c ((hc1.trans ((List.take_sublist _ _).trans h2)).subperm.trans hg) (by omega)

end Verif.Proofs
