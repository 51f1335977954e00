import Verif.Proofs.KrawczykCap
import Verif.Props.Krawczyk

/-! # C53: shares with spare capacity given to krawczyk.Combine

`caps` are the capacities of the shares that are not nil, `ssData.filterMap id` their bytes. -/

namespace Verif.Props
open Verif Outcome Galois Spec Proofs Csprng RS Krawczyk

/-- C53: what krawczyk.Combine does depends only on the bytes of the shares, except in one case: if the first malformed
share has 1 to 20 bytes, a capacity of at least 21 and a last byte above `parts`, it returns the error about the part-id,
where it panics without the spare capacity. -/
theorem C53_capacity (env : Env) (ssData : List (Option (List Byte))) (caps : List Nat) (parts threshold : Int)
    (hl : caps.length = (ssData.filterMap id).length)
    (hc : ∀ x ∈ (ssData.filterMap id).zip caps, x.1.length ≤ x.2) :
    (Krawczyk.combineCap env ssData caps parts threshold = Krawczyk.combine env ssData parts threshold ∧
      ¬ (kArgError ((ssData.headD none).getD []).length parts threshold = none ∧ 0 < parts ∧
        ∃ pre d c post, (ssData.filterMap id).zip caps = pre ++ (d, c) :: post ∧ (∀ x ∈ pre, WellFormed parts x.1) ∧
        0 < d.length ∧ d.length < 21 ∧ 21 ≤ c ∧ parts < partNo d)) ∨
    (Krawczyk.combineCap env ssData caps parts threshold = err .partIdTooLarge ∧
      Krawczyk.combine env ssData parts threshold = panic ∧
      (kArgError ((ssData.headD none).getD []).length parts threshold = none ∧ 0 < parts ∧
        ∃ pre d c post, (ssData.filterMap id).zip caps = pre ++ (d, c) :: post ∧ (∀ x ∈ pre, WellFormed parts x.1) ∧
        0 < d.length ∧ d.length < 21 ∧ 21 ≤ c ∧ parts < partNo d)) := by
  cases ssData with
  | nil => exact .inl ⟨rfl, by rintro ⟨-, -, pre, d, c, post, h, -⟩; simp at h⟩
  | cons d0 rest =>
    rw [kcombine_eq, kcombineCap_eq _ _ _ _ hl, List.headD_cons]
    cases ha : kArgError (d0.getD []).length parts threshold with
    | some e => exact .inl ⟨rfl, by rintro ⟨h, -⟩; cases h⟩
    | none =>
      have ⟨p1, p2, p3, p4, p5⟩ := kArgError_none.1 ha
      simp only []
      by_cases hneg : parts < 0
      · rw [if_pos hneg, if_pos hneg]
        exact .inl ⟨rfl, by rintro ⟨-, h, -⟩; omega⟩
      · rw [if_neg hneg, if_neg hneg]
        have hp : 0 < parts := by omega
        rcases findSome_cap hp _ caps hl hc with ⟨h1, h2⟩ | ⟨h1, h2, h3⟩
        · rw [h1]; exact .inl ⟨rfl, fun h => h2 h.2.2⟩
        · rw [h1, h2]; exact .inr ⟨rfl, rfl, trivial, hp, h3⟩

/-- C53: in particular a secret is returned, and which one, independently of the capacities. -/
theorem C53_capacity_ok (env : Env) (ssData : List (Option (List Byte))) (caps : List Nat) (parts threshold : Int)
    (hl : caps.length = (ssData.filterMap id).length)
    (hc : ∀ x ∈ (ssData.filterMap id).zip caps, x.1.length ≤ x.2) (secret : List Byte) :
    Krawczyk.combineCap env ssData caps parts threshold = ok secret ↔
      Krawczyk.combine env ssData parts threshold = ok secret := by
  rcases C53_capacity env ssData caps parts threshold hl hc with ⟨h, -⟩ | ⟨h1, h2, -⟩
  · rw [h]
  · rw [h1, h2]; simp

/-- C53: both cases occur: a share of one byte, 9, for 3 parts, with capacity 1 and with capacity 21. -/
example : Krawczyk.combineCap exEnv [some [9]] [1] 3 2 = panic ∧
    Krawczyk.combineCap exEnv [some [9]] [21] 3 2 = err .partIdTooLarge := by
  constructor
  · rcases C53_capacity exEnv [some [9]] [1] 3 2 rfl (by simp) with ⟨h, -⟩ | ⟨-, -, -, -, pre, d, c, post, h, -, -, -, h2, -⟩
    · rw [h]
      exact (C40_panics_iff _ _ _ _).2 (Or.inr ⟨by decide, Or.inr ⟨[], [9], [], rfl, by simp, Or.inl (by simp)⟩⟩)
    · have : (d, c) ∈ [(([9] : List Byte), 1)] := by
        rw [show [(([9] : List Byte), 1)] = (List.filterMap id [some [(9 : Byte)]]).zip [1] from rfl, h]; simp
      simp at this
      omega
  · rcases C53_capacity exEnv [some [9]] [21] 3 2 rfl (by simp) with ⟨-, h⟩ | ⟨h, -⟩
    · exact absurd ⟨by decide, by omega, [], [9], 21, [], rfl, by simp, by simp, by simp, by omega, by decide⟩ h
    · exact h

/-- C53: shares cut out of larger arrays give the same secret. -/
example (a b : List Byte) (ha : a.length = 30) (hb : b.length = 30) (secret : List Byte)
    (h : Krawczyk.combine exEnv [some a, none, some b] 3 2 = ok secret) :
    Krawczyk.combineCap exEnv [some a, none, some b] [30, 100] 3 2 = ok secret :=
  (C53_capacity_ok exEnv [some a, none, some b] [30, 100] 3 2 rfl (by
    intro x hx
    have hx : x ∈ [(a, 30), (b, 100)] := hx
    simp only [List.mem_cons, List.not_mem_nil, or_false] at hx
    rcases hx with rfl | rfl <;> simp only <;> omega) secret).2 h

end Verif.Props
