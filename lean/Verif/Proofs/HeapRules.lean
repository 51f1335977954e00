import Verif.Proofs.Heap
import Verif.Proofs.Split

/-! # Rules of the ownership logic for loops and block accesses -/

namespace Verif.Proofs.Own
open Verif Outcome Verif.Heap

variable {σ : Type} {R : Set Loc}

theorem wp_forUp {n : Nat} {body : Nat → σ → Prog σ} {s : σ} (I : Nat → Post σ) {W : Set Loc} {h : HeapF}
    {log : List Byte} (h0 : I 0 s W h log)
    (hs : ∀ i < n, ∀ s W h log, I i s W h log → wp R (body i s) (I (i + 1)) W h log) :
    wp R (Prog.forUp n body s) (I n) W h log := by
  induction n with
  | zero => exact h0
  | succ n ih =>
    refine wp_bind _ _ _ _ _ ?_
    refine wp_mono ?_ _ _ _ _ (ih fun i hi => hs i (Nat.lt_succ_of_lt hi))
    intro a W h log hI
    exact hs n (Nat.lt_succ_self n) a W h log hI

theorem wp_forDown {n : Nat} {body : Nat → σ → Prog σ} {s : σ} (I : Nat → Post σ) {W : Set Loc} {h : HeapF}
    {log : List Byte} (h0 : I n s W h log)
    (hs : ∀ i < n, ∀ s W h log, I (i + 1) s W h log → wp R (body i s) (I i) W h log) :
    wp R (Prog.forDown n body s) (I 0) W h log := by
  induction n generalizing s W h log with
  | zero => exact h0
  | succ n ih =>
    refine wp_bind _ _ _ _ _ ?_
    refine wp_mono ?_ _ _ _ _ (hs n (Nat.lt_succ_self n) _ _ _ _ h0)
    intro a W h log hI
    exact ih hI fun i hi => hs i (Nat.lt_succ_of_lt hi)

theorem getD_of_getElem? {l : List Byte} {i : Nat} (h : i < l.length) : l[i]? = some (l.getD i 0) := by
  rw [List.getD_eq_getElem?_getD, List.getElem?_eq_getElem h]; rfl

theorem getD_set (l : List Byte) (i k : Nat) (v : Byte) :
    (l.set i v).getD k 0 = if i = k ∧ k < l.length then v else l.getD k 0 := by
  rw [List.getD_eq_getElem?_getD, List.getElem?_set, List.getD_eq_getElem?_getD]
  by_cases h : i = k
  · subst h
    by_cases h' : i < l.length
    · simp [h']
    · simp [h']
  · simp [h]

/-- The `n` bytes of `l` from position `off`. -/
def window (l : List Byte) (off n : Nat) : List Byte := (List.range n).map fun i => l.getD (off + i) 0

@[simp] theorem length_window (l : List Byte) (off n : Nat) : (window l off n).length = n := by simp [window]

theorem wp_readAll {a : Arr} {off n : Nat} {Q : Post (List Byte)} {W : Set Loc} {h : HeapF} {log : List Byte}
    (ho : ∀ i < n, (a, off + i) ∈ W ∪ R) (hl : off + n ≤ (h a).length) (hQ : Q (window (h a) off n) W h log) :
    wp R (Prog.readAll a off n) Q W h log := by
  refine wp_mono ?_ _ _ _ _ (wp_forUp (fun i l W' h' log' => l = window (h a) off i ∧ W' = W ∧ h' = h ∧ log' = log)
    ⟨rfl, rfl, rfl, rfl⟩ ?_)
  · rintro l W' h' log' ⟨rfl, rfl, rfl, rfl⟩; exact hQ
  · rintro i hi l W' h' log' ⟨rfl, rfl, rfl, rfl⟩
    refine ⟨ho i hi, _, getD_of_getElem? (lt_of_lt_of_le (Nat.add_lt_add_left hi _) hl), ?_⟩
    refine ⟨?_, rfl, rfl, rfl⟩
    simp [window, List.range_succ]

theorem writeAt_snoc (l w : List Byte) (off : Nat) (v : Byte) (h : off + w.length < l.length) :
    (writeAt l off w).set (off + w.length) v = writeAt l off (w ++ [v]) := by
  have e : (writeAt l off w) = (l.take off ++ w) ++ l.drop (off + w.length) := rfl
  have hlen : (l.take off ++ w).length = off + w.length := by simp; omega
  rw [e, List.set_append_right _ _ (by omega), hlen, Nat.sub_self,
    List.drop_eq_getElem_cons h, List.set_cons_zero]
  simp [writeAt, Nat.add_assoc]

theorem wp_writeAll {a : Arr} {off : Nat} {l : List Byte} {Q : Post Unit} {W : Set Loc} {h : HeapF} {log : List Byte}
    (ho : ∀ i < l.length, (a, off + i) ∈ W) (hl : off + l.length ≤ (h a).length)
    (hQ : Q () W (Function.update h a (writeAt (h a) off l)) log) :
    wp R (Prog.writeAll a off l) Q W h log := by
  refine wp_mono ?_ _ _ _ _ (wp_forUp
    (fun i _ W' h' log' => W' = W ∧ h' = Function.update h a (writeAt (h a) off (l.take i)) ∧ log' = log)
    ⟨rfl, ?_, rfl⟩ ?_)
  · rintro _ W' h' log' ⟨rfl, rfl, rfl⟩
    rw [List.take_length]; exact hQ
  · have : writeAt (h a) off (l.take 0) = h a := by simp [writeAt]
    rw [this, Function.update_eq_self]
  · rintro i hi _ W' h' log' ⟨rfl, rfl, rfl⟩
    have hti : (l.take i).length = i := by simp; omega
    refine ⟨ho i hi, ?_, rfl, ?_, rfl⟩
    · rw [Function.update_self, length_writeAt] <;> omega
    · rw [Function.update_self, Function.update_idem]
      congr 1
      have := writeAt_snoc (h a) (l.take i) off (l.getD i 0) (by omega)
      rw [hti] at this
      rw [this, List.take_succ, getD_of_getElem? hi]; rfl

theorem getD_writeAt (l w : List Byte) (off k : Nat) (h : off + w.length ≤ l.length) :
    (writeAt l off w).getD k 0 = if off ≤ k ∧ k < off + w.length then w.getD (k - off) 0 else l.getD k 0 := by
  unfold writeAt
  have h1 : (l.take off).length = off := by simp; omega
  simp only [List.getD_eq_getElem?_getD]
  by_cases ha : k < off
  · rw [List.append_assoc, List.getElem?_append_left (by omega), List.getElem?_take, if_pos ha,
      if_neg (by omega)]
  · by_cases hb : k < off + w.length
    · rw [if_pos ⟨by omega, hb⟩, List.getElem?_append_left (by simp; omega),
        List.getElem?_append_right (by omega), h1]
    · rw [if_neg (by omega), List.getElem?_append_right (by simp; omega), List.getElem?_drop]
      congr 2
      simp; omega

theorem window_writeAt_self (l w : List Byte) (off : Nat) (h : off + w.length ≤ l.length) :
    window (writeAt l off w) off w.length = w := by
  unfold window
  rw [← List.map_id w]
  conv_rhs => rw [← range_map_getElem w id 0]
  rw [List.length_map]
  simp only [List.map_id]
  apply List.map_congr_left
  intro i hi
  have hi : i < w.length := by simpa using hi
  rw [getD_writeAt _ _ _ _ h, if_pos ⟨by omega, by omega⟩]
  simp

/-- `h'` is `h` on every array that has a cell in `S`. -/
def Frame (S : Set Loc) (h h' : HeapF) : Prop := ∀ b, ¬ Fresh S b → h' b = h b

theorem Frame.refl (S : Set Loc) (h : HeapF) : Frame S h h := fun _ _ => rfl

theorem Frame.trans {S : Set Loc} {h1 h2 h3 : HeapF} (a : Frame S h1 h2) (b : Frame S h2 h3) : Frame S h1 h3 :=
  fun x hx => (b x hx).trans (a x hx)

theorem Frame.mono {S S' : Set Loc} {h1 h2 : HeapF} (a : Frame S h1 h2) (hs : S' ⊆ S) : Frame S' h1 h2 :=
  fun x hx => a x fun hf => hx (hf.mono hs)

theorem frame_update {S : Set Loc} {a : Arr} (h : HeapF) (l : List Byte) (hf : Fresh S a) :
    Frame S h (Function.update h a l) := by
  intro b hb
  rw [Function.update_of_ne]
  rintro rfl; exact hb hf

theorem not_fresh_own {a : Arr} {S : Set Loc} (h : own a ⊆ S) : ¬ Fresh S a := fun hf => hf 0 (h rfl)

theorem not_fresh_mem {a : Arr} {i : Nat} {S : Set Loc} (h : (a, i) ∈ S) : ¬ Fresh S a := fun hf => hf i h

end Verif.Proofs.Own
