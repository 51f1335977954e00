import Verif.Spec.SplitP
import Verif.Proofs.HeapCalls

/-! # The goroutines of SplitP meet their specification -/

namespace Verif.Proofs.Own
open Verif Outcome Galois Shamir Spec Pool Csprng Verif.Heap

variable {R : Set Loc}

theorem evaluate_eq {cs : List Byte} (hcs : cs ≠ []) (x : Byte) : evaluate cs x = ok (evalC cs x) := by
  have hpos := List.length_pos_iff.2 hcs
  unfold evaluate
  by_cases hx : x = 0
  · subst hx
    rw [if_pos rfl, evalC_zero hcs]
    unfold idx
    rw [getD_of_getElem? hpos]
  · rw [if_neg hx, if_neg (by omega)]
    simp only [pure_eq, ok_bind]
    have htop : idx cs (cs.length - 1) = ok (cs.getD (cs.length - 1) 0) := by
      unfold idx; rw [getD_of_getElem? (by omega)]
    rw [htop, ok_bind]
    have key := horner (N := 1) (d := cs.length - 1) (fun k _ => cs.getD k 0) x
      (fun i l => ok [cs.getD i 0 ^^^ mulSpec x (l.getD 0 0)]) (by intro i _ g; simp)
    have h2 : ∀ n ≤ cs.length - 1, ∀ b : Byte, ∀ r, Verif.forDown n (fun i l => ok [cs.getD i 0 ^^^ mulSpec x (l.getD 0 0)]) [b] = ok [r] →
        Verif.forDown n (fun i out => do
          let coeff ← idx cs i
          ok (galAdd (galMultiply out x) coeff)) b = ok r := by
      intro n
      induction n with
      | zero => intro _ b r h; simpa [Verif.forDown] using h
      | succ n ih =>
        intro hn b r h
        simp only [Verif.forDown, ok_bind] at h ⊢
        have : idx cs n = ok (cs.getD n 0) := by
          unfold idx; rw [getD_of_getElem? (by omega)]
        rw [this, ok_bind, ok_bind]
        refine ih (by omega) _ _ ?_
        rw [← h]
        congr 2
        simp only [List.getD_cons_zero]
        rw [galMultiply_eq, mulSpec_comm]
        unfold galAdd
        exact BitVec.xor_comm _ _
    refine h2 _ le_rfl _ _ ?_
    have e : cs.length - 1 + 1 = cs.length := by omega
    simp only [List.range_one, List.map_cons, List.map_nil, e] at key
    rw [key, evalC_eq]

/-- A random polynomial. -/
theorem wp_makePolynomialP {val degree : Byte} (hd : degree ≠ 255#8) {Q : Post (List Byte)} {W : Set Loc} {h : HeapF}
    {log : List Byte} (hQ : ∀ rs : List Byte, rs.length = degree.toNat → Q (val :: rs) W h (log ++ rs)) :
    wp R (makePolynomialP val degree) Q W h log := by
  unfold makePolynomialP
  refine wp_bind _ _ _ _ _ ?_
  refine wp_mono ?_ _ _ _ _ (wp_forUp (fun i l W' h' log' => l.length = i ∧ W' = W ∧ h' = h ∧ log' = log ++ l)
    ⟨rfl, rfl, rfl, by simp⟩ ?_)
  · rintro rs W' h' log' ⟨hl, rfl, rfl, rfl⟩
    have hd1 : (degree + 1).toNat = degree.toNat + 1 := by
      have : degree.toNat ≠ 255 := fun e => hd (BitVec.eq_of_toNat_eq (by simpa using e))
      have := degree.isLt
      rw [BitVec.toNat_add, show BitVec.toNat (1 : Byte) = 1 from rfl]
      omega
    have : makePolynomial val degree (fun k => rs.getD k 0) 0 = ok (val :: rs) := by
      unfold makePolynomial
      rw [hd1, List.replicate_succ]
      simp only [setIdx, List.length_cons, List.length_replicate, List.set_cons_zero, slice, pure_eq]
      rw [if_pos (by omega), ok_bind]
      simp only [List.length_cons, List.length_replicate]
      rw [if_pos (by omega), ok_bind]
      congr 1
      simp only [writeAt, randRead, List.drop_succ_cons, List.drop_zero, Nat.add_sub_cancel, List.take_succ_cons,
        List.take_zero, List.length_take, List.length_replicate, List.length_map, List.length_range]
      have e : ((List.range (min degree.toNat degree.toNat)).map fun k => rs.getD (0 + k) 0) = rs := by
        rw [Nat.min_self, ← hl]
        apply List.ext_getElem?
        intro i
        by_cases hi : i < rs.length
        · simp [hi, List.getD_eq_getElem?_getD]
        · simp [List.getElem?_eq_none (Nat.le_of_not_lt hi), Nat.le_of_not_lt hi]
      rw [e]
      simp
    rw [this]
    exact hQ rs hl
  · rintro i _ l W' h' log' ⟨hl, rfl, rfl, rfl⟩
    intro v
    exact ⟨by simp [hl], rfl, rfl, by simp⟩

/-- The slice headers of the outputs. -/
def outSlices (arrs : List Arr) (N : Nat) : List Slice := arrs.map fun a => ⟨a, 0, N + 1, N + 1⟩

/-- x coordinate of output `k`. -/
def xTag (perm : List Nat) (k : Nat) : Byte := BitVec.ofNat 8 (perm.getD k 0) + 1#8

/-- `uint8(threshold-1)` -/
theorem degree_facts {threshold : Int} (h1 : 2 ≤ threshold) (h2 : threshold ≤ 255) :
    BitVec.ofInt 8 (threshold - 1) ≠ 255#8 ∧ (BitVec.ofInt 8 (threshold - 1)).toNat = threshold.toNat - 1 := by
  have : (BitVec.ofInt 8 (threshold - 1)).toNat = threshold.toNat - 1 := by
    rw [ofInt_toNat (by omega) (by omega)]; omega
  refine ⟨fun e => ?_, this⟩
  rw [e] at this
  simp at this; omega

/-- What the goroutine for the bytes from `start` to `stop` has achieved after `c` of them. -/
def Achieved (bs : List Byte) (t : Nat) (perm : List Nat) (arrs : List Arr) (start : Nat) (c : Nat) (h : HeapF)
    (log : List Byte) : Prop :=
  log.length = c * (t - 1) ∧
  ∀ q < c, ∀ k a, arrs[k]? = some a →
    (h a)[start + q]? = some (evalC (bs.getD (start + q) 0 :: (List.range (t - 1)).map fun l => log.getD (q * (t - 1) + l) 0)
      (xTag perm k))

theorem wp_workerP {secret : Slice} {bs : List Byte} {parts threshold : Int} {perm : List Nat} {arrs : List Arr}
    {startIdx endIdx : BitVec 32} {W : Set Loc} {h : HeapF} {Q : Post (Outcome (List Slice))}
    (h1 : 2 ≤ threshold) (h2 : threshold ≤ 255) (hperm : parts.toNat ≤ perm.length) (hparts : arrs.length = parts.toNat)
    (hnd : arrs.Nodup) (hend : endIdx.toNat ≤ secret.len)
    (hW : ∀ a ∈ arrs, ∀ q, startIdx.toNat ≤ q → q < endIdx.toNat → (a, q) ∈ W ∧ q < (h a).length)
    (hR : ∀ i < secret.len, (secret.arr, secret.off + i) ∈ R) (hRW : Disjoint W R)
    (hs : Shows secret bs h)
    (hQ : ∀ h' log', Achieved bs threshold.toNat perm arrs startIdx.toNat (endIdx.toNat - startIdx.toNat) h' log' →
      Q (ok []) W h' log') :
    wp R (workerP secret parts threshold perm (outSlices arrs secret.len) startIdx endIdx) Q W h [] := by
  obtain ⟨hd1, hd2⟩ := degree_facts h1 h2
  unfold workerP
  refine wp_bind _ _ _ _ _ ?_
  refine wp_mono ?_ _ _ _ _ (wp_forUp (fun i crt W' h' log' => W' = W ∧ crt.toNat = startIdx.toNat + i ∧
    Achieved bs threshold.toNat perm arrs startIdx.toNat i h' log' ∧
    (∀ a, (h' a).length = (h a).length) ∧ Agree R h h') ?_ ?_)
  · rintro crt W' h' log' ⟨rfl, -, ha, -⟩
    exact hQ h' log' ha
  · exact ⟨rfl, rfl, ⟨by simp, fun q hq => by omega⟩, fun _ => rfl, Agree.refl _ _⟩
  · rintro i hi crt W' h' log' ⟨rfl, hcrt, ⟨hll, hA⟩, hlen, hag⟩
    have hpos : startIdx.toNat + i < secret.len := by omega
    have hcell : (h' secret.arr)[secret.off + startIdx.toNat + i]? = some (bs.getD (startIdx.toNat + i) 0) := by
      rw [Nat.add_assoc, ← hag _ _ (hR _ hpos), ← hs.getD hpos]
      exact getD_of_getElem? (by have := hs.1; unfold InBounds at this; omega)
    refine ⟨Or.inr (by rw [Nat.add_assoc]; exact hR _ hpos), _, hcell, ?_⟩
    refine wp_bind _ _ _ _ _ (wp_makePolynomialP hd1 ?_)
    intro rs hrs
    rw [hd2] at hrs
    refine wp_bind _ _ _ _ _ ?_
    refine wp_mono ?_ _ _ _ _ (wp_forUp (fun n _ W'' h'' log'' => W'' = W' ∧ log'' = log' ++ rs ∧
      (∀ a, (h'' a).length = (h a).length) ∧ Agree R h h'' ∧
      (∀ a q, q ≠ startIdx.toNat + i → (h'' a)[q]? = (h' a)[q]?) ∧
      ∀ k < n, ∀ a, arrs[k]? = some a → (h'' a)[startIdx.toNat + i]? =
        some (evalC (bs.getD (startIdx.toNat + i) 0 :: rs) (xTag perm k))) ?_ ?_)
    · rintro _ W'' h'' log'' ⟨rfl, rfl, hlen'', hag'', hsame, hnew⟩
      refine ⟨rfl, ?_, ⟨?_, ?_⟩, hlen'', hag''⟩
      · rw [BitVec.toNat_add, hcrt]
        have := endIdx.isLt
        rw [show BitVec.toNat (1 : BitVec 32) = 1 from rfl]
        omega
      · rw [List.length_append, hll, hrs]; ring
      · intro q hq k a hk
        have hkl : k < parts.toNat := by
          rw [← hparts]; exact (List.getElem?_eq_some_iff.1 hk).1
        rcases Nat.lt_succ_iff_lt_or_eq.1 hq with hq | rfl
        · rw [hsame a _ (by omega), hA q hq k a hk]
          congr 3
          apply List.map_congr_left
          intro l hl
          have hl : l < threshold.toNat - 1 := by simpa using hl
          rw [List.getD_eq_getElem?_getD, List.getD_eq_getElem?_getD, List.getElem?_append_left]
          rw [hll]
          calc q * (threshold.toNat - 1) + l < q * (threshold.toNat - 1) + (threshold.toNat - 1) := by omega
            _ = (q + 1) * (threshold.toNat - 1) := by ring
            _ ≤ i * (threshold.toNat - 1) := Nat.mul_le_mul_right _ hq
        · rw [hnew k hkl a hk]
          congr 3
          rw [← hrs]
          apply List.ext_getElem?
          intro l
          by_cases hl : l < rs.length
          · simp only [List.getElem?_map, List.getElem?_range hl, Option.map_some]
            rw [List.getD_eq_getElem?_getD, hrs, ← hll, List.getElem?_append_right (by omega)]
            simp [hl]
          · simp [List.getElem?_eq_none (Nat.le_of_not_lt hl), Nat.le_of_not_lt hl]
    · exact ⟨rfl, rfl, hlen, hag, fun _ _ _ => rfl, fun k hk => by omega⟩
    · rintro n hn _ W'' h'' log'' ⟨rfl, rfl, hlen'', hag'', hsame, hnew⟩
      have hna : n < arrs.length := by omega
      have harr : arrs[n]? = some arrs[n] := List.getElem?_eq_getElem hna
      have hx : idx perm n = ok (perm.getD n 0) := by
        unfold idx
        rw [List.getD_eq_getElem?_getD, List.getElem?_eq_getElem (by omega)]; rfl
      have ho : idx (outSlices arrs secret.len) n = ok ⟨arrs[n], 0, secret.len + 1, secret.len + 1⟩ := by
        unfold idx outSlices
        simp [harr]
      rw [hx]
      refine wp_bind _ _ _ _ _ ?_
      show wp R (Prog.lift (evaluate (bs.getD (startIdx.toNat + i) 0 :: rs) (BitVec.ofNat 8 (perm.getD n 0) + 1#8)) >>= _) _ _ _ _
      rw [evaluate_eq (by simp)]
      refine wp_bind _ _ _ _ _ ?_
      rw [ho]
      refine wp_bind _ _ _ _ _ ?_
      show wp R (if crt.toNat < secret.len + 1 then _ else _) _ _ _ _
      rw [if_pos (by omega), hcrt]
      obtain ⟨hw, hl⟩ := hW _ (List.getElem_mem hna) (startIdx.toNat + i) (by omega) (by omega)
      refine ⟨by simpa using hw, by simpa [hlen''] using hl, rfl, rfl, ?_, ?_, ?_, ?_⟩
      · intro a
        by_cases e : a = arrs[n]
        · subst e; rw [Function.update_self, List.length_set, hlen'']
        · rw [Function.update_of_ne e, hlen'']
      · intro a q hm
        rw [hag'' a q hm]
        refine (agree_update_cell (S := R) h'' _ ?_) a q hm
        simp only [Nat.zero_add]
        exact fun hm' => Set.disjoint_left.1 hRW hw hm'
      · intro a q hq
        rw [← hsame a q hq]
        by_cases e : a = arrs[n]
        · subst e
          rw [Function.update_self, List.getElem?_set_ne (by simpa using Ne.symm hq)]
        · rw [Function.update_of_ne e]
      · intro k hk a hka
        rcases Nat.lt_succ_iff_lt_or_eq.1 hk with hk | rfl
        · have hne : a ≠ arrs[n] := by
            rintro rfl
            have := (List.getElem?_inj (List.getElem?_eq_some_iff.1 hka).1 hnd).1 (hka.trans harr.symm)
            omega
          rw [Function.update_of_ne hne]
          exact hnew k hk a hka
        · rw [harr] at hka
          cases hka
          rw [Function.update_self]
          simp only [Nat.zero_add]
          rw [List.getElem?_set_self (by rw [hlen'']; exact hl)]
          rfl

/-- What the sequential part of `SplitP` guarantees. -/
def SetupPost (secret : Slice) (bs : List Byte) (parts threshold : Int) (perm : List Nat) :
    Post (Outcome (List Slice)) := fun r W h _ =>
  match r with
  | .err e => argError bs parts threshold = some e
  | .ok outs => ValidArgs bs parts threshold ∧ ∃ arrs : List Arr, outs = outSlices arrs secret.len ∧ arrs.Nodup ∧
      arrs.length = parts.toNat ∧ ∀ k a, arrs[k]? = some a →
        own a ⊆ W ∧ h a = List.replicate secret.len 0 ++ [xTag perm k]
  | _ => False

theorem setupPost_stable {secret : Slice} {bs : List Byte} {parts threshold : Int} {perm : List Nat} :
    Stable R (SetupPost secret bs parts threshold perm) := by
  rintro r W h h' log hag hp
  cases r with
  | ok outs =>
    obtain ⟨hv, arrs, h1, h2, h3, h4⟩ := hp
    refine ⟨hv, arrs, h1, h2, h3, fun k a hk => ?_⟩
    obtain ⟨h5, h6⟩ := h4 k a hk
    exact ⟨h5, by rw [← agree_eq hag (sub_left h5)]; exact h6⟩
  | err e => exact hp
  | _ => exact hp

theorem wp_splitPSetup {secret : Slice} {bs : List Byte} {parts threshold : Int} {perm : List Nat}
    {W : Set Loc} {h : HeapF} (hperm : perm.Perm (List.range 255)) (hlen : bs.length = secret.len) :
    wp R (splitPSetup secret parts threshold perm) (SetupPost secret bs parts threshold perm) W h [] := by
  unfold splitPSetup
  rw [← hlen]
  refine wp_checkP (bs := bs) (fun e he => he) ?_
  intro hv
  rw [hlen]
  have hpl : parts.toNat ≤ perm.length := by
    rw [hperm.length_eq, List.length_range]; have := hv.2.1; omega
  refine wp_bind _ _ _ _ _ ?_
  refine wp_mono ?_ _ _ _ _ (wp_forUp (fun i outs W' h' _ => ∃ arrs : List Arr, outs = outSlices arrs secret.len ∧ arrs.Nodup ∧
      arrs.length = i ∧ ∀ k a, arrs[k]? = some a → own a ⊆ W' ∧ h' a = List.replicate secret.len 0 ++ [xTag perm k]) ?_ ?_)
  · rintro outs W' h' log' ⟨arrs, h1, h2, h3, h4⟩
    exact ⟨hv, arrs, h1, h2, h3, h4⟩
  · exact ⟨[], rfl, List.nodup_nil, rfl, by simp⟩
  · rintro i hi outs W' h' log' ⟨arrs, rfl, h2, h3, h4⟩
    intro a ha
    have hx : idx perm i = ok (perm.getD i 0) := by
      unfold idx
      rw [List.getD_eq_getElem?_getD, List.getElem?_eq_getElem (by omega)]; rfl
    rw [hx]
    refine wp_bind _ _ _ _ _ ?_
    have hnot : a ∉ arrs := by
      intro hm
      obtain ⟨k, hk, e⟩ := List.getElem_of_mem hm
      exact ha 0 (Or.inl ((h4 k a (by rw [List.getElem?_eq_getElem hk, e])).1 rfl))
    refine ⟨Or.inr rfl, by rw [Function.update_self]; simp, arrs ++ [a], by simp [outSlices], ?_, by simp [h3], ?_⟩
    · exact List.nodup_append.2 ⟨h2, by simp, by rintro b hb c hc rfl; exact hnot (by simpa [List.mem_singleton.1 hc] using hb)⟩
    · intro k b hk
      rcases Nat.lt_trichotomy k arrs.length with hkl | hkl | hkl
      · rw [List.getElem?_append_left hkl] at hk
        obtain ⟨h5, h6⟩ := h4 k b hk
        have hne : b ≠ a := by
          rintro rfl
          exact hnot (List.mem_of_getElem? hk)
        exact ⟨h5.trans Set.subset_union_left, by rw [Function.update_of_ne hne, Function.update_of_ne hne]; exact h6⟩
      · subst hkl
        simp at hk
        subst hk
        refine ⟨Set.subset_union_right, ?_⟩
        rw [Function.update_self, Function.update_self, List.replicate_succ', List.set_append_right _ _ (by simp)]
        simp [xTag, h3]
      · rw [List.getElem?_eq_none (by simp; omega)] at hk
        cases hk

end Verif.Proofs.Own
