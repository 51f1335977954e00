import Verif.Proofs.HeapRules
import Verif.Proofs.SplitMatrix
import Verif.Spec.Heap

/-! # The Split program satisfies its specification under the ownership discipline -/

namespace Verif.Proofs.Own
open Verif Outcome Galois Shamir Spec Verif.Heap

variable {R : Set Loc}

theorem sub_left {S T U : Set Loc} (h : S ⊆ T) : S ⊆ T ∪ U := fun _ hx => Or.inl (h hx)

/-- `Grow` on a buffer nobody else (`S`) knows. -/
theorem wp_grow {S : Set Loc} {a : Arr} {cap n : Nat} {Q : Post Arr} {W : Set Loc} {h : HeapF} {log : List Byte}
    (ho : own a ⊆ W) (hcap : cap = (h a).length) (hf : Fresh S a) (hS : S ⊆ W ∪ R)
    (hQ : ∀ a' W' h', W ⊆ W' → own a' ⊆ W' → Fresh S a' → n ≤ (h' a').length → Frame S h h' → Q a' W' h' log) :
    wp R (grow a cap n) Q W h log := by
  unfold grow
  split
  · rename_i hc
    exact hQ a W h (fun _ hx => hx) ho hf (hcap ▸ hc) (Frame.refl _ _)
  · split
    · rename_i hc
      intro b hb
      refine hQ b _ _ Set.subset_union_left Set.subset_union_right (hb.mono hS) ?_ (frame_update _ _ (hb.mono hS))
      rw [Function.update_self, List.length_replicate]; exact hc.2
    · intro b hb
      refine hQ b _ _ Set.subset_union_left Set.subset_union_right (hb.mono hS) ?_ (frame_update _ _ (hb.mono hS))
      rw [Function.update_self, List.length_replicate]; exact Nat.le_add_left _ _

/-- `MulConstVector` on an array of the thread. -/
theorem wp_mulP {arch : Arch} {x : Byte} {S : Set Loc} {a : Arr} {N : Nat} {Q : Post Arr} {W : Set Loc} {h : HeapF}
    {log : List Byte} (ho : own a ⊆ W) (hl : N ≤ (h a).length) (hf : Fresh S a) (hS : S ⊆ W ∪ R)
    (hQ : ∀ a' W' h', W ⊆ W' → own a' ⊆ W' → Fresh S a' → N ≤ (h' a').length → Frame S h h' →
      window (h' a') 0 N = (window (h a) 0 N).map (mulSpec x) → Q a' W' h' log) :
    wp R (mulP arch x a N) Q W h log := by
  have key : ∀ (W' : Set Loc) (h' : HeapF) (d : Arr), W ⊆ W' → own d ⊆ W' → Fresh S d → N ≤ (h' d).length →
      Frame S h h' → wp R (Prog.writeAll d 0 ((window (h a) 0 N).map (mulSpec x)) >>= fun _ => Prog.ret d) Q W' h' log := by
    intro W' h' d hW hd hfd hl' hfr
    refine wp_bind _ _ _ _ _ (wp_writeAll (fun i _ => hd rfl) (by simpa using hl') ?_)
    refine hQ d W' _ hW hd hfd ?_ (hfr.trans (frame_update _ _ hfd)) ?_
    · rw [Function.update_self, length_writeAt] <;> simpa using hl'
    · rw [Function.update_self]
      have := window_writeAt_self (h' d) ((window (h a) 0 N).map (mulSpec x)) 0 (by simpa using hl')
      simpa using this
  unfold mulP
  refine wp_bind _ _ _ _ _ (wp_readAll (fun i _ => Or.inl (ho rfl)) (by simpa using hl) ?_)
  rw [mulConstVector_eq]
  refine wp_bind _ _ _ _ _ ?_
  by_cases hin : Shamir.Arch.inPlace arch = true
  · simp only [hin, if_true]
    exact key W h a (fun _ hx => hx) ho hf hl (Frame.refl _ _)
  · simp only [hin, if_false, Bool.false_eq_true]
    intro b hb
    refine key _ _ b Set.subset_union_left Set.subset_union_right (hb.mono hS) ?_ (frame_update _ _ (hb.mono hS))
    rw [Function.update_self, List.length_replicate]

theorem wp_addP {arch : Arch} {coef : Arr} {off : Nat} {S : Set Loc} {a : Arr} {N : Nat} {Q : Post Unit} {W : Set Loc}
    {h : HeapF} {log : List Byte} (ho : own a ⊆ W) (hl : N ≤ (h a).length) (hf : Fresh S a)
    (hco : own coef ⊆ W) (hcl : off + N ≤ (h coef).length)
    (hQ : ∀ h', N ≤ (h' a).length → Frame S h h' →
      window (h' a) 0 N = xorBytes (window (h coef) off N) (window (h a) 0 N) → Q () W h' log) :
    wp R (addP arch coef off a N) Q W h log := by
  unfold addP
  refine wp_bind _ _ _ _ _ (wp_readAll (fun i _ => Or.inl (hco rfl)) hcl ?_)
  refine wp_bind _ _ _ _ _ (wp_readAll (fun i _ => Or.inl (ho rfl)) (by simpa using hl) ?_)
  rw [addVector_eq arch (by simp)]
  refine wp_bind _ _ _ _ _ ?_
  have hlen : (xorBytes (window (h coef) off N) (window (h a) 0 N)).length = N := by simp [xorBytes]
  refine wp_writeAll (fun i _ => ho rfl) (by rw [hlen]; simpa using hl) ?_
  refine hQ _ ?_ (frame_update _ _ hf) ?_
  · rw [Function.update_self, length_writeAt] <;> simpa [hlen] using hl
  · rw [Function.update_self]
    have := window_writeAt_self (h a) _ 0 (by rw [hlen]; simpa using hl)
    rwa [hlen] at this

/-- Values at `x` of the polynomials whose coefficients are the rows of the flat matrix `c`. -/
noncomputable def evalRows (c : List Byte) (N t : Nat) (x : Byte) : List Byte :=
  (List.range N).map fun p => (∑ k ∈ Finset.range t, (⟨c.getD (k * N + p) 0⟩ : GF) * ⟨x⟩ ^ k).val

theorem wp_evaluateP {arch : Arch} {coef : Arr} {N t : Nat} {x : Byte} {out : Arr} {off : Nat} {Q : Post Unit}
    {W : Set Loc} {h : HeapF} {log : List Byte} (ht : 0 < t)
    (hco : own coef ⊆ W) (hcl : t * N ≤ (h coef).length) (hoo : own out ⊆ W) (hol : off + N ≤ (h out).length)
    (hQ : ∀ W' h', W ⊆ W' → (∀ b, ¬ Fresh (W ∪ R) b → b ≠ out → h' b = h b) →
      h' out = writeAt (h out) off (evalRows (h coef) N t x) → Q () W' h' log) :
    wp R (evaluateP arch coef N t x out off) Q W h log := by
  unfold evaluateP
  intro rb0 c hrb0
  refine wp_bind _ _ _ _ _ (wp_grow (S := W ∪ R) Set.subset_union_right (by rw [Function.update_self]) hrb0 ?_ ?_)
  · exact Set.union_subset_union_left _ Set.subset_union_left
  intro rb W1 h1 hW1 hrbW hrbF hrbl hfr1
  have hW1 : W ⊆ W1 := Set.subset_union_left.trans hW1
  have hfr1 : Frame (W ∪ R) h h1 := (frame_update _ _ hrb0).trans hfr1
  have hcoef1 : h1 coef = h coef := hfr1 _ (not_fresh_own (sub_left hco))
  have hlast : (t - 1) * N + N = t * N := by
    rw [← Nat.succ_mul]; congr 1; omega
  refine wp_bind _ _ _ _ _ (wp_readAll (fun i _ => Or.inl (hW1 (hco rfl))) (by rw [hcoef1, hlast]; exact hcl) ?_)
  refine wp_bind _ _ _ _ _ (wp_writeAll (fun i _ => hrbW rfl) (by simpa using hrbl) ?_)
  let body : Nat → List Byte → Outcome (List Byte) := fun i l =>
    ok (xorBytes (window (h coef) (i * N) N) (l.map (mulSpec x)))
  have hpure : Verif.forDown (t - 1) body (window (h coef) ((t - 1) * N) N) = ok (evalRows (h coef) N t x) := by
    have := horner (N := N) (d := t - 1) (fun k p => (h coef).getD (k * N + p) 0) x body (by
      intro i _ g
      simp only [body]
      rw [show window (h coef) (i * N) N = (List.range N).map fun p => (h coef).getD (i * N + p) 0 from rfl,
        List.map_map, xorBytes_range]
      rfl)
    rw [show t - 1 + 1 = t by omega] at this
    exact this
  refine wp_bind _ _ _ _ _ ?_
  refine wp_mono ?_ _ _ _ _ (wp_forDown
    (fun i res W' h' log' => W1 ⊆ W' ∧ own res ⊆ W' ∧ Fresh (W ∪ R) res ∧ N ≤ (h' res).length ∧
      Frame (W ∪ R) h h' ∧ log' = log ∧
      Verif.forDown i body (window (h' res) 0 N) = ok (evalRows (h coef) N t x)) ?_ ?_)
  · rintro res W2 h2 log2 ⟨hW2, hres, hresF, hresl, hfr2, rfl, hval⟩
    simp only [Verif.forDown, Outcome.ok.injEq] at hval
    have hout2 : h2 out = h out := hfr2 _ (not_fresh_own (sub_left hoo))
    refine wp_bind _ _ _ _ _ (wp_readAll (fun i _ => Or.inl (hres rfl)) (by simpa using hresl) ?_)
    refine wp_bind _ _ _ _ _ (wp_writeAll (fun i _ => hW2 (hW1 (hoo rfl))) (by rw [hout2]; simpa using hol) ?_)
    refine ⟨hrbW.trans hW2, hQ _ _ ?_ ?_ ?_⟩
    · intro l hl
      refine ⟨hW2 (hW1 hl), fun hm => hrbF l.2 (Or.inl ?_)⟩
      rw [show rb = l.1 from hm.symm]; exact hl
    · intro b hb hne
      rw [Function.update_of_ne hne]; exact hfr2 b hb
    · rw [Function.update_self, hval, hout2]
  · refine ⟨fun _ hx => hx, hrbW, hrbF, ?_, hfr1.trans (frame_update _ _ hrbF), rfl, ?_⟩
    · rw [Function.update_self, length_writeAt] <;> simpa using hrbl
    · rw [Function.update_self]
      have := window_writeAt_self (h1 rb) (window (h1 coef) ((t - 1) * N) N) 0 (by simpa using hrbl)
      rw [length_window] at this
      rw [this, hcoef1]
      exact hpure
  · rintro i hi res W2 h2 log2 ⟨hW2, hres, hresF, hresl, hfr2, rfl, hval⟩
    have hcoef2 : h2 coef = h coef := hfr2 _ (not_fresh_own (sub_left hco))
    refine wp_bind _ _ _ _ _ (wp_mulP (S := W ∪ R) hres hresl hresF
      (Set.union_subset_union_left _ (hW1.trans hW2)) ?_)
    intro m W3 h3 hW3 hm hmF hml hfr3 hmv
    have hfr3' := hfr2.trans hfr3
    have hcoef3 : h3 coef = h coef := hfr3' _ (not_fresh_own (sub_left hco))
    have hin : i * N + N ≤ (h coef).length := by
      rw [← Nat.succ_mul]
      exact (Nat.mul_le_mul_right N (by omega)).trans hcl
    refine wp_bind _ _ _ _ _ (wp_addP (S := W ∪ R) hm hml hmF (hco.trans (hW1.trans (hW2.trans hW3)))
      (by rw [hcoef3]; exact hin) ?_)
    intro h4 hml4 hfr4 hmv4
    refine ⟨hW2.trans hW3, hm, hmF, hml4, hfr3'.trans hfr4, rfl, ?_⟩
    rw [hmv4, hmv, hcoef3]
    simp only [Verif.forDown, body, ok_bind] at hval
    exact hval

theorem next_row_col {N : Nat} (hN : 0 < N) (i : Nat) :
    (if i % N + 1 = N then (0, i / N + 1) else (i % N + 1, i / N)) = ((i + 1) % N, (i + 1) / N) := by
  by_cases hwrap : i % N + 1 = N
  · rw [if_pos hwrap]
    have h0 := Nat.div_add_mod i N
    have h1 : i + 1 = N * (i / N + 1) := by rw [Nat.mul_succ]; omega
    rw [h1, Nat.mul_mod_right, Nat.mul_div_cancel_left _ hN]
  · rw [if_neg hwrap]
    have hmod : i % N < N := Nat.mod_lt _ hN
    have e1 : (i + 1) % N = i % N + 1 := by
      rw [Nat.add_mod]
      have h1 : 1 % N = 1 := Nat.mod_eq_of_lt (by omega)
      rw [h1]; exact Nat.mod_eq_of_lt (by omega)
    have e2 : (i + 1) / N = i / N := by
      have h0 := Nat.div_add_mod i N
      have : i + 1 = (i % N + 1) + N * (i / N) := by omega
      rw [this, Nat.add_mul_div_left _ _ hN, Nat.div_eq_of_lt (by omega)]; omega
    rw [e1, e2]

theorem wp_transposeP {src dst : Arr} {N t : Nat} {Q : Post Unit} {W : Set Loc} {h : HeapF} {log : List Byte}
    (hN : 0 < N) (hs : own src ⊆ W) (hd : own dst ⊆ W) (hne : src ≠ dst)
    (hsl : t * N ≤ (h src).length) (hdl : t * N ≤ (h dst).length)
    (hQ : ∀ l, l.length = (h dst).length → (∀ k < t * N, l.getD k 0 = (h src).getD (t * (k % N) + k / N) 0) →
      Q () W (Function.update h dst l) log) :
    wp R (transposeP src dst N t) Q W h log := by
  unfold transposeP
  refine wp_bind _ _ _ _ _ ?_
  refine wp_mono ?_ _ _ _ _ (wp_forUp (fun i st W' h' log' => st = (i % N, i / N) ∧ W' = W ∧ log' = log ∧
      ∃ l, h' = Function.update h dst l ∧ l.length = (h dst).length ∧
        ∀ k < i, l.getD k 0 = (h src).getD (t * (k % N) + k / N) 0) ?_ ?_)
  · rintro st W' h' log' ⟨-, rfl, rfl, l, rfl, hl, hv⟩
    exact hQ l hl hv
  · exact ⟨by simp, rfl, rfl, h dst, by simp, rfl, fun k hk => absurd hk (Nat.not_lt_zero k)⟩
  · rintro i hi st W' h' log' ⟨rfl, rfl, rfl, l, rfl, hl, hv⟩
    have hmod : i % N < N := Nat.mod_lt _ hN
    have hdiv : i / N < t := by rw [Nat.div_lt_iff_lt_mul hN]; exact hi
    have hlt : t * (i % N) + i / N < t * N := by
      calc t * (i % N) + i / N < t * (i % N) + t := by omega
        _ = t * (i % N + 1) := by ring
        _ ≤ t * N := Nat.mul_le_mul_left _ hmod
    refine ⟨Or.inl (hs rfl), (h src).getD (t * (i % N) + i / N) 0, ?_, hd rfl, ?_, next_row_col hN i, rfl, rfl,
      l.set i ((h src).getD (t * (i % N) + i / N) 0), ?_, ?_, ?_⟩
    · rw [Function.update_of_ne hne]; exact getD_of_getElem? (lt_of_lt_of_le hlt hsl)
    · rw [Function.update_self, hl]; exact lt_of_lt_of_le hi hdl
    · rw [Function.update_self, Function.update_idem]
    · rw [List.length_set, hl]
    · intro k hk
      rw [getD_set]
      by_cases e : i = k
      · subst e; rw [if_pos ⟨rfl, by rw [hl]; exact lt_of_lt_of_le hi hdl⟩]
      · rw [if_neg (fun c => e c.1)]; exact hv k (by omega)

theorem contents_eq {h : HeapF} {s : Slice} (hl : s.off + s.len ≤ (h s.arr).length) :
    contents h s = window (h s.arr) s.off s.len := by
  unfold contents
  rw [window_eq (by omega)]; rfl

theorem wp_setInterceptsP {secret : Slice} {pb : Arr} {N t : Nat} {Q : Post Unit} {W : Set Loc} {h : HeapF}
    {log : List Byte}
    (ht : 0 < t) (hs : ∀ i < N, (secret.arr, secret.off + i) ∈ R) (hsl : secret.off + N ≤ (h secret.arr).length)
    (hp : own pb ⊆ W) (hne : secret.arr ≠ pb) (hpl : t * N ≤ (h pb).length)
    (hQ : ∀ l, l.length = (h pb).length →
      (∀ k < t * N, l.getD k 0 = if k % t = 0 then (h secret.arr).getD (secret.off + k / t) 0 else (h pb).getD k 0) →
      Q () W (Function.update h pb l) log) :
    wp R (setInterceptsP secret pb N t) Q W h log := by
  unfold setInterceptsP
  refine wp_mono ?_ _ _ _ _ (wp_forUp (fun p _ W' h' log' => W' = W ∧ log' = log ∧
      ∃ l', h' = Function.update h pb l' ∧ l'.length = (h pb).length ∧
      ∀ k < t * N, l'.getD k 0 = if k % t = 0 ∧ k / t < p then (h secret.arr).getD (secret.off + k / t) 0
        else (h pb).getD k 0) ?_ ?_)
  · rintro _ W'' h' log' ⟨rfl, rfl, l', rfl, hl', hv'⟩
    refine hQ l' hl' fun k hk => ?_
    rw [hv' k hk]
    have : k / t < N := by rw [Nat.div_lt_iff_lt_mul ht, Nat.mul_comm]; exact hk
    simp [this]
  · exact ⟨rfl, rfl, h pb, by simp, rfl, fun k hk => by simp⟩
  · rintro p hp' _ W'' h' log' ⟨rfl, rfl, l', rfl, hl', hv'⟩
    have hlt : t * p < t * N := Nat.mul_lt_mul_of_pos_left hp' ht
    refine ⟨Or.inr (hs p hp'), (h secret.arr).getD (secret.off + p) 0, ?_, hp rfl, ?_, rfl, rfl,
      l'.set (t * p) ((h secret.arr).getD (secret.off + p) 0), ?_, ?_, ?_⟩
    · rw [Function.update_of_ne hne]; exact getD_of_getElem? (by omega)
    · rw [Function.update_self, hl']; exact lt_of_lt_of_le hlt hpl
    · rw [Function.update_self, Function.update_idem]
    · rw [List.length_set, hl']
    · intro k hk
      rw [getD_set]
      by_cases e : t * p = k
      · subst e
        rw [if_pos ⟨rfl, by rw [hl']; exact lt_of_lt_of_le hlt hpl⟩, if_pos ⟨Nat.mul_mod_right _ _, by
          rw [Nat.mul_div_cancel_left _ ht]; omega⟩, Nat.mul_div_cancel_left _ ht]
      · rw [if_neg (fun c => e c.1), hv' k hk]
        by_cases hm : k % t = 0
        · have hkd : k = t * (k / t) := by have := Nat.div_add_mod k t; omega
          have hne : k / t ≠ p := by intro e'; rw [e'] at hkd; exact e hkd.symm
          have : (k / t < p ↔ k / t < p + 1) := by omega
          simp [hm, this]
        · simp [hm]

/-- What it means that the program `mk` fills the polynomial buffer of `t * N` bytes, holding `stale`, with `l`
(satisfying `P stale vs l`), drawing the random bytes `vs`, in every heap satisfying `H`. -/
def Fills (R : Set Loc) (t N : Nat) (H : HeapF → Prop) (mk : Arr → Prog Unit)
    (P : List Byte → List Byte → List Byte → Prop) : Prop :=
  ∀ (pb : Arr) (W : Set Loc) (h : HeapF) (log : List Byte) (Q : Post Unit), own pb ⊆ W → Fresh R pb →
    t * N ≤ (h pb).length → H h →
    (∀ vs l, l.length = (h pb).length → P (window (h pb) 0 (t * N)) vs l → Q () W (Function.update h pb l) (log ++ vs)) →
    wp R (mk pb) Q W h log

/-- The array of the slice shows the bytes `bs` there. -/
def Shows (secret : Slice) (bs : List Byte) (h : HeapF) : Prop :=
  secret.off + secret.len ≤ (h secret.arr).length ∧ contents h secret = bs

theorem Shows.getD {secret : Slice} {bs : List Byte} {h : HeapF} (hs : Shows secret bs h) {i : Nat} (hi : i < secret.len) :
    (h secret.arr).getD (secret.off + i) 0 = bs.getD i 0 := by
  rw [← hs.2, contents]
  simp only [List.getD_eq_getElem?_getD, List.getElem?_take, List.getElem?_drop, hi, if_true]

theorem Shows.length {secret : Slice} {bs : List Byte} {h : HeapF} (hs : Shows secret bs h) : bs.length = secret.len := by
  rw [← hs.2, contents]; simp; have := hs.1; omega

theorem withIntercepts_getD {s buf : List Byte} {t k : Nat} (ht : 0 < t) (hb : buf.length = t * s.length)
    (hk : k < t * s.length) :
    (withIntercepts s t buf s.length).getD k 0 = if k % t = 0 then s.getD (k / t) 0 else buf.getD k 0 := by
  have : k / t < s.length := by rw [Nat.div_lt_iff_lt_mul ht, Nat.mul_comm]; exact hk
  have hk' : k < buf.length := by omega
  simp only [withIntercepts, List.getD_eq_getElem?_getD, List.getElem?_map, List.getElem?_range hk', Option.map_some,
    Option.getD_some, this, and_true]

theorem fills_rand {secret : Slice} {bs : List Byte} {t : Nat} (ht : 0 < t) (hN : 0 < secret.len)
    (hs : ∀ i < secret.len, (secret.arr, secret.off + i) ∈ R) :
    Fills R t secret.len (Shows secret bs) (makePolynomialsP secret secret.len t) (fun _ vs l => vs.length = t * bs.length ∧
      ∀ k < t * bs.length, l.getD k 0 = (withIntercepts bs t vs bs.length).getD k 0) := by
  intro pb W h log Q hp hfp hpl hsh hQ
  have hbs := hsh.length
  have hne : secret.arr ≠ pb := by rintro rfl; exact hfp _ (hs 0 hN)
  unfold makePolynomialsP
  refine wp_bind _ _ _ _ _ ?_
  refine wp_mono ?_ _ _ _ _ (wp_forUp (fun i _ W' h' log' => W' = W ∧
      ∃ vs l, log' = log ++ vs ∧ vs.length = i ∧ h' = Function.update h pb l ∧ l.length = (h pb).length ∧
        ∀ k < i, l.getD k 0 = vs.getD k 0) ?_ ?_)
  · rintro _ W' h' log' ⟨rfl, vs, l, rfl, hvs, rfl, hl, hv⟩
    refine wp_setInterceptsP ht hs (by rw [Function.update_of_ne hne]; exact hsh.1) hp hne
      (by rw [Function.update_self, hl]; exact hpl) ?_
    intro l' hl' hv'
    rw [Function.update_self] at hl' hv'
    rw [Function.update_of_ne hne] at hv'
    rw [Function.update_idem]
    refine hQ vs l' (hl'.trans hl) ⟨by rw [hbs]; exact hvs, fun k hk => ?_⟩
    rw [withIntercepts_getD ht (by rw [hvs, hbs]) hk]
    rw [hbs] at hk
    have hd : k / t < secret.len := by rw [Nat.div_lt_iff_lt_mul ht, Nat.mul_comm]; exact hk
    rw [hv' k hk, hv k hk, hsh.getD hd]
  · exact ⟨rfl, [], h pb, by simp, rfl, by simp, rfl, fun k hk => absurd hk (Nat.not_lt_zero k)⟩
  · rintro i hi _ W' h' log' ⟨rfl, vs, l, rfl, hvs, rfl, hl, hv⟩ v
    refine ⟨hp rfl, ?_, rfl, vs ++ [v], l.set i v, ?_, ?_, ?_, ?_, ?_⟩
    · rw [Function.update_self, hl]; exact lt_of_lt_of_le hi hpl
    · simp
    · simp [hvs]
    · rw [Function.update_self, Function.update_idem]
    · rw [List.length_set, hl]
    · intro k hk
      rw [getD_set]
      by_cases e : i = k
      · subst e
        rw [if_pos ⟨rfl, by rw [hl]; exact lt_of_lt_of_le hi hpl⟩]
        simp [List.getD_eq_getElem?_getD, ← hvs]
      · rw [if_neg (fun c => e c.1), hv k (by omega)]
        have : k < vs.length := by omega
        simp [List.getD_eq_getElem?_getD, List.getElem?_append_left this]

theorem window_getD {l : List Byte} {off n k : Nat} (hk : k < n) : (window l off n).getD k 0 = l.getD (off + k) 0 := by
  simp [window, List.getD_eq_getElem?_getD, List.getElem?_range hk]

theorem fills_randomizer {secret : Slice} {bs : List Byte} {t : Nat} (r : Csprng.CSPRNG) (ht : 0 < t) (hN : 0 < secret.len)
    (hs : ∀ i < secret.len, (secret.arr, secret.off + i) ∈ R) :
    Fills R t secret.len (Shows secret bs) (makePolynomialsRandomizerP r secret secret.len t) (fun stale vs l => vs = [] ∧
      ∀ k < t * bs.length, l.getD k 0 = (withIntercepts bs t (r.read stale) bs.length).getD k 0) := by
  intro pb W h log Q hp hfp hpl hsh hQ
  have hbs := hsh.length
  have hne : secret.arr ≠ pb := by rintro rfl; exact hfp _ (hs 0 hN)
  unfold makePolynomialsRandomizerP
  refine wp_bind _ _ _ _ _ ?_
  refine wp_mono ?_ _ _ _ _ (wp_forUp (fun i _ W' h' log' => W' = W ∧ log' = log ∧
      ∃ l, h' = Function.update h pb l ∧ l.length = (h pb).length ∧
        ∀ k, l.getD k 0 = if k < i then (h pb).getD k 0 ^^^ r.ks k else (h pb).getD k 0) ?_ ?_)
  · rintro _ W' h' log' ⟨rfl, rfl, l, rfl, hl, hv⟩
    refine wp_setInterceptsP ht hs (by rw [Function.update_of_ne hne]; exact hsh.1) hp hne
      (by rw [Function.update_self, hl]; exact hpl) ?_
    intro l' hl' hv'
    rw [Function.update_self] at hl' hv'
    rw [Function.update_of_ne hne] at hv'
    rw [Function.update_idem]
    have := hQ [] l' (hl'.trans hl) ⟨rfl, fun k hk => ?_⟩
    · rwa [List.append_nil] at this
    have hlr : (r.read (window (h pb) 0 (t * secret.len))).length = t * bs.length := by rw [length_read]; simp [hbs]
    rw [withIntercepts_getD ht hlr hk]
    rw [hbs] at hk
    have hd : k / t < secret.len := by rw [Nat.div_lt_iff_lt_mul ht, Nat.mul_comm]; exact hk
    rw [hv' k hk, hv k, if_pos hk, hsh.getD hd, read_getD _ _ (by simpa using hk), window_getD hk, Nat.zero_add]
  · exact ⟨rfl, rfl, h pb, by simp, rfl, fun k => by simp⟩
  · rintro i hi _ W' h' log' ⟨rfl, rfl, l, rfl, hl, hv⟩
    have hil : i < l.length := by rw [hl]; exact lt_of_lt_of_le hi hpl
    refine ⟨Or.inl (hp rfl), (h pb).getD i 0, ?_, hp rfl, ?_, rfl, rfl, l.set i ((h pb).getD i 0 ^^^ r.ks i), ?_, ?_, ?_⟩
    · rw [Function.update_self, getD_of_getElem? hil, hv i, if_neg (by omega)]
    · rw [Function.update_self]; exact hil
    · rw [Function.update_self, Function.update_idem]
    · rw [List.length_set, hl]
    · intro k
      rw [getD_set, hv k]
      by_cases e : i = k
      · subst e
        rw [if_pos ⟨rfl, hil⟩, if_pos (by omega)]
      · rw [if_neg (fun c => e c.1)]
        have : (k < i ↔ k < i + 1) := by omega
        simp [this]

/-! ## Split -/

theorem window_shareOf (l pol : List Byte) (off N t : Nat) (x : Byte)
    (h1 : ∀ p < N, l.getD (off + p) 0 = (∑ k ∈ Finset.range t, (⟨pol.getD (t * p + k) 0⟩ : GF) * ⟨x⟩ ^ k).val)
    (h2 : l.getD (off + N) 0 = x) : window l off (N + 1) = shareOf (rowsOf pol t N) x := by
  unfold window shareOf rowsOf
  rw [List.range_succ, List.map_append, List.map_singleton, h2, List.map_map]
  congr 1
  apply List.map_congr_left
  intro p hp
  rw [h1 p (by simpa using hp), Function.comp_apply, rows_eval]
  exact N

/-- The layout of the shares returned by Split: consecutive windows of one array, each with capacity to the
end of the array. -/
def layout (buff : Arr) (N n : Nat) : List Slice :=
  (List.range n).map fun i => ⟨buff, (N + 1) * i, N + 1, (N + 1) * n - (N + 1) * i⟩

theorem slot_lt {N n i k : Nat} (hi : i < n) (hk : k ≤ N) : (N + 1) * i + k < (N + 1) * n := by
  calc (N + 1) * i + k < (N + 1) * i + (N + 1) := by omega
    _ = (N + 1) * (i + 1) := by ring
    _ ≤ (N + 1) * n := Nat.mul_le_mul_left _ hi

theorem slot_inj {N i j k m : Nat} (hk : k ≤ N) (hm : m ≤ N) (h : (N + 1) * i + k = (N + 1) * j + m) : i = j ∧ k = m := by
  have hi : ((N + 1) * i + k) / (N + 1) = i := by
    rw [Nat.mul_add_div (Nat.succ_pos _), Nat.div_eq_of_lt (by omega)]; rfl
  have hj : ((N + 1) * j + m) / (N + 1) = j := by
    rw [Nat.mul_add_div (Nat.succ_pos _), Nat.div_eq_of_lt (by omega)]; rfl
  have e : i = j := by rw [← hi, ← hj, h]
  subst e; exact ⟨rfl, by omega⟩

theorem wp_acquireP {S : Set Loc} {pooled : Bool} {n : Nat} {Q : Post Arr} {W : Set Loc} {h : HeapF} {log : List Byte}
    (hS : S ⊆ W ∪ R)
    (hQ : ∀ a W' h', W ⊆ W' → own a ⊆ W' → Fresh S a → n ≤ (h' a).length → Frame S h h' →
      (pooled = false → h' a = List.replicate n 0) → Q a W' h' log) :
    wp R (acquireP pooled n) Q W h log := by
  unfold acquireP
  cases pooled
  · intro a ha
    refine hQ a _ _ Set.subset_union_left Set.subset_union_right (ha.mono hS) ?_ (frame_update _ _ (ha.mono hS)) ?_
    · rw [Function.update_self, List.length_replicate]
    · intro _; rw [Function.update_self]
  · intro a c ha
    refine wp_grow (S := S) Set.subset_union_right (by rw [Function.update_self]) (ha.mono hS)
      (hS.trans (Set.union_subset_union_left _ Set.subset_union_left)) ?_
    intro a' W' h' h1 h2 h3 h4 h5
    exact hQ a' W' h' (Set.subset_union_left.trans h1) h2 h3 h4 ((frame_update _ _ (ha.mono hS)).trans h5)
      (fun c => absurd c (by decide))

theorem wp_releaseP {pooled : Bool} {a : Arr} {Q : Post Unit} {W : Set Loc} {h : HeapF} {log : List Byte}
    (ho : own a ⊆ W) (hQ : ∀ W', W \ own a ⊆ W' → Q () W' h log) : wp R (releaseP pooled a) Q W h log := by
  unfold releaseP
  cases pooled
  · exact hQ W Set.sdiff_subset
  · exact ⟨ho, hQ _ (fun _ hx => hx)⟩

/-- The part common to the Split variants. -/
theorem wp_sharesP (arch : Arch) {N n t : Nat} {xs : List Byte} {pooled : Bool} {mk : Arr → Prog Unit}
    {H : HeapF → Prop} {P : List Byte → List Byte → List Byte → Prop} (hfill : Fills R t N H mk P)
    {Q : Post (Outcome (List Slice))} {W : Set Loc} {h : HeapF} {log : List Byte} (ht : 0 < t) (hN : 0 < N)
    (hH : ∀ h', Frame R h h' → H h')
    (hQ : ∀ buff W' h' stale vs pol, own buff ⊆ W' → (h' buff).length = (N + 1) * n →
      stale.length = t * N → (pooled = false → stale = List.replicate (t * N) 0) → P stale vs pol →
      (layout buff N n).map (contents h') = (shareTags n xs).map (shareOf (rowsOf pol t N)) →
      Q (ok (layout buff N n)) W' h' (log ++ vs)) :
    wp R (sharesP arch N n t xs pooled mk) Q W h log := by
  unfold sharesP
  let tg : Nat → Byte := fun i => xs.getD i 0 + 1#8
  intro buff hbuff
  refine wp_bind _ _ _ _ _ ?_
  -- the tags
  refine wp_mono ?_ _ _ _ _ (wp_forUp (fun i _ W' h' log' => W' = W ∪ own buff ∧ log' = log ∧
      ∃ l, h' = Function.update h buff l ∧ l.length = (N + 1) * n ∧
        ∀ j < i, l.getD ((N + 1) * j + N) 0 = tg j) ?_ ?_)
  rotate_left
  · exact ⟨rfl, rfl, _, rfl, by simp, fun j hj => absurd hj (Nat.not_lt_zero j)⟩
  · rintro i hi _ W' h' log' ⟨rfl, rfl, l, rfl, hl, htag⟩
    refine ⟨Or.inr rfl, ?_, rfl, rfl, l.set ((N + 1) * i + N) (tg i), ?_, ?_, ?_⟩
    · rw [Function.update_self, hl]; exact slot_lt hi le_rfl
    · rw [Function.update_self, Function.update_idem]
    · rw [List.length_set, hl]
    · intro j hj
      rw [getD_set]
      by_cases e : i = j
      · subst e; rw [if_pos ⟨rfl, by rw [hl]; exact slot_lt hi le_rfl⟩]
      · rw [if_neg (fun c => e (slot_inj le_rfl le_rfl c.1).1)]
        exact htag j (by omega)
  rintro _ W1 h1' log1 ⟨hW1, rfl, lt, rfl, hlt, htag⟩
  have hbW1 : own buff ⊆ W1 := hW1 ▸ Set.subset_union_right
  have hf1 : Frame R h (Function.update h buff lt) := frame_update _ _ (hbuff.mono Set.subset_union_right)
  -- the polynomial buffer
  refine wp_bind _ _ _ _ _ (wp_acquireP (S := W1 ∪ R) (fun _ hx => hx) ?_)
  intro pb W2 h2' hW2 hpbW hpbF hpbl hf2 hzero
  have hbuff2 : h2' buff = lt := by
    rw [hf2 _ (not_fresh_own (sub_left hbW1)), Function.update_self]
  have hnebp : buff ≠ pb := by rintro rfl; exact not_fresh_own (sub_left hbW1) hpbF
  refine wp_bind _ _ _ _ _ (hfill pb W2 h2' log1 _ hpbW (hpbF.mono Set.subset_union_right) hpbl
    (hH _ (hf1.trans (hf2.mono Set.subset_union_right))) ?_)
  intro vs lp hlp hpol
  -- the transposed buffer
  refine wp_bind _ _ _ _ _ (wp_acquireP (S := W2 ∪ R) (fun _ hx => hx) ?_)
  intro tb W3 h3' hW3 htbW htbF htbl hf3 _
  have hpb3 : h3' pb = lp := by rw [hf3 _ (not_fresh_own (sub_left hpbW)), Function.update_self]
  have hbuff3 : h3' buff = lt := by
    rw [hf3 _ (not_fresh_own (sub_left (hbW1.trans hW2))), Function.update_of_ne hnebp, hbuff2]
  have hnept : pb ≠ tb := by rintro rfl; exact not_fresh_own (sub_left hpbW) htbF
  have hnebt : buff ≠ tb := by rintro rfl; exact not_fresh_own (sub_left (hbW1.trans hW2)) htbF
  refine wp_bind _ _ _ _ _ (wp_transposeP hN (hpbW.trans hW3) htbW hnept (by rw [hpb3, hlp]; exact hpbl) htbl ?_)
  intro ltb hltb hcoef
  rw [hpb3] at hcoef
  -- evaluation
  have hbW3 : own buff ⊆ W3 := hbW1.trans (hW2.trans hW3)
  have hcoefv : ∀ k < t, ∀ p < N, ltb.getD (k * N + p) 0 = lp.getD (t * p + k) 0 := by
    intro k hk p hp
    have hlt' : k * N + p < t * N := by
      calc k * N + p < k * N + N := by omega
        _ = (k + 1) * N := by ring
        _ ≤ t * N := Nat.mul_le_mul_right _ hk
    have e1 : (k * N + p) % N = p := by rw [Nat.mul_comm, Nat.mul_add_mod]; exact Nat.mod_eq_of_lt hp
    have e2 : (k * N + p) / N = k := by
      rw [Nat.mul_comm, Nat.mul_add_div hN, Nat.div_eq_of_lt hp]; omega
    rw [hcoef _ hlt', e1, e2]
  have hev : ∀ x, ∀ p < N, (evalRows ltb N t x).getD p 0
      = (∑ k ∈ Finset.range t, (⟨lp.getD (t * p + k) 0⟩ : GF) * ⟨x⟩ ^ k).val := by
    intro x p hp
    simp only [evalRows, List.getD_eq_getElem?_getD (l := List.map _ _), List.getElem?_map, List.getElem?_range hp, Option.map_some,
      Option.getD_some]
    congr 1
    refine Finset.sum_congr rfl fun k hk => ?_
    rw [hcoefv k (by simpa using hk) p hp]
  refine wp_bind _ _ _ _ _ ?_
  refine wp_mono ?_ _ _ _ _ (wp_forUp (fun i _ W' h' log' => W3 ⊆ W' ∧ log' = log1 ++ vs ∧
      h' tb = ltb ∧ (h' buff).length = (N + 1) * n ∧
      (∀ j < n, (h' buff).getD ((N + 1) * j + N) 0 = tg j) ∧
      ∀ j < i, ∀ p < N, (h' buff).getD ((N + 1) * j + p) 0 = (evalRows ltb N t (tg j)).getD p 0) ?_ ?_)
  · rintro _ W4 h4 log4 ⟨hW4, rfl, -, hl4, htag4, hv4⟩
    refine wp_bind _ _ _ _ _ (wp_releaseP (htbW.trans hW4) ?_)
    intro W5 hW5
    refine wp_bind _ _ _ _ _ (wp_releaseP ?_ ?_)
    · intro l hl
      exact hW5 ⟨hW4 (hW3 (hpbW hl)), fun hm => hnept ((show l.1 = pb from hl).symm.trans hm)⟩
    intro W6 hW6
    refine hQ buff W6 h4 (window (h2' pb) 0 (t * N)) vs lp ?_ hl4 (by simp) ?_ hpol ?_
    · intro l hl
      have e : l.1 = buff := hl
      exact hW6 ⟨hW5 ⟨hW4 (hbW3 hl), fun hm => hnebt (e.symm.trans hm)⟩, fun hm => hnebp (e.symm.trans hm)⟩
    · intro hp
      rw [hzero hp]
      apply List.ext_getElem?
      intro k
      simp only [window, List.getElem?_map]
      by_cases hk : k < t * N
      · simp [List.getElem?_range hk, List.getElem?_replicate, hk]
      · simp [List.getElem?_replicate, hk]
    · unfold layout shareTags
      rw [List.map_map, List.map_map]
      apply List.map_congr_left
      intro i hi
      have hi : i < n := by simpa using hi
      simp only [Function.comp_apply]
      rw [contents_eq]
      · apply window_shareOf
        · intro p hp; rw [hv4 i hi p hp, hev _ p hp]
        · exact htag4 i hi
      · show (N + 1) * i + (N + 1) ≤ (h4 buff).length
        rw [hl4, ← Nat.mul_succ]; exact Nat.mul_le_mul_left _ hi
  · refine ⟨fun _ hx => hx, rfl, Function.update_self .., ?_, ?_, fun j hj => absurd hj (Nat.not_lt_zero j)⟩
    · rw [Function.update_of_ne hnebt, hbuff3]; exact hlt
    · rw [Function.update_of_ne hnebt, hbuff3]; exact htag
  · rintro i hi _ W4 h4 log4 ⟨hW4, rfl, htb4, hl4, htag4, hv4⟩
    have hlen : (N + 1) * i + N ≤ (h4 buff).length := by rw [hl4]; exact (slot_lt hi le_rfl).le
    refine wp_evaluateP ht (htbW.trans hW4) (by rw [htb4, hltb]; exact htbl) (hbW3.trans hW4) hlen ?_
    intro W5 h5 hW5 hfr5 hb5
    rw [htb4] at hb5
    have hel : (evalRows ltb N t (tg i)).length = N := by simp [evalRows]
    refine ⟨hW4.trans hW5, rfl, ?_, ?_, ?_, ?_⟩
    · rw [hfr5 tb (not_fresh_own (sub_left (htbW.trans hW4))) (Ne.symm hnebt), htb4]
    · rw [hb5, length_writeAt (by show (N + 1) * i + (evalRows ltb N t (tg i)).length ≤ _; rw [hel]; exact hlen), hl4]
    · intro j hj
      rw [hb5, getD_writeAt _ _ _ _ (by show (N + 1) * i + (evalRows ltb N t (tg i)).length ≤ _; rw [hel]; exact hlen)]
      rw [if_neg, htag4 j hj]
      show ¬ ((N + 1) * i ≤ (N + 1) * j + N ∧ (N + 1) * j + N < (N + 1) * i + (evalRows ltb N t (tg i)).length)
      rw [hel]
      rintro ⟨ha, hb⟩
      obtain ⟨k, hk⟩ := Nat.exists_eq_add_of_le ha
      have := slot_inj le_rfl (show k ≤ N by omega) hk
      omega
    · intro j hj p hp
      rw [hb5, getD_writeAt _ _ _ _ (by show (N + 1) * i + (evalRows ltb N t (tg i)).length ≤ _; rw [hel]; exact hlen)]
      show (if (N + 1) * i ≤ (N + 1) * j + p ∧ (N + 1) * j + p < (N + 1) * i + (evalRows ltb N t (tg i)).length then
        (evalRows ltb N t (tg i)).getD ((N + 1) * j + p - (N + 1) * i) 0 else _) = _
      rw [hel]
      by_cases e : i = j
      · subst e
        rw [if_pos ⟨by omega, by omega⟩]
        congr 1; omega
      · rw [if_neg, hv4 j (by omega) p hp]
        rintro ⟨ha, hb⟩
        obtain ⟨k, hk⟩ := Nat.exists_eq_add_of_le ha
        exact e (slot_inj (show p ≤ N by omega) (show k ≤ N by omega) hk).1.symm

end Verif.Proofs.Own
