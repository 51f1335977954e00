import Verif.Proofs.Solo

/-! # The Split programs, run alone -/

namespace Verif.Proofs.Alone
open Verif Outcome Galois Shamir Spec Pool Csprng Verif.Heap
open Verif.Proofs.Own (window length_window getD_of_getElem? getD_set window_getD writeAt_snoc window_writeAt_self evalRows
  getD_writeAt next_row_col Shows layout)

theorem bufs_ext {X : List Arr} {σ σ' : Shared} {p : PoolId} (h : Ext X σ σ') (hp : σ'.pool p = σ.pool p)
    (hX : ∀ a ∈ σ.pool p, a < σ.next ∧ a ∉ X) : bufs σ' p = bufs σ p :=
  bufs_congr hp h.size fun a ha => h.heap a (hX a ha).1 (hX a ha).2

theorem writeAt_writeAt (l a b : List Byte) (off : Nat) (h : a.length = b.length) (hl : off + a.length ≤ l.length) :
    writeAt (writeAt l off a) off b = writeAt l off b := by
  have h1 : (l.take off).length = off := by simp; omega
  have e1 : (writeAt l off a).take off = l.take off := by
    unfold writeAt
    rw [List.append_assoc, List.take_left' h1]
  have e2 : (writeAt l off a).drop (off + a.length) = l.drop (off + a.length) := by
    unfold writeAt
    rw [List.drop_left' (by simp; omega)]
  rw [writeAt, ← h, e1, e2, writeAt, ← h]

/-- `MulConstVector` on the build that works in place. -/
theorem solo_mulP_inPlace {arch : Arch} (hin : Shamir.Arch.inPlace arch = true) {x : Byte} {a : Arr} {N : Nat}
    {Q : SPost Arr} {σ : Shared} {log : List Byte} (hl : N ≤ (σ.heap a).length)
    (hQ : Q a (upd σ a (writeAt (σ.heap a) 0 ((window (σ.heap a) 0 N).map (mulSpec x)))) log) :
    solo (mulP arch x a N) Q σ log := by
  unfold mulP
  refine solo_bind _ _ _ _ (solo_readAll (by simpa using hl) ?_)
  rw [mulConstVector_eq]
  refine solo_bind _ _ _ _ ?_
  simp only [hin, if_true]
  refine solo_bind _ _ _ _ ?_
  exact solo_bind _ _ _ _ (solo_writeAll (by simpa using hl) hQ)

/-- `MulConstVector` on the other builds. -/
theorem solo_mulP_new {arch : Arch} (hin : Shamir.Arch.inPlace arch = false) {x : Byte} {a : Arr} {N : Nat}
    {Q : SPost Arr} {σ : Shared} {log : List Byte} (hl : N ≤ (σ.heap a).length)
    (hQ : Q σ.next (new σ ((window (σ.heap a) 0 N).map (mulSpec x))) log) :
    solo (mulP arch x a N) Q σ log := by
  unfold mulP
  refine solo_bind _ _ _ _ (solo_readAll (by simpa using hl) ?_)
  rw [mulConstVector_eq]
  refine solo_bind _ _ _ _ ?_
  simp only [hin, Bool.false_eq_true, if_false]
  refine solo_bind _ _ _ _ ?_
  show solo _ _ (new σ (List.replicate N 0)) log
  refine solo_bind _ _ _ _ (solo_writeAll (by simp) ?_)
  rw [new_heap, writeAt_zero_same (by simp)]
  have : upd (new σ (List.replicate N 0)) σ.next ((window (σ.heap a) 0 N).map (mulSpec x))
      = new σ ((window (σ.heap a) 0 N).map (mulSpec x)) := by
    simp [upd, new]
  rw [this]; exact hQ

theorem solo_addP {arch : Arch} {coef : Arr} {off : Nat} {a : Arr} {N : Nat} {Q : SPost Unit} {σ : Shared}
    {log : List Byte} (hl : N ≤ (σ.heap a).length) (hcl : off + N ≤ (σ.heap coef).length)
    (hQ : Q () (upd σ a (writeAt (σ.heap a) 0 (xorBytes (window (σ.heap coef) off N) (window (σ.heap a) 0 N)))) log) :
    solo (addP arch coef off a N) Q σ log := by
  unfold addP
  refine solo_bind _ _ _ _ (solo_readAll hcl ?_)
  refine solo_bind _ _ _ _ (solo_readAll (by simpa using hl) ?_)
  rw [addVector_eq arch (by simp)]
  refine solo_bind _ _ _ _ ?_
  have hlen : (xorBytes (window (σ.heap coef) off N) (window (σ.heap a) 0 N)).length = N := by simp [xorBytes]
  exact solo_writeAll (by rw [hlen]; simpa using hl) hQ

theorem window_zero_self {l : List Byte} {N : Nat} (h : l.length = N) : window l 0 N = l := by
  have := window_writeAt_self l l 0 (by simp)
  rw [writeAt_zero_same rfl, h] at this
  exact this

/-- Evaluation of the polynomials for one share. -/
theorem solo_evaluateP {arch : Arch} {coef : Arr} {N t : Nat} {x : Byte} {out : Arr} {off : Nat} {Q : SPost Unit}
    {σ : Shared} {held : List Arr} {log : List Byte} (ht : 0 < t) (hs : Sep σ held)
    (hco : coef ∈ held) (hcl : t * N ≤ (σ.heap coef).length) (hoo : out ∈ held) (hol : off + N ≤ (σ.heap out).length)
    (hQ : ∀ σ', Sep σ' held → σ'.size = σ.size → σ'.pool .bPool = σ.pool .bPool →
      (∀ b, b ∈ held ∨ b ∈ σ.pool .bPool → b ≠ out → σ'.heap b = σ.heap b) →
      σ'.heap out = writeAt (σ.heap out) off (evalRows (σ.heap coef) N t x) →
      bufs σ' .polyPool = evalPool arch N (window (σ.heap coef) ((t - 1) * N) N) (evalRows (σ.heap coef) N t x) (bufs σ .polyPool) →
      Q () σ' log) :
    solo (evaluateP arch coef N t x out off) Q σ log := by
  unfold evaluateP
  refine solo_bind _ (.get .polyPool fun rb cap => grow rb cap N) _ _ (solo_take (held := held) hs ?_)
  intro rb σ1 hs1 hext1 hpool1 hrb hb1
  have hrbl : N ≤ (σ1.heap rb).length := by rw [hrb]; exact length_grow _ _
  have held1 : ∀ b ∈ held, σ1.heap b = σ.heap b := fun b hb => hext1.heap b (hs.held_lt hb) (by simp)
  have hcoef1 := held1 coef hco
  have hner : ∀ b ∈ held, b ≠ rb := by
    rintro b hb rfl
    exact (List.nodup_cons.1 hs1.nodup).1 (List.mem_append_left _ hb)
  have hlast : (t - 1) * N + N = t * N := by
    rw [← Nat.succ_mul]; congr 1; omega
  refine solo_bind _ _ _ _ (solo_readAll (by rw [hcoef1, hlast]; exact hcl) ?_)
  refine solo_bind _ _ _ _ (solo_writeAll (by simpa using hrbl) ?_)
  let top := window (σ.heap coef) ((t - 1) * N) N
  let body : Nat → List Byte → Outcome (List Byte) := fun i l =>
    ok (xorBytes (window (σ.heap coef) (i * N) N) (l.map (mulSpec x)))
  have hpure : Verif.forDown (t - 1) body top = ok (evalRows (σ.heap coef) N t x) := by
    have := horner (N := N) (d := t - 1) (fun k p => (σ.heap coef).getD (k * N + p) 0) x body (by
      intro i _ g
      simp only [body]
      rw [show window (σ.heap coef) (i * N) N = (List.range N).map fun p => (σ.heap coef).getD (i * N + p) 0 from rfl,
        List.map_map, xorBytes_range]
      rfl)
    rw [show t - 1 + 1 = t by omega] at this
    exact this
  have htop : top.length = N := by simp [top]
  refine solo_bind _ _ _ _ ?_
  refine solo_mono ?_ _ _ _ (solo_forDown
    (fun i res σ' log' => ∃ cur, cur.length = N ∧ log' = log ∧ Ext [rb] σ1 σ' ∧ σ'.pool = σ1.pool ∧
      (res = rb ∨ σ1.next ≤ res) ∧ N ≤ (σ'.heap res).length ∧ window (σ'.heap res) 0 N = cur ∧
      σ'.heap rb = writeAt (σ1.heap rb) 0 (if Shamir.Arch.inPlace arch then cur else top) ∧
      (Shamir.Arch.inPlace arch = true → res = rb) ∧
      Verif.forDown i body cur = ok (evalRows (σ.heap coef) N t x)) ?_ ?_)
  · rintro res σ2 log2 ⟨cur, hcur, rfl, hext2, hpool2, hres, hresl, hwin, hrb2, -, hval⟩
    simp only [Verif.forDown, Outcome.ok.injEq] at hval
    subst hval
    have held2 : ∀ b ∈ held, σ2.heap b = σ.heap b := fun b hb => by
      rw [hext2.heap b (hs1.held_lt (List.mem_cons_of_mem _ hb)) (by simpa using hner b hb), held1 b hb]
    have hout2 := held2 out hoo
    refine solo_bind _ _ _ _ (solo_readAll (by simpa using hresl) ?_)
    rw [hwin]
    refine solo_bind _ _ _ _ (solo_writeAll (by rw [hout2, hcur]; exact hol) ?_)
    have hs2 : Sep (upd σ2 out (writeAt (σ2.heap out) off (evalRows (σ.heap coef) N t x))) (rb :: held) :=
      hs1.mono hpool2 hext2.next (List.Sublist.refl _)
    refine solo_give hs2 ?_
    intro σ3 hs3 hheap3 hnext3 hsize3 hpool3 hbufs3
    refine hQ σ3 hs3 ?_ ?_ ?_ ?_ ?_
    · rw [hsize3]; exact hext2.size.trans hext1.size
    · rw [hpool3 .bPool (by decide)]
      show σ2.pool .bPool = _
      rw [hpool2, hpool1, Function.update_of_ne (by decide)]
    · intro b hb hne
      rw [hheap3, upd_heap_ne hne]
      rcases hb with hb | hb
      · exact held2 b hb
      · have hb1' : b ∈ σ1.pool .bPool := by rw [hpool1, Function.update_of_ne (by decide)]; exact hb
        rw [hext2.heap b (hs1.pool_lt hb1') ?_, hext1.heap b (hs.pool_lt hb) (by simp)]
        rintro hm
        have : b = rb := by simpa using hm
        subst this
        exact hs1.not_pool (List.mem_cons_self ..) hb1'
    · rw [hheap3, upd_heap, hout2]
    · rw [hbufs3, upd_heap_ne (Ne.symm (hner out hoo)), hrb2, hrb]
      have e : bufs (upd σ2 out (writeAt (σ2.heap out) off (evalRows (σ.heap coef) N t x))) .polyPool = bufs σ1 .polyPool := by
        refine bufs_congr (by show σ2.pool _ = _; rw [hpool2]) hext2.size fun b hb => ?_
        have hbo : b ≠ out := by
          rintro rfl
          exact hs1.not_pool (List.mem_cons_of_mem _ hoo) hb
        have hbr : b ≠ rb := by
          rintro rfl
          exact hs1.not_pool (List.mem_cons_self ..) hb
        rw [upd_heap_ne hbo, hext2.heap b (hs1.pool_lt hb) (by simpa using hbr)]
      rw [e, hb1]
      rfl
  · refine ⟨top, htop, rfl, ext_upd _ _ _, rfl, .inl rfl, ?_, ?_, ?_, fun _ => rfl, hpure⟩
    · rw [upd_heap, length_writeAt] <;> simpa using hrbl
    · rw [upd_heap, hcoef1]
      have := window_writeAt_self (σ1.heap rb) top 0 (by rw [htop]; simpa using hrbl)
      rwa [htop] at this
    · rw [upd_heap, hcoef1]; simp [top]
  · rintro i hi res σ2 log2 ⟨cur, hcur, rfl, hext2, hpool2, hres, hresl, hwin, hrb2, hin, hval⟩
    have hcoef2 : σ2.heap coef = σ.heap coef := by
      rw [hext2.heap _ (hs1.held_lt (List.mem_cons_of_mem _ hco)) (by simpa using hner coef hco), hcoef1]
    have hin' : i * N + N ≤ (σ.heap coef).length := by
      rw [← Nat.succ_mul]
      exact (Nat.mul_le_mul_right N (by omega)).trans hcl
    simp only [Verif.forDown, body, ok_bind] at hval
    have hmul : (cur.map (mulSpec x)).length = N := by simp [hcur]
    have hxor : (xorBytes (window (σ.heap coef) (i * N) N) (cur.map (mulSpec x))).length = N := by simp [xorBytes, hcur]
    cases hp : Shamir.Arch.inPlace arch with
    | true =>
      have := hin hp; subst this
      rw [hp, if_pos rfl] at hrb2
      refine solo_bind _ _ _ _ (solo_mulP_inPlace hp hresl ?_)
      rw [hwin]
      have hml : N ≤ ((upd σ2 res (writeAt (σ2.heap res) 0 (cur.map (mulSpec x)))).heap res).length := by
        rw [upd_heap, length_writeAt] <;> simpa [hmul] using hresl
      refine solo_bind _ _ _ _ (solo_addP hml ?_ ?_)
      · rw [upd_heap_ne (hner coef hco), hcoef2]; exact hin'
      · rw [upd_heap_ne (hner coef hco), hcoef2, upd_heap, upd_upd]
        have hw := window_writeAt_self (σ2.heap res) (cur.map (mulSpec x)) 0 (by rw [hmul]; simpa using hresl)
        rw [hmul] at hw
        rw [hw, writeAt_writeAt _ _ _ _ (by rw [hxor, hmul]) (by rw [hmul]; simpa using hresl)]
        refine ⟨xorBytes (window (σ.heap coef) (i * N) N) (cur.map (mulSpec x)), hxor, rfl,
          hext2.trans (ext_upd _ _ _), hpool2, .inl rfl, ?_, ?_, ?_, fun _ => rfl, hval⟩
        · rw [upd_heap, length_writeAt (by rw [hxor]; simpa using hresl)]; exact hresl
        · rw [upd_heap]
          have := window_writeAt_self (σ2.heap res) _ 0 (by rw [hxor]; simpa using hresl)
          rwa [hxor] at this
        · rw [upd_heap, if_pos rfl, hrb2, writeAt_writeAt _ _ _ _ (by rw [hxor, hcur]) (by rw [hcur]; simpa using hrbl)]
    | false =>
      rw [hp, if_neg Bool.false_ne_true] at hrb2
      refine solo_bind _ _ _ _ (solo_mulP_new hp hresl ?_)
      rw [hwin]
      have hcn : coef < σ2.next := lt_of_lt_of_le (hs1.held_lt (List.mem_cons_of_mem _ hco)) hext2.next
      have hrn : rb < σ2.next := lt_of_lt_of_le (hs1.held_lt (List.mem_cons_self ..)) hext2.next
      refine solo_bind _ _ _ _ (solo_addP (by rw [new_heap, hmul]) ?_ ?_)
      · rw [new_heap_ne hcn, hcoef2]; exact hin'
      · rw [new_heap_ne hcn, hcoef2, new_heap, window_zero_self hmul, writeAt_zero_same (by rw [hxor, hmul])]
        refine ⟨xorBytes (window (σ.heap coef) (i * N) N) (cur.map (mulSpec x)), hxor, rfl,
          ext_upd_new (hext2.trans (ext_new _ _ _)) hext2.next _, hpool2, .inr hext2.next, ?_, ?_, ?_, fun c => absurd c (by simp), hval⟩
        · rw [upd_heap, hxor]
        · rw [upd_heap, window_zero_self hxor]
        · rw [upd_heap_ne (Nat.ne_of_lt hrn), new_heap_ne hrn, hrb2]; rfl

/-- A list that agrees with `pol` on the first positions and with `buf` after them. -/
theorem eq_writeAt {l buf pol : List Byte} (hl : l.length = buf.length) (hp : pol.length ≤ buf.length)
    (h1 : ∀ k < pol.length, l.getD k 0 = pol.getD k 0) (h2 : ∀ k, pol.length ≤ k → l.getD k 0 = buf.getD k 0) :
    l = writeAt buf 0 pol := by
  apply List.ext_getElem
  · rw [hl, length_writeAt (by simpa using hp)]
  · intro k hk hk'
    have e1 : l.getD k 0 = l[k] := by simp [List.getD_eq_getElem?_getD, List.getElem?_eq_getElem hk]
    have e2 : (writeAt buf 0 pol).getD k 0 = (writeAt buf 0 pol)[k] := by
      simp [List.getD_eq_getElem?_getD, List.getElem?_eq_getElem hk']
    rw [← e1, ← e2, getD_writeAt _ _ _ _ (by simpa using hp)]
    by_cases hkp : k < pol.length
    · rw [if_pos ⟨Nat.zero_le _, by simpa using hkp⟩, h1 k hkp]; simp
    · rw [if_neg (by simpa using hkp), h2 k (by omega)]

theorem solo_transposeP {src dst : Arr} {N t : Nat} {Q : SPost Unit} {σ : Shared} {log : List Byte}
    {pol : List Byte} (hN : 0 < N) (hne : src ≠ dst) (hsl : t * N ≤ (σ.heap src).length) (hdl : t * N ≤ (σ.heap dst).length)
    (hpol : ∀ k < t * N, (σ.heap src).getD k 0 = pol.getD k 0)
    (hQ : Q () (upd σ dst (writeAt (σ.heap dst) 0 (transposed pol t N))) log) :
    solo (transposeP src dst N t) Q σ log := by
  unfold transposeP
  refine solo_bind _ _ _ _ ?_
  have hlt : ∀ i < t * N, t * (i % N) + i / N < t * N := by
    intro i hi
    have hmod : i % N < N := Nat.mod_lt _ hN
    have hdiv : i / N < t := by rw [Nat.div_lt_iff_lt_mul hN]; exact hi
    calc t * (i % N) + i / N < t * (i % N) + t := by omega
      _ = t * (i % N + 1) := by ring
      _ ≤ t * N := Nat.mul_le_mul_left _ hmod
  refine solo_mono ?_ _ _ _ (solo_forUp (fun i st σ' log' => st = (i % N, i / N) ∧ log' = log ∧
      ∃ l, σ' = upd σ dst l ∧ l.length = (σ.heap dst).length ∧
        (∀ k < i, l.getD k 0 = pol.getD (t * (k % N) + k / N) 0) ∧ ∀ k, i ≤ k → l.getD k 0 = (σ.heap dst).getD k 0) ?_ ?_)
  · rintro st σ' log' ⟨-, rfl, l, rfl, hl, hv, hr⟩
    have : l = writeAt (σ.heap dst) 0 (transposed pol t N) := by
      apply eq_writeAt hl
      · simpa [transposed] using hdl
      · intro k hk
        have hk : k < t * N := by simpa [transposed] using hk
        rw [hv k hk]
        simp [transposed, List.getD_eq_getElem?_getD, List.getElem?_range hk]
      · intro k hk
        exact hr k (by simpa [transposed] using hk)
    rw [this]; exact hQ
  · exact ⟨by simp, rfl, σ.heap dst, (upd_self _ _).symm, rfl, fun k hk => absurd hk (Nat.not_lt_zero k), fun _ _ => rfl⟩
  · rintro i hi st σ' log' ⟨rfl, rfl, l, rfl, hl, hv, hr⟩
    refine ⟨pol.getD (t * (i % N) + i / N) 0, ?_, ?_, next_row_col hN i, rfl,
      l.set i (pol.getD (t * (i % N) + i / N) 0), ?_, ?_, ?_, ?_⟩
    · rw [upd_heap_ne hne, ← hpol _ (hlt i hi)]; exact getD_of_getElem? (lt_of_lt_of_le (hlt i hi) hsl)
    · rw [upd_heap, hl]; exact lt_of_lt_of_le hi hdl
    · rw [upd_heap, upd_upd]
    · rw [List.length_set, hl]
    · intro k hk
      rw [getD_set]
      by_cases e : i = k
      · subst e; rw [if_pos ⟨rfl, by rw [hl]; exact lt_of_lt_of_le hi hdl⟩]
      · rw [if_neg (fun c => e c.1)]; exact hv k (by omega)
    · intro k hk
      rw [getD_set, if_neg (fun c => by omega)]
      exact hr k (by omega)

theorem solo_setInterceptsP {secret : Slice} {bs : List Byte} {pb : Arr} {t : Nat} {Q : SPost Unit} {σ : Shared}
    {log : List Byte} {buf buf0 : List Byte} (ht : 0 < t) (hsh : Shows secret bs σ.heap) (hne : secret.arr ≠ pb)
    (hpb : σ.heap pb = writeAt buf0 0 buf) (hbuf : buf.length = t * secret.len) (hb0 : buf.length ≤ buf0.length)
    (hQ : Q () (upd σ pb (writeAt buf0 0 (withIntercepts bs t buf bs.length))) log) :
    solo (setInterceptsP secret pb secret.len t) Q σ log := by
  have hbs := hsh.length
  have hpl : (σ.heap pb).length = buf0.length := by rw [hpb, length_writeAt (by simpa using hb0)]
  have hwl : (withIntercepts bs t buf bs.length).length = t * secret.len := by rw [length_withIntercepts, hbuf]
  have hget : ∀ k < t * secret.len, (σ.heap pb).getD k 0 = buf.getD k 0 := by
    intro k hk
    rw [hpb, getD_writeAt _ _ _ _ (by simpa using hb0), if_pos ⟨Nat.zero_le _, by omega⟩]; simp
  unfold setInterceptsP
  refine solo_mono ?_ _ _ _ (solo_forUp (fun p _ σ' log' => log' = log ∧
      ∃ l, σ' = upd σ pb l ∧ l.length = (σ.heap pb).length ∧
      ∀ k, l.getD k 0 = if k < t * secret.len ∧ k % t = 0 ∧ k / t < p then bs.getD (k / t) 0
        else (σ.heap pb).getD k 0) ?_ ?_)
  · rintro _ σ' log' ⟨rfl, l, rfl, hl, hv⟩
    have : l = writeAt buf0 0 (withIntercepts bs t buf bs.length) := by
      apply eq_writeAt (hl.trans hpl)
      · rw [hwl, ← hbuf]; exact hb0
      · intro k hk
        rw [hwl] at hk
        rw [Own.withIntercepts_getD ht (by rw [hbuf, hbs]) (by rw [hbs]; exact hk), hv k]
        have : k / t < secret.len := by rw [Nat.div_lt_iff_lt_mul ht, Nat.mul_comm]; exact hk
        rw [hget k hk]
        simp [hk, this]
      · intro k hk
        rw [hwl] at hk
        rw [hv k, if_neg (fun c => by omega), hpb, getD_writeAt _ _ _ _ (by simpa using hb0), if_neg (fun c => by omega)]
    rw [this]; exact hQ
  · exact ⟨rfl, σ.heap pb, (upd_self _ _).symm, rfl, fun k => by simp⟩
  · rintro p hp' _ σ' log' ⟨rfl, l', rfl, hl', hv'⟩
    have hlt : t * p < t * secret.len := Nat.mul_lt_mul_of_pos_left hp' ht
    have hlp : t * p < (σ.heap pb).length := by omega
    refine ⟨bs.getD p 0, ?_, ?_, rfl, l'.set (t * p) (bs.getD p 0), ?_, ?_, ?_⟩
    · rw [upd_heap_ne hne, ← hsh.getD hp']; exact getD_of_getElem? (by have := hsh.1; omega)
    · rw [upd_heap, hl']; exact hlp
    · rw [upd_heap, upd_upd]
    · rw [List.length_set, hl']
    · intro k
      rw [getD_set]
      by_cases e : t * p = k
      · subst e
        rw [if_pos ⟨rfl, by rw [hl']; exact hlp⟩, if_pos ⟨hlt, Nat.mul_mod_right _ _, by
          rw [Nat.mul_div_cancel_left _ ht]; omega⟩, Nat.mul_div_cancel_left _ ht]
      · rw [if_neg (fun c => e c.1), hv' k]
        by_cases hm : k % t = 0
        · have hkd : k = t * (k / t) := by have := Nat.div_add_mod k t; omega
          have hne : k / t ≠ p := by intro e'; rw [e'] at hkd; exact e hkd.symm
          have : (k / t < p ↔ k / t < p + 1) := by omega
          simp [hm, this]
        · simp [hm]

/-- `mk` fills the polynomial buffer. -/
def SFills (secret : Slice) (bs : List Byte) (t : Nat) (mk : Arr → Prog Unit)
    (P : List Byte → List Byte → List Byte → Prop) : Prop :=
  ∀ (pb : Arr) (σ : Shared) (log : List Byte) (Q : SPost Unit), secret.arr ≠ pb → t * secret.len ≤ (σ.heap pb).length →
    Shows secret bs σ.heap →
    (∀ vs pol, pol.length = t * secret.len → P (window (σ.heap pb) 0 (t * secret.len)) vs pol →
      Q () (upd σ pb (writeAt (σ.heap pb) 0 pol)) (log ++ vs)) →
    solo (mk pb) Q σ log

theorem shows_upd {secret : Slice} {bs : List Byte} {σ : Shared} {pb : Arr} {l : List Byte} (hsh : Shows secret bs σ.heap)
    (hne : secret.arr ≠ pb) : Shows secret bs (upd σ pb l).heap := by
  obtain ⟨h1, h2⟩ := hsh
  refine ⟨by rw [upd_heap_ne hne]; exact h1, ?_⟩
  rw [← h2]; simp only [contents, upd_heap_ne hne]

theorem sfills_rand {secret : Slice} {bs : List Byte} {t : Nat} (ht : 0 < t) :
    SFills secret bs t (makePolynomialsP secret secret.len t) (fun _ vs pol =>
      vs.length = t * bs.length ∧ pol = withIntercepts bs t vs bs.length) := by
  intro pb σ log Q hne hpl hsh hQ
  have hbs := hsh.length
  unfold makePolynomialsP
  refine solo_bind _ _ _ _ ?_
  refine solo_mono ?_ _ _ _ (solo_forUp (fun i _ σ' log' =>
      ∃ vs l, log' = log ++ vs ∧ vs.length = i ∧ σ' = upd σ pb l ∧ l = writeAt (σ.heap pb) 0 vs) ?_ ?_)
  · rintro _ σ' log' ⟨vs, l, rfl, hvs, rfl, rfl⟩
    refine solo_setInterceptsP (buf := vs) (buf0 := σ.heap pb) ht (shows_upd hsh hne) hne (upd_heap ..) hvs (by omega) ?_
    rw [upd_upd]
    exact hQ vs _ (by rw [length_withIntercepts, hvs]) ⟨by rw [hbs]; exact hvs, rfl⟩
  · exact ⟨[], _, by simp, rfl, by simp [writeAt, upd_self], rfl⟩
  · rintro i hi _ σ' log' ⟨vs, l, rfl, hvs, rfl, rfl⟩ v
    refine ⟨?_, vs ++ [v], _, by simp, by simp [hvs], ?_, rfl⟩
    · rw [upd_heap, length_writeAt (by omega)]; omega
    · rw [upd_heap, upd_upd]
      congr 1
      have := writeAt_snoc (σ.heap pb) vs 0 v (by omega)
      rw [Nat.zero_add, hvs] at this
      exact this

theorem sfills_randomizer {secret : Slice} {bs : List Byte} {t : Nat} (r : CSPRNG) (ht : 0 < t) :
    SFills secret bs t (makePolynomialsRandomizerP r secret secret.len t) (fun stale vs pol => vs = [] ∧
      pol = withIntercepts bs t (r.read stale) bs.length) := by
  intro pb σ log Q hne hpl hsh hQ
  have hbs := hsh.length
  have hrl : (r.read (window (σ.heap pb) 0 (t * secret.len))).length = t * secret.len := by rw [length_read]; simp
  unfold makePolynomialsRandomizerP
  refine solo_bind _ _ _ _ ?_
  refine solo_mono ?_ _ _ _ (solo_forUp (fun i _ σ' log' => log' = log ∧
      ∃ l, σ' = upd σ pb l ∧ l.length = (σ.heap pb).length ∧
        ∀ k, l.getD k 0 = if k < i then (σ.heap pb).getD k 0 ^^^ r.ks k else (σ.heap pb).getD k 0) ?_ ?_)
  · rintro _ σ' log' ⟨rfl, l, rfl, hl, hv⟩
    have e : l = writeAt (σ.heap pb) 0 (r.read (window (σ.heap pb) 0 (t * secret.len))) := by
      apply eq_writeAt hl
      · rw [hrl]; exact hpl
      · intro k hk
        rw [hrl] at hk
        rw [hv k, if_pos hk, read_getD _ _ (by simpa using hk), window_getD hk, Nat.zero_add]
      · intro k hk
        rw [hrl] at hk
        rw [hv k, if_neg (by omega)]
    refine solo_setInterceptsP (buf := r.read (window (σ.heap pb) 0 (t * secret.len))) (buf0 := σ.heap pb) ht
      (shows_upd hsh hne) hne (by rw [upd_heap]; exact e) hrl (by rw [hrl]; exact hpl) ?_
    rw [upd_upd]
    have := hQ [] _ (by rw [length_withIntercepts, hrl]) ⟨rfl, rfl⟩
    rwa [List.append_nil] at this
  · exact ⟨rfl, σ.heap pb, (upd_self _ _).symm, rfl, fun k => by simp⟩
  · rintro i hi _ σ' log' ⟨rfl, l, rfl, hl, hv⟩
    have hil : i < l.length := by omega
    refine ⟨(σ.heap pb).getD i 0, ?_, ?_, rfl, l.set i ((σ.heap pb).getD i 0 ^^^ r.ks i), ?_, ?_, ?_⟩
    · rw [upd_heap, getD_of_getElem? hil, hv i, if_neg (by omega)]
    · rw [upd_heap]; exact hil
    · rw [upd_heap, upd_upd]
    · rw [List.length_set, hl]
    · intro k
      rw [getD_set, hv k]
      by_cases e : i = k
      · subst e
        rw [if_pos ⟨rfl, hil⟩, if_pos (by omega)]
      · rw [if_neg (fun c => e c.1)]
        have : (k < i ↔ k < i + 1) := by omega
        simp [this]

/-- A temporary buffer. -/
theorem solo_acquireP {pooled : Bool} {n : Nat} {Q : SPost Arr} {σ : Shared} {held : List Arr} {log : List Byte}
    (hs : Sep σ held)
    (hQ : ∀ a σ', Sep σ' (a :: held) → Ext [] σ σ' → σ'.pool .polyPool = σ.pool .polyPool →
      σ'.heap a = (if pooled then ((bufs σ .bPool).get.1.grow n).mem else List.replicate n 0) →
      bufs σ' .bPool = (if pooled then (bufs σ .bPool).get.2 else bufs σ .bPool) → Q a σ' log) :
    solo (acquireP pooled n) Q σ log := by
  unfold acquireP
  cases pooled
  · refine hQ _ _ (hs.new _) (ext_new _ _ _) rfl ?_ ?_
    · rw [new_heap]; rfl
    · exact bufs_congr rfl rfl fun a ha => new_heap_ne (hs.pool_lt ha)
  · refine solo_take hs ?_
    intro a σ' h1 h2 h3 h4 h5
    exact hQ a σ' h1 h2 (by rw [h3, Function.update_of_ne (by decide)]) h4 h5

theorem solo_releaseP {pooled : Bool} {a : Arr} {Q : SPost Unit} {σ : Shared} {held : List Arr} {log : List Byte}
    (hs : Sep σ (a :: held))
    (hQ : ∀ σ', Sep σ' held → σ'.heap = σ.heap → σ'.size = σ.size → σ'.pool .polyPool = σ.pool .polyPool →
      bufs σ' .bPool = (if pooled then (bufs σ .bPool).put ⟨σ.heap a⟩ else bufs σ .bPool) → Q () σ' log) :
    solo (releaseP pooled a) Q σ log := by
  unfold releaseP
  cases pooled
  · exact hQ σ (hs.mono rfl le_rfl (List.sublist_cons_self _ _)) rfl rfl rfl rfl
  · refine solo_give hs ?_
    intro σ' h1 h2 _ h3 h4 h5
    exact hQ σ' h1 h2 h3 (h4 _ (by decide)) h5

/-- `bPool` after a Split. -/
def bAfter (pooled : Bool) (pool : BytesBufferPool) (pol coef : List Byte) : BytesBufferPool :=
  if pooled then bPoolAfter pool pol coef else pool

/-- What the polynomial buffer holds when it is obtained. -/
def staleOf (pooled : Bool) (pool : BytesBufferPool) (n : Nat) : List Byte :=
  if pooled then staleBuf pool n else List.replicate n 0

theorem evalRows_congr {l pol : List Byte} {N t : Nat} {x : Byte} (hN : 0 < N)
    (h : ∀ k < t * N, l.getD k 0 = (transposed pol t N).getD k 0) :
    evalRows l N t x = (rowsOf pol t N).map fun row => evalC row x := by
  unfold evalRows rowsOf
  rw [List.map_map]
  apply List.map_congr_left
  intro p hp
  have hp : p < N := by simpa using hp
  simp only [Function.comp]
  rw [rows_eval _ _ N]
  congr 1
  refine Finset.sum_congr rfl fun k hk => ?_
  have hk : k < t := by simpa using hk
  have hlt : k * N + p < t * N := by
    calc k * N + p < k * N + N := by omega
      _ = (k + 1) * N := by ring
      _ ≤ t * N := Nat.mul_le_mul_right _ hk
  rw [h _ hlt, transposed_get hk hp]

theorem window_top {l pol : List Byte} {N t : Nat} (ht : 0 < t)
    (h : ∀ k < t * N, l.getD k 0 = (transposed pol t N).getD k 0) :
    window l ((t - 1) * N) N = (rowsOf pol t N).map fun row => row.getD (t - 1) 0 := by
  rw [rowsOf_top ht]
  unfold window
  apply List.map_congr_left
  intro p hp
  have hp : p < N := by simpa using hp
  have hlt : (t - 1) * N + p < t * N := by
    calc (t - 1) * N + p < (t - 1) * N + N := by omega
      _ = (t - 1 + 1) * N := by ring
      _ = t * N := by congr 1; omega
  rw [h _ hlt, transposed_get (by omega) hp]

theorem solo_sharesP (arch : Arch) {secret : Slice} {bs : List Byte} {n t : Nat} {xs : List Byte} {pooled : Bool}
    {mk : Arr → Prog Unit} {P : List Byte → List Byte → List Byte → Prop} (hfill : SFills secret bs t mk P)
    {Q : SPost (Outcome (List Slice))} {σ : Shared} {held : List Arr} {log : List Byte} (ht : 0 < t)
    (hN : 0 < secret.len) (hs : Sep σ held) (hsec : secret.arr ∈ held) (hsh : Shows secret bs σ.heap)
    (hQ : ∀ buff σ' vs pol, Sep σ' (buff :: held) → pol.length = t * secret.len →
      P (staleOf pooled (bufs σ .bPool) (t * secret.len)) vs pol →
      (σ'.heap buff).length = (secret.len + 1) * n →
      (layout buff secret.len n).map (contents σ'.heap) = (shareTags n xs).map (shareOf (rowsOf pol t secret.len)) →
      poolsOf σ' = ⟨bAfter pooled (bufs σ .bPool) pol (transposed pol t secret.len),
        polyAfter arch (rowsOf pol t secret.len) t xs (bufs σ .polyPool) n⟩ →
      Q (ok (layout buff secret.len n)) σ' (log ++ vs)) :
    solo (sharesP arch secret.len n t xs pooled mk) Q σ log := by
  unfold sharesP
  generalize hNe : secret.len = N at *
  let tg : Nat → Byte := fun i => xs.getD i 0 + 1#8
  show solo _ _ (new σ (List.replicate ((N + 1) * n) 0)) log
  refine solo_bind _ _ _ _ ?_
  -- the tags
  refine solo_mono ?_ _ _ _ (solo_forUp (fun i _ σ' log' => log' = log ∧
      ∃ l, σ' = new σ l ∧ l.length = (N + 1) * n ∧ ∀ j < i, l.getD ((N + 1) * j + N) 0 = tg j) ?_ ?_)
  rotate_left
  · exact ⟨rfl, _, rfl, by simp, fun j hj => absurd hj (Nat.not_lt_zero j)⟩
  · rintro i hi _ σ' log' ⟨rfl, l, rfl, hl, htag⟩
    refine ⟨?_, rfl, l.set ((N + 1) * i + N) (tg i), ?_, ?_, ?_⟩
    · rw [new_heap, hl]; exact Own.slot_lt hi le_rfl
    · simp [upd, new, tg]
    · rw [List.length_set, hl]
    · intro j hj
      rw [getD_set]
      by_cases e : i = j
      · subst e; rw [if_pos ⟨rfl, by rw [hl]; exact Own.slot_lt hi le_rfl⟩]
      · rw [if_neg (fun c => e (Own.slot_inj le_rfl le_rfl c.1).1)]
        exact htag j (by omega)
  rintro _ σ1 log1 ⟨rfl, lt, rfl, hlt, htag⟩
  have hs1 := hs.new lt
  generalize hbuff : σ.next = buff at *
  have hbufs1 : ∀ p, bufs (new σ lt) p = bufs σ p := fun p => bufs_congr rfl rfl fun a ha => new_heap_ne (hs.pool_lt ha)
  have hsh1 : Shows secret bs (new σ lt).heap := by
    have e : (new σ lt).heap secret.arr = σ.heap secret.arr := new_heap_ne (hs.held_lt hsec)
    exact ⟨by rw [e]; exact hsh.1, by rw [← hsh.2]; simp only [contents, e]⟩
  have hb1 : (new σ lt).heap buff = lt := by rw [← hbuff]; exact new_heap ..
  generalize new σ lt = σ1 at *
  -- the polynomial buffer
  refine solo_bind _ _ _ _ (solo_acquireP (held := buff :: held) hs1 ?_)
  intro pb σ2 hs2 hext2 hpp2 hpb2 hbb2
  have hgrow : ∀ (b : Bool) (pool : BytesBufferPool) (m : Nat),
      m ≤ (if b then (pool.get.1.grow m).mem else List.replicate m 0).length := by
    intro b pool m
    cases b
    · simp
    · exact length_grow _ _
  have hpbl : t * N ≤ (σ2.heap pb).length := by rw [hpb2]; exact hgrow _ _ _
  have held2 : ∀ b ∈ buff :: held, σ2.heap b = σ1.heap b := fun b hb => hext2.heap b (hs1.held_lt hb) (by simp)
  have hnepb : ∀ b ∈ buff :: held, b ≠ pb := by
    rintro b hb rfl
    exact (List.nodup_cons.1 hs2.nodup).1 (List.mem_append_left _ hb)
  have hsh2 : Shows secret bs σ2.heap := by
    have e := held2 secret.arr (List.mem_cons_of_mem _ hsec)
    exact ⟨by rw [e]; exact hsh1.1, by rw [← hsh1.2]; simp only [contents, e]⟩
  refine solo_bind _ _ _ _ (hfill pb σ2 log1 _ (hnepb _ (List.mem_cons_of_mem _ hsec)) (by rw [hNe]; exact hpbl) hsh2 ?_)
  intro vs pol hpoll hP
  rw [hNe] at hpoll hP
  have hstale : window (σ2.heap pb) 0 (t * N) = staleOf pooled (bufs σ .bPool) (t * N) := by
    have e : ∀ l : List Byte, t * N ≤ l.length → window l 0 (t * N) = l.take (t * N) := by
      intro l hl
      rw [show l.take (t * N) = (l.drop 0).take (t * N) by simp, window_eq (by omega)]
      rfl
    rw [e _ hpbl, hpb2, hbufs1]
    unfold staleOf staleBuf
    cases pooled <;> simp
  rw [hstale] at hP
  -- the transposed buffer
  have hs2' : Sep (upd σ2 pb (writeAt (σ2.heap pb) 0 pol)) (pb :: buff :: held) := hs2.mono rfl le_rfl (List.Sublist.refl _)
  have hbufs2' : ∀ p, bufs (upd σ2 pb (writeAt (σ2.heap pb) 0 pol)) p = bufs σ2 p := fun p => by
    refine bufs_congr rfl rfl fun a ha => upd_heap_ne ?_
    rintro rfl; exact hs2.not_pool (List.mem_cons_self ..) ha
  refine solo_bind _ _ _ _ (solo_acquireP (held := pb :: buff :: held) hs2' ?_)
  intro tb σ3 hs3 hext3 hpp3 htb3 hbb3
  have htbl : t * N ≤ (σ3.heap tb).length := by rw [htb3]; exact hgrow _ _ _
  have hnetb : ∀ b ∈ pb :: buff :: held, b ≠ tb := by
    rintro b hb rfl
    exact (List.nodup_cons.1 hs3.nodup).1 (List.mem_append_left _ hb)
  have held3 : ∀ b ∈ buff :: held, σ3.heap b = σ1.heap b := fun b hb => by
    rw [hext3.heap b (hs2'.held_lt (List.mem_cons_of_mem _ hb)) (by simp), upd_heap_ne (hnepb b hb), held2 b hb]
  have hpb3 : σ3.heap pb = writeAt (σ2.heap pb) 0 pol := by
    rw [hext3.heap pb (hs2'.held_lt (List.mem_cons_self ..)) (by simp), upd_heap]
  have hbuff3 : σ3.heap buff = lt := by rw [held3 buff (List.mem_cons_self ..), hb1]
  have hpol3 : ∀ k < t * N, (σ3.heap pb).getD k 0 = pol.getD k 0 := by
    intro k hk
    rw [hpb3, getD_writeAt _ _ _ _ (by rw [hpoll]; simpa using hpbl), if_pos ⟨Nat.zero_le _, by omega⟩]; simp
  refine solo_bind _ _ _ _ (solo_transposeP hN (hnetb pb (List.mem_cons_self ..))
    (by rw [hpb3, length_writeAt (by rw [hpoll]; simpa using hpbl)]; exact hpbl) htbl hpol3 ?_)
  have htl : (transposed pol t N).length = t * N := by simp [transposed]
  have hs4 : Sep (upd σ3 tb (writeAt (σ3.heap tb) 0 (transposed pol t N))) (tb :: pb :: buff :: held) :=
    hs3.mono rfl le_rfl (List.Sublist.refl _)
  have hbufs4 : ∀ p, bufs (upd σ3 tb (writeAt (σ3.heap tb) 0 (transposed pol t N))) p = bufs σ3 p := fun p => by
    refine bufs_congr rfl rfl fun a ha => upd_heap_ne ?_
    rintro rfl; exact hs3.not_pool (List.mem_cons_self ..) ha
  have hbuff4 : (upd σ3 tb (writeAt (σ3.heap tb) 0 (transposed pol t N))).heap buff = lt := by
    rw [upd_heap_ne (hnetb buff (by simp)), hbuff3]
  have hpb4 : (upd σ3 tb (writeAt (σ3.heap tb) 0 (transposed pol t N))).heap pb = writeAt (σ2.heap pb) 0 pol := by
    rw [upd_heap_ne (hnetb pb (by simp)), hpb3]
  have htb4 : (upd σ3 tb (writeAt (σ3.heap tb) 0 (transposed pol t N))).heap tb
      = writeAt (σ3.heap tb) 0 (transposed pol t N) := upd_heap ..
  have hpoly4 : bufs (upd σ3 tb (writeAt (σ3.heap tb) 0 (transposed pol t N))) .polyPool = bufs σ .polyPool := by
    rw [hbufs4, bufs_ext hext3 hpp3 (fun a ha => ⟨hs2'.pool_lt ha, by simp⟩), hbufs2',
      bufs_ext hext2 hpp2 (fun a ha => ⟨hs1.pool_lt ha, by simp⟩), hbufs1]
  have hbpool4 := hbufs4 .bPool
  rw [hbb3, hbufs2', hbb2, hbufs1] at hbpool4
  generalize upd σ3 tb (writeAt (σ3.heap tb) 0 (transposed pol t N)) = σ4 at *
  have htbv : ∀ k < t * N, (σ4.heap tb).getD k 0 = (transposed pol t N).getD k 0 := by
    intro k hk
    rw [htb4, getD_writeAt _ _ _ _ (by rw [htl]; simpa using htbl), if_pos ⟨Nat.zero_le _, by omega⟩]; simp
  have htb4l : t * N ≤ (σ4.heap tb).length := by
    rw [htb4, length_writeAt (by rw [htl]; simpa using htbl)]; exact htbl
  -- evaluation
  refine solo_bind _ _ _ _ ?_
  refine solo_mono ?_ _ _ _ (solo_forUp (fun i _ σ' log' => log' = log1 ++ vs ∧ Sep σ' (tb :: pb :: buff :: held) ∧
      σ'.heap tb = σ4.heap tb ∧ σ'.heap pb = σ4.heap pb ∧ bufs σ' .bPool = bufs σ4 .bPool ∧
      bufs σ' .polyPool = polyAfter arch (rowsOf pol t N) t xs (bufs σ .polyPool) i ∧
      (σ'.heap buff).length = (N + 1) * n ∧
      (∀ j < n, (σ'.heap buff).getD ((N + 1) * j + N) 0 = tg j) ∧
      ∀ j < i, ∀ p < N, (σ'.heap buff).getD ((N + 1) * j + p) 0
        = ((rowsOf pol t N).map fun row => evalC row (tg j)).getD p 0) ?_ ?_)
  · rintro _ σ5 log5 ⟨rfl, hs5, htb5, hpb5, hbb5, hpp5, hl5, htag5, hv5⟩
    refine solo_bind _ _ _ _ (solo_releaseP (held := pb :: buff :: held) hs5 ?_)
    intro σ6 hs6 hh6 hsz6 hpp6 hbb6
    refine solo_bind _ _ _ _ (solo_releaseP (held := buff :: held) hs6 ?_)
    intro σ7 hs7 hh7 hsz7 hpp7 hbb7
    have hheap7 : σ7.heap = σ5.heap := hh7.trans hh6
    refine hQ buff σ7 vs pol hs7 hpoll hP (by rw [hheap7]; exact hl5) ?_ ?_
    · unfold layout shareTags
      rw [List.map_map, List.map_map]
      apply List.map_congr_left
      intro i hi
      have hi : i < n := by simpa using hi
      simp only [Function.comp_apply]
      rw [Own.contents_eq]
      · rw [hheap7]
        apply Own.window_shareOf
        · intro p hp
          rw [hv5 i hi p hp]
          simp only [rowsOf, List.map_map, List.getD_eq_getElem?_getD (l := List.map _ _), List.getElem?_map,
            List.getElem?_range hp, Option.map_some, Option.getD_some, Function.comp]
          rw [rows_eval _ _ N]
        · exact htag5 i hi
      · show (N + 1) * i + (N + 1) ≤ (σ7.heap buff).length
        rw [hheap7, hl5, ← Nat.mul_succ]; exact Nat.mul_le_mul_left _ hi
    · have e1 : bufs σ7 .polyPool = bufs σ5 .polyPool :=
        bufs_congr (hpp7.trans hpp6) (hsz7.trans hsz6) fun a _ => by rw [hheap7]
      unfold poolsOf
      rw [e1, hpp5, hbb7, hbb6, hbb5, hbpool4, hh6, htb5, hpb5, htb4, hpb4, htb3, hbufs2', hbb2, hpb2, hbufs1]
      unfold bAfter bPoolAfter
      rw [hpoll]
      cases pooled <;> rfl
  · exact ⟨rfl, hs4, rfl, rfl, rfl, hpoly4, by rw [hbuff4]; exact hlt, by rw [hbuff4]; exact htag,
      fun j hj => absurd hj (Nat.not_lt_zero j)⟩
  · rintro i hi _ σ5 log5 ⟨rfl, hs5, htb5, hpb5, hbb5, hpp5, hl5, htag5, hv5⟩
    have hlen : (N + 1) * i + N ≤ (σ5.heap buff).length := by rw [hl5]; exact (Own.slot_lt hi le_rfl).le
    have hntb : tb ≠ buff := Ne.symm (hnetb buff (by simp))
    have hnpb : pb ≠ buff := Ne.symm (hnepb buff (by simp))
    refine solo_evaluateP ht hs5 (List.mem_cons_self ..) (by rw [htb5]; exact htb4l) (by simp) hlen ?_
    intro σ6 hs6 hsz6 hbp6 hh6 hb6 hpp6
    rw [htb5] at hb6 hpp6
    rw [evalRows_congr hN htbv] at hb6 hpp6
    rw [window_top ht htbv, hpp5] at hpp6
    have hel : ((rowsOf pol t N).map fun row => evalC row (tg i)).length = N := by simp [rowsOf]
    have hrl : (rowsOf pol t N).length = N := by simp [rowsOf]
    refine ⟨rfl, hs6, ?_, ?_, ?_, ?_, ?_, ?_, ?_⟩
    · rw [hh6 tb (.inl (by simp)) hntb, htb5]
    · rw [hh6 pb (.inl (by simp)) hnpb, hpb5]
    · rw [← hbb5]
      refine bufs_congr hbp6 hsz6 fun a ha => hh6 a (.inr ha) ?_
      rintro rfl
      exact hs5.not_pool (by simp) ha
    · rw [hpp6, polyAfter, hrl]
    · rw [hb6, length_writeAt (by show (N + 1) * i + ((rowsOf pol t N).map fun row => evalC row (tg i)).length ≤ _; rw [hel]; exact hlen), hl5]
    · intro j hj
      rw [hb6, getD_writeAt _ _ _ _ (by show (N + 1) * i + ((rowsOf pol t N).map fun row => evalC row (tg i)).length ≤ _; rw [hel]; exact hlen)]
      rw [if_neg, htag5 j hj]
      show ¬ ((N + 1) * i ≤ (N + 1) * j + N ∧ (N + 1) * j + N < (N + 1) * i + ((rowsOf pol t N).map fun row => evalC row (tg i)).length)
      rw [hel]
      rintro ⟨ha, hb⟩
      obtain ⟨k, hk⟩ := Nat.exists_eq_add_of_le ha
      have := Own.slot_inj le_rfl (show k ≤ N by omega) hk
      omega
    · intro j hj p hp
      rw [hb6, getD_writeAt _ _ _ _ (by show (N + 1) * i + ((rowsOf pol t N).map fun row => evalC row (tg i)).length ≤ _; rw [hel]; exact hlen)]
      show (if (N + 1) * i ≤ (N + 1) * j + p ∧ (N + 1) * j + p < (N + 1) * i + ((rowsOf pol t N).map fun row => evalC row (tg i)).length then
        ((rowsOf pol t N).map fun row => evalC row (tg i)).getD ((N + 1) * j + p - (N + 1) * i) 0 else _) = _
      rw [hel]
      by_cases e : i = j
      · subst e
        rw [if_pos ⟨by omega, by omega⟩]
        congr 1; omega
      · rw [if_neg, hv5 j (by omega) p hp]
        rintro ⟨ha, hb⟩
        obtain ⟨k, hk⟩ := Nat.exists_eq_add_of_le ha
        exact e (Own.slot_inj (show p ≤ N by omega) (show k ≤ N by omega) hk).1.symm

end Verif.Proofs.Alone
