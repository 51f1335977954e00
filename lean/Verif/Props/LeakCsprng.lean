import Verif.Proofs.LeakCsprng
import Verif.Props.Worker
import Verif.Props.LeakCalls
import Mathlib.Data.Set.Card

/-! # C87: what time and caches show of the random source

`r.ks i` is byte `i` of the key stream of the source. -/

namespace Verif.Props
open Verif Outcome Galois Spec Proofs Csprng Krawczyk Worker Leak

/-- C87: recording does not change what is computed. -/
theorem C87_same_results (r : CSPRNG) (fuel : Nat) (n : Byte) :
    (Leak.perm r n).out = r.perm n ∧ (Leak.getUniqueBytes r fuel n).out = r.getUniqueBytes fuel n :=
  ⟨out_perm r n, out_getUniqueBytes r fuel n⟩

theorem permT_inj {r r' : CSPRNG} {n : Nat} : (List.range (n - 2)).flatMap (permT r n) = (List.range (n - 2)).flatMap (permT r' n) ↔
    ∀ i < n - 2, (r.ks i).toNat % (n - i) = (r'.ks i).toNat % (n - i) := by
  rw [flatMap_inj (T := permT r n) (T' := permT r' n) (fun i => rfl)]
  refine forall₂_congr fun i hi => ?_
  unfold permT swapPos
  constructor
  · intro h
    simp only [List.cons.injEq, Ev.elem.injEq, true_and, and_true] at h
    omega
  · intro h
    rw [h]

/-- C87: the positions that Perm(n) accesses are exactly the first n-2 bytes of the key stream, byte i modulo n-i. -/
theorem C87_perm_shows (r r' : CSPRNG) (n : Byte) (hn : 3 ≤ n.toNat) (l l' : List Byte) (h : r.perm n = ok l) (h' : r'.perm n = ok l') :
    (Leak.perm r n).trace = (Leak.perm r' n).trace ↔ ∀ i < n.toNat - 2, (r.ks i).toNat % (n.toNat - i) = (r'.ks i).toNat % (n.toNat - i) := by
  rw [trace_perm (by omega) h, trace_perm (by omega) h', ← permT_inj]
  simp

/-- C87: the same in the package randomizer: the positions that Perm(n) accesses are exactly the next n-1 bytes of its key stream, byte i modulo n-1-i. -/
theorem C87_randomizer_perm_shows (r1 r2 r1' r2' : Randomizer.Randomizer) (n : Byte) (l1 l2 : List Byte)
    (h1 : r1.perm n = ok (l1, r1')) (h2 : r2.perm n = ok (l2, r2')) :
    (Leak.rperm r1 n).out = r1.perm n ∧ ((Leak.rperm r1 n).trace = (Leak.rperm r2 n).trace ↔
      ∀ i < n.toNat - 1, (r1.ks (r1.pos + i)).toNat % (n.toNat - 1 - i) = (r2.ks (r2.pos + i)).toNat % (n.toNat - 1 - i)) := by
  refine ⟨out_rperm r1 n, ?_⟩
  rw [trace_rperm h1, trace_rperm h2]
  simp only [List.cons_append, List.cons.injEq, true_and, List.append_cancel_left_eq]
  rw [flatMap_inj (T := rpermT r1 n.toNat) (T' := rpermT r2 n.toNat) (fun i => rfl)]
  refine forall₂_congr fun i hi => ?_
  simp [rpermT]

/-- C87: so what an observer sees of one Perm is what it returned. -/
theorem C87_perm_result (r r' : CSPRNG) (n : Byte) (hn : 3 ≤ n.toNat) (l l' : List Byte) (h : r.perm n = ok l) (h' : r'.perm n = ok l')
    (ht : (Leak.perm r n).trace = (Leak.perm r' n).trace) : l = l' := by
  have hm := (C87_perm_shows r r' n hn l l' h h').1 ht
  have e : r.perm n = r'.perm n := by
    unfold CSPRNG.perm
    rw [loop_count (by omega : 2 ≤ n.toNat), read_zeros, read_zeros]
    simp only []
    congr 1
    funext u
    apply forUp_congr
    intro i hi s
    have hi' : i < n.toNat := by omega
    have hlt := n.isLt
    have e1 : (n - BitVec.ofNat 8 i).toNat = n.toNat - i := by
      rw [BitVec.toNat_sub, BitVec.toNat_ofNat]; omega
    have e2 : r.ks i % (n - BitVec.ofNat 8 i) = r'.ks i % (n - BitVec.ofNat 8 i) := by
      apply BitVec.eq_of_toNat_eq
      rw [BitVec.toNat_umod, BitVec.toNat_umod, e1, hm i hi]
    have hk : ∀ f : Nat → Byte, Verif.idx ((List.range n.toNat).map f) i = ok (f i) := fun f => by
      rw [idx_ok (by simpa using hi')]
      simp
    rw [hk, hk]
    simp only [ok_bind, e2]
  rw [e, h'] at h
  exact (Outcome.ok.inj h).symm

/-- C87: the same in the package randomizer. -/
theorem C87_randomizer_perm_result (r1 r2 r1' r2' : Randomizer.Randomizer) (n : Byte) (l1 l2 : List Byte)
    (h1 : r1.perm n = ok (l1, r1')) (h2 : r2.perm n = ok (l2, r2')) (ht : (Leak.rperm r1 n).trace = (Leak.rperm r2 n).trace) : l1 = l2 := by
  have hm := (C87_randomizer_perm_shows r1 r2 r1' r2' n l1 l2 h1 h2).2.1 ht
  have hlt := n.isLt
  have hn : 1 ≤ n.toNat := by
    by_contra hc
    have : n = 0#8 := BitVec.eq_of_toNat_eq (by have : (0#8 : Byte).toNat = 0 := rfl; omega)
    rw [this, rperm_zero] at h1
    cases h1
  have one : (1#8 : Byte).toNat = 1 := rfl
  have hn1 : (n - 1#8).toNat = n.toNat - 1 := by
    rw [BitVec.toNat_sub]
    omega
  have key : ∀ m ≤ n.toNat - 1,
      forUp m (rpermBody ((List.range n.toNat).map fun i => r1.ks (r1.pos + i))) (identBytes n.toNat, n - 1#8)
        = forUp m (rpermBody ((List.range n.toNat).map fun i => r2.ks (r2.pos + i))) (identBytes n.toNat, n - 1#8) ∧
      ∀ st, forUp m (rpermBody ((List.range n.toNat).map fun i => r2.ks (r2.pos + i))) (identBytes n.toNat, n - 1#8) = ok st →
        st.2.toNat = n.toNat - 1 - m := by
    intro m
    induction m with
    | zero =>
      refine fun _ => ⟨rfl, fun st h => ?_⟩
      cases h
      simpa using hn1
    | succ m ih =>
      intro hm1
      obtain ⟨i1, i2⟩ := ih (by omega)
      simp only [forUp, i1]
      cases hst : forUp m (rpermBody ((List.range n.toNat).map fun i => r2.ks (r2.pos + i))) (identBytes n.toNat, n - 1#8) with
      | ok st =>
        have hI := i2 st hst
        obtain ⟨b, mx⟩ := st
        simp only at hI
        have hne : ¬ mx = 0 := by
          rintro rfl
          have h0 : (0 : Byte).toNat = 0 := rfl
          omega
        have e2 : r1.ks (r1.pos + m) % mx = r2.ks (r2.pos + m) % mx := by
          apply BitVec.eq_of_toNat_eq
          rw [BitVec.toNat_umod, BitVec.toNat_umod, hI, hm m (by omega)]
        simp only [ok_bind]
        unfold rpermBody
        simp only
        rw [idx_ok (by simp; omega), idx_ok (by simp; omega)]
        simp only [List.getElem_map, List.getElem_range, ok_bind, e2, if_neg hne]
        refine ⟨trivial, fun st h => ?_⟩
        obtain ⟨a, -, h⟩ := bind_eq_ok.1 h
        obtain ⟨c, -, h⟩ := bind_eq_ok.1 h
        cases h
        simp only
        rw [BitVec.toNat_sub, one]
        omega
      | _ => exact ⟨rfl, fun st h => by cases h⟩
  rw [rperm_unfold, hn1] at h1 h2
  rw [(key _ le_rfl).1] at h1
  obtain ⟨st, a, b⟩ := bind_eq_ok.1 h1
  rw [a] at h2
  cases b
  cases h2
  rfl

/-- The trace of GetUniqueBytes from 20 bytes on. -/
theorem trace_unique_big {r : CSPRNG} {fuel : Nat} {n : Byte} (hn : 20 ≤ n.toNat) {l : List Byte} (h : r.getUniqueBytes fuel n = ok l) :
    ∃ p, r.perm 255#8 = ok p ∧ (Leak.getUniqueBytes r fuel n).trace = .branch true :: (Leak.perm r 255#8).trace ++ [.window 0 n.toNat] := by
  rw [getUnique_big hn] at h
  obtain ⟨p, hp, h⟩ := bind_eq_ok.1 h
  refine ⟨p, hp, ?_⟩
  have hge : 20#8 ≤ n := hn
  have ht : (test (20#8 ≤ n)).out = ok true := by simp [hge]
  unfold Leak.getUniqueBytes
  rw [trace_bind _ _ ht]
  simp only [if_true]
  rw [trace_bind _ _ (by rw [out_perm]; exact hp)]
  have e : (test (20#8 ≤ n)).trace = [.branch true] := by simp [test, hge]
  rw [e]
  rfl

/-- C87: so do those that GetUniqueBytes(n), n >= 20, accesses: byte i modulo 255-i. -/
theorem C87_unique_big_shows (r r' : CSPRNG) (fuel fuel' : Nat) (n : Byte) (hn : 20 ≤ n.toNat) (l l' : List Byte)
    (h : r.getUniqueBytes fuel n = ok l) (h' : r'.getUniqueBytes fuel' n = ok l') :
    (Leak.getUniqueBytes r fuel n).trace = (Leak.getUniqueBytes r' fuel' n).trace ↔
      ∀ i < 253, (r.ks i).toNat % (255 - i) = (r'.ks i).toNat % (255 - i) := by
  obtain ⟨p, hp, e⟩ := trace_unique_big hn h
  obtain ⟨p', hp', e'⟩ := trace_unique_big hn h'
  rw [e, e']
  refine Iff.trans ?_ (C87_perm_shows r r' 255#8 (by decide) p p' hp hp')
  simp

theorem byte_of_mod {b b' : Byte} {i : Nat} (hi : i < 127) (h : b.toNat % (255 - i) = b'.toNat % (255 - i)) :
    b'.toNat = b.toNat ∨ b'.toNat = b.toNat + (255 - i) ∨ b.toNat = b'.toNat + (255 - i) := by
  have h1 := b.isLt
  have h2 := b'.isLt
  have e1 := Nat.div_add_mod b.toNat (255 - i)
  have e2 := Nat.div_add_mod b'.toNat (255 - i)
  have l1 : b.toNat / (255 - i) < 2 := by rw [Nat.div_lt_iff_lt_mul (by omega)]; omega
  have l2 : b'.toNat / (255 - i) < 2 := by rw [Nat.div_lt_iff_lt_mul (by omega)]; omega
  generalize b.toNat / (255 - i) = q at *
  generalize b'.toNat / (255 - i) = q' at *
  interval_cases q <;> interval_cases q' <;> omega

/-- C87: bytes of the key stream that lie between i and 255-i (i their position) are shown completely. -/
theorem C87_unique_big_determines (r r' : CSPRNG) (fuel fuel' : Nat) (n : Byte) (hn : 20 ≤ n.toNat) (l l' : List Byte)
    (h : r.getUniqueBytes fuel n = ok l) (h' : r'.getUniqueBytes fuel' n = ok l')
    (htr : (Leak.getUniqueBytes r fuel n).trace = (Leak.getUniqueBytes r' fuel' n).trace) (i : Nat) (hi : i < 127)
    (h1 : i < (r.ks i).toNat) (h2 : (r.ks i).toNat < 255 - i) : r'.ks i = r.ks i := by
  have := byte_of_mod hi ((C87_unique_big_shows r r' fuel fuel' n hn l l' h h').1 htr i (by omega))
  have hb := (r'.ks i).isLt
  apply BitVec.eq_of_toNat_eq
  omega

/-- C87: what one call of GetUniqueBytes(n), n >= 20, shows leaves at most 2^16 of the 2^128 keys possible that krawczyk.SplitWithRandomizer uses
(the first 16 bytes of the key stream). -/
theorem C87_few_keys (T : List Ev) :
    {key : List Byte | ∃ (r : CSPRNG) (fuel : Nat) (n : Byte) (l : List Byte), 20 ≤ n.toNat ∧ r.getUniqueBytes fuel n = ok l ∧
      (Leak.getUniqueBytes r fuel n).trace = T ∧ key = (List.range 16).map r.ks}.encard ≤ 65536 := by
  classical
  by_cases hne : ∃ (r : CSPRNG) (fuel : Nat) (n : Byte) (l : List Byte), 20 ≤ n.toNat ∧ r.getUniqueBytes fuel n = ok l ∧
      (Leak.getUniqueBytes r fuel n).trace = T
  · obtain ⟨r, fuel, n, l, hn, h, hT⟩ := hne
    obtain ⟨p, hp, e⟩ := trace_unique_big hn h
    have e := hT.symm.trans e
    let f : (Fin 16 → Bool) → List Byte := fun c => (List.range 16).map fun i =>
      if h : i < 16 then (if c ⟨i, h⟩ then r.ks i else
        if (r.ks i).toNat < 255 - i then BitVec.ofNat 8 ((r.ks i).toNat + (255 - i)) else BitVec.ofNat 8 ((r.ks i).toNat - (255 - i))) else 0
    have hsub : {key : List Byte | ∃ (r : CSPRNG) (fuel : Nat) (n : Byte) (l : List Byte), 20 ≤ n.toNat ∧ r.getUniqueBytes fuel n = ok l ∧
      (Leak.getUniqueBytes r fuel n).trace = T ∧ key = (List.range 16).map r.ks} ⊆ Set.range f := by
      rintro key ⟨r', fuel', n', l', hn', h', hT', rfl⟩
      obtain ⟨p', hp', e'⟩ := trace_unique_big hn' h'
      have e' := hT'.symm.trans e'
      have htr : (Leak.perm r 255#8).trace = (Leak.perm r' 255#8).trace := by
        have := e.symm.trans e'
        simp only [List.cons_append, List.cons.injEq, true_and] at this
        exact (List.append_inj' this rfl).1
      have hm := (C87_perm_shows r r' 255#8 (by decide) p p' hp hp').1 htr
      refine ⟨fun i => decide (r'.ks i = r.ks i), ?_⟩
      apply List.map_congr_left
      intro i hi
      have hi : i < 16 := List.mem_range.1 hi
      rw [dif_pos hi]
      by_cases hd : r'.ks i = r.ks i
      · rw [if_pos (by simpa using hd), hd]
      · rw [if_neg (by simpa using hd)]
        have h255 : (255#8 : Byte).toNat = 255 := rfl
        have hm := hm i (by omega)
        rw [h255] at hm
        have hb := (r.ks i).isLt
        have hb' := (r'.ks i).isLt
        have hne : (r'.ks i).toNat ≠ (r.ks i).toNat := fun h => hd (BitVec.eq_of_toNat_eq h)
        rcases byte_of_mod (by omega) hm with h | h | h
        · exact absurd h hne
        · rw [if_pos (by omega)]
          apply BitVec.eq_of_toNat_eq
          rw [BitVec.toNat_ofNat]
          omega
        · rw [if_neg (by omega)]
          apply BitVec.eq_of_toNat_eq
          rw [BitVec.toNat_ofNat]
          omega
    refine (Set.encard_le_encard hsub).trans ?_
    rw [← Set.image_univ]
    refine (Set.encard_image_le _ _).trans ?_
    rw [Set.encard_univ]
    simp
  · have : {key : List Byte | ∃ (r : CSPRNG) (fuel : Nat) (n : Byte) (l : List Byte), 20 ≤ n.toNat ∧ r.getUniqueBytes fuel n = ok l ∧
      (Leak.getUniqueBytes r fuel n).trace = T ∧ key = (List.range 16).map r.ks} = ∅ := by
      refine Set.eq_empty_of_forall_notMem ?_
      rintro key ⟨r, fuel, n, l, h1, h2, h3, -⟩
      exact hne ⟨r, fuel, n, l, h1, h2, h3⟩
    rw [this]
    simp

/-- C87: for n < 20, the branches that GetUniqueBytes(n) takes are exactly which bytes of the key stream occur among the results before. -/
theorem C87_unique_small_branches (r r' : CSPRNG) (fuel fuel' : Nat) (n : Byte) (hn : n.toNat < 20) (l l' : List Byte)
    (h : r.getUniqueBytes fuel n = ok l) (h' : r'.getUniqueBytes fuel' n = ok l') :
    (Leak.getUniqueBytes r fuel n).trace.map Ev.blind = (Leak.getUniqueBytes r' fuel' n).trace.map Ev.blind ↔
      ∀ i < n.toNat, (r.ks i ∈ l.take i ↔ r'.ks i ∈ l'.take i) := by
  obtain ⟨-, -, e⟩ := trace_unique hn h
  obtain ⟨-, -, e'⟩ := trace_unique hn h'
  rw [e, e', List.cons.injEq, List.cons.injEq]
  constructor
  · rintro ⟨-, -, h⟩ i hi
    rw [List.range_eq_range'] at h
    have := uniqT_inj _ _ _ _ h i (by omega) (by omega)
    simpa [dup] using this
  · intro h
    refine ⟨rfl, rfl, List.flatMap_congr fun i hi => ?_⟩
    have := h i (List.mem_range.1 hi)
    unfold dup
    rw [decide_eq_decide.2 this]

/-- C87: for n < 20, the bytes returned together with the branches taken are exactly the first n bytes of the key stream. -/
theorem C87_unique_small (r r' : CSPRNG) (fuel fuel' : Nat) (n : Byte) (hn : n.toNat < 20) (l l' : List Byte)
    (h : r.getUniqueBytes fuel n = ok l) (h' : r'.getUniqueBytes fuel' n = ok l') :
    (l = l' ∧ (Leak.getUniqueBytes r fuel n).trace.map Ev.blind = (Leak.getUniqueBytes r' fuel' n).trace.map Ev.blind) ↔
      ∀ i < n.toNat, r.ks i = r'.ks i := by
  obtain ⟨hl, hv, -⟩ := trace_unique hn h
  obtain ⟨hl', hv', -⟩ := trace_unique hn h'
  rw [C87_unique_small_branches r r' fuel fuel' n hn l l' h h']
  have d0 : ∀ (r : CSPRNG) (l : List Byte), dup r l 0 = false := fun r l => by simp [dup]
  constructor
  · rintro ⟨rfl, hb⟩ i hi
    have k0 : r.ks 0 = r'.ks 0 := by
      have a := hv 0 (by omega)
      have b := hv' 0 (by omega)
      rw [d0] at a b
      simpa using a.symm.trans b
    have hd : dup r l i = dup r' l i := by
      unfold dup
      rw [decide_eq_decide.2 (hb i hi)]
    have := (hv i hi).symm.trans (hv' i hi)
    rw [hd, k0, Option.some.injEq] at this
    split at this
    · exact (BitVec.xor_left_inj _).1 this
    · exact this
  · intro hk
    have key : ∀ m ≤ n.toNat, l.take m = l'.take m := by
      intro m
      induction m with
      | zero => intro _; rfl
      | succ m ih =>
        intro hm
        have ih := ih (by omega)
        rw [List.take_add_one, List.take_add_one, ih, hv m (by omega), hv' m (by omega), hk m (by omega), hk 0 (by omega)]
        have hd : dup r l m = dup r' l' m := by
          unfold dup
          rw [ih, hk m (by omega)]
        rw [hd]
    refine ⟨?_, fun i hi => by rw [key i (by omega), hk i hi]⟩
    have := key n.toNat le_rfl
    rwa [List.take_of_length_le (by omega), List.take_of_length_le (by omega)] at this

/-- C87: so the tags of one split of a worker into 16 to 19 shares, by either algorithm, and the branches taken to make them, determine the key of
all its krawczyk splits: two workers which do not differ in these, and whose krawczyk shares at one position below the threshold do not differ,
have split secrets that agree in the piece this share carries. -/
theorem C87_worker_key (env env' : Env) (hc : env.lib.Contract) (hc' : env'.lib.Contract) (fuel1 fuel2 fuel1' fuel2' : Nat) (w1 w2 : Worker.Worker)
    (alg1 alg2 : String) (input1 input2 s1 s2 : List Byte) (n k1 k2 n' k' : Int) (ps1 qs1 ps2 qs2 ps1' qs1' ps2' qs2' : Shamir.Pools)
    (sh1 sh2 sh1' sh2' : List (List Byte)) (hn : 16 ≤ n) (h20 : n < 20)
    (h1 : w1.split env fuel1 alg1 input1 n k1 ps1 = ok (sh1, qs1)) (h2 : w2.split env fuel2 alg2 input2 n k2 ps2 = ok (sh2, qs2))
    (htags : sh1.map (shownTag alg1) = sh2.map (shownTag alg2))
    (htr : (Leak.getUniqueBytes w1.r fuel1 (BitVec.ofInt 8 n)).trace.map Ev.blind = (Leak.getUniqueBytes w2.r fuel2 (BitVec.ofInt 8 n)).trace.map Ev.blind)
    (hl : s1.length = s2.length)
    (h1' : w1.split env' fuel1' "krawczyk" s1 n' k' ps1' = ok (sh1', qs1')) (h2' : w2.split env' fuel2' "krawczyk" s2 n' k' ps2' = ok (sh2', qs2'))
    (i j : Nat) (hi : (i : Int) < k') (hj : j < ceilDiv s1.length k'.toNat) (hq : i * ceilDiv s1.length k'.toNat + j < s1.length)
    (hs : sh1'.getD i [] = sh2'.getD i []) :
    s1.getD (i * ceilDiv s1.length k'.toNat + j) 0 = s2.getD (i * ceilDiv s1.length k'.toNat + j) 0 := by
  obtain ⟨⟨a1, a2⟩, xs1, hx1, ht1⟩ := split_tags hc h1
  obtain ⟨-, xs2, hx2, ht2⟩ := split_tags hc h2
  have e := ofInt_toNat (parts := n) (by omega) a2
  have hxs : xs1 = xs2 := by
    have := ht1.symm.trans (htags.trans ht2)
    exact List.map_injective_iff.2 add_one_injective this
  have hk := (C87_unique_small w1.r w2.r fuel1 fuel2 (BitVec.ofInt 8 n) (by omega) xs1 xs2 hx1 hx2).1 ⟨hxs, htr⟩
  have hkey : (List.range 16).map w1.r.ks = (List.range 16).map w2.r.ks :=
    List.map_congr_left fun i hi => hk i (by have := List.mem_range.1 hi; omega)
  rw [split_krawczyk] at h1' h2'
  have b1 := C43_C44_data_share env' hc' fuel1' s1 n' k' w1.r ps1' qs1' sh1' h1' i j hi hj hq
  have b2 := C43_C44_data_share env' hc' fuel2' s2 n' k' w2.r ps2' qs2' sh2' h2' i j hi (by rw [← hl]; exact hj) (by rw [← hl]; exact hq)
  rw [← hs, b1, ← hl, ← hkey] at b2
  exact (BitVec.xor_left_inj _).1 b2

/-- C87: with fewer than 20 parts, the tags, the branches taken to make them, and one share of shamir.SplitWithRandomizer on empty pools determine
the first bytes of the secret: those at the positions j with threshold*(j+1) <= parts. -/
theorem C87_splitWithRandomizer (arch : Arch) (fuel fuel' : Nat) (s s' : List Byte) (hl : s.length = s'.length) (parts threshold : Int)
    (hp : parts < 20) (r r' : CSPRNG) (ps ps' qs qs' : Shamir.Pools) (he : ps.bPool.ch = []) (he' : ps'.bPool.ch = []) (out out' : List (List Byte))
    (h : Shamir.splitWithRandomizer arch fuel s parts threshold r ps = ok (out, qs))
    (h' : Shamir.splitWithRandomizer arch fuel' s' parts threshold r' ps' = ok (out', qs')) (htags : out.map tag = out'.map tag)
    (htr : (Leak.getUniqueBytes r fuel (BitVec.ofInt 8 parts)).trace.map Ev.blind = (Leak.getUniqueBytes r' fuel' (BitVec.ofInt 8 parts)).trace.map Ev.blind)
    (i j : Nat) (sh sh' : List Byte) (hi : out[i]? = some sh) (hi' : out'[i]? = some sh') (hj : j < s.length)
    (hjp : threshold.toNat * (j + 1) ≤ parts.toNat) (hb : sh[j]? = sh'[j]?) : s[j]? = s'[j]? := by
  obtain ⟨hv, -, -, xs, hx, ht⟩ := splitWithRandomizer_ok arch fuel h
  obtain ⟨hv', -, -, xs', hx', ht'⟩ := splitWithRandomizer_ok arch fuel' h'
  have e := ofInt_toNat (parts := parts) (by have := hv.1; have := hv.2.2.1; omega) hv.2.1
  have hxs : xs = xs' := List.map_injective_iff.2 add_one_injective (ht.symm.trans (htags.trans ht'))
  have hk := (C87_unique_small r r' fuel fuel' (BitVec.ofInt 8 parts) (by omega) xs xs' hx hx').1 ⟨hxs, htr⟩
  rw [e] at hk
  subst hxs
  have hzero : ∀ {p : Shamir.Pools} {n i : Nat}, p.bPool.ch = [] → i < n → leftOver p n i = 0 := by
    intro p n i hp hi
    have := staleBuf_empty hp n
    unfold staleBuf at this
    unfold leftOver
    rw [List.getD_eq_getElem?_getD, ← List.getElem?_take_of_lt hi, this]
    simp [hi]
  obtain ⟨pp, e1⟩ := splitWithRandomizer_payload arch fuel r ps hv xs hx
  obtain ⟨pp', e2⟩ := splitWithRandomizer_payload arch fuel' r' ps' hv' xs hx'
  rw [h] at e1
  rw [h'] at e2
  have e1 := (Prod.mk.inj (Outcome.ok.inj e1)).1
  have e2 := (Prod.mk.inj (Outcome.ok.inj e2)).1
  rw [e1, List.getElem?_map] at hi
  rw [e2, List.getElem?_map] at hi'
  obtain ⟨x, hxi, rfl⟩ := Option.map_eq_some_iff.1 hi
  rw [hxi, Option.map_some, Option.some.injEq] at hi'
  subst hi'
  have hlt : ∀ {k : Nat}, k < threshold.toNat → threshold.toNat * j + k < threshold.toNat * s.length := by
    intro k hk
    calc threshold.toNat * j + k < threshold.toNat * j + threshold.toNat := by omega
      _ = threshold.toNat * (j + 1) := by ring
      _ ≤ threshold.toNat * s.length := Nat.mul_le_mul_left _ hj
  have hm : mask threshold.toNat (r.read (staleBuf ps.bPool (threshold.toNat * s.length))) j (x + 1#8)
      = mask threshold.toNat (r'.read (staleBuf ps'.bPool (threshold.toNat * s'.length))) j (x + 1#8) := by
    unfold mask
    refine Finset.sum_congr rfl fun k hk' => ?_
    obtain ⟨k1, k2⟩ := Finset.mem_Ico.1 hk'
    rw [← hl, read_staleBuf r ps (hlt k2), read_staleBuf r' ps' (hlt k2), hzero he (hlt k2), hzero he' (hlt k2),
      hk (threshold.toNat * j + k) (by rw [Nat.mul_succ] at hjp; omega)]
  have get : ∀ {s buf : List Byte}, j < s.length → (rShare s buf threshold.toNat x)[j]?
      = some (s.getD j 0 ^^^ (mask threshold.toNat buf j (x + 1#8)).val) := by
    intro s buf hj
    unfold rShare
    rw [List.getElem?_append_left (by simpa using hj), List.getElem?_map, List.getElem?_range hj]
    rfl
  rw [get hj, get (by omega), hm, Option.some.injEq] at hb
  have := (BitVec.xor_left_inj _).1 hb
  simpa [List.getD_eq_getElem?_getD, List.getElem?_eq_getElem hj, List.getElem?_eq_getElem (hl ▸ hj : j < s'.length)] using this

/-! ## Concrete cases -/

/-- Two sources that return the same three bytes, but take different branches: the second byte of the first one occurred before. -/
example : (⟨fun i => [7, 7, 9].getD i 0⟩ : CSPRNG).getUniqueBytes 2 3 = ok [7, 0, 9] ∧ (⟨fun i => [7, 0, 9].getD i 0⟩ : CSPRNG).getUniqueBytes 2 3 = ok [7, 0, 9] ∧
    (Leak.getUniqueBytes ⟨fun i => [7, 7, 9].getD i 0⟩ 2 3).trace.map Ev.blind
      ≠ (Leak.getUniqueBytes ⟨fun i => [7, 0, 9].getD i 0⟩ 2 3).trace.map Ev.blind := by
  have h1 : (⟨fun i => [7, 7, 9].getD i 0⟩ : CSPRNG).getUniqueBytes 2 3 = ok [7, 0, 9] := by decide +kernel
  have h2 : (⟨fun i => [7, 0, 9].getD i 0⟩ : CSPRNG).getUniqueBytes 2 3 = ok [7, 0, 9] := by decide +kernel
  refine ⟨h1, h2, fun h => ?_⟩
  have := (C87_unique_small _ _ 2 2 3 (by decide) _ _ h1 h2).1 ⟨rfl, h⟩ 1 (by decide)
  exact absurd this (by decide)

/-- Two sources that Perm(5) does not tell apart: only byte 0 modulo 5, byte 1 modulo 4 and byte 2 modulo 3 matter. -/
example : (Leak.perm ⟨fun i => BitVec.ofNat 8 (3 * i)⟩ 5).trace = (Leak.perm ⟨fun i => [5, 7, 3].getD i 0⟩ 5).trace ∧
    (Leak.perm ⟨fun i => BitVec.ofNat 8 (3 * i)⟩ 5).trace ≠ (Leak.perm ⟨fun i => [5, 7, 4].getD i 0⟩ 5).trace := by
  have ok1 : ∀ r : CSPRNG, (r.ks 0).toNat % 5 ≠ 4 → ∃ l, r.perm 5 = ok l := fun r h => by
    obtain ⟨l, hl, -⟩ := perm_ok (r := r) (n := 5) (by decide) (fun _ => h)
    exact ⟨l, hl⟩
  obtain ⟨a, ha⟩ := ok1 ⟨fun i => BitVec.ofNat 8 (3 * i)⟩ (by decide)
  obtain ⟨b, hb⟩ := ok1 ⟨fun i => [5, 7, 3].getD i 0⟩ (by decide)
  obtain ⟨c, hc⟩ := ok1 ⟨fun i => [5, 7, 4].getD i 0⟩ (by decide)
  refine ⟨(C87_perm_shows _ _ 5 (by decide) a b ha hb).2 (by decide), fun h => ?_⟩
  have := (C87_perm_shows _ _ 5 (by decide) a c ha hc).1 h 2 (by decide)
  exact absurd this (by decide)

/-- The package randomizer: Perm(5) at position 2 of the key stream, where the next bytes are 9, 4, 7, 6 or 1, 1, 1, 200. -/
example : ∃ l r1', (⟨fun i => [3, 3, 9, 4, 7, 6].getD i 0, 2⟩ : Randomizer.Randomizer).perm 5 = ok (l, r1') ∧
    ∀ l2 r2', (⟨fun i => [1, 1, 1, 200].getD i 0, 0⟩ : Randomizer.Randomizer).perm 5 = ok (l2, r2') → l2 = l := by
  obtain ⟨l, r1', h1, -, -⟩ := rperm_spec (⟨fun i => [3, 3, 9, 4, 7, 6].getD i 0, 2⟩ : Randomizer.Randomizer) (n := 5) (by decide)
  refine ⟨l, r1', h1, fun l2 r2' h2 => ?_⟩
  refine (C87_randomizer_perm_result _ _ r1' r2' 5 l l2 h1 h2 ?_).symm
  exact (C87_randomizer_perm_shows _ _ r1' r2' 5 l l2 h1 h2).2.2 (by decide)

/-- A source whose first 16 bytes are all shown by the accesses of GetUniqueBytes(20). -/
example (r' : CSPRNG) (fuel' : Nat) (l' : List Byte) (h' : r'.getUniqueBytes fuel' 20 = ok l')
    (htr : (Leak.getUniqueBytes ⟨fun i => BitVec.ofNat 8 (100 + i)⟩ 1 20).trace = (Leak.getUniqueBytes r' fuel' 20).trace) :
    ∀ i < 16, r'.ks i = BitVec.ofNat 8 (100 + i) := by
  intro i hi
  have hx := getUnique_big_ok (r := ⟨fun i => BitVec.ofNat 8 (100 + i)⟩) (n := 20) (by decide) (by decide) 1
  obtain ⟨l, hl⟩ : ∃ l, (⟨fun i => BitVec.ofNat 8 (100 + i)⟩ : CSPRNG).getUniqueBytes 1 20 = ok l := by
    obtain ⟨l, hl, -⟩ := hx
    exact ⟨l, hl⟩
  refine C87_unique_big_determines _ r' 1 fuel' 20 (by decide) l l' hl h' htr i (by omega) ?_ ?_
  · show i < (BitVec.ofNat 8 (100 + i)).toNat
    rw [BitVec.toNat_ofNat]; omega
  · show (BitVec.ofNat 8 (100 + i)).toNat < 255 - i
    rw [BitVec.toNat_ofNat]; omega

/-- A split into 16 shares on empty pools whose key stream is 1, 2, 3, ...: the hypotheses of `C87_splitWithRandomizer` are met. -/
example (s : List Byte) (hs : s.length = 4) : ∃ out qs,
    Shamir.splitWithRandomizer .noasm 2 s 16 4 ⟨fun i => BitVec.ofNat 8 (i + 1)⟩ (Shamir.Pools.init 1) = ok (out, qs) ∧ (Shamir.Pools.init 1).bPool.ch = [] := by
  have hv : ValidArgs s 16 4 := ⟨by decide, by decide, by decide, fun h => by rw [h] at hs; cases hs⟩
  obtain ⟨pp, e⟩ := splitWithRandomizer_payload .noasm 2 (⟨fun i => BitVec.ofNat 8 (i + 1)⟩ : CSPRNG) (Shamir.Pools.init 1) hv
    [1, 2, 3, 4, 5, 6, 7, 8, 9, 10, 11, 12, 13, 14, 15, 16] (by decide +kernel)
  exact ⟨_, _, e, rfl⟩

end Verif.Props
