import Verif.Proofs.Interp
import Verif.Model.Csprng
import Verif.Model.Randomizer

/-! # csprng.Perm, csprng.GetUniqueBytes, randomizer.Perm -/

namespace Verif.Proofs
open Verif Outcome Csprng Randomizer

/-- 0, 1, ..., n-1 as bytes -/
def identBytes (n : Nat) : List Byte := (List.range n).map (BitVec.ofNat 8)

@[simp] theorem length_identBytes (n : Nat) : (identBytes n).length = n := by simp [identBytes]

theorem identBytes_nodup {n : Nat} (h : n ≤ 256) : (identBytes n).Nodup := by
  refine List.Nodup.map_on ?_ List.nodup_range
  intro a ha b hb e
  have ha : a < n := by simpa using ha
  have hb : b < n := by simpa using hb
  have := congrArg BitVec.toNat e
  simp only [BitVec.toNat_ofNat] at this
  omega

theorem fillIdent (n : Nat) (l : List Byte) (hl : l.length = n) :
    forUp n (fun i buff => setIdx buff i (BitVec.ofNat 8 i)) l = ok (identBytes n) := by
  rw [forUp_fill (fun i => BitVec.ofNat 8 i) (by omega), filled_all hl.symm]
  · rfl
  · intro i hi
    exact setIdx_filled (by omega) rfl

theorem read_zeros (r : CSPRNG) (n : Nat) : r.read (List.replicate n 0) = (List.range n).map r.ks := by
  apply List.ext_getElem
  · simp [CSPRNG.read]
  · intro k h1 h2
    simp [CSPRNG.read]

/-- one iteration of the shuffle -/
def permBody (r : CSPRNG) (n : Byte) (i : Nat) (buff : List Byte) : Outcome (List Byte) := do
  let s ← idx ((List.range n.toNat).map r.ks) i
  if n - BitVec.ofNat 8 i = 0 then panic
  let j : Byte := 1 + s % (n - BitVec.ofNat 8 i)
  let temp ← idx buff i
  let bj ← idx buff j.toNat
  let buff ← setIdx buff i bj
  setIdx buff j.toNat temp

theorem perm_unfold (r : CSPRNG) (n : Byte) :
    r.perm n = forUp (n - 2#8).toNat (permBody r n) (identBytes n.toNat) := by
  unfold CSPRNG.perm
  dsimp only
  rw [fillIdent _ _ (by simp), ok_bind, read_zeros]
  rfl

/-- the position swapped with position `i` -/
def swapPos (r : CSPRNG) (n i : Nat) : Nat := 1 + (r.ks i).toNat % (n - i)

/-- swap the entries `i` and `j` -/
def swapBody (j i : Nat) (buff : List Byte) : Outcome (List Byte) := do
  let temp ← idx buff i
  let bj ← idx buff j
  let buff ← setIdx buff i bj
  setIdx buff j temp

theorem permBody_pos (r : CSPRNG) (n : Byte) (i : Nat) (hi : i < n.toNat) :
    permBody r n i = swapBody (swapPos r n.toNat i) i := by
  have hn := n.isLt
  funext buff
  have e1 : (n - BitVec.ofNat 8 i).toNat = n.toNat - i := by
    rw [BitVec.toNat_sub, BitVec.toNat_ofNat]; omega
  have hne : ¬ n - BitVec.ofNat 8 i = 0 := by
    intro h
    have := congrArg BitVec.toNat h
    rw [e1] at this
    have h0 : (0 : Byte).toNat = 0 := rfl
    omega
  have e2 : (1 + r.ks i % (n - BitVec.ofNat 8 i)).toNat = swapPos r n.toNat i := by
    have : (r.ks i).toNat % (n.toNat - i) < n.toNat - i := Nat.mod_lt _ (by omega)
    rw [BitVec.toNat_add, BitVec.toNat_umod, e1, swapPos]
    have h1 : (1 : Byte).toNat = 1 := rfl
    rw [h1]; omega
  unfold permBody swapBody
  rw [idx_ok (by simpa using hi), ok_bind, if_neg hne]
  simp only [List.getElem_map, List.getElem_range, e2, Outcome.pure_eq, ok_bind]

theorem perm_small {r : CSPRNG} {n : Byte} (h : n.toNat < 2) : r.perm n = panic := by
  rw [perm_unfold]
  have : n = 0#8 ∨ n = 1#8 := by
    rcases Nat.lt_or_ge n.toNat 1 with h1 | h1
    · left; apply BitVec.eq_of_toNat_eq; simp; omega
    · right; apply BitVec.eq_of_toNat_eq; simp; omega
  rcases this with rfl | rfl
  · refine forUp_fail (k := 0) (by decide) (fun _ => identBytes (0#8).toNat) rfl (by omega) ?_ (by simp)
    unfold permBody
    rw [idx_panic (by simp)]; rfl
  · refine forUp_fail (k := 0) (by decide) (fun _ => identBytes (1#8).toNat) rfl (by omega) ?_ (by simp)
    rw [permBody_pos r 1#8 0 (by decide)]
    unfold swapBody
    rw [idx_ok (by simp), ok_bind, idx_panic]
    · rfl
    · simp [swapPos]

theorem loop_count {n : Byte} (h : 2 ≤ n.toNat) : (n - 2#8).toNat = n.toNat - 2 := by
  have hn := n.isLt
  rw [BitVec.toNat_sub]
  have : (2#8 : Byte).toNat = 2 := rfl
  omega

theorem perm_panic {r : CSPRNG} {n : Byte} (h : 3 ≤ n.toNat) (hk : (r.ks 0).toNat % n.toNat = n.toNat - 1) :
    r.perm n = panic := by
  rw [perm_unfold, loop_count (by omega)]
  refine forUp_fail (k := 0) (by omega) (fun _ => identBytes n.toNat) rfl (by omega) ?_ (by simp)
  rw [permBody_pos r n 0 (by omega)]
  unfold swapBody
  rw [idx_ok (by simp; omega), ok_bind, idx_panic]
  · rfl
  · simp [swapPos, hk]; omega

theorem perm_ok {r : CSPRNG} {n : Byte} (h : 2 ≤ n.toNat)
    (hk : 3 ≤ n.toNat → (r.ks 0).toNat % n.toNat ≠ n.toNat - 1) :
    ∃ l, r.perm n = ok l ∧ l.Perm (identBytes n.toNat) := by
  rw [perm_unfold, loop_count (by omega)]
  refine forUp_inv (P := fun (_ : Nat) (l : List Byte) => l.Perm (identBytes n.toNat)) (List.Perm.refl _) ?_
  intro i hi l hl
  have hlen : l.length = n.toNat := by simpa using hl.length_eq
  have hj : swapPos r n.toNat i < l.length := by
    rw [hlen]
    have hmod : (r.ks i).toNat % (n.toNat - i) < n.toNat - i := Nat.mod_lt _ (by omega)
    unfold swapPos
    rcases Nat.eq_zero_or_pos i with h0 | h0
    · subst h0
      have := hk (by omega)
      simp only [Nat.sub_zero] at hmod ⊢
      omega
    · omega
  rw [permBody_pos r n i (by omega)]
  unfold swapBody
  refine ⟨(l.set i l[swapPos r n.toNat i]).set (swapPos r n.toNat i) l[i], ?_, ?_⟩
  · rw [idx_ok (by omega), ok_bind, idx_ok hj, ok_bind, setIdx_ok (by omega), ok_bind, setIdx_ok (by simpa using hj)]
  · exact (List.set_set_perm (by omega) hj).trans hl

theorem perm_two (r : CSPRNG) : r.perm 2#8 = ok [0#8, 1#8] := by
  rw [perm_unfold]
  have : (2#8 - 2#8 : Byte).toNat = 0 := by decide
  rw [this]
  rfl

/-- csprng.Perm decided by its first key stream byte -/
theorem perm_cases (r : CSPRNG) (n : Byte) :
    (r.perm n = panic ∧ (n.toNat < 2 ∨ 3 ≤ n.toNat ∧ (r.ks 0).toNat % n.toNat = n.toNat - 1)) ∨
    (∃ l, r.perm n = ok l ∧ l.Perm (identBytes n.toNat)) ∧
      ¬ (n.toNat < 2 ∨ 3 ≤ n.toNat ∧ (r.ks 0).toNat % n.toNat = n.toNat - 1) := by
  by_cases h : n.toNat < 2 ∨ 3 ≤ n.toNat ∧ (r.ks 0).toNat % n.toNat = n.toNat - 1
  · left
    refine ⟨?_, h⟩
    rcases h with h | ⟨h1, h2⟩
    · exact perm_small h
    · exact perm_panic h1 h2
  · right
    refine ⟨?_, h⟩
    obtain ⟨h1, h2⟩ := not_or.1 h
    exact perm_ok (by omega) (fun h3 h4 => h2 ⟨h3, h4⟩)

/-! ## GetUniqueBytes -/

theorem uniqueLoop_fresh (r : CSPRNG) {seen : List Byte} {b : Byte} (h : b ∉ seen) (fuel : Nat) :
    r.uniqueLoop seen (fuel + 1) b = ok b := by
  simp [CSPRNG.uniqueLoop, h]

theorem uniqueLoop_step (r : CSPRNG) {seen : List Byte} {b : Byte} (h : b ∈ seen) (fuel : Nat) :
    r.uniqueLoop seen (fuel + 1) b = r.uniqueLoop seen fuel (b ^^^ r.ks 0) := by
  rw [CSPRNG.uniqueLoop, if_pos h]
  simp [CSPRNG.read, idx]

theorem uniqueLoop_flip (r : CSPRNG) {seen : List Byte} {b : Byte} (h : b ∈ seen) (h' : b ^^^ r.ks 0 ∉ seen)
    (fuel : Nat) : r.uniqueLoop seen (fuel + 2) b = ok (b ^^^ r.ks 0) := by
  rw [uniqueLoop_step r h, uniqueLoop_fresh r h']

theorem xor_xor_cancel (b k : Byte) : b ^^^ k ^^^ k = b := by
  rw [BitVec.xor_assoc, BitVec.xor_self, BitVec.xor_zero]

theorem uniqueLoop_spin (r : CSPRNG) {seen : List Byte} {b : Byte} (h : b ∈ seen) (h' : b ^^^ r.ks 0 ∈ seen)
    (fuel : Nat) : r.uniqueLoop seen fuel b = spin := by
  induction fuel generalizing b with
  | zero => rfl
  | succ n ih =>
    rw [uniqueLoop_step r h]
    exact ih h' (by rw [xor_xor_cancel]; exact h)

/-- {v, v xor k0}: the values the re-reading loop can reach from v -/
def orbit (r : CSPRNG) (v : Byte) : Finset Byte := {v, v ^^^ r.ks 0}

/-- how many of the first `n` key stream bytes lie in the orbit of `v` -/
def orbitCount (r : CSPRNG) (n : Nat) (v : Byte) : Nat := ((List.range n).filter fun i => r.ks i ∈ orbit r v).length

theorem orbit_self (r : CSPRNG) (v : Byte) : v ∈ orbit r v := by simp [orbit]
theorem orbit_flip (r : CSPRNG) (v : Byte) : v ^^^ r.ks 0 ∈ orbit r v := by simp [orbit]

theorem orbit_eq {r : CSPRNG} {u v : Byte} (h : u ∈ orbit r v) : orbit r u = orbit r v := by
  simp only [orbit, Finset.mem_insert, Finset.mem_singleton] at h ⊢
  rcases h with rfl | rfl
  · rfl
  · rw [xor_xor_cancel, Finset.pair_comm]

theorem mem_orbit_symm {r : CSPRNG} {u v : Byte} : u ∈ orbit r v ↔ v ∈ orbit r u := by
  constructor
  · intro h; rw [orbit_eq h]; exact orbit_self r v
  · intro h; rw [orbit_eq h]; exact orbit_self r u

theorem orbitCount_succ (r : CSPRNG) (n : Nat) (v : Byte) :
    orbitCount r (n + 1) v = orbitCount r n v + if r.ks n ∈ orbit r v then 1 else 0 := by
  unfold orbitCount
  rw [List.range_succ, List.filter_append, List.length_append]
  by_cases h : r.ks n ∈ orbit r v <;> simp [h]

/-- one iteration of GetUniqueBytes' loop -/
def uniqueBody (r : CSPRNG) (fuel : Nat) (i : Nat) (st : List Byte × List Byte) : Outcome (List Byte × List Byte) := do
  let (buff, isExist) := st
  let b ← idx buff i
  let b ← r.uniqueLoop isExist fuel b
  let buff ← setIdx buff i b
  pure (buff, b :: isExist)

/-- Loop invariant: the first `i` entries are the distinct values recorded so far, the rest is untouched,
and every orbit contains as many recorded values as key stream bytes. -/
def UInv (r : CSPRNG) (n i : Nat) (st : List Byte × List Byte) : Prop :=
  st.1.length = n ∧ (∀ k, i ≤ k → k < n → st.1[k]? = some (r.ks k)) ∧ st.1.take i = st.2.reverse ∧ st.2.Nodup ∧
  (∀ v, (st.2.toFinset ∩ orbit r v).card = orbitCount r i v) ∧ ∀ k < i, ∃ b, st.1[k]? = some b ∧ b ∈ orbit r (r.ks k)

theorem uinv_init (r : CSPRNG) (n : Nat) : UInv r n 0 ((List.range n).map r.ks, []) := by
  refine ⟨by simp, ?_, by simp, by simp, ?_, by omega⟩
  · intro k _ hk; simp [hk]
  · intro v; simp [orbitCount]

theorem ustep_value {r : CSPRNG} {n i : Nat} {st : List Byte × List Byte} (hi : i < n) (h : UInv r n i st)
    {b : Byte} (hb : b ∉ st.2) (ho : b ∈ orbit r (r.ks i)) : UInv r n (i + 1) (st.1.set i b, b :: st.2) := by
  obtain ⟨h1, h2, h3, h4, h5, h6⟩ := h
  refine ⟨by simpa using h1, ?_, ?_, by simp [hb, h4], ?_, ?_⟩
  · intro k hk hkn
    rw [List.getElem?_set_ne (by omega)]
    exact h2 k (by omega) hkn
  · have hl : i < (st.1.set i b).length := by simp; omega
    rw [List.take_add_one, List.getElem?_eq_getElem hl, List.take_set_of_le (le_refl _), h3]
    simp
  · intro v
    rw [orbitCount_succ, ← h5 v, List.toFinset_cons]
    by_cases hv : r.ks i ∈ orbit r v
    · have hbv : b ∈ orbit r v := by rw [← orbit_eq hv]; exact ho
      rw [if_pos hv, Finset.insert_inter_of_mem hbv, Finset.card_insert_of_notMem]
      simp [hb]
    · have hbv : b ∉ orbit r v := by
        intro hbv
        apply hv
        rw [← orbit_eq hbv, mem_orbit_symm]
        exact ho
      rw [if_neg hv, Finset.insert_inter_of_notMem hbv]
      rfl
  · intro k hk
    rcases Nat.lt_or_ge k i with hki | hki
    · rw [List.getElem?_set_ne (by omega)]
      exact h6 k hki
    · have : k = i := by omega
      subst this
      refine ⟨b, ?_, ho⟩
      rw [List.getElem?_set_self (by omega)]

theorem seen_both_iff {r : CSPRNG} {n i : Nat} {st : List Byte × List Byte} (h : UInv r n i st) (v : Byte) :
    (v ∈ st.2 ∧ v ^^^ r.ks 0 ∈ st.2) ↔ (orbit r v).card ≤ orbitCount r i v := by
  rw [← h.2.2.2.2.1 v]
  constructor
  · rintro ⟨h1, h2⟩
    apply Finset.card_le_card
    intro x hx
    simp only [orbit, Finset.mem_insert, Finset.mem_singleton] at hx
    simp only [Finset.mem_inter, List.mem_toFinset]
    rcases hx with rfl | rfl
    · exact ⟨h1, orbit_self _ _⟩
    · exact ⟨h2, orbit_flip _ _⟩
  · intro hc
    have := Finset.eq_of_subset_of_card_le (Finset.inter_subset_right (s₁ := st.2.toFinset) (s₂ := orbit r v)) hc
    have h1 : v ∈ st.2.toFinset ∩ orbit r v := by rw [this]; exact orbit_self _ _
    have h2 : v ^^^ r.ks 0 ∈ st.2.toFinset ∩ orbit r v := by rw [this]; exact orbit_flip _ _
    simp only [Finset.mem_inter, List.mem_toFinset] at h1 h2
    exact ⟨h1.1, h2.1⟩

theorem ustep {r : CSPRNG} {n i : Nat} {st : List Byte × List Byte} (hi : i < n) (h : UInv r n i st) (fuel : Nat) :
    if orbitCount r i (r.ks i) < (orbit r (r.ks i)).card
    then ∃ st', uniqueBody r (fuel + 2) i st = ok st' ∧ UInv r n (i + 1) st'
    else ∀ fuel, uniqueBody r fuel i st = spin := by
  have hget : idx st.1 i = ok (r.ks i) := idx_eq_ok.2 (h.2.1 i (le_refl _) hi)
  have hiff := seen_both_iff h (r.ks i)
  split
  · rename_i hlt
    have hnot : ¬ (r.ks i ∈ st.2 ∧ r.ks i ^^^ r.ks 0 ∈ st.2) := fun hh => by
      have := hiff.1 hh; omega
    by_cases h1 : r.ks i ∈ st.2
    · have h2 : r.ks i ^^^ r.ks 0 ∉ st.2 := fun hh => hnot ⟨h1, hh⟩
      refine ⟨_, ?_, ustep_value hi h h2 (orbit_flip _ _)⟩
      unfold uniqueBody
      simp only
      rw [hget, ok_bind, uniqueLoop_flip r h1 h2, ok_bind, setIdx_ok (by have := h.1; omega)]
      rfl
    · refine ⟨_, ?_, ustep_value hi h h1 (orbit_self _ _)⟩
      unfold uniqueBody
      simp only
      rw [hget, ok_bind, uniqueLoop_fresh r h1, ok_bind, setIdx_ok (by have := h.1; omega)]
      rfl
  · rename_i hge
    obtain ⟨h1, h2⟩ := hiff.2 (by omega)
    intro fuel
    unfold uniqueBody
    simp only
    rw [hget, ok_bind, uniqueLoop_spin r h1 h2]; rfl

theorem getUnique_small {r : CSPRNG} {n : Byte} (hn : n.toNat < 20) (fuel : Nat) :
    r.getUniqueBytes fuel n
      = (forUp n.toNat (uniqueBody r fuel) ((List.range n.toNat).map r.ks, []) >>= fun st => ok st.1) := by
  unfold CSPRNG.getUniqueBytes
  rw [if_neg (by rw [BitVec.le_def]; simp; omega), read_zeros]
  rfl

/-- no orbit is requested more often than it has members -/
def OrbitsFit (r : CSPRNG) (n : Nat) : Prop := ∀ v, orbitCount r n v ≤ (orbit r v).card

theorem orbitCount_mono (r : CSPRNG) {m n : Nat} (h : m ≤ n) (v : Byte) : orbitCount r m v ≤ orbitCount r n v := by
  induction n with
  | zero => have : m = 0 := by omega
            subst this; exact le_refl _
  | succ n ih =>
    rcases Nat.lt_or_ge m (n + 1) with h1 | h1
    · rw [orbitCount_succ]; exact le_trans (ih (by omega)) (Nat.le_add_right _ _)
    · have : m = n + 1 := by omega
      subst this; exact le_refl _

theorem unique_loop_ok {r : CSPRNG} {n : Nat} (h : OrbitsFit r n) (fuel : Nat) :
    ∃ st, forUp n (uniqueBody r (fuel + 2)) ((List.range n).map r.ks, []) = ok st ∧ UInv r n n st := by
  apply forUp_inv (UInv r n) (uinv_init r n)
  intro i hi st hst
  have := ustep hi hst fuel
  rw [if_pos] at this
  · exact this
  · have h1 := h (r.ks i)
    have h2 := orbitCount_mono r (show i + 1 ≤ n by omega) (r.ks i)
    rw [orbitCount_succ, if_pos (orbit_self _ _)] at h2
    omega

theorem unique_loop_spin {r : CSPRNG} {n : Nat} (h : ¬ OrbitsFit r n) (fuel : Nat) :
    forUp n (uniqueBody r fuel) ((List.range n).map r.ks, []) = spin := by
  -- there is a first index at which an orbit is exhausted
  have hex : ∃ i, i < n ∧ ¬ orbitCount r i (r.ks i) < (orbit r (r.ks i)).card := by
    by_contra hcon
    apply h
    have hall : ∀ i < n, orbitCount r i (r.ks i) < (orbit r (r.ks i)).card := by
      intro i hi
      by_contra hc
      exact hcon ⟨i, hi, hc⟩
    intro v
    have : ∀ m ≤ n, orbitCount r m v ≤ (orbit r v).card := by
      intro m
      induction m with
      | zero => intro _; simp [orbitCount]
      | succ m ih =>
        intro hm
        rw [orbitCount_succ]
        by_cases hv : r.ks m ∈ orbit r v
        · have h1 := hall m (by omega)
          have e : orbitCount r m (r.ks m) = orbitCount r m v := by
            unfold orbitCount; rw [orbit_eq hv]
          rw [if_pos hv, ← orbit_eq hv, ← e]; omega
        · rw [if_neg hv]; exact ih (by omega)
    exact this n (le_refl _)
  obtain ⟨k, ⟨hk, hbad⟩, hmin⟩ : ∃ k, (k < n ∧ ¬ orbitCount r k (r.ks k) < (orbit r (r.ks k)).card) ∧
      ∀ j < k, ¬ (j < n ∧ ¬ orbitCount r j (r.ks j) < (orbit r (r.ks j)).card) :=
    ⟨Nat.find hex, Nat.find_spec hex, fun j hj => Nat.find_min hex hj⟩
  obtain ⟨m, rfl⟩ : ∃ m, n = k + (m + 1) := ⟨n - k - 1, by omega⟩
  -- either the first k iterations succeed with the invariant or already spin (too little fuel)
  have hpre : ∀ j ≤ k, forUp j (uniqueBody r fuel) ((List.range (k + (m + 1))).map r.ks, []) = spin ∨
      ∃ st, forUp j (uniqueBody r fuel) ((List.range (k + (m + 1))).map r.ks, []) = ok st ∧
        UInv r (k + (m + 1)) j st := by
    intro j
    induction j with
    | zero => intro _; exact Or.inr ⟨_, rfl, uinv_init r _⟩
    | succ j ih =>
      intro hj
      rw [forUp]
      rcases ih (by omega) with h1 | ⟨st, h1, h2⟩
      · left; rw [h1]; rfl
      · rw [h1, ok_bind]
        have hget : idx st.1 j = ok (r.ks j) := idx_eq_ok.2 (h2.2.1 j (le_refl _) (by omega))
        have hlen := h2.1
        by_cases hs : ∃ b, r.uniqueLoop st.2 fuel (r.ks j) = ok b
        · obtain ⟨b, hb⟩ := hs
          right
          refine ⟨(st.1.set j b, b :: st.2), ?_, ?_⟩
          · unfold uniqueBody
            simp only
            rw [hget, ok_bind, hb, ok_bind, setIdx_ok (by omega)]; rfl
          · have : b ∉ st.2 ∧ b ∈ orbit r (r.ks j) := by
              clear hget h1 ih hj
              have gen : ∀ fuel c, c ∈ orbit r (r.ks j) → r.uniqueLoop st.2 fuel c = ok b →
                  b ∉ st.2 ∧ b ∈ orbit r (r.ks j) := by
                intro fuel
                induction fuel with
                | zero => intro c _ h; simp [CSPRNG.uniqueLoop] at h
                | succ f ihf =>
                  intro c hc h
                  by_cases hcs : c ∈ st.2
                  · rw [uniqueLoop_step r hcs] at h
                    refine ihf _ ?_ h
                    rw [← orbit_eq hc]; exact orbit_flip _ _
                  · rw [uniqueLoop_fresh r hcs] at h
                    have : c = b := by simpa using h
                    subst this
                    exact ⟨hcs, hc⟩
              exact gen fuel _ (orbit_self _ _) hb
            exact ustep_value (by omega) h2 this.1 this.2
        · left
          unfold uniqueBody
          simp only
          rw [hget, ok_bind]
          have : r.uniqueLoop st.2 fuel (r.ks j) = spin := by
            have gen : ∀ fuel c, (∃ b, r.uniqueLoop st.2 fuel c = ok b) ∨ r.uniqueLoop st.2 fuel c = spin := by
              intro fuel
              induction fuel with
              | zero => intro c; right; rfl
              | succ f ihf =>
                intro c
                by_cases hcs : c ∈ st.2
                · rw [uniqueLoop_step r hcs]; exact ihf _
                · rw [uniqueLoop_fresh r hcs]; exact Or.inl ⟨_, rfl⟩
            exact (gen fuel _).resolve_left hs
          rw [this]; rfl
  rw [forUp_add]
  rcases hpre k (le_refl _) with h1 | ⟨st, h1, h2⟩
  · rw [h1]; rfl
  · rw [h1, ok_bind]
    have hstep := ustep hk h2 0
    rw [if_neg hbad] at hstep
    refine forUp_fail (k := 0) (by omega) (fun _ => st) rfl (by omega) ?_ (by simp)
    exact hstep fuel

theorem getUnique_small_ok {r : CSPRNG} {n : Byte} (hn : n.toNat < 20) (h : OrbitsFit r n.toNat) (fuel : Nat) :
    ∃ l, r.getUniqueBytes (fuel + 2) n = ok l ∧ l.length = n.toNat ∧ l.Nodup ∧
      ∀ k < n.toNat, ∃ b, l[k]? = some b ∧ (b = r.ks k ∨ b = r.ks k ^^^ r.ks 0) := by
  obtain ⟨st, h1, h2⟩ := unique_loop_ok h fuel
  rw [getUnique_small hn, h1, ok_bind]
  refine ⟨st.1, rfl, h2.1, ?_, ?_⟩
  · have := h2.2.2.1
    rw [List.take_of_length_le (by rw [h2.1])] at this
    rw [this, List.nodup_reverse]
    exact h2.2.2.2.1
  · intro k hk
    obtain ⟨b, hb, hbo⟩ := h2.2.2.2.2.2 k hk
    exact ⟨b, hb, by simpa [orbit] using hbo⟩

theorem getUnique_small_spin {r : CSPRNG} {n : Byte} (hn : n.toNat < 20) (h : ¬ OrbitsFit r n.toNat) (fuel : Nat) :
    r.getUniqueBytes fuel n = spin := by
  rw [getUnique_small hn, unique_loop_spin h]; rfl

/-- Below 20 bytes the call returns or keeps looping, for every fuel. -/
theorem getUnique_small_cases {r : CSPRNG} {n : Byte} (hn : n.toNat < 20) (fuel : Nat) :
    (∃ l, r.getUniqueBytes fuel n = ok l) ∨ r.getUniqueBytes fuel n = spin := by
  rw [getUnique_small hn]
  have key : ∀ m, m ≤ n.toNat →
      (∃ st, forUp m (uniqueBody r fuel) ((List.range n.toNat).map r.ks, []) = ok st ∧ st.1.length = n.toNat) ∨
      forUp m (uniqueBody r fuel) ((List.range n.toNat).map r.ks, []) = spin := by
    intro m
    induction m with
    | zero => intro _; exact .inl ⟨_, rfl, by simp⟩
    | succ m ih =>
      intro hm
      rcases ih (by omega) with ⟨st, h1, h2⟩ | h
      · rw [forUp, h1, ok_bind]
        have hl : ∀ seen b, (∃ b', r.uniqueLoop seen fuel b = ok b') ∨ r.uniqueLoop seen fuel b = spin := by
          intro seen
          clear h1 ih
          induction fuel with
          | zero => intro b; exact .inr rfl
          | succ f ihf =>
            intro b
            by_cases hb : b ∈ seen
            · rw [uniqueLoop_step r hb]; exact ihf _
            · exact .inl ⟨b, uniqueLoop_fresh r hb f⟩
        obtain ⟨buff, seen⟩ := st
        simp only at h2
        unfold uniqueBody
        simp only
        rw [idx_ok (by omega), ok_bind]
        rcases hl seen buff[m] with ⟨b', h'⟩ | h'
        · rw [h', ok_bind, setIdx_ok (by omega), ok_bind]
          exact .inl ⟨_, rfl, by simpa using h2⟩
        · rw [h']; exact .inr rfl
      · rw [forUp, h]; exact .inr rfl
  rcases key n.toNat (le_refl _) with ⟨st, h, -⟩ | h
  · rw [h]; exact .inl ⟨_, rfl⟩
  · rw [h]; exact .inr rfl

/-- More fuel does not change a result. -/
theorem uniqueLoop_mono (r : CSPRNG) {seen : List Byte} : ∀ {fuel : Nat} {b b' : Byte},
    r.uniqueLoop seen fuel b = ok b' → ∀ k, r.uniqueLoop seen (fuel + k) b = ok b' := by
  intro fuel
  induction fuel with
  | zero => intro b b' h; cases h
  | succ f ih =>
    intro b b' h k
    have e : f + 1 + k = (f + k) + 1 := by omega
    rw [e]
    by_cases hb : b ∈ seen
    · rw [uniqueLoop_step r hb] at h ⊢; exact ih h k
    · rw [uniqueLoop_fresh r hb] at h ⊢; exact h

theorem getUnique_mono {r : CSPRNG} {n : Byte} (hn : n.toNat < 20) {fuel : Nat} {l : List Byte}
    (h : r.getUniqueBytes fuel n = ok l) (k : Nat) : r.getUniqueBytes (k + fuel) n = ok l := by
  rw [getUnique_small hn, bind_eq_ok] at h ⊢
  obtain ⟨st, h1, h2⟩ := h
  refine ⟨st, ?_, h2⟩
  clear h2
  have key : ∀ m st, forUp m (uniqueBody r fuel) ((List.range n.toNat).map r.ks, []) = ok st →
      forUp m (uniqueBody r (k + fuel)) ((List.range n.toNat).map r.ks, []) = ok st := by
    intro m
    induction m with
    | zero => intro st h; exact h
    | succ m ih =>
      intro st h
      rw [forUp, bind_eq_ok] at h
      obtain ⟨s1, h1, h2⟩ := h
      rw [forUp, ih s1 h1, ok_bind]
      unfold uniqueBody at h2 ⊢
      obtain ⟨buff, seen⟩ := s1
      simp only at h2 ⊢
      obtain ⟨b, hb, h2⟩ := bind_eq_ok.1 h2
      obtain ⟨b', hb', h2⟩ := bind_eq_ok.1 h2
      rw [hb, ok_bind, Nat.add_comm k, uniqueLoop_mono r hb' k, ok_bind]
      exact h2
  exact key _ _ h1

theorem getUnique_big {r : CSPRNG} {n : Byte} (hn : 20 ≤ n.toNat) (fuel : Nat) :
    r.getUniqueBytes fuel n = (r.perm 255#8 >>= fun p => slice p 0 n.toNat) := by
  unfold CSPRNG.getUniqueBytes
  rw [if_pos (by rw [BitVec.le_def]; simpa using hn)]

theorem perm255_panic_iff (r : CSPRNG) : r.perm 255#8 = panic ↔ r.ks 0 = 254#8 := by
  have hlt := (r.ks 0).isLt
  have e : (255#8 : Byte).toNat = 255 := rfl
  rcases perm_cases r 255#8 with ⟨h, h'⟩ | ⟨⟨l, h, -⟩, h'⟩
  · refine ⟨fun _ => ?_, fun _ => h⟩
    rw [e] at h'
    apply BitVec.eq_of_toNat_eq
    have : (254#8 : Byte).toNat = 254 := rfl
    omega
  · refine ⟨fun hp => ?_, fun hk => ?_⟩
    · rw [h] at hp; cases hp
    · exfalso
      apply h'
      rw [e, hk]
      right
      exact ⟨by omega, by rfl⟩

theorem getUnique_big_ok {r : CSPRNG} {n : Byte} (hn : 20 ≤ n.toNat) (hk : r.ks 0 ≠ 254#8) (fuel : Nat) :
    ∃ l, r.getUniqueBytes fuel n = ok l ∧ l.length = n.toNat ∧ l.Nodup ∧ 255#8 ∉ l := by
  have hnlt := n.isLt
  rcases perm_cases r 255#8 with ⟨h, -⟩ | ⟨⟨l, h, hp⟩, -⟩
  · exact absurd ((perm255_panic_iff r).1 h) hk
  · have hlen : l.length = 255 := by simpa using hp.length_eq
    rw [getUnique_big hn, h, ok_bind, slice_ok (Nat.zero_le _) (by omega)]
    refine ⟨_, rfl, by simp; omega, ?_, ?_⟩
    · exact ((hp.nodup_iff.2 (identBytes_nodup (by decide))).sublist (List.take_sublist _ _))
    · intro hm
      have : (255#8 : Byte) ∈ identBytes 255 := hp.subset (by simpa using List.mem_of_mem_take hm)
      obtain ⟨i, hi, he⟩ := List.mem_map.1 this
      have hi : i < 255 := by simpa using hi
      have := congrArg BitVec.toNat he
      simp only [BitVec.toNat_ofNat] at this
      omega

theorem getUnique_big_panic {r : CSPRNG} {n : Byte} (hn : 20 ≤ n.toNat) (hk : r.ks 0 = 254#8) (fuel : Nat) :
    r.getUniqueBytes fuel n = panic := by
  rw [getUnique_big hn, (perm255_panic_iff r).2 hk]; rfl

theorem uinv_of_ok {r : CSPRNG} {n m fuel : Nat} (hm : m ≤ n) {st : List Byte × List Byte}
    (h : forUp m (uniqueBody r fuel) ((List.range n).map r.ks, []) = ok st) : UInv r n m st := by
  refine forUp_ok_inv (UInv r n) (uinv_init r _) ?_ h
  intro i hi s s' hs hb
  have hi : i < n := by omega
  by_cases hfit : orbitCount r i (r.ks i) < (orbit r (r.ks i)).card
  · have hget : idx s.1 i = ok (r.ks i) := idx_eq_ok.2 (hs.2.1 i (le_refl _) hi)
    have hlen := hs.1
    unfold uniqueBody at hb
    simp only at hb
    rw [hget, ok_bind, bind_eq_ok] at hb
    obtain ⟨b, hb1, hb2⟩ := hb
    rw [setIdx_ok (by omega)] at hb2
    simp only [Outcome.pure_eq, ok_bind, Outcome.ok.injEq] at hb2
    subst hb2
    have gen : ∀ fuel c, c ∈ orbit r (r.ks i) → r.uniqueLoop s.2 fuel c = ok b →
        b ∉ s.2 ∧ b ∈ orbit r (r.ks i) := by
      intro fuel
      induction fuel with
      | zero => intro c _ h; simp [CSPRNG.uniqueLoop] at h
      | succ f ihf =>
        intro c hc h
        by_cases hcs : c ∈ s.2
        · rw [uniqueLoop_step r hcs] at h
          refine ihf _ ?_ h
          rw [← orbit_eq hc]; exact orbit_flip _ _
        · rw [uniqueLoop_fresh r hcs] at h
          have : c = b := by simpa using h
          subst this
          exact ⟨hcs, hc⟩
    obtain ⟨g1, g2⟩ := gen fuel _ (orbit_self _ _) hb1
    exact ustep_value hi hs g1 g2
  · have := ustep hi hs 0
    rw [if_neg hfit] at this
    rw [this] at hb
    cases hb

/-- Whatever GetUniqueBytes returns consists of `n` distinct bytes. -/
theorem getUnique_ok_spec {r : CSPRNG} {n : Byte} {fuel : Nat} {l : List Byte}
    (h : r.getUniqueBytes fuel n = ok l) : l.length = n.toNat ∧ l.Nodup := by
  by_cases hn : n.toNat < 20
  · rw [getUnique_small hn, bind_eq_ok] at h
    obtain ⟨st, h1, h2⟩ := h
    have hinv : UInv r n.toNat n.toNat st := uinv_of_ok (le_refl _) h1
    have e : st.1 = l := by simpa using h2
    subst e
    refine ⟨hinv.1, ?_⟩
    have := hinv.2.2.1
    rw [List.take_of_length_le (by rw [hinv.1])] at this
    rw [this, List.nodup_reverse]
    exact hinv.2.2.2.1
  · have hn : 20 ≤ n.toNat := by omega
    by_cases hk : r.ks 0 = 254#8
    · rw [getUnique_big_panic hn hk] at h; cases h
    · obtain ⟨l', h1, h2, h3, -⟩ := getUnique_big_ok hn hk fuel
      rw [h1] at h
      have : l' = l := by simpa using h
      subst this
      exact ⟨h2, h3⟩

/-- With distinct leading key stream bytes GetUniqueBytes returns them unchanged. -/
theorem getUnique_distinct {r : CSPRNG} {n : Byte} (hn : n.toNat < 20)
    (hd : ((List.range n.toNat).map r.ks).Nodup) (fuel : Nat) :
    r.getUniqueBytes (fuel + 1) n = ok ((List.range n.toNat).map r.ks) := by
  rw [getUnique_small hn]
  rw [forUp_eq (fun i => ((List.range n.toNat).map r.ks, ((List.range i).map r.ks).reverse)) (by simp)]
  · rfl
  · intro i hi
    have hnot : r.ks i ∉ ((List.range i).map r.ks).reverse := by
      intro hm
      obtain ⟨j, hj, he⟩ := List.mem_map.1 (List.mem_reverse.1 hm)
      have hj : j < i := by simpa using hj
      have := List.inj_on_of_nodup_map hd (List.mem_range.2 (show j < n.toNat by omega)) (List.mem_range.2 hi) he
      omega
    unfold uniqueBody
    simp only
    rw [idx_ok (by simpa using hi), ok_bind]
    simp only [List.getElem_map, List.getElem_range]
    rw [uniqueLoop_fresh r hnot, ok_bind, setIdx_ok (by simpa using hi)]
    simp only [ok_bind, Outcome.pure_eq, List.range_succ, List.map_append, List.reverse_append, List.map_cons,
      List.map_nil, List.reverse_cons, List.reverse_nil, List.nil_append, List.singleton_append]
    congr 2
    apply List.ext_getElem?
    intro k
    rw [List.getElem?_set]
    split
    · rename_i h; subst h; simp [hi]
    · rfl

/-! ## randomizer.Perm -/

theorem randomizer_read (r : Randomizer) (n : Nat) :
    r.read (List.replicate n 0) = ((List.range n).map fun i => r.ks (r.pos + i), { r with pos := r.pos + n }) := by
  unfold Randomizer.read
  congr 1
  · apply List.ext_getElem
    · simp
    · intro k h1 h2; simp
  · simp

/-- one iteration of randomizer.Perm's loop -/
def rpermBody (sh : List Byte) (i : Nat) (st : List Byte × Byte) : Outcome (List Byte × Byte) := do
  let (buff, max) := st
  let s ← idx sh i
  if max = 0 then panic
  let rx : Byte := s % max
  let temp ← idx buff rx.toNat
  let buff ← setIdx buff max.toNat temp
  pure (buff, max - 1#8)

theorem rperm_unfold (r : Randomizer) (n : Byte) :
    r.perm n = (forUp (n - 1#8).toNat (rpermBody ((List.range n.toNat).map fun i => r.ks (r.pos + i)))
      (identBytes n.toNat, n - 1#8) >>= fun st => ok (st.1, { r with pos := r.pos + n.toNat })) := by
  unfold Randomizer.perm
  dsimp only
  rw [fillIdent _ _ (by simp), ok_bind, randomizer_read]
  rfl

theorem rperm_zero (r : Randomizer) : r.perm 0#8 = panic := by
  rw [rperm_unfold]
  rw [forUp_fail (k := 0) (o := panic) (by decide) (fun _ => (identBytes (0#8 : Byte).toNat, 0#8 - 1#8)) rfl (by omega)
    _ (by simp)]
  · rfl
  · unfold rpermBody
    simp only
    rw [idx_panic (by simp)]; rfl

theorem rperm_spec (r : Randomizer) {n : Byte} (hn : 1 ≤ n.toNat) :
    ∃ l r', r.perm n = ok (l, r') ∧ l.length = n.toNat ∧ (2 ≤ n.toNat → n - 1#8 ∉ l) := by
  have hlt := n.isLt
  have hn1 : (n - 1#8).toNat = n.toNat - 1 := by
    rw [BitVec.toNat_sub]
    have : (1#8 : Byte).toNat = 1 := rfl
    omega
  rw [rperm_unfold, hn1]
  -- invariant: after i steps max = n-1-i; n-1 occurs nowhere except possibly (i = 0) at the last position
  obtain ⟨st, h1, h2, h3, h4⟩ := forUp_inv (n := n.toNat - 1)
    (body := rpermBody ((List.range n.toNat).map fun i => r.ks (r.pos + i)))
    (s := (identBytes n.toNat, n - 1#8))
    (fun i st => st.1.length = n.toNat ∧ st.2.toNat = n.toNat - 1 - i ∧
      ∀ k, st.1[k]? = some (n - 1#8) → i = 0 ∧ k = n.toNat - 1)
    ⟨by simp, by rw [hn1]; omega, by
      intro k hk
      refine ⟨rfl, ?_⟩
      simp only [identBytes, List.getElem?_map] at hk
      by_cases hkn : k < n.toNat
      · rw [List.getElem?_range hkn] at hk
        simp only [Option.map_some, Option.some.injEq] at hk
        have := congrArg BitVec.toNat hk
        rw [hn1, BitVec.toNat_ofNat] at this
        omega
      · rw [List.getElem?_eq_none (by simp; omega)] at hk
        cases hk⟩
    (by
      rintro i hi ⟨buff, mx⟩ ⟨hl, hm, hk⟩
      simp only at hl hm hk
      have hne : mx ≠ 0 := by
        intro h; rw [h] at hm
        have : (0 : Byte).toNat = 0 := rfl
        omega
      have hrx : (r.ks (r.pos + i) % mx).toNat < mx.toNat := by
        rw [BitVec.toNat_umod]; exact Nat.mod_lt _ (by omega)
      have hrl : (r.ks (r.pos + i) % mx).toNat < buff.length := by omega
      refine ⟨(buff.set mx.toNat (buff[(r.ks (r.pos + i) % mx).toNat]), mx - 1#8), ?_, by simpa using hl, ?_, ?_⟩
      · unfold rpermBody
        simp only
        rw [idx_ok (by simp; omega), ok_bind, if_neg hne]
        simp only [List.getElem_map, List.getElem_range, Outcome.pure_eq, ok_bind]
        rw [idx_ok hrl, ok_bind, setIdx_ok (by omega), ok_bind]
      · simp only
        rw [BitVec.toNat_sub]
        have : (1#8 : Byte).toNat = 1 := rfl
        have := mx.isLt
        omega
      · intro k hk'
        exfalso
        simp only at hk'
        rw [List.getElem?_set] at hk'
        split at hk'
        · rename_i hkm
          split at hk'
          · have hsome : buff[(r.ks (r.pos + i) % mx).toNat]? = some (n - 1#8) := by
              rw [List.getElem?_eq_getElem hrl]; exact hk'
            have := hk _ hsome
            omega
          · cases hk'
        · rename_i hkm
          have := hk _ hk'
          omega)
  rw [h1, ok_bind]
  refine ⟨st.1, _, rfl, h2, ?_⟩
  intro h2n hmem
  obtain ⟨k, hk, hke⟩ := List.mem_iff_getElem.1 hmem
  have := h4 k (by rw [List.getElem?_eq_getElem hk, hke])
  omega

/-- The result for a smaller number of bytes is the beginning of the result for a larger one (below 20, or from 20 on). -/
theorem getUnique_prefix {r : CSPRNG} {n n' : Byte} {fuel fuel' : Nat} {l l' : List Byte}
    (h : r.getUniqueBytes fuel n = ok l) (h' : r.getUniqueBytes fuel' n' = ok l') (hle : n.toNat ≤ n'.toNat)
    (hside : n'.toNat < 20 ∨ 20 ≤ n.toNat) : l = l'.take n.toNat := by
  rcases hside with hs | hs
  · have h := getUnique_mono (by omega) h fuel'
    have h' := getUnique_mono hs h' fuel
    rw [Nat.add_comm fuel fuel'] at h'
    generalize fuel' + fuel = f at h h'
    rw [getUnique_small (by omega), bind_eq_ok] at h
    rw [getUnique_small hs, bind_eq_ok] at h'
    obtain ⟨st, h1, h2⟩ := h
    obtain ⟨st', h1', h2'⟩ := h'
    cases h2
    cases h2'
    have key : ∀ m ≤ n.toNat, ∀ st st', forUp m (uniqueBody r f) ((List.range n.toNat).map r.ks, []) = ok st →
        forUp m (uniqueBody r f) ((List.range n'.toNat).map r.ks, []) = ok st' → st.2 = st'.2 := by
      intro m
      induction m with
      | zero => intro _ st st' h h'; cases h; cases h'; rfl
      | succ m ih =>
        intro hm st st' h h'
        rw [forUp, bind_eq_ok] at h h'
        obtain ⟨s1, g1, g2⟩ := h
        obtain ⟨s1', g1', g2'⟩ := h'
        have e := ih (by omega) _ _ g1 g1'
        have u := uinv_of_ok (by omega) g1
        have u' := uinv_of_ok (by omega) g1'
        have hget : idx s1.1 m = ok (r.ks m) := idx_eq_ok.2 (u.2.1 m (le_refl _) (by omega))
        have hget' : idx s1'.1 m = ok (r.ks m) := idx_eq_ok.2 (u'.2.1 m (le_refl _) (by omega))
        unfold uniqueBody at g2 g2'
        simp only at g2 g2'
        rw [hget, ok_bind, bind_eq_ok] at g2
        rw [hget', ok_bind, bind_eq_ok] at g2'
        obtain ⟨b, hb, g2⟩ := g2
        obtain ⟨b', hb', g2'⟩ := g2'
        rw [e, hb'] at hb
        cases hb
        rw [setIdx_ok (by have := u.1; omega)] at g2
        rw [setIdx_ok (by have := u'.1; omega)] at g2'
        cases g2
        cases g2'
        simp [e]
    obtain ⟨k, hk⟩ : ∃ k, n'.toNat = n.toNat + k := ⟨n'.toNat - n.toNat, by omega⟩
    obtain ⟨mid, hmid⟩ : ∃ mid, forUp n.toNat (uniqueBody r f) ((List.range n'.toNat).map r.ks, []) = ok mid := by
      have gen : ∀ k st', forUp (n.toNat + k) (uniqueBody r f) ((List.range n'.toNat).map r.ks, []) = ok st' →
          ∃ mid, forUp n.toNat (uniqueBody r f) ((List.range n'.toNat).map r.ks, []) = ok mid := by
        intro k
        induction k with
        | zero => intro st' h; exact ⟨_, h⟩
        | succ k ih =>
          intro st' h
          rw [← Nat.add_assoc, forUp, bind_eq_ok] at h
          obtain ⟨s1, g1, -⟩ := h
          exact ih _ g1
      exact gen k st' (hk ▸ h1')
    have e := key n.toNat (le_refl _) _ _ h1 hmid
    have u := uinv_of_ok (le_refl _) h1
    have um := uinv_of_ok hle hmid
    have hl : st.1 = st.2.reverse := by
      rw [← u.2.2.1, List.take_of_length_le (by rw [u.1])]
    have hlm : mid.1.take n.toNat = mid.2.reverse := um.2.2.1
    -- later iterations leave the first entries
    have keep : ∀ k st'', forUp (n.toNat + k) (uniqueBody r f) ((List.range n'.toNat).map r.ks, []) = ok st'' →
        n.toNat + k ≤ n'.toNat → st''.1.take n.toNat = mid.1.take n.toNat := by
      intro k
      induction k with
      | zero => intro st'' h _; rw [Nat.add_zero, hmid] at h; cases h; rfl
      | succ k ih =>
        intro st'' h hkn
        rw [← Nat.add_assoc, forUp, bind_eq_ok] at h
        obtain ⟨s1, g1, g2⟩ := h
        have e1 := ih _ g1 (by omega)
        have us := uinv_of_ok (by omega) g1
        have hget : idx s1.1 (n.toNat + k) = ok (r.ks (n.toNat + k)) := idx_eq_ok.2 (us.2.1 _ (le_refl _) (by omega))
        unfold uniqueBody at g2
        simp only at g2
        rw [hget, ok_bind, bind_eq_ok] at g2
        obtain ⟨b, hb, g2⟩ := g2
        rw [setIdx_ok (by have := us.1; omega)] at g2
        cases g2
        rw [← e1]
        exact List.take_set_of_le (by omega)
    rw [keep k st' (hk ▸ h1') (by omega), hlm, hl, e]
  · rw [getUnique_big hs, bind_eq_ok] at h
    rw [getUnique_big (by omega), bind_eq_ok] at h'
    obtain ⟨p, hp, h⟩ := h
    obtain ⟨p', hp', h'⟩ := h'
    rw [hp] at hp'
    cases hp'
    obtain ⟨hlen, -⟩ := getUnique_ok_spec (r := r) (n := n') (fuel := 0) (l := l') (by
      rw [getUnique_big (by omega), hp]; exact h')
    have hp255 : n'.toNat ≤ p.length := by
      by_contra hc
      simp [slice, hc] at h'
    rw [slice_ok (Nat.zero_le _) (by omega)] at h h'
    cases h
    cases h'
    simp [List.take_take, Nat.min_eq_left hle]

end Verif.Proofs
