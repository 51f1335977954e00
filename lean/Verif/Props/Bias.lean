import Verif.Props.Worker

/-! # C77: the permutations that CSPRNG.Perm returns

`r.ks i` is byte `i` of the key stream of the source. -/

namespace Verif.Props
open Verif Outcome Galois Spec Proofs Csprng Krawczyk Worker

/-- What one swap does to an entry. -/
theorem swapBody_entry {j i : Nat} {l l' : List Byte} (h : swapBody j i l = ok l') :
    i < l.length ∧ j < l.length ∧ l'.length = l.length ∧ l'[i]? = l[j]? ∧ l'[j]? = l[i]? ∧
      ∀ p, p ≠ i → p ≠ j → l'[p]? = l[p]? := by
  unfold swapBody at h
  by_cases hi : i < l.length
  · by_cases hj : j < l.length
    · rw [idx_ok hi, ok_bind, idx_ok hj, ok_bind, setIdx_ok hi, ok_bind, setIdx_ok (by simpa using hj)] at h
      cases h
      refine ⟨hi, hj, by simp, ?_, ?_, ?_⟩
      · by_cases e : j = i
        · subst e; simp [hi]
        · rw [List.getElem?_set_ne e, List.getElem?_set_self hi, List.getElem?_eq_getElem hj]
      · rw [List.getElem?_set_self (by simpa using hj), List.getElem?_eq_getElem hi]
      · intro p h1 h2
        rw [List.getElem?_set_ne (Ne.symm h2), List.getElem?_set_ne (Ne.symm h1)]
    · rw [idx_ok hi, ok_bind, idx_panic (by omega)] at h
      cases h
  · rw [idx_panic (by omega)] at h
    cases h

/-- C77: for n ≥ 3 the first entry that `Perm(n)` returns is 1 plus the first key stream byte modulo n. -/
theorem C77_first (r : CSPRNG) (n : Byte) (hn : 3 ≤ n.toNat) (l : List Byte) (h : r.perm n = ok l) :
    l[0]? = some (1 + r.ks 0 % n) := by
  have hn' := n.isLt
  rw [perm_unfold, loop_count (by omega)] at h
  have := forUp_ok_inv (P := fun i l => l.length = n.toNat ∧ (i = 0 → l = identBytes n.toNat) ∧ (0 < i → l[0]? = some (1 + r.ks 0 % n)))
    ⟨by simp, fun _ => rfl, fun h => absurd h (by omega)⟩ ?_ h
  · exact this.2.2 (by omega)
  · rintro i hi s s' ⟨h1, h2, h3⟩ h4
    rw [permBody_pos r n i (by omega)] at h4
    obtain ⟨a1, a2, a3, a4, a5, a6⟩ := swapBody_entry h4
    refine ⟨by omega, by omega, fun _ => ?_⟩
    rcases Nat.eq_zero_or_pos i with h0 | h0
    · subst h0
      rw [a4, h2 rfl]
      rw [h1] at a2
      unfold swapPos at a2 ⊢
      rw [Nat.sub_zero] at a2 ⊢
      rw [identBytes, List.getElem?_map, List.getElem?_range a2]
      simp only [Option.map_some, Option.some.injEq]
      apply BitVec.eq_of_toNat_eq
      rw [BitVec.toNat_ofNat, BitVec.toNat_add, BitVec.toNat_umod]
      rfl
    · rw [a6 0 (by omega) (by unfold swapPos; omega)]
      exact h3 h0

example : (⟨fun i => BitVec.ofNat 8 (3 * i + 7)⟩ : CSPRNG).perm 5 = ok [3, 0, 2, 1, 4] := by decide +kernel

/-- C77: so it is never 0: a permutation of 0..n-1 that begins with 0 is never returned for n ≥ 3. -/
theorem C77_first_not_zero (r : CSPRNG) (n : Byte) (hn : 3 ≤ n.toNat) (l : List Byte) (h : r.perm n = ok l) :
    l[0]? ≠ some 0 := by
  rw [C77_first r n hn l h]
  intro e
  rcases (C27_perm r n).1.not.1 (by rw [h]; simp) |> not_or.1 with ⟨-, e2⟩
  have e2 : ¬ (r.ks 0).toNat % n.toNat = n.toNat - 1 := fun h => e2 ⟨hn, h⟩
  have hm : (r.ks 0).toNat % n.toNat < n.toNat := Nat.mod_lt _ (by omega)
  have := congrArg BitVec.toNat (Option.some.inj e)
  rw [BitVec.toNat_add, BitVec.toNat_umod] at this
  have h1 : (1 : Byte).toNat = 1 := rfl
  have h0 : (0 : Byte).toNat = 0 := rfl
  have := n.isLt
  omega

/-- C77: the last entry is n-1, unless the first key stream byte is n-2 modulo n or the second is n-2 modulo n-1. -/
theorem C77_last (r : CSPRNG) (n : Byte) (hn : 3 ≤ n.toNat) (l : List Byte) (h : r.perm n = ok l)
    (h0 : (r.ks 0).toNat % n.toNat ≠ n.toNat - 2) (h1 : (r.ks 1).toNat % (n.toNat - 1) ≠ n.toNat - 2) :
    l[n.toNat - 1]? = some (n - 1) := by
  have hn' := n.isLt
  rw [perm_unfold, loop_count (by omega)] at h
  refine forUp_ok_inv (P := fun i l => l[n.toNat - 1]? = some (n - 1)) ?_ ?_ h
  · rw [identBytes, List.getElem?_map, List.getElem?_range (by omega)]
    simp only [Option.map_some, Option.some.injEq]
    apply BitVec.eq_of_toNat_eq
    rw [BitVec.toNat_ofNat, BitVec.toNat_sub]
    have h1 : (1 : Byte).toNat = 1 := rfl
    omega
  · intro i hi s s' h3 h4
    rw [permBody_pos r n i (by omega)] at h4
    obtain ⟨a1, a2, a3, a4, a5, a6⟩ := swapBody_entry h4
    rw [a6 _ (by omega) ?_, h3]
    unfold swapPos
    have hm : (r.ks i).toNat % (n.toNat - i) < n.toNat - i := Nat.mod_lt _ (by omega)
    rcases i with _ | _ | i
    · simp only [Nat.sub_zero]; omega
    · simp only [Nat.zero_add]; omega
    · omega

/-- C77: the last byte of `Perm(255)` is 254 for every source whose first two bytes are not 253. -/
theorem C77_last_255 (r : CSPRNG) (l : List Byte) (h : r.perm 255 = ok l) (h0 : r.ks 0 ≠ 253) (h1 : r.ks 1 ≠ 253) :
    l[254]? = some 254 := by
  refine C77_last r 255 (by decide) l h (fun e => h0 ?_) (fun e => h1 ?_)
  · apply BitVec.eq_of_toNat_eq
    have h255 : (255 : Byte).toNat = 255 := rfl
    rw [h255] at e
    have : (253 : Byte).toNat = 253 := rfl
    have := (r.ks 0).isLt
    omega
  · apply BitVec.eq_of_toNat_eq
    have h255 : (255 : Byte).toNat = 255 := rfl
    rw [h255] at e
    have : (253 : Byte).toNat = 253 := rfl
    have := (r.ks 1).isLt
    omega

/-- C77: the first share of any split of a worker into 20 or more shares gives away the first byte of the key under which
all krawczyk splits of that worker encrypt (up to the values 0 and 255, which are not told apart): its evaluation point is 2
plus that byte modulo 255. -/
theorem C77_key_byte (env : Env) (hc : env.lib.Contract) (fuel : Nat) (w : Worker.Worker)
    (alg : String) (input : List Byte) (n k : Int) (ps ps1 : Shamir.Pools) (shares : List (List Byte)) (hn : 20 ≤ n)
    (h : w.split env fuel alg input n k ps = ok (shares, ps1)) :
    ∃ key : List Byte, key.length = 16 ∧ shownTag alg (shares.getD 0 []) = 2 + key.getD 0 0 % 255 ∧
      ∀ (env' : Env) (_ : env'.lib.Contract) (fuel' : Nat) (secret : List Byte) (n' k' : Int) (qs qs1 : Shamir.Pools)
        (shares' : List (List Byte)), w.split env' fuel' "krawczyk" secret n' k' qs = ok (shares', qs1) →
        ∀ i j : Nat, (i : Int) < k' → j < ceilDiv secret.length k'.toNat → i * ceilDiv secret.length k'.toNat + j < secret.length →
          (shares'.getD i []).getD (21 + j) 0 = secret.getD (i * ceilDiv secret.length k'.toNat + j) 0
            ^^^ ofb (env'.aes key) (List.replicate 16 0) (i * ceilDiv secret.length k'.toNat + j) := by
  refine ⟨(List.range 16).map w.r.ks, by simp, ?_, ?_⟩
  · obtain ⟨⟨a1, a2⟩, xs, hx, ht⟩ := split_tags hc h
    have e := ofInt_toNat (parts := n) (by omega) a2
    rw [getUnique_big (by omega)] at hx
    obtain ⟨p, hp, hs⟩ := bind_eq_ok.1 hx
    have hf := C77_first w.r 255 (by decide) p hp
    have hxs : xs[0]? = some (1 + w.r.ks 0 % 255) := by
      unfold slice at hs
      split at hs
      · cases hs
        rw [List.drop_zero, List.getElem?_take_of_lt (by omega), hf]
      · cases hs
    have := congrArg (fun l => l[0]?) ht
    simp only [List.getElem?_map, hxs, Option.map_some, Option.map_eq_some_iff] at this
    obtain ⟨sh, h1, h2⟩ := this
    rw [List.getD_eq_getElem?_getD, h1, Option.getD_some, h2]
    have e0 : ((List.range 16).map w.r.ks).getD 0 0 = w.r.ks 0 := rfl
    rw [e0]
    generalize w.r.ks 0 % 255 = z
    bv_omega
  · intro env' hc' fuel' secret n' k' qs qs1 shares' h' i j hi hj hq
    rw [split_krawczyk] at h'
    exact C43_C44_data_share env' hc' fuel' secret n' k' w.r qs qs1 shares' h' i j hi hj hq

/-! ## Non-vacuity -/

/-- A source with two different first bytes that are not 253. -/
example : ∃ l, (⟨fun i => BitVec.ofNat 8 (3 * i + 7)⟩ : CSPRNG).perm 255 = ok l ∧ l[0]? = some 8 ∧ l[254]? = some 254 := by
  obtain ⟨l, hl, -⟩ := (C27_perm (⟨fun i => BitVec.ofNat 8 (3 * i + 7)⟩ : CSPRNG) 255).2 (fun h => absurd ((C27_perm255 _).1 h) (by decide))
  exact ⟨l, hl, C77_first _ 255 (by decide) l hl, C77_last_255 _ l hl (by decide) (by decide)⟩

/-- A worker whose source begins with 7 splits into 20 shares by "shamir". -/
example (env : Env) (hc : env.lib.Contract) : ∃ (shares : List (List Byte)) (ps1 : Shamir.Pools),
    (⟨⟨fun i => BitVec.ofNat 8 (3 * i + 7)⟩⟩ : Worker.Worker).split env 1 "shamir" [1, 2, 3] 20 3 (Shamir.Pools.init 1) = ok (shares, ps1) ∧
      ∃ key : List Byte, key.length = 16 ∧ shownTag "shamir" (shares.getD 0 []) = 2 + key.getD 0 0 % 255 := by
  obtain ⟨⟨shares, ps1⟩, h⟩ := ((split_returns env hc ⟨⟨fun i => BitVec.ofNat 8 (3 * i + 7)⟩⟩ (alg := "shamir") (input := [1, 2, 3])
    (n := 20) (k := 3) (.inl ⟨rfl, by decide⟩)).2 (by decide)).1 (by decide) (Shamir.Pools.init 1)
  obtain ⟨key, h1, h2, -⟩ := C77_key_byte env hc 1 _ "shamir" _ 20 3 _ _ shares (by decide) (h 1)
  exact ⟨shares, ps1, h 1, key, h1, h2⟩

end Verif.Props
