import Verif.Proofs.Vault
import Verif.Props.Sharing
import Verif.Props.RegenerateOdds

/-! # C79: shares of HashiCorp's package

README.md presents this library as a modification of the package shamir of HashiCorp's Vault.  Both use the same share format,
but different fields (`Spec.Vault`).  `Spec.Vault.share rows x` is the share with tag `x` over the other field, `rows` the
coefficients of the polynomials, one for each byte of the secret, constant term first. -/

namespace Verif.Props
open Verif Outcome Galois Spec Proofs Shamir Pool Csprng Polynomial
open _root_.Verif.Spec.Vault (convert)

/-! ## Two shares -/

theorem aes_low : ∀ k : Fin 8, 1 ≤ k.val → ∀ z : Byte, z.toNat < 2 ^ (k.val + 1) →
    Aes.mul (BitVec.ofNat 8 (2 ^ (8 - k.val))) z =
      mulSpec (BitVec.ofNat 8 (2 ^ (8 - k.val))) z ^^^ if z.getLsbD k.val then 6#8 else 0#8 := by
  decide +kernel

theorem top_bit : ∀ z : Byte, 2 ≤ z.toNat → ∃ k : Fin 8, 1 ≤ k.val ∧ z.toNat < 2 ^ (k.val + 1) ∧ z.getLsbD k.val = true ∧
    2 ^ k.val ≤ z.toNat := by decide +kernel

/-- For any two tags some coefficient makes the two fields disagree. -/
theorem disagree {x y : Byte} (hx : x ≠ 0) (hy : y ≠ 0) (hxy : x ≠ y) :
    ∃ a : Byte, (⟨y⟩ : GF) * ⟨Aes.mul a x⟩ ≠ ⟨x⟩ * ⟨Aes.mul a y⟩ := by
  wlog h : y.toNat < x.toNat generalizing x y
  · have hlt : x.toNat < y.toNat :=
      lt_of_le_of_ne (not_lt.1 h) fun e => hxy (BitVec.eq_of_toNat_eq e)
    obtain ⟨a, ha⟩ := this hy hx hxy.symm hlt
    exact ⟨a, ha.symm⟩
  have hy1 : 1 ≤ y.toNat := Nat.one_le_iff_ne_zero.2 fun e => hy (BitVec.eq_of_toNat_eq (by simpa using e))
  obtain ⟨k, hk, hlt, hb, -⟩ := top_bit x (by omega)
  refine ⟨BitVec.ofNat 8 (2 ^ (8 - k.val)), ?_⟩
  rw [aes_low k hk x hlt, aes_low k hk y (by omega), if_pos hb]
  set c : GF := ⟨BitVec.ofNat 8 (2 ^ (8 - k.val))⟩ with hc
  have e1 : (⟨mulSpec (BitVec.ofNat 8 (2 ^ (8 - k.val))) x ^^^ 6#8⟩ : GF) = c * ⟨x⟩ + ⟨6#8⟩ := rfl
  have e2 : (⟨mulSpec (BitVec.ofNat 8 (2 ^ (8 - k.val))) y ^^^ if y.getLsbD k.val then 6#8 else 0#8⟩ : GF) =
      c * ⟨y⟩ + if y.getLsbD k.val then ⟨6#8⟩ else 0 := by split <;> rfl
  rw [e1, e2]
  have h6 : (⟨6#8⟩ : GF) ≠ 0 := fun e => by have := congrArg GF.val e; revert this; decide
  have hy0 : (⟨y⟩ : GF) ≠ 0 := fun e => hy (congrArg GF.val e)
  intro e
  have e : (⟨y⟩ : GF) * ⟨6#8⟩ = ⟨x⟩ * if y.getLsbD k.val then ⟨6#8⟩ else 0 := by linear_combination e
  split at e
  · exact hxy (congrArg GF.val (mul_right_cancel₀ h6 e)).symm
  · rw [mul_zero] at e
    exact (mul_ne_zero hy0 h6) e

theorem aes_mul_xor (a b x : Byte) : Aes.mul (a ^^^ b) x = Aes.mul a x ^^^ Aes.mul b x := by
  apply Vault.toGF_injective
  rw [Vault.toGF_mul, Vault.toGF_xor, Vault.toGF_xor, Vault.toGF_mul, Vault.toGF_mul, add_mul]

theorem half {K : Byte → Prop} (h : ∀ a b, K a → K b → K (a ^^^ b)) {e : Byte} (he : ¬ K e) : 2 * Nat.card {a // K a} ≤ 256 := by
  classical
  have h1 : Nat.card {a // K a} ≤ Nat.card {a // ¬ K a} := by
    refine Nat.card_le_card_of_injective (fun a => ⟨a.1 ^^^ e, fun hk => he ?_⟩) ?_
    · have := h _ _ a.2 hk
      rwa [← BitVec.xor_assoc, BitVec.xor_self, BitVec.zero_xor] at this
    · intro a b hab
      have := congrArg Subtype.val hab
      exact Subtype.ext (BitVec.xor_left_inj e |>.1 this)
  have h2 : Nat.card {a // K a} + Nat.card {a // ¬ K a} = 256 := by
    rw [Nat.card_eq_fintype_card, Nat.card_eq_fintype_card, Fintype.card_subtype_compl]
    have := Fintype.card_subtype_le K
    have h256 : Fintype.card Byte = 256 := by decide +kernel
    omega
  omega

theorem line_zero {f : GF[X]} (hd : f.degree < 2) (x y : GF) : f.eval 0 * (x + y) = f.eval x * y + f.eval y * x := by
  have h := eq_X_add_C_of_degree_le_one (show f.degree ≤ 1 from Order.le_of_lt_succ hd)
  rw [h]
  simp only [eval_add, eval_mul, eval_C, eval_X, mul_zero, zero_add]
  have : (2 : GF) = 0 := CharTwo.two_eq_zero
  linear_combination (-(f.coeff 1 * x * y)) * this

/-- C79: two shares of a 2-out-of-n sharing over the other field, with any two tags: no error is raised, and for at most one
in `2 ^ n` choices of the random coefficients of an `n`-byte secret is the result the secret. -/
theorem C79_vault_two (secret : List Byte) (hs : secret ≠ []) (x y : Byte) (hx : x ≠ 0) (hy : y ≠ 0) (hxy : x ≠ y) :
    (∀ a : List Byte, a.length = secret.length →
      ∃ w, combine [Vault.share (List.zipWith (fun s c => [s, c]) secret a) x,
        Vault.share (List.zipWith (fun s c => [s, c]) secret a) y] = ok w) ∧
    2 ^ secret.length * Nat.card {a : Fin secret.length → Byte //
      combine [Vault.share (List.zipWith (fun s c => [s, c]) secret (List.ofFn a)) x,
        Vault.share (List.zipWith (fun s c => [s, c]) secret (List.ofFn a)) y] = ok secret} ≤ 256 ^ secret.length := by
  classical
  have hpos : 1 ≤ secret.length := List.length_pos_iff.2 hs
  let P : List Byte → List (List Byte) := fun a => [Vault.share (List.zipWith (fun s c => [s, c]) secret a) x,
        Vault.share (List.zipWith (fun s c => [s, c]) secret a) y]
  have htag : ∀ r x, tag (Vault.share r x) = x := by
    intro r x; simp [tag, Vault.share, List.getD_eq_getElem?_getD]
  have htags : ∀ a, tags (P a) = [x, y] := by intro a; simp [tags, P, htag]
  have hok : ∀ a : List Byte, a.length = secret.length → combine (P a) = ok (recover (P a) secret.length) := by
    intro a ha
    refine combine_ok (by simp [P]) hpos ?_ (by rw [htags]; simp [hxy])
    intro p hp
    simp only [P, List.mem_cons, List.not_mem_nil, or_false] at hp
    rcases hp with rfl | rfl <;> simp [Vault.share, ha]
  refine ⟨fun a ha => ⟨_, hok a ha⟩, ?_⟩
  let K : Byte → Prop := fun a => (⟨y⟩ : GF) * ⟨Aes.mul a x⟩ = ⟨x⟩ * ⟨Aes.mul a y⟩
  have hK : 2 * Nat.card {a // K a} ≤ 256 := by
    obtain ⟨e, he⟩ := disagree hx hy hxy
    refine half (K := K) ?_ he
    intro a b ha hb
    have e1 : ∀ z, (⟨Aes.mul (a ^^^ b) z⟩ : GF) = ⟨Aes.mul a z⟩ + ⟨Aes.mul b z⟩ := fun z => GF.ext' (aes_mul_xor a b z)
    change _ * (⟨Aes.mul (a ^^^ b) x⟩ : GF) = _ * ⟨Aes.mul (a ^^^ b) y⟩
    rw [e1, e1, mul_add, mul_add, ha, hb]
  have hnd : ∀ a, (tags (P a)).Nodup := by intro a; rw [htags]; simp [hxy]
  have hval : ∀ a : List Byte, a.length = secret.length → ∀ j (hj : j < secret.length), ∀ z,
      (Vault.share (List.zipWith (fun s c => [s, c]) secret a) z).getD j 0 = secret.getD j 0 ^^^ Aes.mul (a.getD j 0) z := by
    intro a ha j hj z
    have hj' : j < a.length := by omega
    have m0 : Aes.mul 0#8 z = 0#8 := by
      apply Vault.toGF_injective; rw [Vault.toGF_mul, Vault.toGF_zero, zero_mul]
    simp only [Vault.share, List.getD_eq_getElem?_getD]
    rw [List.getElem?_append_left (by simp [hj, hj'])]
    simp [hj, hj', Vault.evalAes, m0]
  have hiff : ∀ a : Fin secret.length → Byte, combine (P (List.ofFn a)) = ok secret ↔ ∀ j, K (a j) := by
    intro a
    have hl : (List.ofFn a).length = secret.length := by simp
    rw [hok _ hl, recover_interp (hnd _), Outcome.ok.injEq]
    have step : ∀ j : Fin secret.length, (((interp (P (List.ofFn a)) j.val).eval 0).val = secret.getD j.val 0 ↔ K (a j)) := by
      intro j
      have hd : (interp (P (List.ofFn a)) j.val).degree < 2 := interp_degree (hnd _) _
      have h0 := line_zero hd ⟨x⟩ ⟨y⟩
      have ex := interp_eval (hnd (List.ofFn a)) j.val (p := Vault.share (List.zipWith (fun s c => [s, c]) secret (List.ofFn a)) x) (by simp [P])
      have ey := interp_eval (hnd (List.ofFn a)) j.val (p := Vault.share (List.zipWith (fun s c => [s, c]) secret (List.ofFn a)) y) (by simp [P])
      have ea : (List.ofFn a).getD j.val 0 = a j := by simp [List.getD_eq_getElem?_getD]
      rw [htag, hval _ hl _ j.2, ea] at ex ey
      rw [ex, ey] at h0
      have ex' : ∀ z : Byte, (⟨secret.getD j.val 0 ^^^ z⟩ : GF) = ⟨secret.getD j.val 0⟩ + ⟨z⟩ := fun _ => rfl
      rw [ex', ex'] at h0
      have hne : (⟨x⟩ : GF) + ⟨y⟩ ≠ 0 := fun e => hxy (congrArg GF.val (CharTwo.add_eq_zero.1 e))
      have two : (2 : GF) = 0 := CharTwo.two_eq_zero
      constructor
      · intro h
        have h : (interp (P (List.ofFn a)) j.val).eval 0 = ⟨secret.getD j.val 0⟩ := GF.ext' h
        rw [h] at h0
        change (⟨y⟩ : GF) * _ = ⟨x⟩ * _
        linear_combination -h0 - (⟨x⟩ * ⟨Aes.mul (a j) y⟩) * two
      · intro h
        have h : (⟨y⟩ : GF) * ⟨Aes.mul (a j) x⟩ = ⟨x⟩ * ⟨Aes.mul (a j) y⟩ := h
        have : (interp (P (List.ofFn a)) j.val).eval 0 = ⟨secret.getD j.val 0⟩ := by
          apply mul_right_cancel₀ hne
          rw [h0]
          linear_combination h + (⟨x⟩ * ⟨Aes.mul (a j) y⟩) * two
        rw [this]
    constructor
    · intro h j
      refine (step j).1 ?_
      have := congrArg (fun l => l.getD j.val 0) h
      simpa [List.getD_eq_getElem?_getD] using this
    · intro h
      conv_rhs => rw [← map_getD_range secret]
      refine List.map_congr_left fun j hj => ?_
      exact (step ⟨j, by simpa using hj⟩).2 (h _)
  have hcard : Nat.card {a : Fin secret.length → Byte // combine (P (List.ofFn a)) = ok secret} =
      Nat.card {a // K a} ^ secret.length := by
    rw [Nat.card_congr (Equiv.subtypeEquivRight hiff), Nat.card_congr (Equiv.subtypePiEquivPi (p := fun _ => K)),
      Nat.card_fun, Nat.card_fin]
  change 2 ^ secret.length * Nat.card {a : Fin secret.length → Byte // combine (P (List.ofFn a)) = ok secret} ≤ _
  rw [hcard, ← mul_pow]
  exact Nat.pow_le_pow_left hK _

/-- The shares with the tags 1 and 2 of the one-byte secret 5, with the coefficient 128: combined to something else. -/
example : combine [Vault.share [[5, 128]] 1, Vault.share [[5, 128]] 2] = ok [5 ^^^ 2] := by decide +kernel

/-! ## All shares -/

theorem sum_all (g : GF[X]) (hd : g.degree < 255) : ∑ z : GF, g.eval z = 0 := by
  have hn : g.natDegree < 255 := by
    rcases eq_or_ne g 0 with rfl | h0
    · simp
    · exact (natDegree_lt_iff_degree_lt h0).2 hd
  have : ∀ z, g.eval z = ∑ i ∈ Finset.range 255, g.coeff i * z ^ i := fun z => eval_eq_sum_range' hn z
  simp only [this]
  rw [Finset.sum_comm]
  refine Finset.sum_eq_zero fun i hi => ?_
  rw [← Finset.mul_sum, FiniteField.sum_pow_lt_card_sub_one GF i (by rw [GF.card]; simpa using hi), mul_zero]

theorem sum_tags (g : GF[X]) (hd : g.degree < 255) (xs : List Byte) (hn : xs.Nodup) (h0 : (0 : Byte) ∉ xs) (hl : xs.length = 255) :
    (xs.map fun x => g.eval ⟨x⟩).sum = g.eval 0 := by
  classical
  rw [← List.sum_toFinset _ hn]
  have hs : xs.toFinset = Finset.univ.erase 0 := by
    refine Finset.eq_of_subset_of_card_le ?_ ?_
    · intro z hz
      exact Finset.mem_erase.2 ⟨fun e => h0 (e ▸ List.mem_toFinset.1 hz), Finset.mem_univ _⟩
    · rw [List.toFinset_card_of_nodup hn, hl]; decide +kernel
  rw [hs]
  have h1 := sum_all g hd
  have h2 : ∑ z : GF, g.eval z = ∑ x : Byte, g.eval ⟨x⟩ := Fintype.sum_equiv GF.equiv _ _ (fun _ => rfl)
  rw [h2, ← Finset.add_sum_erase _ _ (Finset.mem_univ (0 : Byte))] at h1
  exact (CharTwo.add_eq_zero.1 h1).symm

/-- C79: all 255 shares of a sharing over the other field, in any order, combine to the secret, whatever the threshold. -/
theorem C79_vault_all (rows : List (List Byte)) (hr : rows ≠ []) (hlen : ∀ r ∈ rows, 1 ≤ r.length ∧ r.length ≤ 255)
    (xs : List Byte) (hn : xs.Nodup) (h0 : (0 : Byte) ∉ xs) (hl : xs.length = 255) :
    combine (xs.map (Vault.share rows)) = ok (rows.map fun r => r.headD 0) := by
  have htag : ∀ x, tag (Vault.share rows x) = x := by
    intro x; simp [tag, Vault.share, List.getD_eq_getElem?_getD]
  have htags : tags (xs.map (Vault.share rows)) = xs := by
    unfold tags
    rw [List.map_map]
    conv_rhs => rw [← List.map_id xs]
    exact List.map_congr_left fun x _ => htag x
  have hnd : (tags (xs.map (Vault.share rows))).Nodup := by rw [htags]; exact hn
  rw [combine_ok (N := rows.length) (by simp [hl]) (List.length_pos_iff.2 hr) (by simp [Vault.share]) hnd, recover_interp hnd]
  congr 1
  apply List.ext_getElem (by simp)
  intro j h1 h2
  have hj : j < rows.length := by simpa using h1
  rw [List.getElem_map, List.getElem_range, List.getElem_map]
  have hd : (interp (xs.map (Vault.share rows)) j).degree < 255 := by
    have := interp_degree hnd j
    rwa [List.length_map, hl] at this
  rw [← sum_tags _ hd xs hn h0 hl]
  have e : (xs.map fun x => (interp (xs.map (Vault.share rows)) j).eval ⟨x⟩) =
      xs.map fun x => (⟨Vault.evalAes rows[j] x⟩ : GF) := by
    refine List.map_congr_left fun x hx => ?_
    have := interp_eval hnd j (p := Vault.share rows x) (List.mem_map_of_mem hx)
    rw [htag] at this
    rw [this]
    congr 1
    simp only [Vault.share, List.getD_eq_getElem?_getD]
    rw [List.getElem?_append_left (by simp [hj])]
    simp [hj]
  rw [e]
  -- the same sum in the other field
  have hx' : (xs.map convert).Nodup := hn.map (Function.LeftInverse.injective Vault.convert_convert)
  have h0' : (0 : Byte) ∉ xs.map convert := by
    intro h
    obtain ⟨x, hx, hx0⟩ := List.mem_map.1 h
    have : x = 0 := by rw [← Vault.convert_convert x, hx0]; exact Vault.convert_zero
    exact h0 (this ▸ hx)
  have hrow := hlen rows[j] (List.getElem_mem _)
  have hd2 : (ofCoeffs (rows[j].map convert)).degree < 255 := by
    refine lt_of_lt_of_le (ofCoeffs_degree _) ?_
    rw [List.length_map]; exact_mod_cast hrow.2
  have hs := sum_tags _ hd2 (xs.map convert) hx' h0' (by simp [hl])
  rw [List.map_map] at hs
  have hz : (ofCoeffs (rows[j].map convert)).eval 0 = Vault.toGF (rows[j].headD 0) := by
    have := evalC_zero (cs := rows[j].map convert) (by
      intro e; have := congrArg List.length e; simp at this; rw [this] at hrow; simp at hrow)
    refine GF.ext' (this.trans ?_)
    cases h : rows[j] with
    | nil => rw [h] at hrow; simp at hrow
    | cons a l => rfl
  rw [hz] at hs
  have hm : ∀ l : List Byte, (⟨convert ((l.map fun x => (⟨Vault.evalAes rows[j] x⟩ : GF)).sum).val⟩ : GF) =
      (l.map ((fun x => (ofCoeffs (rows[j].map convert)).eval ⟨x⟩) ∘ convert)).sum := by
    intro l
    induction l with
    | nil => exact Vault.toGF_zero
    | cons x l ih =>
      rw [List.map_cons, List.sum_cons, List.map_cons, List.sum_cons, ← ih]
      have := Vault.toGF_evalAes rows[j] x
      change Vault.toGF (_ ^^^ _) = _
      rw [Vault.toGF_xor, this]
      rfl
  have := (hm xs).trans hs
  exact Vault.toGF_injective this

/-- The shares with the tags 1, ..., 255 of a two-byte secret with threshold 3. -/
example : combine (((List.range 255).map fun i => BitVec.ofNat 8 (i + 1)).map (Vault.share [[5, 128, 7], [9, 250, 77]])) = ok [5, 9] :=
  C79_vault_all [[5, 128, 7], [9, 250, 77]] (by decide) (by decide) _ (by decide +kernel) (by decide +kernel) (by simp)

/-! ## Conversion -/

/-- C79: shares over the other field can be converted byte by byte, tags included: the converted shares are a sharing
of the converted secret, and converting twice gives back the original. -/
theorem C79_vault_convert (rows : List (List Byte)) (hr : rows ≠ []) (t : Nat) (h2 : 2 ≤ t) (hlen : ∀ r ∈ rows, r.length = t)
    (xs : List Byte) (hn : xs.Nodup) (hl : t ≤ xs.length) :
    ∃ w, combine (xs.map fun x => (Vault.share rows x).map convert) = ok w ∧ w.map convert = rows.map fun r => r.headD 0 := by
  have hx' : (xs.map convert).Nodup := hn.map (Function.LeftInverse.injective Vault.convert_convert)
  let s : List Byte := rows.map fun r => convert (r.headD 0)
  have hg : GoodRows s t (rows.map (List.map convert)) := by
    refine ⟨by simp [s], ?_, ?_⟩
    · intro r hr'
      obtain ⟨r', h', rfl⟩ := List.mem_map.1 hr'
      simpa using hlen r' h'
    · intro j hj
      have hj : j < rows.length := by simpa [s] using hj
      have := hlen _ (List.getElem_mem hj)
      have h0 : 0 < rows[j].length := by omega
      simp only [s, List.getD_eq_getElem?_getD, List.getElem?_map, List.getElem?_eq_getElem hj, Option.map_some, Option.getD_some]
      generalize rows[j] = r at h0
      cases r with
      | nil => simp at h0
      | cons a l => simp
  refine ⟨s, ?_, ?_⟩
  · have := combine_sharing (shares_isSharing (by omega) hg _ hx') (List.Subperm.refl _) h2 (by simpa using hl)
      (by simpa [s] using hr)
    rw [List.map_map] at this
    rw [← this]
    congr 1
    exact List.map_congr_left fun x _ => Vault.share_convert rows x
  · simp only [s, List.map_map]
    exact List.map_congr_left fun r _ => Vault.convert_convert _

/-- The shares with the tags 1 and 2 of the secret 5 with the coefficient 128, which Combine gets wrong as they are. -/
example : ∃ w, combine ([1, 2].map fun x => (Vault.share [[5, 128]] x).map convert) = ok w ∧ w.map convert = [5] :=
  C79_vault_convert [[5, 128]] (by decide) 2 (by decide) (by decide) [1, 2] (by decide) (by decide)

/-- C79: and back: converting the shares of Split gives shares over the other field, of the converted secret, with the same threshold. -/
theorem C79_split_convert (arch : Arch) (secret : List Byte) (parts threshold : Int) (perm : List Nat)
    (hperm : perm.Perm (List.range 255)) (rnd : Nat → Byte) (ps ps' : Pools) (shares : List (List Byte))
    (h : split arch secret parts threshold perm rnd ps = ok (shares, ps')) :
    ∃ rows : List (List Byte), (rows.map fun r => r.headD 0) = secret.map convert ∧ (∀ r ∈ rows, (r.length : Int) = threshold) ∧
      shares.map (List.map convert) = shares.map fun w => Vault.share rows (convert (tag w)) := by
  obtain ⟨hv, ⟨-, f, hf, hs⟩, -⟩ := split_ok arch hperm h
  have ⟨v1, v2, v3, v4⟩ := hv
  set t := threshold.toNat with ht
  let R : List (List Byte) := (List.range secret.length).map fun j => (List.range t).map fun i => ((f j).coeff i).val
  have hR : ∀ j < secret.length, ofCoeffs (R.getD j []) = f j := by
    intro j hj
    have hd := (hf j hj).1
    have hn : (f j).natDegree < t := by
      rcases eq_or_ne (f j) 0 with h0 | h0
      · rw [h0]; simp; omega
      · exact (natDegree_lt_iff_degree_lt h0).2 hd
    have e : R.getD j [] = (List.range t).map fun i => ((f j).coeff i).val := by
      simp [R, List.getD_eq_getElem?_getD, hj]
    rw [e, ofCoeffs]
    conv_rhs => rw [(f j).as_sum_range_C_mul_X_pow' hn]
    rw [List.length_map, List.length_range]
    refine Finset.sum_congr rfl fun i hi => ?_
    have hi : i < t := by simpa using hi
    simp [List.getD_eq_getElem?_getD, hi]
  have hw : ∀ w ∈ shares, w = shareOf R (tag w) := by
    intro w hw
    obtain ⟨hwl, hwv⟩ := hs w hw
    apply List.ext_getElem
    · simp [shareOf, R, hwl]
    · intro i h1 h2
      by_cases hi : i < secret.length
      · have := hwv i hi
        rw [← hR i hi] at this
        have := congrArg GF.val this
        simp only [shareOf]
        rw [List.getElem_append_left (by simpa [R] using hi), List.getElem_map]
        rw [List.getD_eq_getElem?_getD, List.getElem?_eq_getElem h1] at this
        simp only [Option.getD_some] at this
        rw [this]
        unfold evalC
        have hiR : i < R.length := by simpa [R] using hi
        rw [List.getD_eq_getElem?_getD, List.getElem?_eq_getElem hiR]
        rfl
      · have hi' : i = secret.length := by omega
        subst hi'
        simp only [shareOf]
        rw [List.getElem_append_right (by simp [R])]
        simp [tag, hwl, List.getD_eq_getElem?_getD]
  refine ⟨R.map (List.map convert), ?_, ?_, ?_⟩
  · rw [List.map_map]
    conv_rhs => rw [← map_getD_range secret, List.map_map]
    rw [List.map_map]
    refine List.map_congr_left fun j hj => ?_
    have hj : j < secret.length := by simpa using hj
    have h0 := (hf j hj).2
    have : ((f j).coeff 0).val = secret.getD j 0 := by rw [coeff_zero_eq_eval_zero, h0]
    obtain ⟨t', ht'⟩ : ∃ t', t = t' + 1 := ⟨t - 1, by omega⟩
    simp [ht', List.range_succ_eq_map, this]
  · intro r hr
    obtain ⟨r', hr', rfl⟩ := List.mem_map.1 hr
    obtain ⟨j, -, rfl⟩ := List.mem_map.1 hr'
    simp; omega
  · refine List.map_congr_left fun w hw' => ?_
    conv_lhs => rw [hw w hw']
    have := Vault.share_convert (R.map (List.map convert)) (convert (tag w))
    have hRR : (R.map (List.map convert)).map (List.map convert) = R := by
      rw [List.map_map (l := R)]
      conv_rhs => rw [← List.map_id R]
      refine List.map_congr_left fun r _ => ?_
      simp only [Function.comp, List.map_map, id]
      conv_rhs => rw [← List.map_id r]
      exact List.map_congr_left fun a _ => Vault.convert_convert a
    rw [Vault.convert_convert, hRR] at this
    rw [← this, List.map_map (l := Vault.share _ _)]
    conv_rhs => rw [← List.map_id (Vault.share _ _)]
    exact List.map_congr_left fun a _ => Vault.convert_convert a

/-- Split's shares of a two-byte secret. -/
example : ∃ shares ps', split .noasm [5, 9] 3 2 (List.range 255) (fun i => BitVec.ofNat 8 (i + 200)) (Pools.init 4) = ok (shares, ps') ∧
    ∃ rows : List (List Byte), (rows.map fun r => r.headD 0) = [5, 9].map convert ∧
      (∀ r ∈ rows, (r.length : Int) = 2) ∧
      shares.map (List.map convert) = shares.map fun w => Vault.share rows (convert (tag w)) := by
  obtain ⟨⟨shares, ps'⟩, hr⟩ := C13_split_validates .noasm [5, 9] 3 2 (List.range 255) (List.Perm.refl _)
    (fun i => BitVec.ofNat 8 (i + 200)) (Pools.init 4)
  exact ⟨shares, ps', hr, C79_split_convert .noasm _ _ _ _ (List.Perm.refl _) _ _ _ _ hr⟩

/-! ## The tables -/

theorem pow_iterate (g : GF) (n : Nat) : (g ^ n).val = (fun a => mulSpec g.val a)^[n] 1#8 := by
  induction n with
  | zero => rfl
  | succ n ih => rw [pow_succ', GF.val_mul, ih, Function.iterate_succ', Function.comp]

theorem check_e5 : ∀ a : Byte, a ≠ 0 →
    ((fun a => mulSpec 0xe5#8 a)^[Tables.Shamir.logTable.getD a.toNat 0] 1#8 = a ↔ a = 1 ∨ a = 214 ∨ a = 215) := by
  decide +kernel

/-- C79: the logarithms of shamir/tables.go are to the base 2, not, as its comment says, to the base 0xe5 (229): for all bytes
but three they are no logarithms to the base 229. -/
theorem C79_tables_base (a : Byte) (ha : a ≠ 0) :
    (⟨2#8⟩ : GF) ^ (Tables.Shamir.logTable.getD a.toNat 0) = ⟨a⟩ ∧
    ((⟨0xe5#8⟩ : GF) ^ (Tables.Shamir.logTable.getD a.toNat 0) = ⟨a⟩ ↔ a = 1 ∨ a = 214 ∨ a = 215) := by
  refine ⟨((checkLogExp_spec check_shamir_log).2.2.2 a ha).symm, ?_⟩
  rw [← check_e5 a ha, ← pow_iterate ⟨0xe5#8⟩]
  exact ⟨fun h => congrArg GF.val h, fun h => GF.ext' h⟩

end Verif.Props
