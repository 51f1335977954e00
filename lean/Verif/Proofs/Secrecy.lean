import Verif.Proofs.Payload
import Verif.Proofs.CombineAlg
import Verif.Spec.Secrecy

/-! # Masking lemmas behind perfect secrecy -/

namespace Verif.Proofs
open Verif Spec Outcome Polynomial Shamir Galois Pool Csprng

/-- A polynomial of degree at most |T| through prescribed values at 0 and on T, as coefficients. -/
theorem exists_mask (t : Nat) (T : Finset Byte) (h0 : 0 ∉ T) (hT : T.card < t) (a : Byte) (g : Byte → Byte) :
    ∃ δ : Nat → Byte, ∀ x ∈ T,
      (⟨a⟩ : GF) + ∑ k ∈ Finset.Ico 1 t, (⟨δ k⟩ : GF) * ⟨x⟩ ^ k = ⟨g x⟩ := by
  classical
  let S : Finset Byte := insert 0 T
  have hS : S.card ≤ t := by
    have : S.card = T.card + 1 := Finset.card_insert_of_notMem h0
    omega
  let val : Byte → GF := fun x => if x = 0 then ⟨a⟩ else ⟨g x⟩
  have hinj : Set.InjOn (fun x : Byte => (⟨x⟩ : GF)) S := by
    intro x _ y _ h; exact congrArg GF.val h
  let Q : GF[X] := Lagrange.interpolate S (fun x : Byte => (⟨x⟩ : GF)) val
  have hdeg : Q.degree < t := lt_of_lt_of_le (Lagrange.degree_interpolate_lt _ hinj) (by exact_mod_cast hS)
  have hev : ∀ x ∈ S, Q.eval ⟨x⟩ = val x := fun x hx => Lagrange.eval_interpolate_at_node _ hinj hx
  have hsum : ∀ z : GF, Q.eval z = ∑ k ∈ Finset.range t, Q.coeff k * z ^ k := by
    intro z
    by_cases hQ : Q = 0
    · rw [hQ]; simp
    · exact eval_eq_sum_range' ((natDegree_lt_iff_degree_lt hQ).2 hdeg) z
  have hq0 : Q.coeff 0 = ⟨a⟩ := by
    have := hev 0 (by simp [S])
    rw [coeff_zero_eq_eval_zero]
    exact this.trans (by simp [val])
  have htpos : 0 < t := by omega
  refine ⟨fun k => (Q.coeff k).val, fun x hx => ?_⟩
  have hx0 : x ≠ 0 := fun h => h0 (h ▸ hx)
  have h1 := hev x (by simp [S, hx])
  rw [hsum, Finset.range_eq_Ico, Finset.sum_eq_sum_Ico_succ_bot htpos, pow_zero, mul_one, hq0] at h1
  have h2 : val x = ⟨g x⟩ := if_neg hx0
  exact h1.trans h2

/-- The share with tag `x` of secret `s` with coefficients `c p k` (k ≥ 1). -/
noncomputable def cShare (s : List Byte) (t : Nat) (c : Nat → Nat → Byte) (x : Byte) : List Byte :=
  (List.range s.length).map (fun p => s.getD p 0 ^^^ (∑ k ∈ Finset.Ico 1 t, (⟨c p k⟩ : GF) * ⟨x⟩ ^ k).val) ++ [x]

theorem cShare_congr {s : List Byte} {t : Nat} {c c' : Nat → Nat → Byte}
    (h : ∀ p < s.length, ∀ k, 1 ≤ k → k < t → c p k = c' p k) (x : Byte) : cShare s t c x = cShare s t c' x := by
  unfold cShare
  congr 1
  apply List.map_congr_left
  intro p hp
  congr 2
  apply Finset.sum_congr rfl
  intro k hk
  simp only [Finset.mem_Ico] at hk
  rw [h p (by simpa using hp) k hk.1 hk.2]

theorem cShare_getD (s : List Byte) (t : Nat) (c : Nat → Nat → Byte) (x : Byte) {p : Nat} (hp : p < s.length) :
    (cShare s t c x).getD p 0 = s.getD p 0 ^^^ (∑ k ∈ Finset.Ico 1 t, (⟨c p k⟩ : GF) * ⟨x⟩ ^ k).val := by
  unfold cShare
  rw [List.getD_eq_getElem?_getD, List.getElem?_append_left (by simpa using hp)]
  simp [hp]

@[simp] theorem length_cShare (s : List Byte) (t : Nat) (c : Nat → Nat → Byte) (x : Byte) :
    (cShare s t c x).length = s.length + 1 := by simp [cShare]

theorem tag_cShare (s : List Byte) (t : Nat) (c : Nat → Nat → Byte) (x : Byte) : tag (cShare s t c x) = x := by
  simp [tag, cShare, List.getD_eq_getElem?_getD]

theorem share_ext {a b : List Byte} {N : Nat} (ha : a.length = N + 1) (hb : b.length = N + 1) (ht : tag a = tag b)
    (h : ∀ p < N, a.getD p 0 = b.getD p 0) : a = b := by
  apply List.ext_getElem (by omega)
  intro i h1 h2
  rcases Nat.lt_or_ge i N with hi | hi
  · have := h i hi
    rwa [getD_getElem h1, getD_getElem h2] at this
  · have e : i = N := by omega
    subst e
    unfold tag at ht
    rw [ha, hb] at ht
    simp only [Nat.add_sub_cancel] at ht
    rwa [getD_getElem h1, getD_getElem h2] at ht

/-- Coefficients shifted so that secret `s` turns into `s'` while the payload at every `x ∈ T` changes by `g p x`. -/
theorem exists_shift {s s' : List Byte} (hl : s.length = s'.length) (t : Nat) (T : Finset Byte) (h0 : 0 ∉ T)
    (hT : T.card < t) (g : Nat → Byte → Byte) :
    ∃ δ : Nat → Nat → Byte, ∀ c : Nat → Nat → Byte, ∀ x ∈ T, ∀ p < s.length,
      (cShare s' t (fun p k => c p k ^^^ δ p k) x).getD p 0 = (cShare s t c x).getD p 0 ^^^ g p x := by
  choose δ hδ using fun p => exists_mask t T h0 hT (s.getD p 0 ^^^ s'.getD p 0) (g p)
  refine ⟨δ, fun c x hx p hp => ?_⟩
  rw [cShare_getD _ _ _ _ (by omega), cShare_getD _ _ _ _ hp]
  have hsum : ∑ k ∈ Finset.Ico 1 t, (⟨c p k ^^^ δ p k⟩ : GF) * ⟨x⟩ ^ k
      = (∑ k ∈ Finset.Ico 1 t, (⟨c p k⟩ : GF) * ⟨x⟩ ^ k) + ∑ k ∈ Finset.Ico 1 t, (⟨δ p k⟩ : GF) * ⟨x⟩ ^ k := by
    rw [← Finset.sum_add_distrib]
    apply Finset.sum_congr rfl
    intro k _
    rw [← add_mul]; rfl
  rw [hsum]
  have := hδ p x hx
  have e1 : (⟨s'.getD p 0⟩ : GF) + ((∑ k ∈ Finset.Ico 1 t, (⟨c p k⟩ : GF) * ⟨x⟩ ^ k)
      + ∑ k ∈ Finset.Ico 1 t, (⟨δ p k⟩ : GF) * ⟨x⟩ ^ k)
      = ((⟨s.getD p 0⟩ : GF) + (∑ k ∈ Finset.Ico 1 t, (⟨c p k⟩ : GF) * ⟨x⟩ ^ k)) + ⟨g p x⟩ := by
    rw [← this]
    have e2 : (⟨s.getD p 0 ^^^ s'.getD p 0⟩ : GF) = ⟨s.getD p 0⟩ + ⟨s'.getD p 0⟩ := rfl
    rw [e2]
    have e3 : (⟨s.getD p 0⟩ : GF) + ⟨s.getD p 0⟩ = 0 := CharTwo.add_self_eq_zero _
    linear_combination (-1 : GF) * e3
  exact congrArg GF.val e1

/-- How the coefficients are laid out in the random bytes: coefficient `k` of byte `p` is random byte `ix p k`. -/
structure Layout (t N m : Nat) where
  ix : Nat → Nat → Nat
  byteOf : Nat → Nat
  coefOf : Nat → Nat
  lt : ∀ p < N, ∀ k, 1 ≤ k → k < t → ix p k < m
  byteOf_ix : ∀ p < N, ∀ k, 1 ≤ k → k < t → byteOf (ix p k) = p
  coefOf_ix : ∀ p < N, ∀ k, 1 ≤ k → k < t → coefOf (ix p k) = k

/-- Fillings shifted by the given coefficient matrix. -/
def Layout.shift {t N m : Nat} (L : Layout t N m) (δ : Nat → Nat → Byte) : (Fin m → Byte) ≃ (Fin m → Byte) where
  toFun ρ j := ρ j ^^^ δ (L.byteOf j) (L.coefOf j)
  invFun ρ j := ρ j ^^^ δ (L.byteOf j) (L.coefOf j)
  left_inv ρ := by funext j; simp [BitVec.xor_assoc]
  right_inv ρ := by funext j; simp [BitVec.xor_assoc]

theorem Layout.stream_shift {t N m : Nat} (L : Layout t N m) (δ : Nat → Nat → Byte) (ρ : Fin m → Byte)
    {p k : Nat} (hp : p < N) (h1 : 1 ≤ k) (hk : k < t) :
    stream (L.shift δ ρ) (L.ix p k) = stream ρ (L.ix p k) ^^^ δ p k := by
  unfold stream
  rw [dif_pos (L.lt p hp k h1 hk), dif_pos (L.lt p hp k h1 hk)]
  change ρ _ ^^^ δ (L.byteOf (L.ix p k)) (L.coefOf (L.ix p k)) = _
  rw [L.byteOf_ix p hp k h1 hk, L.coefOf_ix p hp k h1 hk]

/-- The shares with the coefficients taken from the random bytes. -/
noncomputable def Layout.shares {t N m : Nat} (L : Layout t N m) (s : List Byte) (xs : List Byte)
    (ρ : Fin m → Byte) : List (List Byte) :=
  xs.map (cShare s t fun p k => stream ρ (L.ix p k))

theorem Layout.exists_equiv {t N m : Nat} (L : Layout t N m) {s s' : List Byte} (hs : s.length = N)
    (hs' : s'.length = N) (xs : List Byte) (h0 : ∀ x ∈ xs, x ≠ 0) (I : Finset Nat) (hI : I.card < t)
    (g : Nat → Byte → Byte) :
    ∃ e : (Fin m → Byte) ≃ (Fin m → Byte), ∀ ρ, ∀ i ∈ I, ∀ (hi : i < xs.length),
      ∀ p < N, ((cShare s' t (fun p k => stream (e ρ) (L.ix p k)) xs[i]).getD p 0)
        = (cShare s t (fun p k => stream ρ (L.ix p k)) xs[i]).getD p 0 ^^^ g p xs[i] := by
  classical
  let T : Finset Byte := (I.filter (· < xs.length)).image fun i => xs.getD i 0
  have hT : T.card < t := lt_of_le_of_lt (Finset.card_image_le.trans (Finset.card_filter_le _ _)) hI
  have hT0 : 0 ∉ T := by
    intro h
    obtain ⟨i, hi, e⟩ := Finset.mem_image.1 h
    have hi := (Finset.mem_filter.1 hi).2
    rw [getD_getElem hi] at e
    exact h0 _ (List.getElem_mem hi) e
  obtain ⟨δ, hδ⟩ := exists_shift (s := s) (s' := s') (by omega) t T hT0 hT g
  refine ⟨L.shift δ, fun ρ i hiI hi p hp => ?_⟩
  have hx : xs[i] ∈ T := Finset.mem_image.2 ⟨i, Finset.mem_filter.2 ⟨hiI, hi⟩, getD_getElem hi 0⟩
  rw [← hδ _ _ hx p (by omega)]
  congr 1
  apply cShare_congr
  intro p hp k h1 hk
  exact L.stream_shift δ ρ (by omega) h1 hk

/-- A byte is a number below 256. -/
def byteEquiv : Byte ≃ Fin 256 := ⟨fun b => b.toFin, fun i => ⟨i⟩, fun _ => rfl, fun _ => rfl⟩

instance : Finite Byte := Finite.of_equiv _ byteEquiv.symm

theorem count_congr {m : Nat} {E E' : (Fin m → Byte) → Prop} (e : (Fin m → Byte) ≃ (Fin m → Byte))
    (h : ∀ ρ, E ρ ↔ E' (e ρ)) : count E = count E' :=
  Nat.card_congr (e.subtypeEquiv h)

/-- Secrecy: fewer than `t` shares have the same distribution for any two secrets of the same length. -/
theorem Layout.secrecy {t N m : Nat} (L : Layout t N m) {s s' : List Byte} (hs : s.length = N)
    (hs' : s'.length = N) (xs : List Byte) (h0 : ∀ x ∈ xs, x ≠ 0) (I : Finset Nat) (hI : I.card < t) :
    ∃ e : (Fin m → Byte) ≃ (Fin m → Byte), ∀ ρ, ∀ i ∈ I, (L.shares s xs ρ)[i]? = (L.shares s' xs (e ρ))[i]? := by
  obtain ⟨e, he⟩ := L.exists_equiv hs hs' xs h0 I hI (fun _ _ => 0)
  refine ⟨e, fun ρ i hi => ?_⟩
  unfold Layout.shares
  rcases Nat.lt_or_ge i xs.length with h | h
  · simp only [List.getElem?_map, List.getElem?_eq_getElem h, Option.map_some]
    congr 1
    refine share_ext (N := N) (by simp [hs]) (by simp [hs']) (by rw [tag_cShare, tag_cShare]) ?_
    intro p hp
    have := he ρ i hi h p hp
    rw [this]
    exact BitVec.xor_zero.symm
  · rw [List.getElem?_eq_none (by simpa using h), List.getElem?_eq_none (by simpa using h)]

/-- Uniformity: every payload of fewer than `t` shares is equally likely, for all secrets of that length. -/
theorem Layout.uniform {t N m : Nat} (L : Layout t N m) {s s' : List Byte} (hs : s.length = N)
    (hs' : s'.length = N) (xs : List Byte) (h0 : ∀ x ∈ xs, x ≠ 0) (hn : xs.Nodup) (I : Finset Nat) (hI : I.card < t)
    (v v' : Nat → List Byte)
    (hv : ∀ i ∈ I, ∃ h : i < xs.length, (v i).length = N + 1 ∧ tag (v i) = xs[i])
    (hv' : ∀ i ∈ I, ∃ h : i < xs.length, (v' i).length = N + 1 ∧ tag (v' i) = xs[i]) :
    ∃ e : (Fin m → Byte) ≃ (Fin m → Byte), ∀ ρ,
      (∀ i ∈ I, (L.shares s xs ρ)[i]? = some (v i)) ↔ (∀ i ∈ I, (L.shares s' xs (e ρ))[i]? = some (v' i)) := by
  classical
  obtain ⟨e, he⟩ := L.exists_equiv hs hs' xs h0 I hI
    (fun p x => (v (xs.idxOf x)).getD p 0 ^^^ (v' (xs.idxOf x)).getD p 0)
  refine ⟨e, fun ρ => forall₂_congr fun i hi => ?_⟩
  obtain ⟨h, hl, ht⟩ := hv i hi
  obtain ⟨h', hl', ht'⟩ := hv' i hi
  unfold Layout.shares
  simp only [List.getElem?_map, List.getElem?_eq_getElem h, Option.map_some]
  have key := he ρ i hi h
  rw [hn.idxOf_getElem] at key
  have shape : ∀ (s : List Byte) (c : Nat → Nat → Byte) (w : List Byte), s.length = N → w.length = N + 1 →
      tag w = xs[i] → (some (cShare s t c xs[i]) = some w ↔ ∀ p < N, (cShare s t c xs[i]).getD p 0 = w.getD p 0) := by
    intro s c w hsN hw htw
    constructor
    · intro e p _; rw [Option.some.inj e]
    · intro hp
      congr 1
      exact share_ext (N := N) (by simp [hsN]) hw (by rw [tag_cShare, htw]) hp
  rw [shape s _ _ hs hl ht, shape s' _ _ hs' hl' ht']
  refine forall₂_congr fun p hp => ?_
  rw [key p hp]
  generalize (cShare s t _ _).getD p 0 = y
  generalize (v i).getD p 0 = w
  generalize (v' i).getD p 0 = w'
  constructor
  · rintro rfl
    rw [← BitVec.xor_assoc, BitVec.xor_self, BitVec.zero_xor]
  · intro e
    have : (y ^^^ (w ^^^ w')) ^^^ w' = w' ^^^ w' := by rw [e]
    rw [BitVec.xor_self, BitVec.xor_assoc, BitVec.xor_assoc, BitVec.xor_self, BitVec.xor_zero] at this
    exact BitVec.xor_eq_zero_iff.1 this

end Verif.Proofs
