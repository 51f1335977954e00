import Verif.Proofs.Results

/-! # Payload bytes of the shares of SplitWithRandomizer in terms of the key stream -/

namespace Verif.Proofs
open Verif Spec Outcome Polynomial Shamir Galois Pool Csprng

/-- The random part of payload byte `p` at tag `x`: coefficients 1..t-1 are `buf[t*p+1..t*p+t-1]`. -/
noncomputable def mask (t : Nat) (buf : List Byte) (p : Nat) (x : Byte) : GF :=
  ∑ k ∈ Finset.Ico 1 t, (⟨buf.getD (t * p + k) 0⟩ : GF) * ⟨x⟩ ^ k

theorem withIntercepts_get {s buf : List Byte} {t p k : Nat} (hk : k < t) (hp : p < s.length)
    (hb : buf.length = t * s.length) :
    (withIntercepts s t buf s.length).getD (t * p + k) 0 = if k = 0 then s.getD p 0 else buf.getD (t * p + k) 0 := by
  have hlt : t * p + k < buf.length := by
    rw [hb]
    calc t * p + k < t * p + t := by omega
      _ = t * (p + 1) := by ring
      _ ≤ t * s.length := Nat.mul_le_mul_left _ hp
  have h0 : 0 < t := by omega
  rw [getD_getElem (by rw [length_withIntercepts]; exact hlt)]
  simp only [withIntercepts, List.getElem_map, List.getElem_range]
  have e1 : (t * p + k) % t = k := by rw [Nat.mul_add_mod]; exact Nat.mod_eq_of_lt hk
  have e2 : (t * p + k) / t = p := by
    rw [Nat.mul_add_div h0, Nat.div_eq_of_lt hk, Nat.add_zero]
  rw [e1, e2]
  by_cases hk0 : k = 0
  · subst hk0; simp [hp]
  · simp [hk0]

theorem shareOf_rowsOf (s buf : List Byte) (t : Nat) (ht : 0 < t) (hb : buf.length = t * s.length) (x : Byte) :
    shareOf (rowsOf (withIntercepts s t buf s.length) t s.length) x
      = (List.range s.length).map (fun p => s.getD p 0 ^^^ (mask t buf p x).val) ++ [x] := by
  unfold shareOf rowsOf
  rw [List.map_map]
  congr 1
  apply List.map_congr_left
  intro p hp
  have hp : p < s.length := by simpa using hp
  simp only [Function.comp]
  rw [rows_eval _ _ s.length]
  have : ∑ k ∈ Finset.range t, (⟨(withIntercepts s t buf s.length).getD (t * p + k) 0⟩ : GF) * ⟨x⟩ ^ k
      = ⟨s.getD p 0⟩ + mask t buf p x := by
    obtain ⟨d, rfl⟩ : ∃ d, t = d + 1 := ⟨t - 1, by omega⟩
    unfold mask
    rw [Finset.range_eq_Ico, Finset.sum_eq_sum_Ico_succ_bot (by omega)]
    congr 1
    · rw [withIntercepts_get (by omega) hp hb, if_pos rfl, pow_zero, mul_one]
    · apply Finset.sum_congr rfl
      intro k hk
      simp only [Finset.mem_Ico] at hk
      rw [withIntercepts_get (by omega) hp hb, if_neg (by omega)]
  rw [this]; rfl

/-- The share with tag `b+1` that SplitWithRandomizer produces from the (xored) buffer `buf`. -/
noncomputable def rShare (s buf : List Byte) (t : Nat) (b : Byte) : List Byte :=
  (List.range s.length).map (fun p => s.getD p 0 ^^^ (mask t buf p (b + 1#8)).val) ++ [b + 1#8]

theorem splitWithRandomizer_payload (arch : Arch) (fuel : Nat) {secret : List Byte} {parts threshold : Int}
    (r : CSPRNG) (ps : Pools) (h : ValidArgs secret parts threshold) (xs : List Byte)
    (hx : r.getUniqueBytes fuel (BitVec.ofInt 8 parts) = ok xs) :
    let buf := r.read (staleBuf ps.bPool (threshold.toNat * secret.length))
    let pol := withIntercepts secret threshold.toNat buf secret.length
    ∃ pp, splitWithRandomizer arch fuel secret parts threshold r ps
      = ok (xs.map (rShare secret buf threshold.toNat),
          ⟨bPoolAfter ps.bPool pol (transposed pol threshold.toNat secret.length), pp⟩) := by
  have ⟨v1, v2, v3, v4⟩ := h
  have hl := (getUnique_ok_spec hx).1
  rw [ofInt_toNat (by omega) v2] at hl
  obtain ⟨pp, e⟩ := splitWithRandomizer_valid arch fuel r ps h xs hx (by omega)
  refine ⟨pp, ?_⟩
  rw [e]
  congr 2
  rw [shareTags_eq (by omega), List.take_of_length_le (by omega), List.map_map]
  apply List.map_congr_left
  intro b _
  exact shareOf_rowsOf secret _ threshold.toNat (by omega) (by rw [length_read, length_staleBuf]) _

theorem staleBuf_empty {bPool : BytesBufferPool} (h : bPool.ch = []) (n : Nat) :
    staleBuf bPool n = List.replicate n 0 := by
  have : bPool.get.1 = Buf.new := by simp [BytesBufferPool.get, h]
  unfold staleBuf
  rw [this]
  unfold Buf.grow Buf.new
  by_cases h0 : n ≤ 0
  · have : n = 0 := by omega
    subst this; simp
  · rw [if_neg (by simpa using h0)]
    split
    · rename_i h1
      simp only [List.take_replicate]; congr 1; simp at h1; omega
    · simp

/-- The buffer the next equally sized call receives after a call on an empty pool. -/
theorem staleBuf_after {bPool : BytesBufferPool} (h : bPool.ch = []) (hs : 0 < bPool.size) (pol coef : List Byte)
    (hc : coef.length = pol.length) : staleBuf (bPoolAfter bPool pol coef) pol.length = coef := by
  have g1 : bPool.get = (Buf.new, bPool) := by simp [BytesBufferPool.get, h]
  have hlen := length_grow Buf.new pol.length
  have hput : bPool.put ⟨writeAt (Buf.new.grow pol.length).mem 0 coef⟩
      = { bPool with ch := [⟨writeAt (Buf.new.grow pol.length).mem 0 coef⟩] } := by
    unfold BytesBufferPool.put
    rw [if_pos (by rw [h]; simpa using hs), h]; rfl
  have : (bPoolAfter bPool pol coef).get.1 = ⟨writeAt (Buf.new.grow pol.length).mem 0 coef⟩ := by
    unfold bPoolAfter
    simp only [g1]
    rw [hput]
    unfold BytesBufferPool.put
    split <;> rfl
  unfold staleBuf
  rw [this]
  have hl : (writeAt (Buf.new.grow pol.length).mem 0 coef).length = (Buf.new.grow pol.length).mem.length :=
    length_writeAt (by omega)
  unfold Buf.grow at *
  rw [if_pos (by rw [hl]; exact hlen)]
  simp [writeAt, hc]

end Verif.Proofs
