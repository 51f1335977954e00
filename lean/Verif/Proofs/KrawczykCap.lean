import Verif.Proofs.KrawczykTotal

/-! # krawczyk.Combine on shares with spare capacity -/

namespace Verif.Proofs
open Verif Outcome Galois Spec Krawczyk RS

/-- What the loop does with a malformed share of capacity `c`. -/
def faultCap (parts : Int) (d : List Byte) (c : Nat) : Option (Outcome Unit) :=
  if c < 21 ∨ d = [] then some panic
  else if (partId d).toNat > parts.toNat then some (err .partIdTooLarge)
  else if d.length ≤ 21 ∨ (partId d).toNat = parts.toNat then some panic
  else none

/-- body of the loop -/
def sepCapBody (ssData : List (List Byte)) (caps : List Nat) (parts : Int) (i : Nat)
    (st : List (List Byte) × List (List Byte)) : Outcome (List (List Byte) × List (List Byte)) := do
  let (encodedData, ssMetadata) := st
  let d ← idx ssData i
  let c ← idx caps i
  if c < 21 then panic
  let ssMetadata ← setIdx ssMetadata i (d.take 21)
  let partID ← idxInt d ((d.length : Int) - 1)
  if partID > BitVec.ofInt 8 parts then err .partIdTooLarge
  let s ← slice d 21 (d.length - 1)
  let encodedData ← setIdx encodedData partID.toNat s
  pure (encodedData, ssMetadata)

theorem sepCapBody_eq {ssData : List (List Byte)} {caps : List Nat} {parts : Int} (hp : 0 < parts ∧ parts ≤ 255) {i : Nat}
    (hi : i < ssData.length) (hc : i < caps.length) :
    sepCapBody ssData caps parts i (sepState ssData parts i) =
      match faultCap parts ssData[i] caps[i] with
      | none => ok (sepState ssData parts (i + 1))
      | some (.err e) => err e
      | some _ => panic := by
  unfold sepCapBody sepState
  simp only []
  rw [idx_ok hi, ok_bind, idx_ok hc, ok_bind]
  generalize hd : ssData[i] = d
  generalize caps[i] = c
  unfold faultCap
  by_cases h1 : c < 21
  · rw [if_pos h1, if_pos (.inl h1)]; rfl
  rw [if_neg h1]
  simp only [pure_eq, ok_bind]
  rw [setIdx_filled (by simpa using hi), ok_bind]
  swap
  · simp [hi, hd]
  by_cases h0 : d = []
  · subst h0; rw [if_pos (.inr rfl)]; rfl
  have hpos := List.length_pos_iff.2 h0
  rw [if_neg (by simp [h1, h0]), idxInt, if_neg (by omega), idx_ok (by omega), ok_bind]
  have hpid : (d[((d.length : Int) - 1).toNat]'(by omega)) = partId d := by
    unfold partId
    rw [List.getD_eq_getElem?_getD, List.getElem?_eq_getElem (by omega), Option.getD_some]
    congr 1; omega
  simp only [hpid]
  have hgt : (partId d > BitVec.ofInt 8 parts) ↔ (partId d).toNat > parts.toNat := by
    rw [gt_iff_lt, BitVec.lt_def, ofInt_toNat (by omega) hp.2]
  by_cases h2 : (partId d).toNat > parts.toNat
  · rw [if_pos h2, if_pos (hgt.2 h2)]; rfl
  rw [if_neg h2, if_neg (fun c => h2 (hgt.1 c))]
  by_cases h3 : d.length ≤ 21 ∨ (partId d).toNat = parts.toNat
  · rw [if_pos h3]
    simp only [pure_eq, ok_bind]
    by_cases h4 : d.length ≤ 21
    · rw [slice, if_neg (by omega)]; rfl
    · rw [slice_ok (by omega) (by omega), ok_bind, setIdx_panic]
      · rfl
      · have := h3.resolve_left h4; simp; omega
  · rw [if_neg h3]
    simp only [pure_eq, ok_bind]
    rw [slice_ok (by omega) (by omega), ok_bind, setIdx_ok (by simp; omega), ok_bind,
      List.take_add_one, List.getElem?_eq_getElem hi, hd]
    simp only [Option.toList_some, place_append]
    rfl

theorem separateCap_neg (ssData : List (List Byte)) (caps : List Nat) {parts : Int} (hp : parts < 0) :
    separateCap ssData caps parts = panic := by
  unfold separateCap
  rw [if_pos hp]; rfl

theorem separateCap_eq (ssData : List (List Byte)) (caps : List Nat) (hl : caps.length = ssData.length) {parts : Int}
    (hp : 0 < parts ∧ parts ≤ 255) :
    separateCap ssData caps parts =
      match (ssData.zip caps).findSome? (fun x => faultCap parts x.1 x.2) with
      | none => ok (place parts.toNat ssData, ssData.map (·.take 21))
      | some (.err e) => err e
      | some _ => panic := by
  have hun : separateCap ssData caps parts = forUp ssData.length (sepCapBody ssData caps parts) (sepState ssData parts 0) := by
    unfold separateCap
    rw [if_neg (by omega)]
    rfl
  rw [hun]
  cases hf : (ssData.zip caps).findSome? (fun x => faultCap parts x.1 x.2) with
  | none =>
    rw [List.findSome?_eq_none_iff] at hf
    rw [forUp_eq (sepState ssData parts) rfl]
    · unfold sepState
      rw [List.take_length, filled_all (by simp), range_map_getElem ssData (fun d => d.take 21)]
    · intro i hi
      rw [sepCapBody_eq hp hi (by omega)]
      have := hf (ssData[i], caps[i]'(by omega)) (by
        rw [show (ssData[i], caps[i]'(by omega)) = (ssData.zip caps)[i]'(by simp; omega) by simp]
        exact List.getElem_mem _)
      simp only [] at this
      rw [this]
  | some o =>
    rw [List.findSome?_eq_some_iff] at hf
    obtain ⟨l1, d, l2, hz, hd, hno⟩ := hf
    have hzl : (ssData.zip caps).length = ssData.length := by simp; omega
    have hl1 : l1.length < (ssData.zip caps).length := by rw [hz]; simp
    have hat : ∀ i, (hi : i < (ssData.zip caps).length) → (ssData.zip caps)[i] = (ssData[i]'(by omega), caps[i]'(by omega)) := by
      intro i hi; simp
    have hget : ∀ i, (hi : i < (ssData.zip caps).length) → (ssData.zip caps)[i] = (l1 ++ d :: l2)[i]'(by rw [← hz]; exact hi) := by
      intro i hi; simp only [hz]
    refine forUp_fail (k := l1.length) (by omega) (sepState ssData parts) rfl ?_ ?_ ?_
    · intro i hi
      rw [sepCapBody_eq hp (by omega) (by omega)]
      have h1 := hat i (by omega)
      rw [hget i (by omega), List.getElem_append_left hi] at h1
      have := hno _ (List.getElem_mem hi)
      rw [h1] at this
      simp only [] at this
      rw [this]
    · rw [sepCapBody_eq hp (by omega) (by omega)]
      have h1 := hat l1.length (by omega)
      rw [hget _ (by omega), List.getElem_append_right (by omega)] at h1
      simp only [Nat.sub_self, List.getElem_cons_zero] at h1
      rw [h1] at hd
      simp only [] at hd
      rw [hd]; cases o <;> rfl
    · intro a; cases o <;> simp

theorem faultCap_eq {parts : Int} {d : List Byte} {c : Nat} (hc : d.length ≤ c) (h : d.length < 21 → c < 21 ∨ d = []) :
    faultCap parts d c = fault parts d := by
  unfold faultCap fault
  by_cases h1 : d.length < 21
  · rw [if_pos (h h1), if_pos h1]
  · rw [if_neg h1, if_neg (by
      rintro (h | rfl)
      · omega
      · simp at h1)]
    have : d.length ≤ 21 ↔ d.length = 21 := by omega
    simp only [this]

/-- Success does not depend on the capacities. -/
theorem separateCap_ok {ssData : List (List Byte)} {caps : List Nat} (hl : caps.length = ssData.length)
    (hcap : ∀ x ∈ ssData.zip caps, x.1.length ≤ x.2) {parts : Int} (hp : parts ≤ 255)
    {em : List (List Byte) × List (List Byte)} (h0 : parts ≠ 0) :
    separateCap ssData caps parts = ok em ↔ separate ssData parts = ok em := by
  by_cases hn : parts < 0
  · rw [separateCap_neg _ _ hn, separate_neg _ hn]
  have hp : 0 < parts ∧ parts ≤ 255 := by omega
  rw [separateCap_eq _ _ hl hp, separate_eq _ hp]
  have : ((ssData.zip caps).findSome? (fun x => faultCap parts x.1 x.2) = none) ↔ ssData.findSome? (fault parts) = none := by
    rw [List.findSome?_eq_none_iff, List.findSome?_eq_none_iff]
    have key : ∀ d c, d.length ≤ c → (faultCap parts d c = none ↔ fault parts d = none) := by
      intro d c hc
      by_cases h1 : d.length < 21
      · constructor
        · unfold faultCap
          split
          · intro h; cases h
          split
          · intro h; cases h
          rw [if_pos (by omega)]
          intro h; cases h
        · unfold fault
          rw [if_pos h1]
          intro h; cases h
      · rw [faultCap_eq hc (fun h => absurd h h1)]
    constructor
    · intro h d hd
      obtain ⟨i, hi, rfl⟩ := List.getElem_of_mem hd
      have hm : (ssData[i], caps[i]'(by omega)) ∈ ssData.zip caps := by
        rw [show (ssData[i], caps[i]'(by omega)) = (ssData.zip caps)[i]'(by simp; omega) by simp]
        exact List.getElem_mem _
      exact (key _ _ (hcap _ hm)).1 (h _ hm)
    · intro h x hx
      exact (key _ _ (hcap _ hx)).2 (h _ (List.of_mem_zip hx).1)
  cases h1 : (ssData.zip caps).findSome? (fun x => faultCap parts x.1 x.2) with
  | none => rw [this.1 h1]
  | some o =>
    cases h2 : ssData.findSome? (fault parts) with
    | none => rw [this.2 h2] at h1; cases h1
    | some o' => cases o <;> cases o' <;> simp

theorem kcombineCap_eq (env : Env) (d0 : Option (List Byte)) (rest : List (Option (List Byte))) (caps : List Nat)
    (hl : caps.length = ((d0 :: rest).filterMap id).length) (parts threshold : Int) :
    Krawczyk.combineCap env (d0 :: rest) caps parts threshold =
      match kArgError (d0.getD []).length parts threshold with
      | some e => err e
      | none =>
        if parts < 0 then panic
        else match (((d0 :: rest).filterMap id).zip caps).findSome? (fun x => faultCap parts x.1 x.2) with
          | none => decode env (place parts.toNat ((d0 :: rest).filterMap id))
              (((d0 :: rest).filterMap id).map (·.take 21)) parts threshold
          | some (.err e) => err e
          | some _ => panic := by
  unfold Krawczyk.combineCap
  rw [show idx (d0 :: rest) 0 = ok d0 from rfl, ok_bind, checkArgs_eq]
  cases ha : kArgError (d0.getD []).length parts threshold with
  | some e => rfl
  | none =>
    have ⟨p1, p2, p3, p4, p5⟩ := kArgError_none.1 ha
    simp only [ok_bind, clean_eq]
    by_cases hneg : parts < 0
    · rw [if_pos hneg, separateCap_neg _ _ hneg]; rfl
    · rw [if_neg hneg, separateCap_eq _ _ hl ⟨by omega, by omega⟩]
      cases (((d0 :: rest).filterMap id).zip caps).findSome? (fun x => faultCap parts x.1 x.2) with
      | none => rfl
      | some o => cases o <;> rfl

/-- The loops with and without capacities, compared: they stop at the same share, with the same fault unless the share
has less than 21 bytes, capacity for 21, and an index that is too large. -/
theorem findSome_cap {parts : Int} (hp : 0 < parts) : ∀ (l : List (List Byte)) (caps : List Nat), caps.length = l.length →
    (∀ x ∈ l.zip caps, x.1.length ≤ x.2) →
    ((l.zip caps).findSome? (fun x => faultCap parts x.1 x.2) = l.findSome? (fault parts) ∧
      ¬ ∃ pre d c post, l.zip caps = pre ++ (d, c) :: post ∧ (∀ x ∈ pre, WellFormed parts x.1) ∧
        0 < d.length ∧ d.length < 21 ∧ 21 ≤ c ∧ parts < partNo d) ∨
    ((l.zip caps).findSome? (fun x => faultCap parts x.1 x.2) = some (err .partIdTooLarge) ∧
      l.findSome? (fault parts) = some panic ∧
      ∃ pre d c post, l.zip caps = pre ++ (d, c) :: post ∧ (∀ x ∈ pre, WellFormed parts x.1) ∧
        0 < d.length ∧ d.length < 21 ∧ 21 ≤ c ∧ parts < partNo d)
  | [], _, _, _ => .inl ⟨rfl, by rintro ⟨pre, d, c, post, h, -⟩; simp at h⟩
  | d :: l, [], h, _ => by simp at h
  | d :: l, c :: caps, h, hc => by
    have hc0 : d.length ≤ c := hc (d, c) (by simp)
    rw [List.zip_cons_cons, List.findSome?_cons, List.findSome?_cons]
    by_cases hbad : d.length < 21 ∧ 0 < d.length ∧ 21 ≤ c
    · obtain ⟨h1, h2, h3⟩ := hbad
      have hf : fault parts d = some panic := by unfold fault; rw [if_pos h1]
      have hne : d ≠ [] := List.length_pos_iff.1 h2
      by_cases h4 : parts < partNo d
      · have hfc : faultCap parts d c = some (err .partIdTooLarge) := by
          unfold faultCap
          rw [if_neg (by simp [hne]; omega), if_pos (by rw [← partNo_eq]; omega)]
        refine .inr ⟨by simp only [hfc], by simp only [hf], [], d, c, l.zip caps, rfl, by simp, h2, h1, h3, h4⟩
      · have hfc : faultCap parts d c = some panic := by
          unfold faultCap
          rw [if_neg (by simp [hne]; omega), if_neg (by rw [← partNo_eq]; omega), if_pos (by omega)]
        refine .inl ⟨by simp only [hf, hfc], ?_⟩
        rintro ⟨pre, d', c', post, h5, h6, h7⟩
        cases pre with
        | nil => simp at h5; obtain ⟨⟨rfl, rfl⟩, -⟩ := h5; omega
        | cons x pre =>
          simp at h5
          have := h6 x (by simp)
          rw [← h5.1] at this
          exact absurd this.1 (by simp only []; omega)
    · have hfc : faultCap parts d c = fault parts d := faultCap_eq hc0 (fun h1 => by
        by_cases h3 : c < 21
        · exact .inl h3
        · refine .inr (List.length_eq_zero_iff.1 ?_); omega)
      simp only [hfc]
      cases hfd : fault parts d with
      | some o =>
        refine .inl ⟨rfl, ?_⟩
        rintro ⟨pre, d', c', post, h5, h6, h7⟩
        cases pre with
        | nil => simp at h5; obtain ⟨⟨rfl, rfl⟩, -⟩ := h5; omega
        | cons x pre =>
          simp at h5
          have := h6 x (by simp)
          rw [← h5.1, ← fault_none hp, hfd] at this
          cases this
      | none =>
        have hwf := (fault_none hp).1 hfd
        rcases findSome_cap hp l caps (by simpa using h) (fun x hx => hc x (by simp [hx])) with ⟨h5, h6⟩ | ⟨h5, h6, pre, d', c', post, h7, h8, h9⟩
        · refine .inl ⟨h5, ?_⟩
          rintro ⟨pre, d', c', post, h7, h8, h9⟩
          cases pre with
          | nil =>
            simp at h7
            obtain ⟨⟨rfl, rfl⟩, -⟩ := h7
            have := hwf.1
            omega
          | cons x pre =>
            simp at h7
            exact h6 ⟨pre, d', c', post, h7.2, fun y hy => h8 y (by simp [hy]), h9⟩
        · refine .inr ⟨h5, h6, (d, c) :: pre, d', c', post, by simp [h7], ?_, h9⟩
          intro x hx
          rcases List.mem_cons.1 hx with rfl | hx
          · exact hwf
          · exact h8 x hx

end Verif.Proofs
