import Verif.Model.Worker
import Verif.Proofs.Results
import Verif.Proofs.Words

/-! # krawczyk.go: closed forms of the building blocks -/

namespace Verif.Proofs
open Verif Spec Outcome Galois Csprng RS Krawczyk

/-! ## aes.go -/

theorem xorChunks_eq (ks : Nat → Byte) (cs : List (List Byte)) : ∀ pos,
    xorChunks ks pos cs = cs.flatten.mapIdx fun i b => b ^^^ ks (pos + i) := by
  induction cs with
  | nil => intro pos; rfl
  | cons c cs ih =>
    intro pos
    rw [xorChunks, ih, List.flatten_cons, List.mapIdx_append]
    simp only [Nat.add_assoc, Nat.add_comm c.length]

/-- The OFB key stream of a key (zero IV). -/
def keyStream (env : Env) (key : List Byte) : Nat → Byte := ofb (env.aes key) (List.replicate 16 0)

/-- xor of a byte string with a key stream -/
def xorKs (ks : Nat → Byte) (l : List Byte) : List Byte := l.mapIdx fun i b => b ^^^ ks i

@[simp] theorem length_xorKs (ks : Nat → Byte) (l : List Byte) : (xorKs ks l).length = l.length := by simp [xorKs]

theorem xorKs_xorKs (ks : Nat → Byte) (l : List Byte) : xorKs ks (xorKs ks l) = l := by
  unfold xorKs
  apply List.ext_getElem?
  intro i
  simp only [List.getElem?_mapIdx, Option.map_map]
  cases l[i]? with
  | none => rfl
  | some b => simp [BitVec.xor_assoc]

theorem xorKs_getD (ks : Nat → Byte) (l : List Byte) {i : Nat} (h : i < l.length) :
    (xorKs ks l).getD i 0 = l.getD i 0 ^^^ ks i := by
  simp [xorKs, h]

/-- key sizes of AES -/
abbrev goodKey (key : List Byte) : Prop := key.length = 16 ∨ key.length = 24 ∨ key.length = 32

theorem encrypt_ok (env : Env) (m : List Byte) {key : List Byte} (h : goodKey key) :
    encrypt env m key = ok (xorKs (keyStream env key) m) := by
  unfold encrypt newCipher
  rw [if_pos h, ok_bind, xorChunks_eq, env.encChunks.flatten_cut]
  simp [xorKs, keyStream]

theorem decrypt_ok (env : Env) (m : List Byte) {key : List Byte} (h : goodKey key) :
    decrypt env m key = ok (xorKs (keyStream env key) m) := by
  unfold decrypt newCipher
  rw [if_pos h, ok_bind, xorChunks_eq, env.decChunks.flatten_cut]
  simp [xorKs, keyStream]

theorem encrypt_err (env : Env) (m : List Byte) {key : List Byte} (h : ¬ goodKey key) :
    encrypt env m key = err .aesKeySize := by
  unfold encrypt newCipher
  rw [if_neg h, err_bind]

theorem decrypt_err (env : Env) (m : List Byte) {key : List Byte} (h : ¬ goodKey key) :
    decrypt env m key = err .aesKeySize := by
  unfold decrypt newCipher
  rw [if_neg h, err_bind]

/-! ## Matrix and assembly of shares -/

theorem replicate_eq_map {α : Type} (n : Nat) (a : α) : List.replicate n a = (List.range n).map fun _ => a := by
  simp

theorem newByteMatrix_eq (r c : Nat) : newByteMatrix r c = ok (List.replicate r (List.replicate c 0)) := by
  unfold newByteMatrix
  simp only []
  rw [forUp_eq (fun i => (filled (fun _ => List.replicate c (0 : Byte)) (List.replicate r []) i, i * c, (i + 1) * c))
    (by simp)]
  · rw [ok_bind]
    simp only [pure_eq]
    rw [filled_all (by simp), ← replicate_eq_map]
  · intro i hi
    have hle : (i + 1) * c ≤ r * c := Nat.mul_le_mul_right c hi
    have e : (i + 1) * c = i * c + c := Nat.succ_mul i c
    simp only []
    rw [slice_ok (by omega) (by simpa using hle), ok_bind, setIdx_filled (by simpa using hi), ok_bind]
    · simp only [pure_eq]
      rw [Nat.succ_mul (i + 1) c]
    · simp only [List.drop_replicate, List.take_replicate]
      congr 1
      omega

theorem assemble_eq {parts : Nat} {es ms : List (List Byte)} {le lm : Nat} (hp : 0 < parts) (he : es.length = parts)
    (hm : ms.length = parts) (hle : ∀ e ∈ es, e.length = le) (hlm : ∀ m ∈ ms, m.length = lm) :
    assemble parts es ms = ok ((List.range parts).map fun i => ms.getD i [] ++ es.getD i []) := by
  unfold assemble
  have le0 : (es[0]'(by omega)).length = le := hle _ (List.getElem_mem _)
  have lm0 : (ms[0]'(by omega)).length = lm := hlm _ (List.getElem_mem _)
  rw [idx_ok (by omega), ok_bind, idx_ok (by omega), ok_bind]
  simp only [le0, lm0, newByteMatrix_eq, ok_bind]
  rw [forUp_fill (fun i => ms.getD i [] ++ es.getD i []) (by simp)]
  · rw [filled_all (by simp)]
  · intro i hi
    have lei : (es[i]'(by omega)).length = le := hle _ (List.getElem_mem _)
    have lmi : (ms[i]'(by omega)).length = lm := hlm _ (List.getElem_mem _)
    rw [idx_filled (by simpa using hi), ok_bind]
    simp only [List.getElem_replicate]
    rw [slice_ok (by omega) (by simp), ok_bind, idx_ok (by omega), ok_bind]
    have e1 : copyInto ((List.drop 0 (List.replicate (le + lm) (0 : Byte))).take (lm - 0)) (ms[i]'(by omega)) = ms[i]'(by omega) :=
      copyInto_same (by simp [lmi])
    rw [e1]
    have e2 : writeAt (List.replicate (le + lm) (0 : Byte)) 0 (ms[i]'(by omega)) = (ms[i]'(by omega)) ++ List.replicate le 0 := by
      rw [writeAt_zero, lmi]; simp
    rw [e2, slice_ok (by simp [lmi]) (by simp), ok_bind, idx_ok (by omega), ok_bind]
    have e3 : copyInto ((List.drop lm ((ms[i]'(by omega)) ++ List.replicate le (0 : Byte))).take
        (((ms[i]'(by omega)) ++ List.replicate le (0 : Byte)).length - lm)) (es[i]'(by omega)) = es[i]'(by omega) :=
      copyInto_same (by simp [lmi, lei])
    rw [e3]
    apply setIdx_filled (by simpa using hi)
    simp only [List.getD_eq_getElem?_getD, List.getElem?_eq_getElem (show i < ms.length by omega),
      List.getElem?_eq_getElem (show i < es.length by omega), Option.getD_some]
    unfold writeAt
    rw [← lmi, List.take_left, List.drop_eq_nil_of_le (by simp [lei])]
    simp

/-! ## Dropping nil entries -/

theorem filterMap_id_take_succ {α : Type} (l : List (Option α)) (i : Nat) (h : i < l.length) :
    (l.take (i + 1)).filterMap id = (l.take i).filterMap id ++ (l[i]).toList := by
  rw [List.take_add_one, List.getElem?_eq_getElem h, List.filterMap_append]
  cases l[i] <;> simp

theorem filterMap_id_le {α : Type} (l : List (Option α)) (i : Nat) :
    ((l.take i).filterMap id).length ≤ (l.filterMap id).length :=
  List.Sublist.length_le (List.Sublist.filterMap _ (List.take_sublist _ _))

theorem filterMap_id_full {α : Type} (d : α) : ∀ l : List (Option α), (l.filterMap id).length = l.length →
    l.map (·.getD d) = l.filterMap id
  | [], _ => rfl
  | none :: l, h => by
    have := List.length_filterMap_le id l
    rw [List.filterMap_cons_none rfl, List.length_cons] at h; omega
  | some a :: l, h => by
    have e : (some a :: l).filterMap id = a :: l.filterMap id := rfl
    rw [e, List.length_cons, List.length_cons] at h
    rw [e, List.map_cons, filterMap_id_full d l (by omega)]
    rfl

theorem clean_eq {α : Type} [Inhabited α] (ssData : List (Option α)) : clean ssData = ok (ssData.filterMap id) := by
  unfold clean
  rw [forUp_eq (fun i => ((ssData.take i).filterMap id).length) (by simp)]
  · rw [ok_bind]
    simp only [List.take_length]
    split
    · rename_i hne
      generalize hn : (ssData.filterMap id).length = n at *
      rw [forUp_eq (fun i => ((ssData.take i).filterMap id ++
        List.replicate (n - ((ssData.take i).filterMap id).length) default, ((ssData.take i).filterMap id).length)) (by simp)]
      · rw [ok_bind]
        simp only [List.take_length, hn]
        simp
      · intro i hi
        simp only []
        rw [idx_ok hi, ok_bind]
        have h2 := filterMap_id_take_succ ssData i hi
        have h3 := filterMap_id_le ssData (i + 1)
        cases hd : ssData[i] with
        | none => rw [hd, Option.toList_none, List.append_nil] at h2; simp only [h2, pure_eq]
        | some x =>
          rw [hd] at h2
          rw [h2, hn] at h3
          simp only [Option.toList_some, List.length_append, List.length_cons, List.length_nil] at h3
          simp only []
          rw [h2, setIdx_ok (by rw [List.length_append, List.length_replicate]; omega), ok_bind]
          simp only [pure_eq, Option.toList_some, List.length_append, List.length_cons, List.length_nil]
          congr 2
          rw [List.set_append_right _ _ (by omega), Nat.sub_self]
          obtain ⟨k, hk⟩ : ∃ k, n - ((ssData.take i).filterMap id).length = k + 1 :=
            ⟨n - ((ssData.take i).filterMap id).length - 1, by omega⟩
          rw [hk, List.replicate_succ, List.set_cons_zero,
            show n - (((ssData.take i).filterMap id).length + (0 + 1)) = k by omega]
          simp
    · rename_i hne
      push Not at hne
      simp only [pure_eq]
      rw [filterMap_id_full _ _ hne]
  · intro i hi
    rw [idx_ok hi, ok_bind, filterMap_id_take_succ ssData i hi]
    cases ssData[i] <;> simp

/-! ## Separating metadata and shards -/

/-- The last byte. -/
def partId (d : List Byte) : Byte := d.getD (d.length - 1) 0
/-- The encoded shard in a share. -/
def shardOf (d : List Byte) : List Byte := (d.drop 21).take (d.length - 1 - 21)

/-- What the loop does with a malformed share: `none` if it is well-formed. -/
def fault (parts : Int) (d : List Byte) : Option (Outcome Unit) :=
  if d.length < 21 then some panic
  else if (partId d).toNat > parts.toNat then some (err .partIdTooLarge)
  else if d.length = 21 ∨ (partId d).toNat = parts.toNat then some panic
  else none

/-- Shards placed by part id; later entries win. -/
def place (n : Nat) (sub : List (List Byte)) : List (List Byte) :=
  sub.foldl (fun acc d => acc.set (partId d).toNat (shardOf d)) (List.replicate n [])

@[simp] theorem length_place (n : Nat) (sub : List (List Byte)) : (place n sub).length = n := by
  unfold place
  suffices ∀ acc : List (List Byte), (sub.foldl (fun acc d => acc.set (partId d).toNat (shardOf d)) acc).length = acc.length by
    rw [this]; simp
  induction sub with
  | nil => intro acc; rfl
  | cons d sub ih => intro acc; rw [List.foldl_cons, ih]; simp

theorem place_append (n : Nat) (sub : List (List Byte)) (d : List Byte) :
    place n (sub ++ [d]) = (place n sub).set (partId d).toNat (shardOf d) := by
  simp [place]

/-- body of the loop krawczyk.go:215-224 -/
def sepBody (ssData : List (List Byte)) (parts : Int) (i : Nat) (st : List (List Byte) × List (List Byte)) :
    Outcome (List (List Byte) × List (List Byte)) := do
  let (encodedData, ssMetadata) := st
  let d ← idx ssData i
  let m ← slice d 0 21
  let ssMetadata ← setIdx ssMetadata i m
  let partID ← idxInt d ((d.length : Int) - 1)
  if partID > BitVec.ofInt 8 parts then err .partIdTooLarge
  let s ← slice d 21 (d.length - 1)
  let encodedData ← setIdx encodedData partID.toNat s
  pure (encodedData, ssMetadata)

/-- state of the loop after `i` well-formed shares -/
def sepState (ssData : List (List Byte)) (parts : Int) (i : Nat) : List (List Byte) × List (List Byte) :=
  (place parts.toNat (ssData.take i), filled (fun j => (ssData.getD j []).take 21) (List.replicate ssData.length []) i)

theorem sepBody_eq {ssData : List (List Byte)} {parts : Int} (hp : 0 < parts ∧ parts ≤ 255) {i : Nat} (hi : i < ssData.length) :
    sepBody ssData parts i (sepState ssData parts i) =
      match fault parts ssData[i] with
      | none => ok (sepState ssData parts (i + 1))
      | some (.err e) => err e
      | some _ => panic := by
  unfold sepBody sepState
  simp only []
  rw [idx_ok hi, ok_bind]
  generalize hd : ssData[i] = d
  unfold fault
  by_cases h1 : d.length < 21
  · rw [if_pos h1]
    simp only []
    rw [slice, if_neg (by omega), panic_bind]
  rw [if_neg h1, slice_ok (by omega) (by omega), ok_bind, setIdx_filled (by simpa using hi), ok_bind]
  swap
  · simp [hi, hd]
  rw [idxInt, if_neg (by omega), idx_ok (by omega), ok_bind]
  have hpid : (d[((d.length : Int) - 1).toNat]'(by omega)) = partId d := by
    unfold partId
    rw [List.getD_eq_getElem?_getD, List.getElem?_eq_getElem (by omega), Option.getD_some]
    congr 1; omega
  simp only [hpid]
  have hgt : (partId d > BitVec.ofInt 8 parts) ↔ (partId d).toNat > parts.toNat := by
    rw [gt_iff_lt, BitVec.lt_def, ofInt_toNat (by omega) hp.2]
  by_cases h2 : (partId d).toNat > parts.toNat
  · rw [if_pos h2, if_pos (hgt.2 h2)]; rfl
  rw [if_neg h2, if_neg (fun c => h2 (hgt.1 c))]
  by_cases h3 : d.length = 21 ∨ (partId d).toNat = parts.toNat
  · rw [if_pos h3]
    simp only [pure_eq, ok_bind]
    by_cases h4 : d.length = 21
    · rw [slice, if_neg (by omega)]; rfl
    · rw [slice_ok (by omega) (by omega), ok_bind, setIdx_panic]
      · rfl
      · have := h3.resolve_left h4; simp; omega
  · rw [if_neg h3]
    simp only [pure_eq, ok_bind]
    rw [slice_ok (by omega) (by omega), ok_bind, setIdx_ok (by simp; omega), ok_bind,
      List.take_add_one, List.getElem?_eq_getElem hi, hd]
    simp only [Option.toList_some, place_append]
    rfl

theorem separate_unfold (ssData : List (List Byte)) {parts : Int} (hp : 0 < parts) :
    separate ssData parts = forUp ssData.length (sepBody ssData parts) (sepState ssData parts 0) := by
  unfold separate
  rw [if_neg (by omega)]
  rfl

theorem separate_neg (ssData : List (List Byte)) {parts : Int} (hp : parts < 0) : separate ssData parts = panic := by
  unfold separate
  rw [if_pos hp]; rfl

/-- The loop either places all shards or stops at the first malformed share. -/
theorem separate_eq (ssData : List (List Byte)) {parts : Int} (hp : 0 < parts ∧ parts ≤ 255) :
    separate ssData parts =
      match ssData.findSome? (fault parts) with
      | none => ok (place parts.toNat ssData, ssData.map (·.take 21))
      | some (.err e) => err e
      | some _ => panic := by
  rw [separate_unfold _ hp.1]
  cases hf : ssData.findSome? (fault parts) with
  | none =>
    rw [List.findSome?_eq_none_iff] at hf
    rw [forUp_eq (sepState ssData parts) rfl]
    · unfold sepState
      rw [List.take_length, filled_all (by simp), range_map_getElem ssData (fun d => d.take 21)]
    · intro i hi
      rw [sepBody_eq hp hi, hf _ (List.getElem_mem _)]
  | some o =>
    rw [List.findSome?_eq_some_iff] at hf
    obtain ⟨l1, d, l2, rfl, hd, hno⟩ := hf
    have hl : l1.length < (l1 ++ d :: l2).length := by simp
    have hget : (l1 ++ d :: l2)[l1.length] = d := by simp
    refine forUp_fail (k := l1.length) hl (sepState (l1 ++ d :: l2) parts) rfl ?_ ?_ ?_
    · intro i hi
      rw [sepBody_eq hp (by simp; omega), List.getElem_append_left hi, hno _ (List.getElem_mem _)]
    · rw [sepBody_eq hp hl, hget, hd]; cases o <;> rfl
    · intro a; cases o <;> simp

end Verif.Proofs
