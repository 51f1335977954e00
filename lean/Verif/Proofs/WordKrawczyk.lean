import Verif.Model.WordKrawczyk
import Verif.Proofs.Word
import Verif.Proofs.KrawczykResults

/-! # Lemmas for C82: the package krawczyk with integers of `w` bits -/

namespace Verif.Proofs
open Verif Spec Outcome Galois Csprng RS Krawczyk

theorem top_large {w : Nat} (hw : 42 ≤ w) : (2199023255552 : Int) ≤ top w := by
  unfold top
  calc (2199023255552 : Int) = 2 ^ 41 := by norm_num
    _ ≤ 2 ^ (w - 1) := pow_le_pow_right₀ (by norm_num) (by omega)

theorem word_new {w : Nat} (hw : 42 ≤ w) (lib : RSLib) {parts threshold : Int} (h1 : threshold ≤ parts) (h2 : parts ≤ 255) :
    RS.new lib threshold (Word.wrap w (parts - threshold)) = RS.new lib threshold (parts - threshold) := by
  by_cases ht : threshold ≤ 0
  · unfold RS.new
    rw [if_pos (.inl ht), if_pos (.inl ht)]
  · have := top_large hw
    rw [wrap_eq (by omega) (by omega) (by omega)]

theorem word_encode {w : Nat} (hw : 42 ≤ w) (env : Env) (secret key : List Byte) {parts threshold : Int}
    (h1 : threshold ≤ parts) (h2 : parts ≤ 255) :
    Word.encode w env secret key parts threshold = encode env secret key parts threshold := by
  unfold Word.encode encode
  rw [word_new hw env.lib h1 h2]

theorem word_newByteMatrix {w : Nat} (hw : 0 < w) {r c : Nat} (hr : 0 < r) (h : ((r * c : Nat) : Int) < top w) :
    Word.newByteMatrix w r c = newByteMatrix r c := by
  rw [newByteMatrix_eq]
  exact word_newMatrix hw hr h

theorem word_assemble {w : Nat} (hw : 0 < w) {parts : Nat} (hp : 0 < parts) (es md : List (List Byte))
    (h : ((parts * ((es.getD 0 []).length + (md.getD 0 []).length) : Nat) : Int) < top w) :
    Word.assemble w parts es md = assemble parts es md := by
  unfold Word.assemble assemble
  cases es with
  | nil => rfl
  | cons e es =>
    cases md with
    | nil => rfl
    | cons m md =>
      rw [show idx (e :: es) 0 = ok e from rfl, show idx (m :: md) 0 = ok m from rfl]
      simp only [ok_bind]
      simp only [List.getD_cons_zero] at h
      have hle : e.length + m.length ≤ parts * (e.length + m.length) := Nat.le_mul_of_pos_left _ hp
      rw [wrap_of_eq hw (n := e.length + m.length) (by push_cast; rfl) (by omega), word_newByteMatrix hw hp h]

/-- Both Split functions, for the two ways to share the metadata. -/
theorem word_kTail {w : Nat} (hw : 42 ≤ w) (env : Env) (hc : env.lib.Contract) {secret key : List Byte} (hkey : key.length = 16)
    {parts threshold : Int} {sh sh' : List Byte → Outcome (List (List Byte) × Shamir.Pools)}
    (hsh : ∀ s, s.length = 20 → sh' s = sh s)
    (hok : ∀ s md ps, sh s = ok (md, ps) → s.length = 20 → ValidArgs s parts threshold ∧ ∀ m ∈ md, m.length = 21) :
    (do
      checkArgs secret.length parts threshold
      let (encryptedSecret, encodedSecret) ← Word.encode w env secret key parts threshold
      let (ssKeyLenPair, ps) ← sh' (keyLenPair key encryptedSecret)
      let results ← Word.assemble w parts.toNat encodedSecret ssKeyLenPair
      return (results, ps)) = kTail env secret key parts threshold sh := by
  unfold kTail
  rw [checkArgs_eq]
  cases ha : kArgError secret.length parts threshold with
  | some e => rfl
  | none =>
    obtain ⟨p1, p2, p3, p4, p5⟩ := kArgError_none.1 ha
    simp only [ok_bind]
    rw [word_encode hw env secret key p4 p5]
    cases he : encode env secret key parts threshold with
    | ok x =>
      obtain ⟨ct, es⟩ := x
      simp only [ok_bind]
      rw [hsh _ (keyLenPair_length hkey)]
      cases hs : sh (keyLenPair key ct) with
      | ok y =>
        obtain ⟨md, ps⟩ := y
        simp only [ok_bind]
        obtain ⟨hv, hmd⟩ := hok _ md ps hs (keyLenPair_length hkey)
        have hv1 := hv.2.2.1
        have hv0 := hv.1
        have hbound : ∀ e ∈ es, e.length ≤ 4294967296 := by
          have hpar : ¬ (parts = threshold ∧ env.lib.allowsNoParity = false) := by
            intro c
            rw [encode_err_new env hkey (new_err (.inr (.inr c)))] at he
            cases he
          have hsec : secret ≠ [] := by
            rintro rfl
            have := encode_err_empty env hkey (k := threshold.toNat) (m := (parts - threshold).toNat) (by omega)
              (parityOk_of hpar p4) (by omega)
            rw [show ((threshold.toNat + (parts - threshold).toNat : Nat) : Int) = parts by omega,
              show (threshold.toNat : Int) = threshold by omega] at this
            rw [this] at he
            cases he
          have := encode_ok env hkey (k := threshold.toNat) (m := (parts - threshold).toNat) (by omega)
            (parityOk_of hpar p4) (by omega) hsec
          rw [show ((threshold.toNat + (parts - threshold).toNat : Nat) : Int) = parts by omega,
            show (threshold.toNat : Int) = threshold by omega, he] at this
          injection this with this
          injection this with h1 h2
          rw [h2]
          intro e hm
          obtain ⟨i, hi, rfl⟩ := List.mem_map.1 hm
          rw [List.mem_range] at hi
          have hic : i < (codeword env.lib threshold.toNat (parts - threshold).toNat (cipherOf env secret key)).length := by
            simp only [length_codeword]; omega
          rw [List.length_append, List.getD_eq_getElem?_getD, List.getElem?_eq_getElem hic, Option.getD_some,
            mem_codeword hc (by omega) (by omega) (List.getElem_mem hic), length_cipherOf]
          have : perShard secret.length threshold.toNat ≤ secret.length := by
            unfold perShard
            rw [Nat.div_le_iff_le_mul_add_pred (by omega)]
            have h1 := Nat.le_mul_of_pos_left secret.length (show 0 < threshold.toNat by omega)
            have h2 := Nat.le_mul_of_pos_right secret.length (show 0 < threshold.toNat by omega)
            omega
          simp only [List.length_singleton]
          omega
        have he0 : (es.getD 0 []).length ≤ 4294967296 := by
          cases es with
          | nil => simp
          | cons e es => exact hbound e (by simp)
        have hm0 : (md.getD 0 []).length ≤ 21 := by
          cases md with
          | nil => simp
          | cons m md => exact (hmd m (by simp)).le
        rw [word_assemble (by omega) (by omega)]
        have := top_large hw
        have h255 : parts.toNat ≤ 255 := by omega
        have := Nat.mul_le_mul h255 (Nat.add_le_add he0 hm0)
        omega
      | _ => rfl
    | _ => rfl

end Verif.Proofs
