import Verif.Props.Secrecy
import Verif.Props.Krawczyk

/-! # C55: what fewer than `threshold` shares of krawczyk.Split reveal

`key κ` is the encryption key krawczyk.Split draws when the random source delivers `κ`.  As in `Props/Secrecy.lean`,
`count` counts the fillings of the random bytes that shamir.Split reads for the metadata. -/

namespace Verif.Props
open Verif Outcome Galois Spec Proofs Shamir Pool Csprng RS Krawczyk

/-- The 16 key bytes a random source delivers. -/
def keyOf (κ : Nat → Byte) : List Byte := (List.range 16).map κ

/-- The call `krawczyk.Split(s, parts, threshold)` with the randomness `κ` (key), `perm`, `rnd` (metadata) returns shares
of which those at the positions `I` are `v`. -/
def KView (env : Env) (parts threshold : Int) (perm : List Nat) (ps : Pools) (I : Finset Nat) (v : Nat → List Byte)
    (s : List Byte) (κ rnd : Nat → Byte) : Prop :=
  ∃ shares ps', Krawczyk.split env s parts threshold κ perm rnd ps = ok (shares, ps') ∧ Seen I v shares

theorem randRead_keyOf (κ : Nat → Byte) : randRead κ 0 (List.replicate 16 0) = keyOf κ := by
  simp [randRead, keyOf]

theorem length_keyOf (κ : Nat → Byte) : (keyOf κ).length = 16 := by simp [keyOf]

/-- What a view of krawczyk shares consists of: shares of the metadata, and shards of the ciphertext. -/
theorem kView_iff (env : Env) (hc : env.lib.Contract) (parts threshold : Int) {perm : List Nat}
    (hperm : perm.Perm (List.range 255)) (ps : Pools) (I : Finset Nat) (v : Nat → List Byte) (s : List Byte)
    (κ rnd : Nat → Byte) :
    KView env parts threshold perm ps I v s κ rnd ↔
      kSplitError env.lib s parts threshold = none ∧
      (∀ i ∈ I, (v i).drop 21 = (codeword env.lib threshold.toNat (parts - threshold).toNat
          (cipherOf env s (keyOf κ))).getD i [] ++ [BitVec.ofNat 8 i]) ∧
      ∃ md ps', split env.arch (keyLenPair (keyOf κ) (cipherOf env s (keyOf κ))) parts threshold perm rnd ps
        = ok (md, ps') ∧ Seen I (fun i => (v i).take 21) md := by
  have aux : ∀ {md shares : List (List Byte)}, KSharing env s (keyOf κ) threshold.toNat (parts - threshold).toNat md shares →
      (Seen I v shares ↔ (∀ i ∈ I, (v i).drop 21 = (codeword env.lib threshold.toNat (parts - threshold).toNat
          (cipherOf env s (keyOf κ))).getD i [] ++ [BitVec.ofNat 8 i]) ∧ Seen I (fun i => (v i).take 21) md) := by
    intro md shares hk
    have hmdl : ∀ d ∈ md, d.length = 21 := by
      intro d hd
      obtain ⟨f, -, hf⟩ := hk.md_sharing.2
      rw [(hf d hd).1]
      simp [length_keyOf]
    have key : ∀ i, (shares[i]? = some (v i) ↔ (v i).drop 21 = (codeword env.lib threshold.toNat
        (parts - threshold).toNat (cipherOf env s (keyOf κ))).getD i [] ++ [BitVec.ofNat 8 i] ∧
        md[i]? = some ((v i).take 21)) := by
      intro i
      have hml := hk.md_len
      rw [hk.shares_eq]
      by_cases hi : i < threshold.toNat + (parts - threshold).toNat
      · have hi' : i < md.length := by omega
        rw [List.getElem?_map, List.getElem?_range hi, Option.map_some, Option.some.injEq,
          List.getElem?_eq_getElem hi', Option.some.injEq]
        have e : md.getD i [] = md[i] := by simp [List.getD_eq_getElem?_getD, hi']
        have hl := hmdl _ (List.getElem_mem hi')
        rw [e]
        constructor
        · intro h
          rw [← h]
          rw [← hl, List.drop_left, List.take_left]
          exact ⟨rfl, rfl⟩
        · rintro ⟨h1, h2⟩
          rw [h2, ← h1, List.take_append_drop]
      · rw [List.getElem?_eq_none (by simpa using hi), List.getElem?_eq_none (l := md) (by omega)]
        simp
    unfold Seen
    simp only [key]
    exact ⟨fun h => ⟨fun i hi => (h i hi).1, fun i hi => (h i hi).2⟩, fun h i hi => ⟨h.1 i hi, h.2 i hi⟩⟩
  constructor
  · rintro ⟨shares, ps', h, hs⟩
    obtain ⟨hn, md, h1, hk⟩ := ksplit_ok env hc hperm h
    rw [randRead_keyOf] at h1 hk
    have := (aux hk).1 hs
    exact ⟨hn, this.1, md, ps', h1, this.2⟩
  · rintro ⟨hn, hcode, md, ps', h1, hmd⟩
    have hok := split_ok env.arch hperm h1
    obtain ⟨shares, e, hk⟩ := kTail_ok env hc (length_keyOf κ) hn
      (sh := fun s => split env.arch s parts threshold perm rnd ps) h1 hok.2.2.1 hok.2.1
    refine ⟨shares, ps', ?_, (aux hk).2 ⟨hcode, hmd⟩⟩
    rw [split_tail, randRead_keyOf, e]

/-- C55: two pairs of a secret and a key with the same ciphertext are indistinguishable from fewer than `threshold`
shares: any view is produced by equally many fillings. -/
theorem C55_only_ciphertext (env : Env) (hc : env.lib.Contract) (s s' : List Byte) (κ κ' : Nat → Byte)
    (he : encrypt env s (keyOf κ) = encrypt env s' (keyOf κ')) (parts threshold : Int)
    (perm : List Nat) (hperm : perm.Perm (List.range 255)) (ps : Pools) (I : Finset Nat)
    (hI : (I.card : Int) < threshold) (v : Nat → List Byte) :
    count (m := threshold.toNat * 20) (fun ρ => KView env parts threshold perm ps I v s κ (stream ρ))
      = count (m := threshold.toNat * 20) (fun ρ => KView env parts threshold perm ps I v s' κ' (stream ρ)) := by
  have hkl := length_keyOf κ
  have hkl' := length_keyOf κ'
  rw [encrypt_ok env s (Or.inl hkl), encrypt_ok env s' (Or.inl hkl')] at he
  injection he with he
  have hcc : cipherOf env s (keyOf κ) = cipherOf env s' (keyOf κ') := he
  have hl : s.length = s'.length := by
    have := congrArg List.length hcc
    simpa using this
  have hn : kSplitError env.lib s parts threshold = none ↔ kSplitError env.lib s' parts threshold = none := by
    rw [kSplitError_none, kSplitError_none, ← List.length_pos_iff, ← List.length_pos_iff, hl]
  have h20 : (keyLenPair (keyOf κ) (cipherOf env s (keyOf κ))).length = 20 := keyLenPair_length hkl
  have h20' : (keyLenPair (keyOf κ') (cipherOf env s' (keyOf κ'))).length = 20 := keyLenPair_length hkl'
  simp only [kView_iff env hc parts threshold hperm, hcc]
  rw [hcc] at h20
  by_cases hP : kSplitError env.lib s parts threshold = none ∧
      ∀ i ∈ I, (v i).drop 21 = (codeword env.lib threshold.toNat (parts - threshold).toNat
          (cipherOf env s' (keyOf κ'))).getD i [] ++ [BitVec.ofNat 8 i]
  · have hP' := hn.1 hP.1
    have := C17_secrecy env.arch _ _ (h20.trans h20'.symm) parts threshold perm hperm ps I hI (fun i => (v i).take 21)
    rw [h20] at this
    refine (count_congr (Equiv.refl _) fun ρ => ?_).trans (this.trans (count_congr (Equiv.refl _) fun ρ => ?_))
    · exact ⟨fun h => h.2.2, fun h => ⟨hP.1, hP.2, h⟩⟩
    · exact ⟨fun h => ⟨hP', hP.2, h⟩, fun h => h.2.2⟩
  · exact count_congr (Equiv.refl _) fun ρ => iff_of_false (fun h => hP ⟨h.1, h.2.1⟩) (fun h => hP ⟨hn.2 h.1, h.2.1⟩)

/-- C55: fewer than `threshold` shares exclude no key: whatever secret was split under whatever key, for every other key
there is a secret of the same length that leads to every view with the same number of fillings. -/
theorem C55_every_key_possible (env : Env) (hc : env.lib.Contract) (s : List Byte) (κ κ' : Nat → Byte) :
    ∃ s', s'.length = s.length ∧ ∀ (parts threshold : Int) (perm : List Nat), perm.Perm (List.range 255) →
      ∀ (ps : Pools) (I : Finset Nat), (I.card : Int) < threshold → ∀ v : Nat → List Byte,
      count (m := threshold.toNat * 20) (fun ρ => KView env parts threshold perm ps I v s κ (stream ρ))
        = count (m := threshold.toNat * 20) (fun ρ => KView env parts threshold perm ps I v s' κ' (stream ρ)) := by
  obtain ⟨c, hcr, hcl, -⟩ := C41_decrypt_encrypt env env rfl s (keyOf κ) (Or.inl (length_keyOf κ))
  refine ⟨xorKs (keyStream env (keyOf κ')) c, by simp [hcl], fun parts threshold perm hperm ps I hI v => ?_⟩
  refine C55_only_ciphertext env hc s _ κ κ' ?_ parts threshold perm hperm ps I hI v
  rw [hcr, encrypt_ok env _ (Or.inl (length_keyOf κ')), xorKs_xorKs]

/-- C55, counting over the keys too: if each ciphertext arises from equally many keys for two secrets (perfect secrecy of
the encryption alone), then so does each view of fewer than `threshold` shares. -/
theorem C55_perfect (env : Env) (hc : env.lib.Contract) (s s' : List Byte)
    (he : ∀ c, count (m := 16) (fun κ => encrypt env s (keyOf (stream κ)) = ok c)
      = count (m := 16) (fun κ => encrypt env s' (keyOf (stream κ)) = ok c)) (parts threshold : Int)
    (perm : List Nat) (hperm : perm.Perm (List.range 255)) (ps : Pools) (I : Finset Nat)
    (hI : (I.card : Int) < threshold) (v : Nat → List Byte) :
    Nat.card {x : (Fin 16 → Byte) × (Fin (threshold.toNat * 20) → Byte) //
        KView env parts threshold perm ps I v s (stream x.1) (stream x.2)}
      = Nat.card {x : (Fin 16 → Byte) × (Fin (threshold.toNat * 20) → Byte) //
        KView env parts threshold perm ps I v s' (stream x.1) (stream x.2)} := by
  have hfin : Finite (Fin 16 → Byte) := inferInstance
  have hfin' : Finite (Fin (threshold.toNat * 20) → Byte) := inferInstance
  let f : (Fin 16 → Byte) → Outcome (List Byte) := fun κ => encrypt env s (keyOf (stream κ))
  let f' : (Fin 16 → Byte) → Outcome (List Byte) := fun κ => encrypt env s' (keyOf (stream κ))
  have hfib : ∀ c, Nonempty ({κ // f κ = c} ≃ {κ // f' κ = c}) := by
    intro c
    have hok : ∀ (t : List Byte) (κ : Fin 16 → Byte), ∃ c, encrypt env t (keyOf (stream κ)) = ok c := fun t κ =>
      ⟨_, encrypt_ok env t (Or.inl (length_keyOf _))⟩
    by_cases h : ∃ c', c = ok c'
    · obtain ⟨c', rfl⟩ := h
      exact Finite.card_eq.1 (he c')
    · have e1 : IsEmpty {κ // f κ = c} := ⟨fun x => h ((hok s x.1).imp fun d hd => x.2.symm.trans hd)⟩
      have e2 : IsEmpty {κ // f' κ = c} := ⟨fun x => h ((hok s' x.1).imp fun d hd => x.2.symm.trans hd)⟩
      exact ⟨Equiv.equivOfIsEmpty _ _⟩
  let φ : (Fin 16 → Byte) ≃ (Fin 16 → Byte) :=
    (Equiv.sigmaFiberEquiv f).symm.trans ((Equiv.sigmaCongrRight fun c => (hfib c).some).trans (Equiv.sigmaFiberEquiv f'))
  have hφ : ∀ κ, f' (φ κ) = f κ := by
    intro κ
    simp only [φ, Equiv.trans_apply, Equiv.sigmaFiberEquiv, Equiv.coe_fn_symm_mk, Equiv.sigmaCongrRight_apply,
      Equiv.coe_fn_mk, Sigma.map]
    exact ((hfib (f κ)).some ⟨κ, rfl⟩).2
  have key : ∀ κ : Fin 16 → Byte, Nonempty
      ({ρ : Fin (threshold.toNat * 20) → Byte // KView env parts threshold perm ps I v s (stream κ) (stream ρ)}
        ≃ {ρ : Fin (threshold.toNat * 20) → Byte // KView env parts threshold perm ps I v s' (stream (φ κ)) (stream ρ)}) := by
    intro κ
    exact Finite.card_eq.1 (C55_only_ciphertext env hc s s' (stream κ) (stream (φ κ)) (hφ κ).symm parts threshold perm hperm
      ps I hI v)
  refine Nat.card_congr ?_
  refine (Equiv.subtypeProdEquivSigmaSubtype (fun (κ : Fin 16 → Byte) (ρ : Fin (threshold.toNat * 20) → Byte) =>
    KView env parts threshold perm ps I v s (stream κ) (stream ρ))).trans ?_
  refine Equiv.trans ?_ (Equiv.subtypeProdEquivSigmaSubtype (fun (κ : Fin 16 → Byte) (ρ : Fin (threshold.toNat * 20) → Byte) =>
    KView env parts threshold perm ps I v s' (stream κ) (stream ρ))).symm
  exact Equiv.sigmaCongr φ fun κ => (key κ).some

/-! Non-vacuity -/

/-- Keys other than the drawn one, here: all bytes 200, explain one share of a 2-of-4 sharing of `[5, 9, 1]`; the view
considered does occur. -/
example : ∃ (s' : List Byte) (v : Nat → List Byte),
    0 < count (m := 2 * 20) (fun ρ => KView exEnv 4 2 (List.range 255) (Pools.init 1) {3} v [5, 9, 1] (fun j => BitVec.ofNat 8 j)
      (stream ρ)) ∧
    0 < count (m := 2 * 20) (fun ρ => KView exEnv 4 2 (List.range 255) (Pools.init 1) {3} v s' (fun _ => 200) (stream ρ)) := by
  obtain ⟨s', -, h⟩ := C55_every_key_possible exEnv exEnv_contract [5, 9, 1] (fun j => BitVec.ofNat 8 j) (fun _ => 200)
  obtain ⟨⟨shares, ps'⟩, hsp⟩ := (C37_split_accepts exEnv exEnv_contract [5, 9, 1] 4 2 (fun j => BitVec.ofNat 8 j)
    (List.range 255) (List.Perm.refl _) (stream (fun _ : Fin (2 * 20) => (7 : Byte))) (Pools.init 1)).2 (by decide)
  have hl : shares.length = 4 := by
    have := C36_split_format exEnv exEnv_contract _ _ _ _ _ (List.Perm.refl _) _ _ _ _ hsp
    omega
  have hpos : 0 < count (m := 2 * 20) (fun ρ => KView exEnv 4 2 (List.range 255) (Pools.init 1) {3} (fun i => shares.getD i [])
      [5, 9, 1] (fun j => BitVec.ofNat 8 j) (stream ρ)) := by
    refine @Nat.card_pos _ ⟨⟨fun _ => 7, shares, ps', hsp, fun i hi => ?_⟩⟩ inferInstance
    have h4 : i < shares.length := by simp only [Finset.mem_singleton] at hi; omega
    simp [List.getD_eq_getElem?_getD, h4]
  exact ⟨s', _, hpos, (h 4 2 (List.range 255) (List.Perm.refl _) (Pools.init 1) {3} (by decide) _) ▸ hpos⟩

/-- A machine whose block function is a one-time pad. -/
noncomputable def padEnv : Env := { exEnv with aes := fun key _ => key }

/-- `C55_perfect` applies to secrets of two bytes when the block function is a one-time pad. -/
example (parts threshold : Int) (I : Finset Nat) (hI : (I.card : Int) < threshold) (v : Nat → List Byte) :
    Nat.card {x : (Fin 16 → Byte) × (Fin (threshold.toNat * 20) → Byte) //
        KView padEnv parts threshold (List.range 255) (Pools.init 1) I v [5, 9]
          (stream x.1) (stream x.2)}
      = Nat.card {x : (Fin 16 → Byte) × (Fin (threshold.toNat * 20) → Byte) //
        KView padEnv parts threshold (List.range 255) (Pools.init 1) I v [1, 200]
          (stream x.1) (stream x.2)} := by
  refine C55_perfect padEnv exEnv_contract [5, 9] [1, 200] (fun c => ?_) parts threshold _ (List.Perm.refl _) _ I hI v
  have hform : ∀ (a b : Byte) (κ : Fin 16 → Byte),
      encrypt padEnv [a, b] (keyOf (stream κ)) = ok [a ^^^ κ 0, b ^^^ κ 1] := by
    intro a b κ
    rw [encrypt_ok _ _ (Or.inl (length_keyOf _))]
    simp [padEnv, xorKs, keyStream, ofb, keyOf, stream, List.range_succ]
  let d : Fin 16 → Byte := fun i => if i = 0 then 5 ^^^ 1 else if i = 1 then 9 ^^^ 200 else 0
  have hx : ∀ a b : Byte, (a ^^^ b) ^^^ b = a := fun a b => by simp [BitVec.xor_assoc]
  let e : (Fin 16 → Byte) ≃ (Fin 16 → Byte) :=
    ⟨fun κ i => κ i ^^^ d i, fun κ i => κ i ^^^ d i, fun κ => by funext i; exact hx _ _, fun κ => by funext i; exact hx _ _⟩
  refine count_congr e fun κ => ?_
  rw [hform, hform]
  have h0 : (1 : Byte) ^^^ e κ 0 = 5 ^^^ κ 0 := by
    show (1 : Byte) ^^^ (κ 0 ^^^ (5 ^^^ 1)) = _
    generalize κ 0 = y; revert y; decide
  have h1 : (200 : Byte) ^^^ e κ 1 = 9 ^^^ κ 1 := by
    show (200 : Byte) ^^^ (κ 1 ^^^ (9 ^^^ 200)) = _
    generalize κ 1 = y; revert y; decide
  rw [h0, h1]

/-- With the one-time pad, the secrets [5, 9] and [1, 200] have the same ciphertext under keys that differ accordingly; one
share does not tell which secret was shared. -/
example (v : Nat → List Byte) :
    count (m := 2 * 20) (fun ρ => KView padEnv 4 2 (List.range 255) (Pools.init 1) {3} v [5, 9] (fun _ => 0) (stream ρ))
      = count (m := 2 * 20) (fun ρ => KView padEnv 4 2 (List.range 255) (Pools.init 1) {3} v [1, 200]
          (fun i => if i = 0 then 5 ^^^ 1 else if i = 1 then 9 ^^^ 200 else 0) (stream ρ)) := by
  refine C55_only_ciphertext padEnv exEnv_contract _ _ _ _ ?_ 4 2 _ (List.Perm.refl _) _ {3} (by decide) v
  rw [encrypt_ok _ _ (Or.inl (length_keyOf _)), encrypt_ok _ _ (Or.inl (length_keyOf _))]
  simp [padEnv, xorKs, keyStream, ofb, keyOf, List.range_succ]

end Verif.Props
