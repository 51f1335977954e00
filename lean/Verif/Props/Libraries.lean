import Verif.Proofs.Vandermonde
import Verif.Props.Aes

/-! # C73: krawczyk with the algorithms of the packages it uses

In C35 to C46 the Reed-Solomon package is anything that satisfies its contract, and AES is an arbitrary function.  Here the
package is the algorithm of klauspost/reedsolomon (Model/Vandermonde.lean) and AES is FIPS 197; nothing is assumed. -/

namespace Verif.Props
open Verif Outcome Spec Proofs Proofs.Aes Proofs.Gauss RS RS.Klauspost Krawczyk Csprng Polynomial

/-- A machine with the real libraries: `stale` is what the spare capacity of a slice contains. -/
structure RealLibraries (env : Env) (stale : List Byte → Nat → Byte) (allowsNoParity : Bool) : Prop where
  aes : env.aes = Spec.Aes.cipher
  lib : env.lib = klauspost allowsNoParity stale

/-- C73: the package keeps its promise: any `k` of the `k + m` shards are enough. -/
theorem C73_contract (allowsNoParity : Bool) (stale : List Byte → Nat → Byte) : (klauspost allowsNoParity stale).Contract :=
  klauspost_contract allowsNoParity stale

theorem RealLibraries.contract {env : Env} {stale : List Byte → Nat → Byte} {np : Bool} (h : RealLibraries env stale np) :
    env.lib.Contract := by rw [h.lib]; exact C73_contract np stale

/-- C73: the code of the package: at every byte position there is a polynomial of degree below `k` whose values at the
field elements 0, ..., k-1 are the data shards and at k, ..., k+m-1 the parity shards. -/
theorem C73_code (allowsNoParity : Bool) (stale : List Byte → Nat → Byte) (k m L : Nat) (data : List (List Byte)) (hk : 0 < k)
    (hkm : k + m ≤ 256) (hd : data.length = k) (hL : ∀ d ∈ data, d.length = L) (j : Nat) (hj : j < L) :
    ∃ p : GF[X], p.degree < k ∧ (∀ i < k, p.eval ⟨BitVec.ofNat 8 i⟩ = ⟨(data.getD i []).getD j 0⟩) ∧
      ∀ r < m, p.eval ⟨BitVec.ofNat 8 (k + r)⟩ = ⟨((klauspost allowsNoParity stale).parity k m data r).getD j 0⟩ := by
  have hne : data ≠ [] := by intro c; rw [c] at hd; simp at hd; omega
  have hss := shardSize_all hne (by omega) hL
  obtain ⟨mat, hm, hp⟩ := buildMatrix_spec (k := k) (by omega)
  obtain ⟨p, hdeg, hpi, hpr⟩ := hp fun c => ⟨(data.getD c []).getD j 0⟩
  refine ⟨p, hdeg, hpi, fun r hr => ?_⟩
  simp only [klauspost, hm, hss]
  rw [List.getD_eq_getElem?_getD, List.getElem?_map, List.getElem?_range hj, Option.map_some, Option.getD_some]
  rw [codeByte_eq (hpr (k + r))]
  rfl

/-- C73: Split succeeds exactly on the documented arguments, and any selection of at least `threshold` shares, in any
order, with nil entries in between, combines to the secret, also on another machine. -/
theorem C73_round_trip (env env' : Env) (stale stale' : List Byte → Nat → Byte) (np : Bool)
    (he : RealLibraries env stale np) (he' : RealLibraries env' stale' np)
    (secret : List Byte) (parts threshold : Int) (keyRnd : Nat → Byte)
    (perm : List Nat) (hperm : perm.Perm (List.range 255)) (rnd : Nat → Byte) (ps : Shamir.Pools) :
    ((∃ res, Krawczyk.split env secret parts threshold keyRnd perm rnd ps = ok res) ↔
      2 ≤ threshold ∧ threshold ≤ parts ∧ parts ≤ 255 ∧ secret ≠ [] ∧ secret.length ≤ 2 ^ 32 - 1 ∧
        (threshold < parts ∨ np = true)) ∧
    ∀ shares ps', Krawczyk.split env secret parts threshold keyRnd perm rnd ps = ok (shares, ps') →
      ∀ ssData : List (Option (List Byte)), (ssData.filterMap id).Subperm shares →
        threshold ≤ (ssData.filterMap id).length → Krawczyk.combine env' ssData parts threshold = ok secret := by
  refine ⟨?_, fun shares ps' h ssData hsub ht => ?_⟩
  · rw [C37_split_accepts env he.contract secret parts threshold keyRnd perm hperm rnd ps, he.lib]
    rfl
  · exact C35_split_combine env env' he.contract (he'.aes.trans he.aes.symm) (by rw [he.lib, he'.lib]; rfl)
      (by rw [he.lib, he'.lib]; rfl) secret parts threshold keyRnd perm hperm rnd ps ps' shares ssData h hsub ht

theorem data_of_sharing {env : Env} {stale : List Byte → Nat → Byte} {np : Bool} (hr : RealLibraries env stale np)
    {secret key : List Byte} {parts threshold : Int} {md shares : List (List Byte)}
    (he : kSplitError env.lib secret parts threshold = none)
    (hk : KSharing env secret key threshold.toNat (parts - threshold).toNat md shares) {j : Nat}
    (hj : j < ceilDiv secret.length threshold.toNat) :
    ∃ p : GF[X], p.degree < threshold.toNat ∧
      (∀ i : Nat, (i : Int) < parts → p.eval ⟨BitVec.ofNat 8 i⟩ = ⟨(shares.getD i []).getD (21 + j) 0⟩) ∧
      ∀ i : Nat, (i : Int) < threshold → i * ceilDiv secret.length threshold.toNat + j < secret.length →
        p.eval ⟨BitVec.ofNat 8 i⟩ = ⟨(outputFeedback (Spec.Aes.cipher key) (List.replicate 16 0) secret).getD
          (i * ceilDiv secret.length threshold.toNat + j) 0⟩ := by
  have hc := hr.contract
  have ⟨n1, n2, n3, n4, n5, n6⟩ := kSplitError_none.1 he
  generalize hkk : threshold.toNat = k at *
  generalize hmm : (parts - threshold).toNat = m at *
  have hgood : goodKey key := Or.inl hk.key_len
  have hct : cipherOf env secret key = outputFeedback (Spec.Aes.cipher key) (List.replicate 16 0) secret := by
    have h1 := (C72_output_feedback env hr.aes secret key hgood).1
    rw [encrypt_ok env secret hgood] at h1
    exact Outcome.ok.inj h1
  obtain ⟨p, hdeg, hpi, hpr⟩ := C73_code np stale k m (ceilDiv secret.length k) (dataShards env.lib k (cipherOf env secret key))
    (by omega) (by omega) (by simp) (fun d hd => by rw [mem_dataShards hd, length_cipherOf]; rfl) j hj
  have hbyte : ∀ i, i < k + m → (shares.getD i []).getD (21 + j) 0
      = ((codeword env.lib k m (cipherOf env secret key)).getD i []).getD j 0 := by
    intro i hi
    rw [show shares.getD i [] = kShare env secret key k m md i by rw [hk.eq]; simp [hi]]
    unfold kShare
    rw [List.getD_eq_getElem?_getD, List.getElem?_append_right (by rw [hk.md_length hi]; omega), hk.md_length hi,
      show 21 + j - 21 = j by omega, List.getElem?_append_left (by rw [hk.code_length hc hi]; exact hj),
      ← List.getD_eq_getElem?_getD]
  refine ⟨p, hdeg, fun i hi => ?_, fun i hi hq => ?_⟩
  · have hi' : i < k + m := by omega
    rw [hbyte i hi']
    by_cases hik : i < k
    · rw [hpi i hik]
      congr 2
      simp only [codeword, List.getD_eq_getElem?_getD]
      rw [List.getElem?_append_left (by simpa using hik)]
    · have := hpr (i - k) (by omega)
      rw [show k + (i - k) = i by omega] at this
      rw [this, ← hr.lib]
      congr 2
      simp only [codeword, parityShards, List.getD_eq_getElem?_getD]
      rw [List.getElem?_append_right (by simp; omega)]
      simp [show i - k < m by omega]
  · have hik : i < k := by omega
    rw [hpi i hik, ← hct]
    congr 1
    have hpe : ceilDiv secret.length k = perShard secret.length k := rfl
    rw [hpe] at hj hq ⊢
    simp only [dataShards, List.getD_eq_getElem?_getD, List.getElem?_map, List.getElem?_range hik, Option.map_some,
      Option.getD_some, length_cipherOf, List.getElem?_range hj]
    rw [padded, length_cipherOf, if_pos hq, List.getD_eq_getElem?_getD]

/-- C73: what the shares contain.  The key is `keyRnd 0`, ..., `keyRnd 15`; at every position of the data part (byte 21 to the
last but one) the shares are the values, at their part numbers, of a polynomial of degree below `threshold`, whose values
at the numbers below `threshold` are consecutive pieces of the AES-OFB encryption of the secret. -/
theorem C73_split_data (env : Env) (stale : List Byte → Nat → Byte) (np : Bool) (hr : RealLibraries env stale np)
    (secret : List Byte) (parts threshold : Int) (keyRnd : Nat → Byte) (perm : List Nat)
    (hperm : perm.Perm (List.range 255)) (rnd : Nat → Byte) (ps ps' : Shamir.Pools) (shares : List (List Byte))
    (h : Krawczyk.split env secret parts threshold keyRnd perm rnd ps = ok (shares, ps')) (j : Nat)
    (hj : j < ceilDiv secret.length threshold.toNat) :
    ∃ p : GF[X], p.degree < threshold.toNat ∧
      (∀ i : Nat, (i : Int) < parts → p.eval ⟨BitVec.ofNat 8 i⟩ = ⟨(shares.getD i []).getD (21 + j) 0⟩) ∧
      ∀ i : Nat, (i : Int) < threshold → i * ceilDiv secret.length threshold.toNat + j < secret.length →
        p.eval ⟨BitVec.ofNat 8 i⟩ = ⟨(outputFeedback (Spec.Aes.cipher ((List.range 16).map keyRnd)) (List.replicate 16 0) secret).getD
          (i * ceilDiv secret.length threshold.toNat + j) 0⟩ := by
  obtain ⟨he, md, -, hk⟩ := ksplit_ok env hr.contract hperm h
  have hkey : Shamir.randRead keyRnd 0 (List.replicate 16 0) = (List.range 16).map keyRnd := by
    simp [Shamir.randRead, List.range_succ]
  rw [hkey] at hk
  exact data_of_sharing hr he hk hj

/-- C73: the same for SplitWithRandomizer; the key consists of the first 16 bytes of the randomizer. -/
theorem C73_splitWithRandomizer_data (env : Env) (stale : List Byte → Nat → Byte) (np : Bool) (hr : RealLibraries env stale np)
    (fuel : Nat) (secret : List Byte) (parts threshold : Int) (r : CSPRNG) (ps ps' : Shamir.Pools)
    (shares : List (List Byte)) (h : Krawczyk.splitWithRandomizer env fuel secret parts threshold r ps = ok (shares, ps'))
    (j : Nat) (hj : j < ceilDiv secret.length threshold.toNat) :
    ∃ p : GF[X], p.degree < threshold.toNat ∧
      (∀ i : Nat, (i : Int) < parts → p.eval ⟨BitVec.ofNat 8 i⟩ = ⟨(shares.getD i []).getD (21 + j) 0⟩) ∧
      ∀ i : Nat, (i : Int) < threshold → i * ceilDiv secret.length threshold.toNat + j < secret.length →
        p.eval ⟨BitVec.ofNat 8 i⟩ = ⟨(outputFeedback (Spec.Aes.cipher ((List.range 16).map r.ks)) (List.replicate 16 0) secret).getD
          (i * ceilDiv secret.length threshold.toNat + j) 0⟩ := by
  obtain ⟨he, md, -, hk⟩ := ksplitR_ok env hr.contract h
  have hkey : r.read (List.replicate 16 0) = (List.range 16).map r.ks := by
    simp [CSPRNG.read, List.range_succ]
  rw [hkey] at hk
  exact data_of_sharing hr he hk hj

/-! ## Cases -/

/-- A machine with the real libraries. -/
def exReal : Env where
  arch := .noasm
  aes := Spec.Aes.cipher
  lib := klauspost true fun _ _ => 0
  encChunks := ⟨fun l => l.map fun b => [b], fun l => by induction l <;> simp_all⟩
  decChunks := ⟨fun l => [l], fun l => by simp⟩

theorem exReal_real : RealLibraries exReal (fun _ _ => 0) true := ⟨rfl, rfl⟩

/-- The matrix of the package for 3 data and 2 parity shards. -/
example : (buildMatrix 3).map (fun a => (List.range 5).map fun r => (List.range 3).map (a r)) =
    some [[1, 0, 0], [0, 1, 0], [0, 0, 1], [1, 1, 1], [15, 8, 6]] := by decide +kernel

/-- `Invert` on a matrix that needs an exchange of rows, and on a singular one. -/
example : (invert 2 fun r c => if r = c then 0 else 2).map (fun a => (List.range 2).map fun r => (List.range 2).map (a r)) =
    some [[0, 142], [142, 0]] ∧ (invert 2 fun _ _ => 2).isNone := by decide +kernel

/-- C73: `Encode` on three data shards of two bytes. -/
example : (klauspost true fun _ _ => 0).parity 3 2 [[1, 2], [3, 4], [5, 6]] 1 = [9, 42] := by decide +kernel

/-- C73: two of the data shards are missing. -/
example : (klauspost true fun _ _ => 0).missing 3 2 [[], [3, 4], [], [7, 0], [9, 42]] 2 = [5, 6] := by decide +kernel

/-- C73: five shares of a secret of 5 bytes; three of them in another order; the data parts. -/
example : ∃ shares ps', Krawczyk.split exReal [1, 2, 3, 4, 5] 5 3 (fun i => BitVec.ofNat 8 (3 * i)) (List.range 255)
    (fun i => BitVec.ofNat 8 (7 * i + 1)) (Shamir.Pools.init 4) = ok (shares, ps') ∧
    Krawczyk.combine exReal [some (shares.getD 4 []), none, some (shares.getD 0 []), some (shares.getD 2 [])] 5 3
      = ok [1, 2, 3, 4, 5] ∧
    ∃ p : GF[X], p.degree < 3 ∧ (∀ i : Nat, (i : Int) < 5 → p.eval ⟨BitVec.ofNat 8 i⟩ = ⟨(shares.getD i []).getD 22 0⟩) ∧
      p.eval ⟨BitVec.ofNat 8 1⟩ = ⟨(outputFeedback (Spec.Aes.cipher ((List.range 16).map fun i => BitVec.ofNat 8 (3 * i)))
        (List.replicate 16 0) [1, 2, 3, 4, 5]).getD 3 0⟩ := by
  obtain ⟨hacc, hcomb⟩ := C73_round_trip exReal exReal _ _ true exReal_real exReal_real [1, 2, 3, 4, 5] 5 3
    (fun i => BitVec.ofNat 8 (3 * i)) (List.range 255) (List.Perm.refl _) (fun i => BitVec.ofNat 8 (7 * i + 1)) (Shamir.Pools.init 4)
  obtain ⟨⟨shares, ps'⟩, h⟩ := hacc.2 ⟨by omega, by omega, by omega, by simp, by simp, Or.inl (by omega)⟩
  refine ⟨shares, ps', h, ?_, ?_⟩
  · obtain ⟨hn, -⟩ := C36_split_format exReal exReal_real.contract _ _ _ _ _ (List.Perm.refl _) _ _ _ _ h
    have hn5 : shares.length = 5 := by omega
    obtain ⟨a, b, c, d, e, rfl⟩ : ∃ a b c d e, shares = [a, b, c, d, e] := by
      match shares, hn5 with
      | [a, b, c, d, e], _ => exact ⟨a, b, c, d, e, rfl⟩
    refine hcomb _ _ h _ ?_ (by simp)
    simp only [List.getD_eq_getElem?_getD]
    refine ⟨[a, c, e], ?_, by simp⟩
    simp only [List.filterMap, id]
    exact (List.perm_cons_append_cons e (l₁ := [a, c]) (l₂ := []) (l := [a, c]) (by simp)).symm
  · obtain ⟨p, h1, h2, h3⟩ := C73_split_data exReal _ true exReal_real _ _ _ _ _ (List.Perm.refl _) _ _ _ _ h 1
      (by decide)
    refine ⟨p, h1, h2, ?_⟩
    exact h3 1 (by omega) (by decide)

end Verif.Props
