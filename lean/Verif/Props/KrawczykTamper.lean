import Verif.Props.Krawczyk
import Verif.Proofs.KrawczykTamper

/-! # C59: shares of the krawczyk package are not authenticated

Combine does not notice that the shards in the shares were changed: what is added to the shards of the data shares
(those with index less than the threshold) is added to the secret, and what is added to the other shards is ignored when
all data shares are there. -/

namespace Verif.Props
open Verif Outcome Galois Spec Proofs Csprng RS Krawczyk

theorem tampered_of_sharing {env env' : Env} (hc : env.lib.Contract) (ha : env'.aes = env.aes)
    (hm : env'.lib.missing = env.lib.missing) (hn : env'.lib.allowsNoParity = env.lib.allowsNoParity)
    {secret key : List Byte} {parts threshold : Int} {md shares : List (List Byte)}
    (he : kSplitError env.lib secret parts threshold = none)
    (hk : KSharing env secret key threshold.toNat (parts - threshold).toNat md shares)
    {sel : List Nat} (hsel : ∀ i ∈ sel, (i : Int) < parts) (hnd : sel.Nodup)
    (hdata : ∀ i : Nat, (i : Int) < threshold → i ∈ sel)
    {mask : Nat → List Byte} (hmask : ∀ i, (mask i).length = ceilDiv secret.length threshold.toNat)
    {ssData : List (Option (List Byte))}
    (hss : ssData.filterMap id = sel.map fun i => tamper (shares.getD i []) (mask i)) :
    Krawczyk.combine env' ssData parts threshold
      = ok (List.zipWith (· ^^^ ·) secret ((List.range threshold.toNat).map mask).flatten) := by
  have ⟨n1, n2, n3, n4, n5, n6⟩ := kSplitError_none.1 he
  have hss : ssData.filterMap id = sel.map fun i =>
      tamper (kShare env secret key threshold.toNat (parts - threshold).toNat md i) (mask i) := by
    rw [hss]
    refine List.map_congr_left fun i hi => ?_
    have := hsel i hi
    rw [hk.eq]
    simp [show i < threshold.toNat + (parts - threshold).toNat by omega]
  have := hk.combine_tampered hc (is := sel) (fun i hi => by have := hsel i hi; omega) hnd
    (fun i hi => hdata i (by omega)) hmask hss
  rw [show ((threshold.toNat + (parts - threshold).toNat : Nat) : Int) = parts by omega,
    show ((threshold.toNat : Nat) : Int) = threshold by omega] at this
  rw [kcombine_env ha hm hn, this]

/-- C59: `sel` are the numbers of the shares given to Combine, in any order and with nil entries in between; it contains
those of all data shares.  To the shard of share `i` the bytes `mask i` were added.  Combine succeeds, and returns the
secret plus the masks of the data shares (as many of their bytes as the secret has). -/
theorem C59_tampered_shards (env env' : Env) (hc : env.lib.Contract) (ha : env'.aes = env.aes)
    (hm : env'.lib.missing = env.lib.missing) (hn : env'.lib.allowsNoParity = env.lib.allowsNoParity)
    (secret : List Byte) (parts threshold : Int) (keyRnd : Nat → Byte)
    (perm : List Nat) (hperm : perm.Perm (List.range 255)) (rnd : Nat → Byte) (ps ps' : Shamir.Pools)
    (shares : List (List Byte))
    (h : Krawczyk.split env secret parts threshold keyRnd perm rnd ps = ok (shares, ps'))
    (sel : List Nat) (hsel : ∀ i ∈ sel, (i : Int) < parts) (hnd : sel.Nodup)
    (hdata : ∀ i : Nat, (i : Int) < threshold → i ∈ sel)
    (mask : Nat → List Byte) (hmask : ∀ i, (mask i).length = ceilDiv secret.length threshold.toNat)
    (ssData : List (Option (List Byte)))
    (hss : ssData.filterMap id = sel.map fun i => tamper (shares.getD i []) (mask i)) :
    Krawczyk.combine env' ssData parts threshold
      = ok (List.zipWith (· ^^^ ·) secret ((List.range threshold.toNat).map mask).flatten) := by
  obtain ⟨he, md, -, hk⟩ := ksplit_ok env hc hperm h
  exact tampered_of_sharing hc ha hm hn he hk hsel hnd hdata hmask hss

theorem C59_splitWithRandomizer_tampered_shards (env env' : Env) (hc : env.lib.Contract) (ha : env'.aes = env.aes)
    (hm : env'.lib.missing = env.lib.missing) (hn : env'.lib.allowsNoParity = env.lib.allowsNoParity)
    (fuel : Nat) (secret : List Byte) (parts threshold : Int) (r : CSPRNG) (ps ps' : Shamir.Pools)
    (shares : List (List Byte))
    (h : Krawczyk.splitWithRandomizer env fuel secret parts threshold r ps = ok (shares, ps'))
    (sel : List Nat) (hsel : ∀ i ∈ sel, (i : Int) < parts) (hnd : sel.Nodup)
    (hdata : ∀ i : Nat, (i : Int) < threshold → i ∈ sel)
    (mask : Nat → List Byte) (hmask : ∀ i, (mask i).length = ceilDiv secret.length threshold.toNat)
    (ssData : List (Option (List Byte)))
    (hss : ssData.filterMap id = sel.map fun i => tamper (shares.getD i []) (mask i)) :
    Krawczyk.combine env' ssData parts threshold
      = ok (List.zipWith (· ^^^ ·) secret ((List.range threshold.toNat).map mask).flatten) := by
  obtain ⟨he, md, -, hk⟩ := ksplitR_ok env hc h
  exact tampered_of_sharing hc ha hm hn he hk hsel hnd hdata hmask hss

/-- C59: whoever knows the secret and can write the data shares makes Combine return any message of that length: the
masks depend on nothing but the secret, the message and the threshold. -/
theorem C59_any_message (secret message : List Byte) (hl : message.length = secret.length) (threshold : Int)
    (hthr : 0 < threshold) :
    ∃ mask : Nat → List Byte, (∀ i, (mask i).length = ceilDiv secret.length threshold.toNat) ∧
    ∀ (env env' : Env), env.lib.Contract → env'.aes = env.aes → env'.lib.missing = env.lib.missing →
      env'.lib.allowsNoParity = env.lib.allowsNoParity →
    ∀ (parts : Int) (keyRnd : Nat → Byte) (perm : List Nat), perm.Perm (List.range 255) →
    ∀ (rnd : Nat → Byte) (ps ps' : Shamir.Pools) (shares : List (List Byte)),
      Krawczyk.split env secret parts threshold keyRnd perm rnd ps = ok (shares, ps') →
      Krawczyk.combine env' ((List.range threshold.toNat).map fun i => some (tamper (shares.getD i []) (mask i)))
        parts threshold = ok message := by
  obtain ⟨lib, -⟩ : ∃ lib : RSLib, lib.Contract := ⟨_, interpolationCode_contract⟩
  obtain ⟨D, hD⟩ : ∃ D, D = dataShards lib threshold.toNat (List.zipWith (· ^^^ ·) secret message) := ⟨_, rfl⟩
  have hDl : D.length = threshold.toNat := by rw [hD]; simp
  have hzl : (List.zipWith (· ^^^ ·) secret message).length = secret.length := by simp [hl]
  obtain ⟨mask, hmask, hmap⟩ : ∃ mask : Nat → List Byte,
      (∀ i, (mask i).length = ceilDiv secret.length threshold.toNat) ∧ (List.range threshold.toNat).map mask = D := by
    refine ⟨fun i => if hi : i < D.length then D[i] else List.replicate (ceilDiv secret.length threshold.toNat) 0,
      fun i => ?_, ?_⟩
    · beta_reduce
      by_cases hi : i < D.length
      · have hmem : D[i] ∈ dataShards lib threshold.toNat (List.zipWith (· ^^^ ·) secret message) := by
          rw [← hD]; exact List.getElem_mem _
        rw [dif_pos hi, mem_dataShards hmem, hzl]
        rfl
      · rw [dif_neg hi, List.length_replicate]
    · apply List.ext_getElem
      · simp [hDl]
      · intro i h1 h2
        rw [List.getElem_map, List.getElem_range, dif_pos h2]
  refine ⟨mask, hmask, ?_⟩
  · intro env env' hc ha hm hn parts keyRnd perm hperm rnd ps ps' shares h
    obtain ⟨he, md, -, hk⟩ := ksplit_ok env hc hperm h
    have ⟨n1, n2, n3, n4, n5, n6⟩ := kSplitError_none.1 he
    rw [tampered_of_sharing hc ha hm hn he hk (sel := List.range threshold.toNat) (mask := mask)
      (fun i hi => by have := List.mem_range.1 hi; omega) List.nodup_range (fun i hi => by simp; omega) hmask
      (by rw [List.filterMap_map]; simp), hmap]
    have hf := dataShards_flatten lib (show 0 < threshold.toNat by omega) (List.zipWith (· ^^^ ·) secret message)
    have hfl := dataShards_flatten_length lib (show 0 < threshold.toNat by omega) (List.zipWith (· ^^^ ·) secret message)
    rw [← hD, hzl] at hf hfl
    congr 1
    apply List.ext_getElem
    · simp only [List.length_zipWith, hl]; omega
    · intro i h1 h2
      have hi : i < secret.length := by omega
      have e : D.flatten[i]'(by omega) = secret[i] ^^^ message[i] := by
        have e1 : (D.flatten.take secret.length)[i]'(by rw [List.length_take]; omega) = D.flatten[i]'(by omega) := List.getElem_take
        rw [← e1]
        simp only [hf, List.getElem_zipWith]
      rw [List.getElem_zipWith, e, ← BitVec.xor_assoc, BitVec.xor_self, BitVec.zero_xor]

/-! ## Non-vacuity -/

/-- Shares 3, 1, 0, 2 of five, one nil entry; the shards of 0 and 3 were changed.  Only the change of 0 (a data share)
shows, and nothing is reported. -/
example : ∃ shares ps', Krawczyk.split exEnv [1, 2, 3, 4, 5] 5 3 (fun i => BitVec.ofNat 8 (3 * i)) (List.range 255)
    (fun i => BitVec.ofNat 8 (7 * i + 1)) (Shamir.Pools.init 4) = ok (shares, ps') ∧
    Krawczyk.combine exEnv [some (tamper (shares.getD 3 []) [7, 7]), none, some (tamper (shares.getD 1 []) [0, 0]),
      some (tamper (shares.getD 0 []) [16, 32]), some (tamper (shares.getD 2 []) [0, 0])] 5 3 = ok [17, 34, 3, 4, 5] := by
  obtain ⟨shares, ps', h⟩ := ex_split
  refine ⟨shares, ps', h, ?_⟩
  have := C59_tampered_shards exEnv exEnv exEnv_contract rfl rfl rfl _ _ _ _ _ (List.Perm.refl _) _ _ _ _ h
    [3, 1, 0, 2] (by decide) (by decide) (by intro i hi; have : i = 0 ∨ i = 1 ∨ i = 2 := by omega
                                             rcases this with rfl | rfl | rfl <;> decide)
    (fun i => if i = 0 then [16, 32] else if i = 3 then [7, 7] else [0, 0])
    (fun i => by
      have : ceilDiv ([1, 2, 3, 4, 5] : List Byte).length (3 : Int).toNat = 2 := by decide
      rw [this]; split_ifs <;> rfl)
    [some (tamper (shares.getD 3 []) [7, 7]), none, some (tamper (shares.getD 1 []) [0, 0]),
      some (tamper (shares.getD 0 []) [16, 32]), some (tamper (shares.getD 2 []) [0, 0])] rfl
  rw [this]
  rfl

/-- Any message of the right length can be put in place of the secret. -/
example : ∃ shares ps', Krawczyk.split exEnv [1, 2, 3, 4, 5] 5 3 (fun i => BitVec.ofNat 8 (3 * i)) (List.range 255)
    (fun i => BitVec.ofNat 8 (7 * i + 1)) (Shamir.Pools.init 4) = ok (shares, ps') ∧ ∃ mask : Nat → List Byte,
    Krawczyk.combine exEnv ((List.range 3).map fun i => some (tamper (shares.getD i []) (mask i))) 5 3
      = ok [200, 201, 202, 203, 204] := by
  obtain ⟨shares, ps', h⟩ := ex_split
  obtain ⟨mask, -, hm⟩ := C59_any_message [1, 2, 3, 4, 5] [200, 201, 202, 203, 204] rfl 3 (by omega)
  exact ⟨shares, ps', h, mask, hm exEnv exEnv exEnv_contract rfl rfl rfl 5 _ _ (List.Perm.refl _) _ _ _ _ h⟩

/-- `SplitWithRandomizer`: a bit of the first share is flipped; the first byte of the secret comes out flipped. -/
example : ∃ shares ps', Krawczyk.splitWithRandomizer exEnv 1 [1, 2, 3, 4, 5] 17 3 exRand (Shamir.Pools.init 4) = ok (shares, ps') ∧
    Krawczyk.combine exEnv [some (tamper (shares.getD 0 []) [128, 0]), some (tamper (shares.getD 1 []) [0, 0]),
      some (tamper (shares.getD 2 []) [0, 0])] 17 3 = ok [129, 2, 3, 4, 5] := by
  obtain ⟨shares, ps', h⟩ := ex_splitR
  refine ⟨shares, ps', h, ?_⟩
  have := C59_splitWithRandomizer_tampered_shards exEnv exEnv exEnv_contract rfl rfl rfl _ _ _ _ _ _ _ _ h
    [0, 1, 2] (by decide) (by decide) (by intro i hi; have : i = 0 ∨ i = 1 ∨ i = 2 := by omega
                                          rcases this with rfl | rfl | rfl <;> decide)
    (fun i => if i = 0 then [128, 0] else [0, 0])
    (fun i => by
      have : ceilDiv ([1, 2, 3, 4, 5] : List Byte).length (3 : Int).toNat = 2 := by decide
      rw [this]; split_ifs <;> rfl)
    [some (tamper (shares.getD 0 []) [128, 0]), some (tamper (shares.getD 1 []) [0, 0]),
      some (tamper (shares.getD 2 []) [0, 0])] rfl
  rw [this]
  decide

end Verif.Props
