import Verif.Props.Krawczyk
import Verif.Props.Combine
import Verif.Proofs.KrawczykMeta

/-! # C64: the metadata of krawczyk shares is not authenticated either

The first 21 bytes of a share are a Shamir share of the key and the length of the ciphertext.  Whoever can write one of
the shares given to Combine chooses the length (up to the length of the padded ciphertext) and any change of the key. -/

namespace Verif.Props
open Verif Outcome Galois Spec Proofs Csprng RS Krawczyk

/-- Adding masks to Shamir shares adds what the masks combine to. -/
theorem combine_masked {p : List (List Byte)} {s : List Byte} {N : Nat} (hp : Shamir.combine p = ok s) (hN : s.length = N)
    (h0 : 1 ≤ N) (hl : ∀ x ∈ p, x.length = N + 1) {q : List (List Byte)} (hq : q.map tag = p.map tag)
    (hql : ∀ x ∈ q, x.length = N + 1) :
    ∃ Δ, Shamir.combine q = ok Δ ∧ Δ.length = N ∧
      Shamir.combine (List.zipWith addShares p q) = ok (List.zipWith (· ^^^ ·) s Δ) := by
  obtain ⟨⟨h1, h2, h3, h4⟩, -⟩ := combine_ok_iff.1 hp
  have hlen : q.length = p.length := by simpa using congrArg List.length hq
  have hc := combine_ok (parts := q) (by omega) h0 hql (show (q.map tag).Nodup by rw [hq]; exact h4)
  refine ⟨_, hc, by simp [recover], C20_homomorphic p q s _ hp hc hq.symm (by simp [recover, hN])⟩

theorem tamperMeta_pieces {a b mask : List Byte} (ha : a.length = 21) (hm : mask.length = 20) :
    tamperMeta (a ++ b) mask = addShares a (mask ++ [metaTag (a ++ b)]) ++ b := by
  have ht : a.take 20 = a.dropLast := by rw [List.dropLast_eq_take, ha]
  have hd : a.drop 20 = [tag a] := by
    rw [tag, ha]
    apply List.ext_getElem
    · simp [ha]
    · intro i h1 h2
      have : i = 0 := by simp at h2; omega
      subst this
      simp [ha]
  unfold tamperMeta addShares
  rw [List.take_append_of_le_length (by omega), List.drop_append_of_le_length (by omega), hd, ht]
  simp

/-- C64 for any sharing. -/
theorem meta_of_sharing {env env' : Env} (hc : env.lib.Contract) (ha : env'.aes = env.aes)
    (hm : env'.lib.missing = env.lib.missing) (hn : env'.lib.allowsNoParity = env.lib.allowsNoParity)
    {secret key : List Byte} {parts threshold : Int} {md shares : List (List Byte)}
    (he : kSplitError env.lib secret parts threshold = none)
    (hk : KSharing env secret key threshold.toNat (parts - threshold).toNat md shares)
    {sel : List Nat} (hsel : ∀ i ∈ sel, (i : Int) < parts) (hnd : sel.Nodup) (ht : threshold ≤ sel.length)
    {mask : Nat → List Byte} (hmask : ∀ i, (mask i).length = 20)
    {ssData : List (Option (List Byte))}
    (hss : ssData.filterMap id = sel.map fun i => tamperMeta (shares.getD i []) (mask i)) :
    ∃ Δ ct pad, Shamir.combine (sel.map fun i => mask i ++ [metaTag (shares.getD i [])]) = ok Δ ∧ Δ.length = 20 ∧
      encrypt env secret key = ok ct ∧ (ct ++ pad).length = threshold.toNat * ceilDiv secret.length threshold.toNat ∧
      ∀ len', len' = (leUint32 (List.zipWith (· ^^^ ·) (lePutUint32 (BitVec.ofNat 32 secret.length)) (Δ.drop 16))).toNat →
      Krawczyk.combine env' ssData parts threshold =
        if len' ≤ (ct ++ pad).length then decrypt env ((ct ++ pad).take len') (List.zipWith (· ^^^ ·) key (Δ.take 16))
        else err .rsJoin := by
  have ⟨n1, n2, n3, n4, n5, n6⟩ := kSplitError_none.1 he
  have hsel' : ∀ i ∈ sel, i < threshold.toNat + (parts - threshold).toNat := fun i hi => by have := hsel i hi; omega
  have hsh : ∀ i ∈ sel, shares.getD i [] = kShare env secret key threshold.toNat (parts - threshold).toNat md i := by
    intro i hi
    rw [hk.eq]; simp [hsel' i hi]
  have hmdl : ∀ i ∈ sel, (md.getD i []).length = 21 := fun i hi => hk.md_length (hsel' i hi)
  have hmt : ∀ i ∈ sel, metaTag (shares.getD i []) = tag (md.getD i []) := by
    intro i hi
    rw [hsh i hi, metaTag, kShare, List.getD_eq_getElem?_getD, List.getElem?_append_left (by rw [hmdl i hi]; omega), tag,
      hmdl i hi, List.getD_eq_getElem?_getD (l := md.getD i [])]
  have hsubp : (sel.map fun i => md.getD i []).Subperm md := by
    have : md = (List.range (threshold.toNat + (parts - threshold).toNat)).map fun i => md.getD i [] := by
      rw [← hk.md_len]
      simpa using (range_map_getElem md id []).symm
    obtain ⟨l, hl, hs⟩ : sel.Subperm (List.range (threshold.toNat + (parts - threshold).toNat)) :=
      List.subperm_of_subset hnd (fun i hi => by simpa using hsel' i hi)
    have hs' := hs.map fun i => md.getD i []
    rw [← this] at hs'
    exact ⟨_, hl.map _, hs'⟩
  have hcomb := combine_sharing hk.md_sharing hsubp (by omega) (by simp; omega)
    (by intro c; have := congrArg List.length c; simp [hk.key_len] at this)
  obtain ⟨Δ, h1, h2, h3⟩ := combine_masked hcomb (N := 20) (by simp [hk.key_len]) (by omega)
    (fun x hx => by obtain ⟨i, hi, rfl⟩ := List.mem_map.1 hx; rw [hmdl i hi])
    (q := sel.map fun i => mask i ++ [metaTag (shares.getD i [])])
    (by
      rw [List.map_map, List.map_map]
      refine List.map_congr_left fun i hi => ?_
      simp only [Function.comp]
      rw [hmt i hi]
      simp [tag])
    (fun x hx => by obtain ⟨i, hi, rfl⟩ := List.mem_map.1 hx; simp [hmask])
  have hz : List.zipWith addShares (sel.map fun i => md.getD i []) (sel.map fun i => mask i ++ [metaTag (shares.getD i [])])
      = sel.map fun i => addShares (md.getD i []) (mask i ++ [metaTag (shares.getD i [])]) := by
    rw [List.zipWith_map]; simp [List.zipWith_self]
  rw [hz] at h3
  have hkl := hk.key_len
  have hsplit : List.zipWith (· ^^^ ·) (key ++ lePutUint32 (BitVec.ofNat 32 secret.length)) Δ
      = List.zipWith (· ^^^ ·) key (Δ.take 16) ++
        List.zipWith (· ^^^ ·) (lePutUint32 (BitVec.ofNat 32 secret.length)) (Δ.drop 16) := by
    conv_lhs => rw [← List.take_append_drop 16 Δ]
    rw [List.zipWith_append (by simp [hkl, h2])]
  rw [hsplit] at h3
  have hfl : (dataShards env.lib threshold.toNat (cipherOf env secret key)).flatten.length
      = threshold.toNat * ceilDiv secret.length threshold.toNat := by
    have : ∀ s ∈ dataShards env.lib threshold.toNat (cipherOf env secret key), s.length = perShard secret.length threshold.toNat := by
      intro s hs
      rw [mem_dataShards hs, length_cipherOf]
    rw [List.length_flatten, List.map_congr_left this, List.map_const', List.sum_replicate, length_dataShards]; rfl
  have hpad : cipherOf env secret key ++ (dataShards env.lib threshold.toNat (cipherOf env secret key)).flatten.drop secret.length
      = (dataShards env.lib threshold.toNat (cipherOf env secret key)).flatten := by
    have hd := dataShards_flatten env.lib (show 0 < threshold.toNat by omega) (cipherOf env secret key)
    rw [length_cipherOf] at hd
    conv_lhs => rw [← hd]
    rw [hd]
    conv_lhs => lhs; rw [← hd]
    exact List.take_append_drop _ _
  refine ⟨Δ, cipherOf env secret key, _, h1, h2, encrypt_ok env secret (Or.inl hkl), by rw [hpad, hfl], ?_⟩
  rintro len' rfl
  rw [hpad, hfl]
  have := hk.combine_meta hc hsel' hnd (by omega)
    (μ := fun i => addShares (md.getD i []) (mask i ++ [metaTag (shares.getD i [])]))
    (fun i hi => by
      simp only [addShares, List.length_append, List.length_zipWith, List.length_dropLast, hmdl i hi, hmask,
        List.length_cons, List.length_nil]
      omega)
    (by simp [hkl, h2]) (by simp [h2]) h3
    (by
      rw [hss]
      refine List.map_congr_left fun i hi => ?_
      have e := tamperMeta_pieces (b := (codeword env.lib threshold.toNat (parts - threshold).toNat
        (cipherOf env secret key)).getD i [] ++ [BitVec.ofNat 8 i]) (hmdl i hi) (hmask i)
      rw [hsh i hi]
      exact e)
  rw [show ((threshold.toNat + (parts - threshold).toNat : Nat) : Int) = parts by omega,
    show ((threshold.toNat : Nat) : Int) = threshold by omega] at this
  rw [kcombine_env ha hm hn, this]
  change (if threshold.toNat * ceilDiv secret.length threshold.toNat < _ then _ else _) = _
  split
  · rw [if_neg (by omega)]
  · rw [if_pos (by omega), decrypt_ok env _ (Or.inl (by simp [hkl, h2]))]

/-- C64: `sel` are the numbers of at least `threshold` shares given to Combine, in any order and with nil entries in
between; to the first 20 bytes of share `i` the bytes `mask i` were added.  Let `Δ` be what shamir.Combine returns for the
masks, taken as shares with the tags of the metadata.  Combine adds `Δ` to the key and the length: it returns the
decryption, under the changed key, of as many bytes of the padded ciphertext as the changed length says, and an
error only if there are not that many. -/
theorem C64_metadata (env env' : Env) (hc : env.lib.Contract) (ha : env'.aes = env.aes)
    (hm : env'.lib.missing = env.lib.missing) (hn : env'.lib.allowsNoParity = env.lib.allowsNoParity)
    (secret : List Byte) (parts threshold : Int) (keyRnd : Nat → Byte)
    (perm : List Nat) (hperm : perm.Perm (List.range 255)) (rnd : Nat → Byte) (ps ps' : Shamir.Pools)
    (shares : List (List Byte))
    (h : Krawczyk.split env secret parts threshold keyRnd perm rnd ps = ok (shares, ps'))
    (sel : List Nat) (hsel : ∀ i ∈ sel, (i : Int) < parts) (hnd : sel.Nodup) (ht : threshold ≤ sel.length)
    (mask : Nat → List Byte) (hmask : ∀ i, (mask i).length = 20)
    (ssData : List (Option (List Byte)))
    (hss : ssData.filterMap id = sel.map fun i => tamperMeta (shares.getD i []) (mask i)) :
    ∃ Δ ct pad, Shamir.combine (sel.map fun i => mask i ++ [metaTag (shares.getD i [])]) = ok Δ ∧ Δ.length = 20 ∧
      encrypt env secret ((List.range 16).map keyRnd) = ok ct ∧
      (ct ++ pad).length = threshold.toNat * ceilDiv secret.length threshold.toNat ∧
      ∀ len', len' = (leUint32 (List.zipWith (· ^^^ ·) (lePutUint32 (BitVec.ofNat 32 secret.length)) (Δ.drop 16))).toNat →
      Krawczyk.combine env' ssData parts threshold =
        if len' ≤ (ct ++ pad).length then
          decrypt env ((ct ++ pad).take len') (List.zipWith (· ^^^ ·) ((List.range 16).map keyRnd) (Δ.take 16))
        else err .rsJoin := by
  obtain ⟨he, md, -, hk⟩ := ksplit_ok env hc hperm h
  have e : Shamir.randRead keyRnd 0 (List.replicate 16 0) = (List.range 16).map keyRnd := by
    simp [Shamir.randRead]
  rw [e] at hk
  exact meta_of_sharing hc ha hm hn he hk hsel hnd ht hmask hss

theorem C64_splitWithRandomizer_metadata (env env' : Env) (hc : env.lib.Contract) (ha : env'.aes = env.aes)
    (hm : env'.lib.missing = env.lib.missing) (hn : env'.lib.allowsNoParity = env.lib.allowsNoParity)
    (fuel : Nat) (secret : List Byte) (parts threshold : Int) (r : CSPRNG) (ps ps' : Shamir.Pools)
    (shares : List (List Byte))
    (h : Krawczyk.splitWithRandomizer env fuel secret parts threshold r ps = ok (shares, ps'))
    (sel : List Nat) (hsel : ∀ i ∈ sel, (i : Int) < parts) (hnd : sel.Nodup) (ht : threshold ≤ sel.length)
    (mask : Nat → List Byte) (hmask : ∀ i, (mask i).length = 20)
    (ssData : List (Option (List Byte)))
    (hss : ssData.filterMap id = sel.map fun i => tamperMeta (shares.getD i []) (mask i)) :
    ∃ Δ ct pad, Shamir.combine (sel.map fun i => mask i ++ [metaTag (shares.getD i [])]) = ok Δ ∧ Δ.length = 20 ∧
      encrypt env secret ((List.range 16).map r.ks) = ok ct ∧
      (ct ++ pad).length = threshold.toNat * ceilDiv secret.length threshold.toNat ∧
      ∀ len', len' = (leUint32 (List.zipWith (· ^^^ ·) (lePutUint32 (BitVec.ofNat 32 secret.length)) (Δ.drop 16))).toNat →
      Krawczyk.combine env' ssData parts threshold =
        if len' ≤ (ct ++ pad).length then
          decrypt env ((ct ++ pad).take len') (List.zipWith (· ^^^ ·) ((List.range 16).map r.ks) (Δ.take 16))
        else err .rsJoin := by
  obtain ⟨he, md, -, hk⟩ := ksplitR_ok env hc h
  rw [read_zeros] at hk
  exact meta_of_sharing hc ha hm hn he hk hsel hnd ht hmask hss

theorem zipWith_xor_zero : ∀ {n : Nat} (a : List Byte), a.length ≤ n →
    List.zipWith (· ^^^ ·) a (List.replicate n (0 : Byte)) = a := by
  intro n a h
  apply List.ext_getElem
  · simp; omega
  · intro i h1 h2
    rw [List.getElem_zipWith, List.getElem_replicate]; simp

theorem zipWith_xor_xor : ∀ {a b : List Byte}, a.length = b.length →
    List.zipWith (· ^^^ ·) a (List.zipWith (· ^^^ ·) a b) = b
  | [], [], _ => rfl
  | x :: a, y :: b, h => by
    rw [List.zipWith_cons_cons, List.zipWith_cons_cons, zipWith_xor_xor (by simpa using h), ← BitVec.xor_assoc]
    simp

/-- Interpolation of a single non-zero value. -/
theorem lagrange_single {xs : List Byte} (hn : xs.Nodup) {x0 : Byte} (hx0 : x0 ∈ xs) (h0 : (0 : Byte) ∉ xs) (d : Byte) :
    ∃ c, lagrangeAt xs (xs.map fun x => if x = x0 then c else 0) 0 = d := by
  obtain ⟨k, hk, rfl⟩ := List.getElem_of_mem hx0
  have hw : weight xs k ≠ 0 := by
    refine weight_ne_zero hn hk fun i hi _ c => h0 ?_
    rw [getD_getElem hi] at c
    rw [← c]; exact List.getElem_mem _
  refine ⟨((⟨d⟩ : GF) / weight xs k).val, ?_⟩
  rw [lagrangeAt_zero, Finset.sum_eq_single k]
  · have e : (xs.map fun x => if x = xs[k] then ((⟨d⟩ : GF) / weight xs k).val else 0).getD k 0
        = ((⟨d⟩ : GF) / weight xs k).val := by
      rw [getD_getElem (by simpa using hk)]; simp
    rw [e]
    exact congrArg GF.val (div_mul_cancel₀ (⟨d⟩ : GF) hw)
  · intro i hi hne
    have hi : i < xs.length := by simpa using hi
    have e : (xs.map fun x => if x = xs[k] then ((⟨d⟩ : GF) / weight xs k).val else 0).getD i 0 = 0 := by
      rw [getD_getElem (by simpa using hi), List.getElem_map, if_neg]
      exact fun c => hne ((List.Nodup.getElem_inj_iff hn).1 c)
    rw [e]
    exact zero_mul _
  · intro c; exact absurd (by simpa using hk) c

/-- C64: one shareholder truncates the secret unnoticed.  The mask depends only on the tags of the shares that will be
combined (byte 20 of each), the holder's own tag, the length of the secret and the wanted length. -/
theorem C64_truncate (tags : List Byte) (hnd0 : tags.Nodup) (h0 : (0 : Byte) ∉ tags) (x0 : Byte) (hx0 : x0 ∈ tags)
    (len m : Nat) (hml : m ≤ len) :
    ∃ mask : List Byte, mask.length = 20 ∧
    ∀ (env env' : Env), env.lib.Contract → env'.aes = env.aes → env'.lib.missing = env.lib.missing →
      env'.lib.allowsNoParity = env.lib.allowsNoParity →
    ∀ (secret : List Byte), secret.length = len →
    ∀ (parts threshold : Int) (keyRnd : Nat → Byte) (perm : List Nat), perm.Perm (List.range 255) →
    ∀ (rnd : Nat → Byte) (ps ps' : Shamir.Pools) (shares : List (List Byte)),
      Krawczyk.split env secret parts threshold keyRnd perm rnd ps = ok (shares, ps') →
    ∀ sel : List Nat, (∀ i ∈ sel, (i : Int) < parts) → threshold ≤ sel.length →
      (sel.map fun i => metaTag (shares.getD i [])) = tags →
    ∀ ssData : List (Option (List Byte)), ssData.filterMap id = (sel.map fun i =>
      if metaTag (shares.getD i []) = x0 then tamperMeta (shares.getD i []) mask else shares.getD i []) →
      Krawczyk.combine env' ssData parts threshold = ok (secret.take m) := by
  choose c hc using lagrange_single hnd0 hx0 h0
  obtain ⟨D, hD⟩ : ∃ D : List Byte, D = List.replicate 16 0 ++
    List.zipWith (· ^^^ ·) (lePutUint32 (BitVec.ofNat 32 len)) (lePutUint32 (BitVec.ofNat 32 m)) := ⟨_, rfl⟩
  have hDl : D.length = 20 := by rw [hD]; simp
  refine ⟨D.map c, by simp [hDl], ?_⟩
  intro env env' hcon ha hm hn secret hlen parts threshold keyRnd perm hperm rnd ps ps' shares h sel hsel ht htags ssData hss
  have hnd : sel.Nodup := List.Nodup.of_map _ (htags ▸ hnd0)
  obtain ⟨he, md, hmd, hk⟩ := ksplit_ok env hcon hperm h
  have ⟨n1, n2, n3, n4, n5, n6⟩ := kSplitError_none.1 he
  have hl20 : ∀ i ∈ sel, 20 ≤ (shares.getD i []).length := by
    intro i hi
    have := ((C36_split_format env hcon _ _ _ _ _ hperm _ _ _ _ h).2 i (hsel i hi)).1
    omega
  have htz : ∀ i ∈ sel, tamperMeta (shares.getD i []) (List.replicate 20 0) = shares.getD i [] := by
    intro i hi
    unfold tamperMeta
    rw [zipWith_xor_zero _ (by simp), List.take_append_drop]
  obtain ⟨Δ, ct, pad, h1, h2, h3, h4, h5⟩ := C64_metadata env env' hcon ha hm hn secret parts threshold keyRnd perm hperm
    rnd ps ps' shares h sel hsel hnd ht
    (fun i => if metaTag (shares.getD i []) = x0 then D.map c else List.replicate 20 0)
    (fun i => by beta_reduce; split <;> simp [hDl]) ssData
    (by
      rw [hss]
      refine List.map_congr_left fun i hi => ?_
      split
      · rfl
      · exact (htz i hi).symm)
  have hΔ : Δ = D := by
    obtain ⟨⟨q1, q2, q3, q4⟩, q5⟩ := combine_ok_iff.1 h1
    obtain ⟨q, hq⟩ : ∃ q, q = sel.map fun i =>
      (if metaTag (shares.getD i []) = x0 then D.map c else List.replicate 20 0) ++ [metaTag (shares.getD i [])] := ⟨_, rfl⟩
    rw [← hq] at q1 q2 q3 q4 q5
    have hqt : Proofs.tags q = tags := by
      rw [hq, Proofs.tags, List.map_map, ← htags]
      refine List.map_congr_left fun i hi => ?_
      simp [tag]
    have hhead : (q.headD []).length = 21 := by
      have := headD_mem q1
      generalize q.headD [] = z at *
      rw [hq] at this
      obtain ⟨i, hi, rfl⟩ := List.mem_map.1 this
      split <;> simp [hDl]
    rw [hhead] at q5
    rw [q5]
    apply List.ext_getElem
    · simp [recover, hDl]
    · intro j g1 g2
      have hcol : column q j = tags.map fun x => if x = x0 then c D[j] else 0 := by
        rw [hq, column, List.map_map, ← htags, List.map_map]
        refine List.map_congr_left fun i hi => ?_
        simp only [Function.comp]
        split
        · rw [List.getD_eq_getElem?_getD, List.getElem?_append_left (by simp; omega)]
          simp [g2]
        · rw [List.getD_eq_getElem?_getD, List.getElem?_append_left (by simp; omega)]
          simp only [List.getElem?_replicate, show j < 20 by omega, if_true, Option.getD_some]
      simp only [recover, List.getElem_map, List.getElem_range]
      rw [hqt, hcol, hc]
  rw [hΔ] at h5
  have e1 : D.take 16 = List.replicate 16 0 := by rw [hD]; simp
  have e2 : D.drop 16 = List.zipWith (· ^^^ ·) (lePutUint32 (BitVec.ofNat 32 len)) (lePutUint32 (BitVec.ofNat 32 m)) := by
    rw [hD]; simp
  have hct : ct.length = secret.length := by
    rw [encrypt_ok env secret (Or.inl (by simp))] at h3
    injection h3 with h3
    rw [← h3]; simp [xorKs]
  have e3 : (leUint32 (List.zipWith (· ^^^ ·) (lePutUint32 (BitVec.ofNat 32 secret.length)) (D.drop 16))).toNat = m := by
    rw [e2, hlen, zipWith_xor_xor (by simp), leUint32_put, BitVec.toNat_ofNat, Nat.mod_eq_of_lt (by omega)]
  rw [h5 m e3.symm, if_pos (by simp; omega), e1, zipWith_xor_zero _ (by simp), List.take_append_of_le_length (by omega)]
  rw [encrypt_ok env secret (Or.inl (by simp))] at h3
  injection h3 with h3
  rw [decrypt_ok env _ (Or.inl (by simp)), ← h3]
  congr 1
  apply List.ext_getElem
  · simp [xorKs]
  · intro i g1 g2
    simp [xorKs, BitVec.xor_assoc]

/-- C64, C36: byte 20 of the shares krawczyk.Split returns: distinct and not zero. -/
theorem C36_C64_tags (env : Env) (hc : env.lib.Contract) (secret : List Byte) (parts threshold : Int) (keyRnd : Nat → Byte)
    (perm : List Nat) (hperm : perm.Perm (List.range 255)) (rnd : Nat → Byte) (ps ps' : Shamir.Pools)
    (shares : List (List Byte))
    (h : Krawczyk.split env secret parts threshold keyRnd perm rnd ps = ok (shares, ps')) :
    shares.map metaTag = (perm.take parts.toNat).map (fun v => BitVec.ofNat 8 v + 1) ∧
    (shares.map metaTag).Nodup ∧ (0 : Byte) ∉ shares.map metaTag := by
  obtain ⟨he, md, hmd, hk⟩ := ksplit_ok env hc hperm h
  obtain ⟨-, ⟨hnd, -⟩, hl, ht, h0⟩ := split_ok env.arch hperm hmd
  have e : shares.map metaTag = md.map tag := by
    apply List.ext_getElem
    · rw [List.length_map, List.length_map, hk.eq, List.length_map, List.length_range, hk.md_len]
    · intro i h1 h2
      have hi : i < threshold.toNat + (parts - threshold).toNat := by
        rw [List.length_map, hk.md_len] at h2; exact h2
      have hml := hk.md_length hi
      have hm : md.getD i [] = md[i]'(by simpa using h2) := by
        rw [List.getD_eq_getElem?_getD, List.getElem?_eq_getElem (by simpa using h2), Option.getD_some]
      have hs : shares[i]'(by simpa using h1) = kShare env secret
          (Shamir.randRead keyRnd 0 (List.replicate 16 0)) threshold.toNat (parts - threshold).toNat md i := by
        simp only [hk.eq, List.getElem_map, List.getElem_range]
      rw [List.getElem_map, List.getElem_map, hs, metaTag, kShare, List.getD_eq_getElem?_getD,
        List.getElem?_append_left (by omega), ← hm, tag, hml, List.getD_eq_getElem?_getD (l := md.getD i [])]
  rw [e]
  refine ⟨ht, hnd, fun c => ?_⟩
  obtain ⟨s, hs, hs0⟩ := List.mem_map.1 c
  exact h0 s hs hs0

/-! ## Non-vacuity -/

/-- Shares 4, 0, 2 of five; the holder of share 0 makes Combine return the first two bytes only. -/
example : ∃ shares ps', Krawczyk.split exEnv [1, 2, 3, 4, 5] 5 3 (fun i => BitVec.ofNat 8 (3 * i)) (List.range 255)
    (fun i => BitVec.ofNat 8 (7 * i + 1)) (Shamir.Pools.init 4) = ok (shares, ps') ∧ ∃ mask : List Byte,
    Krawczyk.combine exEnv [some (shares.getD 4 []), none, some (tamperMeta (shares.getD 0 []) mask),
      some (shares.getD 2 [])] 5 3 = ok [1, 2] := by
  obtain ⟨shares, ps', h⟩ := ex_split
  have htags := (C36_C64_tags exEnv exEnv_contract _ _ _ _ _ (List.Perm.refl _) _ _ _ _ h).1
  have e : shares.map metaTag = [1, 2, 3, 4, 5] := by rw [htags]; decide
  have ht : ∀ i < 5, metaTag (shares.getD i []) = ([1, 2, 3, 4, 5] : List Byte).getD i 0 := by
    intro i hi
    rw [← e]
    have hl : shares.length = 5 := by simpa using congrArg List.length e
    simp [List.getD_eq_getElem?_getD, hl, hi]
  obtain ⟨mask, -, hm⟩ := C64_truncate [5, 1, 3] (by decide) (by decide) 1 (by decide) 5 2 (by decide)
  refine ⟨shares, ps', h, mask, ?_⟩
  refine hm exEnv exEnv exEnv_contract rfl rfl rfl [1, 2, 3, 4, 5] rfl 5 3 _ _ (List.Perm.refl _) _ _ _ _ h [4, 0, 2]
    (by decide) (by decide) ?_ _ ?_
  · simp only [List.map_cons, List.map_nil, ht 4 (by decide), ht 0 (by decide), ht 2 (by decide)]; rfl
  · simp only [List.map_cons, List.map_nil, ht 4 (by decide), ht 0 (by decide), ht 2 (by decide)]; rfl

/-- Masks on the key and the length of all three shares given; the padded ciphertext has six bytes. -/
example : ∃ shares ps', Krawczyk.split exEnv [1, 2, 3, 4, 5] 5 3 (fun i => BitVec.ofNat 8 (3 * i)) (List.range 255)
    (fun i => BitVec.ofNat 8 (7 * i + 1)) (Shamir.Pools.init 4) = ok (shares, ps') ∧
    (∃ s, Krawczyk.combine exEnv ([4, 0, 2].map fun i => some (tamperMeta (shares.getD i [])
      (9 :: List.replicate 15 0 ++ [3, 0, 0, 0]))) 5 3 = ok s ∧ s.length = 6) ∧
    Krawczyk.combine exEnv ([4, 0, 2].map fun i => some (tamperMeta (shares.getD i [])
      (List.replicate 16 0 ++ [2, 0, 0, 0]))) 5 3 = err .rsJoin := by
  obtain ⟨shares, ps', h⟩ := ex_split
  have htags := (C36_C64_tags exEnv exEnv_contract _ _ _ _ _ (List.Perm.refl _) _ _ _ _ h).1
  have e : shares.map metaTag = [1, 2, 3, 4, 5] := by rw [htags]; decide
  have ht : ∀ i < 5, metaTag (shares.getD i []) = ([1, 2, 3, 4, 5] : List Byte).getD i 0 := by
    intro i hi
    rw [← e]
    have hl : shares.length = 5 := by simpa using congrArg List.length e
    simp [List.getD_eq_getElem?_getD, hl, hi]
  refine ⟨shares, ps', h, ?_, ?_⟩
  · obtain ⟨Δ, ct, pad, h1, h2, h3, h4, h5⟩ := C64_metadata exEnv exEnv exEnv_contract rfl rfl rfl _ _ _ _ _ (List.Perm.refl _)
      _ _ _ _ h [4, 0, 2] (by decide) (by decide) (by decide) (fun _ => 9 :: List.replicate 15 0 ++ [3, 0, 0, 0])
      (fun _ => rfl)
      ([4, 0, 2].map fun i => some (tamperMeta (shares.getD i []) _)) rfl
    have hd : Δ = 9 :: List.replicate 15 0 ++ [3, 0, 0, 0] := by
      have : Shamir.combine [9 :: List.replicate 15 0 ++ [3, 0, 0, 0] ++ [5], 9 :: List.replicate 15 0 ++ [3, 0, 0, 0] ++ [1],
        9 :: List.replicate 15 0 ++ [3, 0, 0, 0] ++ [3]] = ok (9 :: List.replicate 15 0 ++ [3, 0, 0, 0]) := by decide +kernel
      simp only [List.map_cons, List.map_nil, ht 4 (by decide), ht 0 (by decide), ht 2 (by decide)] at h1
      exact Outcome.ok.inj (h1.symm.trans this)
    have h6 := h5 6 (by rw [hd]; decide)
    have h4 : (ct ++ pad).length = 6 := h4
    rw [h4, if_pos (le_refl _), decrypt_ok exEnv _ (Or.inl (by rw [hd]; rfl))] at h6
    exact ⟨_, h6, by simp only [xorKs, List.length_mapIdx, List.length_take, h4]; rfl⟩
  · obtain ⟨Δ, ct, pad, h1, h2, h3, h4, h5⟩ := C64_metadata exEnv exEnv exEnv_contract rfl rfl rfl _ _ _ _ _ (List.Perm.refl _)
      _ _ _ _ h [4, 0, 2] (by decide) (by decide) (by decide) (fun _ => List.replicate 16 0 ++ [2, 0, 0, 0])
      (fun _ => rfl)
      ([4, 0, 2].map fun i => some (tamperMeta (shares.getD i []) _)) rfl
    have hd : Δ = List.replicate 16 0 ++ [2, 0, 0, 0] := by
      have : Shamir.combine [List.replicate 16 0 ++ [2, 0, 0, 0] ++ [5], List.replicate 16 0 ++ [2, 0, 0, 0] ++ [1],
        List.replicate 16 0 ++ [2, 0, 0, 0] ++ [3]] = ok (List.replicate 16 0 ++ [2, 0, 0, 0]) := by decide +kernel
      simp only [List.map_cons, List.map_nil, ht 4 (by decide), ht 0 (by decide), ht 2 (by decide)] at h1
      exact Outcome.ok.inj (h1.symm.trans this)
    have h6 := h5 7 (by rw [hd]; decide)
    have h4 : (ct ++ pad).length = 6 := h4
    rw [h4, if_neg (by decide)] at h6
    exact h6

/-- `SplitWithRandomizer`: the same for three of 17 shares; the length field is changed from 5 to 5 xor 2 = 7, which is more
than there is. -/
example : ∃ shares ps', Krawczyk.splitWithRandomizer exEnv 1 [1, 2, 3, 4, 5] 17 3 exRand (Shamir.Pools.init 4) = ok (shares, ps') ∧
    Krawczyk.combine exEnv ([4, 0, 2].map fun i => some (tamperMeta (shares.getD i []) (List.replicate 16 0 ++ [2, 0, 0, 0]))) 17 3
      = err .rsJoin := by
  obtain ⟨shares, ps', h⟩ := ex_splitR
  have hnd : ((List.range (17 : Int).toNat).map exRand.ks).Nodup := by decide
  have ht : ∀ i < 5, metaTag (shares.getD i []) = ([1, 2, 3, 4, 5] : List Byte).getD i 0 := by
    intro i hi
    have := C44_tag_is_key_byte exEnv exEnv_contract 0 _ _ _ _ _ _ _ (by omega) hnd h i (by omega)
    have h2 : (shares.getD i []).getD 20 0 = exRand.ks i + 1 := by rw [← this]; exact (BitVec.sub_add_cancel _ _).symm
    show (shares.getD i []).getD 20 0 = _
    rw [h2]
    have : i = 0 ∨ i = 1 ∨ i = 2 ∨ i = 3 ∨ i = 4 := by omega
    rcases this with rfl | rfl | rfl | rfl | rfl <;> rfl
  obtain ⟨Δ, ct, pad, h1, h2, h3, h4, h5⟩ := C64_splitWithRandomizer_metadata exEnv exEnv exEnv_contract rfl rfl rfl _ _ _ _ _ _ _ _ h
    [4, 0, 2] (by decide) (by decide) (by decide) (fun _ => List.replicate 16 0 ++ [2, 0, 0, 0]) (fun _ => rfl)
    ([4, 0, 2].map fun i => some (tamperMeta (shares.getD i []) _)) rfl
  have hd : Δ = List.replicate 16 0 ++ [2, 0, 0, 0] := by
    have : Shamir.combine [List.replicate 16 0 ++ [2, 0, 0, 0] ++ [5], List.replicate 16 0 ++ [2, 0, 0, 0] ++ [1],
      List.replicate 16 0 ++ [2, 0, 0, 0] ++ [3]] = ok (List.replicate 16 0 ++ [2, 0, 0, 0]) := by decide +kernel
    simp only [List.map_cons, List.map_nil, ht 4 (by decide), ht 0 (by decide), ht 2 (by decide)] at h1
    exact Outcome.ok.inj (h1.symm.trans this)
  have h6 := h5 7 (by rw [hd]; decide)
  have h4 : (ct ++ pad).length = 6 := h4
  rw [h4, if_neg (by decide)] at h6
  exact ⟨shares, ps', h, h6⟩

end Verif.Props
