import Verif.Proofs.HeapStripped
import Verif.Props.Capacity

/-! # C52: krawczyk.Combine and shares without payload

A krawczyk share of 22 bytes is one without payload.  `Combine` accepts such shares next to shares with payload.  If
memory is left between length and capacity, the Reed-Solomon package stores the payload it has reconstructed there;
since the payload starts in place of the last byte of the share, the share's index is overwritten. -/

namespace Verif.Props
open Verif Outcome Galois Spec Proofs Proofs.Own Csprng RS Krawczyk Verif.Heap

/-! ## Shares without payload -/

theorem stripped_of_sharing {env env' : Env} (hc : env.lib.Contract) (ha : env'.aes = env.aes)
    (hm : env'.lib.missing = env.lib.missing) (hn : env'.lib.allowsNoParity = env.lib.allowsNoParity)
    {secret key : List Byte} {parts threshold : Int} {md shares : List (List Byte)}
    (he : kSplitError env.lib secret parts threshold = none)
    (hk : KSharing env secret key threshold.toNat (parts - threshold).toNat md shares)
    {es : List (Nat × Bool)} (hidx : ∀ e ∈ es, e.1 < shares.length) (hnd : (es.map (·.1)).Nodup)
    (hfull : threshold ≤ (es.filter (·.2)).length) {ssData : List (Option (List Byte))}
    (hss : ssData.filterMap id = es.map fun e => if e.2 then shares.getD e.1 [] else stripped (shares.getD e.1 [])) :
    Krawczyk.combine env' ssData parts threshold = ok secret := by
  have ⟨n1, n2, n3, n4, n5, n6⟩ := kSplitError_none.1 he
  have hlen : shares.length = threshold.toNat + (parts - threshold).toNat := by rw [hk.eq]; simp
  have := hk.combine_stripped hc (es := es) (fun e h => by have := hidx e h; omega) hnd (by omega)
    (ssData := ssData) (by
      rw [hss]
      apply List.map_congr_left
      intro e h
      have hi : e.1 < threshold.toNat + (parts - threshold).toNat := by have := hidx e h; omega
      have : shares.getD e.1 [] = kShare env secret key threshold.toNat (parts - threshold).toNat md e.1 := by
        rw [hk.eq]; simp [hi]
      rw [this]; rfl)
  rw [show ((threshold.toNat + (parts - threshold).toNat : Nat) : Int) = parts by omega,
    show ((threshold.toNat : Nat) : Int) = threshold by omega] at this
  rw [kcombine_env ha hm hn, this]

/-- C52: different shares of one sharing, at least `threshold` of them complete and any number of others without
payload, combine to the secret: `es` are the indices of the shares used, with `true` for complete ones. -/
theorem C52_stripped_shares (env env' : Env) (hc : env.lib.Contract) (ha : env'.aes = env.aes)
    (hm : env'.lib.missing = env.lib.missing) (hn : env'.lib.allowsNoParity = env.lib.allowsNoParity)
    (secret : List Byte) (parts threshold : Int) (keyRnd : Nat → Byte)
    (perm : List Nat) (hperm : perm.Perm (List.range 255)) (rnd : Nat → Byte) (ps ps' : Shamir.Pools)
    (shares : List (List Byte)) (h : Krawczyk.split env secret parts threshold keyRnd perm rnd ps = ok (shares, ps'))
    (es : List (Nat × Bool)) (hidx : ∀ e ∈ es, e.1 < shares.length) (hnd : (es.map (·.1)).Nodup)
    (hfull : threshold ≤ (es.filter (·.2)).length) (ssData : List (Option (List Byte)))
    (hss : ssData.filterMap id = es.map fun e => if e.2 then shares.getD e.1 [] else stripped (shares.getD e.1 [])) :
    Krawczyk.combine env' ssData parts threshold = ok secret := by
  obtain ⟨he, md, -, hk⟩ := ksplit_ok env hc hperm h
  exact stripped_of_sharing hc ha hm hn he hk hidx hnd hfull hss

/-! ## Memory -/

variable {ι : Type} [DecidableEq ι]

/-- The result of krawczyk.Combine for shares that do not overlap those without payload. -/
theorem correct_of_apart {arch : Arch} {env : Env} (hc : env.lib.Contract) {ssData : List (Option Slice)} {parts threshold : Int}
    {h : Arr → List Byte} (hb : ∀ s ∈ ssData.filterMap id, s.off + s.cap ≤ (h s.arr).length)
    (hcap : ∀ s ∈ ssData.filterMap id, s.len ≤ s.cap)
    (hap : ∀ s ∈ ssData.filterMap id, s.len = 22 → ∀ s' ∈ ssData.filterMap id, s' ≠ s → Apart s s')
    {drawn : List Byte} {o : Outcome (List (List Byte))} (hj : JoinedResult arch env ssData parts threshold h drawn o) :
    Correct arch (.krawczykCombine env ssData parts threshold) ((ssData.filterMap id).map (contents h)) drawn o := by
  unfold JoinedResult at hj
  unfold Correct
  simp only []
  rw [hj]
  congr 1
  rw [← combineWith_id]
  have hlen : ∀ s ∈ ssData.filterMap id, (contents h s).length = s.len := by
    intro s hs
    have := hb s hs
    have := hcap s hs
    unfold contents
    simp; omega
  apply combineWith_congr
  rintro em dec rec ⟨n, hp, hp', hchk⟩ hsep hdec hrec
  rw [filterMap_withNils _ _ (by simp)] at hsep
  rw [separateCap_ok (by simp) ?_ hp' (by omega)] at hsep
  swap
  · intro x hx
    rw [List.zip_map', List.mem_map] at hx
    obtain ⟨s, hs, rfl⟩ := hx
    have := hcap s hs
    simp only []
    rw [hlen s hs]
    omega
  obtain ⟨rfl, hk0, hkm⟩ := new_encoder hdec
  rw [separate_eq _ ⟨hp, hp'⟩] at hsep
  cases hf : ((ssData.filterMap id).map (contents h)).findSome? (fault parts) with
  | some o => rw [hf] at hsep; cases o <;> cases hsep
  | none =>
    rw [hf] at hsep
    rw [List.findSome?_eq_none_iff] at hf
    cases hsep
    refine heldAfter_apart hb hcap hap ?_ hc (by simp; omega) hkm rfl rfl hrec
    intro s hs
    rw [← hlen s hs]
    exact Own.fault_none (hf _ (List.mem_map.2 ⟨s, hs, rfl⟩))

/-- C52: one of many concurrent goroutines calls krawczyk.Combine with arbitrary shares; the others do not use the bytes
it may overwrite.  Under every interleaving no call panics, every other call returns the result it would have returned
alone on the memory before, and nothing that existed before (and was not in a pool) changes outside those bytes.
Combine itself returns the result it would have returned on immutable shares, if no share overlaps one without payload
(C66 is about overlapping shares). -/
theorem C52_frame (arch : Arch) (σ : Shared) (calls : ι → Call) (hs : Start σ calls) (i0 : ι) (env : Env)
    (ssData : List (Option Slice)) (parts threshold : Int) (hi : calls i0 = .krawczykCombine env ssData parts threshold)
    (hc : env.lib.Contract) (hcap : ∀ s ∈ ssData.filterMap id, s.off + s.cap ≤ (σ.heap s.arr).length)
    (ha : ∀ j, j ≠ i0 → Admissible (calls j))
    (hd : ∀ j, j ≠ i0 → ∀ s ∈ (calls j).inputs, ∀ k < s.len, (s.arr, s.off + k) ∉ exposed (ssData.filterMap id))
    (c : Config ι (Outcome (List Slice))) (hr : Reach (initial arch σ calls) c) :
    (∀ i, (c.thread i).prog ≠ .panic ∧ ∀ r, (c.thread i).prog = .ret r →
      (i = i0 → ∀ s ∈ ssData.filterMap id, s.len = 22 → ∀ s' ∈ ssData.filterMap id, s' ≠ s → Apart s s') →
      Correct arch (calls i) ((calls i).inputs.map (contents σ.heap)) (c.thread i).drawn
        ((fun slices => slices.map (contents c.shared.heap)) <$> r)) ∧
    ∀ a k, a < σ.next → (∀ p, a ∉ σ.pool p) → (a, k) ∉ exposed (ssData.filterMap id) →
      (c.shared.heap a)[k]? = (σ.heap a)[k]? := by
  obtain ⟨W, I, hag⟩ := stores_reach arch hs hi hc hcap ha hd hr
  refine ⟨fun i => ?_, fun a k h1 h2 h3 => (hag a k ⟨⟨h1, h2⟩, h3⟩).symm⟩
  have hw := I.run i
  constructor
  · intro h; rw [h] at hw; exact hw
  · intro r h hap
    rw [h] at hw
    have hw : postOf arch σ calls i0 env ssData parts threshold i r _ _ _ := hw
    rw [postOf] at hw
    by_cases e : i = i0
    · rw [if_pos e] at hw
      have hap := hap e
      have hlc : ∀ s ∈ ssData.filterMap id, s.len ≤ s.cap := fun s hm => (hs.inputs i0 s (by rw [hi]; exact hm)).2.1
      rw [e, hi] at *
      exact correct_of_apart hc hcap hlc hap hw.1.1
    · rw [if_neg e] at hw
      exact hw.1

theorem contents_congr {h h' : Arr → List Byte} {s : Slice} (e : ∀ i < s.len, (h s.arr)[s.off + i]? = (h' s.arr)[s.off + i]?) :
    contents h s = contents h' s := by
  apply List.ext_getElem?
  intro i
  unfold contents
  by_cases hi : i < s.len
  · rw [List.getElem?_take_of_lt hi, List.getElem?_take_of_lt hi, List.getElem?_drop, List.getElem?_drop, e i hi]
  · rw [List.getElem?_eq_none (by simp; omega), List.getElem?_eq_none (by simp; omega)]

/-- C52: what is overwritten.  The shares come from one sharing; `l` lists, for each share that is not nil, its index,
whether it is complete, and where it is in memory.  When Combine has returned (in whatever concurrent setting), it has
returned the secret, and exactly the shares without payload whose index is below the threshold and whose capacity
suffices have changed: the memory from the start of the share now holds the metadata and the payload of the original
share, and the share shows the first byte of the payload in place of its index. -/
theorem C52_overwrites (arch : Arch) (σ : Shared) (calls : ι → Call) (hs : Start σ calls) (i0 : ι) (env : Env)
    (ssData : List (Option Slice)) (parts threshold : Int) (hi : calls i0 = .krawczykCombine env ssData parts threshold)
    (hc : env.lib.Contract) (hcap : ∀ s ∈ ssData.filterMap id, s.off + s.cap ≤ (σ.heap s.arr).length)
    (ha : ∀ j, j ≠ i0 → Admissible (calls j))
    (hd : ∀ j, j ≠ i0 → ∀ s ∈ (calls j).inputs, ∀ k < s.len, (s.arr, s.off + k) ∉ exposed (ssData.filterMap id))
    (secret : List Byte) (keyRnd : Nat → Byte) (perm : List Nat) (hperm : perm.Perm (List.range 255)) (rnd : Nat → Byte)
    (ps ps' : Shamir.Pools) (shares : List (List Byte))
    (hsplit : Krawczyk.split env secret parts threshold keyRnd perm rnd ps = ok (shares, ps'))
    (l : List (Nat × Bool × Slice)) (hl : ssData.filterMap id = l.map (·.2.2))
    (hidx : ∀ x ∈ l, x.1 < shares.length) (hnd : (l.map (·.1)).Nodup)
    (hbytes : ∀ x ∈ l, contents σ.heap x.2.2 = if x.2.1 then shares.getD x.1 [] else stripped (shares.getD x.1 []))
    (hfull : threshold ≤ (l.filter (·.2.1)).length) (hapart : l.Pairwise fun x y => Apart x.2.2 y.2.2)
    (c : Config ι (Outcome (List Slice))) (hr : Reach (initial arch σ calls) c)
    (r : Outcome (List Slice)) (hret : (c.thread i0).prog = .ret r) :
    (∃ s, r = ok [s] ∧ contents c.shared.heap s = secret) ∧
    ∀ x ∈ l,
      if x.2.1 = false ∧ (x.1 : Int) < threshold ∧ (shares.getD x.1 []).length ≤ x.2.2.cap + 1 then
        ((c.shared.heap x.2.2.arr).drop x.2.2.off).take ((shares.getD x.1 []).length - 1) = (shares.getD x.1 []).dropLast ∧
        contents c.shared.heap x.2.2 = (shares.getD x.1 []).take 22 ∧
        partNo (contents c.shared.heap x.2.2) = ((shares.getD x.1 []).getD 21 0).toNat
      else contents c.shared.heap x.2.2 = contents σ.heap x.2.2 := by
  obtain ⟨he, md, -, hk⟩ := ksplit_ok env hc hperm hsplit
  generalize Shamir.randRead keyRnd 0 (List.replicate 16 0) = key at hk
  have ⟨n1, n2, n3, n4, n5, n6⟩ := kSplitError_none.1 he
  obtain ⟨W, I, hag⟩ := stores_reach arch hs hi hc hcap ha hd hr
  have hw := I.run i0
  rw [hret] at hw
  have hw : postOf arch σ calls i0 env ssData parts threshold i0 r _ _ _ := hw
  rw [postOf, if_pos rfl] at hw
  obtain ⟨hcp, hWs, hst⟩ := hw
  generalize hkk : threshold.toNat = k at hk hst
  generalize hmm : (parts - threshold).toNat = m at hk hst
  have hparts : parts = ((k + m : Nat) : Int) := by omega
  have hthr : threshold = (k : Int) := by omega
  have hlen : shares.length = k + m := by rw [hk.eq]; simp
  have hsh : ∀ x ∈ l, shares.getD x.1 [] = kShare env secret key k m md x.1 := by
    intro x hx
    have hi : x.1 < k + m := by have := hidx x hx; omega
    rw [hk.eq]; simp [hi]
  -- the shares as entries
  generalize hes : l.map (fun x => (x.1, x.2.1)) = es
  have hes1 : ∀ e ∈ es, e.1 < k + m := by
    intro e h
    rw [← hes] at h
    obtain ⟨x, hx, rfl⟩ := List.mem_map.1 h
    have := hidx x hx
    simpa [hlen] using this
  have hes2 : (es.map (·.1)).Nodup := by rw [← hes, List.map_map]; exact hnd
  have hes3 : (es.filter (·.2)).length = (l.filter (·.2.1)).length := by
    rw [← hes, List.filter_map, List.length_map]; rfl
  have hes4 : k ≤ (es.filter (·.2)).length := by omega
  have hbytes' : ∀ x ∈ l, contents σ.heap x.2.2 = kEntry env secret key k m md (x.1, x.2.1) := by
    intro x hx
    rw [hbytes x hx, hsh x hx]; rfl
  have hins : (ssData.filterMap id).map (contents σ.heap) = es.map (kEntry env secret key k m md) := by
    rw [hl, ← hes, List.map_map, List.map_map]
    exact List.map_congr_left hbytes'
  -- the result
  have hcomb : Krawczyk.combine { env with arch } (withNils ssData ((ssData.filterMap id).map (contents σ.heap))) parts threshold
      = ok secret := by
    refine stripped_of_sharing hc rfl rfl rfl he (by rw [hkk, hmm]; exact hk) (es := es) (fun e h => by rw [hlen]; exact hes1 e h) hes2
      (by omega) ?_
    rw [filterMap_withNils _ _ (by simp), hins]
    apply List.map_congr_left
    intro e h
    have : shares.getD e.1 [] = kShare env secret key k m md e.1 := by
      rw [hk.eq]; simp [hes1 e h]
    rw [this]; rfl
  have hlc : ∀ s ∈ ssData.filterMap id, (contents σ.heap s).length = s.len ∧ s.len ≤ s.cap := by
    intro s hm
    have := hs.inputs i0 s (by rw [hi]; exact hm)
    rw [contents_eq this.1, length_window]
    exact ⟨rfl, this.2.1⟩
  have hap : ∀ x ∈ l, ∀ y ∈ l, x ≠ y → Apart x.2.2 y.2.2 := by
    have : Std.Symm fun x y : Nat × Bool × Slice => Apart x.2.2 y.2.2 := ⟨fun x y h => by
      unfold Apart at h ⊢
      rcases h with h | h | h
      · exact .inl (Ne.symm h)
      · exact .inr (.inr h)
      · exact .inr (.inl h)⟩
    exact fun x hx y hy hne => hapart.forall hx hy hne
  have hres := correct_of_apart hc hcap (fun s hm => (hlc s hm).2) (by
    intro s hm _ s' hm' hne
    rw [hl] at hm hm'
    obtain ⟨x, hx, rfl⟩ := List.mem_map.1 hm
    obtain ⟨y, hy, rfl⟩ := List.mem_map.1 hm'
    exact hap x hx y hy (by rintro rfl; exact hne rfl)) hcp.1
  unfold Correct at hres
  simp only [] at hres
  rw [(C53_capacity_ok _ _ _ _ _ (by rw [filterMap_withNils _ _ (by simp)]; simp) (by
      rw [filterMap_withNils _ _ (by simp)]
      intro x hx
      rw [List.zip_map', List.mem_map] at hx
      obtain ⟨s, hs, rfl⟩ := hx
      have := hlc s hs
      simp only []
      omega) secret).2 hcomb, map_ok] at hres
  obtain ⟨s0, rfl, hs0⟩ : ∃ s, r = ok [s] ∧ contents c.shared.heap s = secret := by
    cases r with
    | ok slices =>
      rw [map_ok, Outcome.ok.injEq] at hres
      cases slices with
      | nil => simp at hres
      | cons s t =>
        cases t with
        | nil => exact ⟨s, rfl, by simpa using hres⟩
        | cons _ _ => simp at hres
    | _ => cases hres
  refine ⟨⟨s0, rfl, hs0⟩, ?_⟩
  -- the stores
  rcases hst with ⟨hbad, -⟩ | ⟨em, rec, hsep, hrec, hagE⟩
  · exact absurd rfl (hbad [s0])
  obtain ⟨ms, hms⟩ := hk.entry_separate hc hes1
  rw [hins, hparts, hms] at hsep
  obtain rfl : em = _ := (Outcome.ok.inj hsep).symm
  obtain ⟨Q, hQ, -, hQt⟩ := hk.entry_reconstruct hc hes1 hes2 hes4
  simp only [] at hrec hagE
  rw [hQ] at hrec
  obtain rfl : rec = Q := (Outcome.ok.inj hrec).symm
  rw [hk.entry_shardSize hc hes1 hes2 hes4, show parts.toNat = k + m by omega, hins] at hagE
  have hzip : (ssData.filterMap id).zip (es.map (kEntry env secret key k m md)) =
      l.map fun x => (x.2.2, kEntry env secret key k m md (x.1, x.2.1)) := by
    rw [hl, ← hes, List.map_map, List.zip_map']; rfl
  rw [hzip] at hagE
  have hz : ∀ i < k, rec.getD i [] = (codeword env.lib k m (cipherOf env secret key)).getD i [] := by
    intro i hik
    have h1 : rec.getD i [] = (rec.take k).getD i [] := by
      rw [List.getD_eq_getElem?_getD, List.getD_eq_getElem?_getD, List.getElem?_take_of_lt hik]
    rw [h1, hQt, codeword, List.getD_eq_getElem?_getD, List.getD_eq_getElem?_getD,
      List.getElem?_append_left (by simpa using hik)]
  have hpid : ∀ x ∈ l, (partId (kEntry env secret key k m md (x.1, x.2.1))).toNat = x.1 := fun x hx =>
    hk.entry_partId hc (e := (x.1, x.2.1)) (by have := hidx x hx; simpa [hlen] using this)
  have hlenx : ∀ x ∈ l, x.2.2.len = 22 + if x.2.1 then perShard secret.length k else 0 := by
    intro x hx
    have h1 := (hlc x.2.2 (by rw [hl]; exact List.mem_map.2 ⟨x, hx, rfl⟩)).1
    rw [← h1, hbytes' x hx, hk.entry_length hc (e := (x.1, x.2.1)) (by have := hidx x hx; simpa [hlen] using this)]
  have hcapx : ∀ x ∈ l, x.2.2.len ≤ x.2.2.cap ∧ x.2.2.off + x.2.2.cap ≤ (σ.heap x.2.2.arr).length ∧
      x.2.2.arr < σ.next ∧ ∀ p, x.2.2.arr ∉ σ.pool p := by
    intro x hx
    have hm : x.2.2 ∈ ssData.filterMap id := by rw [hl]; exact List.mem_map.2 ⟨x, hx, rfl⟩
    have := hs.inputs i0 x.2.2 (by rw [hi]; exact hm)
    exact ⟨this.2.1, hcap _ hm, this.2.2⟩
  have hpos : 0 < perShard secret.length k := perShard_pos (by omega) (List.length_pos_iff.2 n4)
  have hhead : ∀ i, ∀ s, (placeHeaders (k + m) (l.map fun x => (x.2.2, kEntry env secret key k m md (x.1, x.2.1)))).getD i none = some s →
      ∃ y ∈ l, y.1 = i ∧ s = ⟨y.2.2.arr, y.2.2.off + 21, y.2.2.len - 22, y.2.2.cap - 21⟩ := by
    intro i s h
    obtain ⟨d, hd, h1, h2⟩ := header_from h
    obtain ⟨y, hy, rfl⟩ := List.mem_map.1 hd
    exact ⟨y, hy, by rw [← hpid y hy]; exact h1, h2⟩
  have hrl : ∀ i < k, (rec.getD i []).length = perShard secret.length k := by
    intro i hik
    rw [hz i hik]; exact hk.code_length hc (by omega)
  -- a byte of a share that is exposed is exposed by that share
  have hexp : ∀ x ∈ l, ∀ q < x.2.2.cap, (x.2.2.arr, x.2.2.off + q) ∈ exposed (ssData.filterMap id) → x.2.1 = false ∧ 21 ≤ q := by
    rintro x hx q hq ⟨s, hm, h1, h2, h3, h4⟩
    rw [hl] at hm
    obtain ⟨y, hy, rfl⟩ := List.mem_map.1 hm
    have h2 : x.2.2.arr = y.2.2.arr := h2
    have h3 : y.2.2.off + 21 ≤ x.2.2.off + q := h3
    have h4 : x.2.2.off + q < y.2.2.off + y.2.2.cap := h4
    by_cases e : x = y
    · subst e
      have := hlenx x hx
      refine ⟨?_, by omega⟩
      by_contra hb
      rw [if_pos (by simpa using hb)] at this
      omega
    · rcases hap x hx y hy e with h | h | h
      · exact absurd h2 h
      · omega
      · omega
  intro x hx
  have hx1 := hlenx x hx
  have hx2 := hcapx x hx
  have hpx : x.1 < k + m := by have := hidx x hx; omega
  have hsl : (shares.getD x.1 []).length = perShard secret.length k + 22 := by
    rw [hsh x hx]; exact hk.share_length hc hpx
  rw [hsl]
  split
  · rename_i hcond
    obtain ⟨hst, hpt, hfit⟩ := hcond
    rw [hst] at hx1
    have hx1 : x.2.2.len = 22 := hx1
    have hpk : x.1 < k := by omega
    have hd : (x.2.2, kEntry env secret key k m md (x.1, x.2.1)) ∈ l.map fun x => (x.2.2, kEntry env secret key k m md (x.1, x.2.1)) :=
      List.mem_map.2 ⟨x, hx, rfl⟩
    have hget := header_get (n := k + m) (ds := l.map fun x => (x.2.2, kEntry env secret key k m md (x.1, x.2.1))) (by
      rw [List.map_map]
      have : l.map ((fun d : Slice × List Byte => (partId d.2).toNat) ∘ fun x => (x.2.2, kEntry env secret key k m md (x.1, x.2.1)))
          = l.map (·.1) := List.map_congr_left hpid
      rw [this]; exact hnd) hd (by
        show (partId (kEntry env secret key k m md (x.1, x.2.1))).toNat < k + m
        rw [hpid x hx]; exact hpx)
    have hget : _ = _ := hget
    rw [show (partId (x.2.2, kEntry env secret key k m md (x.1, x.2.1)).2).toNat = x.1 from hpid x hx] at hget
    have cells : ∀ q < perShard secret.length k, (c.shared.heap x.2.2.arr)[x.2.2.off + 21 + q]? = (rec.getD x.1 [])[q]? := by
      intro q hq
      rw [← hagE x.2.2.arr (x.2.2.off + 21 + q) ⟨x.2.2, by rw [hl]; exact List.mem_map.2 ⟨x, hx, rfl⟩, hx1, rfl,
        by show _ ≤ x.2.2.off + 21 + q; omega, by show x.2.2.off + 21 + q < _; omega⟩]
      refine storesHeap_self (s := ⟨x.2.2.arr, x.2.2.off + 21, x.2.2.len - 22, x.2.2.cap - 21⟩) hpk hget
        (by show x.2.2.len - 22 = 0; omega) (by show _ ≤ x.2.2.cap - 21; omega) ?_ hq
      intro i hik s' hs' h0 hszz
      obtain ⟨y, hy, rfl, rfl⟩ := hhead i s' hs'
      have h0 : y.2.2.len - 22 = 0 := h0
      have hszz : perShard secret.length k ≤ y.2.2.cap - 21 := hszz
      have hy2 := hcapx y hy
      refine ⟨hrl _ hik, by show y.2.2.off + 21 + _ ≤ (σ.heap y.2.2.arr).length; omega, fun hne => ?_⟩
      rcases hap x hx y hy (fun e => hne (by rw [e])) with h | h | h
      · exact .inl h
      · refine .inr (.inl ?_); show x.2.2.off + 21 + _ ≤ y.2.2.off + 21; omega
      · refine .inr (.inr ?_); show y.2.2.off + 21 + _ ≤ x.2.2.off + 21; omega
    have low : ∀ q < 21, (c.shared.heap x.2.2.arr)[x.2.2.off + q]? = (shares.getD x.1 [])[q]? := by
      intro q hq
      rw [← hag x.2.2.arr (x.2.2.off + q) ⟨⟨hx2.2.2.1, hx2.2.2.2⟩, fun hE => by
        have := (hexp x hx q (by omega) hE).2; omega⟩]
      have h1 : (contents σ.heap x.2.2)[q]? = (σ.heap x.2.2.arr)[x.2.2.off + q]? := by
        unfold contents
        rw [List.getElem?_take_of_lt (by omega), List.getElem?_drop]
      rw [← h1, hbytes x hx, hst]
      show (stripped _)[q]? = _
      unfold stripped
      rw [List.getElem?_append_left (by rw [List.length_take, hsl]; omega), List.getElem?_take_of_lt hq]
    have main : ((c.shared.heap x.2.2.arr).drop x.2.2.off).take (perShard secret.length k + 22 - 1) = (shares.getD x.1 []).dropLast := by
      apply List.ext_getElem?
      intro q
      rw [List.dropLast_eq_take, hsl]
      by_cases hq : q < perShard secret.length k + 22 - 1
      · rw [List.getElem?_take_of_lt hq, List.getElem?_take_of_lt hq, List.getElem?_drop]
        by_cases hq2 : q < 21
        · exact low q hq2
        · have := cells (q - 21) (by omega)
          rw [show x.2.2.off + 21 + (q - 21) = x.2.2.off + q by omega] at this
          rw [this, hz _ hpk, hsh x hx, kShare, List.getElem?_append_right (by rw [hk.md_length hpx]; omega), hk.md_length hpx,
            List.getElem?_append_left (by rw [hk.code_length hc hpx]; omega)]
      · rw [List.getElem?_eq_none (by simp; omega), List.getElem?_eq_none (by simp; omega)]
    have main2 : contents c.shared.heap x.2.2 = (shares.getD x.1 []).take 22 := by
      have := congrArg (List.take 22) main
      rw [List.take_take, List.dropLast_eq_take, List.take_take, hsl, Nat.min_eq_left (by omega)] at this
      unfold contents
      rw [hx1, this]
    refine ⟨main, main2, ?_⟩
    rw [main2, partNo, List.length_take, hsl, Nat.min_eq_left (by omega), List.getD_eq_getElem?_getD (i := 22 - 1),
      List.getElem?_take_of_lt (by omega), List.getD_eq_getElem?_getD (i := 21)]
  · rename_i hcond
    apply contents_congr
    intro q hq
    by_cases hE : (x.2.2.arr, x.2.2.off + q) ∈ exposed (ssData.filterMap id)
    · rw [← hagE _ _ hE]
      apply storesHeap_other
      intro i hik s' hs' h0 hszz
      obtain ⟨y, hy, rfl, rfl⟩ := hhead i s' hs'
      have h0 : y.2.2.len - 22 = 0 := h0
      have hszz : perShard secret.length k ≤ y.2.2.cap - 21 := hszz
      have hy2 := hcapx y hy
      have hy1 := hlenx y hy
      refine ⟨hrl _ hik, by show y.2.2.off + 21 + _ ≤ (σ.heap y.2.2.arr).length; omega, fun harr => ?_⟩
      have harr : x.2.2.arr = y.2.2.arr := harr
      by_cases e : x = y
      · exfalso
        subst e
        apply hcond
        refine ⟨(hexp x hx q (by omega) hE).1, by omega, by omega⟩
      · rcases hap x hx y hy e with h | h | h
        · exact absurd harr h
        · left; show x.2.2.off + q < y.2.2.off + 21; omega
        · right; show y.2.2.off + 21 + _ ≤ x.2.2.off + q; omega
    · exact (hag _ _ ⟨⟨hx2.2.2.1, hx2.2.2.2⟩, hE⟩).symm

/-- C52: a case: of the shares of [1, 2, 3, 4, 5] for 5 parts and threshold 3, number 0 without payload but with spare
capacity (23 bytes for the 21 bytes of metadata and the 2 bytes of payload), number 1 without payload and spare capacity,
and numbers 2, 3, 4 complete.  Combine returns the secret; the first share is overwritten, the second one is not. -/
example (arch : Arch) : ∃ (shares : List (List Byte)) (ps' : Shamir.Pools),
    Krawczyk.split exEnv [1, 2, 3, 4, 5] 5 3 (fun i => BitVec.ofNat 8 (3 * i)) (List.range 255)
      (fun i => BitVec.ofNat 8 (7 * i + 1)) (Shamir.Pools.init 4) = ok (shares, ps') ∧
    ∃ (σ : Shared) (ssData : List (Option Slice)) (c : Config Unit (Outcome (List Slice))) (s : Slice),
      Reach (initial arch σ fun _ => .krawczykCombine exEnv ssData 5 3) c ∧ (c.thread ()).prog = .ret (ok [s]) ∧
      contents c.shared.heap s = [1, 2, 3, 4, 5] ∧ (ssData.filterMap id).length = 5 ∧
      contents σ.heap ⟨0, 0, 22, 23⟩ = stripped (shares.getD 0 []) ∧
      contents c.shared.heap ⟨0, 0, 22, 23⟩ = (shares.getD 0 []).take 22 ∧
      contents c.shared.heap ⟨1, 0, 22, 22⟩ = stripped (shares.getD 1 []) := by
  obtain ⟨shares, ps', hsplit⟩ := ex_split
  refine ⟨shares, ps', hsplit, ?_⟩
  obtain ⟨hn, hf⟩ := C36_split_format exEnv exEnv_contract _ _ _ _ _ (List.Perm.refl _) _ _ _ _ hsplit
  have hn : shares.length = 5 := by omega
  have hlen : ∀ i < 5, (shares.getD i []).length = 24 := fun i hi => by
    rw [(hf i (by omega)).1]; rfl
  have hstr : ∀ i < 5, (stripped (shares.getD i [])).length = 22 := fun i hi => by
    simp [stripped, -List.getD_eq_getElem?_getD, hlen i hi]
  let σ : Shared := ⟨fun a => if a = 0 then stripped (shares.getD 0 []) ++ [0] else if a = 1 then stripped (shares.getD 1 [])
    else shares.getD a [], 5, fun _ => [], 0⟩
  let l : List (Nat × Bool × Slice) := [(0, false, ⟨0, 0, 22, 23⟩), (1, false, ⟨1, 0, 22, 22⟩), (2, true, ⟨2, 0, 24, 24⟩),
    (3, true, ⟨3, 0, 24, 24⟩), (4, true, ⟨4, 0, 24, 24⟩)]
  let ssData : List (Option Slice) := l.map fun x => some x.2.2
  have hfm : ssData.filterMap id = l.map (·.2.2) := rfl
  have hheap : ∀ x ∈ l, x.2.2.off = 0 ∧ (σ.heap x.2.2.arr).length = x.2.2.cap ∧ x.2.2.len ≤ x.2.2.cap ∧ x.2.2.arr < 5 ∧
      contents σ.heap x.2.2 = if x.2.1 then shares.getD x.1 [] else stripped (shares.getD x.1 []) := by
    have h0 := hstr 0 (by omega)
    have h1 := hstr 1 (by omega)
    have h2 := hlen 2 (by omega)
    have h3 := hlen 3 (by omega)
    have h4 := hlen 4 (by omega)
    intro x hx
    simp only [l, List.mem_cons, List.not_mem_nil, or_false] at hx
    rcases hx with rfl | rfl | rfl | rfl | rfl
    · refine ⟨rfl, ?_, by decide, by decide, ?_⟩
      · show (stripped (shares.getD 0 []) ++ [0]).length = 23
        rw [List.length_append, h0]; rfl
      · show ((stripped (shares.getD 0 []) ++ [0]).drop 0).take 22 = stripped (shares.getD 0 [])
        rw [List.drop_zero, ← h0, List.take_left]
    · refine ⟨rfl, h1, by decide, by decide, ?_⟩
      show ((stripped (shares.getD 1 [])).drop 0).take 22 = stripped (shares.getD 1 [])
      rw [List.drop_zero, ← h1, List.take_length]
    · refine ⟨rfl, h2, by decide, by decide, ?_⟩
      show ((shares.getD 2 []).drop 0).take 24 = shares.getD 2 []
      rw [List.drop_zero, ← h2, List.take_length]
    · refine ⟨rfl, h3, by decide, by decide, ?_⟩
      show ((shares.getD 3 []).drop 0).take 24 = shares.getD 3 []
      rw [List.drop_zero, ← h3, List.take_length]
    · refine ⟨rfl, h4, by decide, by decide, ?_⟩
      show ((shares.getD 4 []).drop 0).take 24 = shares.getD 4 []
      rw [List.drop_zero, ← h4, List.take_length]
  have hstart : Start σ (fun _ : Unit => .krawczykCombine exEnv ssData 5 3) := by
    refine ⟨List.nodup_nil, fun p a h => (by cases h), fun _ s hs => ?_⟩
    have hs : s ∈ l.map (·.2.2) := hs
    obtain ⟨x, hx, rfl⟩ := List.mem_map.1 hs
    have := hheap x hx
    refine ⟨?_, this.2.2.1, this.2.2.2.1, fun p h => (by cases h)⟩
    unfold InBounds
    rw [this.1, this.2.1]; have := this.2.2.1; omega
  have hcap : ∀ s ∈ ssData.filterMap id, s.off + s.cap ≤ (σ.heap s.arr).length := by
    intro s hs
    rw [hfm] at hs
    obtain ⟨x, hx, rfl⟩ := List.mem_map.1 hs
    have := hheap x hx
    rw [this.1, this.2.1]; omega
  have hno : ∀ j : Unit, j ≠ () → Admissible ((fun _ : Unit => Call.krawczykCombine exEnv ssData 5 3) j) := fun j hj => absurd rfl hj
  have hno' : ∀ j : Unit, j ≠ () → ∀ s ∈ ((fun _ : Unit => Call.krawczykCombine exEnv ssData 5 3) j).inputs, ∀ k < s.len,
      (s.arr, s.off + k) ∉ exposed (ssData.filterMap id) := fun j hj => absurd rfl hj
  obtain ⟨c, hr, hd⟩ := reach_done (initial arch σ fun _ : Unit => Call.krawczykCombine exEnv ssData 5 3)
  have hfr := C52_frame arch σ _ hstart () exEnv ssData 5 3 rfl exEnv_contract hcap hno hno' c hr
  obtain ⟨r, hret⟩ := (hd ()).resolve_right (hfr.1 ()).1
  obtain ⟨⟨s, rfl, hsec⟩, hov⟩ := C52_overwrites arch σ _ hstart () exEnv ssData 5 3 rfl exEnv_contract hcap hno hno'
    [1, 2, 3, 4, 5] _ _ (List.Perm.refl _) _ _ _ shares hsplit l hfm
    (by rw [hn]; simp [l]) (show [0, 1, 2, 3, 4].Nodup by decide) (fun x hx => (hheap x hx).2.2.2.2) (show (3 : Int) ≤ ((3 : Nat) : Int) by decide)
    (by simp only [l, Apart, List.pairwise_cons]; simp) c hr r hret
  refine ⟨σ, ssData, c, s, hr, hret, hsec, rfl, ?_, ?_, ?_⟩
  · exact (hheap _ (List.mem_cons_self ..)).2.2.2.2
  · have := hov (0, false, ⟨0, 0, 22, 23⟩) (by simp [l])
    rw [if_pos ⟨rfl, by decide, by show (shares.getD 0 []).length ≤ 24; rw [hlen 0 (by omega)]⟩] at this
    exact this.2.1
  · have := hov (1, false, ⟨1, 0, 22, 22⟩) (by simp [l])
    rw [if_neg (by
      rintro ⟨-, -, h⟩
      have h : (shares.getD 1 []).length ≤ 23 := h
      rw [hlen 1 (by omega)] at h
      omega)] at this
    rw [this]
    exact (hheap (1, false, ⟨1, 0, 22, 22⟩) (by simp [l])).2.2.2.2

/-- Three complete shares and two without payload. -/
example : ∃ (shares : List (List Byte)) (ps' : Shamir.Pools),
    Krawczyk.split exEnv [1, 2, 3, 4, 5] 5 3 (fun i => BitVec.ofNat 8 (3 * i)) (List.range 255)
      (fun i => BitVec.ofNat 8 (7 * i + 1)) (Shamir.Pools.init 4) = ok (shares, ps') ∧
    Krawczyk.combine exEnv [some (stripped (shares.getD 0 [])), some (shares.getD 4 []), some (shares.getD 2 []),
      some (stripped (shares.getD 1 [])), none, some (shares.getD 3 [])] 5 3 = ok [1, 2, 3, 4, 5] := by
  obtain ⟨shares, ps', hsplit⟩ := ex_split
  have hl := (C36_split_format exEnv exEnv_contract _ _ _ _ _ (List.Perm.refl _) _ _ _ _ hsplit).1
  refine ⟨shares, ps', hsplit, C52_stripped_shares exEnv exEnv exEnv_contract rfl rfl rfl _ _ _ _ _ (List.Perm.refl _) _ _ _ _ hsplit
    [(0, false), (4, true), (2, true), (1, false), (3, true)] ?_ (by decide) (by decide) _ rfl⟩
  intro e he
  have : e.1 < 5 := by
    revert e; decide
  omega

end Verif.Props
