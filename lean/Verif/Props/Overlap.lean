import Verif.Proofs.HeapOverlap
import Verif.Props.KrawczykTamper
import Verif.Props.Stores

/-! # C66: krawczyk.Combine on shares that overlap in memory

Several shares may be parts of one buffer.  Complete shares may overlap in any way.  But a share without payload whose
spare capacity is the memory of another share makes Combine overwrite that share while it is still needed: the result is
a wrong secret, without an error. -/

namespace Verif.Props
open Verif Outcome Galois Spec Proofs Proofs.Own Csprng RS Krawczyk Verif.Heap

variable {ι : Type} [DecidableEq ι]

/-- C66: shares of other lengths than 22 may overlap in any way: under every interleaving every call returns what it
would have returned alone on immutable arguments, and nothing that existed before changes. -/
theorem C66_complete_shares (arch : Arch) (σ : Shared) (calls : ι → Call) (hs : Start σ calls) (i0 : ι) (env : Env)
    (ssData : List (Option Slice)) (parts threshold : Int) (hi : calls i0 = .krawczykCombine env ssData parts threshold)
    (hc : env.lib.Contract) (hcap : ∀ s ∈ ssData.filterMap id, s.off + s.cap ≤ (σ.heap s.arr).length)
    (hfull : ∀ s ∈ ssData.filterMap id, s.len ≠ 22) (ha : ∀ j, j ≠ i0 → Admissible (calls j))
    (c : Config ι (Outcome (List Slice))) (hr : Reach (initial arch σ calls) c) :
    (∀ i, (c.thread i).prog ≠ .panic ∧ ∀ r, (c.thread i).prog = .ret r →
      Correct arch (calls i) ((calls i).inputs.map (contents σ.heap)) (c.thread i).drawn
        ((fun slices => slices.map (contents c.shared.heap)) <$> r)) ∧
    ∀ (a k : Nat), a < σ.next → (∀ p, a ∉ σ.pool p) → (c.shared.heap a)[k]? = (σ.heap a)[k]? := by
  have he : ∀ l, l ∉ exposed (ssData.filterMap id) := by
    rintro l ⟨s, hs, h, -⟩
    exact hfull s hs h
  have h := C52_frame arch σ calls hs i0 env ssData parts threshold hi hc hcap ha (fun j _ s _ k _ => he _) c hr
  exact ⟨fun i => ⟨(h.1 i).1, fun r hr => (h.1 i).2 r hr fun _ s hs h => absurd h (hfull s hs)⟩,
    fun a k h1 h2 => h.2 a k h1 h2 (he _)⟩

theorem length_payload {share : List Byte} : (payload share).length = share.length - 22 := by
  unfold payload; simp; omega

theorem xor_xor_cancel' (a b : Byte) : a ^^^ (a ^^^ b) = b := by
  rw [← BitVec.xor_assoc]; simp

theorem zipWith_xor_self {a b : List Byte} (h : a.length = b.length) :
    List.zipWith (· ^^^ ·) a (List.zipWith (· ^^^ ·) a b) = b := by
  apply List.ext_getElem
  · simp [h]
  · intro i h1 h2
    simp only [List.getElem_zipWith]
    exact xor_xor_cancel' _ _

theorem zipWith_xor_replicate {a : List Byte} {n : Nat} (h : a.length = n) :
    List.zipWith (· ^^^ ·) a (List.replicate n 0) = a := by
  apply List.ext_getElem
  · simp [h]
  · intro i h1 h2
    simp

theorem share_pieces {s : List Byte} (h : 22 ≤ s.length) : s = s.take 21 ++ (payload s ++ [s.getD (s.length - 1) 0]) := by
  apply List.ext_getElem?
  intro i
  unfold payload
  by_cases h1 : i < 21
  · rw [List.getElem?_append_left (by simp; omega), List.getElem?_take_of_lt h1]
  · rw [List.getElem?_append_right (by simp; omega), List.length_take, Nat.min_eq_left (by omega)]
    by_cases h2 : i < s.length - 1
    · rw [List.getElem?_append_left (by simp; omega), List.getElem?_take_of_lt (by omega), List.getElem?_drop]
      congr 1; omega
    · rw [List.getElem?_append_right (by simp; omega)]
      by_cases h3 : i < s.length
      · obtain rfl : i = s.length - 1 := by omega
        rw [List.length_take, List.length_drop, show s.length - 1 - 21 - min (s.length - 22) (s.length - 21) = 0 by omega,
          List.getElem?_cons_zero, List.getD_eq_getElem?_getD, List.getElem?_eq_getElem h3, Option.getD_some]
      · rw [List.getElem?_eq_none (by omega), List.getElem?_eq_none (by simp; omega)]

theorem overlaid_tamper {s o : List Byte} {d : Nat} (h : 22 ≤ s.length) (ho : o.length = s.length) :
    overlaid s o d = tamper s (List.zipWith (· ^^^ ·) (payload s)
      ((payload o).drop d ++ (payload s).drop (s.length - 22 - d))) := by
  have hl : (payload s).length = ((payload o).drop d ++ (payload s).drop (s.length - 22 - d)).length := by
    rw [List.length_append, List.length_drop, List.length_drop, length_payload, length_payload, ho]; omega
  conv_rhs => arg 1; rw [share_pieces h]
  rw [tamper_pieces (by simp; omega) (by rw [List.length_zipWith, ← hl, min_self]), zipWith_xor_self hl]
  unfold overlaid
  simp

theorem tamper_zero {s : List Byte} (h : 22 ≤ s.length) : tamper s (List.replicate (s.length - 22) 0) = s := by
  conv_lhs => arg 1; rw [share_pieces h]
  rw [tamper_pieces (by simp; omega) (by rw [List.length_replicate, length_payload]), zipWith_xor_replicate length_payload]
  exact (share_pieces h).symm

/-- C66: one share without payload and other shares that are complete, from one sharing.  Share `p`, of index below the
threshold, is the one without payload, at `s`; share `q`, at `s'`, starts `d` bytes behind the start of `s`, in the
memory that is spare capacity of `s`; where `s` receives its payload there is no other share.  Combine returns without
an error what it would return for all complete shares of index below the threshold, with the beginning of the payload of
share `q` replaced by the payload of share `p` from byte `d` on. -/
theorem C66_overlap (arch : Arch) (σ : Shared) (calls : ι → Call) (hs : Start σ calls) (i0 : ι) (env : Env)
    (ssData : List (Option Slice)) (parts threshold : Int) (hi : calls i0 = .krawczykCombine env ssData parts threshold)
    (hc : env.lib.Contract) (hcap : ∀ s ∈ ssData.filterMap id, s.off + s.cap ≤ (σ.heap s.arr).length)
    (ha : ∀ j, j ≠ i0 → Admissible (calls j))
    (hd : ∀ j, j ≠ i0 → ∀ s ∈ (calls j).inputs, ∀ k < s.len, (s.arr, s.off + k) ∉ exposed (ssData.filterMap id))
    (secret : List Byte) (keyRnd : Nat → Byte) (perm : List Nat) (hperm : perm.Perm (List.range 255)) (rnd : Nat → Byte)
    (ps ps' : Shamir.Pools) (shares : List (List Byte))
    (hsplit : Krawczyk.split env secret parts threshold keyRnd perm rnd ps = ok (shares, ps'))
    (l : List (Nat × Bool × Slice)) (hl : ssData.filterMap id = l.map (·.2.2))
    (hidx : ∀ x ∈ l, x.1 < shares.length) (hnd : (l.map (·.1)).Nodup)
    (hbytes : ∀ x ∈ l, contents σ.heap x.2.2 = if x.2.1 then shares.getD x.1 [] else stripped (shares.getD x.1 []))
    (hfull : threshold ≤ (l.filter (·.2.1)).length)
    (p q d : Nat) (s s' : Slice) (hp : (p, false, s) ∈ l) (hpt : (p : Int) < threshold)
    (hroom : (shares.getD p []).length ≤ s.cap + 1)
    (hq : (q, true, s') ∈ l) (harr : s'.arr = s.arr) (hoff : s'.off = s.off + d) (hd22 : 22 ≤ d)
    (honly : ∀ x ∈ l, x ≠ (p, false, s) → x.2.1 = true)
    (hdisj : ∀ x ∈ l, x ≠ (p, false, s) → x ≠ (q, true, s') →
      x.2.2.arr ≠ s.arr ∨ x.2.2.off + x.2.2.len ≤ s.off + 21 ∨ s.off + (shares.getD p []).length ≤ x.2.2.off + 1)
    (c : Config ι (Outcome (List Slice))) (hr : Reach (initial arch σ calls) c)
    (r : Outcome (List Slice)) (hret : (c.thread i0).prog = .ret r) :
    ∃ t, r = ok [t] ∧ Krawczyk.combine env ((List.range threshold.toNat).map fun i =>
      some (if i = q then overlaid (shares.getD q []) (shares.getD p []) d else shares.getD i [])) parts threshold
        = ok (contents c.shared.heap t) := by
  obtain ⟨he, md, -, hk⟩ := ksplit_ok env hc hperm hsplit
  generalize Shamir.randRead keyRnd 0 (List.replicate 16 0) = key at hk
  have hk0 := hk
  have ⟨n1, n2, n3, n4, n5, n6⟩ := kSplitError_none.1 he
  obtain ⟨W, I, hag⟩ := stores_reach arch hs hi hc hcap ha hd hr
  have hw := I.run i0
  rw [hret] at hw
  have hw : postOf arch σ calls i0 env ssData parts threshold i0 r _ _ _ := hw
  rw [postOf, if_pos rfl] at hw
  obtain ⟨hcp, -, -⟩ := hw
  have hres := hcp.1
  unfold JoinedResult at hres
  clear hcp
  have hkk : ∃ k, threshold.toNat = k := ⟨_, rfl⟩
  obtain ⟨k, hkk⟩ := hkk
  have hmm : ∃ m, (parts - threshold).toNat = m := ⟨_, rfl⟩
  obtain ⟨m, hmm⟩ := hmm
  rw [hkk, hmm] at hk
  have hparts : parts = ((k + m : Nat) : Int) := by omega
  have hthr : threshold = (k : Int) := by omega
  have hlen : shares.length = k + m := by rw [hk.eq]; simp
  obtain ⟨L, hL⟩ : ∃ L, perShard secret.length k = L := ⟨_, rfl⟩
  obtain ⟨C, hC⟩ : ∃ C, C = codeword env.lib k m (cipherOf env secret key) := ⟨_, rfl⟩
  have hCl : ∀ i < k + m, (C.getD i []).length = L := by
    intro i h; rw [hC, ← hL]; exact hk.code_length hc h
  have hshi : ∀ i < k + m, shares.getD i [] = kShare env secret key k m md i := by
    intro i h
    rw [hk.eq]; simp [h]
  have hshl : ∀ i < k + m, (shares.getD i []).length = L + 22 := by
    intro i h
    rw [hshi i h, hk.share_length hc h, hL]
  have hpay : ∀ i < k + m, payload (shares.getD i []) = C.getD i [] := by
    intro i h
    have := hk.shard_eq hc h
    unfold shardOf at this
    unfold payload
    rw [hC, ← this, hshi i h]
    congr 1
  have hidx' : ∀ x ∈ l, x.1 < k + m := fun x hx => by have := hidx x hx; omega
  -- the shares as entries
  generalize hes : l.map (fun x => (x.1, x.2.1)) = es
  have hes1 : ∀ e ∈ es, e.1 < k + m := by
    intro e h
    rw [← hes] at h
    obtain ⟨x, hx, rfl⟩ := List.mem_map.1 h
    exact hidx' x hx
  have hes2 : (es.map (·.1)).Nodup := by rw [← hes, List.map_map]; exact hnd
  have hes3 : (es.filter (·.2)).length = (l.filter (·.2.1)).length := by
    rw [← hes, List.filter_map, List.length_map]; rfl
  have hes4 : k ≤ (es.filter (·.2)).length := by omega
  have hbytes' : ∀ x ∈ l, contents σ.heap x.2.2 = kEntry env secret key k m md (x.1, x.2.1) := by
    intro x hx
    rw [hbytes x hx, hshi x.1 (hidx' x hx)]; rfl
  have hins : (ssData.filterMap id).map (contents σ.heap) = es.map (kEntry env secret key k m md) := by
    rw [hl, ← hes, List.map_map, List.map_map]
    exact List.map_congr_left hbytes'
  have hcomb : Krawczyk.combine { env with arch } (withNils ssData ((ssData.filterMap id).map (contents σ.heap))) parts threshold
      = ok secret := by
    refine stripped_of_sharing hc rfl rfl rfl he hk0 (es := es) (fun e h => by rw [hlen]; exact hes1 e h) hes2 (by omega) ?_
    rw [filterMap_withNils _ _ (by simp), hins]
    apply List.map_congr_left
    intro e h
    rw [hshi e.1 (hes1 e h)]; rfl
  have hlc : ∀ s ∈ ssData.filterMap id, (contents σ.heap s).length = s.len ∧ s.len ≤ s.cap := by
    intro s hm
    have := hs.inputs i0 s (by rw [hi]; exact hm)
    rw [contents_eq this.1, length_window]
    exact ⟨rfl, this.2.1⟩
  have hcapzip : ∀ x ∈ ((ssData.filterMap id).map (contents σ.heap)).zip ((ssData.filterMap id).map (·.cap)), x.1.length ≤ x.2 := by
    intro x hx
    rw [List.zip_map', List.mem_map] at hx
    obtain ⟨s, hs, rfl⟩ := hx
    exact (hlc s hs).1 ▸ (hlc s hs).2
  have hcombCap := (C53_capacity_ok { env with arch } _ ((ssData.filterMap id).map (·.cap)) parts threshold
    (by rw [filterMap_withNils _ _ (by simp)]; simp) (by
      rw [filterMap_withNils _ _ (by simp)]; exact hcapzip) secret).2 hcomb
  -- the masks
  let pay' : List Byte := (C.getD p []).drop d ++ (C.getD q []).drop (L - d)
  have hpl : p < k := by omega
  have hql : q < k + m := hidx' _ hq
  have hpay'l : pay'.length = L := by
    show ((C.getD p []).drop d ++ (C.getD q []).drop (L - d)).length = L
    rw [List.length_append, List.length_drop, List.length_drop, hCl p (by omega), hCl q hql]; omega
  let δ : Nat → List Byte := fun i => if i = q then List.zipWith (· ^^^ ·) (C.getD q []) pay' else List.replicate L 0
  have hδ : ∀ i, (δ i).length = L := by
    intro i
    show (if i = q then List.zipWith (· ^^^ ·) (C.getD q []) pay' else List.replicate L 0).length = L
    split
    · rw [List.length_zipWith, hpay'l, hCl q hql, min_self]
    · simp
  have hδx : ∀ i < k + m, List.zipWith (· ^^^ ·) (C.getD i []) (δ i) = if i = q then pay' else C.getD i [] := by
    intro i h
    show List.zipWith (· ^^^ ·) (C.getD i []) (if i = q then List.zipWith (· ^^^ ·) (C.getD q []) pay' else List.replicate L 0) = _
    split
    · rename_i e
      rw [e]
      exact zipWith_xor_self (by rw [hCl q hql, hpay'l])
    · exact zipWith_xor_replicate (hCl i h)
  -- memory
  have hpid : ∀ x ∈ l, (partId (kEntry env secret key k m md (x.1, x.2.1))).toNat = x.1 := fun x hx =>
    hk.entry_partId hc (e := (x.1, x.2.1)) (hidx' x hx)
  have hlenx : ∀ x ∈ l, x.2.2.len = 22 + if x.2.1 then L else 0 := by
    intro x hx
    have h1 := (hlc x.2.2 (by rw [hl]; exact List.mem_map.2 ⟨x, hx, rfl⟩)).1
    rw [← h1, hbytes' x hx, hk.entry_length hc (e := (x.1, x.2.1)) (hidx' x hx), hL]
  have hcapx : ∀ x ∈ l, x.2.2.len ≤ x.2.2.cap ∧ x.2.2.off + x.2.2.cap ≤ (σ.heap x.2.2.arr).length := by
    intro x hx
    have hm : x.2.2 ∈ ssData.filterMap id := by rw [hl]; exact List.mem_map.2 ⟨x, hx, rfl⟩
    exact ⟨(hlc _ hm).2, hcap _ hm⟩
  have hzip : (ssData.filterMap id).zip (es.map (kEntry env secret key k m md)) =
      l.map fun x => (x.2.2, kEntry env secret key k m md (x.1, x.2.1)) := by
    rw [hl, ← hes, List.map_map, List.zip_map']; rfl
  obtain ⟨headers, hH⟩ : ∃ H, H = placeHeaders (k + m) (l.map fun x => (x.2.2, kEntry env secret key k m md (x.1, x.2.1))) := ⟨_, rfl⟩
  have hhead : ∀ i t, headers.getD i none = some t →
      ∃ y ∈ l, y.1 = i ∧ t = ⟨y.2.2.arr, y.2.2.off + 21, y.2.2.len - 22, y.2.2.cap - 21⟩ := by
    intro i t h
    rw [hH] at h
    obtain ⟨d, hd, h1, h2⟩ := header_from h
    obtain ⟨y, hy, rfl⟩ := List.mem_map.1 hd
    exact ⟨y, hy, by rw [← hpid y hy]; exact h1, h2⟩
  have hget : ∀ x ∈ l, headers.getD x.1 none = some ⟨x.2.2.arr, x.2.2.off + 21, x.2.2.len - 22, x.2.2.cap - 21⟩ := by
    intro x hx
    rw [hH]
    have := header_get (n := k + m) (ds := l.map fun x => (x.2.2, kEntry env secret key k m md (x.1, x.2.1))) (by
      rw [List.map_map]
      rw [show l.map ((fun d : Slice × List Byte => (partId d.2).toNat) ∘ fun x => (x.2.2, kEntry env secret key k m md (x.1, x.2.1)))
        = l.map (·.1) from List.map_congr_left hpid]
      exact hnd) (d := (x.2.2, kEntry env secret key k m md (x.1, x.2.1))) (List.mem_map.2 ⟨x, hx, rfl⟩)
      (by rw [hpid x hx]; exact hidx' x hx)
    rw [show (partId (x.2.2, kEntry env secret key k m md (x.1, x.2.1)).2).toNat = x.1 from hpid x hx] at this
    exact this
  have hpos : 0 < L := by rw [← hL]; exact perShard_pos (by omega) (List.length_pos_iff.2 n4)
  have hx0 := hlenx _ hp
  have hx1 := hcapx _ hp
  have hy0 := hlenx _ hq
  have hy1 := hcapx _ hq
  have hslen : s.len = 22 := by simpa using hx0
  have hs'len : s'.len = 22 + L := by simpa using hy0
  have hscap : L ≤ s.cap - 21 := by rw [hshl p (by omega)] at hroom; omega
  have hsb : s.off + s.cap ≤ (σ.heap s.arr).length := hx1.2
  have hnodup : ∀ x ∈ l, ∀ y ∈ l, x.1 = y.1 → x = y := fun x hx y hy h => List.inj_on_of_nodup_map hnd hx hy h
  -- what Join finds
  have hmain : ∀ Q, Encoder.reconstructData ⟨k, m⟩ env.lib (place (k + m) (es.map (kEntry env secret key k m md))) = ok Q →
      Q.length = k + m ∧ (∀ i < k, Q.getD i [] = C.getD i []) ∧
      heldShards k L headers Q (storesHeap k L headers Q σ.heap) = (List.range k).map fun i => if i = q then pay' else C.getD i [] := by
    intro Q hQ
    obtain ⟨Q', hQ', hQl, hQt⟩ := hk.entry_reconstruct hc hes1 hes2 hes4
    rw [hQ] at hQ'
    obtain rfl : Q' = Q := (Outcome.ok.inj hQ').symm
    have hz : ∀ i < k, Q'.getD i [] = C.getD i [] := by
      intro i hik
      have h1 : Q'.getD i [] = (Q'.take k).getD i [] := by
        rw [List.getD_eq_getElem?_getD, List.getD_eq_getElem?_getD, List.getElem?_take_of_lt hik]
      rw [h1, hQt, hC, codeword, List.getD_eq_getElem?_getD, List.getD_eq_getElem?_getD,
        List.getElem?_append_left (by simpa using hik)]
    refine ⟨hQl, hz, ?_⟩
    have hrl : ∀ i < k, (Q'.getD i []).length = L := by
      intro i hik
      rw [hz i hik]; exact hCl i (by omega)
    have hstore : ∀ i < k, ∀ t, headers.getD i none = some t → t.len = 0 → L ≤ t.cap →
        i = p ∧ t = ⟨s.arr, s.off + 21, 0, s.cap - 21⟩ := by
      intro i hik t ht h0 _
      obtain ⟨y, hy, rfl, rfl⟩ := hhead i t ht
      have h0 : y.2.2.len - 22 = 0 := h0
      have hyx : y = (p, false, s) := by
        by_contra c
        have := hlenx y hy
        rw [honly y hy c] at this
        simp at this
        omega
      subst hyx
      simp only [hslen]
      exact ⟨trivial, trivial⟩
    have hself : ∀ j < L, (storesHeap k L headers Q' σ.heap s.arr)[s.off + 21 + j]? = (C.getD p [])[j]? := by
      intro j hj
      rw [← hz p hpl]
      refine storesHeap_self (s := ⟨s.arr, s.off + 21, s.len - 22, s.cap - 21⟩) hpl (hget _ hp) (by show s.len - 22 = 0; omega) hscap ?_ hj
      intro i hik t ht h0 hsz
      obtain ⟨rfl, rfl⟩ := hstore i hik t ht h0 hsz
      exact ⟨hrl _ hik, by show s.off + 21 + L ≤ (σ.heap s.arr).length; omega, fun h => absurd rfl h⟩
    have hother : ∀ a j, (a = s.arr → j < s.off + 21 ∨ s.off + 21 + L ≤ j) →
        (storesHeap k L headers Q' σ.heap a)[j]? = (σ.heap a)[j]? := by
      intro a j h
      apply storesHeap_other
      intro i hik t ht h0 hsz
      obtain ⟨rfl, rfl⟩ := hstore i hik t ht h0 hsz
      exact ⟨hrl _ hik, by show s.off + 21 + L ≤ (σ.heap s.arr).length; omega, h⟩
    -- the payload of a complete share in memory
    have hmem : ∀ x ∈ l, x.2.1 = true → ∀ j < L, (σ.heap x.2.2.arr)[x.2.2.off + 21 + j]? = (C.getD x.1 [])[j]? := by
      intro x hx hb j hj
      have h1 := hbytes x hx
      rw [if_pos hb] at h1
      have h2 := hpay x.1 (hidx' x hx)
      rw [← h2, payload, hshl x.1 (hidx' x hx), List.getElem?_take_of_lt (by omega), List.getElem?_drop, ← h1, contents]
      have hl := hlenx x hx
      rw [hb, if_pos rfl] at hl
      rw [List.getElem?_take_of_lt (by omega), List.getElem?_drop]
      congr 1
      omega
    have hwindow : ∀ (b : List Byte) (off : Nat) (bs : List Byte), bs.length = L → (∀ j < L, b[off + j]? = bs[j]?) → window b off L = bs := by
      intro b off bs h1 h2
      apply List.ext_getElem?
      intro j
      by_cases hj : j < L
      · rw [window, List.getElem?_map, List.getElem?_range hj, Option.map_some, List.getD_eq_getElem?_getD, h2 j hj,
          List.getElem?_eq_getElem (by omega), Option.getD_some]
      · rw [List.getElem?_eq_none (by simp; omega), List.getElem?_eq_none (by omega)]
    unfold heldShards
    apply List.map_congr_left
    intro i hik
    have hik : i < k := by simpa using hik
    unfold heldShard
    cases hh : headers.getD i none with
    | none =>
      simp only []
      rw [if_neg, hz i hik]
      rintro rfl
      rw [show headers.getD i none = _ from hget _ hq] at hh
      cases hh
    | some t =>
      obtain ⟨y, hy, rfl, rfl⟩ := hhead i t hh
      simp only []
      by_cases hyx : y = (p, false, s)
      · subst hyx
        simp only [] at hik ⊢
        rw [if_neg (by omega), if_pos hscap, if_neg]
        · exact hwindow _ _ _ (hCl p (by omega)) hself
        · rintro rfl
          have := hnodup _ hp _ hq rfl
          simp at this
      · have hyt := honly y hy hyx
        have hyl := hlenx y hy
        rw [hyt, if_pos rfl] at hyl
        rw [if_pos (by omega), show y.2.2.len - 22 = L by omega]
        by_cases hyq : y.1 = q
        · have : y = (q, true, s') := hnodup _ hy _ hq hyq
          subst this
          simp only []
          rw [if_pos trivial]
          refine hwindow _ _ _ hpay'l ?_
          intro j hj
          show _ = ((C.getD p []).drop d ++ (C.getD q []).drop (L - d))[j]?
          have hpl' : ((C.getD p []).drop d).length = L - d := by rw [List.length_drop, hCl p (by omega)]
          by_cases hjd : d + j < L
          · rw [List.getElem?_append_left (by omega), List.getElem?_drop, harr, hoff,
              show s.off + d + 21 + j = s.off + 21 + (d + j) by omega]
            exact hself _ hjd
          · rw [List.getElem?_append_right (by omega), List.getElem?_drop, hpl', hother _ _ (fun _ => by right; omega)]
            rw [show L - d + (j - (L - d)) = j by omega]
            exact hmem _ hq rfl j hj
        · rw [if_neg hyq]
          refine hwindow _ _ _ (hCl y.1 (hidx' y hy)) ?_
          intro j hj
          rw [hother _ _ ?_]
          · exact hmem y hy hyt j hj
          · intro ea
            rcases hdisj y hy hyx (by rintro rfl; exact hyq rfl) with h | h | h
            · exact absurd ea h
            · left; omega
            · right; rw [hshl p (by omega)] at h; omega
  -- the result
  have hmask := combineWith_masked (f := heldAfter ssData parts threshold σ.heap) (M := ((List.range k).map δ).flatten) hcombCap (by
    rintro em dec rec ⟨n, hp0, hp255, hchk⟩ hsep hdec hrec
    rw [filterMap_withNils _ _ (by simp)] at hsep
    rw [separateCap_ok (by simp) hcapzip hp255 (by omega)] at hsep
    obtain ⟨rfl, -, -⟩ := new_encoder hdec
    obtain ⟨ms, hms⟩ := hk.entry_separate hc hes1
    rw [hins, hparts, hms] at hsep
    obtain rfl : em = _ := (Outcome.ok.inj hsep).symm
    rw [hkk, hmm] at hrec ⊢
    simp only [] at hrec ⊢
    obtain ⟨hQl, hQ, hheld⟩ := hmain rec hrec
    have hrk : rec.take k = (List.range k).map fun i => C.getD i [] := by
      apply List.ext_getElem?
      intro i
      by_cases hik : i < k
      · have := hQ i hik
        rw [List.getD_eq_getElem?_getD, List.getElem?_eq_getElem (by omega), Option.getD_some] at this
        rw [List.getElem?_take_of_lt hik, List.getElem?_eq_getElem (by omega), List.getElem?_map, List.getElem?_range hik,
          Option.map_some, this]
      · rw [List.getElem?_eq_none (by simp; omega), List.getElem?_eq_none (by simp; omega)]
    have hha : heldAfter ssData parts threshold σ.heap (place (k + m) (es.map (kEntry env secret key k m md))) rec =
        ((List.range k).map fun i => if i = q then pay' else C.getD i []) ++ rec.drop k := by
      unfold heldAfter
      simp only []
      rw [hk.entry_shardSize hc hes1 hes2 hes4, hL, show parts.toNat = k + m by omega, hins, hzip, ← hH, hkk, hheld]
    have hflen : ∀ f : Nat → List Byte, (∀ i < k, (f i).length = L) → ((List.range k).map f).flatten.length = k * L := by
      intro f hf
      rw [List.length_flatten, List.map_map, show (List.range k).map (List.length ∘ f) = (List.range k).map (fun _ => L) from
        List.map_congr_left (fun i hi => hf i (by simpa using hi)), List.map_const', List.sum_replicate]
      simp
    rw [hha, List.take_left' (by simp), hrk]
    refine ⟨by simp, ?_, ?_⟩
    · rw [hflen _ (fun i hi => hCl i (by omega)), hflen _ (fun i _ => hδ i)]
    · rw [← zipWith_flatten _ _ (by simp)]
      · congr 1
        rw [List.zipWith_map]
        apply List.ext_getElem
        · simp
        · intro i h1 h2
          have hik : i < k := by simpa using h1
          simp only [List.getElem_map, List.getElem_range, List.getElem_zipWith]
          rw [hδx i (by omega)]
      · intro i
        by_cases hik : i < k
        · simp only [List.getD_eq_getElem?_getD (l := List.map _ _), List.getElem?_map, List.getElem?_range hik, Option.map_some,
            Option.getD_some]
          rw [hCl i (by omega), hδ]
        · simp [hik])
  rw [hmask, map_ok] at hres
  obtain ⟨t, rfl, ht⟩ : ∃ t, r = ok [t] ∧ contents c.shared.heap t = List.zipWith (· ^^^ ·) secret ((List.range k).map δ).flatten := by
    cases r with
    | ok slices =>
      rw [map_ok, Outcome.ok.injEq] at hres
      cases slices with
      | nil => simp at hres
      | cons s t =>
        cases t with
        | nil => exact ⟨s, rfl, by simpa using hres⟩
        | cons _ _ => simp at hres
    | _ => cases hres
  refine ⟨t, rfl, ?_⟩
  rw [ht, hkk]
  have := tampered_of_sharing hc (env' := env) rfl rfl rfl he hk0 (sel := List.range k) (mask := δ) (fun i hi => by simp at hi; omega)
    List.nodup_range (fun i hi => by simp; omega) (fun i => by rw [hkk, hδ i, ← hL]; rfl)
    (ssData := (List.range k).map fun i =>
      some (if i = q then overlaid (shares.getD q []) (shares.getD p []) d else shares.getD i [])) (by
    rw [List.filterMap_map]
    refine (congrFun (List.filterMap_eq_map (f := fun i =>
      if i = q then overlaid (shares.getD q []) (shares.getD p []) d else shares.getD i [])) _).trans ?_
    apply List.map_congr_left
    intro i hi
    have hik : i < k := by simpa using hi
    show _ = tamper (shares.getD i []) (if i = q then List.zipWith (· ^^^ ·) (C.getD q []) pay' else List.replicate L 0)
    split
    · rename_i e
      subst e
      rw [overlaid_tamper (by rw [hshl i (by omega)]; omega) (by rw [hshl i (by omega), hshl p (by omega)]), hpay i (by omega),
        hpay p (by omega), hshl i (by omega)]
      rfl
    · have := tamper_zero (s := shares.getD i []) (by rw [hshl i (by omega)]; omega)
      rw [hshl i (by omega)] at this
      exact this.symm)
  rw [hkk] at this
  exact this

theorem getD_flatten {f : Nat → List Byte} {L k : Nat} (hf : ∀ i < k, (f i).length = L) {i : Nat} (hi : i < k * L) :
    ((List.range k).map f).flatten.getD i 0 = (f (i / L)).getD (i % L) 0 := by
  have : (List.range k).map f = (List.range k).map fun q => (List.range L).map fun j => (f ((q * L + j) / L)).getD ((q * L + j) % L) 0 := by
    apply List.map_congr_left
    intro q hq
    have hl := hf q (by simpa using hq)
    apply List.ext_getElem
    · simp [hl]
    · intro j h1 h2
      have hj : j < L := by omega
      rw [List.getElem_map, List.getElem_range, show (q * L + j) % L = j by
          rw [Nat.mul_comm, Nat.mul_add_mod, Nat.mod_eq_of_lt hj], show (q * L + j) / L = q by
        rw [Nat.mul_comm, Nat.mul_add_div (by omega), Nat.div_eq_of_lt hj]; rfl]
      rw [List.getD_eq_getElem?_getD, List.getElem?_eq_getElem h1, Option.getD_some]
  rw [this, flatten_range (fun i => (f (i / L)).getD (i % L) 0)]
  simp [hi]
/-- C66: that is, a secret in which the bytes that share `q` carries are wrong wherever the two payloads differ: `L` is the
length of a payload. -/
theorem C66_wrong_bytes (env : Env) (hc : env.lib.Contract) (secret : List Byte) (parts threshold : Int) (keyRnd : Nat → Byte)
    (perm : List Nat) (hperm : perm.Perm (List.range 255)) (rnd : Nat → Byte) (ps ps' : Shamir.Pools) (shares : List (List Byte))
    (hsplit : Krawczyk.split env secret parts threshold keyRnd perm rnd ps = ok (shares, ps'))
    (p q d : Nat) (hp : (p : Int) < parts) (hq : (q : Int) < threshold) (L : Nat) (hL : L = ceilDiv secret.length threshold.toNat) :
    ∃ secret', Krawczyk.combine env ((List.range threshold.toNat).map fun i =>
        some (if i = q then overlaid (shares.getD q []) (shares.getD p []) d else shares.getD i [])) parts threshold = ok secret' ∧
      secret'.length = secret.length ∧
      ∀ i < secret.length, secret'.getD i 0 = secret.getD i 0 ^^^
        if i / L = q ∧ i % L + d < L then
          (payload (shares.getD q [])).getD (i % L) 0 ^^^ (payload (shares.getD p [])).getD (i % L + d) 0
        else 0 := by
  obtain ⟨hn, hf⟩ := C36_split_format env hc secret parts threshold keyRnd perm hperm rnd ps ps' shares hsplit
  have ⟨n1, n2, n3, n4, n5, n6⟩ := (C37_split_accepts env hc secret parts threshold keyRnd perm hperm rnd ps).1 ⟨_, hsplit⟩
  rw [← hL] at hf
  have hlen : ∀ i : Nat, (i : Int) < parts → (shares.getD i []).length = L + 22 := fun i hi => (hf i hi).1
  have hql := hlen q (by omega)
  have hplen := hlen p hp
  let mask : Nat → List Byte := fun i => if i = q then List.zipWith (· ^^^ ·) (payload (shares.getD q []))
    ((payload (shares.getD p [])).drop d ++ (payload (shares.getD q [])).drop (L - d)) else List.replicate L 0
  have hpayl : ((payload (shares.getD p [])).drop d ++ (payload (shares.getD q [])).drop (L - d)).length = L := by
    rw [List.length_append, List.length_drop, List.length_drop, length_payload, length_payload, hql, hplen]; omega
  have hmask : ∀ i, (mask i).length = L := by
    intro i
    show (if i = q then _ else _ : List Byte).length = L
    split
    · rw [List.length_zipWith, hpayl, length_payload, hql]; omega
    · simp
  have h := C59_tampered_shards env env hc rfl rfl rfl secret parts threshold keyRnd perm hperm rnd ps ps' shares hsplit
    (List.range threshold.toNat) (fun i hi => by simp at hi; omega) List.nodup_range (fun i hi => by simp; omega) mask
    (fun i => by rw [hmask i, hL]) ((List.range threshold.toNat).map fun i =>
        some (if i = q then overlaid (shares.getD q []) (shares.getD p []) d else shares.getD i [])) (by
      rw [List.filterMap_map]
      refine (congrFun (List.filterMap_eq_map (f := fun i =>
        if i = q then overlaid (shares.getD q []) (shares.getD p []) d else shares.getD i [])) _).trans ?_
      apply List.map_congr_left
      intro i hi
      have hik : (i : Int) < threshold := by simp at hi; omega
      show _ = tamper (shares.getD i []) (if i = q then _ else List.replicate L 0)
      split
      · rename_i e
        rw [e, overlaid_tamper (by omega) (by omega), hql, Nat.add_sub_cancel]
      · have hl := hlen i (by omega)
        have := tamper_zero (s := shares.getD i []) (by omega)
        rw [hl, Nat.add_sub_cancel] at this
        exact this.symm)
  have hkL : secret.length ≤ threshold.toNat * L := by rw [hL]; exact perShard_mul (by omega)
  have hflat : ((List.range threshold.toNat).map mask).flatten.length = threshold.toNat * L := by
    rw [List.length_flatten, List.map_map, show (List.range threshold.toNat).map (List.length ∘ mask) =
      (List.range threshold.toNat).map (fun _ => L) from List.map_congr_left (fun i _ => hmask i), List.map_const', List.sum_replicate]
    simp
  refine ⟨_, h, by rw [List.length_zipWith, hflat]; omega, ?_⟩
  intro i hi
  have hLpos : 0 < L := by
    by_contra c
    have : L = 0 := by omega
    rw [this] at hkL
    omega
  have hg := getD_flatten (f := mask) (fun i _ => hmask i) (show i < threshold.toNat * L by omega)
  rw [List.getD_eq_getElem?_getD, List.getElem?_zipWith, List.getElem?_eq_getElem hi, List.getElem?_eq_getElem (by omega)]
  rw [List.getD_eq_getElem?_getD, List.getElem?_eq_getElem (by omega), Option.getD_some] at hg
  simp only [Option.getD_some]
  rw [hg, List.getD_eq_getElem?_getD (l := secret), List.getElem?_eq_getElem hi, Option.getD_some]
  congr 1
  have hm : i % L < L := Nat.mod_lt _ hLpos
  show (if i / L = q then _ else List.replicate L (0 : Byte)).getD (i % L) 0 = _
  by_cases e : i / L = q
  · rw [if_pos e, List.getD_eq_getElem?_getD, List.getElem?_zipWith]
    have hqq : i % L < (payload (shares.getD q [])).length := by rw [length_payload, hql]; omega
    have hpd : ((payload (shares.getD p [])).drop d).length = L - d := by rw [List.length_drop, length_payload, hplen]; omega
    by_cases hd : i % L + d < L
    · rw [if_pos ⟨e, hd⟩, List.getElem?_append_left (by omega), List.getElem?_drop, List.getElem?_eq_getElem hqq, Nat.add_comm d,
        List.getElem?_eq_getElem (by rw [length_payload, hplen]; omega), List.getD_eq_getElem?_getD (l := payload _),
        List.getElem?_eq_getElem hqq, List.getD_eq_getElem?_getD (l := payload _),
        List.getElem?_eq_getElem (by rw [length_payload, hplen]; omega)]
      rfl
    · rw [if_neg (fun c => hd c.2), List.getElem?_append_right (by omega), List.getElem?_drop, hpd,
        show L - d + (i % L - (L - d)) = i % L by omega, List.getElem?_eq_getElem hqq]
      simp
  · rw [if_neg e, if_neg (fun c => e c.1)]
    simp [hm]

/-- C66: a case: 46 bytes shared for 3 parts and threshold 2, so payloads have 23 bytes.  Share 0 without payload and
share 1 are in one buffer of 67 bytes, share 1 directly behind share 0; the capacity of share 0 is the whole buffer.
Combine returns 46 bytes, of which byte 23 (the first one that share 1 carries) is wrong. -/
example (arch : Arch) : ∃ (shares : List (List Byte)) (ps' : Shamir.Pools),
    Krawczyk.split exEnv (List.replicate 46 7) 3 2 (fun i => BitVec.ofNat 8 (3 * i)) (List.range 255)
      (fun i => BitVec.ofNat 8 (7 * i + 1)) (Shamir.Pools.init 4) = ok (shares, ps') ∧
    ∃ (σ : Shared) (c : Config Unit (Outcome (List Slice))) (t : Slice),
      σ.heap 0 = stripped (shares.getD 0 []) ++ shares.getD 1 [] ∧ σ.heap 1 = shares.getD 2 [] ∧
      Reach (initial arch σ fun _ => .krawczykCombine exEnv
        [some ⟨0, 0, 22, 67⟩, some ⟨0, 22, 45, 45⟩, some ⟨1, 0, 45, 45⟩] 3 2) c ∧
      (c.thread ()).prog = .ret (ok [t]) ∧ (contents c.shared.heap t).length = 46 ∧ (contents c.shared.heap t).getD 23 0 = 13 := by
  have hsp := (C37_split_accepts exEnv exEnv_contract (List.replicate 46 7) 3 2 (fun i => BitVec.ofNat 8 (3 * i)) (List.range 255)
    (List.Perm.refl _) (fun i => BitVec.ofNat 8 (7 * i + 1)) (Shamir.Pools.init 4)).2
    ⟨by omega, by omega, by omega, by simp, by simp, Or.inl (by omega)⟩
  obtain ⟨⟨shares, ps'⟩, hsplit⟩ := hsp
  refine ⟨shares, ps', hsplit, ?_⟩
  obtain ⟨hn, hf⟩ := C36_split_format exEnv exEnv_contract _ _ _ _ _ (List.Perm.refl _) _ _ _ _ hsplit
  have hn : shares.length = 3 := by omega
  have hlen : ∀ i < 3, (shares.getD i []).length = 45 := fun i hi => by
    rw [(hf i (by omega)).1]; rfl
  have hstr : (stripped (shares.getD 0 [])).length = 22 := by
    simp [stripped, -List.getD_eq_getElem?_getD, hlen 0 (by omega)]
  let σ : Shared := ⟨fun a => if a = 0 then stripped (shares.getD 0 []) ++ shares.getD 1 [] else shares.getD 2 [], 2, fun _ => [], 0⟩
  let l : List (Nat × Bool × Slice) := [(0, false, ⟨0, 0, 22, 67⟩), (1, true, ⟨0, 22, 45, 45⟩), (2, true, ⟨1, 0, 45, 45⟩)]
  let ssData : List (Option Slice) := [some ⟨0, 0, 22, 67⟩, some ⟨0, 22, 45, 45⟩, some ⟨1, 0, 45, 45⟩]
  have hfm : ssData.filterMap id = l.map (·.2.2) := rfl
  have hheap : ∀ x ∈ l, x.2.2.off + x.2.2.cap = (σ.heap x.2.2.arr).length ∧ x.2.2.len ≤ x.2.2.cap ∧ x.2.2.arr < 2 ∧
      contents σ.heap x.2.2 = if x.2.1 then shares.getD x.1 [] else stripped (shares.getD x.1 []) := by
    have h1 := hlen 1 (by omega)
    have h2 := hlen 2 (by omega)
    intro x hx
    simp only [l, List.mem_cons, List.not_mem_nil, or_false] at hx
    rcases hx with rfl | rfl | rfl
    · refine ⟨?_, by decide, by decide, ?_⟩
      · show 67 = (stripped (shares.getD 0 []) ++ shares.getD 1 []).length
        rw [List.length_append, hstr, h1]
      · show ((stripped (shares.getD 0 []) ++ shares.getD 1 []).drop 0).take 22 = stripped (shares.getD 0 [])
        rw [List.drop_zero, ← hstr, List.take_left]
    · refine ⟨?_, by decide, by decide, ?_⟩
      · show 67 = (stripped (shares.getD 0 []) ++ shares.getD 1 []).length
        rw [List.length_append, hstr, h1]
      · show ((stripped (shares.getD 0 []) ++ shares.getD 1 []).drop 22).take 45 = shares.getD 1 []
        rw [← hstr, List.drop_left, ← h1, List.take_length]
    · refine ⟨?_, by decide, by decide, ?_⟩
      · show 45 = (shares.getD 2 []).length
        rw [h2]
      · show ((shares.getD 2 []).drop 0).take 45 = shares.getD 2 []
        rw [List.drop_zero, ← h2, List.take_length]
  have hstart : Start σ (fun _ : Unit => .krawczykCombine exEnv ssData 3 2) := by
    refine ⟨List.nodup_nil, fun p a h => (by cases h), fun _ s hs => ?_⟩
    have hs : s ∈ l.map (·.2.2) := hs
    obtain ⟨x, hx, rfl⟩ := List.mem_map.1 hs
    have := hheap x hx
    refine ⟨?_, this.2.1, this.2.2.1, fun p h => (by cases h)⟩
    unfold InBounds
    omega
  have hcap : ∀ s ∈ ssData.filterMap id, s.off + s.cap ≤ (σ.heap s.arr).length := by
    intro s hs
    rw [hfm] at hs
    obtain ⟨x, hx, rfl⟩ := List.mem_map.1 hs
    have := hheap x hx
    omega
  have hno : ∀ j : Unit, j ≠ () → Admissible ((fun _ : Unit => Call.krawczykCombine exEnv ssData 3 2) j) := fun j hj => absurd rfl hj
  have hno' : ∀ j : Unit, j ≠ () → ∀ s ∈ ((fun _ : Unit => Call.krawczykCombine exEnv ssData 3 2) j).inputs, ∀ k < s.len,
      (s.arr, s.off + k) ∉ exposed (ssData.filterMap id) := fun j hj => absurd rfl hj
  obtain ⟨c, hr, hd⟩ := reach_done (initial arch σ fun _ : Unit => Call.krawczykCombine exEnv ssData 3 2)
  have hfr := C52_frame arch σ _ hstart () exEnv ssData 3 2 rfl exEnv_contract hcap hno hno' c hr
  obtain ⟨r, hret⟩ := (hd ()).resolve_right (hfr.1 ()).1
  obtain ⟨t, rfl, ht⟩ := C66_overlap arch σ _ hstart () exEnv ssData 3 2 rfl exEnv_contract hcap hno hno'
    _ _ _ (List.Perm.refl _) _ _ _ shares hsplit l hfm
    (by rw [hn]; simp [l]) (show [0, 1, 2].Nodup by decide) (fun x hx => (hheap x hx).2.2.2) (show (2 : Int) ≤ ((2 : Nat) : Int) by decide)
    0 1 22 ⟨0, 0, 22, 67⟩ ⟨0, 22, 45, 45⟩ (by simp [l]) (by decide) (by rw [hlen 0 (by omega)]; decide) (by simp [l]) rfl rfl (by decide)
    (by simp [l]) (by simp [l]) c hr r hret
  obtain ⟨secret', h1, h2, h3⟩ := C66_wrong_bytes exEnv exEnv_contract _ 3 2 _ _ (List.Perm.refl _) _ _ _ shares hsplit 0 1 22
    (by decide) (by decide) 23 rfl
  rw [h1] at ht
  obtain rfl : secret' = _ := Outcome.ok.inj ht
  refine ⟨σ, c, t, rfl, rfl, hr, hret, by rw [h2]; simp, ?_⟩
  rw [h3 23 (by simp), if_pos (by decide)]
  obtain ⟨he, md, -, hk⟩ := ksplit_ok exEnv exEnv_contract (List.Perm.refl _) hsplit
  have hk : KSharing exEnv (List.replicate 46 7) (Shamir.randRead (fun i => BitVec.ofNat 8 (3 * i)) 0 (List.replicate 16 0)) 2 1
    md shares := hk
  have hkey : Shamir.randRead (fun i => BitVec.ofNat 8 (3 * i)) 0 (List.replicate 16 0) =
      (List.range 16).map fun i => BitVec.ofNat 8 (3 * i) := by decide
  rw [hkey] at hk
  have hp : ∀ i < 2, ∀ j < 23, (payload (shares.getD i [])).getD j 0 =
      7#8 ^^^ keyStream exEnv ((List.range 16).map fun i => BitVec.ofNat 8 (3 * i)) (i * 23 + j) := by
    intro i hi j hj
    have h1 := hk.shard_eq exEnv_contract (i := i) (by omega)
    have h2 : payload (shares.getD i []) = shardOf (shares.getD i []) := by
      unfold payload shardOf; congr 1
    have h3 : shares.getD i [] = kShare exEnv (List.replicate 46 7) ((List.range 16).map fun i => BitVec.ofNat 8 (3 * i)) 2 1 md i := by
      rw [hk.eq]; simp [show i < 3 by omega]
    rw [h2, h3, h1, codeword, List.getD_eq_getElem?_getD (l := _ ++ _), List.getElem?_append_left (by simp; omega), dataShards,
      List.getElem?_map, List.getElem?_range hi, Option.map_some, Option.getD_some, length_cipherOf,
      show perShard (List.replicate 46 (7 : Byte)).length 2 = 23 by simp [perShard], List.getD_eq_getElem?_getD, List.getElem?_map,
      List.getElem?_range hj, Option.map_some, Option.getD_some, padded, length_cipherOf, List.length_replicate,
      if_pos (by omega), cipherOf, xorKs_getD _ _ (by rw [List.length_replicate]; omega)]
    rw [List.getD_eq_getElem?_getD, List.getElem?_replicate, if_pos (by omega)]
    rfl
  rw [hp 1 (by omega) 0 (by omega), hp 0 (by omega) 22 (by omega)]
  decide

/-- Two shares of 45 bytes that overlap by 23 bytes, of any contents: nothing is stored into their array. -/
example (arch : Arch) (bytes : List Byte) (hb : bytes.length = 67) (c : Config Unit (Outcome (List Slice)))
    (hr : Reach (initial arch ⟨fun _ => bytes, 1, fun _ => [], 0⟩ fun _ => .krawczykCombine exEnv
      [some ⟨0, 0, 45, 67⟩, none, some ⟨0, 22, 45, 45⟩] 3 2) c) :
    (c.thread ()).prog ≠ .panic ∧ ∀ k : Nat, (c.shared.heap 0)[k]? = bytes[k]? := by
  have hin : ∀ s ∈ [some (⟨0, 0, 45, 67⟩ : Slice), none, some ⟨0, 22, 45, 45⟩].filterMap id,
      s = ⟨0, 0, 45, 67⟩ ∨ s = ⟨0, 22, 45, 45⟩ := by
    intro s hs; simpa using hs
  have hst : Start ⟨fun _ => bytes, 1, fun _ => [], 0⟩ (fun _ : Unit => .krawczykCombine exEnv
      [some ⟨0, 0, 45, 67⟩, none, some ⟨0, 22, 45, 45⟩] 3 2) := by
    refine ⟨List.nodup_nil, fun p a h => (by cases h), fun _ s hs => ?_⟩
    rcases hin s hs with rfl | rfl <;> exact ⟨by unfold InBounds; rw [hb]; decide, by decide, Nat.zero_lt_one, fun p h => (by cases h)⟩
  have key := C66_complete_shares arch _ _ hst () exEnv _ 3 2 rfl exEnv_contract
    (fun s hs => by rcases hin s hs with rfl | rfl <;> simp [hb])
    (fun s hs => by rcases hin s hs with rfl | rfl <;> simp) (fun j hj => absurd rfl hj) c hr
  exact ⟨(key.1 ()).1, fun k => key.2 0 k Nat.zero_lt_one (fun p h => by cases h)⟩

end Verif.Props
