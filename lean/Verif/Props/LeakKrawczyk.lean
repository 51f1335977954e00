import Verif.Proofs.LeakKrawczyk
import Verif.Props.Leak
import Verif.Props.LeakCalls
import Verif.Props.Krawczyk

/-! # C80: what time and caches show of the key of package krawczyk

The metadata that package krawczyk shares with package shamir are 20 bytes: 16 bytes of key, 4 bytes of length.  So few bytes never
fill the blocks of the routines for AVX2 and arm64: all products are looked up in tables, and C74 applies to the whole key.
`Verif/Model/LeakKrawczyk.lean` says what is observed. -/

namespace Verif.Props
open Verif Outcome Galois Spec Spec.Leak Proofs Verif.Leak Csprng Krawczyk

/-- C80: observing the calls does not change what they do. -/
theorem C80_same_results (env : Env) (fuel : Nat) (secret : List Byte) (parts threshold : Int) (keyRnd rnd : Nat → Byte) (perm : List Nat)
    (r : CSPRNG) (ps : Shamir.Pools) (l : List (Option (List Byte))) :
    (krawczykSplit env secret parts threshold keyRnd perm rnd ps).out = Krawczyk.split env secret parts threshold keyRnd perm rnd ps ∧
    (krawczykSplitWithRandomizer env fuel secret parts threshold r ps).out
      = Krawczyk.splitWithRandomizer env fuel secret parts threshold r ps ∧
    (krawczykCombine env l parts threshold).out = Krawczyk.combine env l parts threshold :=
  ⟨out_krawczykSplit .., out_krawczykSplitWithRandomizer .., out_krawczykCombine ..⟩

/-- C80: of the 20 bytes of metadata all are looked up, except on an amd64 processor with SSSE3 but without AVX2, where only the
length is. -/
theorem C80_lookups (arch : Arch) : lookupsFrom arch 20 = match arch with
    | .amd64 cpu => if cpu.ssse3 ∧ ¬ cpu.avx2 then 16 else 0
    | _ => 0 := by
  cases arch with
  | noasm => rfl
  | arm64 => rfl
  | amd64 cpu => cases cpu with | mk a b c => cases a <;> cases b <;> cases c <;> rfl

theorem randRead_key (rnd : Nat → Byte) : Shamir.randRead rnd 0 (List.replicate 16 0) = (List.range 16).map rnd := by
  simp [Shamir.randRead, List.range_succ]

theorem read_key (r : CSPRNG) : r.read (List.replicate 16 0) = (List.range 16).map r.ks := by
  simp [CSPRNG.read, List.range_succ]

theorem key_of_keyLenPair {f g : Nat → Byte} {ct ct' : List Byte} {j : Nat} (hj : j < 16)
    (h : (keyLenPair ((List.range 16).map f) ct)[j]? = (keyLenPair ((List.range 16).map g) ct')[j]?) : f j = g j := by
  unfold keyLenPair at h
  rw [List.getElem?_append_left (by simpa using hj), List.getElem?_append_left (by simpa using hj)] at h
  simpa [List.getElem?_range hj] using h

/-! ## Split -/

/-- C80: Split's control flow and its accesses to slices depend on the number of bytes of the secret, on parts, threshold and
tags only. -/
theorem C80_split_control_flow (env : Env) (s s' : List Byte) (hl : s.length = s'.length) (parts threshold : Int)
    (keyRnd keyRnd' : Nat → Byte) (perm : List Nat) (hperm : perm.Perm (List.range 255)) (rnd rnd' : Nat → Byte) (ps ps' : Shamir.Pools) :
    (krawczykSplit env s parts threshold keyRnd perm rnd ps).trace.map Ev.hide
      = (krawczykSplit env s' parts threshold keyRnd' perm rnd' ps').trace.map Ev.hide := by
  rw [krawczykSplit_tail, krawczykSplit_tail, randRead_key, randRead_key]
  rcases kTailT_cases env (secret := s) (parts := parts) (threshold := threshold) with h | h
  · rw [h s _ _ rfl (by simp), h s' _ _ hl.symm (by simp)]
  · rw [h s _ _ rfl (by simp), h s' _ _ hl.symm (by simp)]
    exact C74_split_control_flow env.arch _ _ (by rw [keyLenPair_length (by simp), keyLenPair_length (by simp)]) parts threshold perm hperm
      rnd rnd' ps ps'

/-- C80: what an accepted Split shows is exactly the random bytes used to share the looked up metadata. -/
theorem C80_split (env : Env) (s s' : List Byte) (parts threshold : Int) (keyRnd keyRnd' : Nat → Byte)
    (perm : List Nat) (hperm : perm.Perm (List.range 255)) (rnd rnd' : Nat → Byte) (ps ps' : Shamir.Pools)
    (h : kSplitError env.lib s parts threshold = none) (h' : kSplitError env.lib s' parts threshold = none) :
    (krawczykSplit env s parts threshold keyRnd perm rnd ps).trace
        = (krawczykSplit env s' parts threshold keyRnd' perm rnd' ps').trace ↔
      ∀ j, lookupsFrom env.arch 20 ≤ j → j < 20 → ∀ k, 1 ≤ k → k < threshold.toNat →
        rnd (threshold.toNat * j + k) = rnd' (threshold.toNat * j + k) := by
  rw [krawczykSplit_tail, krawczykSplit_tail, randRead_key, randRead_key, kTailT_accepted env (by simp) h, kTailT_accepted env (by simp) h',
    C74_split env.arch _ _ (by rw [keyLenPair_length (by simp), keyLenPair_length (by simp)]) parts threshold
      (keyLen_args (by simp) h) perm hperm rnd rnd' ps ps', keyLenPair_length (by simp)]

/-- C80: in particular it shows nothing about the secret and the key. -/
theorem C80_split_secret (env : Env) (s s' : List Byte) (hl : s.length = s'.length) (parts threshold : Int) (keyRnd keyRnd' : Nat → Byte)
    (perm : List Nat) (hperm : perm.Perm (List.range 255)) (rnd : Nat → Byte) (ps ps' : Shamir.Pools) :
    (krawczykSplit env s parts threshold keyRnd perm rnd ps).trace
      = (krawczykSplit env s' parts threshold keyRnd' perm rnd ps').trace := by
  rw [krawczykSplit_tail, krawczykSplit_tail, randRead_key, randRead_key]
  rcases kTailT_cases env (secret := s) (parts := parts) (threshold := threshold) with h | h
  · rw [h s _ _ rfl (by simp), h s' _ _ hl.symm (by simp)]
  · rw [h s _ _ rfl (by simp), h s' _ _ hl.symm (by simp)]
    exact C74_split_secret env.arch _ _ (by rw [keyLenPair_length (by simp), keyLenPair_length (by simp)]) parts threshold perm hperm
      rnd ps ps'

theorem share_take {env : Env} (hc : env.lib.Contract) {secret key : List Byte} {k m : Nat} {md shares : List (List Byte)}
    (hk : KSharing env secret key k m md shares) {i : Nat} {sh : List Byte} (hi : shares[i]? = some sh) :
    i < k + m ∧ md[i]? = some (sh.take 21) := by
  have hlt : i < k + m := by
    have := (List.getElem?_eq_some_iff.1 hi).1
    rw [hk.eq] at this
    simpa using this
  refine ⟨hlt, ?_⟩
  have hml := hk.md_length hlt
  rw [hk.eq, List.getElem?_map, List.getElem?_range hlt, Option.map_some, Option.some.injEq] at hi
  rw [← hi, hk.take_md hc hlt]
  have : i < md.length := by
    by_contra hc
    rw [List.getD_eq_getElem?_getD, List.getElem?_eq_none (by omega)] at hml
    simp at hml
  rw [List.getD_eq_getElem?_getD, List.getElem?_eq_getElem this, Option.getD_some]

/-- C80: except with SSSE3 alone, what Split shows and the first 16 bytes of one share determine the encryption key, whatever
the threshold. -/
theorem C80_split_key (env : Env) (hc : env.lib.Contract) (hn : lookupsFrom env.arch 20 = 0) (s s' : List Byte) (parts threshold : Int)
    (keyRnd keyRnd' : Nat → Byte) (perm : List Nat) (hperm : perm.Perm (List.range 255)) (rnd rnd' : Nat → Byte)
    (ps ps' qs qs' : Shamir.Pools) (out out' : List (List Byte))
    (htr : (krawczykSplit env s parts threshold keyRnd perm rnd ps).trace
      = (krawczykSplit env s' parts threshold keyRnd' perm rnd' ps').trace)
    (h : (krawczykSplit env s parts threshold keyRnd perm rnd ps).out = ok (out, qs))
    (h' : (krawczykSplit env s' parts threshold keyRnd' perm rnd' ps').out = ok (out', qs'))
    (i : Nat) (sh sh' : List Byte) (hi : out[i]? = some sh) (hi' : out'[i]? = some sh') (hb : sh.take 16 = sh'.take 16) :
    ∀ j < 16, keyRnd j = keyRnd' j := by
  rw [out_krawczykSplit] at h h'
  obtain ⟨he, md, hs, hk⟩ := ksplit_ok env hc hperm h
  obtain ⟨he', md', hs', hk'⟩ := ksplit_ok env hc hperm h'
  rw [krawczykSplit_tail, krawczykSplit_tail, randRead_key, randRead_key, kTailT_accepted env (by simp) he,
    kTailT_accepted env (by simp) he'] at htr
  rw [randRead_key] at hs hk hs' hk'
  obtain ⟨-, hm⟩ := share_take hc hk hi
  obtain ⟨-, hm'⟩ := share_take hc hk' hi'
  intro j hj
  refine key_of_keyLenPair hj (C74_split_leak env.arch _ _ (by rw [keyLenPair_length (by simp), keyLenPair_length (by simp)]) parts threshold
    perm hperm rnd rnd' ps ps' qs qs' md md' htr (by rw [out_split]; exact hs) (by rw [out_split]; exact hs') i j _ _ hm hm'
    (by rw [keyLenPair_length (by simp), hn]; omega) (by rw [keyLenPair_length (by simp)]; omega) ?_)
  have := congrArg (fun l => l[j]?) hb
  simp only [List.getElem?_take_of_lt hj] at this
  rw [List.getElem?_take_of_lt (by omega), List.getElem?_take_of_lt (by omega), this]

theorem piece_of_share {env : Env} (hc : env.lib.Contract) {s s' key : List Byte} (hl : s.length = s'.length) {parts threshold : Int}
    {md md' out out' : List (List Byte)} (he : kSplitError env.lib s parts threshold = none)
    (he' : kSplitError env.lib s' parts threshold = none)
    (hk : KSharing env s key threshold.toNat (parts - threshold).toNat md out)
    (hk' : KSharing env s' key threshold.toNat (parts - threshold).toNat md' out') {i : Nat} {sh : List Byte}
    (hi : out[i]? = some sh) (hi' : out'[i]? = some sh) (hit : (i : Int) < threshold) {j : Nat}
    (hj : j < ceilDiv s.length threshold.toNat) :
    s[i * ceilDiv s.length threshold.toNat + j]? = s'[i * ceilDiv s.length threshold.toNat + j]? := by
  by_cases hq : i * ceilDiv s.length threshold.toNat + j < s.length
  · have e := data_byte_of_sharing hc he hk hit hj hq
    have e' := data_byte_of_sharing hc he' hk' hit (hl ▸ hj) (hl ▸ hq)
    rw [← hl] at e'
    have g : out.getD i [] = out'.getD i [] := by rw [List.getD_eq_getElem?_getD, List.getD_eq_getElem?_getD, hi, hi']
    rw [g, e'] at e
    have e := congrArg (· ^^^ ofb (env.aes key) (List.replicate 16 0) (i * ceilDiv s.length threshold.toNat + j)) e
    simp only [BitVec.xor_assoc, BitVec.xor_self, BitVec.xor_zero] at e
    have hq' : i * ceilDiv s.length threshold.toNat + j < s'.length := hl ▸ hq
    rw [List.getElem?_eq_getElem hq, List.getElem?_eq_getElem hq', Option.some.injEq]
    rw [List.getD_eq_getElem?_getD, List.getD_eq_getElem?_getD, List.getElem?_eq_getElem hq, List.getElem?_eq_getElem hq'] at e
    exact e.symm
  · rw [List.getElem?_eq_none (by omega), List.getElem?_eq_none (by omega)]

/-- C80: and if this share is one of the first `threshold`, they determine its piece of the secret. -/
theorem C80_split_leak (env : Env) (hc : env.lib.Contract) (hn : lookupsFrom env.arch 20 = 0) (s s' : List Byte) (hl : s.length = s'.length)
    (parts threshold : Int) (keyRnd keyRnd' : Nat → Byte) (perm : List Nat) (hperm : perm.Perm (List.range 255))
    (rnd rnd' : Nat → Byte) (ps ps' qs qs' : Shamir.Pools) (out out' : List (List Byte))
    (htr : (krawczykSplit env s parts threshold keyRnd perm rnd ps).trace
      = (krawczykSplit env s' parts threshold keyRnd' perm rnd' ps').trace)
    (h : (krawczykSplit env s parts threshold keyRnd perm rnd ps).out = ok (out, qs))
    (h' : (krawczykSplit env s' parts threshold keyRnd' perm rnd' ps').out = ok (out', qs'))
    (i : Nat) (sh : List Byte) (hi : out[i]? = some sh) (hi' : out'[i]? = some sh) (hit : (i : Int) < threshold)
    (j : Nat) (hj : j < ceilDiv s.length threshold.toNat) :
    s[i * ceilDiv s.length threshold.toNat + j]? = s'[i * ceilDiv s.length threshold.toNat + j]? := by
  have hkey := C80_split_key env hc hn s s' parts threshold keyRnd keyRnd' perm hperm rnd rnd' ps ps' qs qs' out out' htr h h' i sh sh
    hi hi' rfl
  rw [out_krawczykSplit] at h h'
  obtain ⟨he, md, -, hk⟩ := ksplit_ok env hc hperm h
  obtain ⟨he', md', -, hk'⟩ := ksplit_ok env hc hperm h'
  rw [randRead_key] at hk hk'
  rw [← List.map_congr_left (l := List.range 16) (f := keyRnd) fun a ha => hkey a (List.mem_range.1 ha)] at hk'
  exact piece_of_share hc hl he he' hk hk' hi hi' hit hj

/-! ## SplitWithRandomizer -/

theorem leftOver_empty {p : Shamir.Pools} {n i : Nat} (hp : p.bPool.ch = []) (hi : i < n) : leftOver p n i = 0 := by
  have := staleBuf_empty hp n
  unfold staleBuf at this
  unfold leftOver
  rw [List.getD_eq_getElem?_getD, ← List.getElem?_take_of_lt hi, this]
  simp [hi]

/-- C80: SplitWithRandomizer's control flow and its accesses to slices depend on the number of bytes of the secret, on parts, threshold
and tags only. -/
theorem C80_splitWithRandomizer_control_flow (env : Env) (fuel : Nat) (s s' : List Byte) (hl : s.length = s'.length) (parts threshold : Int)
    (r r' : CSPRNG) (hx : r.getUniqueBytes fuel (BitVec.ofInt 8 parts) = r'.getUniqueBytes fuel (BitVec.ofInt 8 parts))
    (ps ps' : Shamir.Pools) :
    (krawczykSplitWithRandomizer env fuel s parts threshold r ps).trace.map Ev.hide
      = (krawczykSplitWithRandomizer env fuel s' parts threshold r' ps').trace.map Ev.hide := by
  rw [krawczykSplitR_tail, krawczykSplitR_tail, read_key, read_key]
  rcases kTailT_cases env (secret := s) (parts := parts) (threshold := threshold) with h | h
  · rw [h s _ _ rfl (by simp), h s' _ _ hl.symm (by simp)]
  · rw [h s _ _ rfl (by simp), h s' _ _ hl.symm (by simp)]
    exact C74_splitWithRandomizer_control_flow env.arch fuel _ _ (by rw [keyLenPair_length (by simp), keyLenPair_length (by simp)])
      parts threshold r r' hx ps ps'

/-- C80: on empty pools, what SplitWithRandomizer shows is exactly the key stream at the positions used for the looked up metadata. -/
theorem C80_splitWithRandomizer (env : Env) (fuel fuel' : Nat) (s s' : List Byte) (parts threshold : Int) (r r' : CSPRNG)
    (xs : List Byte) (hx : r.getUniqueBytes fuel (BitVec.ofInt 8 parts) = ok xs) (hx' : r'.getUniqueBytes fuel' (BitVec.ofInt 8 parts) = ok xs)
    (ps ps' : Shamir.Pools) (hp : ps.bPool.ch = []) (hp' : ps'.bPool.ch = [])
    (h : kSplitError env.lib s parts threshold = none) (h' : kSplitError env.lib s' parts threshold = none) :
    (krawczykSplitWithRandomizer env fuel s parts threshold r ps).trace
        = (krawczykSplitWithRandomizer env fuel' s' parts threshold r' ps').trace ↔
      ∀ j, lookupsFrom env.arch 20 ≤ j → j < 20 → ∀ k, 1 ≤ k → k < threshold.toNat →
        r.ks (threshold.toNat * j + k) = r'.ks (threshold.toNat * j + k) := by
  rw [krawczykSplitR_tail, krawczykSplitR_tail, read_key, read_key, kTailT_accepted env (by simp) h, kTailT_accepted env (by simp) h',
    C74_splitWithRandomizer env.arch fuel fuel' _ _ (by rw [keyLenPair_length (by simp), keyLenPair_length (by simp)]) parts threshold
      (keyLen_args (by simp) h) r r' xs hx hx' ps ps', keyLenPair_length (by simp)]
  refine forall_congr' fun j => forall_congr' fun _ => forall_congr' fun hj => forall_congr' fun k => forall_congr' fun _ =>
    forall_congr' fun hk => ?_
  have hlt : threshold.toNat * j + k < threshold.toNat * 20 := by
    calc threshold.toNat * j + k < threshold.toNat * j + threshold.toNat := by omega
      _ = threshold.toNat * (j + 1) := by ring
      _ ≤ threshold.toNat * 20 := Nat.mul_le_mul_left _ hj
  rw [leftOver_empty hp hlt, leftOver_empty hp' hlt]
  simp

/-- C80: since the key consists of the first 16 bytes of the same key stream, it shows itself, without any share: except with SSSE3
alone, what SplitWithRandomizer shows on empty pools determines all bytes of the encryption key whose position is not a multiple of the
threshold. -/
theorem C80_splitWithRandomizer_key (env : Env) (hn : lookupsFrom env.arch 20 = 0) (fuel fuel' : Nat) (s s' : List Byte)
    (parts threshold : Int) (r r' : CSPRNG) (xs : List Byte) (hx : r.getUniqueBytes fuel (BitVec.ofInt 8 parts) = ok xs)
    (hx' : r'.getUniqueBytes fuel' (BitVec.ofInt 8 parts) = ok xs) (ps ps' : Shamir.Pools) (hp : ps.bPool.ch = []) (hp' : ps'.bPool.ch = [])
    (h : kSplitError env.lib s parts threshold = none) (h' : kSplitError env.lib s' parts threshold = none)
    (htr : (krawczykSplitWithRandomizer env fuel s parts threshold r ps).trace
      = (krawczykSplitWithRandomizer env fuel' s' parts threshold r' ps').trace) :
    ∀ q : Nat, q < 16 → ¬ threshold ∣ (q : Int) → r.ks q = r'.ks q := by
  intro q hq hd
  have ⟨n1, _⟩ := kSplitError_none.1 h
  have ht : threshold = (threshold.toNat : Int) := by omega
  have hd' : q % threshold.toNat ≠ 0 := fun c => hd (by rw [ht]; exact Int.natCast_dvd_natCast.2 (Nat.dvd_of_mod_eq_zero c))
  have := (C80_splitWithRandomizer env fuel fuel' s s' parts threshold r r' xs hx hx' ps ps' hp hp' h h').1 htr (q / threshold.toNat)
    (by rw [hn]; exact Nat.zero_le _) (lt_of_le_of_lt (Nat.div_le_self _ _) (by omega)) (q % threshold.toNat) (by omega) (Nat.mod_lt _ (by omega))
  rwa [Nat.div_add_mod] at this

/-- C80: with the first 16 bytes of one share, what it shows determines the whole key. -/
theorem C80_splitWithRandomizer_share_key (env : Env) (hc : env.lib.Contract) (hn : lookupsFrom env.arch 20 = 0) (fuel fuel' : Nat)
    (s s' : List Byte) (parts threshold : Int) (r r' : CSPRNG)
    (hx : r.getUniqueBytes fuel (BitVec.ofInt 8 parts) = r'.getUniqueBytes fuel' (BitVec.ofInt 8 parts))
    (ps ps' qs qs' : Shamir.Pools) (out out' : List (List Byte))
    (htr : (krawczykSplitWithRandomizer env fuel s parts threshold r ps).trace
      = (krawczykSplitWithRandomizer env fuel' s' parts threshold r' ps').trace)
    (h : (krawczykSplitWithRandomizer env fuel s parts threshold r ps).out = ok (out, qs))
    (h' : (krawczykSplitWithRandomizer env fuel' s' parts threshold r' ps').out = ok (out', qs'))
    (i : Nat) (sh sh' : List Byte) (hi : out[i]? = some sh) (hi' : out'[i]? = some sh') (hb : sh.take 16 = sh'.take 16) :
    ∀ j < 16, r.ks j = r'.ks j := by
  rw [out_krawczykSplitWithRandomizer] at h h'
  obtain ⟨he, md, hs, hk⟩ := ksplitR_ok env hc h
  obtain ⟨he', md', hs', hk'⟩ := ksplitR_ok env hc h'
  rw [krawczykSplitR_tail, krawczykSplitR_tail, read_key, read_key, kTailT_accepted env (by simp) he,
    kTailT_accepted env (by simp) he'] at htr
  rw [read_key] at hs hk hs' hk'
  obtain ⟨-, hm⟩ := share_take hc hk hi
  obtain ⟨-, hm'⟩ := share_take hc hk' hi'
  intro j hj
  refine key_of_keyLenPair hj (C74_splitWithRandomizer_leak env.arch fuel fuel' _ _
    (by rw [keyLenPair_length (by simp), keyLenPair_length (by simp)]) parts threshold r r' hx ps ps' qs qs' md md' htr
    (by rw [out_splitWithRandomizer]; exact hs) (by rw [out_splitWithRandomizer]; exact hs') i j _ _ hm hm'
    (by rw [keyLenPair_length (by simp), hn]; omega) (by rw [keyLenPair_length (by simp)]; omega) ?_)
  have := congrArg (fun l => l[j]?) hb
  simp only [List.getElem?_take_of_lt hj] at this
  rw [List.getElem?_take_of_lt (by omega), List.getElem?_take_of_lt (by omega), this]

/-- C80: and if this share is one of the first `threshold`, its piece of the secret. -/
theorem C80_splitWithRandomizer_leak (env : Env) (hc : env.lib.Contract) (hn : lookupsFrom env.arch 20 = 0) (fuel fuel' : Nat)
    (s s' : List Byte) (hl : s.length = s'.length) (parts threshold : Int) (r r' : CSPRNG)
    (hx : r.getUniqueBytes fuel (BitVec.ofInt 8 parts) = r'.getUniqueBytes fuel' (BitVec.ofInt 8 parts))
    (ps ps' qs qs' : Shamir.Pools) (out out' : List (List Byte))
    (htr : (krawczykSplitWithRandomizer env fuel s parts threshold r ps).trace
      = (krawczykSplitWithRandomizer env fuel' s' parts threshold r' ps').trace)
    (h : (krawczykSplitWithRandomizer env fuel s parts threshold r ps).out = ok (out, qs))
    (h' : (krawczykSplitWithRandomizer env fuel' s' parts threshold r' ps').out = ok (out', qs'))
    (i : Nat) (sh : List Byte) (hi : out[i]? = some sh) (hi' : out'[i]? = some sh) (hit : (i : Int) < threshold)
    (j : Nat) (hj : j < ceilDiv s.length threshold.toNat) :
    s[i * ceilDiv s.length threshold.toNat + j]? = s'[i * ceilDiv s.length threshold.toNat + j]? := by
  have hkey := C80_splitWithRandomizer_share_key env hc hn fuel fuel' s s' parts threshold r r' hx ps ps' qs qs' out out' htr h h' i sh sh
    hi hi' rfl
  rw [out_krawczykSplitWithRandomizer] at h h'
  obtain ⟨he, md, -, hk⟩ := ksplitR_ok env hc h
  obtain ⟨he', md', -, hk'⟩ := ksplitR_ok env hc h'
  rw [read_key] at hk hk'
  rw [← List.map_congr_left (l := List.range 16) (f := r.ks) fun a ha => hkey a (List.mem_range.1 ha)] at hk'
  exact piece_of_share hc hl he he' hk hk' hi hi' hit hj

/-! ## Combine -/

/-- C80: which entries of the tables Combine reads shows the metadata of all shares it is given exactly, and so the encryption key: of two
accepted calls, with as many shares with the same tags. -/
theorem C80_combine (env env' : Env) (l l' : List (Option (List Byte))) (parts parts' threshold threshold' : Int) (s s' : List Byte)
    (h : (krawczykCombine env l parts threshold).out = ok s) (h' : (krawczykCombine env' l' parts' threshold').out = ok s')
    (ht : (l.filterMap id).map (fun d => d[20]?) = (l'.filterMap id).map (fun d => d[20]?)) :
    ((krawczykCombine env l parts threshold).trace = (krawczykCombine env' l' parts' threshold').trace ↔
      (l.filterMap id).map (·.take 21) = (l'.filterMap id).map (·.take 21)) ∧
    (krawczykCombine env l parts threshold).trace.map Ev.hide = (krawczykCombine env' l' parts' threshold').trace.map Ev.hide := by
  rw [out_krawczykCombine] at h h'
  obtain ⟨e, hm, md, hmd⟩ := krawczykCombine_trace h
  obtain ⟨e', hm', md', hmd'⟩ := krawczykCombine_trace h'
  rw [e, e']
  have hn : (l.filterMap id).length = (l'.filterMap id).length := by simpa using congrArg List.length ht
  have hlen : ((l.filterMap id).map (·.take 21)).map List.length = ((l'.filterMap id).map (·.take 21)).map List.length := by
    have all : ∀ {k : List (List Byte)}, (∀ m ∈ k, m.length = 21) → k.map List.length = List.replicate k.length 21 := by
      intro k hk
      have := List.eq_replicate_of_mem (l := k.map List.length) (a := 21)
        fun b hb => by obtain ⟨m, hm1, rfl⟩ := List.mem_map.1 hb; exact hk m hm1
      rwa [List.length_map] at this
    rw [all hm, all hm', List.length_map, List.length_map, hn]
  have htag : ∀ {k : List (List Byte)}, (∀ m ∈ k.map (·.take 21), m.length = 21) →
      (k.map (·.take 21)).map tag = (k.map (fun d => d[20]?)).map (·.getD 0) := by
    intro k hk
    rw [List.map_map, List.map_map]
    refine List.map_congr_left fun d hd => ?_
    have h21 := hk _ (List.mem_map_of_mem hd)
    simp only [Function.comp, tag]
    rw [h21, List.getD_eq_getElem?_getD, List.getElem?_take_of_lt (by omega)]
  have hT : ((l.filterMap id).map (·.take 21)).map tag = ((l'.filterMap id).map (·.take 21)).map tag := by
    rw [htag hm, htag hm', ht]
  exact ⟨C74_combine _ _ hlen hT md hmd, C74_combine_control_flow _ _ hlen hT⟩

/-! ## Concrete cases -/

/-- Two calls of SplitWithRandomizer on empty pools with the threshold 3 that show the same: the keys agree in bytes 1, 2, 4, 5 and so on. -/
example (r r' : CSPRNG) (hx : r.getUniqueBytes 1 (BitVec.ofInt 8 5) = ok [1, 2, 3, 4, 5])
    (hx' : r'.getUniqueBytes 1 (BitVec.ofInt 8 5) = ok [1, 2, 3, 4, 5])
    (htr : (krawczykSplitWithRandomizer exEnv 1 [1, 2, 3, 4, 5] 5 3 r (Shamir.Pools.init 4)).trace
      = (krawczykSplitWithRandomizer exEnv 1 [6, 7, 8, 9, 10] 5 3 r' (Shamir.Pools.init 4)).trace) :
    r.ks 1 = r'.ks 1 ∧ r.ks 2 = r'.ks 2 ∧ r.ks 14 = r'.ks 14 := by
  have he : ∀ {s : List Byte}, s.length = 5 → kSplitError exEnv.lib s 5 3 = none := fun hs =>
    kSplitError_none.2 ⟨by omega, by omega, by omega, by rintro rfl; simp at hs, by omega, by omega⟩
  have := C80_splitWithRandomizer_key exEnv rfl 1 1 _ _ 5 3 r r' _ hx hx' _ _ rfl rfl (he rfl) (he rfl) htr
  exact ⟨this 1 (by decide) (by decide), this 2 (by decide) (by decide), this 14 (by decide) (by decide)⟩

/-- There are such randomizers, and what they show differs if one of these bytes does. -/
example : (krawczykSplitWithRandomizer exEnv 1 [1, 2, 3, 4, 5] 5 3 exRand (Shamir.Pools.init 4)).trace
    ≠ (krawczykSplitWithRandomizer exEnv 1 [1, 2, 3, 4, 5] 5 3 ⟨fun i => if i = 7 then 0 else BitVec.ofNat 8 i⟩ (Shamir.Pools.init 4)).trace := by
  intro htr
  have he : kSplitError exEnv.lib [1, 2, 3, 4, 5] 5 3 = none :=
    kSplitError_none.2 ⟨by omega, by omega, by omega, by simp, by simp, by omega⟩
  have hx : exRand.getUniqueBytes 1 (BitVec.ofInt 8 5) = ok ((List.range 5).map exRand.ks) := getUnique_distinct (by decide) (by decide) 0
  have hx' : (⟨fun i => if i = 7 then 0 else BitVec.ofNat 8 i⟩ : CSPRNG).getUniqueBytes 1 (BitVec.ofInt 8 5)
      = ok ((List.range 5).map fun i => if i = 7 then 0 else BitVec.ofNat 8 i) := getUnique_distinct (by decide) (by decide) 0
  have e : ((List.range 5).map fun i => if i = 7 then (0 : Byte) else BitVec.ofNat 8 i) = (List.range 5).map exRand.ks := by decide
  rw [e] at hx'
  have := C80_splitWithRandomizer_key exEnv rfl 1 1 _ _ 5 3 _ _ _ hx hx' _ _ rfl rfl he he htr 7 (by decide) (by decide)
  exact absurd this (by decide)

/-- Two accepted runs of Split with the same random bytes for the metadata show the same, so the shares of runs with other keys differ
within their first 16 bytes. -/
example : ∃ out out' qs qs',
    (krawczykSplit exEnv [1, 2, 3, 4, 5] 5 3 (fun i => BitVec.ofNat 8 (3 * i)) (List.range 255) (fun i => BitVec.ofNat 8 (7 * i + 1))
      (Shamir.Pools.init 4)).out = ok (out, qs) ∧
    (krawczykSplit exEnv [1, 2, 3, 4, 5] 5 3 (fun i => BitVec.ofNat 8 (5 * i)) (List.range 255) (fun i => BitVec.ofNat 8 (7 * i + 1))
      (Shamir.Pools.init 4)).out = ok (out', qs') ∧
    ∀ sh sh', out[2]? = some sh → out'[2]? = some sh' → sh.take 16 ≠ sh'.take 16 := by
  have acc : ∀ kr : Nat → Byte, ∃ res, Krawczyk.split exEnv [1, 2, 3, 4, 5] 5 3 kr (List.range 255)
      (fun i => BitVec.ofNat 8 (7 * i + 1)) (Shamir.Pools.init 4) = ok res := fun kr =>
    (C37_split_accepts exEnv exEnv_contract [1, 2, 3, 4, 5] 5 3 kr (List.range 255)
      (List.Perm.refl _) (fun i => BitVec.ofNat 8 (7 * i + 1)) (Shamir.Pools.init 4)).2
      ⟨by omega, by omega, by omega, by simp, by simp, Or.inl (by omega)⟩
  obtain ⟨⟨out, qs⟩, h⟩ := acc (fun i => BitVec.ofNat 8 (3 * i))
  obtain ⟨⟨out', qs'⟩, h'⟩ := acc (fun i => BitVec.ofNat 8 (5 * i))
  rw [← out_krawczykSplit] at h h'
  refine ⟨out, out', qs, qs', h, h', fun sh sh' hi hi' hb => ?_⟩
  have := C80_split_key exEnv exEnv_contract rfl _ _ 5 3 _ _ _ (List.Perm.refl _) _ _ _ _ qs qs' out out'
    (C80_split_secret exEnv _ _ rfl 5 3 _ _ _ (List.Perm.refl _) _ _ _) h h' 2 sh sh' hi hi' hb 1 (by decide)
  exact absurd this (by decide)

end Verif.Props
