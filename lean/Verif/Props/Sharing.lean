import Verif.Proofs.Results

/-! # C08–C10, C12, C13, C21, C47: the Split functions

`perm` is the result of `rand.Perm(255)`, assumed to be a permutation of 0..254; `rnd` the bytes of
`rand.Read`, arbitrary; `ps` the content of the two buffer pools, arbitrary; `r` the key stream of the
randomizer, arbitrary.  `sub.Subperm shares`: `sub` is a selection of the shares, in any order. -/

namespace Verif.Props
open Verif Outcome Galois Spec Proofs Shamir Pool Csprng

/-- C08: any selection of at least `threshold` shares, in any order, combines to the secret. -/
theorem C08_split_combine (arch : Arch) (secret : List Byte) (parts threshold : Int) (perm : List Nat)
    (hperm : perm.Perm (List.range 255)) (rnd : Nat → Byte) (ps ps' : Pools) (shares sub : List (List Byte))
    (h : split arch secret parts threshold perm rnd ps = ok (shares, ps'))
    (hsub : sub.Subperm shares) (ht : threshold ≤ sub.length) : combine sub = ok secret := by
  obtain ⟨hv, hs, -⟩ := split_ok arch hperm h
  have := hv.2.2.1
  exact combine_sharing hs hsub (by omega) (by omega) hv.2.2.2

/-- C09: the same for `SplitWithRandomizer`, whenever it returns shares. -/
theorem C09_splitWithRandomizer_combine (arch : Arch) (fuel : Nat) (secret : List Byte) (parts threshold : Int)
    (r : CSPRNG) (ps ps' : Pools) (shares sub : List (List Byte))
    (h : splitWithRandomizer arch fuel secret parts threshold r ps = ok (shares, ps'))
    (hsub : sub.Subperm shares) (ht : threshold ≤ sub.length) : combine sub = ok secret := by
  obtain ⟨hv, hs, -⟩ := splitWithRandomizer_ok arch fuel h
  have := hv.2.2.1
  exact combine_sharing hs hsub (by omega) (by omega) hv.2.2.2

/-- C10: the same for `SplitWithRandomizerOld`. -/
theorem C10_splitWithRandomizerOld_combine (arch : Arch) (secret : List Byte) (parts threshold : Int)
    (r : CSPRNG) (ps ps' : Pools) (shares sub : List (List Byte))
    (h : splitWithRandomizerOld arch secret parts threshold r ps = ok (shares, ps'))
    (hsub : sub.Subperm shares) (ht : threshold ≤ sub.length) : combine sub = ok secret := by
  obtain ⟨hv, hs, -⟩ := splitOld_ok arch h
  have := hv.2.2.1
  exact combine_sharing hs hsub (by omega) (by omega) hv.2.2.2

/-- C10: the same for `SplitGeneric`. -/
theorem C10_splitGeneric_combine (secret : List Byte) (parts threshold : Int) (perm : List Nat)
    (hperm : perm.Perm (List.range 255)) (rnd : Nat → Byte) (shares sub : List (List Byte))
    (h : splitGeneric secret parts threshold perm rnd = ok shares)
    (hsub : sub.Subperm shares) (ht : threshold ≤ sub.length) : combine sub = ok secret := by
  obtain ⟨hv, hs, -⟩ := splitGeneric_ok hperm h
  have := hv.2.2.1
  exact combine_sharing hs hsub (by omega) (by omega) hv.2.2.2

/-- C12: format of the shares returned by `Split`: their number, their length, distinct non-zero tags,
which are the first entries of the permutation plus one. -/
theorem C12_split_format (arch : Arch) (secret : List Byte) (parts threshold : Int) (perm : List Nat)
    (hperm : perm.Perm (List.range 255)) (rnd : Nat → Byte) (ps ps' : Pools) (shares : List (List Byte))
    (h : split arch secret parts threshold perm rnd ps = ok (shares, ps')) :
    (shares.length : Int) = parts ∧ (∀ s ∈ shares, s.length = secret.length + 1) ∧
    (shares.map tag).Nodup ∧ (∀ s ∈ shares, tag s ≠ 0) ∧
    shares.map tag = (perm.take parts.toNat).map (fun v => BitVec.ofNat 8 v + 1#8) := by
  obtain ⟨hv, hs, hl, ht, h0⟩ := split_ok arch hperm h
  have ⟨v1, v2, v3, v4⟩ := hv
  exact ⟨by omega, fun s h => (hs.2.choose_spec.2 s h).1, hs.1, h0, ht⟩

theorem C12_splitGeneric_format (secret : List Byte) (parts threshold : Int) (perm : List Nat)
    (hperm : perm.Perm (List.range 255)) (rnd : Nat → Byte) (shares : List (List Byte))
    (h : splitGeneric secret parts threshold perm rnd = ok shares) :
    (shares.length : Int) = parts ∧ (∀ s ∈ shares, s.length = secret.length + 1) ∧
    (shares.map tag).Nodup ∧ (∀ s ∈ shares, tag s ≠ 0) ∧
    shares.map tag = (perm.take parts.toNat).map (fun v => BitVec.ofNat 8 v + 1#8) := by
  obtain ⟨hv, hs, hl, ht, h0⟩ := splitGeneric_ok hperm h
  have ⟨v1, v2, v3, v4⟩ := hv
  exact ⟨by omega, fun s h => (hs.2.choose_spec.2 s h).1, hs.1, h0, ht⟩

theorem C12_splitWithRandomizerOld_format (arch : Arch) (secret : List Byte) (parts threshold : Int)
    (r : CSPRNG) (ps ps' : Pools) (shares : List (List Byte))
    (h : splitWithRandomizerOld arch secret parts threshold r ps = ok (shares, ps')) :
    (shares.length : Int) = parts ∧ (∀ s ∈ shares, s.length = secret.length + 1) ∧
    (shares.map tag).Nodup ∧ (∀ s ∈ shares, tag s ≠ 0) := by
  obtain ⟨hv, hs, hl, h0⟩ := splitOld_ok arch h
  have ⟨v1, v2, v3, v4⟩ := hv
  exact ⟨by omega, fun s h => (hs.2.choose_spec.2 s h).1, hs.1, h0⟩

/-- C12 for `SplitWithRandomizer`: distinct tags, but 0 is possible (see C29). -/
theorem C12_splitWithRandomizer_format (arch : Arch) (fuel : Nat) (secret : List Byte) (parts threshold : Int)
    (r : CSPRNG) (ps ps' : Pools) (shares : List (List Byte))
    (h : splitWithRandomizer arch fuel secret parts threshold r ps = ok (shares, ps')) :
    (shares.length : Int) = parts ∧ (∀ s ∈ shares, s.length = secret.length + 1) ∧
    (shares.map tag).Nodup := by
  obtain ⟨hv, hs, hl, -⟩ := splitWithRandomizer_ok arch fuel h
  have ⟨v1, v2, v3, v4⟩ := hv
  exact ⟨by omega, fun s h => (hs.2.choose_spec.2 s h).1, hs.1⟩

/-- C13: `Split` returns the error of the first violated condition, and otherwise succeeds. -/
theorem C13_split_validates (arch : Arch) (secret : List Byte) (parts threshold : Int) (perm : List Nat)
    (hperm : perm.Perm (List.range 255)) (rnd : Nat → Byte) (ps : Pools) :
    match argError secret parts threshold with
    | some e => split arch secret parts threshold perm rnd ps = err e
    | none => ∃ res, split arch secret parts threshold perm rnd ps = ok res := by
  cases he : argError secret parts threshold with
  | some e => exact split_invalid arch perm rnd ps he
  | none =>
    have hv := argError_none.1 he
    have := hv.2.1
    have := (permBytes_nodup hperm).2.1
    obtain ⟨pp, e⟩ := split_valid arch perm rnd ps hv (by omega)
    exact ⟨_, e⟩

theorem C13_splitGeneric_validates (secret : List Byte) (parts threshold : Int) (perm : List Nat)
    (hperm : perm.Perm (List.range 255)) (rnd : Nat → Byte) :
    match argError secret parts threshold with
    | some e => splitGeneric secret parts threshold perm rnd = err e
    | none => ∃ res, splitGeneric secret parts threshold perm rnd = ok res := by
  cases he : argError secret parts threshold with
  | some e => exact splitGeneric_invalid perm rnd he
  | none =>
    have hv := argError_none.1 he
    have := hv.2.1
    have := (permBytes_nodup hperm).2.1
    exact ⟨_, splitGeneric_valid perm rnd hv (by omega)⟩

/-- C13: the randomizer variants check the same conditions and on valid arguments never return an error
(they return shares, panic when the tags cannot be chosen, or do not return; see C27, C28). -/
theorem C13_splitWithRandomizer_validates (arch : Arch) (fuel : Nat) (secret : List Byte) (parts threshold : Int)
    (r : CSPRNG) (ps : Pools) :
    match argError secret parts threshold with
    | some e => splitWithRandomizer arch fuel secret parts threshold r ps = err e
    | none => (∃ res, splitWithRandomizer arch fuel secret parts threshold r ps = ok res) ∨
        (splitWithRandomizer arch fuel secret parts threshold r ps = panic ∧ 20 ≤ parts ∧ r.ks 0 = 254#8) ∨
        (splitWithRandomizer arch fuel secret parts threshold r ps = spin ∧ parts < 20) := by
  cases he : argError secret parts threshold with
  | some e => exact splitWithRandomizer_invalid arch fuel r ps he
  | none =>
    have hv := argError_none.1 he
    have ⟨v1, v2, v3, v4⟩ := hv
    have hn := ofInt_toNat (parts := parts) (by omega) v2
    rcases Nat.lt_or_ge (BitVec.ofInt 8 parts).toNat 20 with h20 | h20
    · have hns : ∀ fuel, (∃ xs, r.getUniqueBytes fuel (BitVec.ofInt 8 parts) = ok xs) ∨
          r.getUniqueBytes fuel (BitVec.ofInt 8 parts) = spin := getUnique_small_cases h20
      rcases hns fuel with ⟨xs, hx⟩ | hx
      · obtain ⟨pp, e⟩ := splitWithRandomizer_valid arch fuel r ps hv xs hx
          (by have := (getUnique_ok_spec hx).1; omega)
        exact .inl ⟨_, e⟩
      · refine .inr (.inr ⟨?_, by omega⟩)
        rw [splitWithRandomizer_noTags arch fuel r ps hv hx (by simp)]; rfl
    · by_cases hk : r.ks 0 = 254#8
      · refine .inr (.inl ⟨?_, by omega, hk⟩)
        rw [splitWithRandomizer_noTags arch fuel r ps hv (getUnique_big_panic h20 hk fuel) (by simp)]; rfl
      · obtain ⟨xs, hx, hl, -⟩ := getUnique_big_ok h20 hk fuel
        obtain ⟨pp, e⟩ := splitWithRandomizer_valid arch fuel r ps hv xs hx (by omega)
        exact .inl ⟨_, e⟩

theorem C13_splitWithRandomizerOld_validates (arch : Arch) (secret : List Byte) (parts threshold : Int)
    (r : CSPRNG) (ps : Pools) :
    match argError secret parts threshold with
    | some e => splitWithRandomizerOld arch secret parts threshold r ps = err e
    | none => (∃ res, splitWithRandomizerOld arch secret parts threshold r ps = ok res ∧ r.ks 0 ≠ 254#8) ∨
        (splitWithRandomizerOld arch secret parts threshold r ps = panic ∧ r.ks 0 = 254#8) := by
  cases he : argError secret parts threshold with
  | some e => exact splitOld_invalid arch r ps he
  | none =>
    have hv := argError_none.1 he
    have ⟨v1, v2, v3, v4⟩ := hv
    rcases perm_cases r 255#8 with ⟨h1, -⟩ | ⟨⟨l, h1, h2⟩, -⟩
    · refine .inr ⟨?_, (perm255_panic_iff r).1 h1⟩
      rw [splitOld_noTags arch r ps hv h1 (by simp)]; rfl
    · have : l.length = 255 := by simpa using h2.length_eq
      obtain ⟨pp, e⟩ := splitOld_valid arch r ps hv l h1 (by omega)
      refine .inl ⟨_, e, fun hk => ?_⟩
      rw [(perm255_panic_iff r).2 hk] at h1; cases h1

/-- C21 and C47: the shares returned by `Split` depend neither on the content of the pools (hence on no
earlier call) nor on the architecture. -/
theorem C21_C47_split_deterministic (arch arch' : Arch) (secret : List Byte) (parts threshold : Int)
    (perm : List Nat) (hperm : perm.Perm (List.range 255)) (rnd : Nat → Byte) (ps ps' : Pools) :
    (Prod.fst <$> split arch secret parts threshold perm rnd ps)
      = (Prod.fst <$> split arch' secret parts threshold perm rnd ps') := by
  cases he : argError secret parts threshold with
  | some e => rw [split_invalid arch perm rnd ps he, split_invalid arch' perm rnd ps' he]
  | none =>
    have hv := argError_none.1 he
    have := hv.2.1
    have := (permBytes_nodup hperm).2.1
    obtain ⟨pp, e⟩ := split_valid arch perm rnd ps hv (by omega)
    obtain ⟨pp', e'⟩ := split_valid arch' perm rnd ps' hv (by omega)
    rw [e, e']; rfl

/-- C21 and C47 for `SplitWithRandomizerOld`. -/
theorem C21_C47_splitOld_deterministic (arch arch' : Arch) (secret : List Byte) (parts threshold : Int)
    (r : CSPRNG) (ps ps' : Pools) :
    (Prod.fst <$> splitWithRandomizerOld arch secret parts threshold r ps)
      = (Prod.fst <$> splitWithRandomizerOld arch' secret parts threshold r ps') := by
  cases he : argError secret parts threshold with
  | some e => rw [splitOld_invalid arch r ps he, splitOld_invalid arch' r ps' he]
  | none =>
    have hv := argError_none.1 he
    have ⟨v1, v2, v3, v4⟩ := hv
    rcases perm_cases r 255#8 with ⟨h1, -⟩ | ⟨⟨l, h1, h2⟩, -⟩
    · rw [splitOld_noTags arch r ps hv h1 (by simp), splitOld_noTags arch' r ps' hv h1 (by simp)]
    · have : l.length = 255 := by simpa using h2.length_eq
      obtain ⟨pp, e⟩ := splitOld_valid arch r ps hv l h1 (by omega)
      obtain ⟨pp', e'⟩ := splitOld_valid arch' r ps' hv l h1 (by omega)
      rw [e, e']; rfl

/-- C47 for `SplitWithRandomizer`: the shares and the recycled buffers it leaves for later calls are the same
on every architecture (they do depend on the recycled buffer it receives, see C30). -/
theorem C47_splitWithRandomizer_arch (arch arch' : Arch) (fuel : Nat) (secret : List Byte)
    (parts threshold : Int) (r : CSPRNG) (ps ps' : Pools) (hb : ps.bPool = ps'.bPool) :
    ((fun x => (x.1, x.2.bPool)) <$> splitWithRandomizer arch fuel secret parts threshold r ps)
      = ((fun x => (x.1, x.2.bPool)) <$> splitWithRandomizer arch' fuel secret parts threshold r ps') := by
  cases he : argError secret parts threshold with
  | some e => rw [splitWithRandomizer_invalid arch fuel r ps he, splitWithRandomizer_invalid arch' fuel r ps' he]
  | none =>
    have hv := argError_none.1 he
    have ⟨v1, v2, v3, v4⟩ := hv
    have hn := ofInt_toNat (parts := parts) (by omega) v2
    cases hx : r.getUniqueBytes fuel (BitVec.ofInt 8 parts) with
    | ok xs =>
      have := (getUnique_ok_spec hx).1
      obtain ⟨pp, e⟩ := splitWithRandomizer_valid arch fuel r ps hv xs hx (by omega)
      obtain ⟨pp', e'⟩ := splitWithRandomizer_valid arch' fuel r ps' hv xs hx (by omega)
      rw [e, e', hb]; rfl
    | _ =>
      rw [splitWithRandomizer_noTags arch fuel r ps hv hx (by simp),
        splitWithRandomizer_noTags arch' fuel r ps' hv hx (by simp)]

/-! Non-vacuity: the hypotheses are met by concrete calls. -/

example : (splitGeneric [7, 9] 3 2 (List.range 255) (fun i => BitVec.ofNat 8 (5 * i + 3))
    >>= fun shares => combine [shares.getD 2 [], shares.getD 0 []]) = ok [7, 9] := by
  have := C13_splitGeneric_validates [7, 9] 3 2 (List.range 255) (List.Perm.refl _)
    (fun i => BitVec.ofNat 8 (5 * i + 3))
  rw [show argError [7, 9] 3 2 = none by decide] at this
  obtain ⟨shares, h⟩ := this
  rw [h, ok_bind]
  have hl := (C12_splitGeneric_format _ _ _ _ (List.Perm.refl _) _ _ h).1
  refine C10_splitGeneric_combine _ _ _ _ (List.Perm.refl _) _ _ _ h ?_ (by simp)
  match shares, hl with
  | [a, b, c], _ =>
    refine (List.Perm.subperm (List.Perm.swap a c [])).trans ?_
    exact List.Sublist.subperm (by simp)

example : argError [] 5 3 = some .emptySecret ∧ argError [1] 2 3 = some .partsLtThreshold ∧
    argError [1] 256 3 = some .partsExceed255 ∧ argError [1] 3 1 = some .thresholdLt2 := by decide

/-- C08, C12: the shares of `[1, 2, 3]` for 5 parts with threshold 3; numbers 4, 0 and 2 combine to the secret. -/
example (arch : Arch) : ∃ shares ps', split arch [1, 2, 3] 5 3 (List.range 255) (fun i => BitVec.ofNat 8 (7 * i + 1))
    (Pools.init 4) = ok (shares, ps') ∧ shares.length = 5 ∧ shares.map tag = [1, 2, 3, 4, 5] ∧
    combine [shares.getD 4 [], shares.getD 0 [], shares.getD 2 []] = ok [1, 2, 3] := by
  have := C13_split_validates arch [1, 2, 3] 5 3 (List.range 255) (List.Perm.refl _)
    (fun i => BitVec.ofNat 8 (7 * i + 1)) (Pools.init 4)
  rw [show argError [1, 2, 3] 5 3 = none by decide] at this
  obtain ⟨⟨shares, ps'⟩, h⟩ := this
  have hf := C12_split_format arch [1, 2, 3] 5 3 (List.range 255) (List.Perm.refl _) _ _ _ _ h
  refine ⟨shares, ps', h, by omega, hf.2.2.2.2.trans (by decide), ?_⟩
  refine C08_split_combine arch [1, 2, 3] 5 3 (List.range 255) (List.Perm.refl _) _ _ _ _ _ h ?_ (by simp)
  match shares, hf.1 with
  | [a, b, c, d, e], _ =>
    refine (List.Perm.subperm ?_).trans (List.Sublist.subperm (l₁ := [a, c, e]) (by simp))
    show [e, a, c].Perm [a, c, e]
    exact (List.perm_append_comm (l₁ := [e]) (l₂ := [a, c]))

/-- C09, C12: the same with `SplitWithRandomizer`, 25 parts. -/
example (arch : Arch) : ∃ shares ps', splitWithRandomizer arch 9 [1, 2, 3] 25 3 ⟨fun i => BitVec.ofNat 8 i⟩ (Pools.init 4)
    = ok (shares, ps') ∧ shares.length = 25 ∧ (shares.map tag).Nodup ∧ combine (shares.drop 20) = ok [1, 2, 3] := by
  have := C13_splitWithRandomizer_validates arch 9 [1, 2, 3] 25 3 ⟨fun i => BitVec.ofNat 8 i⟩ (Pools.init 4)
  rw [show argError [1, 2, 3] 25 3 = none by decide] at this
  rcases this with ⟨⟨shares, ps'⟩, h⟩ | ⟨-, -, h⟩ | ⟨-, h⟩
  · have hf := C12_splitWithRandomizer_format arch 9 [1, 2, 3] 25 3 _ _ _ _ h
    refine ⟨shares, ps', h, by omega, hf.2.2, ?_⟩
    exact C09_splitWithRandomizer_combine arch 9 [1, 2, 3] 25 3 _ _ _ _ _ h (List.drop_sublist _ _).subperm
      (by simp; omega)
  · exact absurd h (by decide)
  · omega

/-- C10, C12: the same with `SplitWithRandomizerOld`. -/
example (arch : Arch) : ∃ shares ps', splitWithRandomizerOld arch [1, 2, 3] 5 3 ⟨fun i => BitVec.ofNat 8 i⟩ (Pools.init 4)
    = ok (shares, ps') ∧ shares.length = 5 ∧ (∀ s ∈ shares, tag s ≠ 0) ∧ combine (shares.drop 2) = ok [1, 2, 3] := by
  have := C13_splitWithRandomizerOld_validates arch [1, 2, 3] 5 3 ⟨fun i => BitVec.ofNat 8 i⟩ (Pools.init 4)
  rw [show argError [1, 2, 3] 5 3 = none by decide] at this
  rcases this with ⟨⟨shares, ps'⟩, h, -⟩ | ⟨-, h⟩
  · have hf := C12_splitWithRandomizerOld_format arch [1, 2, 3] 5 3 _ _ _ _ h
    refine ⟨shares, ps', h, by omega, hf.2.2.2, ?_⟩
    exact C10_splitWithRandomizerOld_combine arch [1, 2, 3] 5 3 _ _ _ _ _ h (List.drop_sublist _ _).subperm
      (by simp; omega)
  · exact absurd h (by decide)

/-- C21, C47: empty pools and pools with a used buffer, pure Go and arm64. -/
example : (Prod.fst <$> split .noasm [1, 2, 3] 5 3 (List.range 255) (fun i => BitVec.ofNat 8 (7 * i + 1)) (Pools.init 4))
    = (Prod.fst <$> split .arm64 [1, 2, 3] 5 3 (List.range 255) (fun i => BitVec.ofNat 8 (7 * i + 1))
        ⟨⟨[⟨[9, 9, 9, 9, 9, 9, 9, 9, 9]⟩], 4⟩, ⟨[⟨[8, 8]⟩], 4⟩⟩) :=
  C21_C47_split_deterministic _ _ _ _ _ _ (List.Perm.refl _) _ _ _

/-- C47: the same shares with and without vector instructions. -/
example (r : CSPRNG) (cpu : Cpu) :
    ((fun x => (x.1, x.2.bPool)) <$> splitWithRandomizer .noasm 9 [1, 2, 3] 25 3 r (Pools.init 4))
      = ((fun x => (x.1, x.2.bPool)) <$> splitWithRandomizer (.amd64 cpu) 9 [1, 2, 3] 25 3 r (Pools.init 4)) :=
  C47_splitWithRandomizer_arch .noasm (.amd64 cpu) 9 [1, 2, 3] 25 3 r _ _ rfl

end Verif.Props
