import Verif.Proofs.KrawczykResults
import Verif.Proofs.ReedSolomon
import Verif.Props.Sharing
import Verif.Props.Random
import Verif.Model.Worker

/-! # C35–C46: the krawczyk and worker packages

`env` is the machine: its CPU, its AES block function (arbitrary), the Reed-Solomon package (any implementation that
satisfies the documented contract `RSLib.Contract`), and the way `io.Copy` cuts streams (arbitrary).  A list of shares
given to Combine is a `List (Option (List Byte))`, nil entries being `none`; `ssData.filterMap id` are the entries that
are not nil. -/

namespace Verif.Props
open Verif Outcome Galois Spec Proofs Csprng RS Krawczyk

/-! ## C35 -/

theorem combine_of_sharing {env env' : Env} (hc : env.lib.Contract) (ha : env'.aes = env.aes)
    (hm : env'.lib.missing = env.lib.missing) (hn : env'.lib.allowsNoParity = env.lib.allowsNoParity)
    {secret key : List Byte} {parts threshold : Int} {md shares : List (List Byte)}
    (he : kSplitError env.lib secret parts threshold = none)
    (hk : KSharing env secret key threshold.toNat (parts - threshold).toNat md shares)
    {ssData : List (Option (List Byte))}
    (hsub : (ssData.filterMap id).Subperm shares) (ht : threshold ≤ (ssData.filterMap id).length) :
    Krawczyk.combine env' ssData parts threshold = ok secret := by
  have ⟨n1, n2, n3, n4, n5, n6⟩ := kSplitError_none.1 he
  rw [hk.eq] at hsub
  obtain ⟨is, h1, h2, h3⟩ := subperm_map_range hsub
  have hl : is.length = (ssData.filterMap id).length := by rw [h3]; simp
  have := hk.combine_ok hc h2 h1 (by omega) h3
  rw [show ((threshold.toNat + (parts - threshold).toNat : Nat) : Int) = parts by omega,
    show ((threshold.toNat : Nat) : Int) = threshold by omega] at this
  rw [kcombine_env ha hm hn, this]

/-- C35: any selection of at least `threshold` shares returned by krawczyk.Split, in any order, with nil entries in
between, combines to the secret, also on another machine. -/
theorem C35_split_combine (env env' : Env) (hc : env.lib.Contract) (ha : env'.aes = env.aes)
    (hm : env'.lib.missing = env.lib.missing) (hn : env'.lib.allowsNoParity = env.lib.allowsNoParity)
    (secret : List Byte) (parts threshold : Int) (keyRnd : Nat → Byte)
    (perm : List Nat) (hperm : perm.Perm (List.range 255)) (rnd : Nat → Byte) (ps ps' : Shamir.Pools)
    (shares : List (List Byte)) (ssData : List (Option (List Byte)))
    (h : Krawczyk.split env secret parts threshold keyRnd perm rnd ps = ok (shares, ps'))
    (hsub : (ssData.filterMap id).Subperm shares) (ht : threshold ≤ (ssData.filterMap id).length) :
    Krawczyk.combine env' ssData parts threshold = ok secret := by
  obtain ⟨he, md, -, hk⟩ := ksplit_ok env hc hperm h
  exact combine_of_sharing hc ha hm hn he hk hsub ht

theorem C35_splitWithRandomizer_combine (env env' : Env) (hc : env.lib.Contract) (ha : env'.aes = env.aes)
    (hm : env'.lib.missing = env.lib.missing) (hn : env'.lib.allowsNoParity = env.lib.allowsNoParity)
    (fuel : Nat) (secret : List Byte) (parts threshold : Int)
    (r : CSPRNG) (ps ps' : Shamir.Pools) (shares : List (List Byte)) (ssData : List (Option (List Byte)))
    (h : Krawczyk.splitWithRandomizer env fuel secret parts threshold r ps = ok (shares, ps'))
    (hsub : (ssData.filterMap id).Subperm shares) (ht : threshold ≤ (ssData.filterMap id).length) :
    Krawczyk.combine env' ssData parts threshold = ok secret := by
  obtain ⟨he, md, -, hk⟩ := ksplitR_ok env hc h
  exact combine_of_sharing hc ha hm hn he hk hsub ht

/-! ## C36 -/

theorem format_of_sharing {env : Env} (hc : env.lib.Contract) {secret key : List Byte} {parts threshold : Int}
    {md shares : List (List Byte)} (he : kSplitError env.lib secret parts threshold = none)
    (hk : KSharing env secret key threshold.toNat (parts - threshold).toNat md shares) :
    (shares.length : Int) = parts ∧
    ∀ i : Nat, (i : Int) < parts → (shares.getD i []).length = ceilDiv secret.length threshold.toNat + 22 ∧
      partNo (shares.getD i []) = i := by
  have ⟨n1, n2, n3, n4, n5, n6⟩ := kSplitError_none.1 he
  constructor
  · rw [hk.eq]; simp; omega
  · intro i hi
    have hi' : i < threshold.toNat + (parts - threshold).toNat := by omega
    have : shares.getD i [] = kShare env secret key threshold.toNat (parts - threshold).toNat md i := by
      rw [hk.eq]; simp [hi']
    rw [this, hk.share_length hc hi']
    exact ⟨rfl, by rw [partNo_eq, hk.partId_toNat hc hi']⟩

/-- C36: number, length and index of the shares. -/
theorem C36_split_format (env : Env) (hc : env.lib.Contract) (secret : List Byte) (parts threshold : Int)
    (keyRnd : Nat → Byte) (perm : List Nat) (hperm : perm.Perm (List.range 255)) (rnd : Nat → Byte)
    (ps ps' : Shamir.Pools) (shares : List (List Byte))
    (h : Krawczyk.split env secret parts threshold keyRnd perm rnd ps = ok (shares, ps')) :
    (shares.length : Int) = parts ∧
    ∀ i : Nat, (i : Int) < parts → (shares.getD i []).length = ceilDiv secret.length threshold.toNat + 22 ∧
      partNo (shares.getD i []) = i := by
  obtain ⟨he, md, -, hk⟩ := ksplit_ok env hc hperm h
  exact format_of_sharing hc he hk

theorem C36_splitWithRandomizer_format (env : Env) (hc : env.lib.Contract) (fuel : Nat) (secret : List Byte)
    (parts threshold : Int) (r : CSPRNG) (ps ps' : Shamir.Pools) (shares : List (List Byte))
    (h : Krawczyk.splitWithRandomizer env fuel secret parts threshold r ps = ok (shares, ps')) :
    (shares.length : Int) = parts ∧
    ∀ i : Nat, (i : Int) < parts → (shares.getD i []).length = ceilDiv secret.length threshold.toNat + 22 ∧
      partNo (shares.getD i []) = i := by
  obtain ⟨he, md, -, hk⟩ := ksplitR_ok env hc h
  exact format_of_sharing hc he hk

/-! ## C37 -/

/-- C37: krawczyk.Split returns the error of the first violated condition, and otherwise succeeds. -/
theorem C37_split_validates (env : Env) (hc : env.lib.Contract) (secret : List Byte) (parts threshold : Int)
    (keyRnd : Nat → Byte) (perm : List Nat) (hperm : perm.Perm (List.range 255)) (rnd : Nat → Byte)
    (ps : Shamir.Pools) :
    match kSplitError env.lib secret parts threshold with
    | some e => Krawczyk.split env secret parts threshold keyRnd perm rnd ps = err e
    | none => ∃ res, Krawczyk.split env secret parts threshold keyRnd perm rnd ps = ok res := by
  have hkey : (Shamir.randRead keyRnd 0 (List.replicate 16 0)).length = 16 := by simp [randRead_length]
  cases he : kSplitError env.lib secret parts threshold with
  | some e =>
    simp only []
    rw [split_tail]
    exact kTail_err env hkey
      (fun s _ h1 h2 h3 => split_invalid env.arch perm rnd ps (argError_one h1 h2 h3)) he
  | none =>
    simp only []
    have := C13_split_validates env.arch (keyLenPair (Shamir.randRead keyRnd 0 (List.replicate 16 0))
      (cipherOf env secret (Shamir.randRead keyRnd 0 (List.replicate 16 0)))) parts threshold perm hperm rnd ps
    rw [argError_none.2 (keyLen_args hkey he)] at this
    obtain ⟨⟨md, ps'⟩, hs⟩ := this
    have ⟨_, g2, g1, _⟩ := split_ok env.arch hperm hs
    rw [split_tail]
    obtain ⟨shares, hsh, -⟩ := kTail_ok env hc hkey he (sh := fun s => Shamir.split env.arch s parts threshold perm rnd ps)
      hs g1 g2
    exact ⟨_, hsh⟩

/-- C37: which arguments are accepted. -/
theorem C37_split_accepts (env : Env) (hc : env.lib.Contract) (secret : List Byte) (parts threshold : Int)
    (keyRnd : Nat → Byte) (perm : List Nat) (hperm : perm.Perm (List.range 255)) (rnd : Nat → Byte)
    (ps : Shamir.Pools) :
    (∃ res, Krawczyk.split env secret parts threshold keyRnd perm rnd ps = ok res) ↔
      2 ≤ threshold ∧ threshold ≤ parts ∧ parts ≤ 255 ∧ secret ≠ [] ∧ secret.length ≤ 2 ^ 32 - 1 ∧
        (threshold < parts ∨ env.lib.allowsNoParity = true) := by
  have h := C37_split_validates env hc secret parts threshold keyRnd perm hperm rnd ps
  have hn := kSplitError_none (lib := env.lib) (secret := secret) (parts := parts) (threshold := threshold)
  cases he : kSplitError env.lib secret parts threshold with
  | some e =>
    rw [he] at h hn
    simp only [] at h
    rw [h]
    constructor
    · rintro ⟨_, c⟩; cases c
    · rintro ⟨h1, h2, h3, h4, h5, h6⟩
      have := hn.2 ⟨h1, h2, h3, h4, by omega, by
        rintro ⟨c1, c2⟩
        rcases h6 with h6 | h6
        · omega
        · rw [h6] at c2; cases c2⟩
      cases this
  | none =>
    rw [he] at h hn
    have ⟨n1, n2, n3, n4, n5, n6⟩ := hn.1 rfl
    refine iff_of_true h ⟨n1, n2, n3, n4, by omega, ?_⟩
    by_cases e : parts = threshold
    · right
      cases hb : env.lib.allowsNoParity
      · exact absurd ⟨e, hb⟩ n6
      · rfl
    · left; omega

/-- C37 for SplitWithRandomizer: the same errors, and no error for acceptable arguments: it returns shares, or panics
or does not return when the tags cannot be chosen. -/
theorem C37_splitWithRandomizer_validates (env : Env) (hc : env.lib.Contract) (fuel : Nat) (secret : List Byte)
    (parts threshold : Int) (r : CSPRNG) (ps : Shamir.Pools) :
    match kSplitError env.lib secret parts threshold with
    | some e => Krawczyk.splitWithRandomizer env fuel secret parts threshold r ps = err e
    | none => (∃ res, Krawczyk.splitWithRandomizer env fuel secret parts threshold r ps = ok res) ∨
        (Krawczyk.splitWithRandomizer env fuel secret parts threshold r ps = panic ∧ 20 ≤ parts ∧ r.ks 0 = 254#8) ∨
        (Krawczyk.splitWithRandomizer env fuel secret parts threshold r ps = spin ∧ parts < 20) := by
  have hkey : (r.read (List.replicate 16 0)).length = 16 := by simp [read_length]
  cases he : kSplitError env.lib secret parts threshold with
  | some e =>
    simp only []
    rw [splitR_tail]
    exact kTail_err env hkey
      (fun s _ h1 h2 h3 => splitWithRandomizer_invalid env.arch fuel r ps (argError_one h1 h2 h3)) he
  | none =>
    simp only []
    rw [splitR_tail]
    have := C13_splitWithRandomizer_validates env.arch fuel (keyLenPair (r.read (List.replicate 16 0))
      (cipherOf env secret (r.read (List.replicate 16 0)))) parts threshold r ps
    rw [argError_none.2 (keyLen_args hkey he)] at this
    obtain ⟨es, hes⟩ := kTail_step env hkey
      (sh := fun s => Shamir.splitWithRandomizer env.arch fuel s parts threshold r ps) he
    rcases this with ⟨⟨md, ps'⟩, hs⟩ | ⟨hs, h1, h2⟩ | ⟨hs, h1⟩
    · left
      have ⟨_, g2, g1, _⟩ := splitWithRandomizer_ok env.arch fuel hs
      obtain ⟨shares, hsh, -⟩ := kTail_ok env hc hkey he
        (sh := fun s => Shamir.splitWithRandomizer env.arch fuel s parts threshold r ps) hs g1 g2
      exact ⟨_, hsh⟩
    · right; left
      refine ⟨?_, h1, h2⟩
      rw [hes, hs]; rfl
    · right; right
      refine ⟨?_, h1⟩
      rw [hes, hs]; rfl

/-- C37: with fewer than 20 parts and distinct leading key-stream bytes SplitWithRandomizer succeeds. -/
theorem C37_splitWithRandomizer_succeeds (env : Env) (hc : env.lib.Contract) (fuel : Nat) (secret : List Byte)
    (parts threshold : Int) (r : CSPRNG) (ps : Shamir.Pools) (he : kSplitError env.lib secret parts threshold = none)
    (hp : parts < 20) (hd : ((List.range parts.toNat).map r.ks).Nodup) :
    ∃ res, Krawczyk.splitWithRandomizer env (fuel + 1) secret parts threshold r ps = ok res := by
  have hkey : (r.read (List.replicate 16 0)).length = 16 := by simp [read_length]
  have ⟨n1, n2, n3, n4, n5, n6⟩ := kSplitError_none.1 he
  have hn := ofInt_toNat (parts := parts) (by omega) n3
  have hx := getUnique_distinct (r := r) (n := BitVec.ofInt 8 parts) (by omega) (by rw [hn]; exact hd) fuel
  obtain ⟨pp, e⟩ := splitWithRandomizer_valid env.arch (fuel + 1) r ps
    (keyLen_args (ct := cipherOf env secret (r.read (List.replicate 16 0))) hkey he) _ hx (by simp [hn])
  have ⟨_, g2, g1, _⟩ := splitWithRandomizer_ok env.arch (fuel + 1) e
  rw [splitR_tail]
  obtain ⟨shares, hsh, -⟩ := kTail_ok env hc hkey he
    (sh := fun s => Shamir.splitWithRandomizer env.arch (fuel + 1) s parts threshold r ps) e g1 g2
  exact ⟨_, hsh⟩

/-- C37, C28: exactly when SplitWithRandomizer returns, for acceptable arguments.  With fewer than 20 parts it returns
shares iff no class {v, v xor k0} occurs too often among the first `parts` key-stream bytes, and never returns
otherwise; with at least 20 parts it panics iff the first key-stream byte is 254, and returns shares otherwise. -/
theorem C28_C37_splitWithRandomizer_returns (env : Env) (hc : env.lib.Contract) (secret : List Byte)
    (parts threshold : Int) (r : CSPRNG) (ps : Shamir.Pools) (he : kSplitError env.lib secret parts threshold = none) :
    (parts < 20 →
      ((∀ v, classCount r parts.toNat v ≤ classSize r) → ∃ res, ∀ fuel, 2 ≤ fuel →
        Krawczyk.splitWithRandomizer env fuel secret parts threshold r ps = ok res) ∧
      ((∃ v, classSize r < classCount r parts.toNat v) → ∀ fuel,
        Krawczyk.splitWithRandomizer env fuel secret parts threshold r ps = spin)) ∧
    (20 ≤ parts →
      (r.ks 0 ≠ 254#8 → ∃ res, ∀ fuel, Krawczyk.splitWithRandomizer env fuel secret parts threshold r ps = ok res) ∧
      (r.ks 0 = 254#8 → ∀ fuel, Krawczyk.splitWithRandomizer env fuel secret parts threshold r ps = panic)) := by
  have hkey : (r.read (List.replicate 16 0)).length = 16 := by simp [read_length]
  have hargs := keyLen_args (ct := cipherOf env secret (r.read (List.replicate 16 0))) hkey he
  have ⟨n1, n2, n3, n4, n5, n6⟩ := kSplitError_none.1 he
  have hn := ofInt_toNat (parts := parts) (by omega) n3
  obtain ⟨es, hes⟩ := kTail_step_all env hkey he
  have key : ∀ fuel0 md ps', Shamir.splitWithRandomizer env.arch fuel0 (keyLenPair (r.read (List.replicate 16 0))
      (cipherOf env secret (r.read (List.replicate 16 0)))) parts threshold r ps = ok (md, ps') →
      ∃ res, ∀ fuel, Shamir.splitWithRandomizer env.arch fuel (keyLenPair (r.read (List.replicate 16 0))
        (cipherOf env secret (r.read (List.replicate 16 0)))) parts threshold r ps = ok (md, ps') →
        Krawczyk.splitWithRandomizer env fuel secret parts threshold r ps = ok res := by
    intro fuel0 md ps' h0
    have ⟨_, g2, g1, _⟩ := splitWithRandomizer_ok env.arch fuel0 h0
    obtain ⟨shares, hsh, -⟩ := kTail_ok env hc hkey he
      (sh := fun s => Shamir.splitWithRandomizer env.arch fuel0 s parts threshold r ps) h0 g1 g2
    refine ⟨(shares, ps'), fun fuel h => ?_⟩
    rw [splitR_tail, hes, h, ← hsh, hes, h0]
  refine ⟨fun h20 => ?_, fun h20 => ?_⟩
  · have h := C13_C28_splitWithRandomizer_returns env.arch _ parts threshold r ps hargs h20
    refine ⟨fun hcl => ?_, fun hcl fuel => ?_⟩
    · obtain ⟨⟨md, ps'⟩, hr⟩ := h.1 hcl
      obtain ⟨res, hres⟩ := key 2 md ps' (hr 2 (le_refl _))
      exact ⟨res, fun fuel hf => hres fuel (hr fuel hf)⟩
    · rw [splitR_tail, hes, h.2 hcl fuel]; rfl
  · refine ⟨fun h0 => ?_, fun h0 fuel => ?_⟩
    · obtain ⟨⟨md, ps'⟩, hr⟩ := (C13_C28_splitWithRandomizer_returns_large env.arch _ parts threshold r ps hargs h20).1 h0
      obtain ⟨res, hres⟩ := key 0 md ps' (hr 0)
      exact ⟨res, fun fuel => hres fuel (hr fuel)⟩
    · rw [splitR_tail, hes, (C13_C28_splitWithRandomizer_returns_large env.arch _ parts threshold r ps hargs h20).2 h0 fuel]
      rfl

/-! ## C38 -/

/-- C38: with fewer than `threshold` entries that are not nil, whatever they contain, Combine never returns a secret. -/
theorem C38_too_few_never_ok (env : Env) (ssData : List (Option (List Byte))) (parts threshold : Int)
    (h : ((ssData.filterMap id).length : Int) < threshold) (s : List Byte) :
    Krawczyk.combine env ssData parts threshold ≠ ok s := by
  cases ssData with
  | nil => rw [kcombine_nil]; intro c; cases c
  | cons d0 rest =>
    rw [kcombine_eq]
    cases ha : kArgError (d0.getD []).length parts threshold with
    | some e => intro c; cases c
    | none =>
      have ⟨p1, p2, p3, p4, p5⟩ := kArgError_none.1 ha
      simp only []
      split
      · intro c; cases c
      rename_i hneg
      cases hf : ((d0 :: rest).filterMap id).findSome? (fault parts) with
      | some o => cases o <;> (intro c; cases c)
      | none =>
        simp only []
        have hwf : ∀ d ∈ (d0 :: rest).filterMap id, WellFormed parts d := by
          intro d hd
          exact (fault_none (by omega)).1 (List.findSome?_eq_none_iff.1 hf d hd)
        obtain ⟨e, he⟩ := decode_few env (P := place parts.toNat ((d0 :: rest).filterMap id))
          (take21_length (by omega) hwf) (by omega) p4 (by simp)
          (by have := place_count_le parts.toNat ((d0 :: rest).filterMap id); omega)
        rw [he]; intro c; cases c

theorem few_of_sharing {env env' : Env} (hc : env.lib.Contract)
    {secret key : List Byte} {parts threshold : Int} {md shares : List (List Byte)}
    (he : kSplitError env.lib secret parts threshold = none)
    (hk : KSharing env secret key threshold.toNat (parts - threshold).toNat md shares)
    {ssData : List (Option (List Byte))} (hne : ssData ≠ [])
    (hsub : ∀ d ∈ ssData.filterMap id, d ∈ shares)
    (ht : ((ssData.filterMap id).dedup.length : Int) < threshold) :
    ∃ e, Krawczyk.combine env' ssData parts threshold = err e := by
  have ⟨n1, n2, n3, n4, n5, n6⟩ := kSplitError_none.1 he
  cases ssData with
  | nil => exact absurd rfl hne
  | cons d0 rest =>
    rw [kcombine_eq]
    cases ha : kArgError (d0.getD []).length parts threshold with
    | some e => exact ⟨e, rfl⟩
    | none =>
      simp only []
      rw [if_neg (by omega)]
      have ep : ((threshold.toNat + (parts - threshold).toNat : Nat) : Int) = parts := by omega
      have hmem : ∀ d ∈ (d0 :: rest).filterMap id, ∃ i < threshold.toNat + (parts - threshold).toNat,
          d = kShare env secret key threshold.toNat (parts - threshold).toNat md i := by
        intro d hd
        have := hsub d hd
        rw [hk.eq] at this
        obtain ⟨i, hi, rfl⟩ := List.mem_map.1 this
        exact ⟨i, by simpa using hi, rfl⟩
      have hnf : ∀ d ∈ (d0 :: rest).filterMap id, fault parts d = none := by
        intro d hd
        obtain ⟨i, hi, rfl⟩ := hmem d hd
        have := hk.no_fault hc hi
        rw [ep] at this; exact this
      rw [List.findSome?_eq_none_iff.2 hnf]
      simp only []
      have hwf : ∀ d ∈ (d0 :: rest).filterMap id, WellFormed parts d :=
        fun d hd => (fault_none (by omega)).1 (hnf d hd)
      refine decode_few env' (take21_length (by omega) hwf) (by omega) n2 (by simp) ?_
      obtain ⟨is, his, hmap⟩ : ∃ is : List Nat, (∀ i ∈ is, i < threshold.toNat + (parts - threshold).toNat) ∧
          (d0 :: rest).filterMap id = is.map (kShare env secret key threshold.toNat (parts - threshold).toNat md) := by
        generalize (d0 :: rest).filterMap id = l at hmem
        clear * - hmem
        induction l with
        | nil => exact ⟨[], by simp, rfl⟩
        | cons d l ih =>
          obtain ⟨is, h1, h2⟩ := ih (fun d hd => hmem d (by simp [hd]))
          obtain ⟨i, hi, e⟩ := hmem d (by simp)
          exact ⟨i :: is, by simpa using ⟨hi, h1⟩, by rw [e, h2]; rfl⟩
      rw [hmap] at ht ⊢
      have hcnt := hk.place_count hc his
      rw [show threshold.toNat + (parts - threshold).toNat = parts.toNat by omega] at hcnt his
      have : ((List.range parts.toNat).filter (· ∈ is)).length = is.dedup.length := by
        rw [← filter_range_mem (is := is.dedup) (n := parts.toNat) (by simpa using his) (List.nodup_dedup _)]
        simp
      have hinj : (is.map (kShare env secret key threshold.toNat (parts - threshold).toNat md)).dedup.length
          = is.dedup.length := by
        have him : (is.map (kShare env secret key threshold.toNat (parts - threshold).toNat md)).toFinset
            = is.toFinset.image (kShare env secret key threshold.toNat (parts - threshold).toNat md) := by
          ext d; simp
        rw [← List.card_toFinset, ← List.card_toFinset, him, Finset.card_image_of_injOn]
        · intro a ha b hb hab
          have ha := his a (by simpa using ha)
          have hb := his b (by simpa using hb)
          have := congrArg (fun d => (partId d).toNat) hab
          beta_reduce at this
          rw [hk.partId_toNat hc (by omega), hk.partId_toNat hc (by omega)] at this
          exact this
      omega

/-- C38: fewer than `threshold` different shares of a sharing (also with repetitions and nil entries) give an error. -/
theorem C38_split_too_few (env env' : Env) (hc : env.lib.Contract) (secret : List Byte) (parts threshold : Int)
    (keyRnd : Nat → Byte) (perm : List Nat) (hperm : perm.Perm (List.range 255)) (rnd : Nat → Byte)
    (ps ps' : Shamir.Pools) (shares : List (List Byte)) (ssData : List (Option (List Byte)))
    (h : Krawczyk.split env secret parts threshold keyRnd perm rnd ps = ok (shares, ps')) (hne : ssData ≠ [])
    (hsub : ∀ d ∈ ssData.filterMap id, d ∈ shares) (ht : ((ssData.filterMap id).dedup.length : Int) < threshold) :
    ∃ e, Krawczyk.combine env' ssData parts threshold = err e := by
  obtain ⟨he, md, -, hk⟩ := ksplit_ok env hc hperm h
  exact few_of_sharing hc he hk hne hsub ht

theorem C38_splitWithRandomizer_too_few (env env' : Env) (hc : env.lib.Contract) (fuel : Nat) (secret : List Byte)
    (parts threshold : Int) (r : CSPRNG) (ps ps' : Shamir.Pools) (shares : List (List Byte))
    (ssData : List (Option (List Byte)))
    (h : Krawczyk.splitWithRandomizer env fuel secret parts threshold r ps = ok (shares, ps')) (hne : ssData ≠ [])
    (hsub : ∀ d ∈ ssData.filterMap id, d ∈ shares) (ht : ((ssData.filterMap id).dedup.length : Int) < threshold) :
    ∃ e, Krawczyk.combine env' ssData parts threshold = err e := by
  obtain ⟨he, md, -, hk⟩ := ksplitR_ok env hc h
  exact few_of_sharing hc he hk hne hsub ht

/-! ## C39 -/

/-- C39: two non-empty lists with the same entries that are not nil give the same result (no entry being longer than
2^32 - 1 bytes: only the first entry is checked for this). -/
theorem C39_nil_entries (env : Env) (l l' : List (Option (List Byte))) (parts threshold : Int)
    (hl : l ≠ []) (hl' : l' ≠ []) (h : l.filterMap id = l'.filterMap id)
    (hlen : ∀ d ∈ l.filterMap id, d.length ≤ 2 ^ 32 - 1) :
    Krawczyk.combine env l parts threshold = Krawczyk.combine env l' parts threshold := by
  cases l with
  | nil => exact absurd rfl hl
  | cons d0 rest =>
  cases l' with
  | nil => exact absurd rfl hl'
  | cons d0' rest' =>
    have e : ∀ (d : Option (List Byte)), (d.getD []).length ≤ 2 ^ 32 - 1 → kArgError (d.getD []).length parts threshold
        = kArgError 0 parts threshold := by
      intro d hd
      unfold kArgError
      rw [if_neg (show ¬ (d.getD []).length > 2 ^ 32 - 1 by omega), if_neg (show ¬ 0 > 2 ^ 32 - 1 by omega)]
    have hb : ∀ (d : Option (List Byte)) (r : List (Option (List Byte))),
        (∀ x ∈ (d :: r).filterMap id, x.length ≤ 2 ^ 32 - 1) → (d.getD []).length ≤ 2 ^ 32 - 1 := by
      intro d r hr
      cases d with
      | none => simp
      | some d => exact hr d (by simp)
    rw [kcombine_eq, kcombine_eq, h, e d0 (hb d0 rest hlen), e d0' (hb d0' rest' (h ▸ hlen))]

/-! ## C40 -/

/-- C40: exactly when Combine panics: the list is empty, or the argument checks pass and `parts` is negative or the first
malformed share is shorter than 21 bytes, or has an index of at most `parts` and is 21 bytes long or has index `parts`. -/
theorem C40_panics_iff (env : Env) (ssData : List (Option (List Byte))) (parts threshold : Int) :
    Krawczyk.combine env ssData parts threshold = panic ↔
      ssData = [] ∨ (kArgError ((ssData.headD none).getD []).length parts threshold = none ∧
        (parts < 0 ∨ ∃ pre d post, ssData.filterMap id = pre ++ d :: post ∧ (∀ e ∈ pre, WellFormed parts e) ∧
          (d.length < 21 ∨ ((partNo d : Int) ≤ parts ∧ (d.length = 21 ∨ (partNo d : Int) = parts))))) := by
  cases ssData with
  | nil => simp [kcombine_nil]
  | cons d0 rest =>
    rw [kcombine_eq, List.headD_cons]
    cases ha : kArgError (d0.getD []).length parts threshold with
    | some e => simp
    | none =>
      have ⟨p1, p2, p3, p4, p5⟩ := kArgError_none.1 ha
      simp only []
      by_cases hneg : parts < 0
      · simp [hneg]
      rw [if_neg hneg]
      have hpos : 0 < parts := by omega
      simp only [reduceCtorEq, hneg, true_and, false_or]
      constructor
      · intro h
        cases hf : ((d0 :: rest).filterMap id).findSome? (fault parts) with
        | none =>
          rw [hf] at h
          simp only [] at h
          have hwf : ∀ d ∈ (d0 :: rest).filterMap id, WellFormed parts d := by
            intro d hd
            exact (fault_none (by omega)).1 (List.findSome?_eq_none_iff.1 hf d hd)
          rcases decode_returns env (P := place parts.toNat ((d0 :: rest).filterMap id)) (parts := parts)
            (threshold := threshold) (take21_length (by omega) hwf) with ⟨v, c⟩ | ⟨e, c⟩ <;> rw [c] at h <;> cases h
        | some o =>
          rw [hf] at h
          obtain ⟨pre, d, post, h1, h2, h3⟩ := List.findSome?_eq_some_iff.1 hf
          refine ⟨pre, d, post, h1, fun e he => (fault_none hpos).1 (h3 e he), ?_⟩
          rcases fault_values parts d with c | c | c
          · rw [c] at h2; cases h2
          · rw [fault_panic] at c
            omega
          · rw [c] at h2; injection h2 with h2; subst h2; cases h
      · rintro ⟨pre, d, post, h1, h2, h3⟩
        have hf : fault parts d = some panic := fault_panic.2 (by omega)
        have : ((d0 :: rest).filterMap id).findSome? (fault parts) = some panic :=
          List.findSome?_eq_some_iff.2 ⟨pre, d, post, h1, hf, fun e he => (fault_none hpos).2 (h2 e he)⟩
        rw [this]

/-- C40: in all other cases Combine returns, a secret or an error. -/
theorem C40_otherwise_returns (env : Env) (ssData : List (Option (List Byte))) (parts threshold : Int) :
    (Krawczyk.combine env ssData parts threshold).Returns ∨ Krawczyk.combine env ssData parts threshold = panic := by
  cases ssData with
  | nil => exact Or.inr rfl
  | cons d0 rest =>
    rw [kcombine_eq]
    cases ha : kArgError (d0.getD []).length parts threshold with
    | some e => exact Or.inl (Or.inr ⟨e, rfl⟩)
    | none =>
      have ⟨p1, p2, p3, p4, p5⟩ := kArgError_none.1 ha
      simp only []
      split
      · exact Or.inr rfl
      · cases hf : ((d0 :: rest).filterMap id).findSome? (fault parts) with
        | none =>
          refine Or.inl (decode_returns env (take21_length (parts := parts) (by omega) ?_))
          intro d hd
          exact (fault_none (by omega)).1 (List.findSome?_eq_none_iff.1 hf d hd)
        | some o => cases o with
          | err e => exact Or.inl (Or.inr ⟨e, rfl⟩)
          | _ => exact Or.inr rfl

/-- C40: if the first malformed share has an index above `parts` (and at least 21 bytes), an error reports it. -/
theorem C40_index_too_large (env : Env) (ssData : List (Option (List Byte))) (parts threshold : Int)
    (ha : kArgError ((ssData.headD none).getD []).length parts threshold = none) (hp : 0 < parts)
    (pre post : List (List Byte)) (d : List Byte) (h : ssData.filterMap id = pre ++ d :: post)
    (hpre : ∀ e ∈ pre, WellFormed parts e) (hd : 21 ≤ d.length) (hi : parts < partNo d) :
    Krawczyk.combine env ssData parts threshold = err .partIdTooLarge := by
  cases ssData with
  | nil => simp at h
  | cons d0 rest =>
    rw [List.headD_cons] at ha
    rw [kcombine_eq, ha]
    simp only []
    rw [if_neg (by omega)]
    have hf : fault parts d = some (err .partIdTooLarge) := fault_err.2 ⟨hd, by omega⟩
    rw [List.findSome?_eq_some_iff.2 ⟨pre, d, post, h, hf, fun e he => (fault_none hp).2 (hpre e he)⟩]

/-! ## C41, C42 -/

/-- C41: decrypt inverts encrypt for every key AES accepts, on machines that cut streams differently; the ciphertext is
as long as the message. -/
theorem C41_decrypt_encrypt (env env' : Env) (ha : env'.aes = env.aes) (m key : List Byte)
    (hk : key.length = 16 ∨ key.length = 24 ∨ key.length = 32) :
    ∃ c, encrypt env m key = ok c ∧ c.length = m.length ∧ decrypt env' c key = ok m := by
  refine ⟨_, encrypt_ok env m hk, by simp, ?_⟩
  rw [decrypt_ok env' _ hk, keyStream, keyStream, ha, xorKs_xorKs]

theorem ofb_spec (E : List Byte → List Byte) (hE : ∀ b, b.length = 16 → (E b).length = 16) (o m : List Byte)
    (ho : o.length = 16) : xorKs (ofb E o) m = outputFeedback E o m := by
  induction hn : m.length using Nat.strong_induction_on generalizing o m with
  | _ n ih =>
    unfold outputFeedback
    by_cases hm : m = []
    · rw [if_pos hm, hm]; rfl
    · have hpos := List.length_pos_iff.2 hm
      rw [if_neg hm, ← ih (m.drop 16).length (by simp; omega) (E o) (m.drop 16) (hE o ho) rfl]
      have hz : (List.zipWith (· ^^^ ·) (m.take 16) (E o)).length = min 16 m.length := by
        rw [List.length_zipWith, hE o ho, List.length_take]; omega
      apply List.ext_getElem?
      intro i
      by_cases hi : i < 16
      · by_cases hil : i < m.length
        · rw [List.getElem?_append_left (by omega)]
          have h1 : i / 16 = 0 := by omega
          have h2 : i % 16 = i := by omega
          simp [xorKs, ofb, h1, h2, hil, hi, hE o ho]
        · rw [List.getElem?_eq_none (by simp; omega), List.getElem?_eq_none]
          rw [List.length_append, hz, length_xorKs, List.length_drop]; omega
      · rw [List.getElem?_append_right (by omega), hz]
        have e : ofb E (E o) (i - 16) = ofb E o i := by
          unfold ofb
          rw [show (i - 16) % 16 = i % 16 by omega, ← Function.iterate_succ_apply,
            show ((i - 16) / 16 + 1).succ = i / 16 + 1 by omega]
        by_cases hil : i < m.length
        · rw [show i - min 16 m.length = i - 16 by omega]
          simp [xorKs, ← e, show 16 + (i - 16) = i by omega]
        · rw [List.getElem?_eq_none (by simp; omega), List.getElem?_eq_none (by simp; omega)]

/-- C41: both are AES in output feedback mode with zero IV. -/
theorem C41_output_feedback (env : Env) (m key : List Byte) (hE : ∀ b, b.length = 16 → (env.aes key b).length = 16)
    (hk : key.length = 16 ∨ key.length = 24 ∨ key.length = 32) :
    encrypt env m key = ok (outputFeedback (env.aes key) (List.replicate 16 0) m) ∧
    decrypt env m key = ok (outputFeedback (env.aes key) (List.replicate 16 0) m) := by
  rw [encrypt_ok env m hk, decrypt_ok env m hk, keyStream, ofb_spec _ hE _ _ (by simp)]
  exact ⟨rfl, rfl⟩

/-- C41: neither function depends on the way streams are cut. -/
theorem C41_chunking_irrelevant (env env' : Env) (ha : env'.aes = env.aes) (m key : List Byte) :
    encrypt env' m key = encrypt env m key ∧ decrypt env' m key = decrypt env m key := by
  by_cases hk : goodKey key
  · rw [encrypt_ok env' m hk, encrypt_ok env m hk, decrypt_ok env' m hk, decrypt_ok env m hk, keyStream, keyStream, ha]
    exact ⟨rfl, rfl⟩
  · rw [encrypt_err env' m hk, encrypt_err env m hk, decrypt_err env' m hk, decrypt_err env m hk]
    exact ⟨rfl, rfl⟩

/-- C41: other key lengths give an error. -/
theorem C41_bad_key (env : Env) (m key : List Byte)
    (hk : ¬ (key.length = 16 ∨ key.length = 24 ∨ key.length = 32)) :
    encrypt env m key = err .aesKeySize ∧ decrypt env m key = err .aesKeySize :=
  ⟨encrypt_err env m hk, decrypt_err env m hk⟩

/-- C42: the length field is read back unchanged, and it is the little-endian representation. -/
theorem C42_length_field (key ct : List Byte) (hkey : key.length = 16) (hl : ct.length < 2 ^ 32) :
    (keyLenPair key ct).length = 20 ∧ (keyLenPair key ct).take 16 = key ∧
    (leUint32 (((keyLenPair key ct).drop 16).take 4)).toNat = ct.length ∧
    ∀ i < 4, (((keyLenPair key ct).getD (16 + i) 0).toNat) = ct.length / 256 ^ i % 256 := by
  refine ⟨keyLenPair_length hkey, by simp [keyLenPair, ← hkey], ?_, ?_⟩
  · rw [keyLenPair, ← hkey, List.drop_left, List.take_of_length_le (by simp), leUint32_put, BitVec.toNat_ofNat,
      Nat.mod_eq_of_lt hl]
  · intro i hi
    have : (keyLenPair key ct).getD (16 + i) 0 = (lePutUint32 (BitVec.ofNat 32 ct.length)).getD i 0 := by
      rw [keyLenPair, List.getD_eq_getElem?_getD, List.getElem?_append_right (by omega), hkey,
        show 16 + i - 16 = i by omega, List.getD_eq_getElem?_getD]
    rw [this]
    have : i = 0 ∨ i = 1 ∨ i = 2 ∨ i = 3 := by omega
    rcases this with rfl | rfl | rfl | rfl <;>
      simp [lePutUint32, BitVec.toNat_setWidth, BitVec.toNat_ushiftRight, Nat.shiftRight_eq_div_pow] <;> omega

/-! ## C43, C44 -/

theorem data_byte_of_sharing {env : Env} (hc : env.lib.Contract) {secret key : List Byte} {parts threshold : Int}
    {md shares : List (List Byte)} (he : kSplitError env.lib secret parts threshold = none)
    (hk : KSharing env secret key threshold.toNat (parts - threshold).toNat md shares) {i j : Nat}
    (hi : (i : Int) < threshold) (hj : j < ceilDiv secret.length threshold.toNat)
    (hq : i * ceilDiv secret.length threshold.toNat + j < secret.length) :
    (shares.getD i []).getD (21 + j) 0 = secret.getD (i * ceilDiv secret.length threshold.toNat + j) 0
      ^^^ ofb (env.aes key) (List.replicate 16 0) (i * ceilDiv secret.length threshold.toNat + j) := by
  have ⟨n1, n2, n3, n4, n5, n6⟩ := kSplitError_none.1 he
  have hi' : i < threshold.toNat + (parts - threshold).toNat := by omega
  have hit : i < threshold.toNat := by omega
  rw [show shares.getD i [] = kShare env secret key threshold.toNat (parts - threshold).toNat md i by
    rw [hk.eq]; simp [hi']]
  unfold kShare
  rw [List.getD_eq_getElem?_getD, List.getElem?_append_right (by rw [hk.md_length hi']; omega), hk.md_length hi',
    show 21 + j - 21 = j by omega, List.getElem?_append_left (by rw [hk.code_length hc hi']; exact hj)]
  have e : (codeword env.lib threshold.toNat (parts - threshold).toNat (cipherOf env secret key)).getD i []
      = (dataShards env.lib threshold.toNat (cipherOf env secret key)).getD i [] := by
    simp only [codeword, List.getD_eq_getElem?_getD]
    rw [List.getElem?_append_left (by simpa using hit)]
  rw [e]
  have hpe : ceilDiv secret.length threshold.toNat = perShard secret.length threshold.toNat := rfl
  rw [hpe] at hj hq ⊢
  simp only [dataShards, List.getD_eq_getElem?_getD, List.getElem?_map, List.getElem?_range hit, Option.map_some,
    Option.getD_some, length_cipherOf, List.getElem?_range hj]
  rw [padded, length_cipherOf, if_pos hq, cipherOf, xorKs_getD _ _ hq]
  rw [List.getD_eq_getElem?_getD]
  rfl

/-- C43: two SplitWithRandomizer calls with the same randomizer use the same key: in every data share, the bytes after
the metadata of two secrets of the same length differ exactly as the secrets do. -/
theorem C43_same_key (env : Env) (hc : env.lib.Contract) (fuel fuel' : Nat) (s1 s2 : List Byte)
    (parts threshold : Int) (r : CSPRNG) (ps1 ps1' ps2 ps2' : Shamir.Pools) (shares1 shares2 : List (List Byte))
    (h1 : Krawczyk.splitWithRandomizer env fuel s1 parts threshold r ps1 = ok (shares1, ps1'))
    (h2 : Krawczyk.splitWithRandomizer env fuel' s2 parts threshold r ps2 = ok (shares2, ps2'))
    (hl : s1.length = s2.length) (i j : Nat) (hi : (i : Int) < threshold)
    (hj : j < ceilDiv s1.length threshold.toNat) (hq : i * ceilDiv s1.length threshold.toNat + j < s1.length) :
    (shares1.getD i []).getD (21 + j) 0 ^^^ (shares2.getD i []).getD (21 + j) 0
      = s1.getD (i * ceilDiv s1.length threshold.toNat + j) 0 ^^^ s2.getD (i * ceilDiv s1.length threshold.toNat + j) 0 := by
  obtain ⟨he1, md1, -, hk1⟩ := ksplitR_ok env hc h1
  obtain ⟨he2, md2, -, hk2⟩ := ksplitR_ok env hc h2
  rw [data_byte_of_sharing hc he1 hk1 hi hj hq, data_byte_of_sharing hc he2 hk2 hi (hl ▸ hj) (hl ▸ hq), ← hl]
  generalize ofb _ _ _ = z
  generalize s1.getD _ _ = a
  generalize s2.getD _ _ = b
  rw [BitVec.xor_comm b z, BitVec.xor_assoc, ← BitVec.xor_assoc z z b, BitVec.xor_self, BitVec.zero_xor]

/-- The key the tags give away: byte 20 of the first 16 shares, minus one. -/
def keyFromTags (shares : List (List Byte)) : List Byte :=
  (List.range 16).map fun i => (shares.getD i []).getD 20 0 - 1

theorem tags_reveal {env : Env} (hc : env.lib.Contract) {fuel : Nat} {secret : List Byte}
    {parts threshold : Int} {r : CSPRNG} {ps ps' : Shamir.Pools} {shares : List (List Byte)} (hp : parts < 20)
    (hd : ((List.range parts.toNat).map r.ks).Nodup)
    (h : Krawczyk.splitWithRandomizer env (fuel + 1) secret parts threshold r ps = ok (shares, ps'))
    {i : Nat} (hi : (i : Int) < parts) : (shares.getD i []).getD 20 0 - 1 = r.ks i := by
  obtain ⟨he, md, hs, hk⟩ := ksplitR_ok env hc h
  have ⟨n1, n2, n3, n4, n5, n6⟩ := kSplitError_none.1 he
  obtain ⟨-, -, hl, xs, hx, htag⟩ := splitWithRandomizer_ok env.arch _ hs
  have hn := ofInt_toNat (parts := parts) (by omega) n3
  rw [getUnique_distinct (by omega) (by rw [hn]; exact hd), hn] at hx
  injection hx with hx
  have hi' : i < threshold.toNat + (parts - threshold).toNat := by omega
  rw [show shares.getD i [] = kShare env secret (r.read (List.replicate 16 0)) threshold.toNat (parts - threshold).toNat md i by
    rw [hk.eq]; simp [hi']]
  have h20 : (kShare env secret (r.read (List.replicate 16 0)) threshold.toNat (parts - threshold).toNat md i).getD 20 0
      = tag (md.getD i []) := by
    rw [kShare, List.getD_eq_getElem?_getD, List.getElem?_append_left (by rw [hk.md_length hi']; omega), tag,
      hk.md_length hi', List.getD_eq_getElem?_getD, List.getD_eq_getElem?_getD]
  have hti : tag (md.getD i []) = r.ks i + 1#8 := by
    have hm : i < md.length := by omega
    have := congrArg (fun l => l.getD i 0) htag
    subst hx
    simp only [List.getD_eq_getElem?_getD, List.getElem?_map, List.getElem?_eq_getElem hm, Option.map_some,
      Option.getD_some, List.getElem?_range (show i < parts.toNat by omega)] at this
    rw [List.getD_eq_getElem?_getD, List.getElem?_eq_getElem hm, Option.getD_some]
    exact this
  rw [h20, hti]
  exact BitVec.add_sub_cancel _ _

/-- C44: with fewer than 20 parts and distinct leading key-stream bytes, byte 20 of share `i`, minus one, is byte `i` of
the key stream, of which the first 16 bytes are the encryption key (next theorem). -/
theorem C44_tag_is_key_byte (env : Env) (hc : env.lib.Contract) (fuel : Nat) (secret : List Byte)
    (parts threshold : Int) (r : CSPRNG) (ps ps' : Shamir.Pools) (shares : List (List Byte)) (hp : parts < 20)
    (hd : ((List.range parts.toNat).map r.ks).Nodup)
    (h : Krawczyk.splitWithRandomizer env (fuel + 1) secret parts threshold r ps = ok (shares, ps'))
    (i : Nat) (hi : (i : Int) < parts) : (shares.getD i []).getD 20 0 - 1 = r.ks i :=
  tags_reveal hc hp hd h hi

/-- C43 and C44: the secret is encrypted with the first 16 bytes of the key stream as the key; the first `threshold`
shares contain consecutive pieces of the ciphertext. -/
theorem C43_C44_data_share (env : Env) (hc : env.lib.Contract) (fuel : Nat) (secret : List Byte)
    (parts threshold : Int) (r : CSPRNG) (ps ps' : Shamir.Pools) (shares : List (List Byte))
    (h : Krawczyk.splitWithRandomizer env fuel secret parts threshold r ps = ok (shares, ps'))
    (i j : Nat) (hi : (i : Int) < threshold) (hj : j < ceilDiv secret.length threshold.toNat)
    (hq : i * ceilDiv secret.length threshold.toNat + j < secret.length) :
    (shares.getD i []).getD (21 + j) 0 = secret.getD (i * ceilDiv secret.length threshold.toNat + j) 0
      ^^^ ofb (env.aes ((List.range 16).map r.ks)) (List.replicate 16 0) (i * ceilDiv secret.length threshold.toNat + j) := by
  obtain ⟨he, md, hs, hk⟩ := ksplitR_ok env hc h
  have hkey : r.read (List.replicate 16 0) = (List.range 16).map r.ks := by
    simp [CSPRNG.read, List.range_succ]
  rw [data_byte_of_sharing hc he hk hi hj hq, hkey]

/-- C44: with 16 to 19 parts, the tags of the first 16 shares are the key, so each data share alone gives its piece of
the secret, whatever the threshold. -/
theorem C44_key_recovery (env : Env) (hc : env.lib.Contract) (fuel : Nat) (secret : List Byte)
    (parts threshold : Int) (r : CSPRNG) (ps ps' : Shamir.Pools) (shares : List (List Byte)) (hp : parts < 20)
    (hp' : 16 ≤ parts) (hd : ((List.range parts.toNat).map r.ks).Nodup)
    (h : Krawczyk.splitWithRandomizer env (fuel + 1) secret parts threshold r ps = ok (shares, ps'))
    (i j : Nat) (hi : (i : Int) < threshold) (hj : j < ceilDiv secret.length threshold.toNat)
    (hq : i * ceilDiv secret.length threshold.toNat + j < secret.length) :
    secret.getD (i * ceilDiv secret.length threshold.toNat + j) 0 = (shares.getD i []).getD (21 + j) 0
      ^^^ ofb (env.aes (keyFromTags shares)) (List.replicate 16 0) (i * ceilDiv secret.length threshold.toNat + j) := by
  have hkey : keyFromTags shares = (List.range 16).map r.ks := by
    refine List.map_congr_left fun a ha => tags_reveal hc hp hd h ?_
    have : a < 16 := by simpa using ha
    omega
  obtain ⟨he, md, hs, hk⟩ := ksplitR_ok env hc h
  have hkey' : r.read (List.replicate 16 0) = (List.range 16).map r.ks := by
    simp [CSPRNG.read, List.range_succ]
  rw [data_byte_of_sharing hc he hk hi hj hq, hkey, hkey', BitVec.xor_assoc, BitVec.xor_self, BitVec.xor_zero]

/-! ## C45 -/

/-- C45: the order of well-formed shares with distinct indices does not matter. -/
theorem C45_order_irrelevant (env : Env) (l l' : List (Option (List Byte))) (parts threshold : Int)
    (hl : l ≠ []) (hl' : l' ≠ []) (h : (l.filterMap id).Perm (l'.filterMap id))
    (hlen : ∀ d ∈ l.filterMap id, d.length ≤ 2 ^ 32 - 1) (hwf : ∀ d ∈ l.filterMap id, WellFormed parts d)
    (hnd : ((l.filterMap id).map partNo).Nodup) :
    Krawczyk.combine env l parts threshold = Krawczyk.combine env l' parts threshold := by
  cases l with
  | nil => exact absurd rfl hl
  | cons d0 rest =>
  cases l' with
  | nil => exact absurd rfl hl'
  | cons d0' rest' =>
    have e : ∀ (d : Option (List Byte)), (d.getD []).length ≤ 2 ^ 32 - 1 → kArgError (d.getD []).length parts threshold
        = kArgError 0 parts threshold := by
      intro d hd
      unfold kArgError
      rw [if_neg (show ¬ (d.getD []).length > 2 ^ 32 - 1 by omega), if_neg (show ¬ 0 > 2 ^ 32 - 1 by omega)]
    have hb : ∀ (d : Option (List Byte)) (r : List (Option (List Byte))),
        (∀ x ∈ (d :: r).filterMap id, x.length ≤ 2 ^ 32 - 1) → (d.getD []).length ≤ 2 ^ 32 - 1 := by
      intro d r hr
      cases d with
      | none => simp
      | some d => exact hr d (by simp)
    rw [kcombine_eq, kcombine_eq, e d0 (hb d0 rest hlen),
      e d0' (hb d0' rest' (fun x hx => hlen x (h.mem_iff.2 hx)))]
    cases ha : kArgError 0 parts threshold with
    | some e => rfl
    | none =>
      have ⟨p1, p2, p3, p4, p5⟩ := kArgError_none.1 ha
      simp only []
      split
      · rfl
      · have hpos : 0 < parts := by omega
        have f1 : ((d0 :: rest).filterMap id).findSome? (fault parts) = none :=
          List.findSome?_eq_none_iff.2 fun d hd => (fault_none hpos).2 (hwf d hd)
        have f2 : ((d0' :: rest').filterMap id).findSome? (fault parts) = none :=
          List.findSome?_eq_none_iff.2 fun d hd => (fault_none hpos).2 (hwf d (h.mem_iff.2 hd))
        rw [f1, f2]
        simp only []
        rw [place_perm h hnd (fun d hd => by have := (hwf d hd).2; omega)]
        unfold decode
        rw [combine21_perm (h.map _) (take21_length hpos hwf)]

theorem share_bound {env : Env} (hc : env.lib.Contract) {secret key : List Byte} {k m : Nat} {md shares : List (List Byte)}
    (h : KSharing env secret key k m md shares) {i : Nat} (hi : i < k + m) :
    (kShare env secret key k m md i).length ≤ 2 ^ 32 - 1 := by
  have hk2 := h.k_ge
  have := h.secret_le
  rw [h.share_length hc hi]
  have hb : perShard secret.length k ≤ (secret.length + 1) / 2 := by
    unfold perShard
    rw [Nat.div_le_iff_le_mul_add_pred (by omega)]
    have e1 : 2 * ((secret.length + 1) / 2) ≤ k * ((secret.length + 1) / 2) := Nat.mul_le_mul_right _ hk2
    omega
  omega

theorem order_of_sharing {env env' : Env} (hc : env.lib.Contract)
    {secret key : List Byte} {parts threshold : Int} {md shares : List (List Byte)}
    (he : kSplitError env.lib secret parts threshold = none)
    (hk : KSharing env secret key threshold.toNat (parts - threshold).toNat md shares)
    {l l' : List (Option (List Byte))} (hl : l ≠ []) (hl' : l' ≠ [])
    (hsub : (l.filterMap id).Subperm shares) (h : (l.filterMap id).Perm (l'.filterMap id)) :
    Krawczyk.combine env' l parts threshold = Krawczyk.combine env' l' parts threshold := by
  have ⟨n1, n2, n3, n4, n5, n6⟩ := kSplitError_none.1 he
  rw [hk.eq] at hsub
  obtain ⟨is, h1, h2, h3⟩ := subperm_map_range hsub
  refine C45_order_irrelevant env' l l' parts threshold hl hl' h ?_ ?_ ?_
  · intro d hd
    rw [h3] at hd
    obtain ⟨i, hi, rfl⟩ := List.mem_map.1 hd
    exact share_bound hc hk (h2 i hi)
  · intro d hd
    rw [h3] at hd
    obtain ⟨i, hi, rfl⟩ := List.mem_map.1 hd
    refine (fault_none (by omega)).1 ?_
    have := hk.no_fault hc (h2 i hi)
    rw [show ((threshold.toNat + (parts - threshold).toNat : Nat) : Int) = parts by omega] at this
    exact this
  · rw [h3, List.map_map]
    have : is.map (partNo ∘ kShare env secret key threshold.toNat (parts - threshold).toNat md) = is.map id :=
      List.map_congr_left fun i hi => by
        simp only [Function.comp, partNo_eq, hk.partId_toNat hc (h2 i hi), id]
    rw [this, List.map_id]
    exact h1

/-- C45 for selections (of any size) of the shares of a sharing. -/
theorem C45_split_order (env env' : Env) (hc : env.lib.Contract) (secret : List Byte) (parts threshold : Int)
    (keyRnd : Nat → Byte) (perm : List Nat) (hperm : perm.Perm (List.range 255)) (rnd : Nat → Byte)
    (ps ps' : Shamir.Pools) (shares : List (List Byte)) (l l' : List (Option (List Byte)))
    (h : Krawczyk.split env secret parts threshold keyRnd perm rnd ps = ok (shares, ps'))
    (hl : l ≠ []) (hl' : l' ≠ []) (hsub : (l.filterMap id).Subperm shares)
    (hp : (l.filterMap id).Perm (l'.filterMap id)) :
    Krawczyk.combine env' l parts threshold = Krawczyk.combine env' l' parts threshold := by
  obtain ⟨he, md, -, hk⟩ := ksplit_ok env hc hperm h
  exact order_of_sharing hc he hk hl hl' hsub hp

theorem C45_splitWithRandomizer_order (env env' : Env) (hc : env.lib.Contract) (fuel : Nat) (secret : List Byte)
    (parts threshold : Int) (r : CSPRNG) (ps ps' : Shamir.Pools) (shares : List (List Byte))
    (l l' : List (Option (List Byte)))
    (h : Krawczyk.splitWithRandomizer env fuel secret parts threshold r ps = ok (shares, ps'))
    (hl : l ≠ []) (hl' : l' ≠ []) (hsub : (l.filterMap id).Subperm shares)
    (hp : (l.filterMap id).Perm (l'.filterMap id)) :
    Krawczyk.combine env' l parts threshold = Krawczyk.combine env' l' parts threshold := by
  obtain ⟨he, md, -, hk⟩ := ksplitR_ok env hc h
  exact order_of_sharing hc he hk hl hl' hsub hp

/-! ## C46 -/

/-- C46: Worker accepts exactly two algorithm names. -/
theorem C46_unknown_algorithm (env : Env) (fuel : Nat) (w : Worker.Worker) (alg : String)
    (h1 : alg ≠ "shamir") (h2 : alg ≠ "krawczyk") (input : List Byte) (ssData : List (Option (List Byte))) (n k : Int)
    (ps : Shamir.Pools) :
    w.split env fuel alg input n k ps = err .invalidAlgorithm ∧ w.combine env alg ssData n k = err .invalidAlgorithm := by
  unfold Worker.Worker.split Worker.Worker.combine
  rw [if_pos ⟨h1, h2⟩, if_pos ⟨h1, h2⟩]
  exact ⟨rfl, rfl⟩

/-- C46: with the same algorithm name, Combine (of any worker) inverts Split on any selection of at least `k` shares. -/
theorem C46_round_trip (env env' : Env) (hc : env.lib.Contract) (ha : env'.aes = env.aes)
    (hm : env'.lib.missing = env.lib.missing) (hn : env'.lib.allowsNoParity = env.lib.allowsNoParity)
    (fuel : Nat) (w w' : Worker.Worker) (alg : String) (input : List Byte) (n k : Int)
    (ps ps' : Shamir.Pools) (shares sub : List (List Byte))
    (h : w.split env fuel alg input n k ps = ok (shares, ps'))
    (hsub : sub.Subperm shares) (hk : k ≤ sub.length) : w'.combine env' alg (sub.map some) n k = ok input := by
  have hid : (sub.map some).filterMap id = sub := by
    rw [List.filterMap_map]; simp
  unfold Worker.Worker.split at h
  unfold Worker.Worker.combine
  split at h
  · cases h
  rename_i hv
  rw [if_neg hv]
  split at h
  · rename_i hs
    rw [if_pos hs]
    have : (sub.map some).map (·.getD []) = sub := by rw [List.map_map]; simp
    rw [this]
    exact C09_splitWithRandomizer_combine env.arch fuel input n k w.r ps ps' shares sub h hsub hk
  · rename_i hs
    rw [if_neg hs]
    exact C35_splitWithRandomizer_combine env env' hc ha hm hn fuel input n k w.r ps ps' shares _ h
      (by rw [hid]; exact hsub) (by rw [hid]; exact hk)

/-! ## Non-vacuity -/

/-- A machine: AES replaced by adding the key to the block, streams cut into single bytes or not at all. -/
noncomputable def exEnv : Env where
  arch := .noasm
  aes key block := List.zipWith (· + ·) key (block.map (· + 1))
  lib := interpolationCode
  encChunks := ⟨fun l => l.map fun b => [b], fun l => by induction l <;> simp_all⟩
  decChunks := ⟨fun l => [l], fun l => by simp⟩

/-- The randomizer with key stream 0, 1, 2, ... -/
def exRand : CSPRNG := ⟨fun i => BitVec.ofNat 8 i⟩

theorem exEnv_contract : exEnv.lib.Contract := interpolationCode_contract

theorem ex_split : ∃ shares ps', Krawczyk.split exEnv [1, 2, 3, 4, 5] 5 3 (fun i => BitVec.ofNat 8 (3 * i)) (List.range 255)
    (fun i => BitVec.ofNat 8 (7 * i + 1)) (Shamir.Pools.init 4) = ok (shares, ps') := by
  have := (C37_split_accepts exEnv exEnv_contract [1, 2, 3, 4, 5] 5 3 (fun i => BitVec.ofNat 8 (3 * i)) (List.range 255)
    (List.Perm.refl _) (fun i => BitVec.ofNat 8 (7 * i + 1)) (Shamir.Pools.init 4)).2
    ⟨by omega, by omega, by omega, by simp, by simp, Or.inl (by omega)⟩
  obtain ⟨⟨a, b⟩, h⟩ := this
  exact ⟨a, b, h⟩

/-- C41: a block function with blocks of 16 bytes, and a message of 18 bytes: the second output block is the
encryption of the first one. -/
example : encrypt { exEnv with aes := fun _ b => (List.range 16).map fun i => b.getD i 0 + 3 }
    (List.replicate 18 1) (List.replicate 16 7) = ok (List.replicate 16 2 ++ List.replicate 2 7) := by
  rw [(C41_output_feedback _ _ _ (fun _ _ => by simp) (by simp)).1]
  simp [outputFeedback, List.replicate]
  decide

/-- C35, C36, C38, C45: three of five shares, in the order 4, 0, 2 with nils, give the secret; two give an error. -/
example : ∃ shares, ∃ ps', Krawczyk.split exEnv [1, 2, 3, 4, 5] 5 3 (fun i => BitVec.ofNat 8 (3 * i)) (List.range 255)
    (fun i => BitVec.ofNat 8 (7 * i + 1)) (Shamir.Pools.init 4) = ok (shares, ps') ∧
    (shares.getD 2 []).length = 24 ∧
    Krawczyk.combine exEnv [none, some (shares.getD 4 []), some (shares.getD 0 []), none, some (shares.getD 2 [])] 5 3
      = ok [1, 2, 3, 4, 5] ∧
    ∃ e, Krawczyk.combine exEnv [some (shares.getD 4 []), some (shares.getD 0 []), some (shares.getD 4 [])] 5 3 = err e := by
  obtain ⟨shares, ps', h⟩ := ex_split
  have hf := C36_split_format _ exEnv_contract _ _ _ _ _ (List.Perm.refl _) _ _ _ _ h
  refine ⟨shares, ps', h, ?_, ?_, ?_⟩
  · exact (hf.2 2 (by omega)).1
  · refine C35_split_combine exEnv exEnv exEnv_contract rfl rfl rfl _ _ _ _ _ (List.Perm.refl _) _ _ _ _ _ h ?_ (by simp)
    match shares, hf.1 with
    | [a, b, c, d, e], _ =>
      simp only [List.getD_cons_succ, List.getD_cons_zero]
      refine ⟨[a, c, e], ?_, ?_⟩
      · exact (List.Perm.cons a (List.Perm.swap e c [])).trans (List.Perm.swap e a [c])
      · simp
  · refine C38_split_too_few exEnv exEnv exEnv_contract _ _ _ _ _ (List.Perm.refl _) _ _ _ _ _ h (by simp) ?_ ?_
    · match shares, hf.1 with
      | [a, b, c, d, e], _ => simp
    · match shares, hf.1 with
      | [a, b, c, d, e], _ =>
        have : ((List.filterMap id [some e, some a, some e]).dedup.length : Int) ≤ 2 := by
          rw [show List.filterMap id [some e, some a, some e] = [e, a, e] from rfl, List.dedup_cons_of_mem (by simp)]
          have := (List.dedup_sublist [a, e]).length_le
          simpa using this
        simp only [List.getD_cons_succ, List.getD_cons_zero]
        omega

/-- C43, C44, C46: SplitWithRandomizer and Worker.Split succeed with 17 parts and distinct key-stream bytes. -/
example : ∃ shares ps', Worker.Worker.split exEnv 1 ⟨exRand⟩ "krawczyk" [1, 2, 3, 4, 5] 17 3 (Shamir.Pools.init 4)
    = ok (shares, ps') ∧ ((List.range (17 : Int).toNat).map exRand.ks).Nodup := by
  have hd : ((List.range (17 : Int).toNat).map exRand.ks).Nodup := by decide
  obtain ⟨⟨a, b⟩, h⟩ := C37_splitWithRandomizer_succeeds exEnv exEnv_contract 0 [1, 2, 3, 4, 5] 17 3 exRand
    (Shamir.Pools.init 4) (kSplitError_none.2 ⟨by omega, by omega, by omega, by simp, by simp, by omega⟩) (by omega) hd
  exact ⟨a, b, h, hd⟩

/-- C28, C37: the three outcomes of SplitWithRandomizer. -/
example : (∃ res, ∀ fuel, 2 ≤ fuel → Krawczyk.splitWithRandomizer exEnv fuel [1, 2, 3] 3 2
      ⟨fun i => BitVec.ofNat 8 (i / 2 + 5)⟩ (Shamir.Pools.init 1) = ok res) ∧
    (∀ fuel, Krawczyk.splitWithRandomizer exEnv fuel [1, 2, 3] 3 2 ⟨fun _ => 7⟩ (Shamir.Pools.init 1) = spin) ∧
    (∀ fuel, Krawczyk.splitWithRandomizer exEnv fuel [1, 2, 3] 20 2 ⟨fun _ => 254⟩ (Shamir.Pools.init 1) = panic) ∧
    (∃ res, ∀ fuel, Krawczyk.splitWithRandomizer exEnv fuel [1, 2, 3] 20 2 ⟨fun _ => 7⟩ (Shamir.Pools.init 1) = ok res) := by
  have h3 : kSplitError exEnv.lib [1, 2, 3] 3 2 = none :=
    kSplitError_none.2 ⟨by omega, by omega, by omega, by simp, by simp, by omega⟩
  have h20 : kSplitError exEnv.lib [1, 2, 3] 20 2 = none :=
    kSplitError_none.2 ⟨by omega, by omega, by omega, by simp, by simp, by omega⟩
  exact ⟨((C28_C37_splitWithRandomizer_returns _ exEnv_contract _ _ _ _ _ h3).1 (by omega)).1 (by decide +kernel),
    ((C28_C37_splitWithRandomizer_returns _ exEnv_contract _ _ _ _ _ h3).1 (by omega)).2 ⟨7, by decide⟩,
    ((C28_C37_splitWithRandomizer_returns _ exEnv_contract _ _ _ _ _ h20).2 (by omega)).2 rfl,
    ((C28_C37_splitWithRandomizer_returns _ exEnv_contract _ _ _ _ _ h20).2 (by omega)).1 (by decide)⟩

theorem ex_splitR : ∃ shares ps', Krawczyk.splitWithRandomizer exEnv 1 [1, 2, 3, 4, 5] 17 3 exRand (Shamir.Pools.init 4)
    = ok (shares, ps') := by
  obtain ⟨⟨a, b⟩, h⟩ := C37_splitWithRandomizer_succeeds exEnv exEnv_contract 0 [1, 2, 3, 4, 5] 17 3 exRand
    (Shamir.Pools.init 4) (kSplitError_none.2 ⟨by omega, by omega, by omega, by simp, by simp, by omega⟩) (by omega)
    (by decide)
  exact ⟨a, b, h⟩

/-- The consecutive shares 14, 15, 16 of 17. -/
theorem ex_last_three {l : List (List Byte)} (h : (l.length : Int) = 17) :
    ([none, some (l.getD 14 []), some (l.getD 15 []), some (l.getD 16 [])].filterMap id).Subperm l := by
  have : [none, some (l.getD 14 []), some (l.getD 15 []), some (l.getD 16 [])].filterMap id = (l.drop 14).take 3 := by
    have h14 : 14 < l.length := by omega
    have h15 : 15 < l.length := by omega
    have h16 : 16 < l.length := by omega
    rw [List.drop_eq_getElem_cons h14, List.drop_eq_getElem_cons h15, List.drop_eq_getElem_cons h16]
    simp only [List.getD_eq_getElem?_getD, List.getElem?_eq_getElem h14, List.getElem?_eq_getElem h15,
      List.getElem?_eq_getElem h16, Option.getD_some]
    rfl
  rw [this]
  exact ((List.take_sublist _ _).trans (List.drop_sublist _ _)).subperm

/-- C35, C36, C38, C43, C44, C45, C46 for SplitWithRandomizer with 17 parts and threshold 3: three shares recover the
secret (also through Worker), two do not; byte 20 of share 9 is key-stream byte 9 plus one; and the first three shares
reveal the secret to whoever has the 16 leading tags. -/
example : ∃ shares, ∃ ps', Krawczyk.splitWithRandomizer exEnv 1 [1, 2, 3, 4, 5] 17 3 exRand (Shamir.Pools.init 4)
      = ok (shares, ps') ∧
    (shares.getD 16 []).length = 24 ∧
    Krawczyk.combine exEnv [none, some (shares.getD 14 []), some (shares.getD 15 []), some (shares.getD 16 [])] 17 3
      = ok [1, 2, 3, 4, 5] ∧
    Krawczyk.combine exEnv [some (shares.getD 15 []), some (shares.getD 14 []), some (shares.getD 16 [])] 17 3
      = ok [1, 2, 3, 4, 5] ∧
    (∃ e, Krawczyk.combine exEnv [some (shares.getD 14 []), some (shares.getD 15 [])] 17 3 = err e) ∧
    (shares.getD 9 []).getD 20 0 - 1 = 9 ∧
    (5 : Byte) = (shares.getD 2 []).getD 21 0 ^^^ ofb (exEnv.aes (keyFromTags shares)) (List.replicate 16 0) 4 := by
  obtain ⟨shares, ps', h⟩ := ex_splitR
  have hf := C36_splitWithRandomizer_format _ exEnv_contract _ _ _ _ _ _ _ _ h
  have hsub := ex_last_three hf.1
  have hd : ((List.range (17 : Int).toNat).map exRand.ks).Nodup := by decide
  have h35 := C35_splitWithRandomizer_combine exEnv exEnv exEnv_contract rfl rfl rfl _ _ _ _ _ _ _ _ _ h hsub (by simp)
  refine ⟨shares, ps', h, (hf.2 16 (by omega)).1, h35, ?_, ?_, ?_, ?_⟩
  · rw [← h35]
    refine (C45_splitWithRandomizer_order exEnv exEnv exEnv_contract _ _ _ _ _ _ _ _ _ _ h (by simp) (by simp) hsub ?_).symm
    exact List.Perm.swap _ _ _
  · refine C38_splitWithRandomizer_too_few exEnv exEnv exEnv_contract _ _ _ _ _ _ _ _ _ h (by simp) ?_ ?_
    · intro d hd
      refine hsub.subset ?_
      have hd : d ∈ [shares.getD 14 [], shares.getD 15 []] := hd
      change d ∈ [shares.getD 14 [], shares.getD 15 [], shares.getD 16 []]
      simp only [List.mem_cons, List.not_mem_nil, or_false] at hd ⊢
      exact hd.elim Or.inl (fun h => Or.inr (Or.inl h))
    · generalize shares.getD 14 [] = a
      generalize shares.getD 15 [] = b
      have e : ([some a, some b].filterMap id) = [a, b] := rfl
      have := (List.dedup_sublist [a, b]).length_le
      rw [e]
      simp only [List.length_cons, List.length_nil] at this
      omega
  · exact C44_tag_is_key_byte exEnv exEnv_contract 0 _ _ _ _ _ _ _ (by omega) hd h 9 (by omega)
  · exact C44_key_recovery exEnv exEnv_contract 0 _ _ _ _ _ _ _ (by omega) (by omega) hd h 2 0 (by omega) (by decide)
      (by decide)

/-- C43: two secrets split with one randomizer. -/
example : ∃ s1 s2 p1 p2, Krawczyk.splitWithRandomizer exEnv 1 [1, 2, 3, 4] 3 2 exRand (Shamir.Pools.init 4) = ok (s1, p1) ∧
    Krawczyk.splitWithRandomizer exEnv 1 [9, 9, 7, 9] 3 2 exRand (Shamir.Pools.init 1) = ok (s2, p2) ∧
    (s1.getD 1 []).getD 21 0 ^^^ (s2.getD 1 []).getD 21 0 = (3 : Byte) ^^^ 7 := by
  obtain ⟨⟨s1, p1⟩, h1⟩ := C37_splitWithRandomizer_succeeds exEnv exEnv_contract 0 [1, 2, 3, 4] 3 2 exRand
    (Shamir.Pools.init 4) (kSplitError_none.2 ⟨by omega, by omega, by omega, by simp, by simp, by omega⟩) (by omega)
    (by decide)
  obtain ⟨⟨s2, p2⟩, h2⟩ := C37_splitWithRandomizer_succeeds exEnv exEnv_contract 0 [9, 9, 7, 9] 3 2 exRand
    (Shamir.Pools.init 1) (kSplitError_none.2 ⟨by omega, by omega, by omega, by simp, by simp, by omega⟩) (by omega)
    (by decide)
  exact ⟨s1, s2, p1, p2, h1, h2, C43_same_key _ exEnv_contract _ _ _ _ _ _ _ _ _ _ _ _ _ h1 h2 rfl 1 0 (by omega)
    (by decide) (by decide)⟩

/-- C46: a Worker that forgets the shares of one algorithm name and is asked with another one. -/
example (ss : List (Option (List Byte))) : Worker.Worker.combine exEnv ⟨exRand⟩ "shamir2" ss 3 2 = err .invalidAlgorithm :=
  (C46_unknown_algorithm exEnv 5 ⟨exRand⟩ "shamir2" (by decide) (by decide) [1] ss 3 2 (Shamir.Pools.init 1)).2

example : ∃ shares ps', Worker.Worker.split exEnv 1 ⟨exRand⟩ "krawczyk" [1, 2, 3, 4, 5] 17 3 (Shamir.Pools.init 4)
      = ok (shares, ps') ∧
    Worker.Worker.combine exEnv ⟨exRand⟩ "krawczyk" (((shares.drop 14).take 3).map some) 17 3 = ok [1, 2, 3, 4, 5] := by
  obtain ⟨shares, ps', h⟩ := ex_splitR
  have hf := C36_splitWithRandomizer_format _ exEnv_contract _ _ _ _ _ _ _ _ h
  refine ⟨shares, ps', h, C46_round_trip exEnv exEnv exEnv_contract rfl rfl rfl 1 ⟨exRand⟩ ⟨exRand⟩ _ _ _ _ _ _ _ _ h
    ((List.take_sublist _ _).trans (List.drop_sublist _ _)).subperm ?_⟩
  have := hf.1
  rw [List.length_take, List.length_drop]; omega

/-- C41, C42. -/
example : ∃ c, encrypt exEnv [1, 2, 3] (List.replicate 24 7) = ok c ∧ c.length = 3 ∧
    decrypt { exEnv with decChunks := exEnv.encChunks } c (List.replicate 24 7) = ok [1, 2, 3] :=
  C41_decrypt_encrypt exEnv { exEnv with decChunks := exEnv.encChunks } rfl [1, 2, 3] _ (Or.inr (Or.inl List.length_replicate))

example : encrypt exEnv [1, 2, 3] (List.replicate 15 7) = err .aesKeySize :=
  (C41_bad_key exEnv _ _ (by rw [List.length_replicate]; omega)).1

example : ∀ i < 4, ((keyLenPair (List.replicate 16 7) (List.replicate 1000 0)).getD (16 + i) 0).toNat = 1000 / 256 ^ i % 256 := by
  have := (C42_length_field (List.replicate 16 7) (List.replicate 1000 0) (by simp) (by rw [List.length_replicate]; omega)).2.2.2
  rwa [List.length_replicate] at this

/-- C39: nil entries before and between the shares. -/
example (d e : List Byte) (hd : d.length = 30) (he : e.length = 30) :
    Krawczyk.combine exEnv [none, some d, none, none, some e] 5 2 = Krawczyk.combine exEnv [some d, some e] 5 2 := by
  refine C39_nil_entries exEnv _ _ 5 2 (by simp) (by simp) rfl ?_
  simp [hd, he]

/-- C39, C40: a share of 21 bytes panics, an index above `parts` is an error. -/
example : Krawczyk.combine exEnv [none, some (List.replicate 21 0)] 3 2 = panic :=
  (C40_panics_iff _ _ _ _).2 (Or.inr ⟨by decide, Or.inr ⟨[], List.replicate 21 0, [], rfl, by simp, Or.inr ⟨by decide, Or.inl rfl⟩⟩⟩)

example : Krawczyk.combine exEnv [some (List.replicate 22 9)] 3 2 = err .partIdTooLarge :=
  C40_index_too_large _ _ _ _ (by decide) (by omega) [] [] (List.replicate 22 9) rfl (by simp) (by simp) (by decide)

example : Krawczyk.combine exEnv [some (List.replicate 22 3)] 3 2 = panic :=
  (C40_panics_iff _ _ _ _).2 (Or.inr ⟨by decide, Or.inr ⟨[], List.replicate 22 3, [], rfl, by simp, Or.inr ⟨by decide, Or.inr rfl⟩⟩⟩)

/-- C37: threshold 1 is refused by shamir.Split only, an empty secret by the encoder, more than 255 parts at once; for
acceptable arguments `SplitWithRandomizer` does one of three things. -/
example (keyRnd rnd : Nat → Byte) (ps : Shamir.Pools) (r : CSPRNG) (fuel : Nat) :
    Krawczyk.split exEnv [1, 2] 3 1 keyRnd (List.range 255) rnd ps = err .thresholdLt2 ∧
    Krawczyk.split exEnv [] 3 1 keyRnd (List.range 255) rnd ps = err .rsEncode ∧
    Krawczyk.splitWithRandomizer exEnv fuel [1, 2] 300 2 r ps = err .partsOrThresholdGt255 ∧
    (Krawczyk.splitWithRandomizer exEnv fuel [1, 2] 3 2 r ps = spin ∨
      ∃ res, Krawczyk.splitWithRandomizer exEnv fuel [1, 2] 3 2 r ps = ok res) := by
  refine ⟨C37_split_validates exEnv exEnv_contract [1, 2] 3 1 keyRnd _ (List.Perm.refl _) rnd ps,
    C37_split_validates exEnv exEnv_contract [] 3 1 keyRnd _ (List.Perm.refl _) rnd ps,
    C37_splitWithRandomizer_validates exEnv exEnv_contract fuel [1, 2] 300 2 r ps, ?_⟩
  have := C37_splitWithRandomizer_validates exEnv exEnv_contract fuel [1, 2] 3 2 r ps
  rw [kSplitError_none.2 ⟨by omega, by omega, by omega, by simp, by simp, by omega⟩] at this
  rcases this with h | ⟨-, h, -⟩ | ⟨h, -⟩
  · exact .inr h
  · omega
  · exact .inl h

/-- C38: two shares, threshold 3. -/
example (d e s : List Byte) : Krawczyk.combine exEnv [some d, none, none, some e] 5 3 ≠ ok s :=
  C38_too_few_never_ok exEnv _ 5 3 (by simp) s

/-- C41: one-byte writes and one large write. -/
example (m : List Byte) : encrypt { exEnv with encChunks := exEnv.decChunks } m (List.replicate 16 7) = encrypt exEnv m (List.replicate 16 7) :=
  (C41_chunking_irrelevant exEnv { exEnv with encChunks := exEnv.decChunks } rfl m _).1

/-- C43, C44: byte 0 of the payload of share 2 (of 17, threshold 3, secret of 5 bytes) is byte 4 of the ciphertext. -/
example : ∃ shares ps', Krawczyk.splitWithRandomizer exEnv 1 [1, 2, 3, 4, 5] 17 3 exRand (Shamir.Pools.init 4) = ok (shares, ps') ∧
    (shares.getD 2 []).getD 21 0 = 5 ^^^ ofb (exEnv.aes [0, 1, 2, 3, 4, 5, 6, 7, 8, 9, 10, 11, 12, 13, 14, 15]) (List.replicate 16 0) 4 := by
  obtain ⟨shares, ps', h⟩ := ex_splitR
  exact ⟨shares, ps', h, C43_C44_data_share exEnv exEnv_contract _ _ _ _ _ _ _ _ h 2 0 (by omega) (by decide) (by decide)⟩

/-- C45: two shares of 30 bytes with the indices 3 and 1, in either order. -/
example (d e : List Byte) (hd : d.length = 29) (he : e.length = 29) :
    Krawczyk.combine exEnv [some (d ++ [3]), some (e ++ [1])] 5 2 = Krawczyk.combine exEnv [none, some (e ++ [1]), some (d ++ [3])] 5 2 := by
  have h1 : partNo (d ++ [3#8]) = 3 := by simp [partNo]
  have h2 : partNo (e ++ [1#8]) = 1 := by simp [partNo]
  refine C45_order_irrelevant exEnv _ _ 5 2 (by simp) (by simp) (List.Perm.swap _ _ _) ?_ ?_ ?_
  · simp [hd, he]
  · simp [WellFormed, h1, h2, hd, he]
  · simp [h1, h2]

/-- C45: two of five shares (too few), in either order. -/
example : ∃ shares ps', Krawczyk.split exEnv [1, 2, 3, 4, 5] 5 3 (fun i => BitVec.ofNat 8 (3 * i)) (List.range 255)
    (fun i => BitVec.ofNat 8 (7 * i + 1)) (Shamir.Pools.init 4) = ok (shares, ps') ∧
    Krawczyk.combine exEnv [some (shares.getD 1 []), some (shares.getD 0 [])] 5 3
      = Krawczyk.combine exEnv [some (shares.getD 0 []), none, some (shares.getD 1 [])] 5 3 := by
  obtain ⟨shares, ps', h⟩ := ex_split
  have hf := C36_split_format _ exEnv_contract _ _ _ _ _ (List.Perm.refl _) _ _ _ _ h
  refine ⟨shares, ps', h, C45_split_order exEnv exEnv exEnv_contract _ _ _ _ _ (List.Perm.refl _) _ _ _ _ _ _ h (by simp) (by simp)
    ?_ (List.Perm.swap _ _ _)⟩
  match shares, hf.1 with
  | [a, b, c, d, e], _ => exact ⟨[a, b], List.Perm.swap _ _ _, by simp⟩

end Verif.Props
