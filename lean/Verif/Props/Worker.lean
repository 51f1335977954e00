import Verif.Props.Krawczyk
import Verif.Props.CtrMode
import Verif.Props.Seeds

/-! # C75: one worker for its whole life

The state of the pools is what earlier and concurrent calls, of this worker or anybody else, leave behind; the theorems
quantify over the pools of every call separately, so they relate any two calls in the life of a worker. -/

namespace Verif.Props
open Verif Outcome Galois Spec Proofs Csprng Krawczyk Worker

/-- The evaluation point a share made under the name `alg` shows: the last byte of a shamir share, byte 20 of a krawczyk
share. -/
def shownTag (alg : String) (share : List Byte) : Byte := if alg = "shamir" then tag share else share.getD 20 0

/-- Arguments that Worker.Split does not refuse. -/
def Accepted (env : Env) (alg : String) (input : List Byte) (n k : Int) : Prop :=
  alg = "shamir" ∧ argError input n k = none ∨ alg = "krawczyk" ∧ kSplitError env.lib input n k = none

/-- C75: `NewWorker` never fails and touches no memory but one new array; as long as nobody writes to that array, the
worker's source delivers AES in counter mode under the 32 bytes taken from math/rand. -/
theorem C75_newWorker (aes : List Byte → List Byte → List Byte) (hE : ∀ key b, key.length = 16 → b.length = 16 → (aes key b).length = 16)
    (h : Heap.Arr → List Byte) (a : Heap.Arr) (rnd : Nat → Byte) :
    ∃ h' w, newWorker h a rnd = ok (h', w) ∧ (∀ b, b ≠ a → h' b = h b) ∧
      ∀ h'', h'' a = h' a → ∀ n, firstBytes (w.worker aes h'').r n
        = (counterMode (aes ((List.range 16).map rnd)) (n / 16 + 1) ((List.range 16).map fun i => rnd (16 + i))).take n := by
  obtain ⟨h', r, h1, h2, h3⟩ := C56_newCSPRNG aes hE h a rnd
  refine ⟨h', ⟨r⟩, ?_, h2, h3⟩
  unfold newWorker
  rw [h1]; rfl

theorem newWorker_eq {aes : List Byte → List Byte → List Byte} {h h' : Heap.Arr → List Byte} {a : Heap.Arr} {rnd : Nat → Byte}
    {w : WorkerHandle} (hn : newWorker h a rnd = ok (h', w)) {h'' : Heap.Arr → List Byte} (he : h'' a = h' a) :
    w.worker aes h'' = ⟨⟨ctrAt (aes (((List.range 32).map rnd).take 16)) (((List.range 32).map rnd).drop 16)⟩⟩ := by
  unfold newWorker at hn
  obtain ⟨⟨m, r⟩, h1, h2⟩ := bind_eq_ok.1 hn
  cases h2
  unfold newCSPRNG at h1
  obtain ⟨r', h3, h4⟩ := bind_eq_ok.1 h1
  cases h4
  have hc : ∀ m : Heap.Arr → List Byte, m a = (List.range 32).map rnd →
      contents m ⟨a, 0, 32, 32⟩ = (List.range 32).map rnd := by
    intro m hm
    simp [contents, hm]
  rw [Function.update_self] at he
  unfold WorkerHandle.worker
  rw [source_eq aes rfl h3, hc _ (Function.update_self ..), hc _ he]

/-- C75: two workers made from the same 32 bytes, anywhere and at any time, do exactly the same. -/
theorem C75_same_bytes (aes : List Byte → List Byte → List Byte) (h1 h1' h2 h2' : Heap.Arr → List Byte) (a1 a2 : Heap.Arr)
    (rnd1 rnd2 : Nat → Byte) (w1 w2 : WorkerHandle) (hn1 : newWorker h1 a1 rnd1 = ok (h1', w1))
    (hn2 : newWorker h2 a2 rnd2 = ok (h2', w2)) (hr : ∀ i < 32, rnd1 i = rnd2 i)
    (m1 m2 : Heap.Arr → List Byte) (hm1 : m1 a1 = h1' a1) (hm2 : m2 a2 = h2' a2) (env : Env) (fuel : Nat) (alg : String)
    (input : List Byte) (n k : Int) (ps : Shamir.Pools) :
    (w1.worker aes m1).split env fuel alg input n k ps = (w2.worker aes m2).split env fuel alg input n k ps := by
  have e : (List.range 32).map rnd1 = (List.range 32).map rnd2 :=
    List.map_congr_left fun i hi => hr i (List.mem_range.1 hi)
  rw [newWorker_eq hn1 hm1, newWorker_eq hn2 hm2, e]

theorem split_shamir {env : Env} {fuel : Nat} {w : Worker.Worker} {input : List Byte} {n k : Int} {ps : Shamir.Pools} :
    w.split env fuel "shamir" input n k ps = Shamir.splitWithRandomizer env.arch fuel input n k w.r ps := rfl

theorem split_krawczyk {env : Env} {fuel : Nat} {w : Worker.Worker} {input : List Byte} {n k : Int} {ps : Shamir.Pools} :
    w.split env fuel "krawczyk" input n k ps = Krawczyk.splitWithRandomizer env fuel input n k w.r ps := rfl

theorem split_names {env : Env} {fuel : Nat} {w : Worker.Worker} {alg : String} {input : List Byte} {n k : Int}
    {ps : Shamir.Pools} {res} (h : w.split env fuel alg input n k ps = ok res) : alg = "shamir" ∨ alg = "krawczyk" := by
  by_contra hc
  rw [not_or] at hc
  rw [(C46_unknown_algorithm env fuel w alg hc.1 hc.2 input [] n k ps).1] at h
  cases h

/-- byte 20 of the shares is the tag of the metadata -/
theorem ksharing_tags {env : Env} {secret key : List Byte} {k m : Nat} {md shares : List (List Byte)}
    (h : KSharing env secret key k m md shares) : shares.map (·.getD 20 0) = md.map tag := by
  rw [h.shares_eq, List.map_map]
  apply List.ext_getElem
  · simp [h.md_len]
  · intro i h1 h2
    have hi : i < k + m := by simpa using h1
    have hmd : i < md.length := by rw [h.md_len]; exact hi
    have hl : (md.getD i []).length = 21 := h.md_length hi
    simp only [List.getElem_map, Function.comp, List.getElem_range]
    rw [List.getD_eq_getElem?_getD, List.getElem?_append_left (by rw [hl]; omega), ← List.getD_eq_getElem?_getD]
    have e : md[i] = md.getD i [] := by rw [List.getD_eq_getElem?_getD, List.getElem?_eq_getElem hmd, Option.getD_some]
    rw [e, tag, hl]

theorem split_tags {env : Env} (hc : env.lib.Contract) {fuel : Nat} {w : Worker.Worker} {alg : String} {input : List Byte}
    {n k : Int} {ps ps' : Shamir.Pools} {shares : List (List Byte)}
    (h : w.split env fuel alg input n k ps = ok (shares, ps')) :
    (2 ≤ n ∧ n ≤ 255) ∧ ∃ xs, w.r.getUniqueBytes fuel (BitVec.ofInt 8 n) = ok xs ∧
      shares.map (shownTag alg) = xs.map (· + 1#8) := by
  rcases split_names h with rfl | rfl
  · rw [split_shamir] at h
    obtain ⟨⟨v1, v2, v3, v4⟩, -, -, hx⟩ := splitWithRandomizer_ok env.arch fuel h
    exact ⟨⟨by omega, v2⟩, hx⟩
  · rw [split_krawczyk] at h
    obtain ⟨he, md, hs, hk⟩ := ksplitR_ok env hc h
    obtain ⟨⟨v1, v2, v3, v4⟩, -, -, xs, hx, ht⟩ := splitWithRandomizer_ok env.arch fuel hs
    refine ⟨⟨by omega, v2⟩, xs, hx, ?_⟩
    rw [← ht, ← ksharing_tags hk]
    rfl

/-- C75: all shares a worker ever makes show the same evaluation points: a split into `n` shares shows the first `n` of
those that a split into `n' ≥ n` shares shows (with both below 20 or both from 20 on), whatever the algorithms, the
secrets, the thresholds and the calls in between. -/
theorem C75_tags (env env' : Env) (hc : env.lib.Contract) (hc' : env'.lib.Contract) (fuel fuel' : Nat) (w : Worker.Worker)
    (alg alg' : String) (input input' : List Byte) (n n' k k' : Int) (ps ps1 qs qs1 : Shamir.Pools)
    (shares shares' : List (List Byte)) (h : w.split env fuel alg input n k ps = ok (shares, ps1))
    (h' : w.split env' fuel' alg' input' n' k' qs = ok (shares', qs1)) (hle : n ≤ n') (hside : n' < 20 ∨ 20 ≤ n) :
    shares.map (shownTag alg) = (shares'.map (shownTag alg')).take n.toNat := by
  obtain ⟨⟨a1, a2⟩, xs, hx, ht⟩ := split_tags hc h
  obtain ⟨⟨b1, b2⟩, xs', hx', ht'⟩ := split_tags hc' h'
  have e := ofInt_toNat (parts := n) (by omega) a2
  have e' := ofInt_toNat (parts := n') (by omega) b2
  rw [ht, ht', ← List.map_take, getUnique_prefix hx hx' (by omega) (by omega), e]

/-- When an accepted call returns: with fewer than 20 shares iff no class {v, v xor k0} occurs too often among the first
`n` bytes of the key stream, with 20 or more iff the first byte is not 254. -/
theorem split_returns (env : Env) (hc : env.lib.Contract) (w : Worker.Worker) {alg : String} {input : List Byte} {n k : Int}
    (ha : Accepted env alg input n k) :
    (n < 20 → ((∀ v, classCount w.r n.toNat v ≤ classSize w.r) → ∀ ps, ∃ res, ∀ fuel, 2 ≤ fuel →
        w.split env fuel alg input n k ps = ok res) ∧
      ((∃ v, classSize w.r < classCount w.r n.toNat v) → ∀ ps fuel, w.split env fuel alg input n k ps = spin)) ∧
    (20 ≤ n → (w.r.ks 0 ≠ 254#8 → ∀ ps, ∃ res, ∀ fuel, w.split env fuel alg input n k ps = ok res) ∧
      (w.r.ks 0 = 254#8 → ∀ ps fuel, w.split env fuel alg input n k ps = panic)) := by
  rcases ha with ⟨rfl, he⟩ | ⟨rfl, he⟩
  · have hv := argError_none.1 he
    refine ⟨fun h => ⟨fun h1 ps => ?_, fun h1 ps fuel => ?_⟩, fun h => ⟨fun h1 ps => ?_, fun h1 ps fuel => ?_⟩⟩
    · exact (C13_C28_splitWithRandomizer_returns env.arch input n k w.r ps hv h).1 h1
    · exact (C13_C28_splitWithRandomizer_returns env.arch input n k w.r ps hv h).2 h1 fuel
    · exact (C13_C28_splitWithRandomizer_returns_large env.arch input n k w.r ps hv h).1 h1
    · exact (C13_C28_splitWithRandomizer_returns_large env.arch input n k w.r ps hv h).2 h1 fuel
  · have hk := fun ps => C28_C37_splitWithRandomizer_returns env hc input n k w.r ps he
    exact ⟨fun h => ⟨fun h1 ps => ((hk ps).1 h).1 h1, fun h1 ps fuel => ((hk ps).1 h).2 h1 fuel⟩,
      fun h => ⟨fun h1 ps => ((hk ps).2 h).1 h1, fun h1 ps fuel => ((hk ps).2 h).2 h1 fuel⟩⟩

theorem split_refused (env : Env) (hc : env.lib.Contract) (w : Worker.Worker) {alg : String} {input : List Byte} {n k : Int}
    (ha : ¬ Accepted env alg input n k) : ∃ e, ∀ fuel ps, w.split env fuel alg input n k ps = err e := by
  by_cases h1 : alg = "shamir"
  · subst h1
    cases he : argError input n k with
    | none => exact absurd (.inl ⟨rfl, he⟩) ha
    | some e =>
      refine ⟨e, fun fuel ps => ?_⟩
      have := C13_splitWithRandomizer_validates env.arch fuel input n k w.r ps
      rw [he] at this
      exact this
  · by_cases h2 : alg = "krawczyk"
    · subst h2
      cases he : kSplitError env.lib input n k with
      | none => exact absurd (.inr ⟨rfl, he⟩) ha
      | some e =>
        refine ⟨e, fun fuel ps => ?_⟩
        have := C37_splitWithRandomizer_validates env hc fuel input n k w.r ps
        rw [he] at this
        exact this
    · exact ⟨.invalidAlgorithm, fun fuel ps => (C46_unknown_algorithm env fuel w alg h1 h2 input [] n k ps).1⟩

/-- C75: what becomes of a call is decided by the arguments and the 32 bytes the worker was made from: a call that is
refused, returns, panics or never returns once does so always. -/
theorem C75_same_fate (env : Env) (hc : env.lib.Contract) (w : Worker.Worker) (alg : String) (input : List Byte) (n k : Int) :
    (¬ Accepted env alg input n k ∧ ∃ e, ∀ fuel ps, w.split env fuel alg input n k ps = err e) ∨
    Accepted env alg input n k ∧
      ((∀ ps, ∃ res, ∀ fuel, 2 ≤ fuel → w.split env fuel alg input n k ps = ok res) ∨
       (∀ ps fuel, w.split env fuel alg input n k ps = panic) ∨ ∀ ps fuel, w.split env fuel alg input n k ps = spin) := by
  by_cases ha : Accepted env alg input n k
  · refine .inr ⟨ha, ?_⟩
    obtain ⟨h1, h2⟩ := split_returns env hc w ha
    rcases lt_or_ge n 20 with hn | hn
    · by_cases hv : ∀ v, classCount w.r n.toNat v ≤ classSize w.r
      · exact .inl ((h1 hn).1 hv)
      · push Not at hv
        exact .inr (.inr ((h1 hn).2 hv))
    · by_cases h0 : w.r.ks 0 = 254#8
      · exact .inr (.inl ((h2 hn).2 h0))
      · refine .inl fun ps => ?_
        obtain ⟨res, hres⟩ := (h2 hn).1 h0 ps
        exact ⟨res, fun fuel _ => hres fuel⟩
  · exact .inl ⟨ha, split_refused env hc w ha⟩

/-- C75: if one Split of a worker panics, every accepted Split of that worker into 20 or more shares panics, by either
algorithm, for ever; and none into fewer shares does. -/
theorem C75_panic_spreads (env env' : Env) (hc : env.lib.Contract) (hc' : env'.lib.Contract) (fuel : Nat) (w : Worker.Worker)
    (alg alg' : String) (input input' : List Byte) (n n' k k' : Int) (ps : Shamir.Pools)
    (h : w.split env fuel alg input n k ps = panic) :
    20 ≤ n ∧ (20 ≤ n' → Accepted env' alg' input' n' k' → ∀ qs fuel', w.split env' fuel' alg' input' n' k' qs = panic) ∧
      (n' < 20 → ∀ qs fuel', w.split env' fuel' alg' input' n' k' qs ≠ panic) := by
  have ha : Accepted env alg input n k := by
    by_contra hc0
    obtain ⟨e, he⟩ := split_refused env hc w hc0
    rw [he] at h
    cases h
  have small : ∀ (env : Env) (hc : env.lib.Contract) alg input n k fuel ps, n < 20 →
      w.split env fuel alg input n k ps ≠ panic := by
    intro env hc alg input n k fuel ps hn hp
    by_cases ha : Accepted env alg input n k
    · rcases ha with ⟨rfl, he⟩ | ⟨rfl, he⟩
      · have := C13_splitWithRandomizer_validates env.arch fuel input n k w.r ps
        rw [he, ← split_shamir, hp] at this
        rcases this with ⟨_, h⟩ | ⟨-, h, -⟩ | ⟨h, -⟩
        · cases h
        · omega
        · cases h
      · have := C37_splitWithRandomizer_validates env hc fuel input n k w.r ps
        rw [he, ← split_krawczyk, hp] at this
        rcases this with ⟨_, h⟩ | ⟨-, h, -⟩ | ⟨h, -⟩
        · cases h
        · omega
        · cases h
    · obtain ⟨e, he⟩ := split_refused env hc w ha
      rw [he] at hp
      cases hp
  have hn : 20 ≤ n := by
    by_contra hn
    exact small env hc alg input n k fuel ps (by omega) h
  have h0 : w.r.ks 0 = 254#8 := by
    by_contra h0
    obtain ⟨res, hres⟩ := ((split_returns env hc w ha).2 hn).1 h0 ps
    rw [hres] at h
    cases h
  exact ⟨hn, fun hn' ha' qs fuel' => ((split_returns env' hc' w ha').2 hn').2 h0 qs fuel',
    fun hn' qs fuel' => small env' hc' alg' input' n' k' fuel' qs hn'⟩

theorem classCount_mono (r : CSPRNG) {n n' : Nat} (h : n ≤ n') (v : Byte) : classCount r n v ≤ classCount r n' v := by
  unfold classCount
  exact ((List.range_sublist.2 h).filter _).length_le

/-- C75: if one accepted Split of a worker into fewer than 20 shares never returns, then no Split of that worker into at
least as many, but fewer than 20, shares ever returns shares, by either algorithm. -/
theorem C75_hang_spreads (env env' : Env) (hc : env.lib.Contract) (hc' : env'.lib.Contract) (w : Worker.Worker)
    (alg alg' : String) (input input' : List Byte) (n n' k k' : Int) (ps : Shamir.Pools)
    (ha : Accepted env alg input n k) (ha' : Accepted env' alg' input' n' k')
    (h : ∀ fuel, w.split env fuel alg input n k ps = spin) (hle : n ≤ n') (h20 : n' < 20) :
    ∀ qs fuel, w.split env' fuel alg' input' n' k' qs = spin := by
  have hv : ∃ v, classSize w.r < classCount w.r n.toNat v := by
    by_contra hv
    push Not at hv
    obtain ⟨res, hres⟩ := ((split_returns env hc w ha).1 (by omega)).1 hv ps
    have := h 2
    rw [hres 2 (le_refl _)] at this
    cases this
  obtain ⟨v, hv⟩ := hv
  exact ((split_returns env' hc' w ha').1 h20).2
    ⟨v, lt_of_lt_of_le hv (classCount_mono w.r (by omega) v)⟩

/-- The bytes that the evaluation points of the first 16 shares give away. -/
def keyFromShown (alg : String) (shares : List (List Byte)) : List Byte :=
  (List.range 16).map fun i => shownTag alg (shares.getD i []) - 1

/-- C75: the evaluation points of one split into 16 to 19 shares, by either algorithm, are the key of every krawczyk split
of the same worker, earlier or later, into any number of shares: each of its first `k` shares then gives its piece of the
secret alone.  (The first `n` bytes of the key stream must be distinct.) -/
theorem C75_key_exposed (env env' : Env) (hc : env.lib.Contract) (hc' : env'.lib.Contract) (fuel fuel' : Nat) (w : Worker.Worker)
    (alg : String) (input secret : List Byte) (n n' k k' : Int) (ps ps1 qs qs1 : Shamir.Pools)
    (shares shares' : List (List Byte)) (hn : 16 ≤ n) (h20 : n < 20)
    (hd : ((List.range n.toNat).map w.r.ks).Nodup)
    (h : w.split env fuel alg input n k ps = ok (shares, ps1))
    (h' : w.split env' fuel' "krawczyk" secret n' k' qs = ok (shares', qs1))
    (i j : Nat) (hi : (i : Int) < k') (hj : j < ceilDiv secret.length k'.toNat)
    (hq : i * ceilDiv secret.length k'.toNat + j < secret.length) :
    secret.getD (i * ceilDiv secret.length k'.toNat + j) 0 = (shares'.getD i []).getD (21 + j) 0
      ^^^ ofb (env'.aes (keyFromShown alg shares)) (List.replicate 16 0) (i * ceilDiv secret.length k'.toNat + j) := by
  obtain ⟨⟨a1, a2⟩, xs, hx, ht⟩ := split_tags hc h
  have e := ofInt_toNat (parts := n) (by omega) a2
  have hx1 := getUnique_mono (by omega) hx 1
  rw [Nat.add_comm, getUnique_distinct (by omega) (by rw [e]; exact hd), e] at hx1
  cases hx1
  have hkey : keyFromShown alg shares = (List.range 16).map w.r.ks := by
    refine List.map_congr_left fun a ha => ?_
    have ha : a < 16 := List.mem_range.1 ha
    have hl := congrArg List.length ht
    simp only [List.length_map, List.length_range] at hl
    have := congrArg (fun l => l[a]?) ht
    simp only [List.getElem?_map, List.getElem?_range (show a < n.toNat by omega), Option.map_some,
      List.getElem?_eq_getElem (show a < shares.length by omega), Option.some.injEq] at this
    rw [List.getD_eq_getElem?_getD, List.getElem?_eq_getElem (by omega), Option.getD_some, this]
    exact BitVec.add_sub_cancel _ _
  rw [split_krawczyk] at h'
  rw [C43_C44_data_share env' hc' fuel' secret n' k' w.r qs qs1 shares' h' i j hi hj hq, hkey, BitVec.xor_assoc,
    BitVec.xor_self, BitVec.xor_zero]

/-- C75: in a program that seeds math/rand with `rand.Seed(t)` and does anything with it (`hist`) before it calls
NewWorker, there are at most 2^31 - 2 different workers, whatever the time `t`. -/
theorem C75_few_workers (aes : List Byte → List Byte → List Byte) (cooked : Nat → BitVec 64) (r : MathRand.Rand)
    (hist : MathRand.Rand → MathRand.Rand) :
    {W : Worker.Worker | ∃ (t : Int) (h : Heap.Arr → List Byte) (a : Heap.Arr) (h' : Heap.Arr → List Byte) (w : WorkerHandle),
      newWorker h a (hist (MathRand.seed cooked t r)).stream = ok (h', w) ∧ W = w.worker aes h'}.encard ≤ 2147483646 := by
  classical
  let S : Finset Int := Finset.Icc 1 2147483646
  let f : Int → Worker.Worker := fun s =>
    ⟨⟨ctrAt (aes (((List.range 32).map (hist (MathRand.seed cooked s r)).stream).take 16))
      (((List.range 32).map (hist (MathRand.seed cooked s r)).stream).drop 16)⟩⟩
  refine (Set.encard_le_encard (t := f '' (S : Set Int)) ?_).trans ?_
  · rintro W ⟨t, h, a, h', w, hw, rfl⟩
    obtain ⟨⟨h1, h2⟩, -⟩ := C70_seed_states cooked t t r
    refine ⟨MathRand.seedWord t, by simpa [S] using ⟨h1, h2⟩, ?_⟩
    have e : MathRand.seed cooked t r = MathRand.seed cooked (MathRand.seedWord t) r := by
      refine (C70_seed_states cooked _ _ r).2 ?_
      generalize MathRand.seedWord t = w at h1 h2 ⊢
      unfold MathRand.seedWord
      simp only []
      rw [Int.tmod_eq_of_lt (by omega) (by omega), if_neg (by omega), if_neg (by omega)]
    rw [newWorker_eq hw rfl]
    simp only [f, ← e]
  · refine (Set.encard_image_le _ _).trans ?_
    rw [Set.encard_coe_eq_coe_finsetCard, Int.card_Icc]
    norm_num

/-! ## Non-vacuity -/

theorem ex_accepted_krawczyk (n : Int) (h : 4 ≤ n) (h' : n ≤ 255) : Accepted exEnv "krawczyk" [1, 2, 3, 4, 5] n 3 :=
  .inr ⟨rfl, kSplitError_none.2 ⟨by omega, by omega, h', by simp, by simp, fun h => by omega⟩⟩

theorem ex_accepted_shamir (n : Int) (h : 4 ≤ n) (h' : n ≤ 255) : Accepted exEnv "shamir" [9, 8] n 4 :=
  .inl ⟨rfl, argError_none.2 ⟨by omega, h', by omega, by simp⟩⟩

/-- C75: a worker with the key stream 0, 1, 2, ... splits by both algorithms; the tags agree, and the tags of the shamir
shares decrypt a krawczyk share. -/
example : ∃ sh ps1 sh' ps2, (⟨exRand⟩ : Worker.Worker).split exEnv 2 "shamir" [9, 8] 16 4 (Shamir.Pools.init 4) = ok (sh, ps1) ∧
    (⟨exRand⟩ : Worker.Worker).split exEnv 2 "krawczyk" [1, 2, 3, 4, 5] 18 3 ps1 = ok (sh', ps2) ∧
    sh.map tag = (sh'.map (·.getD 20 0)).take 16 ∧
    (4 : Byte) = (sh'.getD 1 []).getD 22 0 ^^^ ofb (exEnv.aes (keyFromShown "shamir" sh)) (List.replicate 16 0) 3 := by
  have hcl : ∀ n ≤ 18, ∀ v, classCount exRand n v ≤ classSize exRand := by decide +kernel
  obtain ⟨⟨sh, ps1⟩, h1⟩ := ((split_returns exEnv exEnv_contract ⟨exRand⟩ (ex_accepted_shamir 16 (by omega) (by omega))).1
    (by omega)).1 (hcl 16 (by omega)) (Shamir.Pools.init 4)
  obtain ⟨⟨sh', ps2⟩, h2⟩ := ((split_returns exEnv exEnv_contract ⟨exRand⟩ (ex_accepted_krawczyk 18 (by omega) (by omega))).1
    (by omega)).1 (hcl 18 (by omega)) ps1
  refine ⟨sh, ps1, sh', ps2, h1 2 (le_refl _), h2 2 (le_refl _), ?_, ?_⟩
  · exact C75_tags exEnv exEnv exEnv_contract exEnv_contract 2 2 _ _ _ _ _ _ _ _ _ _ _ _ _ _ _ (h1 2 (le_refl _))
      (h2 2 (le_refl _)) (by omega) (.inl (by omega))
  · exact C75_key_exposed exEnv exEnv exEnv_contract exEnv_contract 2 2 ⟨exRand⟩ "shamir" [9, 8] [1, 2, 3, 4, 5] 16 18 4 3 _ _ _ _
      sh sh' (by omega) (by omega) (by decide) (h1 2 (le_refl _)) (h2 2 (le_refl _)) 1 1 (by omega) (by decide) (by decide)

/-- C75: a worker whose key stream begins with 254 panics: here shamir with 20 shares, hence also krawczyk with 30. -/
example : ∀ ps fuel, (⟨⟨fun _ => 254⟩⟩ : Worker.Worker).split exEnv fuel "krawczyk" [1, 2, 3, 4, 5] 30 3 ps = panic := by
  have h := ((split_returns exEnv exEnv_contract ⟨⟨fun _ => 254⟩⟩ (ex_accepted_shamir 20 (by omega) (by omega))).2
    (by omega)).2 rfl (Shamir.Pools.init 4) 0
  exact (C75_panic_spreads exEnv exEnv exEnv_contract exEnv_contract 0 _ _ "krawczyk" _ [1, 2, 3, 4, 5] 20 30 4 3 _ h).2.1
    (by omega) (ex_accepted_krawczyk 30 (by omega) (by omega))

/-- C75: a worker whose key stream is constant never returns: here shamir with 4 shares, hence also krawczyk with 7. -/
example : ∀ ps fuel, (⟨⟨fun _ => 7⟩⟩ : Worker.Worker).split exEnv fuel "krawczyk" [1, 2, 3, 4, 5] 7 3 ps = spin := by
  have h := ((split_returns exEnv exEnv_contract ⟨⟨fun _ => 7⟩⟩ (ex_accepted_shamir 4 (by omega) (by omega))).1
    (by omega)).2 ⟨7, by decide⟩ (Shamir.Pools.init 4)
  exact C75_hang_spreads exEnv exEnv exEnv_contract exEnv_contract _ _ "krawczyk" _ [1, 2, 3, 4, 5] 4 7 4 3 _
    (ex_accepted_shamir 4 (by omega) (by omega)) (ex_accepted_krawczyk 7 (by omega) (by omega)) h (by omega) (by omega)

/-- C75: NewWorker on the bytes 5, 6, 7, ...: the worker's first 16 bytes are the AES block of the counter 21, ..., 36. -/
example : ∃ h' w, newWorker (fun _ => []) 3 (fun i => BitVec.ofNat 8 (i + 5)) = ok (h', w) ∧
    firstBytes (w.worker exEnv.aes h').r 16 = exEnv.aes ((List.range 16).map fun i => BitVec.ofNat 8 (i + 5))
      ((List.range 16).map fun i => BitVec.ofNat 8 (i + 21)) := by
  obtain ⟨h', w, h1, -, h3⟩ := C75_newWorker exEnv.aes (fun key b hk hb => by simp [exEnv, hk, hb]) (fun _ => []) 3
    (fun i => BitVec.ofNat 8 (i + 5))
  refine ⟨h', w, h1, ?_⟩
  rw [h3 h' rfl 16]
  have e : ((List.range 16).map fun i => BitVec.ofNat 8 (16 + i + 5)) = (List.range 16).map fun i => BitVec.ofNat 8 (i + 21) :=
    List.map_congr_left fun i _ => by rw [show 16 + i + 5 = i + 21 by omega]
  rw [e]
  simp only [counterMode]
  rw [List.take_append_of_le_length (by simp [exEnv]), List.take_of_length_le (by simp [exEnv])]

end Verif.Props
