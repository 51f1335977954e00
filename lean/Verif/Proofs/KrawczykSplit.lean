import Verif.Proofs.Krawczyk
import Verif.Spec.Krawczyk

/-! # krawczyk.Split: closed form -/

namespace Verif.Proofs
open Verif Spec Outcome Galois Csprng RS Krawczyk

/-! ## Reed-Solomon shards -/

/-- Data byte `q` of the padded ciphertext. -/
def padded (lib : RSLib) (data : List Byte) (q : Nat) : Byte :=
  if q < data.length then data.getD q 0 else lib.stale data q

/-- The data shards. -/
def dataShards (lib : RSLib) (k : Nat) (data : List Byte) : List (List Byte) :=
  (List.range k).map fun i => (List.range (perShard data.length k)).map fun j =>
    padded lib data (i * perShard data.length k + j)

/-- Data and parity shards. -/
def codeword (lib : RSLib) (k m : Nat) (data : List Byte) : List (List Byte) :=
  dataShards lib k data ++ parityShards lib k m (dataShards lib k data)

@[simp] theorem length_dataShards (lib : RSLib) (k : Nat) (data : List Byte) : (dataShards lib k data).length = k := by
  simp [dataShards]

theorem mem_dataShards {lib : RSLib} {k : Nat} {data d : List Byte} (h : d ∈ dataShards lib k data) :
    d.length = perShard data.length k := by
  obtain ⟨i, -, rfl⟩ := List.mem_map.1 h
  simp

@[simp] theorem length_codeword (lib : RSLib) (k m : Nat) (data : List Byte) : (codeword lib k m data).length = k + m := by
  simp [codeword, parityShards]

theorem perShard_pos {len k : Nat} (hk : 0 < k) (h : 0 < len) : 0 < perShard len k := by
  unfold perShard
  exact Nat.div_pos (by omega) hk

theorem perShard_mul {len k : Nat} (hk : 0 < k) : len ≤ k * perShard len k := by
  unfold perShard
  have := Nat.div_add_mod (len + k - 1) k
  have := Nat.mod_lt (len + k - 1) hk
  omega

theorem mem_codeword {lib : RSLib} (hc : lib.Contract) {k m : Nat} (hk : 0 < k) (hkm : k + m ≤ 256) {data d : List Byte}
    (h : d ∈ codeword lib k m data) : d.length = perShard data.length k := by
  rcases List.mem_append.1 h with h | h
  · exact mem_dataShards h
  · obtain ⟨r, hr, rfl⟩ := List.mem_map.1 h
    exact hc.parity_length k m _ _ hk hkm (by simp) (fun d hd => mem_dataShards hd) r (by simpa using hr)

theorem flatten_range {α : Type} (f : Nat → α) (per : Nat) : ∀ k,
    ((List.range k).map fun i => (List.range per).map fun j => f (i * per + j)).flatten = (List.range (k * per)).map f
  | 0 => by simp
  | k + 1 => by
    rw [List.range_succ, List.map_append, List.flatten_append, flatten_range f per k, Nat.succ_mul, List.range_add]
    simp

theorem dataShards_flatten (lib : RSLib) {k : Nat} (hk : 0 < k) (data : List Byte) :
    (dataShards lib k data).flatten.take data.length = data := by
  unfold dataShards
  rw [flatten_range (padded lib data)]
  have := perShard_mul (len := data.length) hk
  apply List.ext_getElem
  · simp; omega
  · intro q h1 h2
    simp [padded, h2]

theorem dataShards_flatten_length (lib : RSLib) {k : Nat} (hk : 0 < k) (data : List Byte) :
    data.length ≤ (dataShards lib k data).flatten.length := by
  unfold dataShards
  rw [flatten_range (padded lib data)]
  simpa using perShard_mul hk

theorem rsSplit_eq (lib : RSLib) (k m : Nat) {data : List Byte} (h : data ≠ []) :
    ∃ P, Encoder.split ⟨k, m⟩ lib data = ok P ∧ P.length = k + m ∧ P.take k = dataShards lib k data ∧
      ∀ s ∈ P, s.length = perShard data.length k := by
  have hl : data.length ≠ 0 := by simpa using h
  unfold Encoder.split
  rw [if_neg hl]
  refine ⟨_, rfl, by simp, ?_, ?_⟩
  · simp only [List.map_take]
    rw [← List.map_take, List.take_range, Nat.min_eq_left (by omega)]
    rfl
  · intro s hs
    obtain ⟨i, -, rfl⟩ := List.mem_map.1 hs
    simp

theorem shardSize_all : ∀ {P : List (List Byte)} {L : Nat}, P ≠ [] → 0 < L → (∀ s ∈ P, s.length = L) → shardSize P = L
  | [], _, h, _, _ => absurd rfl h
  | s :: P, L, _, hL, h => by
    have := h s (by simp)
    rw [shardSize, if_pos (by omega), this]

theorem rsEncode_eq (lib : RSLib) {k m : Nat} (hk : 0 < k) {data : List Byte} (h : data ≠ []) :
    (Encoder.split ⟨k, m⟩ lib data >>= Encoder.encode ⟨k, m⟩ lib) = ok (codeword lib k m data) := by
  obtain ⟨P, e, hl, ht, hs⟩ := rsSplit_eq lib k m h
  have hpos := perShard_pos hk (List.length_pos_iff.2 h)
  have hne : P ≠ [] := by intro c; rw [c] at hl; simp at hl; omega
  have hsz := shardSize_all hne hpos hs
  rw [e, ok_bind, Encoder.encode]
  simp only []
  rw [if_neg (by omega), hsz, if_neg (by omega), if_neg, ht]
  · rfl
  · rintro ⟨s, hm, hx⟩; exact hx (hs s hm)

/-! ## Argument checks -/

/-- Arguments that pass `checkArgs`. -/
def ArgsPass (len : Nat) (parts threshold : Int) : Prop :=
  len ≤ 4294967295 ∧ threshold ≠ 0 ∧ parts ≠ 0 ∧ threshold ≤ parts ∧ parts ≤ 255

theorem checkArgs_eq (len : Nat) (parts threshold : Int) :
    checkArgs len parts threshold = match kArgError len parts threshold with
      | some e => err e
      | none => ok () := by
  unfold checkArgs kArgError
  rw [show (2 ^ 32 - 1 : Nat) = 4294967295 by norm_num]
  by_cases h1 : len > 4294967295
  · simp [h1]
  by_cases h2 : threshold = 0 ∨ parts = 0
  · simp only [h1, if_false, h2, if_true]; rfl
  by_cases h3 : threshold > parts
  · simp only [h1, if_false, h2, h3, if_true]; rfl
  by_cases h4 : threshold > 255 ∨ parts > 255
  · simp only [h1, if_false, h2, h3, h4, if_true]
  · simp only [h1, if_false, h2, h3, h4]; rfl

theorem kArgError_none {len : Nat} {parts threshold : Int} : kArgError len parts threshold = none ↔ ArgsPass len parts threshold := by
  unfold kArgError ArgsPass
  rw [show (2 ^ 32 - 1 : Nat) = 4294967295 by norm_num]
  split
  · simp; omega
  split
  · simp; omega
  split
  · simp; omega
  split
  · simp; omega
  · simp; omega

theorem checkArgs_pass {len : Nat} {parts threshold : Int} (h : ArgsPass len parts threshold) :
    checkArgs len parts threshold = ok () := by
  rw [checkArgs_eq, kArgError_none.2 h]

/-! ## encode -/

/-- The codec accepts `k` data and `m` parity shards. -/
def ParityOk (lib : RSLib) (m : Nat) : Prop := 0 < m ∨ lib.allowsNoParity = true

theorem new_ok {lib : RSLib} {k m : Nat} (hk : 0 < k) (hm : ParityOk lib m) (hkm : k + m ≤ 256) :
    RS.new lib k m = ok ⟨k, m⟩ := by
  unfold RS.new
  rw [if_neg, if_neg (by omega)]
  · simp
  · rintro (h | h | ⟨h, h'⟩)
    · omega
    · omega
    · rcases hm with hm | hm
      · omega
      · rw [hm] at h'; cases h'

theorem appendIds_eq (P : List (List Byte)) :
    forUp P.length (fun i es => do
      let s ← idx es i
      setIdx es i (s ++ [BitVec.ofNat 8 i])) P
    = ok ((List.range P.length).map fun i => P.getD i [] ++ [BitVec.ofNat 8 i]) := by
  rw [forUp_fill (fun i => P.getD i [] ++ [BitVec.ofNat 8 i]) le_rfl, filled_all rfl]
  intro i hi
  rw [idx_filled hi, ok_bind]
  apply setIdx_filled hi
  simp [hi]

/-- The ciphertext. -/
def cipherOf (env : Env) (secret key : List Byte) : List Byte := xorKs (keyStream env key) secret

@[simp] theorem length_cipherOf (env : Env) (secret key : List Byte) : (cipherOf env secret key).length = secret.length := by
  simp [cipherOf]

theorem cipherOf_ne (env : Env) {secret key : List Byte} (h : secret ≠ []) : cipherOf env secret key ≠ [] := by
  intro c
  have := congrArg List.length c
  rw [length_cipherOf] at this
  exact h (List.length_eq_zero_iff.1 this)

theorem encode_ok (env : Env) {secret key : List Byte} {k m : Nat} (hkey : key.length = 16) (hk : 0 < k)
    (hm : ParityOk env.lib m) (hkm : k + m ≤ 256) (hs : secret ≠ []) :
    encode env secret key (k + m : Nat) k = ok (cipherOf env secret key,
      (List.range (k + m)).map fun i => (codeword env.lib k m (cipherOf env secret key)).getD i [] ++ [BitVec.ofNat 8 i]) := by
  unfold encode
  rw [encrypt_ok env secret (Or.inl hkey), ok_bind, show ((k + m : Nat) : Int) - (k : Int) = (m : Int) by omega,
    new_ok hk hm hkm, ok_bind, ← bind_assoc]
  rw [show xorKs (keyStream env key) secret = cipherOf env secret key from rfl,
    rsEncode_eq env.lib hk (cipherOf_ne env hs), ok_bind, appendIds_eq, ok_bind]
  simp only [length_codeword, pure_eq]

theorem encode_err_new (env : Env) {secret key : List Byte} {parts threshold : Int} (hkey : key.length = 16)
    (h : RS.new env.lib threshold (parts - threshold) = err .rsInit) :
    encode env secret key parts threshold = err .rsInit := by
  unfold encode
  rw [encrypt_ok env secret (Or.inl hkey), ok_bind, h, err_bind]

theorem encode_err_empty (env : Env) {key : List Byte} {k m : Nat} (hkey : key.length = 16) (hk : 0 < k)
    (hm : ParityOk env.lib m) (hkm : k + m ≤ 256) :
    encode env [] key (k + m : Nat) k = err .rsEncode := by
  unfold encode
  rw [encrypt_ok env [] (Or.inl hkey), ok_bind, show ((k + m : Nat) : Int) - (k : Int) = (m : Int) by omega,
    new_ok hk hm hkm, ok_bind]
  rfl

/-! ## Split -/

/-- `shares` are the `k + m` krawczyk shares of `secret` under `key`, with Shamir shares `md` of the metadata. -/
structure KSharing (env : Env) (secret key : List Byte) (k m : Nat) (md shares : List (List Byte)) : Prop where
  key_len : key.length = 16
  k_ge : 2 ≤ k
  km_le : k + m ≤ 255
  secret_ne : secret ≠ []
  secret_le : secret.length ≤ 4294967295
  parity : ParityOk env.lib m
  md_len : md.length = k + m
  md_sharing : IsSharing (key ++ lePutUint32 (BitVec.ofNat 32 secret.length)) k md
  shares_eq : shares = (List.range (k + m)).map fun i =>
    md.getD i [] ++ ((codeword env.lib k m (cipherOf env secret key)).getD i [] ++ [BitVec.ofNat 8 i])

@[simp] theorem length_lePutUint32 (w : BitVec 32) : (lePutUint32 w).length = 4 := by simp [lePutUint32]

theorem keyLenPair_length {key ct : List Byte} (h : key.length = 16) : (keyLenPair key ct).length = 20 := by
  simp [keyLenPair, h]

theorem new_err {lib : RSLib} {parts threshold : Int}
    (h : threshold ≤ 0 ∨ parts < threshold ∨ (parts = threshold ∧ lib.allowsNoParity = false)) :
    RS.new lib threshold (parts - threshold) = err .rsInit := by
  unfold RS.new
  rw [if_pos]
  rcases h with h | h | ⟨h, h'⟩
  · exact Or.inl h
  · exact Or.inr (Or.inl (by omega))
  · exact Or.inr (Or.inr ⟨by omega, h'⟩)

theorem parityOk_of {lib : RSLib} {parts threshold : Int} (h : ¬ (parts = threshold ∧ lib.allowsNoParity = false))
    (hle : threshold ≤ parts) : ParityOk lib (parts - threshold).toNat := by
  unfold ParityOk
  by_cases e : parts = threshold
  · right; cases h' : lib.allowsNoParity
    · exact absurd ⟨e, h'⟩ h
    · rfl
  · left; omega

/-- The tail of both Split functions: everything after the choice of the key, `sh` being the Shamir split. -/
def kTail (env : Env) (secret key : List Byte) (parts threshold : Int)
    (sh : List Byte → Outcome (List (List Byte) × Shamir.Pools)) : Outcome (List (List Byte) × Shamir.Pools) := do
  checkArgs secret.length parts threshold
  let (encryptedSecret, encodedSecret) ← encode env secret key parts threshold
  let (ssKeyLenPair, ps) ← sh (keyLenPair key encryptedSecret)
  let results ← assemble parts.toNat encodedSecret ssKeyLenPair
  return (results, ps)

theorem kTail_err (env : Env) {secret key : List Byte} {parts threshold : Int} (hkey : key.length = 16)
    {sh : List Byte → Outcome (List (List Byte) × Shamir.Pools)} {e : Err}
    (hsh : ∀ s, s.length = 20 → threshold = 1 → 1 ≤ parts → parts ≤ 255 → sh s = err .thresholdLt2)
    (h : kSplitError env.lib secret parts threshold = some e) : kTail env secret key parts threshold sh = err e := by
  unfold kTail
  rw [checkArgs_eq]
  unfold kSplitError at h
  cases ha : kArgError secret.length parts threshold with
  | some e' => rw [ha] at h; simp only [Option.some_or, Option.some.injEq] at h; subst h; rfl
  | none =>
    have ⟨p1, p2, p3, p4, p5⟩ := kArgError_none.1 ha
    rw [ha] at h
    simp only [Option.none_or] at h
    simp only [ok_bind]
    split at h
    · rename_i hn
      injection h with h; subst h
      rw [encode_err_new env hkey (new_err (hn.imp (fun c => by omega) Or.inr)), err_bind]
    · rename_i hn
      have hk : 0 < threshold.toNat := by omega
      have hpar := parityOk_of (fun c => hn (Or.inr c)) p4
      have hkm : threshold.toNat + (parts - threshold).toNat ≤ 256 := by omega
      have ep : parts = (threshold.toNat + (parts - threshold).toNat : Nat) := by omega
      have et : threshold = (threshold.toNat : Int) := by omega
      split at h
      · rename_i hs
        injection h with h; subst h
        have := encode_err_empty env hkey hk hpar hkm
        rw [← ep, ← et] at this
        rw [hs, this, err_bind]
      · rename_i hs
        split at h
        · rename_i h1
          injection h with h; subst h
          have := encode_ok env hkey hk hpar hkm hs
          rw [← ep, ← et] at this
          rw [this, ok_bind]
          simp only []
          rw [hsh _ (keyLenPair_length hkey) h1 (by omega) (by omega), err_bind]
        · cases h

theorem kSplitError_none {lib : RSLib} {secret : List Byte} {parts threshold : Int} :
    kSplitError lib secret parts threshold = none ↔
      2 ≤ threshold ∧ threshold ≤ parts ∧ parts ≤ 255 ∧ secret ≠ [] ∧ secret.length ≤ 4294967295 ∧
        ¬ (parts = threshold ∧ lib.allowsNoParity = false) := by
  unfold kSplitError
  rw [Option.or_eq_none_iff, kArgError_none, ArgsPass]
  constructor
  · rintro ⟨h, h'⟩
    split at h'
    · cases h'
    · rename_i hn
      split at h'
      · cases h'
      · rename_i hs
        split at h'
        · cases h'
        · exact ⟨by omega, by omega, by omega, hs, h.1, fun c => hn (Or.inr c)⟩
  · rintro ⟨h1, h2, h3, h4, h5, h6⟩
    refine ⟨by omega, ?_⟩
    rw [if_neg (by rintro (c | c); omega; exact h6 c), if_neg h4, if_neg (by omega)]

theorem kTail_ok (env : Env) (hc : env.lib.Contract) {secret key : List Byte} {parts threshold : Int} (hkey : key.length = 16)
    {sh : List Byte → Outcome (List (List Byte) × Shamir.Pools)} {md : List (List Byte)} {ps' : Shamir.Pools}
    (hn : kSplitError env.lib secret parts threshold = none)
    (hsh : sh (keyLenPair key (cipherOf env secret key)) = ok (md, ps')) (hlen : md.length = parts.toNat)
    (hmd : IsSharing (keyLenPair key (cipherOf env secret key)) threshold.toNat md) :
    ∃ shares, kTail env secret key parts threshold sh = ok (shares, ps') ∧
      KSharing env secret key threshold.toNat (parts - threshold).toNat md shares := by
  have ⟨n1, n2, n3, n4, n5, n6⟩ := kSplitError_none.1 hn
  have hpar := parityOk_of n6 n2
  have hk : 0 < threshold.toNat := by omega
  have hkm : threshold.toNat + (parts - threshold).toNat ≤ 256 := by omega
  have ep : parts = (threshold.toNat + (parts - threshold).toNat : Nat) := by omega
  have et : threshold = (threshold.toNat : Int) := by omega
  have en := encode_ok env hkey hk hpar hkm n4
  rw [← ep, ← et] at en
  have ep' : threshold.toNat + (parts - threshold).toNat = parts.toNat := by omega
  rw [ep'] at en
  unfold kTail
  rw [checkArgs_pass ⟨n5, by omega, by omega, n2, n3⟩, ok_bind, en, ok_bind]
  simp only []
  rw [hsh, ok_bind]
  simp only []
  have hmdl : ∀ s ∈ md, s.length = 21 := by
    intro s hs
    obtain ⟨f, -, hf⟩ := hmd.2
    rw [(hf s hs).1, keyLenPair_length hkey]
  rw [assemble_eq (le := perShard secret.length threshold.toNat + 1) (lm := 21) (by omega) (by simp) hlen ?_ hmdl, ok_bind]
  · refine ⟨_, rfl, hkey, by omega, by omega, n4, n5, hpar, by omega, ?_, ?_⟩
    · simpa [keyLenPair] using hmd
    · rw [ep']
      apply List.map_congr_left
      intro i hi
      have hi : i < parts.toNat := by simpa using hi
      congr 1
      simp [hi]
  · intro e he
    obtain ⟨i, hi, rfl⟩ := List.mem_map.1 he
    have hi : i < parts.toNat := by simpa using hi
    have hil : i < (codeword env.lib threshold.toNat (parts - threshold).toNat (cipherOf env secret key)).length := by
      simp only [length_codeword]; omega
    rw [List.length_append, List.getD_eq_getElem?_getD, List.getElem?_eq_getElem hil, Option.getD_some,
      mem_codeword hc hk hkm (List.getElem_mem hil), length_cipherOf]
    simp

theorem split_tail (env : Env) (secret : List Byte) (parts threshold : Int) (keyRnd : Nat → Byte) (perm : List Nat)
    (rnd : Nat → Byte) (ps : Shamir.Pools) :
    Krawczyk.split env secret parts threshold keyRnd perm rnd ps
      = kTail env secret (Shamir.randRead keyRnd 0 (List.replicate 16 0)) parts threshold
          (fun s => Shamir.split env.arch s parts threshold perm rnd ps) := rfl

theorem splitR_tail (env : Env) (fuel : Nat) (secret : List Byte) (parts threshold : Int) (r : CSPRNG) (ps : Shamir.Pools) :
    Krawczyk.splitWithRandomizer env fuel secret parts threshold r ps
      = kTail env secret (r.read (List.replicate 16 0)) parts threshold
          (fun s => Shamir.splitWithRandomizer env.arch fuel s parts threshold r ps) := rfl

end Verif.Proofs
