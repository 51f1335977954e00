import Verif.Proofs.KrawczykTotal
import Verif.Proofs.Results

/-! # krawczyk: results of the Split functions -/

namespace Verif.Proofs
open Verif Spec Outcome Galois Csprng RS Krawczyk

theorem keyLen_args {lib : RSLib} {secret key ct : List Byte} {parts threshold : Int}
    (hkey : key.length = 16) (h : kSplitError lib secret parts threshold = none) :
    ValidArgs (keyLenPair key ct) parts threshold := by
  have ⟨n1, n2, n3, n4, n5, n6⟩ := kSplitError_none.1 h
  refine ⟨by omega, by omega, by omega, ?_⟩
  intro c
  have := keyLenPair_length (ct := ct) hkey
  rw [c] at this
  simp at this

theorem argError_one {s : List Byte} {parts threshold : Int} (h1 : threshold = 1) (hp : 1 ≤ parts) (hp' : parts ≤ 255) :
    argError s parts threshold = some .thresholdLt2 := by
  unfold argError
  rw [if_neg (by omega), if_neg (by omega), if_pos (by omega)]

/-- With acceptable arguments everything up to the Shamir split succeeds. -/
theorem kTail_step_all (env : Env) {secret key : List Byte} {parts threshold : Int} (hkey : key.length = 16)
    (hn : kSplitError env.lib secret parts threshold = none) :
    ∃ es, ∀ sh : List Byte → Outcome (List (List Byte) × Shamir.Pools), kTail env secret key parts threshold sh = (do
      let (md, ps) ← sh (keyLenPair key (cipherOf env secret key))
      let results ← assemble parts.toNat es md
      return (results, ps)) := by
  have ⟨n1, n2, n3, n4, n5, n6⟩ := kSplitError_none.1 hn
  have hpar := parityOk_of n6 n2
  have ep : parts = (threshold.toNat + (parts - threshold).toNat : Nat) := by omega
  have et : threshold = (threshold.toNat : Int) := by omega
  have en := encode_ok env hkey (k := threshold.toNat) (by omega) hpar (by omega) n4
  rw [← ep, ← et] at en
  generalize hes : List.map _ (List.range _) = es at en
  refine ⟨es, fun sh => ?_⟩
  unfold kTail
  rw [checkArgs_pass ⟨n5, by omega, by omega, n2, n3⟩, ok_bind, en, ok_bind]

theorem kTail_step (env : Env) {secret key : List Byte} {parts threshold : Int} (hkey : key.length = 16)
    {sh : List Byte → Outcome (List (List Byte) × Shamir.Pools)}
    (hn : kSplitError env.lib secret parts threshold = none) :
    ∃ es, kTail env secret key parts threshold sh = (do
      let (md, ps) ← sh (keyLenPair key (cipherOf env secret key))
      let results ← assemble parts.toNat es md
      return (results, ps)) :=
  let ⟨es, h⟩ := kTail_step_all env hkey hn
  ⟨es, h sh⟩

theorem kTail_inv (env : Env) (hc : env.lib.Contract) {secret key : List Byte} {parts threshold : Int} (hkey : key.length = 16)
    {sh : List Byte → Outcome (List (List Byte) × Shamir.Pools)} {shares : List (List Byte)} {ps' : Shamir.Pools}
    (hsh1 : ∀ s, s.length = 20 → threshold = 1 → 1 ≤ parts → parts ≤ 255 → sh s = err .thresholdLt2)
    (hsh2 : ∀ s md ps, sh s = ok (md, ps) → md.length = parts.toNat ∧ IsSharing s threshold.toNat md)
    (h : kTail env secret key parts threshold sh = ok (shares, ps')) :
    kSplitError env.lib secret parts threshold = none ∧
    ∃ md, sh (keyLenPair key (cipherOf env secret key)) = ok (md, ps') ∧
      KSharing env secret key threshold.toNat (parts - threshold).toNat md shares := by
  have hn : kSplitError env.lib secret parts threshold = none := by
    cases he : kSplitError env.lib secret parts threshold with
    | none => rfl
    | some e => rw [kTail_err env hkey hsh1 he] at h; cases h
  refine ⟨hn, ?_⟩
  obtain ⟨es, hes⟩ := kTail_step env hkey (sh := sh) hn
  have h' := h
  rw [hes, bind_eq_ok] at h'
  obtain ⟨⟨md, ps⟩, h1, -⟩ := h'
  have ⟨g1, g2⟩ := hsh2 _ _ _ h1
  obtain ⟨shares', e, hk⟩ := kTail_ok env hc hkey hn h1 g1 g2
  rw [e] at h
  injection h with h
  injection h with ha hb
  subst ha hb
  exact ⟨md, h1, hk⟩

theorem randRead_length (rnd : Nat → Byte) (i : Nat) (l : List Byte) : (Shamir.randRead rnd i l).length = l.length := by
  simp [Shamir.randRead]

theorem read_length (r : CSPRNG) (l : List Byte) : (r.read l).length = l.length := by
  simp [CSPRNG.read]

theorem ksplit_ok (env : Env) (hc : env.lib.Contract) {secret : List Byte} {parts threshold : Int} {keyRnd : Nat → Byte}
    {perm : List Nat} (hperm : perm.Perm (List.range 255)) {rnd : Nat → Byte} {ps ps' : Shamir.Pools}
    {shares : List (List Byte)}
    (h : Krawczyk.split env secret parts threshold keyRnd perm rnd ps = ok (shares, ps')) :
    kSplitError env.lib secret parts threshold = none ∧
    ∃ md, Shamir.split env.arch (keyLenPair (Shamir.randRead keyRnd 0 (List.replicate 16 0))
        (cipherOf env secret (Shamir.randRead keyRnd 0 (List.replicate 16 0)))) parts threshold perm rnd ps = ok (md, ps') ∧
      KSharing env secret (Shamir.randRead keyRnd 0 (List.replicate 16 0)) threshold.toNat (parts - threshold).toNat md shares := by
  rw [split_tail] at h
  refine kTail_inv env hc (by simp [randRead_length]) (fun s _ h1 h2 h3 => ?_) (fun s md ps0 hs => ?_) h
  · exact split_invalid env.arch perm rnd ps (argError_one h1 h2 h3)
  · have := split_ok env.arch hperm hs
    exact ⟨this.2.2.1, this.2.1⟩

theorem ksplitR_ok (env : Env) (hc : env.lib.Contract) {fuel : Nat} {secret : List Byte} {parts threshold : Int} {r : CSPRNG}
    {ps ps' : Shamir.Pools} {shares : List (List Byte)}
    (h : Krawczyk.splitWithRandomizer env fuel secret parts threshold r ps = ok (shares, ps')) :
    kSplitError env.lib secret parts threshold = none ∧
    ∃ md, Shamir.splitWithRandomizer env.arch fuel (keyLenPair (r.read (List.replicate 16 0))
        (cipherOf env secret (r.read (List.replicate 16 0)))) parts threshold r ps = ok (md, ps') ∧
      KSharing env secret (r.read (List.replicate 16 0)) threshold.toNat (parts - threshold).toNat md shares := by
  rw [splitR_tail] at h
  refine kTail_inv env hc (by simp [read_length]) (fun s _ h1 h2 h3 => ?_) (fun s md ps0 hs => ?_) h
  · exact splitWithRandomizer_invalid env.arch fuel r ps (argError_one h1 h2 h3)
  · have := splitWithRandomizer_ok env.arch fuel hs
    exact ⟨this.2.2.1, this.2.1⟩

/-! ## Combine does not depend on the machine -/

theorem kcombine_env {env env' : Env} (ha : env'.aes = env.aes) (hm : env'.lib.missing = env.lib.missing)
    (hn : env'.lib.allowsNoParity = env.lib.allowsNoParity) (ssData : List (Option (List Byte))) (parts threshold : Int) :
    Krawczyk.combine env' ssData parts threshold = Krawczyk.combine env ssData parts threshold := by
  have hd : ∀ c key, decrypt env' c key = decrypt env c key := by
    intro c key
    by_cases hk : goodKey key
    · rw [decrypt_ok env' _ hk, decrypt_ok env _ hk, keyStream, keyStream, ha]
    · rw [decrypt_err env' _ hk, decrypt_err env _ hk]
  have hnew : ∀ a b, RS.new env'.lib a b = RS.new env.lib a b := by
    intro a b; unfold RS.new; rw [hn]
  have hrec : ∀ (e : Encoder) s, e.reconstructData env'.lib s = e.reconstructData env.lib s := by
    intro e s; unfold Encoder.reconstructData; rw [hm]
  unfold Krawczyk.combine
  simp only [hd, hnew, hrec]

/-! ## Selections -/

theorem perm_map_lift {α : Type} {f : Nat → α} : ∀ {s : List α} {l : List Nat}, (l.map f).Perm s → ∃ is : List Nat,
    is.Perm l ∧ is.map f = s
  | [], l, h => by
    have := h.length_eq
    exact ⟨l, List.Perm.refl _, by simpa using this⟩
  | a :: s, l, h => by
    obtain ⟨i, hi, rfl⟩ := List.mem_map.1 (h.mem_iff.2 (List.mem_cons_self))
    have hp := List.perm_cons_erase hi
    obtain ⟨is, h1, h2⟩ := perm_map_lift (s := s) (l := l.erase i) (((hp.map f).symm.trans h).cons_inv)
    exact ⟨i :: is, (h1.cons i).trans hp.symm, by rw [List.map_cons, h2]⟩

/-- A selection of the entries of a list given by distinct indices. -/
theorem subperm_map_range {α : Type} {f : Nat → α} {n : Nat} {sub : List α} (h : sub.Subperm ((List.range n).map f)) :
    ∃ is : List Nat, is.Nodup ∧ (∀ i ∈ is, i < n) ∧ sub = is.map f := by
  obtain ⟨l, hp, hs⟩ := h
  obtain ⟨js, hjs, rfl⟩ := List.sublist_map_iff.1 hs
  obtain ⟨is, his, rfl⟩ := perm_map_lift hp
  exact ⟨is, (his.nodup_iff).2 (List.Nodup.sublist hjs List.nodup_range),
    fun i hi => List.mem_range.1 (hjs.subset (his.mem_iff.1 hi)), rfl⟩

end Verif.Proofs
