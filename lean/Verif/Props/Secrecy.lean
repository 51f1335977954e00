import Verif.Proofs.SecrecySplit

/-! # C17, C18: what fewer than `threshold` shares reveal

Probability statements over an ideal source are stated by counting: `count E` is the number of fillings
`ρ` of the random bytes the call reads for which `E ρ` holds (`Spec/Secrecy.lean`).  The permutation
`perm` chosen for the tags is fixed (so the statements hold conditionally on every choice of the tags);
`C17_secrecy_joint` also counts over the permutations. -/

namespace Verif.Props
open Verif Outcome Galois Spec Proofs Shamir Pool Csprng

/-- The shares at the positions `I` are `v`. -/
def Seen (I : Finset Nat) (v : Nat → List Byte) (shares : List (List Byte)) : Prop :=
  ∀ i ∈ I, shares[i]? = some (v i)

/-- Split reads no more than `threshold * len(secret)` random bytes. -/
theorem C17_split_reads (arch : Arch) (secret : List Byte) (parts threshold : Int) (perm : List Nat)
    (hperm : perm.Perm (List.range 255)) (rnd rnd' : Nat → Byte) (ps : Pools)
    (h : ∀ j < threshold.toNat * secret.length, rnd j = rnd' j) :
    (Prod.fst <$> split arch secret parts threshold perm rnd ps)
      = (Prod.fst <$> split arch secret parts threshold perm rnd' ps) := by
  cases he : argError secret parts threshold with
  | some e => rw [split_invalid arch perm _ _ he, split_invalid arch perm _ _ he]
  | none =>
    have hv := argError_none.1 he
    obtain ⟨p1, e1⟩ := split_layout arch rnd ps hv hperm
    obtain ⟨p2, e2⟩ := split_layout arch rnd' ps hv hperm
    rw [e1, e2]
    simp only [map_ok]
    congr 1
    apply List.map_congr_left
    intro x _
    apply cShare_congr
    intro p hp k h1 hk
    exact h _ ((layoutSplit threshold.toNat secret.length).lt p hp k h1 hk)

/-- C17: any view of fewer than `threshold` shares is produced by equally many fillings from any two secrets
of the same length. -/
theorem C17_secrecy (arch : Arch) (s s' : List Byte) (hs : s.length = s'.length) (parts threshold : Int)
    (perm : List Nat) (hperm : perm.Perm (List.range 255)) (ps : Pools) (I : Finset Nat)
    (hI : (I.card : Int) < threshold) (v : Nat → List Byte) :
    count (m := threshold.toNat * s.length) (fun ρ => ∃ shares ps',
        split arch s parts threshold perm (stream ρ) ps = ok (shares, ps') ∧ Seen I v shares)
      = count (m := threshold.toNat * s.length) (fun ρ => ∃ shares ps',
        split arch s' parts threshold perm (stream ρ) ps = ok (shares, ps') ∧ Seen I v shares) := by
  by_cases hv : ValidArgs s parts threshold
  · have hv' : ValidArgs s' parts threshold := by
      refine ⟨hv.1, hv.2.1, hv.2.2.1, ?_⟩
      have := List.length_pos_iff.2 hv.2.2.2
      exact List.length_pos_iff.1 (by omega)
    obtain ⟨hnd, h0⟩ := splitTags_facts hperm parts.toNat
    obtain ⟨e, he⟩ := (layoutSplit threshold.toNat s.length).secrecy rfl hs.symm _ h0 I (by omega)
    refine count_congr e fun ρ => ?_
    obtain ⟨p1, e1⟩ := split_layout arch (stream ρ) ps hv hperm
    obtain ⟨p2, e2⟩ := split_layout arch (stream (e ρ)) ps hv' hperm
    rw [← hs] at e2
    have hiff : ∀ {o : Outcome (List (List Byte) × Pools)} {a p}, o = ok (a, p) →
        ((∃ shares ps', o = ok (shares, ps') ∧ Seen I v shares) ↔ Seen I v a) := by
      rintro o a p rfl
      constructor
      · rintro ⟨b, q, hq, hb⟩; cases hq; exact hb
      · intro h; exact ⟨a, p, rfl, h⟩
    rw [hiff e1, hiff e2]
    exact forall₂_congr fun i hi => Eq.congr_left (he ρ i hi)
  · have hinv : ∀ s'' : List Byte, s''.length = s.length → ∀ rnd : Nat → Byte, ¬ ∃ shares ps',
        split arch s'' parts threshold perm rnd ps = ok (shares, ps') ∧ Seen I v shares := by
      rintro s'' hl rnd ⟨sh, p, h, -⟩
      have := (split_ok arch hperm h).1
      refine hv ⟨this.1, this.2.1, this.2.2.1, ?_⟩
      have := List.length_pos_iff.2 this.2.2.2
      exact List.length_pos_iff.1 (by omega)
    exact count_congr (Equiv.refl _) fun ρ => iff_of_false (hinv s rfl _) (hinv s' hs.symm _)

/-- C17, counting also over the permutations `rand.Perm` may return. -/
theorem C17_secrecy_joint (arch : Arch) (s s' : List Byte) (hs : s.length = s'.length) (parts threshold : Int)
    (ps : Pools) (I : Finset Nat) (hI : (I.card : Int) < threshold) (v : Nat → List Byte) :
    Nat.card {x : {perm : List Nat // perm.Perm (List.range 255)} × (Fin (threshold.toNat * s.length) → Byte) //
        ∃ shares ps', split arch s parts threshold x.1.1 (stream x.2) ps = ok (shares, ps') ∧ Seen I v shares}
      = Nat.card {x : {perm : List Nat // perm.Perm (List.range 255)} × (Fin (threshold.toNat * s.length) → Byte) //
        ∃ shares ps', split arch s' parts threshold x.1.1 (stream x.2) ps = ok (shares, ps') ∧ Seen I v shares} := by
  have key : ∀ perm : {perm : List Nat // perm.Perm (List.range 255)},
      Nonempty ({ρ : Fin (threshold.toNat * s.length) → Byte // ∃ shares ps',
          split arch s parts threshold perm.1 (stream ρ) ps = ok (shares, ps') ∧ Seen I v shares}
        ≃ {ρ : Fin (threshold.toNat * s.length) → Byte // ∃ shares ps',
          split arch s' parts threshold perm.1 (stream ρ) ps = ok (shares, ps') ∧ Seen I v shares}) := by
    intro perm
    have := C17_secrecy arch s s' hs parts threshold perm.1 perm.2 ps I hI v
    have hf : Finite (Fin (threshold.toNat * s.length) → Byte) := inferInstance
    exact Finite.card_eq.1 this
  refine Nat.card_congr ?_
  refine (Equiv.subtypeProdEquivSigmaSubtype (fun (perm : {perm : List Nat // perm.Perm (List.range 255)})
    (ρ : Fin (threshold.toNat * s.length) → Byte) => ∃ shares ps',
      split arch s parts threshold perm.1 (stream ρ) ps = ok (shares, ps') ∧ Seen I v shares)).trans ?_
  refine (Equiv.sigmaCongrRight fun perm => (key perm).some).trans ?_
  exact (Equiv.subtypeProdEquivSigmaSubtype (fun (perm : {perm : List Nat // perm.Perm (List.range 255)})
    (ρ : Fin (threshold.toNat * s.length) → Byte) => ∃ shares ps',
      split arch s' parts threshold perm.1 (stream ρ) ps = ok (shares, ps') ∧ Seen I v shares)).symm

/-- C17, uniformity: the payloads of fewer than `threshold` shares are uniformly distributed, whatever the
secret: any two well-formed views (right length, right tags) are equally likely. -/
theorem C17_uniform (arch : Arch) (s s' : List Byte) (hs : s.length = s'.length) (parts threshold : Int)
    (hv : ValidArgs s parts threshold)
    (perm : List Nat) (hperm : perm.Perm (List.range 255)) (ps : Pools) (I : Finset Nat)
    (hI : (I.card : Int) < threshold) (hIp : ∀ i ∈ I, (i : Int) < parts) (v v' : Nat → List Byte)
    (hw : ∀ i ∈ I, (v i).length = s.length + 1 ∧ tag (v i) = BitVec.ofNat 8 (perm.getD i 0) + 1#8)
    (hw' : ∀ i ∈ I, (v' i).length = s.length + 1 ∧ tag (v' i) = BitVec.ofNat 8 (perm.getD i 0) + 1#8) :
    count (m := threshold.toNat * s.length) (fun ρ => ∃ shares ps',
        split arch s parts threshold perm (stream ρ) ps = ok (shares, ps') ∧ Seen I v shares)
      = count (m := threshold.toNat * s.length) (fun ρ => ∃ shares ps',
        split arch s' parts threshold perm (stream ρ) ps = ok (shares, ps') ∧ Seen I v' shares) := by
  have hv' : ValidArgs s' parts threshold := by
    refine ⟨hv.1, hv.2.1, hv.2.2.1, ?_⟩
    have := List.length_pos_iff.2 hv.2.2.2
    exact List.length_pos_iff.1 (by omega)
  have ⟨v1, v2, v3, v4⟩ := hv
  have hpl := (permBytes_nodup hperm).2.1
  obtain ⟨hnd, h0⟩ := splitTags_facts hperm parts.toNat
  have shape : ∀ w : Nat → List Byte, (∀ i ∈ I, (w i).length = s.length + 1 ∧
      tag (w i) = BitVec.ofNat 8 (perm.getD i 0) + 1#8) → ∀ i ∈ I,
      ∃ h : i < ((perm.take parts.toNat).map fun v => BitVec.ofNat 8 v + 1#8).length,
        (w i).length = s.length + 1 ∧ tag (w i) = ((perm.take parts.toNat).map fun v => BitVec.ofNat 8 v + 1#8)[i] := by
    intro w hw i hi
    have hip := hIp i hi
    have hlt : i < ((perm.take parts.toNat).map fun v => BitVec.ofNat 8 v + 1#8).length := by
      simp only [List.length_map, List.length_take]; omega
    refine ⟨hlt, (hw i hi).1, (hw i hi).2.trans ?_⟩
    have : i < perm.length := by omega
    simp [List.getD_eq_getElem?_getD, this]
  obtain ⟨e, he⟩ := (layoutSplit threshold.toNat s.length).uniform rfl hs.symm _ h0 hnd I (by omega) v v'
    (shape v hw) (shape v' hw')
  refine count_congr e fun ρ => ?_
  obtain ⟨p1, e1⟩ := split_layout arch (stream ρ) ps hv hperm
  obtain ⟨p2, e2⟩ := split_layout arch (stream (e ρ)) ps hv' hperm
  rw [← hs] at e2
  have hiff : ∀ {o : Outcome (List (List Byte) × Pools)} {a p} {v : Nat → List Byte}, o = ok (a, p) →
      ((∃ shares ps', o = ok (shares, ps') ∧ Seen I v shares) ↔ Seen I v a) := by
    rintro o a p v rfl
    constructor
    · rintro ⟨b, q, hq, hb⟩; cases hq; exact hb
    · intro h; exact ⟨a, p, rfl, h⟩
  rw [hiff e1, hiff e2]
  exact he ρ

/-- C17 for `SplitGeneric`, which reads `(threshold-1) * len(secret)` random bytes. -/
theorem C17_splitGeneric_secrecy (s s' : List Byte) (hs : s.length = s'.length) (parts threshold : Int)
    (perm : List Nat) (hperm : perm.Perm (List.range 255)) (I : Finset Nat)
    (hI : (I.card : Int) < threshold) (v : Nat → List Byte) :
    count (m := (threshold.toNat - 1) * s.length) (fun ρ => ∃ shares,
        splitGeneric s parts threshold perm (stream ρ) = ok shares ∧ Seen I v shares)
      = count (m := (threshold.toNat - 1) * s.length) (fun ρ => ∃ shares,
        splitGeneric s' parts threshold perm (stream ρ) = ok shares ∧ Seen I v shares) := by
  by_cases hv : ValidArgs s parts threshold
  · have hv' : ValidArgs s' parts threshold := by
      refine ⟨hv.1, hv.2.1, hv.2.2.1, ?_⟩
      have := List.length_pos_iff.2 hv.2.2.2
      exact List.length_pos_iff.1 (by omega)
    obtain ⟨hnd, h0⟩ := splitTags_facts hperm parts.toNat
    obtain ⟨e, he⟩ := (layoutGeneric threshold.toNat s.length).secrecy rfl hs.symm _ h0 I (by omega)
    refine count_congr e fun ρ => ?_
    have e1 := splitGeneric_layout (stream ρ) hv hperm
    have e2 := splitGeneric_layout (stream (e ρ)) hv' hperm
    rw [← hs] at e2
    have hiff : ∀ {o : Outcome (List (List Byte))} {a}, o = ok a →
        ((∃ shares, o = ok shares ∧ Seen I v shares) ↔ Seen I v a) := by
      rintro o a rfl
      constructor
      · rintro ⟨b, hq, hb⟩; cases hq; exact hb
      · intro h; exact ⟨a, rfl, h⟩
    rw [hiff e1, hiff e2]
    exact forall₂_congr fun i hi => Eq.congr_left (he ρ i hi)
  · have hinv : ∀ s'' : List Byte, s''.length = s.length → ∀ rnd : Nat → Byte, ¬ ∃ shares,
        splitGeneric s'' parts threshold perm rnd = ok shares ∧ Seen I v shares := by
      rintro s'' hl rnd ⟨sh, h, -⟩
      have := (splitGeneric_ok hperm h).1
      refine hv ⟨this.1, this.2.1, this.2.2.1, ?_⟩
      have := List.length_pos_iff.2 this.2.2.2
      exact List.length_pos_iff.1 (by omega)
    exact count_congr (Equiv.refl _) fun ρ => iff_of_false (hinv s rfl _) (hinv s' hs.symm _)

/-- Well-formed views have the right length and the tags chosen by the permutation. -/
theorem view_shape {perm : List Nat} (hperm : perm.Perm (List.range 255)) {parts : Int} (hp : parts ≤ 255) {n : Nat}
    {I : Finset Nat} (hIp : ∀ i ∈ I, (i : Int) < parts) {w : Nat → List Byte}
    (hw : ∀ i ∈ I, (w i).length = n + 1 ∧ tag (w i) = BitVec.ofNat 8 (perm.getD i 0) + 1#8) : ∀ i ∈ I,
      ∃ h : i < ((perm.take parts.toNat).map fun v => BitVec.ofNat 8 v + 1#8).length,
        (w i).length = n + 1 ∧ tag (w i) = ((perm.take parts.toNat).map fun v => BitVec.ofNat 8 v + 1#8)[i] := by
  have hpl := (permBytes_nodup hperm).2.1
  intro i hi
  have hip := hIp i hi
  have hlt : i < ((perm.take parts.toNat).map fun v => BitVec.ofNat 8 v + 1#8).length := by
    simp only [List.length_map, List.length_take]; omega
  refine ⟨hlt, (hw i hi).1, (hw i hi).2.trans ?_⟩
  have : i < perm.length := by omega
  simp [List.getD_eq_getElem?_getD, this]

/-- C17, uniformity, for `SplitGeneric`. -/
theorem C17_splitGeneric_uniform (s s' : List Byte) (hs : s.length = s'.length) (parts threshold : Int)
    (hv : ValidArgs s parts threshold)
    (perm : List Nat) (hperm : perm.Perm (List.range 255)) (I : Finset Nat)
    (hI : (I.card : Int) < threshold) (hIp : ∀ i ∈ I, (i : Int) < parts) (v v' : Nat → List Byte)
    (hw : ∀ i ∈ I, (v i).length = s.length + 1 ∧ tag (v i) = BitVec.ofNat 8 (perm.getD i 0) + 1#8)
    (hw' : ∀ i ∈ I, (v' i).length = s.length + 1 ∧ tag (v' i) = BitVec.ofNat 8 (perm.getD i 0) + 1#8) :
    count (m := (threshold.toNat - 1) * s.length) (fun ρ => ∃ shares,
        splitGeneric s parts threshold perm (stream ρ) = ok shares ∧ Seen I v shares)
      = count (m := (threshold.toNat - 1) * s.length) (fun ρ => ∃ shares,
        splitGeneric s' parts threshold perm (stream ρ) = ok shares ∧ Seen I v' shares) := by
  have hv' : ValidArgs s' parts threshold := by
    refine ⟨hv.1, hv.2.1, hv.2.2.1, ?_⟩
    have := List.length_pos_iff.2 hv.2.2.2
    exact List.length_pos_iff.1 (by omega)
  have ⟨v1, v2, v3, v4⟩ := hv
  obtain ⟨hnd, h0⟩ := splitTags_facts hperm parts.toNat
  obtain ⟨e, he⟩ := (layoutGeneric threshold.toNat s.length).uniform rfl hs.symm _ h0 hnd I (by omega) v v'
    (view_shape hperm (by omega) hIp hw) (view_shape hperm (by omega) hIp hw')
  refine count_congr e fun ρ => ?_
  have e1 := splitGeneric_layout (stream ρ) hv hperm
  have e2 := splitGeneric_layout (stream (e ρ)) hv' hperm
  rw [← hs] at e2
  have hiff : ∀ {o : Outcome (List (List Byte))} {a} {v : Nat → List Byte}, o = ok a →
      ((∃ shares, o = ok shares ∧ Seen I v shares) ↔ Seen I v a) := by
    rintro o a v rfl
    constructor
    · rintro ⟨b, hq, hb⟩; cases hq; exact hb
    · intro h; exact ⟨a, rfl, h⟩
  rw [hiff e1, hiff e2]
  exact he ρ

/-- The shares at the listed positions, in that order. -/
def pick (is : List Nat) (shares : List (List Byte)) : List (List Byte) := is.map fun i => shares.getD i []

/-- C18: combining 2..threshold-1 shares succeeds, with a value of the right length. -/
theorem C18_combine_too_few_ok (arch : Arch) (s : List Byte) (parts threshold : Int) (perm : List Nat)
    (hperm : perm.Perm (List.range 255)) (rnd : Nat → Byte) (ps ps' : Pools) (shares : List (List Byte))
    (h : split arch s parts threshold perm rnd ps = ok (shares, ps')) (is : List Nat) (hn : is.Nodup)
    (h2 : 2 ≤ is.length) (hp : ∀ i ∈ is, (i : Int) < parts) :
    ∃ w, combine (pick is shares) = ok w ∧ w.length = s.length := by
  obtain ⟨hv, hsh, hl, -, -⟩ := split_ok arch hperm h
  have hlt : ∀ i ∈ is, i < shares.length := fun i hi => by have := hp i hi; omega
  have hlen : ∀ p ∈ pick is shares, p.length = s.length + 1 := by
    intro p hp
    obtain ⟨i, hi, rfl⟩ := List.mem_map.1 hp
    have := hlt i hi
    rw [List.getD_eq_getElem?_getD, List.getElem?_eq_getElem this]
    exact (hsh.2.choose_spec.2 _ (List.getElem_mem this)).1
  have htags : (tags (pick is shares)).Nodup := by
    have : tags (pick is shares) = is.map fun i => (shares.map tag).getD i 0 := by
      unfold tags pick
      rw [List.map_map]
      apply List.map_congr_left
      intro i hi
      have := hlt i hi
      simp [List.getD_eq_getElem?_getD, this]
    rw [this]
    refine (List.nodup_map_iff_inj_on hn).2 fun i hi j hj e => ?_
    by_contra hij
    exact nodup_ne hsh.1 (by simpa using hlt i hi) (by simpa using hlt j hj) hij e
  have hhead : ((pick is shares).headD []).length = s.length + 1 :=
    hlen _ (headD_mem (by simpa [pick] using h2))
  have hpos := List.length_pos_iff.2 hv.2.2.2
  refine ⟨_, combine_ok_iff.2 ⟨⟨by simpa [pick] using h2, by omega, fun p hp => by rw [hlen p hp, hhead], htags⟩, rfl⟩, ?_⟩
  rw [recover, List.length_map, List.length_range, hhead]; rfl

/-- C18: with fewer than `threshold` shares every value is returned for exactly one in 256^len(secret) of
the fillings, whatever the secret: the result carries no information. -/
theorem C18_combine_too_few_uniform (arch : Arch) (s : List Byte) (parts threshold : Int)
    (hv : ValidArgs s parts threshold) (perm : List Nat) (hperm : perm.Perm (List.range 255)) (ps : Pools)
    (is : List Nat) (hn : is.Nodup) (h2 : 2 ≤ is.length) (hlt : (is.length : Int) < threshold)
    (hp : ∀ i ∈ is, (i : Int) < parts) (w : List Byte) (hw : w.length = s.length) :
    256 ^ s.length * count (m := threshold.toNat * s.length) (fun ρ => ∃ shares ps',
        split arch s parts threshold perm (stream ρ) ps = ok (shares, ps') ∧ combine (pick is shares) = ok w)
      = 256 ^ (threshold.toNat * s.length) := by
  classical
  have ⟨v1, v2, v3, v4⟩ := hv
  have hpl := (permBytes_nodup hperm).2.1
  obtain ⟨hnd, h0⟩ := splitTags_facts hperm parts.toNat
  set t := threshold.toNat
  set L := layoutSplit t s.length
  set xs := (perm.take parts.toNat).map fun v => BitVec.ofNat 8 v + 1#8 with hxs
  have hxl : xs.length = parts.toNat := by simp [hxs]; omega
  -- the picked shares for a filling
  let P : (Fin (t * s.length) → Byte) → List (List Byte) := fun ρ => pick is (L.shares s xs ρ)
  have hP : ∀ ρ, P ρ = is.map fun i => cShare s t (fun p k => stream ρ (L.ix p k)) (xs.getD i 0) := by
    intro ρ
    simp only [P, pick]
    apply List.map_congr_left
    intro i hi
    have : i < xs.length := by have := hp i hi; omega
    simp [Layout.shares, List.getD_eq_getElem?_getD, this]
  have htags : ∀ ρ, tags (P ρ) = is.map fun i => xs.getD i 0 := by
    intro ρ
    rw [hP ρ, tags, List.map_map]
    apply List.map_congr_left
    intro i _
    exact tag_cShare _ _ _ _
  have htn : (is.map fun i => xs.getD i 0).Nodup := by
    refine (List.nodup_map_iff_inj_on hn).2 fun i hi j hj e => ?_
    by_contra hij
    exact nodup_ne hnd (by have := hp i hi; omega) (by have := hp j hj; omega) hij e
  have hlen : ∀ ρ, ∀ p ∈ P ρ, p.length = s.length + 1 := by
    intro ρ p hp
    rw [hP ρ] at hp
    obtain ⟨i, -, rfl⟩ := List.mem_map.1 hp
    simp
  have hPl : ∀ ρ, (P ρ).length = is.length := by intro ρ; simp [P, pick]
  have hcomb : ∀ ρ, ∀ w, combine (P ρ) = ok w ↔ w = recover (P ρ) s.length := by
    intro ρ w
    have hh : ((P ρ).headD []).length = s.length + 1 := hlen ρ _ (headD_mem (by rw [hPl]; exact h2))
    have hpos := List.length_pos_iff.2 v4
    rw [combine_ok_iff, hh]
    constructor
    · rintro ⟨-, h⟩; exact h
    · intro h
      exact ⟨⟨by rw [hPl]; exact h2, by omega, hlen ρ, by rw [htags]; exact htn⟩, h⟩
  have hcount : ∀ w, count (m := t * s.length) (fun ρ => ∃ shares ps',
      split arch s parts threshold perm (stream ρ) ps = ok (shares, ps') ∧ combine (pick is shares) = ok w)
      = Nat.card {ρ // recover (P ρ) s.length = w} := by
    intro w
    refine Nat.card_congr (Equiv.subtypeEquivRight fun ρ => ?_)
    obtain ⟨p1, e1⟩ := split_layout arch (stream ρ) ps hv hperm
    constructor
    · rintro ⟨sh, p, h, hc⟩
      rw [e1] at h
      cases h
      exact ((hcomb ρ w).1 hc).symm
    · intro h
      exact ⟨_, _, e1, (hcomb ρ w).2 h.symm⟩
  -- fibres over equally long values are equally large
  let f : (Fin (t * s.length) → Byte) → (Fin s.length → Byte) := fun ρ j => (recover (P ρ) s.length).getD j 0
  have hfib : ∀ b, Nat.card {ρ // recover (P ρ) s.length = List.ofFn b} = Nat.card {ρ // f ρ = b} := by
    intro b
    refine Nat.card_congr (Equiv.subtypeEquivRight fun ρ => ?_)
    have hl : (recover (P ρ) s.length).length = s.length := by simp [recover]
    constructor
    · intro h
      funext j
      simp [f, h, List.getD_eq_getElem?_getD]
    · rintro rfl
      apply List.ext_getElem
      · simp [hl]
      · intro i h1 h2
        simp [f, List.getD_eq_getElem?_getD, h1]
  have hconst : ∀ b b', Nat.card {ρ // f ρ = b'} = Nat.card {ρ // f ρ = b} := by
    intro b b'
    let d : Nat → Byte := fun j => if h : j < s.length then b ⟨j, h⟩ ^^^ b' ⟨j, h⟩ else 0
    obtain ⟨e, he⟩ := L.exists_equiv (s := s) (s' := s) rfl rfl xs h0 is.toFinset
      (by rw [List.toFinset_card_of_nodup hn]; omega) (fun p _ => d p)
    refine (Nat.card_congr (e.subtypeEquiv fun ρ => ?_)).symm
    have hsh : recover (P (e ρ)) s.length
        = (List.range s.length).map fun j => (recover (P ρ) s.length).getD j 0 ^^^ d j := by
      refine recover_shift d (by rw [htags]; exact htn) ?_ (by rw [htags, htags]) ?_
      · intro h
        have := hPl ρ
        rw [h] at this; simp at this; omega
      · intro i hi hi' j hj
        rw [hPl] at hi hi'
        have hmem : is[i] ∈ is := List.getElem_mem _
        have hx : is[i] < xs.length := by have := hp _ hmem; omega
        have := he ρ is[i] (by simpa using hmem) hx j hj
        simp only [hP, List.getElem_map]
        rw [getD_getElem hx]
        exact this
    have hval : ∀ j, f (e ρ) j = f ρ j ^^^ (b j ^^^ b' j) := by
      intro j
      simp only [f, hsh]
      simp [List.getD_eq_getElem?_getD, d]
    constructor
    · intro h
      funext j
      rw [hval, h, ← BitVec.xor_assoc, BitVec.xor_self, BitVec.zero_xor]
    · intro h
      funext j
      have := hval j
      rw [h] at this
      generalize f ρ j = y at *
      generalize b j = y1 at *
      generalize b' j = y2 at *
      have h3 : y ^^^ (y1 ^^^ y2) ^^^ y2 = y2 ^^^ y2 := by rw [← this]
      rw [BitVec.xor_self, BitVec.xor_assoc, BitVec.xor_assoc, BitVec.xor_self, BitVec.xor_zero] at h3
      exact BitVec.xor_eq_zero_iff.1 h3
  have hwb : List.ofFn (fun j : Fin s.length => w.getD j 0) = w := by
    apply List.ext_getElem
    · simp [hw]
    · intro i h1 h2
      simp [List.getD_eq_getElem?_getD, h2]
  have := card_of_fibres f (fun j => w.getD j 0) (fun b' => hconst _ b')
  rw [hcount, ← hwb, hfib]
  have hB : ∀ n, Nat.card (Fin n → Byte) = 256 ^ n := by
    intro n
    rw [Nat.card_pi]
    simp [Nat.card_congr byteEquiv]
  rw [← hB s.length, ← hB (t * s.length), ← this]

/-! Non-vacuity -/

/-- two of three needed shares, presented in reverse order: each of the 65536 values is returned for
256^6 / 256^2 fillings -/
example (arch : Arch) (w : List Byte) (hw : w.length = 2) :
    256 ^ 2 * count (m := 3 * 2) (fun ρ => ∃ shares ps',
        split arch [5, 9] 5 3 (List.range 255) (stream ρ) (Pools.init 1) = ok (shares, ps') ∧
        combine (pick [4, 1] shares) = ok w) = 256 ^ 6 :=
  C18_combine_too_few_uniform arch [5, 9] 5 3 (by decide) (List.range 255) (List.Perm.refl _) (Pools.init 1) [4, 1]
    (by decide) (by decide) (by decide) (by decide) w hw

/-- the view counted in C17 does occur: it is positive for a concrete view -/
example (arch : Arch) : ∃ v : Nat → List Byte, 0 < count (m := 3 * 2) (fun ρ => ∃ shares ps',
    split arch [5, 9] 5 3 (List.range 255) (stream ρ) (Pools.init 1) = ok (shares, ps') ∧ Seen {0, 4} v shares) := by
  obtain ⟨ps', e⟩ := split_layout arch (stream (fun _ : Fin (3 * 2) => (7 : Byte))) (Pools.init 1)
    (secret := [5, 9]) (parts := 5) (threshold := 3) (by decide) (List.Perm.refl (List.range 255))
  generalize hsh : List.map _ (List.map _ _) = shares at e
  have hl : shares.length = 5 := by rw [← hsh]; simp
  refine ⟨fun i => shares.getD i [], @Nat.card_pos _ ⟨⟨fun _ => 7, shares, ps', e, fun i hi => ?_⟩⟩ inferInstance⟩
  have h4 : i < shares.length := by
    simp only [Finset.mem_insert, Finset.mem_singleton] at hi; omega
  simp [List.getD_eq_getElem?_getD, h4]

/-- the view of two shares of a 3-of-5 sharing with payload `[1, 2]`, `[3, 4]` is as likely as one with zero payloads -/
example : count (m := (3 - 1) * 2) (fun ρ => ∃ shares, splitGeneric [5, 9] 5 3 (List.range 255) (stream ρ) = ok shares ∧
      Seen {0, 4} (fun i => if i = 0 then [1, 2, 1] else [3, 4, 5]) shares)
    = count (m := (3 - 1) * 2) (fun ρ => ∃ shares, splitGeneric [77, 8] 5 3 (List.range 255) (stream ρ) = ok shares ∧
      Seen {0, 4} (fun i => [0, 0, BitVec.ofNat 8 i + 1]) shares) :=
  C17_splitGeneric_uniform [5, 9] [77, 8] rfl 5 3 (by decide) (List.range 255) (List.Perm.refl _) {0, 4} (by decide) (by decide)
    _ _ (by decide) (by decide)

/-- C17: the same view is equally likely for two secrets, for one permutation and for a random one. -/
example (arch : Arch) (v : Nat → List Byte) : count (m := 3 * 2) (fun ρ => ∃ shares ps',
      split arch [5, 9] 5 3 (List.range 255) (stream ρ) (Pools.init 1) = ok (shares, ps') ∧ Seen {0, 4} v shares)
    = count (m := 3 * 2) (fun ρ => ∃ shares ps',
      split arch [77, 0] 5 3 (List.range 255) (stream ρ) (Pools.init 1) = ok (shares, ps') ∧ Seen {0, 4} v shares) :=
  C17_secrecy arch [5, 9] [77, 0] rfl 5 3 _ (List.Perm.refl _) _ {0, 4} (by decide) v

example (arch : Arch) : count (m := 3 * 2) (fun ρ => ∃ shares ps',
      split arch [5, 9] 5 3 (List.range 255) (stream ρ) (Pools.init 1) = ok (shares, ps') ∧
        Seen {0, 4} (fun i => if i = 0 then [1, 2, 1] else [3, 4, 5]) shares)
    = count (m := 3 * 2) (fun ρ => ∃ shares ps',
      split arch [77, 0] 5 3 (List.range 255) (stream ρ) (Pools.init 1) = ok (shares, ps') ∧
        Seen {0, 4} (fun i => [0, 0, BitVec.ofNat 8 i + 1]) shares) :=
  C17_uniform arch [5, 9] [77, 0] rfl 5 3 (by decide) _ (List.Perm.refl _) _ {0, 4} (by decide) (by decide) _ _ (by decide)
    (by decide)

/-- C18: two shares of five, threshold 3, combine without an error. -/
example (arch : Arch) (rnd : Nat → Byte) : ∃ shares ps' w,
    split arch [5, 9] 5 3 (List.range 255) rnd (Pools.init 1) = ok (shares, ps') ∧
    combine (pick [4, 1] shares) = ok w ∧ w.length = 2 := by
  obtain ⟨ps', e⟩ := split_layout arch rnd (Pools.init 1) (secret := [5, 9]) (parts := 5) (threshold := 3) (by decide)
    (List.Perm.refl (List.range 255))
  obtain ⟨w, h⟩ := C18_combine_too_few_ok arch _ _ _ _ (List.Perm.refl _) _ _ _ _ e [4, 1] (by decide) (by decide) (by decide)
  exact ⟨_, _, w, e, h⟩

/-- C17, for a random permutation, for `SplitGeneric`, and for the number of bytes read. -/
example (arch : Arch) (v : Nat → List Byte) :
    Nat.card {x : {perm : List Nat // perm.Perm (List.range 255)} × (Fin (3 * 2) → Byte) //
        ∃ shares ps', split arch [5, 9] 5 3 x.1.1 (stream x.2) (Pools.init 1) = ok (shares, ps') ∧ Seen {0, 4} v shares}
      = Nat.card {x : {perm : List Nat // perm.Perm (List.range 255)} × (Fin (3 * 2) → Byte) //
        ∃ shares ps', split arch [77, 0] 5 3 x.1.1 (stream x.2) (Pools.init 1) = ok (shares, ps') ∧ Seen {0, 4} v shares} :=
  C17_secrecy_joint arch [5, 9] [77, 0] rfl 5 3 _ {0, 4} (by decide) v

example (v : Nat → List Byte) :
    count (m := (3 - 1) * 2) (fun ρ => ∃ shares, splitGeneric [5, 9] 5 3 (List.range 255) (stream ρ) = ok shares ∧ Seen {0, 4} v shares)
      = count (m := (3 - 1) * 2) (fun ρ => ∃ shares, splitGeneric [77, 8] 5 3 (List.range 255) (stream ρ) = ok shares ∧ Seen {0, 4} v shares) :=
  C17_splitGeneric_secrecy [5, 9] [77, 8] rfl 5 3 _ (List.Perm.refl _) {0, 4} (by decide) v

example (arch : Arch) (rnd : Nat → Byte) : (Prod.fst <$> split arch [5, 9] 5 3 (List.range 255) rnd (Pools.init 1))
    = (Prod.fst <$> split arch [5, 9] 5 3 (List.range 255) (fun j => if j < 6 then rnd j else 0) (Pools.init 1)) :=
  C17_split_reads arch [5, 9] 5 3 _ (List.Perm.refl _) _ _ _ fun j hj => (if_pos hj).symm

end Verif.Props
