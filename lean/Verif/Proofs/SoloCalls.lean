import Verif.Proofs.SoloSplit
import Verif.Proofs.HeapKrawczyk

/-! # Calls that run alone: results and pools -/

namespace Verif.Proofs.Alone
open Verif Outcome Galois Shamir Spec Pool Csprng RS Krawczyk Verif.Heap
open Verif.Proofs.Own (window length_window getD_of_getElem? window_contents contents_eq matrix matrix_contents Shows
  encode_inv checkArgs_ok getD_writeAt nonok_map_ne rowsOf_congr layout withIntercepts_getD)

/-- The bytes of the result. -/
abbrev shown (σ : Shared) (r : Outcome (List Slice)) : Outcome (List (List Byte)) := (fun l => l.map (contents σ.heap)) <$> r

/-- What is known about the slices returned by a Split function of package shamir. -/
def Laid (held : List Arr) (N n : Nat) (σ' : Shared) (r : Outcome (List Slice)) : Prop :=
  ∀ slices, r = ok slices → ∃ buff, slices = layout buff N n ∧ (σ'.heap buff).length = (N + 1) * n ∧ Sep σ' (buff :: held)

theorem solo_checkP {bs : List Byte} {parts threshold : Int} {k : Prog (Outcome (List Slice))}
    {Q : SPost (Outcome (List Slice))} {σ : Shared} {log : List Byte}
    (herr : ∀ e, argError bs parts threshold = some e → Q (err e) σ log)
    (hok : ValidArgs bs parts threshold → solo k Q σ log) :
    solo (checkP bs.length parts threshold k) Q σ log := by
  unfold checkP
  by_cases h1 : parts < threshold
  · rw [if_pos h1]; exact herr .partsLtThreshold (by simp [argError, h1])
  rw [if_neg h1]
  by_cases h2 : parts > 255
  · rw [if_pos h2]; exact herr .partsExceed255 (by simp [argError, h1, h2])
  rw [if_neg h2]
  by_cases h3 : threshold < 2
  · rw [if_pos h3]; exact herr .thresholdLt2 (by simp [argError, h1, h2, h3])
  rw [if_neg h3, if_neg (by omega)]
  by_cases h4 : bs.length = 0
  · rw [if_pos h4]
    exact herr .emptySecret (by simp [argError, h1, h2, h3, List.length_eq_zero_iff.1 h4])
  rw [if_neg h4]
  exact hok ⟨by omega, by omega, by omega, fun e => h4 (by simp [e])⟩

theorem yields_err {ps : Pools} {e : Err} : Yields (err e) ps (err e) ps := ⟨rfl, rfl⟩

theorem solo_splitP (arch : Arch) {secret : Slice} {bs : List Byte} {parts threshold : Int} {perm : List Nat}
    (hperm : perm.Perm (List.range 255)) {σ : Shared} {held : List Arr} {log : List Byte} (hs : Sep σ held)
    (hsec : secret.arr ∈ held) (hsh : Shows secret bs σ.heap) {Q : SPost (Outcome (List Slice))}
    (hQ : ∀ r σ' vs, (∀ src, Delivers src vs → Yields (split arch bs parts threshold perm src (poolsOf σ)) (poolsOf σ)
        (shown σ' r) (poolsOf σ')) → Laid held secret.len parts.toNat σ' r → Q r σ' (log ++ vs)) :
    solo (splitP arch secret parts threshold perm) Q σ log := by
  have hlen := hsh.length
  unfold splitP
  rw [← hlen]
  refine solo_checkP (bs := bs) ?_ ?_
  · intro e he
    have := hQ (err e) σ [] (fun src _ => ?_) (fun _ c => by cases c)
    · rwa [List.append_nil] at this
    · rw [split_invalid arch perm _ _ he]; exact yields_err
  · intro hv
    have ht : 0 < threshold.toNat := by have := hv.2.2.1; omega
    have hN : 0 < bs.length := List.length_pos_iff.2 hv.2.2.2
    have hpl : parts.toNat ≤ perm.length := by
      rw [hperm.length_eq, List.length_range]; have := hv.2.1; omega
    rw [hlen]
    refine solo_sharesP arch (sfills_rand (bs := bs) ht) ht (hlen ▸ hN) hs hsec hsh ?_
    intro buff σ' vs pol hsep hpol hP hl hc hpools
    refine hQ _ σ' vs (fun src hsrc => ?_) ?_
    · have hpe : pol = polSplit bs threshold.toNat src := by
        rw [hP.2]
        unfold polSplit
        congr 1
        conv_lhs => rw [← map_getD_range vs]
        rw [hP.1]
        exact List.map_congr_left fun k hk => (hsrc k (by rw [hP.1]; simpa using hk)).symm
      have e := split_pools arch perm src (poolsOf σ) hv hpl
      rw [e]
      refine ⟨?_, ?_⟩
      · rw [shown, map_ok, map_ok, hc, hpe, hlen]
      · rw [hpools, hpe, hlen]; rfl
    · intro slices e
      cases e
      exact ⟨buff, rfl, hl, hsep⟩

theorem solo_splitWithRandomizerP (arch : Arch) (fuel : Nat) {secret : Slice} {bs : List Byte} {parts threshold : Int}
    {r : CSPRNG} (hx : ∃ xs, r.getUniqueBytes fuel (BitVec.ofInt 8 parts) = ok xs) {σ : Shared} {held : List Arr}
    {log : List Byte} (hs : Sep σ held) (hsec : secret.arr ∈ held) (hsh : Shows secret bs σ.heap)
    {Q : SPost (Outcome (List Slice))}
    (hQ : ∀ o σ', Yields (splitWithRandomizer arch fuel bs parts threshold r (poolsOf σ)) (poolsOf σ) (shown σ' o) (poolsOf σ') →
      Laid held secret.len parts.toNat σ' o → Q o σ' log) :
    solo (splitWithRandomizerP arch fuel secret parts threshold r) Q σ log := by
  have hlen := hsh.length
  obtain ⟨xs, hx⟩ := hx
  unfold splitWithRandomizerP
  rw [← hlen]
  refine solo_checkP (bs := bs) ?_ ?_
  · intro e he
    refine hQ (err e) σ ?_ (fun _ c => by cases c)
    rw [splitWithRandomizer_invalid arch fuel r _ he]; exact yields_err
  · intro hv
    have ht : 0 < threshold.toNat := by have := hv.2.2.1; omega
    have hN : 0 < bs.length := List.length_pos_iff.2 hv.2.2.2
    have hxl : parts.toNat ≤ xs.length := by
      have h3 := (getUnique_ok_spec hx).1
      have := hv.1; have := hv.2.1; have := hv.2.2.1
      rw [h3, ofInt_toNat (by omega) (by omega)]
    rw [hx]
    refine solo_bind _ _ _ _ ?_
    rw [hlen]
    refine solo_sharesP arch (sfills_randomizer (bs := bs) r ht) ht (hlen ▸ hN) hs hsec hsh ?_
    intro buff σ' vs pol hsep hpol hP hl hc hpools
    obtain ⟨rfl, hP⟩ := hP
    rw [List.append_nil]
    refine hQ _ σ' ?_ ?_
    · have hpe : pol = polRandomizer bs threshold.toNat r (staleBuf (poolsOf σ).bPool (threshold.toNat * bs.length)) := by
        rw [hP, ← hlen]; rfl
      have e := splitWithRandomizer_pools arch fuel r (poolsOf σ) hv xs hx hxl
      simp only [← hpe] at e
      rw [e]
      refine ⟨?_, ?_⟩
      · rw [shown, map_ok, map_ok, hc, hlen]
      · rw [hpools, hlen]; rfl
    · intro slices e
      cases e
      exact ⟨buff, rfl, hl, hsep⟩

theorem solo_splitWithRandomizerOldP (arch : Arch) {secret : Slice} {bs : List Byte} {parts threshold : Int}
    {r : CSPRNG} {xs : List Byte} (hx : r.perm 255#8 = ok xs) (hxl : xs.length = 255) {σ : Shared} {held : List Arr}
    {log : List Byte} (hs : Sep σ held) (hsec : secret.arr ∈ held) (hsh : Shows secret bs σ.heap)
    {Q : SPost (Outcome (List Slice))}
    (hQ : ∀ o σ', Yields (splitWithRandomizerOld arch bs parts threshold r (poolsOf σ)) (poolsOf σ) (shown σ' o) (poolsOf σ') →
      Q o σ' log) :
    solo (splitWithRandomizerOldP arch secret parts threshold r) Q σ log := by
  have hlen := hsh.length
  unfold splitWithRandomizerOldP
  rw [← hlen]
  refine solo_checkP (bs := bs) ?_ ?_
  · intro e he
    refine hQ (err e) σ ?_
    rw [splitOld_invalid arch r _ he]; exact yields_err
  · intro hv
    have ht : 0 < threshold.toNat := by have := hv.2.2.1; omega
    have hN : 0 < bs.length := List.length_pos_iff.2 hv.2.2.2
    have hxl : parts.toNat ≤ xs.length := by
      rw [hxl]; have := hv.2.1; omega
    rw [hx]
    refine solo_bind _ _ _ _ ?_
    rw [hlen]
    refine solo_sharesP arch (sfills_randomizer (bs := bs) r ht) ht (hlen ▸ hN) hs hsec hsh ?_
    intro buff σ' vs pol hsep hpol hP hl hc hpools
    obtain ⟨rfl, hP⟩ := hP
    rw [List.append_nil]
    refine hQ _ σ' ?_
    have hrows : rowsOf pol threshold.toNat secret.len = rowsF (oldCoeff bs threshold.toNat r) threshold.toNat bs.length := by
      unfold rowsOf rowsF
      rw [hlen]
      apply List.map_congr_left
      intro p hp
      have hp : p < secret.len := by simpa using hp
      apply List.map_congr_left
      intro i hi
      have hi : i < threshold.toNat := by simpa using hi
      have hlt : threshold.toNat * p + i < threshold.toNat * bs.length := by
        rw [hlen]
        calc threshold.toNat * p + i < threshold.toNat * p + threshold.toNat := by omega
          _ = threshold.toNat * (p + 1) := by ring
          _ ≤ threshold.toNat * secret.len := Nat.mul_le_mul_left _ hp
      have hst : staleOf false (bufs σ .bPool) (threshold.toNat * secret.len) = List.replicate (threshold.toNat * secret.len) 0 := rfl
      rw [hP, hst, withIntercepts_getD ht (by rw [length_read]; simp [hlen]) hlt]
      rw [Nat.mul_add_mod, Nat.mod_eq_of_lt hi, Nat.mul_add_div ht, Nat.div_eq_of_lt hi, Nat.add_zero]
      rw [hlen] at hlt
      rw [read_getD _ _ (by simpa using hlt)]
      unfold oldCoeff
      by_cases h0 : i = 0
      · simp [h0]
      · simp [h0, List.getD_eq_getElem?_getD, List.getElem?_replicate, hlt]
    rw [splitOld_pools arch r (poolsOf σ) hv xs hx hxl]
    refine ⟨?_, ?_⟩
    · rw [shown, map_ok, map_ok, hc, hrows]
    · rw [hpools, hrows]; rfl

/-! ## krawczyk -/

theorem solo_drawAll {n : Nat} {Q : SPost (List Byte)} {σ : Shared} {log : List Byte}
    (hQ : ∀ rs : List Byte, rs.length = n → Q rs σ (log ++ rs)) : solo (Prog.drawAll n) Q σ log := by
  refine solo_mono ?_ _ _ _ (solo_forUp (fun i l σ' log' => σ' = σ ∧ l.length = i ∧ log' = log ++ l)
    ⟨rfl, rfl, by simp⟩ ?_)
  · rintro rs σ' log' ⟨rfl, hl, rfl⟩; exact hQ rs hl
  · rintro i hi l σ' log' ⟨rfl, hl, rfl⟩ v
    exact ⟨rfl, by simp [hl], by simp⟩

theorem solo_call_outcome {α : Type} {o : Outcome α} {k : α → Prog (Outcome (List Slice))} {Q : SPost (Outcome (List Slice))}
    {σ : Shared} {log : List Byte} (hok : ∀ a, o = ok a → solo (k a) Q σ log)
    (hno : (∀ a, o ≠ ok a) → Q ((fun _ => []) <$> o) σ log) : solo (Prog.call o k) Q σ log := by
  cases o with
  | ok a => exact hok a rfl
  | err e => exact hno (by simp)
  | panic => exact hno (by simp)
  | corrupt => exact hno (by simp)
  | spin => exact hno (by simp)

/-- Assembling the shares. -/
theorem solo_assembleP {n le lm : Nat} {es : List (List Byte)} {ms : List Slice} {σ : Shared} {held : List Arr} {log : List Byte}
    {Q : SPost (Outcome (List Slice))} (hn : 0 < n) (he : es.length = n) (hle : ∀ e ∈ es, e.length = le) (hm : ms.length = n)
    (hs : Sep σ held) (hlm : ∀ m ∈ ms, m.len = lm ∧ m.arr ∈ held ∧ m.off + m.len ≤ (σ.heap m.arr).length)
    (hQ : ∀ a σ', poolsOf σ' = poolsOf σ → (matrix a (le + lm) n).map (contents σ'.heap)
        = (List.range n).map (fun i => (ms.map (contents σ.heap)).getD i [] ++ es.getD i []) →
      Q (ok (matrix a (le + lm) n)) σ' log) :
    solo (assembleP n es ms) Q σ log := by
  have le0 : (es[0]'(by omega)).length = le := hle _ (List.getElem_mem _)
  have lm0 : (ms[0]'(by omega)).len = lm := (hlm _ (List.getElem_mem _)).1
  unfold assembleP
  rw [idx_ok (by omega), idx_ok (by omega)]
  simp only [Prog.call]
  rw [le0, lm0]
  have hpools : ∀ l, poolsOf (new σ l) = poolsOf σ := by
    intro l
    have : ∀ p, bufs (new σ l) p = bufs σ p := fun p => bufs_congr rfl rfl fun a ha => new_heap_ne (hs.pool_lt ha)
    unfold poolsOf
    rw [this, this]
  show solo _ _ (new σ (List.replicate (n * (le + lm)) 0)) log
  refine solo_bind _ _ _ _ (solo_mono ?_ _ _ _ (solo_forUp (fun i _ σ' log' => log' = log ∧
    ∃ l, σ' = new σ l ∧ l.length = n * (le + lm) ∧
    ∀ j < i, ∀ q < le + lm, l.getD ((le + lm) * j + q) 0 = ((ms.map (contents σ.heap)).getD j [] ++ es.getD j []).getD q 0)
    ⟨rfl, _, rfl, by simp, fun j hj => absurd hj (Nat.not_lt_zero j)⟩ ?_))
  · rintro _ σ' log' ⟨rfl, l, rfl, hl, hv⟩
    refine hQ σ.next _ (hpools l) (matrix_contents (by rw [new_heap]; exact hl) ?_ (by rw [new_heap]; exact hv))
    intro i hi
    have h1 : (es[i]'(by omega)).length = le := hle _ (List.getElem_mem _)
    have h2 := hlm (ms[i]'(by omega)) (List.getElem_mem _)
    simp only [List.length_append, List.getD_eq_getElem?_getD, List.getElem?_map, List.getElem?_eq_getElem (by omega : i < ms.length),
      List.getElem?_eq_getElem (by omega : i < es.length), Option.map_some, Option.getD_some, h1]
    rw [contents_eq h2.2.2, length_window, h2.1, Nat.add_comm]
  · rintro i hi _ σ' log' ⟨rfl, l, rfl, hl, hv⟩
    have h1 : (es[i]'(by omega)).length = le := hle _ (List.getElem_mem _)
    have h2 := hlm (ms[i]'(by omega)) (List.getElem_mem _)
    have hne : (ms[i]'(by omega)).arr < σ.next := hs.held_lt h2.2.1
    have hib : (le + lm) * i + (le + lm) ≤ n * (le + lm) := by
      rw [← Nat.mul_succ, Nat.mul_comm n]; exact Nat.mul_le_mul_left _ hi
    have hupd : ∀ l l', upd (new σ l) σ.next l' = new σ l' := by
      intro l l'; simp [upd, new]
    rw [idx_ok (by omega), idx_ok (by omega)]
    refine solo_bind _ _ _ _ (solo_bind _ _ _ _ (solo_bind _ _ _ _
      (solo_readAll (by rw [new_heap_ne hne]; exact h2.2.2) ?_)))
    rw [new_heap_ne hne, ← contents_eq h2.2.2]
    have hcl : (contents σ.heap (ms[i]'(by omega))).length = lm := by rw [contents_eq h2.2.2, length_window, h2.1]
    rw [List.take_of_length_le (by omega), List.take_of_length_le (by omega)]
    refine solo_bind _ _ _ _ (solo_writeAll (by rw [hcl, new_heap]; omega) ?_)
    rw [new_heap, hupd]
    have hl2 : (writeAt l ((le + lm) * i) (contents σ.heap (ms[i]'(by omega)))).length = n * (le + lm) := by
      rw [length_writeAt (by rw [hcl]; omega), hl]
    refine solo_writeAll (by rw [new_heap, hl2, h1]; omega) ?_
    rw [new_heap, hupd]
    refine ⟨rfl, _, rfl, ?_, ?_⟩
    · rw [length_writeAt (by rw [hl2, h1]; omega), hl2]
    · intro j hj q hq
      rw [getD_writeAt _ _ _ _ (by rw [hl2, h1]; omega), getD_writeAt _ _ _ _ (by rw [hcl]; omega), h1, hcl]
      by_cases hji : j = i
      · subst hji
        simp only [List.getD_eq_getElem?_getD, List.getElem?_map, List.getElem?_eq_getElem (by omega : j < ms.length),
          List.getElem?_eq_getElem (by omega : j < es.length), Option.map_some, Option.getD_some]
        by_cases hqm : q < lm
        · rw [if_neg (by omega), if_pos (by omega), List.getElem?_append_left (by rw [hcl]; exact hqm)]
          congr 2; omega
        · rw [if_pos (by omega), List.getElem?_append_right (by rw [hcl]; omega), hcl]
          congr 2; omega
      · have hj' : j < i := by omega
        have : (le + lm) * j + (le + lm) ≤ (le + lm) * i := by
          rw [← Nat.mul_succ]; exact Nat.mul_le_mul_left _ hj'
        rw [if_neg (by omega), if_neg (by omega)]
        exact hv j hj' q hq

theorem layout_held {buff : Arr} {n : Nat} {σ : Shared} (hl : (σ.heap buff).length = 21 * n) :
    (layout buff 20 n).length = n ∧ ∀ m ∈ layout buff 20 n, m.len = 21 ∧ m.arr ∈ [buff] ∧ m.off + m.len ≤ (σ.heap m.arr).length := by
  refine ⟨by simp [layout], fun m hm => ?_⟩
  obtain ⟨i, hi, rfl⟩ := List.mem_map.1 hm
  have hi : i < n := by simpa using hi
  refine ⟨rfl, by simp, ?_⟩
  show (20 + 1) * i + (20 + 1) ≤ (σ.heap buff).length
  omega

theorem solo_krawczykTail {env : Env} (hc : env.lib.Contract) {secret : Slice} {bs key : List Byte} {parts threshold : Int}
    {share : Slice → Prog (Outcome (List Slice))} {sh : (Nat → Byte) → List Byte → Pools → Outcome (List (List Byte) × Pools)}
    {σ : Shared} {held : List Arr} {pre : List Byte} (hkey : key.length = 16) (hu : checkArgs bs.length parts threshold = ok ())
    (hs : Sep σ held) (hsh : Shows secret bs σ.heap)
    (hshare : ∀ (σ1 : Shared) (a : Arr) (kl : List Byte) (Q : SPost (Outcome (List Slice))), Sep σ1 [a] → kl.length = 20 →
      σ1.heap a = kl →
      (∀ r σ' vs, (∀ src, Delivers src vs → Yields (sh src kl (poolsOf σ1)) (poolsOf σ1) (shown σ' r) (poolsOf σ')) →
        Laid [a] 20 parts.toNat σ' r → Q r σ' (pre ++ vs)) →
      solo (share ⟨a, 0, 20, 20⟩) Q σ1 pre)
    {Q : SPost (Outcome (List Slice))}
    (hQ : ∀ r σ' vs, (∀ src, Delivers src vs → Yields (kTail env bs key parts threshold fun kl => sh src kl (poolsOf σ)) (poolsOf σ)
      (shown σ' r) (poolsOf σ')) → Q r σ' (pre ++ vs)) :
    solo (krawczykTailP env secret key parts threshold share) Q σ pre := by
  have hp := checkArgs_ok hu
  have hpools : ∀ l, poolsOf (new σ l) = poolsOf σ := by
    intro l
    have : ∀ p, bufs (new σ l) p = bufs σ p := fun p => bufs_congr rfl rfl fun a ha => new_heap_ne (hs.pool_lt ha)
    unfold poolsOf
    rw [this, this]
  unfold krawczykTailP
  refine solo_bind _ _ _ _ (solo_readAll hsh.1 ?_)
  rw [window_contents hsh]
  refine solo_call_outcome ?_ ?_
  · rintro ⟨ct, es⟩ hen
    obtain ⟨hn, hel, le, hle⟩ := encode_inv hc hkey hp hen
    have hkl := keyLenPair_length (ct := ct) hkey
    show solo _ _ (new σ (List.replicate 20 0)) pre
    refine solo_bind _ _ _ _ (solo_writeAll (by rw [new_heap]; simp [hkl]) ?_)
    have ew : writeAt (List.replicate 20 0) 0 (keyLenPair key ct) = keyLenPair key ct := by
      unfold writeAt; rw [hkl]; simp
    rw [new_heap, ew, show upd (new σ (List.replicate 20 0)) σ.next (keyLenPair key ct) = new σ (keyLenPair key ct) by
      simp [upd, new]]
    have hkt : ∀ src, kTail env bs key parts threshold (fun kl => sh src kl (poolsOf σ)) = (do
        let x ← sh src (keyLenPair key ct) (poolsOf σ)
        let r ← assemble parts.toNat es x.1
        pure (r, x.2)) := by
      intro src
      unfold kTail
      rw [hu, ok_bind, hen, ok_bind]
    refine solo_bind _ _ _ _ (hshare _ σ.next (keyLenPair key ct) _ ((hs.new _).mono rfl le_rfl (by simp)) hkl (new_heap ..) ?_)
    intro ss σ' vs hy hlaid
    rw [hpools] at hy
    refine solo_call_outcome ?_ ?_
    · rintro ms rfl
      obtain ⟨buff, rfl, hl, hsep⟩ := hlaid ms rfl
      obtain ⟨hml, hms⟩ := layout_held hl
      refine solo_assembleP hn hel hle hml hsep
        (fun m hm => ⟨(hms m hm).1, List.mem_cons.2 (.inl (List.mem_singleton.1 (hms m hm).2.1)), (hms m hm).2.2⟩) ?_
      intro b σ'' hps hcont
      have hmem : ∀ m ∈ (layout buff 20 parts.toNat).map (contents σ'.heap), m.length = 21 := by
        intro m hm
        obtain ⟨s, hs1, rfl⟩ := List.mem_map.1 hm
        rw [contents_eq (hms s hs1).2.2, length_window, (hms s hs1).1]
      refine hQ _ σ'' vs fun src hsrc => ?_
      obtain ⟨h1, h2⟩ := hy src hsrc
      rw [hkt]
      generalize sh src (keyLenPair key ct) (poolsOf σ) = q at h1 h2
      cases q with
      | ok x =>
        rw [shown, map_ok, map_ok] at h1
        have h1 := Outcome.ok.inj h1
        rw [ok_bind, ← h1, assemble_eq hn hel (by simpa using hml) hle hmem]
        exact ⟨by rw [shown, map_ok, hcont]; rfl, by rw [hps, h2]; rfl⟩
      | _ => rw [shown, map_ok] at h1; cases h1
    · intro hno
      refine hQ _ σ' vs fun src hsrc => ?_
      obtain ⟨h1, h2⟩ := hy src hsrc
      rw [hkt]
      generalize sh src (keyLenPair key ct) (poolsOf σ) = q at h1 h2
      cases ss with
      | ok a => exact absurd rfl (hno a)
      | _ =>
        cases q with
        | ok x => rw [map_ok] at h1; cases h1
        | _ => first
          | (cases h1; exact ⟨rfl, h2⟩)
          | cases h1
  · intro hno
    have := hQ ((fun _ => []) <$> encode env bs key parts threshold) σ [] fun src _ => ?_
    · rwa [List.append_nil] at this
    · unfold kTail
      rw [hu, ok_bind]
      generalize encode env bs key parts threshold = q at hno
      cases q with
      | ok x => exact absurd rfl (hno x)
      | _ => exact ⟨rfl, rfl⟩

theorem yields_checkArgs {env : Env} {bs key : List Byte} {parts threshold : Int} {σ : Shared}
    {sh : List Byte → Outcome (List (List Byte) × Pools)} (hno : ∀ u, checkArgs bs.length parts threshold ≠ ok u) :
    Yields (kTail env bs key parts threshold sh) (poolsOf σ)
      (shown σ ((fun _ => []) <$> checkArgs bs.length parts threshold)) (poolsOf σ) := by
  unfold kTail
  generalize checkArgs bs.length parts threshold = q at hno
  cases q with
  | ok u => exact absurd rfl (hno u)
  | _ => exact ⟨rfl, rfl⟩

theorem shows_kl {a : Arr} {kl : List Byte} {σ : Shared} (hkl : kl.length = 20) (hg : σ.heap a = kl) :
    Shows ⟨a, 0, 20, 20⟩ kl σ.heap := by
  constructor
  · show 0 + 20 ≤ (σ.heap a).length
    rw [hg, hkl]
  · simp [contents, hg, ← hkl]

theorem solo_krawczykSplitP (arch : Arch) {env : Env} (hc : env.lib.Contract) {secret : Slice} {bs : List Byte}
    {parts threshold : Int} {perm : List Nat} (hperm : perm.Perm (List.range 255)) {σ : Shared} {held : List Arr}
    (hs : Sep σ held) (hsh : Shows secret bs σ.heap) {Q : SPost (Outcome (List Slice))}
    (hQ : ∀ r σ' vs, (∀ src, Delivers src vs → Yields (Krawczyk.split { env with arch } bs parts threshold src perm
        (fun k => src (16 + k)) (poolsOf σ)) (poolsOf σ) (shown σ' r) (poolsOf σ')) → Q r σ' vs) :
    solo (krawczykSplitP { env with arch } secret parts threshold perm) Q σ [] := by
  unfold krawczykSplitP
  rw [← hsh.length]
  refine solo_call_outcome ?_ ?_
  · intro u hu
    refine solo_bind _ _ _ _ (solo_drawAll ?_)
    intro key hkey
    rw [List.nil_append]
    refine solo_krawczykTail (env := { env with arch }) hc hkey hu hs hsh
      (sh := fun src kl ps => Shamir.split arch kl parts threshold perm src ps) ?_ ?_
    · intro σ1 a kl Q hs1 hkl hg hQ'
      exact solo_splitP (bs := kl) arch hperm hs1 (by simp) (shows_kl hkl hg) hQ'
    · intro r σ' vs hy
      refine hQ r σ' _ fun src hsrc => ?_
      rw [split_tail]
      have ek : randRead src 0 (List.replicate 16 0) = key := by
        unfold randRead
        apply List.ext_getElem
        · simp [hkey]
        · intro i h1 h2
          rw [List.getElem_map, List.getElem_range, Nat.zero_add, hsrc i (by simp; omega), List.getD_eq_getElem?_getD,
            List.getElem?_append_left h2, List.getElem?_eq_getElem h2]; rfl
      have ef : Delivers (fun k => src (16 + k)) vs := by
        intro k hk
        show src (16 + k) = _
        rw [hsrc (16 + k) (by simp; omega)]
        simp only [List.getD_eq_getElem?_getD]
        rw [List.getElem?_append_right (by omega), hkey, Nat.add_sub_cancel_left]
      rw [ek]
      exact hy _ ef
  · intro hno
    refine hQ _ σ [] fun src _ => ?_
    rw [split_tail]
    exact yields_checkArgs hno

theorem solo_krawczykSplitWithRandomizerP (arch : Arch) {env : Env} (hc : env.lib.Contract) (fuel : Nat) {secret : Slice}
    {bs : List Byte} {parts threshold : Int} {r : CSPRNG}
    (hx : ∃ xs, r.getUniqueBytes fuel (BitVec.ofInt 8 parts) = ok xs) {σ : Shared} {held : List Arr}
    (hs : Sep σ held) (hsh : Shows secret bs σ.heap) {Q : SPost (Outcome (List Slice))}
    (hQ : ∀ o σ', Yields (Krawczyk.splitWithRandomizer { env with arch } fuel bs parts threshold r (poolsOf σ)) (poolsOf σ)
      (shown σ' o) (poolsOf σ') → ∀ vs, Q o σ' vs) :
    solo (krawczykSplitWithRandomizerP { env with arch } fuel secret parts threshold r) Q σ [] := by
  unfold krawczykSplitWithRandomizerP
  rw [← hsh.length]
  refine solo_call_outcome ?_ ?_
  · intro u hu
    refine solo_krawczykTail (env := { env with arch }) hc (by rw [length_read]; simp) hu hs hsh
      (sh := fun _ kl ps => Shamir.splitWithRandomizer arch fuel kl parts threshold r ps) ?_ ?_
    · intro σ1 a kl Q hs1 hkl hg hQ'
      refine solo_splitWithRandomizerP (bs := kl) arch fuel hx hs1 (by simp) (shows_kl hkl hg) ?_
      intro o σ' hy hlaid
      have := hQ' o σ' [] (fun _ _ => hy) hlaid
      rwa [List.append_nil] at this
    · intro o σ' vs hy
      refine hQ o σ' ?_ _
      rw [splitR_tail]
      exact hy _ (delivers_getD vs)
  · intro hno
    refine hQ _ σ ?_ _
    rw [splitR_tail]
    exact yields_checkArgs hno

end Verif.Proofs.Alone
