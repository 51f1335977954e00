import Verif.Proofs.WorkCalls
import Verif.Proofs.WorkRest
import Verif.Props.LeakRest
import Verif.Proofs.Regenerate
import Verif.Props.LeakCalls
import Verif.Proofs.LeakKrawczyk
import Verif.Proofs.HeapKrawczyk

/-! # C88: how much work the calls do

Steps are counted by `Traced.work` (Spec/Work.lean) in the runs of `Model/Leak.lean` and `Model/LeakCalls.lean`, which compute what the calls compute. -/

namespace Verif.Props
open Verif Outcome Galois Spec Proofs Leak Csprng Krawczyk

/-- C88: counting does not change what is computed. -/
theorem C88_same_results (arch : Arch) (fuel : Nat) (secret : List Byte) (parts threshold n : Int) (perm : List Nat) (rnd u : Nat → Byte) (r : CSPRNG)
    (ps : Shamir.Pools) (shares : List (List Byte)) :
    (Leak.split arch secret parts threshold perm rnd ps).out = Shamir.split arch secret parts threshold perm rnd ps ∧
    (Leak.splitWithRandomizer arch fuel secret parts threshold r ps).out = Shamir.splitWithRandomizer arch fuel secret parts threshold r ps ∧
    (Leak.splitGeneric secret parts threshold perm rnd).out = Shamir.splitGeneric secret parts threshold perm rnd ∧
    (Leak.combine shares).out = Shamir.combine shares ∧
    (Leak.regenerate fuel shares n rnd u).out = Shamir.regenerate fuel shares n rnd u := by
  simp

/-- C88: Combine on k shares that returns a secret of m bytes makes exactly m(10k^2-k+3)+7k+4 steps, whatever the shares are. -/
theorem C88_combine (shares : List (List Byte)) (s : List Byte) (h : Shamir.combine shares = ok s) :
    (Leak.combine shares).work = s.length * (10 * shares.length ^ 2 - shares.length + 3) + (7 * shares.length + 4) := by
  rw [work_combine_ok h]
  omega

/-- C88: a call of Combine that does not succeed makes at most 7k+4 steps, however long the shares are. -/
theorem C88_combine_rejected (shares : List (List Byte)) (h : ∀ s, Shamir.combine shares ≠ ok s) :
    (Leak.combine shares).work ≤ 7 * shares.length + 4 :=
  work_combine_fail h

/-- C88: Combine is linear in the size of its input, on any input. -/
theorem C88_combine_any (shares : List (List Byte)) :
    (Leak.combine shares).work ≤ 2560 * (shares.map List.length).sum + 7 * shares.length + 4 := by
  by_cases h : ∃ s, Shamir.combine shares = ok s
  · obtain ⟨s, h⟩ := h
    obtain ⟨⟨h2, h3, h4, h5⟩, hs⟩ := combine_ok_iff.1 h
    rw [work_combine_ok h]
    have hk : shares.length ≤ 256 := by
      have := nodup_length_le h5
      simpa [tags] using this
    have hsl : s.length + 1 = (shares.headD []).length := by
      have : s.length = (shares.headD []).length - 1 := by rw [hs]; simp [recover]
      omega
    have hsum : (shares.map List.length).sum = shares.length * (s.length + 1) := by
      rw [List.map_congr_left (g := fun _ => s.length + 1) fun p hp => by rw [h4 p hp, hsl]]
      simp
    rw [hsum]
    have e1 : 10 * shares.length ^ 2 - shares.length + 3 ≤ 2560 * shares.length := by
      have : shares.length ^ 2 ≤ 256 * shares.length := by rw [pow_two]; exact Nat.mul_le_mul_right _ hk
      have : shares.length ≤ 10 * shares.length ^ 2 := by nlinarith
      by_cases h3 : 3 ≤ shares.length
      · omega
      · have : shares.length = 2 := by omega
        rw [this]
        decide
    have e2 := Nat.mul_le_mul_left s.length e1
    have e3 : 2560 * (shares.length * (s.length + 1)) = s.length * (2560 * shares.length) + 2560 * shares.length := by ring
    omega
  · have := work_combine_fail (parts := shares) fun s hs => h ⟨s, hs⟩
    omega

theorem steps_le {p t N : Nat} (hp : 2 ≤ p) (ht : 2 ≤ t) (hN : 1 ≤ N) :
    12 + 14 * p + 6 * N + t + 6 * (t * N) + 2 * (p * N) + p * ((t - 1) * (10 * N + 21)) ≤ 45 * (p * t * N) := by
  obtain ⟨d, rfl⟩ : ∃ d, t = d + 1 := ⟨t - 1, by omega⟩
  have hd : 1 ≤ d := by omega
  rw [Nat.add_sub_cancel]
  have a1 : p * 1 ≤ p * N := Nat.mul_le_mul_left _ hN
  have a2 : 2 * N ≤ p * N := Nat.mul_le_mul_right _ hp
  have a3 : p * d * 1 ≤ p * d * N := Nat.mul_le_mul_left _ hN
  have a4 : 2 * (d * N) ≤ p * (d * N) := Nat.mul_le_mul_right _ hp
  have a5 : 1 * d ≤ N * d := Nat.mul_le_mul_right _ hN
  have a6 : 1 * N ≤ d * N := Nat.mul_le_mul_right _ hd
  have a7 : p * N * 1 ≤ p * N * d := Nat.mul_le_mul_left _ hd
  have e1 : p * (d * (10 * N + 21)) = 10 * (p * d * N) + 21 * (p * d) := by ring
  have e2 : 45 * (p * (d + 1) * N) = 45 * (p * d * N) + 45 * (p * N) := by ring
  have e3 : 6 * ((d + 1) * N) = 6 * (d * N) + 6 * N := by ring
  have e4 : p * (d * N) = p * d * N := by ring
  have e5 : N * d = d * N := by ring
  have e6 : p * N * d = p * d * N := by ring
  omega

/-- C88: Split makes at most 45 * parts * threshold * len(secret) steps, on every build and however it ends. -/
theorem C88_split (arch : Arch) (s : List Byte) (parts threshold : Int) (hv : ValidArgs s parts threshold) (perm : List Nat) (rnd : Nat → Byte)
    (ps : Shamir.Pools) : (Leak.split arch s parts threshold perm rnd ps).work ≤ 45 * (parts.toNat * threshold.toNat * s.length) := by
  have := work_split arch hv perm rnd ps
  obtain ⟨h1, h2, h3, h4⟩ := hv
  have hN : 0 < s.length := List.length_pos_iff.2 h4
  have := steps_le (p := parts.toNat) (t := threshold.toNat) (N := s.length) (by omega) (by omega) hN
  omega

/-- C88: the same for SplitWithRandomizer (not counting GetUniqueBytes and Read). -/
theorem C88_splitWithRandomizer (arch : Arch) (fuel : Nat) (s : List Byte) (parts threshold : Int) (hv : ValidArgs s parts threshold) (r : CSPRNG)
    (ps : Shamir.Pools) : (Leak.splitWithRandomizer arch fuel s parts threshold r ps).work ≤ 45 * (parts.toNat * threshold.toNat * s.length) := by
  have := work_splitWithRandomizer arch fuel hv r ps
  obtain ⟨h1, h2, h3, h4⟩ := hv
  have hN : 0 < s.length := List.length_pos_iff.2 h4
  have := steps_le (p := parts.toNat) (t := threshold.toNat) (N := s.length) (by omega) (by omega) hN
  omega

/-- C88: the same for SplitGeneric. -/
theorem C88_splitGeneric (s : List Byte) (parts threshold : Int) (hv : ValidArgs s parts threshold) (perm : List Nat) (rnd : Nat → Byte) :
    (Leak.splitGeneric s parts threshold perm rnd).work ≤ 45 * (parts.toNat * threshold.toNat * s.length) := by
  have := work_splitGeneric hv perm rnd
  obtain ⟨h1, h2, h3, h4⟩ := hv
  have hN : 0 < s.length := List.length_pos_iff.2 h4
  have := steps_le (p := parts.toNat) (t := threshold.toNat) (N := s.length) (by omega) (by omega) hN
  omega

/-- The five tests of the three functions, and then nothing, if one of them applies. -/
local macro "tests_only" hv:ident : tactic => `(tactic| (
  refine (work_bind_le (m := 1) (n := 4) (within_test _).1 fun t h1 => ?_).trans (by omega)
  cases t
  swap
  · exact work_fail (by simp) _ _
  refine (work_bind_le (m := 1) (n := 3) (within_test _).1 fun t h2 => ?_).trans (by omega)
  cases t
  swap
  · exact work_fail (by simp) _ _
  refine (work_bind_le (m := 1) (n := 2) (within_test _).1 fun t h3 => ?_).trans (by omega)
  cases t
  swap
  · exact work_fail (by simp) _ _
  refine (work_bind_le (m := 1) (n := 1) (within_test _).1 fun t h4 => ?_).trans (by omega)
  cases t
  swap
  · exact work_fail (by simp) _ _
  refine (work_bind_le (m := 1) (n := 0) (within_test _).1 fun t h5 => ?_).trans (by omega)
  cases t
  swap
  · exact work_fail (by simp) _ _
  refine absurd ?_ $hv
  rw [out_test] at h1 h2 h3 h4 h5
  simp only [Outcome.ok.injEq, decide_eq_false_iff_not] at h1 h2 h3 h4 h5
  exact ⟨by omega, by omega, by omega, fun h => h5 (by rw [h]; rfl)⟩))

/-- C88: with arguments that are rejected they make at most 5 steps, however long the secret is. -/
theorem C88_split_rejected (arch : Arch) (fuel : Nat) (s : List Byte) (parts threshold : Int) (hv : ¬ ValidArgs s parts threshold) (perm : List Nat)
    (rnd : Nat → Byte) (r : CSPRNG) (ps : Shamir.Pools) :
    (Leak.split arch s parts threshold perm rnd ps).work ≤ 5 ∧ (Leak.splitWithRandomizer arch fuel s parts threshold r ps).work ≤ 5 ∧
    (Leak.splitGeneric s parts threshold perm rnd).work ≤ 5 := by
  refine ⟨?_, ?_, ?_⟩
  · unfold Leak.split
    tests_only hv
  · unfold Leak.splitWithRandomizer
    tests_only hv
  · unfold Leak.splitGeneric
    tests_only hv

/-- C88: the same for SplitWithRandomizerOld, with 50 instead of 45; with arguments that are rejected 5 steps. -/
theorem C88_splitOld (arch : Arch) (s : List Byte) (parts threshold : Int) (r : CSPRNG) (ps : Shamir.Pools) :
    (Leak.splitWithRandomizerOld arch s parts threshold r ps).out = Shamir.splitWithRandomizerOld arch s parts threshold r ps ∧
    (ValidArgs s parts threshold →
      (Leak.splitWithRandomizerOld arch s parts threshold r ps).work ≤ 50 * (parts.toNat * threshold.toNat * s.length)) ∧
    (¬ ValidArgs s parts threshold → (Leak.splitWithRandomizerOld arch s parts threshold r ps).work ≤ 5) := by
  refine ⟨by simp, fun hv => ?_, fun hv => ?_⟩
  · have := work_splitOld arch hv r ps
    obtain ⟨h1, h2, h3, h4⟩ := hv
    have hN : 0 < s.length := List.length_pos_iff.2 h4
    have := steps_le (p := parts.toNat) (t := threshold.toNat) (N := s.length) (by omega) (by omega) hN
    have : 2 * (threshold.toNat * s.length) ≤ parts.toNat * (threshold.toNat * s.length) := Nat.mul_le_mul_right _ (by omega)
    have e : parts.toNat * (threshold.toNat * s.length) = parts.toNat * threshold.toNat * s.length := by ring
    omega
  · unfold Leak.splitWithRandomizerOld
    tests_only hv

/-- C88: a goroutine of SplitP that is given m bytes makes at most m(4+parts(5+2*threshold))+1 steps, whatever the other goroutines have written. -/
theorem C88_splitP_goroutine (vs : List Byte) (parts threshold : Int) (h1 : 2 ≤ threshold) (h2 : threshold ≤ 255) (perm : List Nat)
    (rnd : Nat → Byte) (start : Nat) (out : List (List Byte)) :
    (Leak.splitPGoroutine vs parts threshold perm rnd start out).work ≤ 1 + vs.length * (4 + parts.toNat * (5 + 2 * threshold.toNat)) :=
  work_splitPGoroutine vs h1 h2 perm rnd start out

theorem sum_pieceP (secret : List Byte) (n : Nat) : ((List.range n).map fun j => (pieceP secret j).length).sum = min secret.length (1024 * n) := by
  induction n with
  | zero => simp
  | succ n ih =>
    rw [List.range_succ, List.map_append, List.sum_append, ih]
    simp [pieceP]
    omega

/-- C88: the goroutines of SplitP together (one for every 1024 bytes of the secret, each finding the shares in any state) make at most
6 * parts * threshold * len(secret) steps, and none of them more than 6 * parts * threshold * 1024. -/
theorem C88_splitP (secret : List Byte) (parts threshold : Int) (hv : ValidArgs secret parts threshold) (perm : List Nat) (rnd : Nat → Nat → Byte)
    (out : Nat → List (List Byte)) :
    ((List.range ((secret.length + 1023) / 1024)).map fun j =>
        (Leak.splitPGoroutine (pieceP secret j) parts threshold perm (rnd j) (1024 * j) (out j)).work).sum
      ≤ 6 * (parts.toNat * threshold.toNat * secret.length) ∧
    ∀ j < (secret.length + 1023) / 1024, (Leak.splitPGoroutine (pieceP secret j) parts threshold perm (rnd j) (1024 * j) (out j)).work
      ≤ 6 * (parts.toNat * threshold.toNat * 1024) := by
  obtain ⟨h1, h2, h3, h4⟩ := hv
  have hone : ∀ j < (secret.length + 1023) / 1024, (Leak.splitPGoroutine (pieceP secret j) parts threshold perm (rnd j) (1024 * j) (out j)).work
      ≤ (pieceP secret j).length * (6 * (parts.toNat * threshold.toNat)) := by
    intro j hj
    have hm : 1 ≤ (pieceP secret j).length := by simp [pieceP]; omega
    have a := work_splitPGoroutine (pieceP secret j) (parts := parts) h3 (by omega) perm (rnd j) (1024 * j) (out j)
    have b : 5 + parts.toNat * (5 + 2 * threshold.toNat) ≤ 6 * (parts.toNat * threshold.toNat) := by
      have e1 : parts.toNat * 2 ≤ parts.toNat * threshold.toNat := Nat.mul_le_mul_left _ (by omega)
      have e2 : 2 * threshold.toNat ≤ parts.toNat * threshold.toNat := Nat.mul_le_mul_right _ (by omega)
      have e3 : parts.toNat * (5 + 2 * threshold.toNat) = 5 * parts.toNat + 2 * (parts.toNat * threshold.toNat) := by ring
      omega
    have c := Nat.mul_le_mul_left (pieceP secret j).length b
    have d : (pieceP secret j).length * (5 + parts.toNat * (5 + 2 * threshold.toNat))
        = (pieceP secret j).length + (pieceP secret j).length * (4 + parts.toNat * (5 + 2 * threshold.toNat)) := by ring
    omega
  constructor
  · refine (List.sum_le_sum (g := fun j => (pieceP secret j).length * (6 * (parts.toNat * threshold.toNat))) fun j hj => hone j (List.mem_range.1 hj)).trans ?_
    rw [List.sum_map_mul_right, sum_pieceP]
    have : min secret.length (1024 * ((secret.length + 1023) / 1024)) ≤ secret.length := Nat.min_le_left _ _
    refine (Nat.mul_le_mul_right _ this).trans (le_of_eq ?_)
    ring
  · intro j hj
    have : (pieceP secret j).length ≤ 1024 := by simp [pieceP]
    refine (hone j hj).trans ((Nat.mul_le_mul_right _ this).trans (le_of_eq ?_))
    ring

/-- C88: Regenerate of n new shares from k shares of m+1 bytes makes at most 7k+6 + n(2c+6) + nm(10k^2-k+3) steps, however it ends, where c is the
number of candidates tried per new share. -/
theorem C88_regenerate (c : Nat) (shares : List (List Byte)) (n : Int) (rnd u : Nat → Byte) :
    (Leak.regenerate c shares n rnd u).work ≤ 7 * shares.length + 6 + n.toNat * (2 * c + 6) +
      n.toNat * (((shares.headD []).length - 1) * (10 * shares.length ^ 2 - shares.length + 3)) :=
  work_regenerate c shares n rnd u

theorem work_split_any (arch : Arch) (s : List Byte) (parts threshold : Int) (perm : List Nat) (rnd : Nat → Byte) (ps : Shamir.Pools) :
    (Leak.split arch s parts threshold perm rnd ps).work ≤ 45 * (parts.toNat * threshold.toNat * s.length) + 5 := by
  by_cases hv : ValidArgs s parts threshold
  · have := C88_split arch s parts threshold hv perm rnd ps
    omega
  · have := (C88_split_rejected arch 0 s parts threshold hv perm rnd ⟨fun _ => 0⟩ ps).1
    omega

theorem work_splitWithRandomizer_any (arch : Arch) (fuel : Nat) (s : List Byte) (parts threshold : Int) (r : CSPRNG) (ps : Shamir.Pools) :
    (Leak.splitWithRandomizer arch fuel s parts threshold r ps).work ≤ 45 * (parts.toNat * threshold.toNat * s.length) + 5 := by
  by_cases hv : ValidArgs s parts threshold
  · have := C88_splitWithRandomizer arch fuel s parts threshold hv r ps
    omega
  · have := (C88_split_rejected arch fuel s parts threshold hv [] (fun _ => 0) r ps).2.1
    omega

/-- C88: what krawczyk.Split and krawczyk.SplitWithRandomizer do in package shamir does not grow with the secret: at most
900 * parts * threshold + 5 steps. -/
theorem C88_krawczyk_split (env : Env) (fuel : Nat) (secret : List Byte) (parts threshold : Int) (keyRnd : Nat → Byte) (perm : List Nat)
    (rnd : Nat → Byte) (r : CSPRNG) (ps : Shamir.Pools) :
    (krawczykSplit env secret parts threshold keyRnd perm rnd ps).work ≤ 900 * (parts.toNat * threshold.toNat) + 5 ∧
    (krawczykSplitWithRandomizer env fuel secret parts threshold r ps).work ≤ 900 * (parts.toNat * threshold.toNat) + 5 := by
  have e : ∀ key es : List Byte, key.length = 16 → 45 * (parts.toNat * threshold.toNat * (keyLenPair key es).length)
      = 900 * (parts.toNat * threshold.toNat) := by
    intro key es h
    have : (keyLenPair key es).length = 20 := by simp [keyLenPair, lePutUint32, h]
    rw [this]
    ring
  constructor
  · unfold krawczykSplit
    refine (work_bind_le (m := 0) (work_quiet _ _) fun _ _ => ?_).trans (Nat.zero_add _).le
    refine (work_bind_le (m := 0) (work_quiet _ _) fun p _ => ?_).trans (Nat.zero_add _).le
    obtain ⟨es, en⟩ := p
    refine (work_bind_le (n := 0) (work_split_any _ _ _ _ _ _ _) fun q _ => ?_).trans (by rw [e _ _ (by simp [Shamir.randRead])])
    obtain ⟨ss, ps⟩ := q
    exact (work_bind_le (m := 0) (n := 0) (work_quiet _ _) fun _ _ => work_pure _ _).trans le_rfl
  · unfold krawczykSplitWithRandomizer
    refine (work_bind_le (m := 0) (work_quiet _ _) fun _ _ => ?_).trans (Nat.zero_add _).le
    refine (work_bind_le (m := 0) (work_quiet _ _) fun p _ => ?_).trans (Nat.zero_add _).le
    obtain ⟨es, en⟩ := p
    refine (work_bind_le (n := 0) (work_splitWithRandomizer_any _ _ _ _ _ _ _) fun q _ => ?_).trans (by rw [e _ _ (by simp [length_read])])
    obtain ⟨ss, ps⟩ := q
    exact (work_bind_le (m := 0) (n := 0) (work_quiet _ _) fun _ _ => work_pure _ _).trans le_rfl

/-- C88: nor does what krawczyk.Combine does in package shamir: on any input with k shares that are not nil at most 20(10k^2-k+3)+7k+4 steps. -/
theorem C88_krawczyk_combine (env : Env) (shares : List (Option (List Byte))) (parts threshold : Int) :
    (krawczykCombine env shares parts threshold).work ≤ 20 * (10 * (shares.filterMap id).length ^ 2 - (shares.filterMap id).length + 3) +
      7 * (shares.filterMap id).length + 4 := by
  unfold krawczykCombine
  refine (work_bind_le (m := 0) (work_quiet _ _) fun _ _ => ?_).trans (Nat.zero_add _).le
  refine (work_bind_le (m := 0) (work_quiet _ _) fun _ ha => ?_).trans (Nat.zero_add _).le
  refine (work_bind_le (m := 0) (work_quiet _ _) fun ss hss => ?_).trans (Nat.zero_add _).le
  rw [out_quiet, clean_eq] at hss
  cases hss
  refine (work_bind_le (m := 0) (work_quiet _ _) fun em hem => ?_).trans (Nat.zero_add _).le
  obtain ⟨ed, md⟩ := em
  have hmd : md = (shares.filterMap id).map (·.take 21) := by
    have ha := Own.checkArgs_ok ha
    rw [out_quiet] at hem
    by_cases hneg : parts < 0
    · rw [separate_neg _ hneg] at hem
      cases hem
    · rw [separate_eq _ (by unfold ArgsPass at ha; omega)] at hem
      split at hem
      · cases hem; rfl
      · cases hem
      · cases hem
  refine (work_bind_le (n := 0) (m := 20 * (10 * (shares.filterMap id).length ^ 2 - (shares.filterMap id).length + 3) +
      7 * (shares.filterMap id).length + 4) ?_ fun m _ => ?_).trans le_rfl
  · have hl : md.length = (shares.filterMap id).length := by rw [hmd]; simp
    rw [← hl]
    by_cases h : ∃ s, Shamir.combine md = ok s
    · obtain ⟨s, h⟩ := h
      obtain ⟨⟨h2, h3, h4, h5⟩, hs⟩ := combine_ok_iff.1 h
      have hs : s.length ≤ 20 := by
        have e1 : s.length = (md.headD []).length - 1 := by rw [hs]; simp [recover]
        have e2 : (md.headD []).length ≤ 21 := by
          rw [hmd]
          cases shares.filterMap id with
          | nil => simp
          | cons a l => simp
        omega
      rw [work_combine_ok h]
      have := Nat.mul_le_mul_right (10 * md.length ^ 2 - md.length + 3) hs
      omega
    · have := work_combine_fail (parts := md) fun s hs => h ⟨s, hs⟩
      omega
  · refine (work_bind_le (m := 0) (n := 0) (work_quiet _ _) fun _ _ => ?_).trans le_rfl
    refine (work_bind_le (m := 0) (n := 0) (work_quiet _ _) fun _ _ => ?_).trans le_rfl
    split
    · exact work_fail (by simp) _ _
    · refine (work_bind_le (m := 0) (n := 0) (work_quiet _ _) fun _ _ => ?_).trans le_rfl
      refine (work_bind_le (m := 0) (n := 0) (work_quiet _ _) fun _ _ => ?_).trans le_rfl
      refine (work_bind_le (m := 0) (n := 0) (work_quiet _ _) fun _ _ => ?_).trans le_rfl
      exact work_quiet _ _

/-! ## Concrete cases -/

/-- Three shares of two bytes: 2 * 90 + 25 steps. -/
example : (Leak.combine [[1, 2, 3], [4, 5, 6], [7, 8, 9]]).work = 205 := by
  obtain ⟨s, h, hl⟩ : ∃ s, Shamir.combine [[1, 2, 3], [4, 5, 6], [7, 8, 9]] = ok s ∧ s.length = 2 :=
    ⟨_, combine_ok (N := 2) (by decide) (by decide) (by decide) (by decide), by simp [recover]⟩
  rw [C88_combine _ s h, hl]
  rfl

/-- Two shares with the same tag, of any length, are rejected. -/
example (a b : List Byte) : (Leak.combine [a ++ [1], b ++ [1]]).work ≤ 18 := by
  refine C88_combine_rejected _ fun s hs => ?_
  have := (combine_ok_iff.1 hs).1.2.2.2
  simp [tags, tag] at this

/-- A secret of a megabyte into 5 shares with threshold 3: fewer than 710 million steps; into 300 shares: 5 steps. -/
example (arch : Arch) (s : List Byte) (hs : s.length = 2 ^ 20) (perm : List Nat) (rnd : Nat → Byte) (ps : Shamir.Pools) :
    (Leak.split arch s 5 3 perm rnd ps).work ≤ 710000000 ∧ (Leak.split arch s 300 3 perm rnd ps).work ≤ 5 := by
  constructor
  · refine (C88_split arch s 5 3 ⟨by decide, by decide, by decide, fun h => by rw [h] at hs; cases hs⟩ perm rnd ps).trans ?_
    rw [hs]
    decide
  · exact (C88_split_rejected arch 0 s 300 3 (fun h => absurd h.2.1 (by decide)) perm rnd ⟨fun _ => 0⟩ ps).1

/-- SplitP of 3000 bytes into 5 shares with threshold 3: three goroutines, together at most 270000 steps. -/
example (s : List Byte) (hs : s.length = 3000) (perm : List Nat) (rnd : Nat → Nat → Byte) (out : Nat → List (List Byte)) :
    ((List.range 3).map fun j => (Leak.splitPGoroutine (pieceP s j) 5 3 perm (rnd j) (1024 * j) (out j)).work).sum ≤ 270000 := by
  have := (C88_splitP s 5 3 ⟨by decide, by decide, by decide, fun h => by rw [h] at hs; cases hs⟩ perm rnd out).1
  rw [hs] at this
  exact this

end Verif.Props
