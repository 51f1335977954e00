import Verif.Proofs.LeakCombine
import Verif.Proofs.LeakAsm
import Verif.Proofs.LeakMore

/-! # C74: what time and caches show

The comments of `div` and `mult` (shamir/polynomial.go) promise that they "aren't subject to timing attacks".  An observer of
the processor is given everything such an attack could use: every branch, every number of iterations, every address.
`Verif/Spec/Leak.lean` and `Verif/Model/Leak.lean` say what is observed. -/

namespace Verif.Props
open Verif Outcome Galois Spec Spec.Leak Proofs Verif.Leak

/-- The routines of galois/*.s. -/
def allRoutines : List Asm.Code :=
  [Asm.Routines.galMulSSSE3Xor, Asm.Routines.galMulSSSE3, Asm.Routines.galMulAVX2Xor, Asm.Routines.galMulAVX2,
   Asm.Routines.sSE2XorSlice, Asm.Routines.galMulAVX2Xor_64, Asm.Routines.galMulAVX2_64, Asm.Routines.sSE2XorSlice_64,
   Asm.Routines.galMulNEON, Asm.Routines.galMulXorNEON, Asm.Routines.galXorNEON]

/-- C74: which instructions an assembly routine executes and which addresses it accesses depends on the addresses and
lengths of its arguments only: not on their contents, nor on what registers and flags hold when it is called. -/
theorem C74_routines : ∀ code ∈ allRoutines, ∀ (fuel : Nat) (init init' : Asm.State) (xs xs' : List Asm.Arg) (dst dst' : Asm.Arg),
    xs.map shape = xs'.map shape → shape dst = shape dst' →
    callTrace code fuel init xs dst = callTrace code fuel init' xs' dst' := by
  intro code hc fuel init init' xs xs' dst dst' hx hd
  simp only [allRoutines, List.mem_cons, List.not_mem_nil, or_false] at hc
  rcases hc with rfl | rfl | rfl | rfl | rfl | rfl | rfl | rfl | rfl | rfl | rfl
  · exact Proofs.Leak.callTrace_eq (regs := [.si, .dx, .r9, .ax, .bx]) (by decide +kernel) fuel init init' hx hd
  · exact Proofs.Leak.callTrace_eq (regs := [.si, .dx, .r9, .ax, .bx]) (by decide +kernel) fuel init init' hx hd
  · exact Proofs.Leak.callTrace_eq (regs := [.si, .dx, .r9]) (by decide +kernel) fuel init init' hx hd
  · exact Proofs.Leak.callTrace_eq (regs := [.si, .dx, .r9]) (by decide +kernel) fuel init init' hx hd
  · exact Proofs.Leak.callTrace_eq (regs := [.si, .dx, .r9]) (by decide +kernel) fuel init init' hx hd
  · exact Proofs.Leak.callTrace_eq (regs := [.si, .dx, .r9]) (by decide +kernel) fuel init init' hx hd
  · exact Proofs.Leak.callTrace_eq (regs := [.si, .dx, .r9]) (by decide +kernel) fuel init init' hx hd
  · exact Proofs.Leak.callTrace_eq (regs := [.si, .dx, .r9]) (by decide +kernel) fuel init init' hx hd
  · exact Proofs.Leak.callTrace_eq (regs := [.r1, .r2, .r5]) (by decide +kernel) fuel init init' hx hd
  · exact Proofs.Leak.callTrace_eq (regs := [.r1, .r2, .r5]) (by decide +kernel) fuel init init' hx hd
  · exact Proofs.Leak.callTrace_eq (regs := [.r1, .r2, .r5]) (by decide +kernel) fuel init init' hx hd

/-- C74: these are the observations of the whole call: if the call returns, the last of them is the return. -/
theorem C74_routines_whole (code : Asm.Code) (fuel : Nat) (init : Asm.State) (xs : List Asm.Arg) (dst : Asm.Arg) (r : List Byte)
    (h : Asm.call code fuel init xs dst = ok r) : (callTrace code fuel init xs dst).getLast? = some .ret :=
  Proofs.Leak.callTrace_ret h

/-- C74: observing Split and Combine does not change what they do. -/
theorem C74_same_results (arch : Arch) (secret : List Byte) (parts threshold : Int) (perm : List Nat) (rnd : Nat → Byte)
    (ps : Shamir.Pools) (shares : List (List Byte)) :
    (Leak.split arch secret parts threshold perm rnd ps).out = Shamir.split arch secret parts threshold perm rnd ps ∧
    (Leak.combine shares).out = Shamir.combine shares :=
  ⟨out_split .., out_combine _⟩

/-- C74: Split's control flow and its accesses to slices depend on the number of bytes of the secret, on parts, threshold
and tags only: two runs differ at most in which entries of the multiplication table they read. -/
theorem C74_split_control_flow (arch : Arch) (s s' : List Byte) (hl : s.length = s'.length) (parts threshold : Int) (perm : List Nat)
    (hperm : perm.Perm (List.range 255)) (rnd rnd' : Nat → Byte) (ps ps' : Shamir.Pools) :
    (Leak.split arch s parts threshold perm rnd ps).trace.map Ev.hide
      = (Leak.split arch s' parts threshold perm rnd' ps').trace.map Ev.hide := by
  by_cases hv : ValidArgs s parts threshold
  · obtain ⟨a, b, ha, hb⟩ := split_runs arch hl hv hperm rnd rnd' ps ps'
    exact (both_split arch hl hv perm rnd rnd' ps ps' a b ha hb).1
  · rw [split_rejected arch hl hv perm rnd rnd' ps ps']

/-- C74: what Split shows is exactly the random bytes used for those bytes of the secret whose products are looked up in a table:
two runs show the same if and only if these are the same. -/
theorem C74_split (arch : Arch) (s s' : List Byte) (hl : s.length = s'.length) (parts threshold : Int)
    (hv : ValidArgs s parts threshold) (perm : List Nat) (hperm : perm.Perm (List.range 255)) (rnd rnd' : Nat → Byte)
    (ps ps' : Shamir.Pools) :
    (Leak.split arch s parts threshold perm rnd ps).trace = (Leak.split arch s' parts threshold perm rnd' ps').trace ↔
      ∀ j, lookupsFrom arch s.length ≤ j → j < s.length → ∀ k, 1 ≤ k → k < threshold.toNat →
        rnd (threshold.toNat * j + k) = rnd' (threshold.toNat * j + k) := by
  obtain ⟨a, b, ha, hb⟩ := split_runs arch hl hv hperm rnd rnd' ps ps'
  rw [(both_split arch hl hv perm rnd rnd' ps ps' a b ha hb).2.1]
  obtain ⟨i, hi, hx⟩ := some_tag_ne_one hv hperm
  constructor
  · intro h j h1 h2 k h3 h4
    exact h i hi (Or.inl hx) j h1 h2 k h3 (by omega)
  · intro h i _ _ j h1 h2 k h3 h4
    have := hv.2.2.1
    exact h j h1 h2 k h3 (by omega)

/-- C74: with the same random bytes, Split shows the same for all secrets of a length. -/
theorem C74_split_secret (arch : Arch) (s s' : List Byte) (hl : s.length = s'.length) (parts threshold : Int)
    (perm : List Nat) (hperm : perm.Perm (List.range 255)) (rnd : Nat → Byte) (ps ps' : Shamir.Pools) :
    (Leak.split arch s parts threshold perm rnd ps).trace = (Leak.split arch s' parts threshold perm rnd ps').trace := by
  by_cases hv : ValidArgs s parts threshold
  · exact (C74_split arch s s' hl parts threshold hv perm hperm rnd rnd ps ps').2 fun _ _ _ _ _ _ => rfl
  · exact split_rejected arch hl hv perm rnd rnd ps ps'

/-- C74: the lengths for which nothing is looked up. -/
theorem C74_no_lookups (arch : Arch) (n : Nat) (hn : 0 < n) :
    lookupsFrom arch n = n ↔ match arch with
      | .noasm => False
      | .arm64 => n % 32 = 0
      | .amd64 cpu => cpu.avx2 = true ∧ ((32 < n ∧ n < 128 ∧ n % 32 = 0) ∨ (128 ≤ n ∧ n % 64 = 0)) := by
  cases arch with
  | noasm => simp only [lookupsFrom, iff_false]; omega
  | arm64 => simp only [lookupsFrom]; omega
  | amd64 cpu =>
    simp only [lookupsFrom]
    by_cases h : cpu.avx2 = true
    · simp only [h, if_true, true_and]
      split <;> split <;> omega
    · simp only [h, if_false, false_and, iff_false, Bool.false_eq_true]
      by_cases h' : cpu.ssse3 = true
      · simp only [h', if_true]
        split <;> omega
      · simp only [h', if_false, Bool.false_eq_true]; omega

/-- C74: for these lengths Split shows the same in all runs, whatever the secret and the random bytes. -/
theorem C74_split_constant (arch : Arch) (s s' : List Byte) (hl : s.length = s'.length) (hn : lookupsFrom arch s.length = s.length)
    (parts threshold : Int) (perm : List Nat) (hperm : perm.Perm (List.range 255)) (rnd rnd' : Nat → Byte)
    (ps ps' : Shamir.Pools) :
    (Leak.split arch s parts threshold perm rnd ps).trace = (Leak.split arch s' parts threshold perm rnd' ps').trace := by
  by_cases hv : ValidArgs s parts threshold
  · exact (C74_split arch s s' hl parts threshold hv perm hperm rnd rnd' ps ps').2 fun j h1 h2 => by omega
  · exact split_rejected arch hl hv perm rnd rnd' ps ps'

/-- C74: otherwise, what Split shows and one share together determine the looked up bytes of the secret, whatever the threshold: if
two runs show the same, and a share has the same byte `j` in both, then the secrets have the same byte `j`. -/
theorem C74_split_leak (arch : Arch) (s s' : List Byte) (hl : s.length = s'.length) (parts threshold : Int) (perm : List Nat)
    (hperm : perm.Perm (List.range 255)) (rnd rnd' : Nat → Byte) (ps ps' qs qs' : Shamir.Pools) (out out' : List (List Byte))
    (htr : (Leak.split arch s parts threshold perm rnd ps).trace = (Leak.split arch s' parts threshold perm rnd' ps').trace)
    (h : (Leak.split arch s parts threshold perm rnd ps).out = ok (out, qs))
    (h' : (Leak.split arch s' parts threshold perm rnd' ps').out = ok (out', qs'))
    (i j : Nat) (sh sh' : List Byte) (hi : out[i]? = some sh) (hi' : out'[i]? = some sh')
    (h1 : lookupsFrom arch s.length ≤ j) (h2 : j < s.length) (hb : sh[j]? = sh'[j]?) : s[j]? = s'[j]? := by
  rw [out_split] at h h'
  have hv : ValidArgs s parts threshold := split_ok_valid h
  exact share_determines hl hv hperm h h' hi hi' h2
    ((C74_split arch s s' hl parts threshold hv perm hperm rnd rnd' ps ps').1 htr j h1 h2) hb

/-- C74: `mult` and `div` (by a nonzero divisor) take no branch that depends on their operands, as promised, but show both operands
exactly through the table entries they read. -/
theorem C74_mult_div (a b a' b' : Byte) :
    (mult a b).trace.map Ev.hide = (mult a' b').trace.map Ev.hide ∧
    ((mult a b).trace = (mult a' b').trace ↔ a = a' ∧ b = b') ∧
    (b ≠ 0 → b' ≠ 0 → (Leak.div a b).trace.map Ev.hide = (Leak.div a' b').trace.map Ev.hide ∧
      ((Leak.div a b).trace = (Leak.div a' b').trace ↔ a = a' ∧ b = b')) :=
  ⟨mult_hide a b a' b', mult_trace_iff a b a' b', fun h h' => ⟨div_hide h h', div_trace_iff h h'⟩⟩

/-- C74: Combine's control flow and its accesses to slices depend on the lengths and tags of the parts only. -/
theorem C74_combine_control_flow (parts parts' : List (List Byte)) (hl : parts.map List.length = parts'.map List.length)
    (ht : parts.map tag = parts'.map tag) :
    (Leak.combine parts).trace.map Ev.hide = (Leak.combine parts').trace.map Ev.hide := by
  by_cases h : ∃ s, Shamir.combine parts = ok s
  · obtain ⟨s, hs⟩ := h
    obtain ⟨s', hs'⟩ := combine_same_accept hl ht hs
    exact (both_combine hl ht hs hs' s s' (by simpa using hs) (by simpa using hs')).1
  · rw [combine_rejected hl ht (fun s hs => h ⟨s, hs⟩)]

/-- C74: but which entries of the tables Combine reads shows the parts exactly: two accepted runs on parts with the same lengths and
tags show the same only if the parts are the same. -/
theorem C74_combine (parts parts' : List (List Byte)) (hl : parts.map List.length = parts'.map List.length)
    (ht : parts.map tag = parts'.map tag) (s : List Byte) (hs : Shamir.combine parts = ok s) :
    (Leak.combine parts).trace = (Leak.combine parts').trace ↔ parts = parts' := by
  obtain ⟨s', hs'⟩ := combine_same_accept hl ht hs
  exact (both_combine hl ht hs hs' s s' (by simpa using hs) (by simpa using hs')).2.1

/-! ## Concrete cases -/

/-- A call of a routine: everything it shows, for any 16 bytes at these addresses. -/
example (init : Asm.State) (a b : List Byte) (ha : a.length = 16) (hb : b.length = 16) :
    callTrace Asm.Routines.sSE2XorSlice 10 init [⟨4096, a⟩] ⟨8192, b⟩ =
      [.block 0, .arg 0, .arg 8, .arg 24, .block 1, .load 4096 16, .load 8192 16, .store 8192 16, .block 2, .ret] := by
  rw [C74_routines _ (by simp [allRoutines]) 10 init ⟨fun _ => 0, fun _ _ => 0, false, false, fun _ => 0, fun _ => false, fun _ => false, fun _ => 0⟩
    _ [⟨4096, List.replicate 16 0⟩] _ ⟨8192, List.replicate 16 0⟩ (by simp [shape, ha]) (by simp [shape, hb])]
  decide

/-- 64-byte secrets on a processor with AVX2: nothing about the secret or the random bytes shows. -/
example (s s' : List Byte) (h : s.length = 64) (h' : s'.length = 64) (rnd rnd' : Nat → Byte) (ps ps' : Shamir.Pools) :
    (Leak.split (.amd64 ⟨true, true, true⟩) s 5 3 (List.range 255) rnd ps).trace
      = (Leak.split (.amd64 ⟨true, true, true⟩) s' 5 3 (List.range 255) rnd' ps').trace :=
  C74_split_constant _ s s' (by omega) (by rw [h]; rfl) 5 3 _ (List.Perm.refl _) rnd rnd' ps ps'

/-- The same with SSSE3 only: other random bytes show. -/
example (s s' : List Byte) (h : s.length = 64) (h' : s'.length = 64) (ps ps' : Shamir.Pools) :
    (Leak.split (.amd64 ⟨true, true, false⟩) s 5 3 (List.range 255) (fun _ => 0) ps).trace
      ≠ (Leak.split (.amd64 ⟨true, true, false⟩) s' 5 3 (List.range 255) (fun _ => 1) ps').trace := fun e => by
  have hv : ValidArgs s 5 3 := ⟨by omega, by omega, by omega, by rintro rfl; simp at h⟩
  have := (C74_split _ s s' (by omega) 5 3 hv _ (List.Perm.refl _) _ _ ps ps').1 e 0 (by rw [h]; decide) (by omega) 1 (by omega) (by decide)
  exact absurd this (by decide)

/-- The secrets of `C74_split_leak` can be told apart: with the same random bytes they show the same, so no share of one is a share
of the other. -/
example (rnd : Nat → Byte) (ps ps' qs qs' : Shamir.Pools) (out out' : List (List Byte))
    (h : (Leak.split .noasm [1#8] 5 3 (List.range 255) rnd ps).out = ok (out, qs))
    (h' : (Leak.split .noasm [2#8] 5 3 (List.range 255) rnd ps').out = ok (out', qs')) (i : Nat) (sh sh' : List Byte)
    (hi : out[i]? = some sh) (hi' : out'[i]? = some sh') : sh[0]? ≠ sh'[0]? := fun hb => by
  have e := C74_split_secret .noasm [1#8] [2#8] rfl 5 3 _ (List.Perm.refl _) rnd ps ps'
  have := C74_split_leak .noasm [1#8] [2#8] rfl 5 3 _ (List.Perm.refl _) rnd rnd ps ps' qs qs' out out' e h h'
    i 0 sh sh' hi hi' (Nat.zero_le _) (by decide) hb
  exact absurd this (by decide)

/-- Two runs of Combine with the same tags: the branches are the same, the table entries are not. -/
example : (Leak.combine [[5#8, 1#8], [7#8, 2#8]]).trace.map Ev.hide = (Leak.combine [[6#8, 1#8], [7#8, 2#8]]).trace.map Ev.hide ∧
    (Leak.combine [[5#8, 1#8], [7#8, 2#8]]).trace ≠ (Leak.combine [[6#8, 1#8], [7#8, 2#8]]).trace := by
  refine ⟨C74_combine_control_flow _ _ rfl rfl, fun h => ?_⟩
  have h0 := combine_ok (parts := [[5#8, 1#8], [7#8, 2#8]]) (N := 1) (by decide) (by decide) (by decide) (by decide)
  exact absurd ((C74_combine [[5#8, 1#8], [7#8, 2#8]] [[6#8, 1#8], [7#8, 2#8]] rfl rfl _ h0).1 h) (by decide)

end Verif.Props
