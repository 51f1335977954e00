import Verif.Proofs.Word
import Verif.Proofs.WordKrawczyk
import Verif.Proofs.WordSplitP
import Verif.Props.SplitP
import Verif.Props.Krawczyk
import Verif.Props.Sharing
import Verif.Props.Field

/-! # C82: sizes that do not fit into an `int`

`Verif/Model/Word.lean` is the package shamir with all sizes and positions computed in integers of `w` bits, which overflow silently.
Lengths of secrets are less than 2^(w-1), as everything a Go slice may have as length.  `w = 32` and `w = 64` are the platforms of Go;
the theorems hold for every `w > 8`. -/

namespace Verif.Props
open Verif Outcome Galois Spec Proofs Shamir Pool Csprng

/-- C82: Split panics if the shares together have 2^(w-1) bytes or more, and is otherwise what the other properties are about. -/
theorem C82_split (w : Nat) (hw : 8 < w) (arch : Arch) (secret : List Byte) (hl : (secret.length : Int) < 2 ^ (w - 1))
    (parts threshold : Int) (perm : List Nat) (rnd : Nat → Byte) (ps : Pools) :
    Word.split w arch secret parts threshold perm rnd ps =
      if ValidArgs secret parts threshold ∧ 2 ^ (w - 1) ≤ parts * (secret.length + 1) then panic
      else split arch secret parts threshold perm rnd ps := by
  by_cases hv : ValidArgs secret parts threshold
  · by_cases h : 2 ^ (w - 1) ≤ parts * ((secret.length : Int) + 1)
    · rw [if_pos ⟨hv, h⟩]
      unfold Word.split
      rw [guard_chain, argError_none.2 hv]
      simp only
      have := hv.1
      have := hv.2.2.1
      rw [word_allocShares_panic (by omega) _ hl (by push_cast; rw [Int.toNat_of_nonneg (by omega), mul_comm]; exact h)]
      rfl
    · rw [if_neg (by tauto), word_split hw arch hv perm rnd ps (by simpa using h)]
  · rw [if_neg (by tauto)]
    unfold Word.split split
    rw [guard_chain, guard_chain]
    cases he : argError secret parts threshold with
    | some e => rfl
    | none => exact absurd (argError_none.1 he) hv

/-- C82: the same for SplitWithRandomizer (which makes the tags first, and may hang or panic there). -/
theorem C82_splitWithRandomizer (w : Nat) (hw : 8 < w) (arch : Arch) (fuel : Nat) (secret : List Byte)
    (hl : (secret.length : Int) < 2 ^ (w - 1)) (parts threshold : Int) (r : CSPRNG) (ps : Pools) :
    Word.splitWithRandomizer w arch fuel secret parts threshold r ps =
      if ValidArgs secret parts threshold ∧ 2 ^ (w - 1) ≤ parts * (secret.length + 1) then
        r.getUniqueBytes fuel (BitVec.ofInt 8 parts) >>= fun _ => panic
      else splitWithRandomizer arch fuel secret parts threshold r ps := by
  by_cases hv : ValidArgs secret parts threshold
  · by_cases h : 2 ^ (w - 1) ≤ parts * ((secret.length : Int) + 1)
    · rw [if_pos ⟨hv, h⟩]
      unfold Word.splitWithRandomizer
      rw [guard_chain, argError_none.2 hv]
      simp only
      congr 1; funext xs
      have := hv.1
      have := hv.2.2.1
      rw [word_allocShares_panic (by omega) _ hl (by push_cast; rw [Int.toNat_of_nonneg (by omega), mul_comm]; exact h)]
      rfl
    · rw [if_neg (by tauto), word_splitWithRandomizer hw arch fuel hv r ps (by simpa using h)]
  · rw [if_neg (by tauto)]
    unfold Word.splitWithRandomizer splitWithRandomizer
    rw [guard_chain, guard_chain]
    cases he : argError secret parts threshold with
    | some e => rfl
    | none => exact absurd (argError_none.1 he) hv

theorem C82_splitWithRandomizerOld (w : Nat) (hw : 8 < w) (arch : Arch) (secret : List Byte)
    (hl : (secret.length : Int) < 2 ^ (w - 1)) (parts threshold : Int) (r : CSPRNG) (ps : Pools) :
    Word.splitWithRandomizerOld w arch secret parts threshold r ps =
      if ValidArgs secret parts threshold ∧ 2 ^ (w - 1) ≤ parts * (secret.length + 1) then r.perm 255#8 >>= fun _ => panic
      else splitWithRandomizerOld arch secret parts threshold r ps := by
  by_cases hv : ValidArgs secret parts threshold
  · by_cases h : 2 ^ (w - 1) ≤ parts * ((secret.length : Int) + 1)
    · rw [if_pos ⟨hv, h⟩]
      unfold Word.splitWithRandomizerOld
      rw [guard_chain, argError_none.2 hv]
      simp only
      congr 1; funext xs
      have := hv.1
      have := hv.2.2.1
      rw [word_allocShares_panic (by omega) _ hl (by push_cast; rw [Int.toNat_of_nonneg (by omega), mul_comm]; exact h)]
      rfl
    · rw [if_neg (by tauto), word_splitWithRandomizerOld hw arch hv r ps (by simpa using h)]
  · rw [if_neg (by tauto)]
    unfold Word.splitWithRandomizerOld splitWithRandomizerOld
    rw [guard_chain, guard_chain]
    cases he : argError secret parts threshold with
    | some e => rfl
    | none => exact absurd (argError_none.1 he) hv

/-- C82: SplitGeneric allocates the shares one by one; it panics if the coefficients of the polynomials are too many. -/
theorem C82_splitGeneric (w : Nat) (hw : 8 < w) (secret : List Byte) (hl : (secret.length : Int) < 2 ^ (w - 1))
    (parts threshold : Int) (perm : List Nat) (hperm : perm.Perm (List.range 255)) (rnd : Nat → Byte) :
    Word.splitGeneric w secret parts threshold perm rnd =
      if ValidArgs secret parts threshold ∧ 2 ^ (w - 1) ≤ threshold * secret.length then panic
      else splitGeneric secret parts threshold perm rnd := by
  by_cases hv : ValidArgs secret parts threshold
  · by_cases h : 2 ^ (w - 1) ≤ threshold * (secret.length : Int)
    · rw [if_pos ⟨hv, h⟩]
      have := hv.2.1
      exact word_splitGeneric_panic hw hv perm (by rw [hperm.length_eq, List.length_range]; omega) rnd hl h
    · rw [if_neg (by tauto), word_splitGeneric hw hv perm rnd (by simpa using h)]
  · rw [if_neg (by tauto)]
    unfold Word.splitGeneric splitGeneric
    rw [guard_chain, guard_chain]
    cases he : argError secret parts threshold with
    | some e => rfl
    | none => exact absurd (argError_none.1 he) hv

/-- C82: so shares that do not fit are never returned incomplete or wrong: what is returned can be combined to the secret. -/
theorem C82_never_wrong (w : Nat) (hw : 8 < w) (arch : Arch) (secret : List Byte) (hl : (secret.length : Int) < 2 ^ (w - 1))
    (parts threshold : Int) (perm : List Nat) (hperm : perm.Perm (List.range 255)) (rnd : Nat → Byte) (ps ps' : Pools)
    (shares : List (List Byte)) (h : Word.split w arch secret parts threshold perm rnd ps = ok (shares, ps')) :
    parts * (secret.length + 1) < 2 ^ (w - 1) ∧
    ∀ sub, sub.Subperm shares → threshold ≤ sub.length → combine sub = ok secret := by
  rw [C82_split w hw arch secret hl] at h
  split_ifs at h with hc
  refine ⟨?_, fun sub => C08_split_combine arch secret parts threshold perm hperm rnd ps ps' shares sub h⟩
  have hv := (split_ok arch hperm h).1
  by_contra hge
  exact hc ⟨hv, by simpa using hge⟩

/-- C82: in krawczyk.Split nothing overflows, on any arguments, with integers of 42 bits or more: the limit of 2^32-1 bytes keeps all
sizes below. -/
theorem C82_krawczyk_split (w : Nat) (hw : 42 ≤ w) (env : Krawczyk.Env) (hc : env.lib.Contract) (secret : List Byte)
    (parts threshold : Int) (keyRnd : Nat → Byte) (perm : List Nat) (hperm : perm.Perm (List.range 255)) (rnd : Nat → Byte) (ps : Pools) :
    Word.krawczykSplit w env secret parts threshold keyRnd perm rnd ps
      = Krawczyk.split env secret parts threshold keyRnd perm rnd ps := by
  rw [split_tail]
  refine word_kTail hw env hc (key := randRead keyRnd 0 (List.replicate 16 0))
    (sh' := fun s => Word.split w env.arch s parts threshold perm rnd ps)
    (sh := fun s => split env.arch s parts threshold perm rnd ps)
    ((randRead_length ..).trans (List.length_replicate ..)) (fun s hs => ?_) (fun s md ps' h hs => ?_)
  · have ht := top_large hw
    rw [C82_split w (by omega) env.arch s (by rw [hs]; unfold top at ht; omega), if_neg]
    rintro ⟨hv, h⟩
    have := hv.2.1
    rw [hs] at h
    unfold top at ht
    omega
  · have h' := split_ok env.arch hperm h
    obtain ⟨f, -, hf⟩ := h'.2.1.2
    exact ⟨h'.1, fun m hm => by rw [(hf m hm).1, hs]⟩

/-- C82: nor in krawczyk.SplitWithRandomizer. -/
theorem C82_krawczyk_splitWithRandomizer (w : Nat) (hw : 42 ≤ w) (env : Krawczyk.Env) (hc : env.lib.Contract) (fuel : Nat)
    (secret : List Byte) (parts threshold : Int) (r : CSPRNG) (ps : Pools) :
    Word.krawczykSplitWithRandomizer w env fuel secret parts threshold r ps
      = Krawczyk.splitWithRandomizer env fuel secret parts threshold r ps := by
  rw [splitR_tail]
  refine word_kTail hw env hc (key := r.read (List.replicate 16 0))
    (sh' := fun s => Word.splitWithRandomizer w env.arch fuel s parts threshold r ps)
    (sh := fun s => splitWithRandomizer env.arch fuel s parts threshold r ps)
    ((read_length ..).trans (List.length_replicate ..)) (fun s hs => ?_) (fun s md ps' h hs => ?_)
  · have ht := top_large hw
    rw [C82_splitWithRandomizer w (by omega) env.arch fuel s (by rw [hs]; unfold top at ht; omega), if_neg]
    rintro ⟨hv, h⟩
    have := hv.2.1
    rw [hs] at h
    unfold top at ht
    omega
  · have h' := splitWithRandomizer_ok env.arch fuel h
    obtain ⟨f, -, hf⟩ := h'.2.1.2
    exact ⟨h'.1, fun m hm => by rw [(hf m hm).1, hs]⟩

/-- C82: SplitP only needs the length of one share to fit; otherwise it panics before it starts a goroutine. -/
theorem C82_splitP (w : Nat) (hw : 0 < w) (secret : Heap.Slice) (hl : (secret.len : Int) < 2 ^ (w - 1)) (parts threshold : Int)
    (perm : List Nat) :
    Word.splitPSetup w secret parts threshold perm =
      if (2 ≤ threshold ∧ threshold ≤ parts ∧ parts ≤ 255 ∧ 0 < secret.len) ∧ 2 ^ (w - 1) ≤ (secret.len : Int) + 1 then .panic
      else Heap.splitPSetup secret parts threshold perm := by
  by_cases h : 2 ^ (w - 1) ≤ (secret.len : Int) + 1
  · by_cases hv : 2 ≤ threshold ∧ threshold ≤ parts ∧ parts ≤ 255 ∧ 0 < secret.len
    · rw [if_pos ⟨hv, h⟩, word_splitPSetup_panic hw secret (by unfold top; omega) hv]
    · rw [if_neg (by tauto)]
      exact checkP_invalid hv _ _
  · rw [if_neg (by tauto), word_splitPSetup hw secret (by unfold top; omega)]

/-- C82: where `int` has at most 32 bits, SplitP has none of the defects of C48: no secret is too long for the loop that starts the
goroutines, and whatever is returned, under any schedule, can be combined to the secret. -/
theorem C82_splitP_narrow (w : Nat) (hw : 0 < w) (hw' : w ≤ 32) (arch : Arch) (σ : Heap.Shared) (secret : Heap.Slice)
    (hl : (secret.len : Int) < 2 ^ (w - 1)) (parts threshold : Int) (perm : List Nat) (hperm : perm.Perm (List.range 255))
    (hst : WStart σ fun _ : Unit => Heap.Job.splitP secret parts threshold perm) (s : Heap.World Unit)
    (hr : Heap.WReach (fun _ => .splitP secret parts threshold perm) (Word.splitPInitial w σ secret parts threshold perm) s) :
    (s.proc ()).phase ≠ .panicked ∧
    ∀ outs, (s.proc ()).phase = .done (ok outs) → (secret.len : Int) + 1 < 2 ^ (w - 1) ∧
      ∀ sub, sub.Subperm (outs.map (contents s.shared.heap)) → threshold ≤ sub.length → combine sub = ok (contents σ.heap secret) := by
  have hp : (2 : Int) ^ (w - 1) ≤ 2 ^ 31 := pow_le_pow_right₀ (by omega) (by omega)
  have hn : (2 : Int) ^ 31 = 2147483648 := by norm_num
  have key := C82_splitP w hw secret hl parts threshold perm
  split_ifs at key with hc
  · have := stuck_reach (s := Word.splitPInitial w σ secret parts threshold perm) key rfl rfl hr
    subst this
    exact ⟨by rintro ⟨⟩, by rintro _ ⟨⟩⟩
  · have e : Word.splitPInitial w σ secret parts threshold perm
        = winitial arch σ fun _ : Unit => Heap.Job.splitP secret parts threshold perm := by
      unfold Word.splitPInitial winitial
      rw [key]; rfl
    rw [e] at hr
    have hadm : ∀ i : Unit, JobAdmissible ((fun _ : Unit => Heap.Job.splitP secret parts threshold perm) i) := fun _ => hperm
    refine ⟨fun hpan => ?_, fun outs hd => ⟨?_, fun sub => ?_⟩⟩
    · obtain ⟨_, _, _, _, h1, h2⟩ := (C11_C13_never_panics arch σ _ hst hadm s hr ()).2 hpan
      cases h1
      have := Nat.mod_le secret.len (2 ^ 32)
      omega
    · have hx := C11_splitP_exact arch σ _ hst hadm s hr () _ _ _ _ rfl _ hd
      by_contra hge
      apply hc
      refine ⟨?_, by omega⟩
      cases ha : argError (contents σ.heap secret) parts threshold with
      | some e => rw [ha] at hx; cases hx
      | none =>
        obtain ⟨h1, h2, h3, h4⟩ := argError_none.1 ha
        refine ⟨by omega, by omega, by omega, ?_⟩
        by_contra h0
        apply h4
        unfold contents
        rw [show secret.len = 0 by omega]
        simp
    · exact C11_splitP_combine arch σ _ hst hadm s hr () _ _ _ _ rfl (by omega) outs hd sub

/-- C82: GalExp with integers of any width: the base is a power `2^l` with `l < 255`; `v` being `l*n` in `w` bits, a negative `v` panics,
otherwise the result is `2^v`. -/
theorem C82_galExp (w : Nat) (a : Byte) (ha : a ≠ 0) : ∃ l < 255, (galMultiply 2)^[l] 1 = a ∧ ∀ n : Int, n ≠ 0 →
    Word.galExp w a n = if (BitVec.ofInt w (l * n)).toInt < 0 then panic
      else ok ((galMultiply 2)^[(BitVec.ofInt w (l * n)).toInt.toNat] 1) := by
  have hgen : (⟨2⟩ : GF) = gen := rfl
  refine ⟨Galois.logTable a, galois_log_lt a, ?_, fun n hn => ?_⟩
  · rw [iterate_mul, hgen, ← galois_log_spec ha]
  · rw [BitVec.toInt_ofInt]
    unfold Word.galExp Word.wrap
    rw [if_neg hn, if_neg ha]
    simp only [Outcome.pure_eq, ok_bind]
    generalize hw : Int.bmod ((Galois.logTable a : Int) * n) (2 ^ w) = v
    by_cases h : v < 0
    · rw [if_pos h, reduceLog_neg (by omega), galois_exp_neg h]
    · rw [if_neg h, iterate_mul, hgen]
      obtain ⟨k, rfl⟩ : ∃ k : Nat, v = k := ⟨v.toNat, by omega⟩
      rw [reduceLog_nat, galois_exp _ (by omega), gen_pow_mod]
      rfl

/-- With 64 bits this is the function of C03. -/
example (a : Byte) (n : Int) : Word.galExp 64 a n = galExp a n := rfl

/-! ## Concrete cases -/

/-- A secret of 16 MB in 128 shares: too much for integers of 32 bits ... -/
example (rnd : Nat → Byte) : Word.split 32 .noasm (List.replicate (2 ^ 24) 7) 128 2 (List.range 255) rnd (Pools.init 4) = panic := by
  rw [C82_split 32 (by omega) _ _ (by rw [List.length_replicate]; norm_num), if_pos]
  refine ⟨⟨by omega, by omega, by omega, ?_⟩, by rw [List.length_replicate]; norm_num⟩
  rw [ne_eq, List.replicate_eq_nil_iff]; norm_num

/-- ... but not for 64, where any two shares suffice. -/
example (rnd : Nat → Byte) : ∃ shares ps', Word.split 64 .noasm (List.replicate (2 ^ 24) 7) 128 2 (List.range 255) rnd (Pools.init 4) =
      ok (shares, ps') ∧ ∀ sub, sub.Subperm shares → 2 ≤ (sub.length : Int) → combine sub = ok (List.replicate (2 ^ 24) 7) := by
  have hv : ValidArgs (List.replicate (2 ^ 24) 7) 128 2 := by
    refine ⟨by omega, by omega, by omega, ?_⟩
    rw [ne_eq, List.replicate_eq_nil_iff]; norm_num
  obtain ⟨pp, h⟩ := split_valid .noasm (List.range 255) rnd (Pools.init 4) hv (by simp)
  have hl : ((List.replicate (2 ^ 24) (7 : Byte)).length : Int) < 2 ^ (64 - 1) := by rw [List.length_replicate]; norm_num
  have h' := C82_split 64 (by omega) .noasm _ hl 128 2 (List.range 255) rnd (Pools.init 4)
  rw [if_neg (by rw [List.length_replicate]; norm_num), h] at h'
  exact ⟨_, _, h', (C82_never_wrong 64 (by omega) .noasm _ hl 128 2 _ (List.Perm.refl _) rnd _ _ _ h').2⟩

/-- 32 bits: SplitP panics on a secret of 2^31-1 bytes ... -/
example : Word.splitPSetup 32 ⟨0, 0, 2 ^ 31 - 1, 2 ^ 31 - 1⟩ 3 2 (List.range 255) = .panic := by
  rw [C82_splitP 32 (by omega) _ (by norm_num), if_pos (by norm_num)]

/-- ... and a byte less can be split by it: some schedule ends with shares, any two of which can be combined. -/
example (arch : Arch) : ∃ s, Heap.WReach (bigJobs (2 ^ 31 - 2)) (Word.splitPInitial 32 (bigShared (2 ^ 31 - 2))
      ⟨0, 0, 2 ^ 31 - 2, 2 ^ 31 - 2⟩ 3 2 (List.range 255)) s ∧
    ∃ outs, (s.proc ()).phase = .done (ok outs) ∧ ∀ sub, sub.Subperm (outs.map (contents s.shared.heap)) → 2 ≤ (sub.length : Int) →
      combine sub = ok (List.replicate (2 ^ 31 - 2) 7) := by
  generalize hn : 2 ^ 31 - 2 = n
  have hl : ((⟨0, 0, n, n⟩ : Heap.Slice).len : Int) < 2 ^ (32 - 1) := by
    show (n : Int) < _
    norm_num; omega
  have hadm : ∀ i, JobAdmissible (bigJobs n i) := fun _ => List.Perm.refl _
  obtain ⟨s, hr, h⟩ := ((C11_terminates arch (bigShared n) _ (bigStart n) hadm).2 _ .refl).2
  have e : Word.splitPInitial 32 (bigShared n) ⟨0, 0, n, n⟩ 3 2 (List.range 255) = winitial arch (bigShared n) (bigJobs n) := by
    unfold Word.splitPInitial winitial
    rw [C82_splitP 32 (by omega) _ hl, if_neg (fun hc => by have := hc.2; simp only [Nat.reduceSub] at this; norm_num at this; omega)]
    rfl
  rw [e]
  have key := C82_splitP_narrow 32 (by omega) le_rfl arch (bigShared n) ⟨0, 0, n, n⟩ hl 3 2 (List.range 255) (List.Perm.refl _)
    (bigStart n) s (by rw [e]; exact hr)
  refine ⟨s, hr, ?_⟩
  rcases h () with ⟨r, hd⟩ | hp
  · have hx := C11_splitP_exact arch _ _ (bigStart n) hadm s hr () _ _ _ _ rfl r hd
    have hv : ValidArgs (contents (bigShared n).heap ⟨0, 0, n, n⟩) 3 2 := by
      refine ⟨by decide, by decide, by decide, ?_⟩
      rw [bigContents, ne_eq, List.replicate_eq_nil_iff]
      omega
    rw [argError_none.2 hv] at hx
    obtain ⟨outs, rfl, -⟩ := hx
    refine ⟨outs, hd, fun sub h1 h2 => ?_⟩
    rw [(key.2 outs hd).2 sub h1 h2, bigContents]
  · exact absurd hp key.1

/-- With 64 bits, four gigabytes less one byte are shared by krawczyk.Split without an overflow, and any two shares suffice. -/
example (keyRnd rnd : Nat → Byte) : ∃ shares ps', Word.krawczykSplit 64 exEnv (List.replicate (2 ^ 32 - 1) 7) 255 2 keyRnd
      (List.range 255) rnd (Pools.init 4) = ok (shares, ps') ∧
    Krawczyk.combine exEnv [some (shares.getD 254 []), some (shares.getD 0 [])] 255 2 = ok (List.replicate (2 ^ 32 - 1) 7) := by
  have hne : List.replicate (2 ^ 32 - 1) (7 : Byte) ≠ [] := by rw [ne_eq, List.replicate_eq_nil_iff]; norm_num
  obtain ⟨⟨shares, ps'⟩, h⟩ := (C37_split_accepts exEnv exEnv_contract (List.replicate (2 ^ 32 - 1) 7) 255 2 keyRnd (List.range 255)
    (List.Perm.refl _) rnd (Pools.init 4)).2 ⟨by omega, by omega, by omega, hne, by rw [List.length_replicate], by norm_num⟩
  have hf := C36_split_format _ exEnv_contract _ _ _ _ _ (List.Perm.refl _) _ _ _ _ h
  have hl : shares.length = 255 := by omega
  refine ⟨shares, ps', by rw [C82_krawczyk_split 64 (by omega) exEnv exEnv_contract _ _ _ _ _ (List.Perm.refl _), h], ?_⟩
  refine C35_split_combine exEnv exEnv exEnv_contract rfl rfl rfl _ _ _ _ _ (List.Perm.refl _) _ _ _ _ _ h ?_ (by simp)
  cases shares with
  | nil => cases hl
  | cons b tl =>
    have hl : tl.length = 254 := by simpa using hl
    have ha : (b :: tl).getD 254 [] ∈ tl := by
      rw [List.getD_cons_succ, List.getD_eq_getElem?_getD, List.getElem?_eq_getElem (by omega), Option.getD_some]
      exact List.getElem_mem _
    refine ⟨[b, (b :: tl).getD 254 []], List.Perm.swap _ _ [], ?_⟩
    exact (List.singleton_sublist.2 ha).cons_cons b

end Verif.Props
