import Verif.Proofs.Errors
import Verif.Props.Sharing
import Verif.Props.Secrecy
import Verif.Props.Krawczyk
import Verif.Props.Mixed
import Verif.Props.SplitP

/-! # C81: how many corrupted shares can be noticed and corrected

Combine does not notice corrupted shares (C19).  A user who holds more than threshold shares can, by combining choices of them.
`given` are the shares the user was given, `received` what has become of them: arbitrary byte strings in at most `e` places.
`Verif/Spec/Errors.lean` says what it means that errors can be corrected. -/

namespace Verif.Props
open Verif Outcome Galois Spec Proofs Shamir Pool Csprng

/-- C81: of threshold + 2e or more shares, `e` may be corrupted. -/
theorem C81_split_correctable (arch : Arch) (secret : List Byte) (parts threshold : Int) (perm : List Nat)
    (hperm : perm.Perm (List.range 255)) (rnd : Nat → Byte) (ps ps' : Pools) (shares given received : List (List Byte))
    (h : split arch secret parts threshold perm rnd ps = ok (shares, ps')) (hg : given.Subperm shares)
    (hl : received.length = given.length) (e : Nat) (he : differences received given ≤ e) (hn : threshold + 2 * e ≤ given.length) :
    Correctable combine threshold e received secret := by
  have := (split_ok arch hperm h).1.2.2.1
  exact correct (by omega) (fun sub => C08_split_combine arch secret parts threshold perm hperm rnd ps ps' shares sub h) hg hl he hn

/-- C81: of threshold + e or more shares, `e` corrupted ones are noticed: if all choices of threshold of them combine to the same
value, it is the secret. -/
theorem C81_split_detectable (arch : Arch) (secret : List Byte) (parts threshold : Int) (perm : List Nat)
    (hperm : perm.Perm (List.range 255)) (rnd : Nat → Byte) (ps ps' : Pools) (shares given received : List (List Byte))
    (h : split arch secret parts threshold perm rnd ps = ok (shares, ps')) (hg : given.Subperm shares)
    (hl : received.length = given.length) (e : Nat) (he : differences received given ≤ e) (hn : threshold + e ≤ given.length)
    (v : List Byte) (hv : AllCombineTo combine threshold received v) : v = secret := by
  have := (split_ok arch hperm h).1.2.2.1
  exact detect (by omega) (fun sub => C08_split_combine arch secret parts threshold perm hperm rnd ps ps' shares sub h) hg hl he
    (List.Sublist.refl _) (by omega) hv

theorem C81_splitWithRandomizer_correctable (arch : Arch) (fuel : Nat) (secret : List Byte) (parts threshold : Int) (r : CSPRNG)
    (ps ps' : Pools) (shares given received : List (List Byte))
    (h : splitWithRandomizer arch fuel secret parts threshold r ps = ok (shares, ps')) (hg : given.Subperm shares)
    (hl : received.length = given.length) (e : Nat) (he : differences received given ≤ e) (hn : threshold + 2 * e ≤ given.length) :
    Correctable combine threshold e received secret := by
  have := (splitWithRandomizer_ok arch fuel h).1.2.2.1
  exact correct (by omega) (fun sub => C09_splitWithRandomizer_combine arch fuel secret parts threshold r ps ps' shares sub h) hg hl he hn

theorem C81_splitWithRandomizer_detectable (arch : Arch) (fuel : Nat) (secret : List Byte) (parts threshold : Int) (r : CSPRNG)
    (ps ps' : Pools) (shares given received : List (List Byte))
    (h : splitWithRandomizer arch fuel secret parts threshold r ps = ok (shares, ps')) (hg : given.Subperm shares)
    (hl : received.length = given.length) (e : Nat) (he : differences received given ≤ e) (hn : threshold + e ≤ given.length)
    (v : List Byte) (hv : AllCombineTo combine threshold received v) : v = secret := by
  have := (splitWithRandomizer_ok arch fuel h).1.2.2.1
  exact detect (by omega) (fun sub => C09_splitWithRandomizer_combine arch fuel secret parts threshold r ps ps' shares sub h) hg hl he
    (List.Sublist.refl _) (by omega) hv

theorem C81_splitWithRandomizerOld_correctable (arch : Arch) (secret : List Byte) (parts threshold : Int) (r : CSPRNG)
    (ps ps' : Pools) (shares given received : List (List Byte))
    (h : splitWithRandomizerOld arch secret parts threshold r ps = ok (shares, ps')) (hg : given.Subperm shares)
    (hl : received.length = given.length) (e : Nat) (he : differences received given ≤ e) (hn : threshold + 2 * e ≤ given.length) :
    Correctable combine threshold e received secret := by
  have := (splitOld_ok arch h).1.2.2.1
  exact correct (by omega) (fun sub => C10_splitWithRandomizerOld_combine arch secret parts threshold r ps ps' shares sub h) hg hl he hn

theorem C81_splitWithRandomizerOld_detectable (arch : Arch) (secret : List Byte) (parts threshold : Int) (r : CSPRNG)
    (ps ps' : Pools) (shares given received : List (List Byte))
    (h : splitWithRandomizerOld arch secret parts threshold r ps = ok (shares, ps')) (hg : given.Subperm shares)
    (hl : received.length = given.length) (e : Nat) (he : differences received given ≤ e) (hn : threshold + e ≤ given.length)
    (v : List Byte) (hv : AllCombineTo combine threshold received v) : v = secret := by
  have := (splitOld_ok arch h).1.2.2.1
  exact detect (by omega) (fun sub => C10_splitWithRandomizerOld_combine arch secret parts threshold r ps ps' shares sub h) hg hl he
    (List.Sublist.refl _) (by omega) hv

theorem C81_splitGeneric_correctable (secret : List Byte) (parts threshold : Int) (perm : List Nat)
    (hperm : perm.Perm (List.range 255)) (rnd : Nat → Byte) (shares given received : List (List Byte))
    (h : splitGeneric secret parts threshold perm rnd = ok shares) (hg : given.Subperm shares)
    (hl : received.length = given.length) (e : Nat) (he : differences received given ≤ e) (hn : threshold + 2 * e ≤ given.length) :
    Correctable combine threshold e received secret := by
  have := (splitGeneric_ok hperm h).1.2.2.1
  exact correct (by omega) (fun sub => C10_splitGeneric_combine secret parts threshold perm hperm rnd shares sub h) hg hl he hn

theorem C81_splitGeneric_detectable (secret : List Byte) (parts threshold : Int) (perm : List Nat)
    (hperm : perm.Perm (List.range 255)) (rnd : Nat → Byte) (shares given received : List (List Byte))
    (h : splitGeneric secret parts threshold perm rnd = ok shares) (hg : given.Subperm shares)
    (hl : received.length = given.length) (e : Nat) (he : differences received given ≤ e) (hn : threshold + e ≤ given.length)
    (v : List Byte) (hv : AllCombineTo combine threshold received v) : v = secret := by
  have := (splitGeneric_ok hperm h).1.2.2.1
  exact detect (by omega) (fun sub => C10_splitGeneric_combine secret parts threshold perm hperm rnd shares sub h) hg hl he
    (List.Sublist.refl _) (by omega) hv

/-- C81: the same for krawczyk. -/
theorem C81_krawczyk_correctable (env env' : Krawczyk.Env) (hc : env.lib.Contract) (ha : env'.aes = env.aes)
    (hm : env'.lib.missing = env.lib.missing) (hp : env'.lib.allowsNoParity = env.lib.allowsNoParity)
    (secret : List Byte) (parts threshold : Int) (keyRnd : Nat → Byte) (perm : List Nat) (hperm : perm.Perm (List.range 255))
    (rnd : Nat → Byte) (ps ps' : Pools) (shares given received : List (List Byte))
    (h : Krawczyk.split env secret parts threshold keyRnd perm rnd ps = ok (shares, ps')) (hg : given.Subperm shares)
    (hl : received.length = given.length) (e : Nat) (he : differences received given ≤ e) (hn : threshold + 2 * e ≤ given.length) :
    Correctable (fun l => Krawczyk.combine env' (l.map some) parts threshold) threshold e received secret := by
  have := (kSplitError_none.1 (ksplit_ok env hc hperm h).1).1
  refine correct (by omega) (fun sub hs ht => ?_) hg hl he hn
  exact C35_split_combine env env' hc ha hm hp secret parts threshold keyRnd perm hperm rnd ps ps' shares (sub.map some) h
    (by simpa using hs) (by simpa using ht)

theorem C81_krawczyk_detectable (env env' : Krawczyk.Env) (hc : env.lib.Contract) (ha : env'.aes = env.aes)
    (hm : env'.lib.missing = env.lib.missing) (hp : env'.lib.allowsNoParity = env.lib.allowsNoParity)
    (secret : List Byte) (parts threshold : Int) (keyRnd : Nat → Byte) (perm : List Nat) (hperm : perm.Perm (List.range 255))
    (rnd : Nat → Byte) (ps ps' : Pools) (shares given received : List (List Byte))
    (h : Krawczyk.split env secret parts threshold keyRnd perm rnd ps = ok (shares, ps')) (hg : given.Subperm shares)
    (hl : received.length = given.length) (e : Nat) (he : differences received given ≤ e) (hn : threshold + e ≤ given.length)
    (v : List Byte) (hv : AllCombineTo (fun l => Krawczyk.combine env' (l.map some) parts threshold) threshold received v) : v = secret := by
  have := (kSplitError_none.1 (ksplit_ok env hc hperm h).1).1
  refine detect (by omega) (fun sub hs ht => ?_) hg hl he
    (List.Sublist.refl _) (by omega) hv
  exact C35_split_combine env env' hc ha hm hp secret parts threshold keyRnd perm hperm rnd ps ps' shares (sub.map some) h
    (by simpa using hs) (by simpa using ht)

theorem C81_krawczyk_splitWithRandomizer_correctable (env env' : Krawczyk.Env) (hc : env.lib.Contract) (ha : env'.aes = env.aes)
    (hm : env'.lib.missing = env.lib.missing) (hp : env'.lib.allowsNoParity = env.lib.allowsNoParity) (fuel : Nat)
    (secret : List Byte) (parts threshold : Int) (r : CSPRNG) (ps ps' : Pools) (shares given received : List (List Byte))
    (h : Krawczyk.splitWithRandomizer env fuel secret parts threshold r ps = ok (shares, ps')) (hg : given.Subperm shares)
    (hl : received.length = given.length) (e : Nat) (he : differences received given ≤ e) (hn : threshold + 2 * e ≤ given.length) :
    Correctable (fun l => Krawczyk.combine env' (l.map some) parts threshold) threshold e received secret := by
  have := (kSplitError_none.1 (ksplitR_ok env hc h).1).1
  refine correct (by omega) (fun sub hs ht => ?_) hg hl he hn
  exact C35_splitWithRandomizer_combine env env' hc ha hm hp fuel secret parts threshold r ps ps' shares (sub.map some) h
    (by simpa using hs) (by simpa using ht)

theorem C81_krawczyk_splitWithRandomizer_detectable (env env' : Krawczyk.Env) (hc : env.lib.Contract) (ha : env'.aes = env.aes)
    (hm : env'.lib.missing = env.lib.missing) (hp : env'.lib.allowsNoParity = env.lib.allowsNoParity) (fuel : Nat)
    (secret : List Byte) (parts threshold : Int) (r : CSPRNG) (ps ps' : Pools) (shares given received : List (List Byte))
    (h : Krawczyk.splitWithRandomizer env fuel secret parts threshold r ps = ok (shares, ps')) (hg : given.Subperm shares)
    (hl : received.length = given.length) (e : Nat) (he : differences received given ≤ e) (hn : threshold + e ≤ given.length)
    (v : List Byte) (hv : AllCombineTo (fun l => Krawczyk.combine env' (l.map some) parts threshold) threshold received v) : v = secret := by
  have := (kSplitError_none.1 (ksplitR_ok env hc h).1).1
  refine detect (by omega) (fun sub hs ht => ?_) hg hl he
    (List.Sublist.refl _) (by omega) hv
  exact C35_splitWithRandomizer_combine env env' hc ha hm hp fuel secret parts threshold r ps ps' shares (sub.map some) h
    (by simpa using hs) (by simpa using ht)

section
open Proofs.Own Verif.Heap

/-- C81: the same for SplitP, under every schedule. -/
theorem C81_splitP_correctable {ι : Type} [DecidableEq ι] (arch : Arch) (σ : Shared) (jobs : ι → Job) (hst : WStart σ jobs)
    (hadm : ∀ i, JobAdmissible (jobs i)) (s : World ι) (hr : WReach jobs (winitial arch σ jobs) s) (i : ι)
    (secret : Slice) (parts threshold : Int) (perm : List Nat) (hj : jobs i = .splitP secret parts threshold perm)
    (hlen : secret.len < 2 ^ 32) (outs : List Slice) (hd : (s.proc i).phase = .done (ok outs))
    (given received : List (List Byte)) (hg : given.Subperm (outs.map (contents s.shared.heap)))
    (hl : received.length = given.length) (e : Nat) (he : differences received given ≤ e) (hn : threshold + 2 * e ≤ given.length) :
    Correctable combine threshold e received (contents σ.heap secret) := by
  have h2 : 0 ≤ threshold := by
    have := C11_splitP_exact arch σ jobs hst hadm s hr i secret parts threshold perm hj _ hd
    split at this
    · cases this
    · rename_i h
      have := (argError_none.1 h).2.2.1
      omega
  exact correct h2 (fun sub => C11_splitP_combine arch σ jobs hst hadm s hr i secret parts threshold perm hj hlen outs hd sub) hg hl he hn

end

theorem tags_nodup {sub given : List (List Byte)} (h : sub.Subperm given) (hn : (given.map tag).Nodup) : (sub.map tag).Nodup := by
  obtain ⟨l, hp, hs⟩ := h
  exact (hp.map tag).nodup_iff.1 ((hs.map tag).nodup hn)

/-- C81: the same for shares some of which were made by Regenerate from threshold or more others (with distinct tags). -/
theorem C81_regenerate_correctable (secret : List Byte) (hN : secret ≠ []) (t : Nat) (h2 : 2 ≤ t) (shares : List (List Byte))
    (hs : IsSharing secret t shares) (given received : List (List Byte)) (hm : ∀ w ∈ given, Obtained t shares w)
    (hnd : (given.map tag).Nodup) (hl : received.length = given.length) (e : Nat) (he : differences received given ≤ e)
    (hn : t + 2 * e ≤ given.length) : Correctable combine t e received secret := by
  refine correct (by omega) (fun sub hsub ht => ?_) (List.Subperm.refl given) hl he (by omega)
  exact C22_chain secret hN t h2 shares hs sub (fun w hw => hm w (hsub.subset hw)) (tags_nodup hsub hnd) (by omega)

/-! ## More is not possible -/

/-- Another run of Split, with any other secret, that has the same shares at any threshold - 1 positions. -/
theorem another_run (arch : Arch) (s s' : List Byte) (hs : s.length = s'.length) (parts threshold : Int) (perm : List Nat)
    (hperm : perm.Perm (List.range 255)) (rnd : Nat → Byte) (ps ps1 : Pools) (out : List (List Byte))
    (h : split arch s parts threshold perm rnd ps = ok (out, ps1)) (A : List Nat) (hA : (A.length : Int) < threshold)
    (hAp : ∀ i ∈ A, (i : Int) < parts) :
    ∃ rnd' out' ps2, split arch s' parts threshold perm rnd' ps = ok (out', ps2) ∧ ∀ i ∈ A, out'.getD i [] = out.getD i [] := by
  have hlen := (C12_split_format arch s parts threshold perm hperm rnd ps ps1 out h).1
  set ρ : Fin (threshold.toNat * s.length) → Byte := fun i => rnd i with hρ
  have hr := C17_split_reads arch s parts threshold perm hperm rnd (stream ρ) ps fun j hj => by simp [stream, hρ, hj]
  rw [h, map_ok] at hr
  obtain ⟨⟨o, p⟩, ho, he⟩ : ∃ x, split arch s parts threshold perm (stream ρ) ps = ok x ∧ x.1 = out := by
    cases hx : split arch s parts threshold perm (stream ρ) ps with
    | ok x => rw [hx, map_ok] at hr; exact ⟨x, rfl, (Outcome.ok.inj hr).symm⟩
    | _ => rw [hx] at hr; cases hr
  subst he
  have hcount := C17_secrecy arch s s' hs parts threshold perm hperm ps A.toFinset
    (by have := A.toFinset_card_le; omega) (fun i => o.getD i [])
  have hpos : 0 < count (m := threshold.toNat * s.length) (fun ρ => ∃ shares ps',
      split arch s parts threshold perm (stream ρ) ps = ok (shares, ps') ∧ Seen A.toFinset (fun i => o.getD i []) shares) := by
    refine Nat.card_pos_iff.2 ⟨⟨⟨ρ, o, p, ho, fun i hi => ?_⟩⟩, inferInstance⟩
    have : i < o.length := by have := hAp i (List.mem_toFinset.1 hi); simp only at hlen; omega
    show o[i]? = some (o.getD i [])
    rw [List.getD_eq_getElem?_getD, List.getElem?_eq_getElem this, Option.getD_some]
  rw [hcount] at hpos
  obtain ⟨⟨⟨ρ', o', p', ho', hseen⟩⟩, -⟩ := Nat.card_pos_iff.1 hpos
  refine ⟨_, o', p', ho', fun i hi => ?_⟩
  rw [List.getD_eq_getElem?_getD, hseen i (List.mem_toFinset.2 hi), Option.getD_some]

/-- C81: whatever the shares of a secret, at any threshold + 2e - 1 positions: for every other secret of that length there are shares of it
(with other random bytes) such that the same list may be received for both, with `e` shares corrupted.  So no procedure whatsoever
can correct `e` errors in fewer than threshold + 2e shares. -/
theorem C81_limit_correct (arch : Arch) (s s' : List Byte) (hs : s.length = s'.length) (parts threshold : Int) (perm : List Nat)
    (hperm : perm.Perm (List.range 255)) (rnd : Nat → Byte) (ps ps1 : Pools) (out : List (List Byte))
    (h : split arch s parts threshold perm rnd ps = ok (out, ps1)) (e : Nat) (pos : List Nat) (hp : ∀ i ∈ pos, (i : Int) < parts)
    (hn : (pos.length : Int) ≤ threshold + 2 * e - 1) :
    ∃ rnd' out' ps2 received, split arch s' parts threshold perm rnd' ps = ok (out', ps2) ∧
      received.length = pos.length ∧ differences received (pos.map fun i => out.getD i []) ≤ e ∧
      differences received (pos.map fun i => out'.getD i []) ≤ e := by
  have ht := (split_ok arch hperm h).1.2.2.1
  obtain ⟨A, B, C, rfl, a, b, c⟩ : ∃ A B C, pos = A ++ (B ++ C) ∧ (A.length : Int) < threshold ∧ B.length ≤ e ∧ C.length ≤ e := by
    refine ⟨pos.take (threshold.toNat - 1), (pos.drop (threshold.toNat - 1)).take e, (pos.drop (threshold.toNat - 1)).drop e, by simp, ?_⟩
    simp only [List.length_take, List.length_drop]
    omega
  obtain ⟨rnd', out', ps2, h', hA⟩ := another_run arch s s' hs parts threshold perm hperm rnd ps ps1 out h A a
    (fun i hi => hp i (by simp [hi]))
  have eA : A.map (fun i => out'.getD i []) = A.map fun i => out.getD i [] := List.map_congr_left hA
  refine ⟨rnd', out', ps2, A.map (fun i => out.getD i []) ++ (B.map (fun i => out.getD i []) ++ C.map fun i => out'.getD i []), h',
    by simp, ?_, ?_⟩
  · rw [List.map_append, List.map_append, differences_append _ _ _ _ (by simp), differences_append _ _ _ _ (by simp), differences_self,
      differences_self, Nat.zero_add, Nat.zero_add]
    exact (differences_le _ _).trans (by simpa using c)
  · rw [List.map_append, List.map_append, eA, differences_append _ _ _ _ (by simp), differences_append _ _ _ _ (by simp), differences_self,
      differences_self, Nat.zero_add, Nat.add_zero]
    exact (differences_le _ _).trans (by simpa using b)

/-- C81: and at any threshold + e - 1 positions, corrupting `e` shares makes them shares of any other secret of that length.  So no
procedure whatsoever can notice `e` errors in fewer than threshold + e shares. -/
theorem C81_limit_detect (arch : Arch) (s s' : List Byte) (hs : s.length = s'.length) (parts threshold : Int) (perm : List Nat)
    (hperm : perm.Perm (List.range 255)) (rnd : Nat → Byte) (ps ps1 : Pools) (out : List (List Byte))
    (h : split arch s parts threshold perm rnd ps = ok (out, ps1)) (e : Nat) (pos : List Nat) (hp : ∀ i ∈ pos, (i : Int) < parts)
    (hn : (pos.length : Int) ≤ threshold + e - 1) :
    ∃ rnd' out' ps2, split arch s' parts threshold perm rnd' ps = ok (out', ps2) ∧
      differences (pos.map fun i => out'.getD i []) (pos.map fun i => out.getD i []) ≤ e := by
  have ht := (split_ok arch hperm h).1.2.2.1
  obtain ⟨A, B, rfl, a, b⟩ : ∃ A B, pos = A ++ B ∧ (A.length : Int) < threshold ∧ B.length ≤ e := by
    refine ⟨pos.take (threshold.toNat - 1), pos.drop (threshold.toNat - 1), by simp, ?_⟩
    simp only [List.length_take, List.length_drop]
    omega
  obtain ⟨rnd', out', ps2, h', hA⟩ := another_run arch s s' hs parts threshold perm hperm rnd ps ps1 out h A a
    (fun i hi => hp i (by simp [hi]))
  have eA : A.map (fun i => out'.getD i []) = A.map fun i => out.getD i [] := List.map_congr_left hA
  refine ⟨rnd', out', ps2, h', ?_⟩
  rw [List.map_append, List.map_append, eA, differences_append _ _ _ _ (by simp), differences_self, Nat.zero_add]
  exact (differences_le _ _).trans (by simpa using b)

/-! ## Concrete cases -/

/-- Five shares of `[1, 2, 3]` with threshold 3, of which the third is replaced by something that is not even a share: the secret is found.
Four shares are too few to correct one error. -/
example : ∃ shares ps', split .noasm [1, 2, 3] 5 3 (List.range 255) (fun i => BitVec.ofNat 8 (7 * i + 1)) (Pools.init 4) = ok (shares, ps') ∧
    Correctable combine 3 1 (shares.set 2 [9]) [1, 2, 3] ∧
    ∃ rnd' out' ps2 received, split .noasm [4, 5, 6] 5 3 (List.range 255) rnd' (Pools.init 4) = ok (out', ps2) ∧ received.length = 4 ∧
      differences received (shares.take 4) ≤ 1 ∧ differences received (out'.take 4) ≤ 1 := by
  have hv : ValidArgs [1, 2, 3] 5 3 := by decide
  obtain ⟨shares, p, h⟩ : ∃ shares p, split .noasm [1, 2, 3] 5 3 (List.range 255) (fun i => BitVec.ofNat 8 (7 * i + 1)) (Pools.init 4) =
      ok (shares, p) := by
    obtain ⟨p, h⟩ := split_layout .noasm (fun i => BitVec.ofNat 8 (7 * i + 1)) (Pools.init 4) hv (List.Perm.refl _)
    exact ⟨_, p, h⟩
  have hf := (C12_split_format _ _ _ _ _ (List.Perm.refl _) _ _ _ _ h).1
  refine ⟨shares, p, h, ?_, ?_⟩
  · refine C81_split_correctable _ _ _ _ _ (List.Perm.refl _) _ _ _ shares shares _ h (List.Subperm.refl _) (by simp) 1 ?_ (by omega)
    match shares, hf with
    | [a, b, c, d, e], _ =>
      simp only [List.set_cons_succ, List.set_cons_zero, differences_cons, if_true, differences_nil]
      split <;> omega
  · obtain ⟨rnd', out', ps2, received, h', hl, h1, h2⟩ := C81_limit_correct .noasm [1, 2, 3] [4, 5, 6] rfl 5 3 (List.range 255)
      (List.Perm.refl _) _ _ _ shares h 1 [0, 1, 2, 3] (by simp) (by simp)
    have hf' := (C12_split_format _ _ _ _ _ (List.Perm.refl _) _ _ _ _ h').1
    refine ⟨rnd', out', ps2, received, h', hl, ?_, ?_⟩
    · match shares, hf, h1 with
      | [a, b, c, d, e], _, h1 => exact h1
    · match out', hf', h2 with
      | [a, b, c, d, e], _, h2 => exact h2

end Verif.Props
