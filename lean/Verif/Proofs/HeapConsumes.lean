import Verif.Proofs.HeapDraws

/-! # The random bytes every call draws -/

namespace Verif.Proofs.Own
open Verif Outcome Galois Shamir Spec Pool Csprng RS Krawczyk Verif.Heap

variable {R : Set Loc}

theorem draws_splitGenericP {secret : Slice} {parts threshold : Int} {perm : List Nat} (hperm : perm.Perm (List.range 255)) :
    Draws (splitGenericP secret parts threshold perm) fun r l =>
      ((∃ s, r = ok s) ∧ l.length = (threshold.toNat - 1) * secret.len) ∨ ((∃ e, r = err e) ∧ l = []) := by
  refine draws_checkP (fun e => .inr ⟨⟨e, rfl⟩, rfl⟩) fun h1 h2 h3 h4 => ?_
  refine Draws.bind (Draws.mono ?_ (draws_drawAll _))
  rintro rs l ⟨rfl, hl⟩
  refine Draws.bind (Draws.mono ?_ (draws_readAll _ _ _))
  rintro bs m ⟨rfl, hm⟩
  have hpl : parts.toNat ≤ perm.length := by
    rw [hperm.length_eq, List.length_range]; omega
  have hv : ValidArgs bs parts threshold := ⟨h1, h2, h3, by rintro rfl; exact h4 (by simpa using hm.symm)⟩
  rw [splitGeneric_valid perm _ hv hpl]
  refine Draws.bind (Draws.mono ?_ (quiet_storeRows _))
  rintro slices _ rfl
  exact .inl ⟨⟨_, rfl⟩, by simpa using hl⟩

theorem draws_assembleP {parts : Nat} {es : List (List Byte)} {ms : List Slice} (he : 0 < es.length) (hm : 0 < ms.length) :
    Draws (assembleP parts es ms) fun r l => (∃ s, r = ok s) ∧ l = [] := by
  unfold assembleP
  rw [idx_ok he, idx_ok hm]
  intro a
  refine Quiet.then (quiet_forUp fun _ _ => ?_) fun _ => ⟨⟨_, rfl⟩, rfl⟩
  exact Quiet.bind (quiet_lift _) fun _ => Quiet.bind (quiet_lift _) fun _ => Quiet.bind (quiet_readAll _ _ _) fun _ =>
    Quiet.bind (quiet_writeAll _ _ _) fun _ => quiet_writeAll _ _ _

theorem draws_krawczykSplitP {env : Krawczyk.Env} (hc : env.lib.Contract) {secret : Slice} {parts threshold : Int}
    {perm : List Nat} :
    Draws (krawczykSplitP env secret parts threshold perm) fun r l =>
      ((∃ s, r = ok s) ∧ l.length = 16 + threshold.toNat * 20) ∨
      ((∀ s, r ≠ ok s) ∧ l.length = if secret.len > 4294967295 ∨ threshold = 0 ∨ parts = 0 ∨ threshold > parts ∨
        threshold > 255 ∨ parts > 255 then 0 else 16) := by
  refine draws_call (fun _ ha => ?_) fun r hr hno _ => ?_
  · have hp := checkArgs_ok ha
    have hp' := hp
    unfold ArgsPass at hp'
    rw [if_neg (by omega)]
    show Draws (Prog.bind (Prog.drawAll 16) fun key => krawczykTailP env secret key parts threshold fun kl =>
      splitP env.arch kl parts threshold perm) _
    have hd := draws_drawAll 16
    generalize Prog.drawAll 16 = p16 at hd ⊢
    refine Draws.bind (Draws.mono ?_ hd)
    rintro key l ⟨rfl, hl⟩
    refine Draws.bind (p := Prog.readAll secret.arr secret.off secret.len) (Draws.mono ?_ (draws_readAll _ _ _))
    rintro bs m ⟨rfl, hm⟩
    refine draws_call (fun es hes => ?_) fun r hr _ _ => ?_
    · intro kl
      refine Quiet.then (quiet_writeAll _ _ _) fun _ => ?_
      refine Draws.bind (Draws.mono ?_ (draws_splitP _ _ _ _ _))
      rintro ss m (⟨⟨s, rfl, hs, h2⟩, hlen⟩ | ⟨⟨e, rfl⟩, rfl⟩)
      · have hes' := encode_inv hc hl (by rw [hm]; exact hp) (ct := es.1) (es := es.2) hes
        refine Draws.mono ?_ (draws_assembleP (by omega) (by omega))
        rintro r _ ⟨h, rfl⟩
        refine .inl ⟨h, ?_⟩
        simp [hlen, hl]
      · exact .inr ⟨by simp, by simpa using hl⟩
    · exact .inr ⟨hr, by simpa using hl⟩
  · refine .inr ⟨hr, ?_⟩
    rw [if_pos]
    · rfl
    · by_contra hp
      refine hno () ?_
      rw [checkArgs_eq, kArgError_none.2 (by unfold ArgsPass; omega)]

/-! ## All calls -/

theorem consumes_map {β γ : Type} {c : Call} {ins : List (List Byte)} {o : Outcome β} {f : β → γ} {drawn : List Byte} :
    Consumes c ins (f <$> o) drawn ↔ Consumes c ins o drawn := by
  cases c <;> cases o <;> exact Iff.rfl

theorem wp_call_consumes (arch : Arch) {c : Call} (hc : Admissible c) {W : Set Loc} {h : HeapF}
    (hR : ∀ s ∈ c.inputs, ∀ i < s.len, (s.arr, s.off + i) ∈ R) (hb : ∀ s ∈ c.inputs, InBounds h s)
    (hcap : ∀ s ∈ c.inputs, s.len ≤ s.cap) :
    wp R (c.prog arch) (fun r W h' log => CallPost arch c (c.inputs.map (contents h)) r W h' log ∧
      Consumes c (c.inputs.map (contents h)) r log) W h [] := by
  have base := wp_call arch hc hR hb hcap (W := W)
  cases c with
  | split s p t perm =>
    refine wp_and_draws base (Draws.mono ?_ (draws_splitP _ _ _ _ _))
    rintro r l (⟨⟨s, rfl, -⟩, hl⟩ | ⟨⟨e, rfl⟩, rfl⟩)
    · exact hl
    · exact rfl
  | splitWithRandomizer f s p t r =>
    exact wp_and_draws base (Draws.mono (fun _ _ h => h) (quiet_splitWithRandomizerP _ _ _ _ _ _))
  | splitWithRandomizerOld s p t r =>
    exact wp_and_draws base (Draws.mono (fun _ _ h => h) (quiet_splitWithRandomizerOldP _ _ _ _ _))
  | combine parts => exact wp_and_draws base (Draws.mono (fun _ _ h => h) (quiet_combineP _))
  | splitGeneric s p t perm =>
    refine wp_and_draws base (Draws.mono ?_ (draws_splitGenericP hc))
    rintro r l (⟨⟨s, rfl⟩, hl⟩ | ⟨⟨e, rfl⟩, rfl⟩)
    · exact hl
    · exact rfl
  | regenerate f parts n => exact wp_regenerate_consumes arch f (fun s hs i hi => Or.inr (hR s hs i hi)) hb
  | krawczykSplit env s p t perm =>
    refine wp_and_draws base (Draws.mono ?_ (draws_krawczykSplitP (env := { env with arch }) hc.2))
    rintro r l (⟨⟨s, rfl⟩, hl⟩ | ⟨hr, hl⟩)
    · exact hl
    · cases r with
      | ok a => exact absurd rfl (hr a)
      | _ => exact hl
  | krawczykSplitWithRandomizer env f s p t r =>
    exact wp_and_draws base (Draws.mono (fun _ _ h => h) (quiet_krawczykSplitWithRandomizerP _ _ _ _ _ _))
  | krawczykCombine env ss p t =>
    exact wp_and_draws base (Draws.mono (fun _ _ h => h) (quiet_krawczykCombineP _ _ _ _))

theorem consumes_stable (arch : Arch) (c : Call) (ins : List (List Byte)) :
    Stable R (fun r W h log => CallPost arch c ins r W h log ∧ Consumes c ins r log) :=
  fun _ _ _ _ _ ha h => ⟨callPost_stable arch c ins _ _ _ _ _ ha h.1, h.2⟩

variable {ι : Type} [DecidableEq ι]

/-- The random bytes drawn by a call that has returned, under every interleaving. -/
theorem consumes_calls (arch : Arch) {σ : Shared} {calls : ι → Call} (hs : Start σ calls)
    (ha : ∀ i, Admissible (calls i)) {c : Config ι (Outcome (List Slice))} (hr : Reach (initial arch σ calls) c) {i : ι}
    {r : Outcome (List Slice)} (h : (c.thread i).prog = .ret r) :
    Consumes (calls i) ((calls i).inputs.map (contents σ.heap)) r (c.thread i).drawn := by
  have I0 := inv_initial arch hs ha
  have I1 : Inv (fun _ => preexisting σ) (fun i r W h log =>
      CallPost arch (calls i) ((calls i).inputs.map (contents σ.heap)) r W h log ∧
      Consumes (calls i) ((calls i).inputs.map (contents σ.heap)) r log) (fun _ => ∅) (initial arch σ calls) :=
    { I0 with
      run := fun i => wp_call_consumes arch (ha i) (fun s hin k _ => ⟨(hs.inputs i s hin).2.2.1, (hs.inputs i s hin).2.2.2⟩)
        (fun s hin => (hs.inputs i s hin).1) (fun s hin => (hs.inputs i s hin).2.1) }
  obtain ⟨W, I, -⟩ := inv_reach (fun i => consumes_stable arch _ _) I1 hr
  have hw := I.run i
  rw [h] at hw
  exact hw.2

end Verif.Proofs.Own
