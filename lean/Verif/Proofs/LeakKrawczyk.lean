import Verif.Model.LeakKrawczyk
import Verif.Proofs.LeakCalls
import Verif.Proofs.KrawczykResults

/-! # What package krawczyk shows -/

namespace Verif.Proofs
open Verif Outcome Spec Verif.Leak Csprng RS Krawczyk

@[simp] theorem out_krawczykSplit (env : Env) (secret : List Byte) (parts threshold : Int) (keyRnd : Nat → Byte) (perm : List Nat)
    (rnd : Nat → Byte) (ps : Shamir.Pools) : (krawczykSplit env secret parts threshold keyRnd perm rnd ps).out
      = Krawczyk.split env secret parts threshold keyRnd perm rnd ps := by
  simp [krawczykSplit, Krawczyk.split]

@[simp] theorem out_krawczykSplitWithRandomizer (env : Env) (fuel : Nat) (secret : List Byte) (parts threshold : Int) (r : CSPRNG)
    (ps : Shamir.Pools) : (krawczykSplitWithRandomizer env fuel secret parts threshold r ps).out
      = Krawczyk.splitWithRandomizer env fuel secret parts threshold r ps := by
  simp [krawczykSplitWithRandomizer, Krawczyk.splitWithRandomizer]

@[simp] theorem out_krawczykCombine (env : Env) (ssData : List (Option (List Byte))) (parts threshold : Int) :
    (krawczykCombine env ssData parts threshold).out = Krawczyk.combine env ssData parts threshold := by
  simp [krawczykCombine, Krawczyk.combine]

/-- The tail of both Split functions. -/
def kTailT (env : Env) (secret key : List Byte) (parts threshold : Int)
    (sh : List Byte → Traced (List (List Byte) × Shamir.Pools)) : Traced (List (List Byte) × Shamir.Pools) := do
  quiet (checkArgs secret.length parts threshold)
  let (encryptedSecret, encodedSecret) ← quiet (encode env secret key parts threshold)
  let (ssKeyLenPair, ps) ← sh (keyLenPair key encryptedSecret)
  let results ← quiet (assemble parts.toNat encodedSecret ssKeyLenPair)
  return (results, ps)

theorem trace_bind_ok {α β : Type} {x : Traced α} {f : α → Traced β} {a : α} (h : x.out = ok a) :
    (x >>= f).trace = x.trace ++ (f a).trace := by
  show x.trace ++ _ = _
  rw [h]

theorem trace_bind_quiet {α β : Type} {x : Traced α} {f : α → Traced β} (h : ∀ a, x.out = ok a → (f a).trace = []) :
    (x >>= f).trace = x.trace := by
  show x.trace ++ _ = _
  cases ho : x.out with
  | ok a => simp [h a ho]
  | _ => simp

theorem trace_bind_stop {α β : Type} {x : Traced α} {f : α → Traced β} (h : ∀ a, x.out ≠ ok a) : (x >>= f).trace = x.trace :=
  trace_bind_quiet fun a ha => absurd ha (h a)

theorem trace_quiet_ok {α β : Type} {o : Outcome α} {f : α → Traced β} {a : α} (h : o = ok a) : (quiet o >>= f).trace = (f a).trace := by
  subst h; rfl

theorem trace_quiet_stop {α β : Type} {o : Outcome α} {f : α → Traced β} (h : ∀ a, o ≠ ok a) : (quiet o >>= f).trace = [] :=
  trace_bind_stop (x := quiet o) h

theorem trace_quiet_quiet {α β : Type} {o : Outcome α} {f : α → Traced β} (h : ∀ a, o = ok a → (f a).trace = []) :
    (quiet o >>= f).trace = [] := trace_bind_quiet (x := quiet o) h

theorem kTailT_trace (env : Env) {secret key : List Byte} {parts threshold : Int}
    {sh : List Byte → Traced (List (List Byte) × Shamir.Pools)} {es : List (List Byte)} {ct : List Byte}
    (h1 : checkArgs secret.length parts threshold = ok ()) (h2 : encode env secret key parts threshold = ok (ct, es)) :
    (kTailT env secret key parts threshold sh).trace = (sh (keyLenPair key ct)).trace := by
  unfold kTailT
  rw [trace_quiet_ok h1, trace_quiet_ok h2]
  exact trace_bind_quiet fun a _ => trace_quiet_quiet fun b _ => rfl

theorem kTailT_trace_stop1 (env : Env) {secret key : List Byte} {parts threshold : Int}
    {sh : List Byte → Traced (List (List Byte) × Shamir.Pools)} {e : Err}
    (h1 : checkArgs secret.length parts threshold = err e) : (kTailT env secret key parts threshold sh).trace = [] := by
  unfold kTailT
  exact trace_quiet_stop fun a ha => by rw [h1] at ha; cases ha

theorem kTailT_trace_stop2 (env : Env) {secret key : List Byte} {parts threshold : Int}
    {sh : List Byte → Traced (List (List Byte) × Shamir.Pools)} {e : Err}
    (h1 : checkArgs secret.length parts threshold = ok ()) (h2 : encode env secret key parts threshold = err e) :
    (kTailT env secret key parts threshold sh).trace = [] := by
  unfold kTailT
  rw [trace_quiet_ok h1]
  exact trace_quiet_stop fun a ha => by rw [h2] at ha; cases ha

/-- What the tail shows: nothing, or what the Shamir split of 20 bytes shows; which of the two depends on the length of the secret. -/
theorem kTailT_cases (env : Env) {secret : List Byte} {parts threshold : Int} :
    (∀ secret' key sh, secret'.length = secret.length → key.length = 16 → (kTailT env secret' key parts threshold sh).trace = []) ∨
    (∀ secret' key sh, secret'.length = secret.length → key.length = 16 →
      (kTailT env secret' key parts threshold sh).trace = (sh (keyLenPair key (cipherOf env secret' key))).trace) := by
  have hca := checkArgs_eq secret.length parts threshold
  cases ha : kArgError secret.length parts threshold with
  | some e =>
    rw [ha] at hca
    exact Or.inl fun s' key sh hl _ => kTailT_trace_stop1 env (e := e) (by rw [hl]; exact hca)
  | none =>
    rw [ha] at hca
    have ⟨p1, p2, p3, p4, p5⟩ := kArgError_none.1 ha
    by_cases hn : threshold < 1 ∨ (parts = threshold ∧ env.lib.allowsNoParity = false)
    · refine Or.inl fun s' key sh hl hkey => kTailT_trace_stop2 env (e := _) (by rw [hl]; exact hca)
        (encode_err_new env hkey (new_err (hn.imp (fun c => by omega) Or.inr)))
    · have hk : 0 < threshold.toNat := by omega
      have hpar := parityOk_of (fun c => hn (Or.inr c)) p4
      have hkm : threshold.toNat + (parts - threshold).toNat ≤ 256 := by omega
      have ep : parts = (threshold.toNat + (parts - threshold).toNat : Nat) := by omega
      have et : threshold = (threshold.toNat : Int) := by omega
      by_cases hs : secret = []
      · refine Or.inl fun s' key sh hl hkey => ?_
        have hs' : s' = [] := by rw [hs] at hl; exact List.length_eq_zero_iff.1 hl
        have := encode_err_empty env hkey hk hpar hkm
        rw [← ep, ← et, ← hs'] at this
        exact kTailT_trace_stop2 env (by rw [hl]; exact hca) this
      · refine Or.inr fun s' key sh hl hkey => ?_
        have hs' : s' ≠ [] := fun c => hs (List.length_eq_zero_iff.1 (by rw [← hl, c]; rfl))
        have := encode_ok env hkey hk hpar hkm hs'
        rw [← ep, ← et] at this
        exact kTailT_trace env (by rw [hl]; exact hca) this

theorem kTailT_accepted (env : Env) {secret key : List Byte} {parts threshold : Int} (hkey : key.length = 16)
    (he : kSplitError env.lib secret parts threshold = none) (sh : List Byte → Traced (List (List Byte) × Shamir.Pools)) :
    (kTailT env secret key parts threshold sh).trace = (sh (keyLenPair key (cipherOf env secret key))).trace := by
  have ⟨n1, n2, n3, n4, n5, n6⟩ := kSplitError_none.1 he
  have hpar := parityOk_of n6 n2
  have ep : parts = (threshold.toNat + (parts - threshold).toNat : Nat) := by omega
  have et : threshold = (threshold.toNat : Int) := by omega
  have en := encode_ok env hkey (k := threshold.toNat) (by omega) hpar (by omega) n4
  rw [← ep, ← et] at en
  exact kTailT_trace env (checkArgs_pass ⟨n5, by omega, by omega, n2, n3⟩) en

theorem krawczykSplit_tail (env : Env) (secret : List Byte) (parts threshold : Int) (keyRnd : Nat → Byte) (perm : List Nat)
    (rnd : Nat → Byte) (ps : Shamir.Pools) :
    krawczykSplit env secret parts threshold keyRnd perm rnd ps
      = kTailT env secret (Shamir.randRead keyRnd 0 (List.replicate 16 0)) parts threshold
          (fun s => Leak.split env.arch s parts threshold perm rnd ps) := by
  unfold krawczykSplit kTailT; with_reducible rfl

theorem krawczykSplitR_tail (env : Env) (fuel : Nat) (secret : List Byte) (parts threshold : Int) (r : CSPRNG) (ps : Shamir.Pools) :
    krawczykSplitWithRandomizer env fuel secret parts threshold r ps
      = kTailT env secret (r.read (List.replicate 16 0)) parts threshold
          (fun s => Leak.splitWithRandomizer env.arch fuel s parts threshold r ps) := by
  unfold krawczykSplitWithRandomizer kTailT; with_reducible rfl

/-- What Combine shows if it succeeds. -/
theorem krawczykCombine_trace {env : Env} {l : List (Option (List Byte))} {parts threshold : Int} {s : List Byte}
    (h : Krawczyk.combine env l parts threshold = ok s) :
    (krawczykCombine env l parts threshold).trace = (Leak.combine ((l.filterMap id).map (·.take 21))).trace ∧
    (∀ m ∈ (l.filterMap id).map (·.take 21), m.length = 21) ∧
    ∃ md, Shamir.combine ((l.filterMap id).map (·.take 21)) = ok md := by
  match l, h with
  | d0 :: rest, h =>
    have h0 := h
    rw [kcombine_eq] at h
    have hca := checkArgs_eq (d0.getD []).length parts threshold
    cases ha : kArgError (d0.getD []).length parts threshold with
    | some e => rw [ha] at h; cases h
    | none =>
      rw [ha] at h hca
      have ⟨p1, p2, p3, p4, p5⟩ := kArgError_none.1 ha
      simp only at h hca
      by_cases hneg : parts < 0
      · rw [if_pos hneg] at h; cases h
      rw [if_neg hneg] at h
      have hsep := separate_eq ((d0 :: rest).filterMap id) (parts := parts) ⟨by omega, by omega⟩
      cases hf : ((d0 :: rest).filterMap id).findSome? (fault parts) with
      | some o => rw [hf] at h; cases o <;> cases h
      | none =>
        rw [hf] at h hsep
        have hwf : ∀ d ∈ (d0 :: rest).filterMap id, WellFormed parts d := fun d hd =>
          (fault_none (by omega)).1 (List.findSome?_eq_none_iff.1 hf d hd)
        have hlen := take21_length (by omega) hwf
        refine ⟨?_, hlen, ?_⟩
        · unfold krawczykCombine
          rw [trace_quiet_ok (show Verif.idx (d0 :: rest) 0 = ok d0 from rfl), trace_quiet_ok hca,
            trace_quiet_ok (clean_eq (d0 :: rest)), trace_quiet_ok hsep]
          refine trace_bind_quiet fun md _ => ?_
          refine trace_quiet_quiet fun key _ => trace_quiet_quiet fun lb _ => ?_
          dsimp only
          split
          · exact trace_quiet_stop fun a ha => by cases ha
          · exact trace_quiet_quiet fun _ _ => trace_quiet_quiet fun _ _ => trace_quiet_quiet fun _ _ => rfl
        · unfold decode at h
          obtain ⟨md, hmd, -⟩ := bind_eq_ok.1 h
          exact ⟨md, hmd⟩

end Verif.Proofs
