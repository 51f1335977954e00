import Verif.Spec.KGame
import Verif.Proofs.Game
import Verif.Props.KrawczykSecrecy

/-! # Lemmas for C83: the game with krawczyk.Split, reduced to the game without

The shares of krawczyk.Split are shares of Split for 20 bytes of metadata, followed by something that only depends on the
ciphertext.  For a fixed sequence `W` of sights the game becomes one of `Spec/Game.lean` in which the metadata are split. -/

namespace Verif.Proofs
open Verif Outcome Galois Spec Shamir Props Krawczyk

/-! ## Prefixes -/

theorem sharings_mono {p q : List Sight} (h : p <+: q) : sharings p ≤ sharings q := by
  obtain ⟨t, rfl⟩ := h
  unfold sharings
  rw [List.countP_append]
  omega

theorem sharings_le (p : List Sight) : sharings p ≤ p.length := List.countP_le_length

theorem first_unique {W p q : List Sight} (hp : p ++ [.made] <+: W) (hq : q ++ [.made] <+: W) (h : sharings p = sharings q) :
    p = q := by
  have aux : ∀ {p q : List Sight}, p ++ [.made] <+: W → q ++ [.made] <+: W → sharings p = sharings q →
      p.length < q.length → False := by
    intro p q hp hq h hl
    have h1 : p ++ [.made] <+: q := by
      refine List.prefix_of_prefix_length_le hp ((List.prefix_append q [.made]).trans hq) ?_
      simpa using hl
    have h2 := sharings_mono h1
    rw [sharings_append] at h2
    simp only at h2
    omega
  rcases lt_trichotomy p.length q.length with hl | hl | hl
  · exact (aux hp hq h hl).elim
  · have h1 := List.prefix_of_prefix_length_le hp hq (by simp [hl])
    have h2 := h1.eq_of_length (by simp [hl])
    exact (List.append_left_injective [Sight.made]) h2
  · exact (aux hq hp h.symm hl).elim

theorem take_of_prefix {W p p' : List Sight} (h : p <+: W) (hl : p'.length = p.length) : W.take p'.length = p := by
  rw [hl]
  exact (List.prefix_iff_eq_take.1 h).symm

/-! ## The translation -/

section
variable (next : List Sight → KMove) (W : List Sight) (T : List Sight → List (List Byte)) (E : List Sight → Option Err)

open Classical in
/-- What follows the metadata in the shares of sharing `r`, when they are shares of krawczyk.Split. -/
noncomputable def kind (r : Nat) : Option (List (List Byte)) :=
  if h : ∃ first, first ++ [Sight.made] <+: W ∧ sharings first = r ∧ ∃ c, next first = .krawczyk c then some (T h.choose)
  else none

theorem kind_krawczyk {p : List Sight} {c : KAsk} (hp : p ++ [.made] <+: W) (h : next p = .krawczyk c) :
    kind next W T (sharings p) = some (T p) := by
  have h' : ∃ first, first ++ [Sight.made] <+: W ∧ sharings first = sharings p ∧ ∃ c, next first = .krawczyk c :=
    ⟨p, hp, rfl, c, h⟩
  unfold kind
  rw [dif_pos h', first_unique h'.choose_spec.1 hp h'.choose_spec.2.1]

theorem kind_plain {p : List Sight} {m : Move} (hp : p ++ [.made] <+: W) (h : next p = .plain m) :
    kind next W T (sharings p) = none := by
  unfold kind
  rw [dif_neg]
  rintro ⟨q, hq, hs, c, hc⟩
  rw [first_unique hq hp hs, h] at hc
  cases hc

theorem kind_some {r : Nat} {t : List (List Byte)} (h : kind next W T r = some t) :
    ∃ p c, p ++ [.made] <+: W ∧ sharings p = r ∧ next p = .krawczyk c := by
  unfold kind at h
  split at h
  · rename_i h'
    obtain ⟨p, h1, h2, c, h3⟩ := h'
    exact ⟨p, c, h1, h2, h3⟩
  · cases h

/-- The move of the game without krawczyk.Split. -/
def plainNext (p : List Sight) : Move :=
  match next (W.take p.length) with
  | .plain m => m
  | .krawczyk c => if E (W.take p.length) = none then .split ⟨false, c.parts, c.threshold, c.perm⟩ else .look W.length 0

/-- A sight in the game without krawczyk.Split. -/
noncomputable def stripS (past : List Sight) (s : Sight) : Sight :=
  match next past, s with
  | .krawczyk _, .refused _ => .nothing
  | .plain (.look r _), .share w => if (kind next W T r).isSome then .share (w.take 21) else .share w
  | _, _ => s

noncomputable def strip (past : List Sight) : List Sight → List Sight
  | [] => []
  | s :: seen => stripS next W T past s :: strip (past ++ [s]) seen

/-- What can be said of a sight without the metadata. -/
def Fits (past : List Sight) (s : Sight) : Prop :=
  match next past, s with
  | .krawczyk _, .made => E past = none
  | .krawczyk _, .refused e => E past = some e
  | .krawczyk _, _ => False
  | .plain (.look r i), .share w => r < sharings past ∧
      ∀ t, kind next W T r = some t → w.drop 21 = t.getD i [] ∧ tag (w.take 21) ≠ 0
  | _, _ => True

def AllFit (past : List Sight) : List Sight → Prop
  | [] => True
  | s :: seen => Fits next W T E past s ∧ AllFit (past ++ [s]) seen

theorem length_strip : ∀ (seen past : List Sight), (strip next W T past seen).length = seen.length
  | [], _ => rfl
  | s :: seen, past => by simp [strip, length_strip seen]

theorem strip_append : ∀ (a b past : List Sight),
    strip next W T past (a ++ b) = strip next W T past a ++ strip next W T (past ++ a) b
  | [], b, past => by simp [strip]
  | s :: a, b, past => by simp [strip, strip_append a b]

theorem stripS_made {past : List Sight} {s : Sight} : stripS next W T past s = .made ↔ s = .made := by
  cases hm : next past with
  | krawczyk c => cases s <;> simp [stripS, hm]
  | plain m =>
    cases m with
    | look r i =>
      cases s with
      | share w => simp only [stripS, hm]; split <;> simp
      | _ => simp [stripS, hm]
    | _ => cases s <;> simp [stripS, hm]

theorem stripS_added {past : List Sight} {s : Sight} : stripS next W T past s = .added ↔ s = .added := by
  cases hm : next past with
  | krawczyk c => cases s <;> simp [stripS, hm]
  | plain m =>
    cases m with
    | look r i =>
      cases s with
      | share w => simp only [stripS, hm]; split <;> simp
      | _ => simp [stripS, hm]
    | _ => cases s <;> simp [stripS, hm]

theorem sharings_strip : ∀ (seen past : List Sight), sharings (strip next W T past seen) = sharings seen
  | [], _ => rfl
  | s :: seen, past => by
    have h := sharings_strip seen (past ++ [s])
    unfold sharings at h ⊢
    rw [strip, List.countP_cons, List.countP_cons, h]
    congr 1
    have := stripS_made next W T (past := past) (s := s)
    generalize stripS next W T past s = x at this
    cases s <;> cases x <;> simp at this <;> rfl

/-- A prefix of the translation is the translation of a prefix. -/
theorem strip_prefix {p' : List Sight} {s' : Sight} (h : p' ++ [s'] <+: strip next W T [] W) :
    ∃ p s, p ++ [s] <+: W ∧ p.length = p'.length ∧ p' = strip next W T [] p ∧ s' = stripS next W T p s := by
  have hl : p'.length < W.length := by
    have := h.length_le
    rw [length_strip] at this
    simpa using this
  have hW : W = W.take p'.length ++ (W[p'.length] :: W.drop (p'.length + 1)) := by
    rw [← List.drop_eq_getElem_cons hl, List.take_append_drop]
  have hpl : (W.take p'.length).length = p'.length := by simp; omega
  have h2 : strip next W T [] W = (strip next W T [] (W.take p'.length) ++ [stripS next W T (W.take p'.length) W[p'.length]])
      ++ strip next W T (W.take p'.length ++ [W[p'.length]]) (W.drop (p'.length + 1)) := by
    conv_lhs => rw [hW, strip_append]
    simp [strip]
  have h3 : p' ++ [s'] = strip next W T [] (W.take p'.length) ++ [stripS next W T (W.take p'.length) W[p'.length]] := by
    refine (List.prefix_of_prefix_length_le h ⟨_, h2.symm⟩ ?_).eq_of_length ?_ <;> simp [length_strip, hpl]
  have h4 := List.append_inj h3 (by rw [length_strip, hpl])
  refine ⟨W.take p'.length, W[p'.length], ⟨W.drop (p'.length + 1), ?_⟩, hpl, h4.1, ?_⟩
  · rw [List.append_assoc]
    exact hW.symm
  · simpa using h4.2

theorem allFit_at : ∀ (seen past : List Sight), AllFit next W T E past seen → ∀ p s, p ++ [s] <+: seen →
    Fits next W T E (past ++ p) s
  | [], _, _, p, s, hp => by simp at hp
  | x :: seen, past, h, [], s, hp => by
    obtain ⟨rfl, -⟩ := List.cons_prefix_cons.1 hp
    simpa using h.1
  | x :: seen, past, h, y :: p, s, hp => by
    obtain ⟨rfl, hp'⟩ := List.cons_prefix_cons.1 hp
    have := allFit_at seen _ h.2 p s hp'
    simpa using this

end

/-! ## The two games -/

/-- What follows the metadata in the shares of a call. -/
noncomputable def tails (env : Env) (next : List Sight → KMove) (secret : List Sight → List Byte)
    (key : List Sight → Nat → Byte) (past : List Sight) : List (List Byte) :=
  match next past with
  | .plain _ => []
  | .krawczyk c => (List.range c.parts.toNat).map fun i => (codeword env.lib c.threshold.toNat
      (c.parts - c.threshold).toNat (cipherOf env (secret past) (keyOf (key past)))).getD i [] ++ [BitVec.ofNat 8 i]

/-- The error of a call. -/
def errorOf (env : Env) (next : List Sight → KMove) (secret : List Sight → List Byte) (past : List Sight) : Option Err :=
  match next past with
  | .plain _ => none
  | .krawczyk c => kSplitError env.lib (secret past) c.parts c.threshold

/-- The secret in the game without krawczyk.Split. -/
noncomputable def plainSecret (env : Env) (next : List Sight → KMove) (W : List Sight) (secret : List Sight → List Byte)
    (key : List Sight → Nat → Byte) (p : List Sight) : List Byte :=
  match next (W.take p.length) with
  | .plain _ => secret (W.take p.length)
  | .krawczyk _ => keyLenPair (keyOf (key (W.take p.length)))
      (cipherOf env (secret (W.take p.length)) (keyOf (key (W.take p.length))))

/-- The shares `sh` and what they are in the game without krawczyk.Split. -/
def Rel (k : Option (List (List Byte))) (sh sh' : List (List Byte)) : Prop :=
  match k with
  | none => sh = sh'
  | some t => (∀ m ∈ sh', m.length = 21 ∧ tag m ≠ 0) ∧ ∀ i, sh[i]? = sh'[i]?.map (· ++ t.getD i [])

theorem Rel.look_none {k : Option (List (List Byte))} {sh sh' : List (List Byte)} (h : Rel k sh sh') (i : Nat) :
    sh[i]? = none ↔ sh'[i]? = none := by
  cases k with
  | none => rw [show sh = sh' from h]
  | some t => rw [h.2 i, Option.map_eq_none_iff]

theorem Rel.look_some {t : List (List Byte)} {sh sh' : List (List Byte)} (h : Rel (some t) sh sh') (i : Nat) (w : List Byte) :
    sh[i]? = some w ↔ (w.drop 21 = t.getD i [] ∧ tag (w.take 21) ≠ 0) ∧ sh'[i]? = some (w.take 21) := by
  rw [h.2 i, Option.map_eq_some_iff]
  constructor
  · rintro ⟨m, hm, rfl⟩
    obtain ⟨hl, h0⟩ := h.1 m (List.mem_of_getElem? hm)
    rw [← hl, List.drop_left, List.take_left]
    exact ⟨⟨rfl, h0⟩, hm⟩
  · rintro ⟨⟨h1, -⟩, h2⟩
    exact ⟨_, h2, by rw [← h1, List.take_append_drop]⟩

theorem ksplit_err {env : Env} {s : List Byte} {parts threshold : Int} {κ : Nat → Byte} {perm : List Nat} {rnd : Nat → Byte}
    {ps : Pools} {e : Err} (h : kSplitError env.lib s parts threshold = some e) :
    Krawczyk.split env s parts threshold κ perm rnd ps = err e := by
  rw [split_tail]
  exact kTail_err env (by simp [randRead_length]) (fun s _ h1 h2 h3 => split_invalid env.arch perm rnd ps (argError_one h1 h2 h3)) h

theorem ksplit_none {env : Env} (hc : env.lib.Contract) {s : List Byte} {parts threshold : Int} {κ : Nat → Byte}
    {perm : List Nat} (hperm : perm.Perm (List.range 255)) {rnd : Nat → Byte} {ps : Pools}
    (h : kSplitError env.lib s parts threshold = none) :
    ∃ shares md ps', Krawczyk.split env s parts threshold κ perm rnd ps = ok (shares, ps') ∧
      Shamir.split env.arch (keyLenPair (keyOf κ) (cipherOf env s (keyOf κ))) parts threshold perm rnd ps = ok (md, ps') ∧
      Rel (some ((List.range parts.toNat).map fun i => (codeword env.lib threshold.toNat
      (parts - threshold).toNat (cipherOf env s (keyOf κ))).getD i [] ++ [BitVec.ofNat 8 i])) shares md := by
  have hk := length_keyOf κ
  obtain ⟨n1, n2, n3, -⟩ := kSplitError_none.1 h
  obtain ⟨⟨md, ps'⟩, hmd⟩ : ∃ r, Shamir.split env.arch (keyLenPair (keyOf κ) (cipherOf env s (keyOf κ))) parts threshold perm rnd
      ps = ok r := by
    obtain ⟨q, hq⟩ := split_layout env.arch rnd ps (keyLen_args hk h) hperm
    exact ⟨_, hq⟩
  have hok := split_ok env.arch hperm hmd
  obtain ⟨shares, e, hs⟩ := kTail_ok env hc hk h (sh := fun s => split env.arch s parts threshold perm rnd ps) hmd
    hok.2.2.1 hok.2.1
  refine ⟨shares, md, ps', by rw [split_tail, randRead_keyOf, e], hmd, ?_, ?_⟩
  · intro m hm
    obtain ⟨f, -, hf⟩ := hs.md_sharing.2
    constructor
    · rw [(hf m hm).1]
      simp [hk]
    · exact hok.2.2.2.2 m hm
  · intro i
    have hml := hs.md_len
    rw [hs.shares_eq, show threshold.toNat + (parts - threshold).toNat = parts.toNat by omega]
    by_cases hi : i < parts.toNat
    · have hi' : i < md.length := by omega
      simp [List.getD_eq_getElem?_getD, hi, hi']
    · rw [List.getElem?_eq_none (by simpa using hi), List.getElem?_eq_none (l := md) (by omega)]
      rfl

/-- The sharings of the two games. -/
def Sync (next : List Sight → KMove) (W : List Sight) (T : List Sight → List (List Byte)) (past : List Sight)
    (made made' : List (List (List Byte))) : Prop :=
  made.length = sharings past ∧ made'.length = sharings past ∧
    ∀ r < made.length, Rel (kind next W T r) (made.getD r []) (made'.getD r [])

section
variable {next : List Sight → KMove} {W : List Sight} {T : List Sight → List (List Byte)} {past : List Sight}
  {made made' : List (List (List Byte))}

theorem Sync.skip (h : Sync next W T past made made') {s : Sight} (hs : s ≠ .made) :
    Sync next W T (past ++ [s]) made made' := by
  have : sharings (past ++ [s]) = sharings past := by
    rw [sharings_append]
    cases s <;> simp at hs ⊢
  unfold Sync
  rw [this]
  exact h

theorem Sync.push (h : Sync next W T past made made') {sh sh' : List (List Byte)}
    (hr : Rel (kind next W T (sharings past)) sh sh') : Sync next W T (past ++ [.made]) (made ++ [sh]) (made' ++ [sh']) := by
  obtain ⟨h1, h2, h3⟩ := h
  refine ⟨by simp [sharings_append, h1], by simp [sharings_append, h2], fun r hlt => ?_⟩
  rw [List.length_append, List.length_singleton] at hlt
  by_cases hr' : r < made.length
  · rw [getD_concat_lt hr', getD_concat_lt (by omega)]
    exact h3 r hr'
  · rw [getD_concat_eq (by omega), getD_concat_eq (by omega), show r = sharings past by omega]
    exact hr

theorem Sync.renewed (h : Sync next W T past made made') {r : Nat} (hr : made.getD r [] = made'.getD r [])
    (hk : r < made.length → kind next W T r = none) (new : List (List Byte)) {s : Sight} (hs : s ≠ .made) :
    Sync next W T (past ++ [s]) (made.set r (made.getD r [] ++ new)) (made'.set r (made'.getD r [] ++ new)) := by
  refine Sync.skip ?_ hs
  obtain ⟨h1, h2, h3⟩ := h
  refine ⟨by simpa using h1, by simpa using h2, fun q hq => ?_⟩
  rw [List.length_set] at hq
  by_cases hqr : r = q
  · subst hqr
    rw [hk hq]
    show (made.set r _).getD r [] = (made'.set r _).getD r []
    rw [hr]
    have hq' : r < made'.length := by omega
    simp [List.getD_eq_getElem?_getD, hq, hq']
  · have := h3 q hq
    simpa [List.getD_eq_getElem?_getD, List.getElem?_set, hqr] using this

theorem Sync.look (h : Sync next W T past made made') (r : Nat) (hr : ¬ r < sharings past) :
    made.getD r [] = [] ∧ made'.getD r [] = [] := by
  obtain ⟨h1, h2, -⟩ := h
  exact ⟨getD_ge (by omega), getD_ge (by omega)⟩

theorem kind_renew (hp : KProper next W) {s : Sight} (hW : past ++ [s] <+: W) {r : Nat} {g : Renew}
    (hm : next past = .plain (.renew r g)) (hr : r < sharings past) : kind next W T r = none := by
  cases hk : kind next W T r with
  | none => rfl
  | some t =>
    obtain ⟨first, c, h1, h2, h3⟩ := kind_some next W T hk
    have hpast : past <+: W := (List.prefix_append _ _).trans hW
    have hf : first ++ [.made] <+: past := by
      rcases List.prefix_or_prefix_of_prefix h1 hpast with h | h
      · exact h
      · have hne : past.length ≠ (first ++ [Sight.made]).length ∨ past.length = (first ++ [Sight.made]).length := by omega
        rcases hne with hne | heq
        · have hl := h.length_le
          have : past <+: first := by
            refine List.prefix_of_prefix_length_le h (List.prefix_append _ _) ?_
            simp at hl hne
            omega
          have := sharings_mono this
          omega
        · rw [h.eq_of_length heq]
    exact absurd (h2 ▸ hm) (hp.not_krawczyk first c past s g hf h3 hW)

theorem Sync.renew (h : Sync next W T past made made') (hp : KProper next W) {s : Sight} (hW : past ++ [s] <+: W) {r : Nat}
    {g : Renew} (hm : next past = .plain (.renew r g)) : made.getD r [] = made'.getD r [] := by
  by_cases hr : r < sharings past
  · have := h.2.2 r (by rw [h.1]; exact hr)
    rw [kind_renew hp hW hm hr] at this
    exact this
  · rw [(h.look r hr).1, (h.look r hr).2]

end

theorem reduce (env : Env) (hc : env.lib.Contract) (next : List Sight → KMove) (secret : List Sight → List Byte)
    (key : List Sight → Nat → Byte)
    (hperm : ∀ past c, next past = .krawczyk c → c.perm.Perm (List.range 255)) {W : List Sight} (hp : KProper next W) :
    ∀ (seen past past' : List Sight) (rnd : Nat → Byte) (ps : Pools) (made made' : List (List (List Byte))),
      past ++ seen = W → past'.length = past.length →
      Sync next W (tails env next secret key) past made made' →
      (KHappens env next secret key past rnd ps made seen ↔
        AllFit next W (tails env next secret key) (errorOf env next secret) past seen ∧
        Happens env.arch (plainNext next W (errorOf env next secret)) (plainSecret env next W secret key) past' rnd ps made'
          (strip next W (tails env next secret key) past seen))
  | [], past, past', rnd, ps, made, made', hW, hl, hs => by simp [KHappens, AllFit, strip, Happens]
  | s :: seen, past, past', rnd, ps, made, made', hW, hl, hs => by
    have hW' : (past ++ [s]) ++ seen = W := by rw [← hW]; simp
    have hpre : past ++ [s] <+: W := ⟨seen, hW'⟩
    have htake : W.take past'.length = past := take_of_prefix ((List.prefix_append _ _).trans hpre) hl
    have ih := fun (s' : Sight) rnd ps made made' => reduce env hc next secret key hperm hp seen (past ++ [s]) (past' ++ [s']) rnd
      ps made made' hW' (by simp [hl])
    cases hm : next past with
    | krawczyk c =>
      cases s with
      | made =>
        simp only [KHappens, AllFit, strip, Fits, hm, stripS]
        cases he : errorOf env next secret past with
        | some e =>
          simp only [reduceCtorEq, false_and, iff_false]
          rintro ⟨shares, ps', h, -⟩
          have he' : kSplitError env.lib (secret past) c.parts c.threshold = some e := by simpa [errorOf, hm] using he
          rw [ksplit_err he'] at h
          cases h
        | none =>
          have he' : kSplitError env.lib (secret past) c.parts c.threshold = none := by simpa [errorOf, hm] using he
          have hn : plainNext next W (errorOf env next secret) past' = .split ⟨false, c.parts, c.threshold, c.perm⟩ := by
            simp only [plainNext, htake, hm, he, if_true]
          have hsec : plainSecret env next W secret key past'
              = keyLenPair (keyOf (key past)) (cipherOf env (secret past) (keyOf (key past))) := by
            simp only [plainSecret, htake, hm]
          obtain ⟨shares, md, ps', h1, h2, h3⟩ := ksplit_none hc (κ := key past) (hperm past c hm) (rnd := rnd) (ps := ps) he'
          have hT : tails env next secret key past = (List.range c.parts.toNat).map fun i => (codeword env.lib c.threshold.toNat
              (c.parts - c.threshold).toNat (cipherOf env (secret past) (keyOf (key past)))).getD i [] ++ [BitVec.ofNat 8 i] := by
            simp only [tails, hm]
          rw [← hT, ← kind_krawczyk next W _ hpre hm] at h3
          have hr : Ask.run env.arch ⟨false, c.parts, c.threshold, c.perm⟩ (plainSecret env next W secret key past') rnd ps
              = ok (md, ps') := by
            rw [hsec]
            simpa [Ask.run] using h2
          have hreads : Ask.reads ⟨false, c.parts, c.threshold, c.perm⟩ (plainSecret env next W secret key past') = c.reads := by
            rw [hsec]
            simp [Ask.reads, KAsk.reads, keyLenPair_length (length_keyOf _)]
          simp only [Happens, hn, h1, hr, hreads, true_and]
          have := ih .made (fun j => rnd (c.reads + j)) ps' _ _ (hs.push h3)
          constructor
          · rintro ⟨_, _, h, h'⟩
            cases h
            have := this.1 h'
            exact ⟨this.1, _, _, rfl, this.2⟩
          · rintro ⟨h, _, _, h', h''⟩
            cases h'
            exact ⟨_, _, rfl, this.2 ⟨h, h''⟩⟩
      | refused e =>
        simp only [KHappens, AllFit, strip, Fits, hm, stripS]
        cases he : errorOf env next secret past with
        | none =>
          have he' : kSplitError env.lib (secret past) c.parts c.threshold = none := by simpa [errorOf, hm] using he
          obtain ⟨shares, md, ps', h1, -⟩ := ksplit_none hc (κ := key past) (hperm past c hm) (rnd := rnd) (ps := ps) he'
          simp [h1]
        | some e' =>
          have he' : kSplitError env.lib (secret past) c.parts c.threshold = some e' := by simpa [errorOf, hm] using he
          have hn : plainNext next W (errorOf env next secret) past' = .look W.length 0 := by
            simp only [plainNext, htake, hm, he, reduceCtorEq, if_false]
          have hgd : made'.getD W.length [] = [] := by
            refine getD_ge ?_
            have := sharings_le past
            have := congrArg List.length hW
            have := hs.2.1
            simp at *
            omega
          have := ih .nothing rnd ps made made' (hs.skip (by simp))
          rw [ksplit_err he', this]
          simp only [Happens, hn, hgd, List.getElem?_nil, true_and]
          constructor
          · rintro ⟨h, h'⟩
            cases h
            exact ⟨⟨rfl, h'.1⟩, h'.2⟩
          · rintro ⟨⟨h, h'⟩, h''⟩
            cases h
            exact ⟨rfl, h', h''⟩
      | _ => simp [KHappens, AllFit, Fits, hm]
    | plain m =>
      have hn : plainNext next W (errorOf env next secret) past' = m := by simp only [plainNext, htake, hm]
      have hsec : plainSecret env next W secret key past' = secret past := by simp only [plainSecret, htake, hm]
      cases m with
      | split a =>
        cases s with
        | made =>
          simp only [KHappens, AllFit, strip, Fits, hm, stripS, Happens, hn, hsec, true_and]
          have step : ∀ shares ps', _ := fun shares ps' => ih .made (fun j => rnd (a.reads (secret past) + j)) ps'
            (made ++ [shares]) (made' ++ [shares]) (hs.push (by rw [kind_plain next W _ hpre hm]; rfl))
          constructor
          · rintro ⟨shares, ps', h, h'⟩
            have := (step shares ps').1 h'
            exact ⟨this.1, _, _, h, this.2⟩
          · rintro ⟨h, shares, ps', h', h''⟩
            exact ⟨_, _, h', (step shares ps').2 ⟨h, h''⟩⟩
        | refused e =>
          have := ih (.refused e) rnd ps made made' (hs.skip (by simp))
          simp only [KHappens, AllFit, strip, Fits, hm, stripS, Happens, hn, hsec, true_and, this]
          tauto
        | _ => simp [KHappens, strip, stripS, Happens, hm, hn]
      | look r i =>
        cases s with
        | share w =>
          by_cases hr : r < sharings past
          swap
          · simp [KHappens, AllFit, Fits, hm, hr, (hs.look r hr).1, -List.getD_eq_getElem?_getD]
          have hrel := hs.2.2 r (by rw [hs.1]; exact hr)
          have ih := fun s' => ih s' rnd ps made made' (hs.skip (by simp))
          simp only [KHappens, AllFit, strip, Fits, hm, stripS, hr, true_and]
          cases hk : kind next W (tails env next secret key) r with
          | none =>
            rw [hk] at hrel
            have hrel : made.getD r [] = made'.getD r [] := hrel
            simp only [Option.isSome_none, Bool.false_eq_true, if_false, Happens, hn, hrel, ih (.share w)]
            simp only [reduceCtorEq, IsEmpty.forall_iff, implies_true, true_and]
            tauto
          | some t =>
            rw [hk] at hrel
            simp only [Option.isSome_some, if_true, Happens, hn, hrel.look_some, ih (.share (w.take 21)),
              Option.some.injEq, forall_eq']
            tauto
        | nothing =>
          have ih := ih .nothing rnd ps made made' (hs.skip (by simp))
          have heq : (made.getD r [])[i]? = none ↔ (made'.getD r [])[i]? = none := by
            by_cases hr : r < sharings past
            · exact (hs.2.2 r (by rw [hs.1]; exact hr)).look_none i
            · rw [(hs.look r hr).1, (hs.look r hr).2]
          simp only [KHappens, AllFit, strip, Fits, hm, stripS, Happens, hn, true_and, ih, heq]
          tauto
        | _ => simp [KHappens, strip, stripS, Happens, hm, hn]
      | renew r g =>
        have heq := hs.renew hp hpre hm
        cases s with
        | added =>
          have step : ∀ new, _ := fun new => ih .added rnd ps _ _ (hs.renewed heq
            (fun hr => kind_renew hp hpre hm (by rw [← hs.1]; exact hr)) new (by simp))
          simp only [KHappens, AllFit, strip, Fits, hm, stripS, Happens, hn, true_and, step]
          rw [heq]
          constructor
          · rintro ⟨h, new, h1, h2, h3⟩
            exact ⟨h2, h, new, h1, h3⟩
          · rintro ⟨h2, h, new, h1, h3⟩
            exact ⟨h, new, h1, h2, h3⟩
        | refused e =>
          have ih := ih (.refused e) rnd ps made made' (hs.skip (by simp))
          simp only [KHappens, AllFit, strip, Fits, hm, stripS, Happens, hn, true_and, ih, heq]
          tauto
        | nothing =>
          have ih := ih .nothing rnd ps made made' (hs.skip (by simp))
          simp only [KHappens, AllFit, strip, Fits, hm, stripS, Happens, hn, true_and, ih, heq]
          tauto
        | stopped =>
          simp only [KHappens, AllFit, strip, Fits, hm, stripS, Happens, hn, true_and, heq]
          constructor
          · rintro ⟨h1, h2, h3, rfl⟩
            exact ⟨trivial, h1, h2, h3, rfl⟩
          · rintro ⟨-, h1, h2, h3, h4⟩
            refine ⟨h1, h2, h3, ?_⟩
            have := congrArg List.length h4
            rw [length_strip] at this
            exact List.length_eq_zero_iff.1 this
        | _ => simp [KHappens, strip, stripS, Happens, hm, hn]

/-! ## The conditions in the two games -/

section
variable {next : List Sight → KMove} {W : List Sight} {T : List Sight → List (List Byte)} {E : List Sight → Option Err}

/-- A share that is known in the game without krawczyk.Split is part of one that is known in the other. -/
theorem known_strip (hf : AllFit next W T E [] W) {r : Nat} {w : List Byte}
    (h : w ∈ known (plainNext next W E) (strip next W T [] W) r) :
    (kind next W T r = none ∧ w ∈ kKnown next W r) ∨
      ∃ w' ∈ kKnown next W r, w = w'.take 21 ∧ tag w ≠ 0 ∧ (kind next W T r).isSome := by
  obtain ⟨p', i, h1, h2⟩ := h
  obtain ⟨p, s, hp, hl, -, hs⟩ := strip_prefix next W T h1
  have htake : W.take p'.length = p := take_of_prefix ((List.prefix_append _ _).trans hp) hl.symm
  have hfit := allFit_at next W T E W [] hf p s hp
  rw [List.nil_append] at hfit
  cases hm : next p with
  | krawczyk c =>
    cases s <;> simp only [stripS, hm, Fits] at hs hfit <;> cases hs
  | plain m =>
    simp only [plainNext, htake, hm] at h2
    subst h2
    cases s with
    | share w' =>
      simp only [Fits, hm] at hfit
      simp only [stripS, hm] at hs
      cases hk : kind next W T r with
      | none =>
        simp only [hk, Option.isSome_none, Bool.false_eq_true, if_false] at hs
        cases hs
        exact .inl ⟨rfl, p, i, hp, hm⟩
      | some t =>
        simp only [hk, Option.isSome_some, if_true] at hs
        cases hs
        exact .inr ⟨w', ⟨p, i, hp, hm⟩, rfl, (hfit.2 t hk).2, rfl⟩
    | _ => simp [stripS, hm] at hs

theorem kKnown_finite (next : List Sight → KMove) (seen : List Sight) (r : Nat) : (kKnown next seen r).Finite := by
  let f : List Sight → List Byte := fun p => match p.getLast? with | some (.share w) => w | _ => []
  refine ((List.finite_toSet seen.inits).image f).subset ?_
  rintro w ⟨p, i, hp, hn⟩
  refine ⟨p ++ [.share w], List.mem_inits _ _ |>.2 hp, ?_⟩
  simp [f]

theorem proper_strip (hp : KProper next W) : Proper (plainNext next W E) (strip next W T [] W) := by
  intro first' a past' g h1 h2 h3 h4
  obtain ⟨past, s, hpast, hl, hpe, hs⟩ := strip_prefix next W T h3
  have hs := (stripS_added next W T).1 hs.symm
  subst hs
  have htake : W.take past'.length = past := take_of_prefix ((List.prefix_append _ _).trans hpast) hl.symm
  obtain ⟨first, s, hfirst, hl1, hfe, hs⟩ := strip_prefix next W T
    (h1.trans ((List.prefix_append _ _).trans h3))
  have hs := (stripS_made next W T).1 hs.symm
  subst hs
  have htake1 : W.take first'.length = first := take_of_prefix ((List.prefix_append _ _).trans hfirst) hl1.symm
  have hpre : first ++ [.made] <+: past := by
    refine List.prefix_of_prefix_length_le hfirst ((List.prefix_append _ _).trans hpast) ?_
    have := h1.length_le
    simp at this ⊢
    omega
  have hsh : sharings first' = sharings first := by rw [hfe, sharings_strip]
  rw [hsh] at h4
  cases hm : next past with
  | krawczyk c =>
    simp only [plainNext, htake, hm] at h4
    split at h4 <;> cases h4
  | plain m =>
    simp only [plainNext, htake, hm] at h4
    subst h4
    cases hm1 : next first with
    | plain m =>
      simp only [plainNext, htake1, hm1] at h2
      subst h2
      exact hp.enough first a past g hpre hm1 hpast hm
    | krawczyk c => exact absurd hm (hp.not_krawczyk first c past _ g hpre hm1 hpast)

theorem legal_strip {env : Env} {secret secret' : List Sight → List Byte} {key key' : List Sight → Nat → Byte}
    (hf : AllFit next W T E [] W) (hl : KLegal next secret secret' key key' W) :
    Legal (plainNext next W E) (plainSecret env next W secret key) (plainSecret env next W secret' key')
      (strip next W T [] W) := by
  intro past' a h1 h2
  obtain ⟨past, s, hpast, hlen, hpe, hs⟩ := strip_prefix next W T h1
  have hs := (stripS_made next W T).1 hs.symm
  subst hs
  have htake : W.take past'.length = past := take_of_prefix ((List.prefix_append _ _).trans hpast) hlen.symm
  have hsh : sharings past' = sharings past := by rw [hpe, sharings_strip]
  rw [hsh]
  simp only [plainNext, htake] at h2
  simp only [plainSecret, htake]
  cases hm : next past with
  | plain m =>
    simp only [hm] at h2 ⊢
    subst h2
    have hk := kind_plain next W T hpast hm
    have hsub : known (plainNext next W E) (strip next W T [] W) (sharings past) ⊆ kKnown next W (sharings past) := by
      intro w hw
      rcases known_strip hf hw with ⟨-, h⟩ | ⟨w', -, -, -, h⟩
      · exact h
      · rw [hk] at h
        cases h
    refine (hl.plain past a hpast hm).imp id fun ⟨h, h0⟩ => ⟨?_, fun w hw => h0 w (hsub hw)⟩
    have := Set.ncard_le_ncard hsub (kKnown_finite _ _ _)
    omega
  | krawczyk c =>
    simp only [hm] at h2 ⊢
    have ha : a.threshold = c.threshold := by
      split at h2 <;> cases h2
      rfl
    have hk := kind_krawczyk next W T hpast hm
    have hsub : known (plainNext next W E) (strip next W T [] W) (sharings past)
        ⊆ (fun w => w.take 21) '' kKnown next W (sharings past) := by
      intro w hw
      rcases known_strip hf hw with ⟨h, -⟩ | ⟨w', hw', h, -⟩
      · rw [hk] at h
        cases h
      · exact ⟨w', hw', h.symm⟩
    rcases hl.krawczyk past c hpast hm with ⟨h1, h2⟩ | h
    · left
      rw [h1, h2]
    · right
      constructor
      · have h3 := Set.ncard_le_ncard hsub ((kKnown_finite _ _ _).image _)
        have h4 := Set.ncard_image_le (f := fun w : List Byte => w.take 21) (kKnown_finite next W (sharings past))
        omega
      · intro w hw
        rcases known_strip hf hw with ⟨h, -⟩ | ⟨w', hw', -, h, -⟩
        · rw [hk] at h
          cases h
        · exact h

theorem bytes_strip (env : Env) (secret : List Sight → List Byte) (key : List Sight → Nat → Byte) :
    ∀ (seen past past' : List Sight), past ++ seen = W → past'.length = past.length → AllFit next W T E past seen →
    bytesRead (plainNext next W E) (plainSecret env next W secret key) past' (strip next W T past seen)
      = kBytesRead next secret past seen
  | [], _, _, _, _, _ => rfl
  | s :: seen, past, past', hW, hl, hf => by
    have hW' : (past ++ [s]) ++ seen = W := by rw [← hW]; simp
    have htake : W.take past'.length = past := take_of_prefix ⟨_, hW⟩ hl
    have ih := fun s' => bytes_strip env secret key seen (past ++ [s]) (past' ++ [s']) hW' (by simp [hl]) hf.2
    simp only [strip, bytesRead, kBytesRead, ih]
    congr 1
    have hfit := hf.1
    cases hm : next past with
    | krawczyk c =>
      simp only [Fits, hm] at hfit
      cases s with
      | made =>
        simp only [plainNext, htake, hm, plainSecret, stripS, if_pos hfit]
        simp [Ask.reads, KAsk.reads, keyLenPair_length (length_keyOf _)]
      | refused e =>
        simp only at hfit
        simp [plainNext, htake, hm, stripS, hfit]
      | _ => cases hfit
    | plain m =>
      have h1 := stripS_made next W T (past := past) (s := s)
      generalize stripS next W T past s = x at h1
      simp only [plainNext, htake, hm, plainSecret]
      cases m <;> cases s <;> cases x <;> simp at h1 ⊢

end

end Verif.Proofs
