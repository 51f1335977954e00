import Verif.Proofs.Game

/-! # C76: secrecy when many secrets are split and watched

The game is defined in `Spec/Game.lean`. -/

namespace Verif.Props
open Verif Outcome Galois Spec Proofs Shamir

/-- C76: whatever was seen, equally many fillings of the random bytes lead to it with either of two ways to choose the
secrets, provided the lengths agree and, of each secret that differs, fewer than `threshold` different shares were seen, none
with tag 0.  The shares can be original or regenerated ones, as long as Regenerate is given at least `threshold` shares.  The
calls, the shares looked at and the secrets may depend on everything seen before; the shares of other secrets may all be known.
(`M` random bytes are counted over, at least as many as the calls read; `next` also fixes the permutations and the tags of
regenerated shares.) -/
theorem C76_many_calls (arch : Arch) (next : List Sight → Move) (secret secret' : List Sight → List Byte)
    (hlen : ∀ past, (secret past).length = (secret' past).length)
    (hperm : ∀ past a, next past = .split a → a.perm.Perm (List.range 255)) (seen : List Sight)
    (hl : Legal next secret secret' seen) (hp : Proper next seen) (M : Nat) (hM : bytesRead next secret [] seen ≤ M)
    (ps : Pools) :
    count (m := M) (fun ρ => Happens arch next secret [] (stream ρ) ps [] seen)
      = count (m := M) (fun ρ => Happens arch next secret' [] (stream ρ) ps [] seen) := by
  have h := static_count hlen hl seen [] [] M rfl rfl hM
  have key : ∀ (secret : List Sight → List Byte) (ρ : Fin M → Byte),
      Happens arch next secret [] (stream ρ) ps [] seen ↔ Static next secret [] [] (stream ρ) seen := by
    intro secret ρ
    rw [happens_static arch next secret hperm hp seen [] (stream ρ) ps [] [] (fun _ _ => []) rfl rfl
      ⟨rfl, fun r hr => absurd hr (by simp)⟩]
    simp
  simp only [key]
  exact h

/-- C76: something is seen: with every random source exactly one sequence of sights of each length happens, unless a call
of Regenerate panics or does not return before. -/
theorem C76_something_happens (arch : Arch) (next : List Sight → Move) (secret : List Sight → List Byte)
    (hperm : ∀ past a, next past = .split a → a.perm.Perm (List.range 255)) (k : Nat) :
    ∀ (past : List Sight) (rnd : Nat → Byte) (ps : Pools) (made : List (List (List Byte))),
      ∃! seen, (seen.length = k ∨ seen.length < k ∧ seen.getLast? = some .stopped) ∧
        Happens arch next secret past rnd ps made seen := by
  induction k with
  | zero =>
    intro past rnd ps made
    refine ⟨[], ⟨.inl rfl, trivial⟩, fun s hs => ?_⟩
    rcases hs.1 with h | h
    · exact List.length_eq_zero_iff.1 h
    · exact absurd h.1 (by omega)
  | succ k ih =>
    intro past rnd ps made
    -- it is enough to know the first sight and what follows it
    have step : ∀ (s : Sight) (rnd' : Nat → Byte) (ps' : Pools) (made' : List (List (List Byte))), s ≠ .stopped →
        (∀ s' t, Happens arch next secret past rnd ps made (s' :: t) ↔
          s' = s ∧ Happens arch next secret (past ++ [s]) rnd' ps' made' t) →
        ∃! seen, (seen.length = k + 1 ∨ seen.length < k + 1 ∧ seen.getLast? = some .stopped) ∧
          Happens arch next secret past rnd ps made seen := by
      intro s rnd' ps' made' hs hiff
      obtain ⟨t, ⟨h1, h2⟩, hu⟩ := ih (past ++ [s]) rnd' ps' made'
      have hlast : ∀ t' : List Sight, (s :: t').getLast? = some .stopped ↔ t'.getLast? = some .stopped := by
        intro t'
        cases t' with
        | nil => simp [hs]
        | cons a b => simp
      refine ⟨s :: t, ⟨?_, (hiff s t).2 ⟨rfl, h2⟩⟩, ?_⟩
      · rw [hlast, List.length_cons]
        rcases h1 with h | ⟨h, h'⟩
        · exact .inl (by omega)
        · exact .inr ⟨by omega, h'⟩
      · rintro (_ | ⟨s', t'⟩) ⟨h3, h4⟩
        · simp at h3
        · obtain ⟨rfl, h5⟩ := (hiff s' t').1 h4
          rw [hlast, List.length_cons] at h3
          rw [hu t' ⟨?_, h5⟩]
          rcases h3 with h | ⟨h, h'⟩
          · exact .inl (by omega)
          · exact .inr ⟨by omega, h'⟩
    cases hm : next past with
    | split a =>
      cases he : argError (secret past) a.parts a.threshold with
      | some e =>
        refine step (.refused e) rnd ps made (by simp) fun s' t => ?_
        cases s' <;> simp [Happens, hm, run_err he, eq_comm]
        rintro rfl
        rfl
      | none =>
        obtain ⟨q, hr⟩ := run_ok arch rnd ps he (hperm past a hm)
        refine step .made (fun j => rnd (a.reads (secret past) + j)) q
          (made ++ [(Ask.tags a).map (Ask.at a (secret past) rnd)]) (by simp) fun s' t => ?_
        cases s' <;> simp only [Happens, hm, hr] <;> simp
    | look r i =>
      cases hw : (made.getD r [])[i]? with
      | some w =>
        refine step (.share w) rnd ps made (by simp) fun s' t => ?_
        cases s' <;> simp only [Happens, hm, hw] <;> simp [eq_comm]
        rintro rfl
        rfl
      | none =>
        refine step .nothing rnd ps made (by simp) fun s' t => ?_
        cases s' <;> simp only [Happens, hm, hw] <;> simp
    | renew r g =>
      by_cases hp : ∀ i ∈ g.positions, i < (made.getD r []).length
      swap
      · refine step .nothing rnd ps made (by simp) fun s' t => ?_
        cases s' <;> simp only [Happens, hm, hp] <;> simp
      have stops : (∀ new, g.run (made.getD r []) ≠ ok new) → (∀ e, g.run (made.getD r []) ≠ err e) →
          ∃! seen, (seen.length = k + 1 ∨ seen.length < k + 1 ∧ seen.getLast? = some .stopped) ∧
            Happens arch next secret past rnd ps made seen := by
        intro h1 h2
        refine ⟨[.stopped], ⟨?_, ?_⟩, ?_⟩
        · rcases Nat.eq_zero_or_pos k with h | h
          · exact .inl (by simp [h])
          · exact .inr ⟨by simpa using h, rfl⟩
        · simp only [Happens, hm]
          exact ⟨hp, h1, h2, trivial⟩
        · rintro (_ | ⟨s', t'⟩) ⟨h3, h4⟩
          · simp at h3
          · cases s' <;> simp only [Happens, hm] at h4
            · obtain ⟨-, new, h, -⟩ := h4
              exact absurd h (h1 _)
            · exact absurd h4.2.1 (h2 _)
            · exact absurd hp h4.1
            · rw [h4.2.2.2]
      cases hr : g.run (made.getD r []) with
      | ok new =>
        refine step .added rnd ps (made.set r (made.getD r [] ++ new)) (by simp) fun s' t => ?_
        cases s' <;> simp only [Happens, hm, hr, not_true, false_and] <;> simp [-List.getD_eq_getElem?_getD]
        · exact fun _ => hp
        · exact fun i hi h => absurd (hp i hi) (by omega)
      | err e =>
        refine step (.refused e) rnd ps made (by simp) fun s' t => ?_
        cases s' with
        | refused e' =>
          simp only [Happens, hm, hr]
          constructor
          · rintro ⟨-, h, h'⟩
            cases h
            exact ⟨rfl, h'⟩
          · rintro ⟨h, h'⟩
            cases h
            exact ⟨hp, rfl, h'⟩
        | nothing =>
          simp only [Happens, hm]
          exact iff_of_false (fun h => h.1 hp) (by simp)
        | _ => simp [Happens, hm, hr, -List.getD_eq_getElem?_getD]
      | panic => exact stops (fun new h => by rw [hr] at h; cases h) (fun e h => by rw [hr] at h; cases h)
      | corrupt => exact stops (fun new h => by rw [hr] at h; cases h) (fun e h => by rw [hr] at h; cases h)
      | spin => exact stops (fun new h => by rw [hr] at h; cases h) (fun e h => by rw [hr] at h; cases h)

/-! ## Non-vacuity -/

/-- Regenerate on three shares, two new ones with the tags 200 and 201. -/
def exRenew : Renew := ⟨[0, 1, 2], 2, fun k => BitVec.ofNat 8 (200 + k), fun _ => 0, 1⟩

/-- Split 3-of-5; look at share 4; add two shares; look at the second of them; SplitGeneric 2-of-3; look at its shares 0
and 1. -/
def exNext (past : List Sight) : Move :=
  match past.length with
  | 0 => .split ⟨false, 5, 3, List.range 255⟩
  | 1 => .look 0 4
  | 2 => .renew 0 exRenew
  | 3 => .look 0 6
  | 4 => .split ⟨true, 3, 2, List.range 255⟩
  | 5 => .look 1 0
  | _ => .look 1 1

/-- The second secret is what was seen of the first. -/
def exSecret (first : List Byte) (past : List Sight) : List Byte :=
  if past.length = 0 then first else
    match past.getLast? with
    | some (.share w) => w
    | _ => [1]

theorem exNext_split {past : List Sight} {a : Ask} (h : exNext past = .split a) :
    (past.length = 0 ∧ a = ⟨false, 5, 3, List.range 255⟩) ∨ (past.length = 4 ∧ a = ⟨true, 3, 2, List.range 255⟩) := by
  unfold exNext at h
  split at h <;> cases h
  · exact .inl ⟨by assumption, rfl⟩
  · exact .inr ⟨by assumption, rfl⟩

theorem exPerm {past : List Sight} {a : Ask} (h : exNext past = .split a) : a.perm.Perm (List.range 255) := by
  have h' : a.perm = List.range 255 := by
    rcases exNext_split h with ⟨-, e⟩ | ⟨-, e⟩ <;> rw [e]
  rw [h']

theorem exProper (seen : List Sight) : Proper exNext seen := by
  intro first a past g h1 h2 h3 h4
  have hg : g = exRenew ∧ sharings first = 0 := by
    unfold exNext at h4
    split at h4 <;> simp only [Move.renew.injEq, reduceCtorEq] at h4
    exact ⟨h4.2.symm, h4.1.symm⟩
  have ha : a.threshold = 3 ∨ a.threshold = 2 := by
    rcases exNext_split h2 with ⟨-, rfl⟩ | ⟨-, rfl⟩
    · exact .inl rfl
    · exact .inr rfl
  rw [hg.1]
  show a.threshold ≤ (3 : Nat)
  omega

theorem exLegal (s s' : List Byte) (seen : List Sight) (h0 : ∀ w, .share w ∈ seen → tag w ≠ 0) :
    Legal exNext (exSecret s) (exSecret s') seen := by
  intro past a hp ha
  rcases exNext_split ha with ⟨hz, rfl⟩ | ⟨h2, rfl⟩
  · right
    have : past = [] := List.length_eq_zero_iff.1 hz
    subst this
    let f : Nat → List Byte := fun i => match seen[i]? with | some (.share w) => w | _ => []
    have hsub : known exNext seen (sharings []) ⊆ f '' ({1, 3} : Set Nat) := by
      rintro w ⟨p, i, hp', hn⟩
      have hlen : p.length = 1 ∨ p.length = 3 := by
        unfold exNext at hn
        have hz : sharings [] = 0 := rfl
        rw [hz] at hn
        split at hn <;> simp_all
      refine ⟨p.length, by simpa using hlen, ?_⟩
      obtain ⟨q, rfl⟩ := hp'
      simp [f]
    have h1 := Set.ncard_le_ncard hsub (Set.toFinite _)
    have h2 := Set.ncard_image_le (f := f) (s := ({1, 3} : Set Nat)) (Set.toFinite _)
    have h3 : ({1, 3} : Set Nat).ncard = 2 := by rw [Set.ncard_pair]; omega
    refine ⟨?_, fun w hw => ?_⟩
    · show ((known exNext seen (sharings [])).ncard : Int) < 3
      omega
    · obtain ⟨p, i, hp', -⟩ := hw
      obtain ⟨q, rfl⟩ := hp'
      exact h0 w (by simp)
  · left
    unfold exSecret
    rw [if_neg (by omega), if_neg (by omega)]

/-- Seven sights that happen. -/
theorem exHappens (arch : Arch) (rnd : Nat → Byte) (ps : Pools) : ∃ a b c d,
    Happens arch exNext (exSecret [5, 9]) [] rnd ps [] [.made, .share a, .added, .share b, .made, .share c, .share d] ∧
    tag a = 5 ∧ tag b = 201 ∧ tag c = 1 ∧ tag d = 2 ∧ b.length = 3 := by
  obtain ⟨q, h1⟩ := run_ok arch (a := ⟨false, 5, 3, List.range 255⟩) (s := [5, 9]) rnd ps (show argError [5, 9] 5 3 = none by decide)
    (exPerm (past := []) rfl)
  have ht : Ask.tags ⟨false, 5, 3, List.range 255⟩ = [1, 2, 3, 4, 5] := by decide
  rw [ht] at h1
  generalize hf : Ask.at ⟨false, 5, 3, List.range 255⟩ [5, 9] rnd = f at h1
  have htag : ∀ x, tag (f x) = x := fun x => by rw [← hf]; exact tag_cShare ..
  have hlen : ∀ x, (f x).length = 3 := fun x => by rw [← hf]; simp [Ask.at]
  obtain ⟨new, h2⟩ : ∃ new, exRenew.run [f 1, f 2, f 3, f 4, f 5] = ok new := by
    show ∃ new, regenerate 1 [f 1, f 2, f 3] 2 exRenew.tags exRenew.later = ok new
    refine C24_returns_fresh [f 1, f 2, f 3] (regenerable_iff.2 ?_) 2 (by decide) _ _ (by decide) ?_ 0
    · simp [hlen, tags, htag]
    · simp only [List.map_cons, List.map_nil, htag]
      decide
  have h3 : new = [f 200, f 201] := by
    rw [← hf] at h2 ⊢
    have := run_values (g := exRenew) (t := 3) (xs := [1, 2, 3, 4, 5]) (by decide) (by decide) (by decide) h2
    exact this
  subst h3
  obtain ⟨q', h4⟩ := run_ok arch (a := ⟨true, 3, 2, List.range 255⟩) (s := f 201) (fun j => rnd (6 + j)) q
    (argError_none.2 ⟨by decide, by decide, by decide, fun h => by have := hlen 201; rw [h] at this; cases this⟩)
    (exPerm (past := [.made, .made, .made, .made]) rfl)
  have ht' : Ask.tags ⟨true, 3, 2, List.range 255⟩ = [1, 2, 3] := by decide
  rw [ht'] at h4
  generalize hf' : Ask.at ⟨true, 3, 2, List.range 255⟩ (f 201) (fun j => rnd (6 + j)) = f' at h4
  have htag' : ∀ x, tag (f' x) = x := fun x => by rw [← hf']; exact tag_cShare ..
  refine ⟨f 5, f 201, f' 1, f' 2, ?_, htag _, htag _, htag' _, htag' _, hlen _⟩
  refine ⟨_, q, h1, rfl, ?_, _, h2, rfl, _, q', h4, rfl, rfl, trivial⟩
  intro i hi
  show i < 5
  revert i
  decide

/-- C76: two shares of a 3-of-5 sharing, one regenerated, and one of them also the (fully revealed) secret of another sharing,
tell nothing about the first secret. -/
example (arch : Arch) : ∃ seen,
    0 < count (m := 6 + 3) (fun ρ => Happens arch exNext (exSecret [5, 9]) [] (stream ρ) (Pools.init 1) [] seen) ∧
    count (m := 6 + 3) (fun ρ => Happens arch exNext (exSecret [5, 9]) [] (stream ρ) (Pools.init 1) [] seen)
      = count (m := 6 + 3) (fun ρ => Happens arch exNext (exSecret [77, 0]) [] (stream ρ) (Pools.init 1) [] seen) := by
  obtain ⟨a, b, c, d, h, ha, hb, hc, hd, hl⟩ := exHappens arch (stream (m := 6 + 3) fun _ => 1) (Pools.init 1)
  refine ⟨_, ?_, C76_many_calls arch exNext _ _ (fun past => by unfold exSecret; split <;> rfl)
    (fun _ _ h => exPerm h) [.made, .share a, .added, .share b, .made, .share c, .share d] (exLegal _ _ _ ?_) (exProper _) _ ?_ _⟩
  · have : Nonempty {ρ : Fin (6 + 3) → Byte // Happens arch exNext (exSecret [5, 9]) [] (stream ρ) (Pools.init 1) []
        [.made, .share a, .added, .share b, .made, .share c, .share d]} := ⟨⟨_, h⟩⟩
    exact Nat.card_pos
  · intro w hw
    simp only [List.mem_cons, reduceCtorEq, Sight.share.injEq, List.not_mem_nil, false_or, or_false] at hw
    rcases hw with rfl | rfl | rfl | rfl
    · rw [ha]; decide
    · rw [hb]; decide
    · rw [hc]; decide
    · rw [hd]; decide
  · show 3 * 2 + (0 + (0 + (0 + ((2 - 1) * b.length + (0 + (0 + 0)))))) ≤ 6 + 3
    rw [hl]

end Verif.Props
