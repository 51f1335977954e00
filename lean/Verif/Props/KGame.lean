import Verif.Proofs.KGame
import Verif.Props.Game

/-! # C83: secrecy when many secrets are split and watched, also with krawczyk.Split

The game is defined in `Spec/KGame.lean`. -/

namespace Verif.Props
open Verif Outcome Galois Spec Proofs Shamir Krawczyk

/-- What is seen only depends on the secrets and keys at the prefixes of it. -/
theorem kHappens_congr {env : Env} {next : List Sight → KMove} {secret secret' : List Sight → List Byte}
    {key key' : List Sight → Nat → Byte} : ∀ (seen past : List Sight),
    (∀ p, p <+: seen → secret (past ++ p) = secret' (past ++ p) ∧ key (past ++ p) = key' (past ++ p)) →
    ∀ (rnd : Nat → Byte) (ps : Pools) (made : List (List (List Byte))),
      KHappens env next secret key past rnd ps made seen ↔ KHappens env next secret' key' past rnd ps made seen
  | [], _, _, _, _, _ => Iff.rfl
  | s :: seen, past, h, rnd, ps, made => by
    obtain ⟨h1, h2⟩ := h [] (List.nil_prefix)
    rw [List.append_nil] at h1 h2
    have ih := kHappens_congr (env := env) (next := next) (secret := secret) (secret' := secret') (key := key) (key' := key') seen
      (past ++ [s]) (fun p hp => by
        have := h (s :: p) (List.cons_prefix_cons.2 ⟨rfl, hp⟩)
        simpa using this)
    unfold KHappens
    rw [h1, h2]
    simp only [ih]

/-- C83: whatever was seen, equally many fillings of the random bytes lead to it with either of two ways to choose the
secrets and the keys of krawczyk.Split, provided the lengths agree, krawczyk.Split makes the same ciphertexts in both cases,
and, of each secret (with its key) that differs, fewer than `threshold` different shares were seen.  The calls, the shares
looked at, the secrets and the keys may depend on everything seen before; the shares of other secrets may all be known.
(`M` random bytes are counted over, at least as many as the calls read.) -/
theorem C83_many_calls (env : Env) (hc : env.lib.Contract) (next : List Sight → KMove)
    (secret secret' : List Sight → List Byte) (key key' : List Sight → Nat → Byte)
    (hperm : ∀ past a, next past = .plain (.split a) → a.perm.Perm (List.range 255))
    (hperm' : ∀ past c, next past = .krawczyk c → c.perm.Perm (List.range 255)) (seen : List Sight)
    (hlen : ∀ past, past <+: seen → (secret past).length = (secret' past).length)
    (hcipher : ∀ past c, past <+: seen → next past = .krawczyk c →
      encrypt env (secret past) (keyOf (key past)) = encrypt env (secret' past) (keyOf (key' past)))
    (hl : KLegal next secret secret' key key' seen) (hp : KProper next seen) (M : Nat)
    (hM : kBytesRead next secret [] seen ≤ M) (ps : Pools) :
    count (m := M) (fun ρ => KHappens env next secret key [] (stream ρ) ps [] seen)
      = count (m := M) (fun ρ => KHappens env next secret' key' [] (stream ρ) ps [] seen) := by
  classical
  -- at other sights the secrets and keys do not matter
  wlog hall : ∀ past, (secret past).length = (secret' past).length ∧ ∀ c, next past = .krawczyk c →
      encrypt env (secret past) (keyOf (key past)) = encrypt env (secret' past) (keyOf (key' past)) generalizing
      secret secret' key key' with H
  · let cut {α : Type} (d : α) (f : List Sight → α) (p : List Sight) : α := if p <+: seen then f p else d
    have hcut : ∀ {α : Type} (d : α) (f : List Sight → α) (p : List Sight), p <+: seen → cut d f p = f p :=
      fun d f p h => if_pos h
    have hpast : ∀ {p : List Sight} {s : Sight}, p ++ [s] <+: seen → p <+: seen :=
      fun h => (List.prefix_append _ _).trans h
    have hb : ∀ t p, p ++ t = seen → kBytesRead next (cut [] secret) p t = kBytesRead next secret p t := by
      intro t
      induction t with
      | nil => intro p _; rfl
      | cons s t ih =>
        intro p hpt
        have h1 := ih (p ++ [s]) (by rw [← hpt]; simp)
        unfold kBytesRead
        rw [h1, hcut _ _ p ⟨_, hpt⟩]
    have h := H (cut [] secret) (cut [] secret') (cut (fun _ => 0) key) (cut (fun _ => 0) key')
      (fun p h => by rw [hcut _ _ p h, hcut _ _ p h]; exact hlen p h)
      (fun p c h hn => by simp only [hcut _ _ p h]; exact hcipher p c h hn)
      ⟨fun p a h hn => by rw [hcut _ _ p (hpast h), hcut _ _ p (hpast h)]; exact hl.plain p a h hn,
        fun p c h hn => by simp only [hcut _ _ p (hpast h)]; exact hl.krawczyk p c h hn⟩
      (by rw [hb seen [] rfl]; exact hM)
      (fun p => by
        by_cases h : p <+: seen
        · simp only [hcut _ _ p h]
          exact ⟨hlen p h, fun c hn => hcipher p c h hn⟩
        · simp only [cut, if_neg h, true_and]
          exact fun _ _ => trivial)
    refine Eq.trans (count_congr (Equiv.refl _) fun ρ => ?_) (h.trans (count_congr (Equiv.refl _) fun ρ => ?_))
    · exact kHappens_congr seen [] (fun p h => by simp [hcut _ _ p h]) _ _ _
    · exact kHappens_congr seen [] (fun p h => by simp [hcut _ _ p h]) _ _ _
  have hcc : ∀ past c, next past = .krawczyk c →
      cipherOf env (secret past) (keyOf (key past)) = cipherOf env (secret' past) (keyOf (key' past)) := by
    intro past c hn
    have := (hall past).2 c hn
    rw [encrypt_ok env _ (.inl (length_keyOf _)), encrypt_ok env _ (.inl (length_keyOf _))] at this
    injection this
  have hT : tails env next secret' key' = tails env next secret key := by
    funext past
    unfold tails
    cases hn : next past with
    | plain m => rfl
    | krawczyk c => simp only [hcc past c hn]
  have hE : errorOf env next secret' = errorOf env next secret := by
    funext past
    unfold errorOf
    cases hn : next past with
    | plain m => rfl
    | krawczyk c =>
      have hl := (hall past).1
      have : secret past = [] ↔ secret' past = [] := by rw [← List.length_eq_zero_iff, ← List.length_eq_zero_iff, hl]
      simp only [kSplitError, hl, this]
  have key1 := fun ρ : Fin M → Byte => reduce env hc next secret key hperm' hp seen [] [] (stream ρ) ps [] [] rfl rfl
    ⟨rfl, rfl, fun r hr => absurd hr (by simp)⟩
  have key2 := fun ρ : Fin M → Byte => reduce env hc next secret' key' hperm' hp seen [] [] (stream ρ) ps [] [] rfl rfl
    ⟨rfl, rfl, fun r hr => absurd hr (by simp)⟩
  simp only [key1, key2, hT, hE]
  by_cases hf : AllFit next seen (tails env next secret key) (errorOf env next secret) [] seen
  swap
  · exact count_congr (Equiv.refl _) fun ρ => iff_of_false (fun h => hf h.1) (fun h => hf h.1)
  simp only [hf, true_and]
  refine C76_many_calls env.arch _ _ _ (fun past => ?_) (fun past a h => ?_) _ (legal_strip hf hl) (proper_strip hp) M ?_ ps
  · unfold plainSecret
    cases next (seen.take past.length) with
    | plain m => exact (hall _).1
    | krawczyk c => simp only [keyLenPair_length (length_keyOf _)]
  · unfold plainNext at h
    cases hn : next (seen.take past.length) with
    | plain m =>
      simp only [hn] at h
      subst h
      exact hperm _ _ hn
    | krawczyk c =>
      simp only [hn] at h
      split at h <;> cases h
      exact hperm' _ _ hn
  · rw [bytes_strip (W := seen) env secret key seen [] [] rfl rfl hf]
    exact hM

/-- C83: no key is excluded by what was seen: for every other way to draw the keys there are secrets, of the same lengths, that
lead to it with equally many fillings, as long as fewer than `threshold` shares were seen of each secret that krawczyk.Split
shared with a key that differs. -/
theorem C83_every_key_possible (env : Env) (hc : env.lib.Contract) (next : List Sight → KMove)
    (secret : List Sight → List Byte) (key key' : List Sight → Nat → Byte)
    (hperm : ∀ past a, next past = .plain (.split a) → a.perm.Perm (List.range 255))
    (hperm' : ∀ past c, next past = .krawczyk c → c.perm.Perm (List.range 255)) :
    ∃ secret' : List Sight → List Byte, (∀ past, (secret' past).length = (secret past).length) ∧
      (∀ past m, next past = .plain m → secret' past = secret past) ∧
      ∀ seen, (∀ past c, past ++ [.made] <+: seen → next past = .krawczyk c →
          key past = key' past ∨ ((kKnown next seen (sharings past)).ncard : Int) < c.threshold) →
        KProper next seen → ∀ M, kBytesRead next secret [] seen ≤ M → ∀ ps,
        count (m := M) (fun ρ => KHappens env next secret key [] (stream ρ) ps [] seen)
          = count (m := M) (fun ρ => KHappens env next secret' key' [] (stream ρ) ps [] seen) := by
  classical
  let secret' : List Sight → List Byte := fun past =>
    match next past with
    | .plain _ => secret past
    | .krawczyk _ => if key past = key' past then secret past
        else xorKs (keyStream env (keyOf (key' past))) (cipherOf env (secret past) (keyOf (key past)))
  have hlen : ∀ past, (secret' past).length = (secret past).length := by
    intro past
    simp only [secret']
    cases next past with
    | plain m => rfl
    | krawczyk c =>
      simp only
      split
      · rfl
      · simp
  refine ⟨secret', hlen, fun past m hm => by simp only [secret', hm], fun seen hk hp M hM ps => ?_⟩
  refine C83_many_calls env hc next secret secret' key key' hperm hperm' seen (fun p _ => (hlen p).symm) ?_ ⟨?_, ?_⟩ hp M hM ps
  · intro past c _ hm
    simp only [secret', hm]
    split
    · rename_i h
      rw [h]
    · rw [encrypt_ok env _ (.inl (length_keyOf _)), encrypt_ok env _ (.inl (length_keyOf _)), xorKs_xorKs]
      rfl
  · intro past a _ hm
    exact .inl (by simp only [secret', hm])
  · intro past c h hm
    refine (hk past c h hm).imp (fun h => ⟨?_, h⟩) id
    simp only [secret', hm, if_pos h]

/-- C83: something is seen: with every random source exactly one sequence of sights of each length happens, unless a call
of Regenerate panics or does not return before. -/
theorem C83_something_happens (env : Env) (hc : env.lib.Contract) (next : List Sight → KMove) (secret : List Sight → List Byte)
    (key : List Sight → Nat → Byte) (hperm : ∀ past a, next past = .plain (.split a) → a.perm.Perm (List.range 255))
    (hperm' : ∀ past c, next past = .krawczyk c → c.perm.Perm (List.range 255)) (k : Nat) :
    ∀ (past : List Sight) (rnd : Nat → Byte) (ps : Pools) (made : List (List (List Byte))),
      ∃! seen, (seen.length = k ∨ seen.length < k ∧ seen.getLast? = some .stopped) ∧
        KHappens env next secret key past rnd ps made seen := by
  induction k with
  | zero =>
    intro past rnd ps made
    refine ⟨[], ⟨.inl rfl, trivial⟩, fun s hs => ?_⟩
    rcases hs.1 with h | h
    · exact List.length_eq_zero_iff.1 h
    · exact absurd h.1 (by omega)
  | succ k ih =>
    intro past rnd ps made
    -- it is enough to know the first sight and what follows it
    have step : ∀ (s : Sight) (rnd' : Nat → Byte) (ps' : Pools) (made' : List (List (List Byte))), s ≠ .stopped →
        (∀ s' t, KHappens env next secret key past rnd ps made (s' :: t) ↔
          s' = s ∧ KHappens env next secret key (past ++ [s]) rnd' ps' made' t) →
        ∃! seen, (seen.length = k + 1 ∨ seen.length < k + 1 ∧ seen.getLast? = some .stopped) ∧
          KHappens env next secret key past rnd ps made seen := by
      intro s rnd' ps' made' hs hiff
      obtain ⟨t, ⟨h1, h2⟩, hu⟩ := ih (past ++ [s]) rnd' ps' made'
      have hlast : ∀ t' : List Sight, (s :: t').getLast? = some .stopped ↔ t'.getLast? = some .stopped := by
        intro t'
        cases t' with
        | nil => simp [hs]
        | cons a b => simp
      refine ⟨s :: t, ⟨?_, (hiff s t).2 ⟨rfl, h2⟩⟩, ?_⟩
      · rw [hlast, List.length_cons]
        rcases h1 with h | ⟨h, h'⟩
        · exact .inl (by omega)
        · exact .inr ⟨by omega, h'⟩
      · rintro (_ | ⟨s', t'⟩) ⟨h3, h4⟩
        · simp at h3
        · obtain ⟨rfl, h5⟩ := (hiff s' t').1 h4
          rw [hlast, List.length_cons] at h3
          rw [hu t' ⟨?_, h5⟩]
          rcases h3 with h | ⟨h, h'⟩
          · exact .inl (by omega)
          · exact .inr ⟨by omega, h'⟩
    cases hm : next past with
    | krawczyk c =>
      cases he : kSplitError env.lib (secret past) c.parts c.threshold with
      | some e =>
        refine step (.refused e) rnd ps made (by simp) fun s' t => ?_
        cases s' <;> simp [KHappens, hm, ksplit_err he, eq_comm]
        rintro rfl
        rfl
      | none =>
        obtain ⟨shares, md, q, hr, -, -⟩ := ksplit_none hc (κ := key past) (hperm' past c hm) (rnd := rnd) (ps := ps) he
        refine step .made (fun j => rnd (c.reads + j)) q (made ++ [shares]) (by simp) fun s' t => ?_
        cases s' <;> simp only [KHappens, hm, hr] <;> simp
    | plain m =>
    cases m with
    | split a =>
      cases he : argError (secret past) a.parts a.threshold with
      | some e =>
        refine step (.refused e) rnd ps made (by simp) fun s' t => ?_
        cases s' <;> simp [KHappens, hm, run_err he, eq_comm]
        rintro rfl
        rfl
      | none =>
        obtain ⟨q, hr⟩ := run_ok env.arch rnd ps he (hperm past a hm)
        refine step .made (fun j => rnd (a.reads (secret past) + j)) q
          (made ++ [(Ask.tags a).map (Ask.at a (secret past) rnd)]) (by simp) fun s' t => ?_
        cases s' <;> simp only [KHappens, hm, hr] <;> simp
    | look r i =>
      cases hw : (made.getD r [])[i]? with
      | some w =>
        refine step (.share w) rnd ps made (by simp) fun s' t => ?_
        cases s' <;> simp only [KHappens, hm, hw] <;> simp [eq_comm]
        rintro rfl
        rfl
      | none =>
        refine step .nothing rnd ps made (by simp) fun s' t => ?_
        cases s' <;> simp only [KHappens, hm, hw] <;> simp
    | renew r g =>
      by_cases hp : ∀ i ∈ g.positions, i < (made.getD r []).length
      swap
      · refine step .nothing rnd ps made (by simp) fun s' t => ?_
        cases s' <;> simp only [KHappens, hm, hp] <;> simp
      have stops : (∀ new, g.run (made.getD r []) ≠ ok new) → (∀ e, g.run (made.getD r []) ≠ err e) →
          ∃! seen, (seen.length = k + 1 ∨ seen.length < k + 1 ∧ seen.getLast? = some .stopped) ∧
            KHappens env next secret key past rnd ps made seen := by
        intro h1 h2
        refine ⟨[.stopped], ⟨?_, ?_⟩, ?_⟩
        · rcases Nat.eq_zero_or_pos k with h | h
          · exact .inl (by simp [h])
          · exact .inr ⟨by simpa using h, rfl⟩
        · simp only [KHappens, hm]
          exact ⟨hp, h1, h2, trivial⟩
        · rintro (_ | ⟨s', t'⟩) ⟨h3, h4⟩
          · simp at h3
          · cases s' <;> simp only [KHappens, hm] at h4
            · obtain ⟨-, new, h, -⟩ := h4
              exact absurd h (h1 _)
            · exact absurd h4.2.1 (h2 _)
            · exact absurd hp h4.1
            · rw [h4.2.2.2]
      cases hr : g.run (made.getD r []) with
      | ok new =>
        refine step .added rnd ps (made.set r (made.getD r [] ++ new)) (by simp) fun s' t => ?_
        cases s' <;> simp only [KHappens, hm, hr, not_true, false_and] <;> simp [-List.getD_eq_getElem?_getD]
        · exact fun _ => hp
        · exact fun i hi h => absurd (hp i hi) (by omega)
      | err e =>
        refine step (.refused e) rnd ps made (by simp) fun s' t => ?_
        cases s' with
        | refused e' =>
          simp only [KHappens, hm, hr]
          constructor
          · rintro ⟨-, h, h'⟩
            cases h
            exact ⟨rfl, h'⟩
          · rintro ⟨h, h'⟩
            cases h
            exact ⟨hp, rfl, h'⟩
        | nothing =>
          simp only [KHappens, hm]
          exact iff_of_false (fun h => h.1 hp) (by simp)
        | _ => simp [KHappens, hm, hr, -List.getD_eq_getElem?_getD]
      | panic => exact stops (fun new h => by rw [hr] at h; cases h) (fun e h => by rw [hr] at h; cases h)
      | corrupt => exact stops (fun new h => by rw [hr] at h; cases h) (fun e h => by rw [hr] at h; cases h)
      | spin => exact stops (fun new h => by rw [hr] at h; cases h) (fun e h => by rw [hr] at h; cases h)

/-- The random bytes for the keys: the call after the sights `past` takes those numbered by the length of `past`. -/
def drawn {n : Nat} (k : Fin n → Fin 16 → Byte) (past : List Sight) : Nat → Byte :=
  if h : past.length < n then stream (k ⟨past.length, h⟩) else fun _ => 0

/-- Two secrets whose ciphertexts arise from equally many keys: a bijection of the keys that keeps the ciphertext. -/
theorem key_bijection (env : Env) (s s' : List Byte)
    (he : ∀ c, count (m := 16) (fun κ => encrypt env s (keyOf (stream κ)) = ok c)
      = count (m := 16) (fun κ => encrypt env s' (keyOf (stream κ)) = ok c)) :
    ∃ φ : (Fin 16 → Byte) ≃ (Fin 16 → Byte), ∀ κ,
      encrypt env s' (keyOf (stream (φ κ))) = encrypt env s (keyOf (stream κ)) := by
  let f : (Fin 16 → Byte) → Outcome (List Byte) := fun κ => encrypt env s (keyOf (stream κ))
  let f' : (Fin 16 → Byte) → Outcome (List Byte) := fun κ => encrypt env s' (keyOf (stream κ))
  have hfib : ∀ c, Nonempty ({κ // f κ = c} ≃ {κ // f' κ = c}) := by
    intro c
    have hok : ∀ (t : List Byte) (κ : Fin 16 → Byte), ∃ c, encrypt env t (keyOf (stream κ)) = ok c := fun t κ =>
      ⟨_, encrypt_ok env t (Or.inl (length_keyOf _))⟩
    by_cases h : ∃ c', c = ok c'
    · obtain ⟨c', rfl⟩ := h
      exact Finite.card_eq.1 (he c')
    · have e1 : IsEmpty {κ // f κ = c} := ⟨fun x => h ((hok s x.1).imp fun d hd => x.2.symm.trans hd)⟩
      have e2 : IsEmpty {κ // f' κ = c} := ⟨fun x => h ((hok s' x.1).imp fun d hd => x.2.symm.trans hd)⟩
      exact ⟨Equiv.equivOfIsEmpty _ _⟩
  refine ⟨(Equiv.sigmaFiberEquiv f).symm.trans
    ((Equiv.sigmaCongrRight fun c => (hfib c).some).trans (Equiv.sigmaFiberEquiv f')), fun κ => ?_⟩
  simp only [Equiv.trans_apply, Equiv.sigmaFiberEquiv, Equiv.coe_fn_symm_mk, Equiv.sigmaCongrRight_apply, Equiv.coe_fn_mk]
  exact ((hfib (f κ)).some ⟨κ, rfl⟩).2

/-- C83, counting over the keys too: when for each call of krawczyk.Split each ciphertext arises from equally many keys with
either secret (perfect secrecy of the encryption alone), whatever was seen tells nothing about the secrets of which fewer than
`threshold` shares were seen. -/
theorem C83_perfect (env : Env) (hc : env.lib.Contract) (next : List Sight → KMove)
    (secret secret' : List Sight → List Byte)
    (hperm : ∀ past a, next past = .plain (.split a) → a.perm.Perm (List.range 255))
    (hperm' : ∀ past c, next past = .krawczyk c → c.perm.Perm (List.range 255)) (seen : List Sight)
    (hlen : ∀ past, past <+: seen → (secret past).length = (secret' past).length)
    (hperfect : ∀ past c, past <+: seen → next past = .krawczyk c → ∀ ct,
      count (m := 16) (fun κ => encrypt env (secret past) (keyOf (stream κ)) = ok ct)
        = count (m := 16) (fun κ => encrypt env (secret' past) (keyOf (stream κ)) = ok ct))
    (hl : ∀ key, KLegal next secret secret' key key seen) (hp : KProper next seen) (M : Nat)
    (hM : kBytesRead next secret [] seen ≤ M) (ps : Pools) :
    Nat.card {x : (Fin (seen.length + 1) → Fin 16 → Byte) × (Fin M → Byte) //
        KHappens env next secret (drawn x.1) [] (stream x.2) ps [] seen}
      = Nat.card {x : (Fin (seen.length + 1) → Fin 16 → Byte) × (Fin M → Byte) //
        KHappens env next secret' (drawn x.1) [] (stream x.2) ps [] seen} := by
  classical
  have hφ : ∀ j : Fin (seen.length + 1), ∃ φ : (Fin 16 → Byte) ≃ (Fin 16 → Byte),
      (secret (seen.take j) = secret' (seen.take j) → φ = Equiv.refl _) ∧
      ∀ c, next (seen.take j) = .krawczyk c → ∀ κ, encrypt env (secret' (seen.take j)) (keyOf (stream (φ κ)))
        = encrypt env (secret (seen.take j)) (keyOf (stream κ)) := by
    intro j
    by_cases hs : secret (seen.take j) = secret' (seen.take j)
    · exact ⟨Equiv.refl _, fun _ => rfl, fun c _ κ => by rw [hs]; rfl⟩
    · by_cases hn : ∃ c, next (seen.take j) = .krawczyk c
      · obtain ⟨c, hn⟩ := hn
        obtain ⟨φ, h⟩ := key_bijection env _ _ (hperfect _ c (List.take_prefix _ _) hn)
        exact ⟨φ, fun h => absurd h hs, fun _ _ => h⟩
      · exact ⟨Equiv.refl _, fun _ => rfl, fun c h => absurd ⟨c, h⟩ hn⟩
  choose φ hφ1 hφ2 using hφ
  have hat : ∀ past, past <+: seen → ∃ j : Fin (seen.length + 1), seen.take j = past ∧ past.length = j := by
    intro past h
    exact ⟨⟨past.length, by have := h.length_le; omega⟩, (List.prefix_iff_eq_take.1 h).symm, rfl⟩
  have hdrawn : ∀ (k : Fin (seen.length + 1) → Fin 16 → Byte) {past : List Sight} {j : Fin (seen.length + 1)},
      past.length = j → drawn k past = stream (k j) := by
    intro k past j h
    unfold drawn
    rw [dif_pos (by omega)]
    congr
  have key : ∀ k : Fin (seen.length + 1) → Fin 16 → Byte, Nonempty
      ({ρ : Fin M → Byte // KHappens env next secret (drawn k) [] (stream ρ) ps [] seen}
        ≃ {ρ : Fin M → Byte // KHappens env next secret' (drawn (Equiv.piCongrRight φ k)) [] (stream ρ) ps [] seen}) := by
    intro k
    refine Finite.card_eq.1 (C83_many_calls env hc next secret secret' (drawn k) (drawn (Equiv.piCongrRight φ k)) hperm hperm'
      seen hlen (fun past c h hn => ?_) ⟨(hl (fun _ _ => 0)).plain, fun past c h hn => ?_⟩ hp M hM ps)
    · obtain ⟨j, rfl, hj⟩ := hat past h
      rw [hdrawn _ hj, hdrawn _ hj]
      exact (hφ2 j c hn (k j)).symm
    · refine ((hl (fun _ _ => 0)).krawczyk past c h hn).imp (fun hs => ⟨hs.1, ?_⟩) id
      obtain ⟨j, rfl, hj⟩ := hat past ((List.prefix_append _ _).trans h)
      rw [hdrawn _ hj, hdrawn _ hj]
      show stream (k j) = stream (φ j (k j))
      rw [hφ1 j hs.1]
      rfl
  refine Nat.card_congr ?_
  refine (Equiv.subtypeProdEquivSigmaSubtype (fun (k : Fin (seen.length + 1) → Fin 16 → Byte) (ρ : Fin M → Byte) =>
    KHappens env next secret (drawn k) [] (stream ρ) ps [] seen)).trans ?_
  refine Equiv.trans ?_ (Equiv.subtypeProdEquivSigmaSubtype (fun (k : Fin (seen.length + 1) → Fin 16 → Byte) (ρ : Fin M → Byte) =>
    KHappens env next secret' (drawn k) [] (stream ρ) ps [] seen)).symm
  exact Equiv.sigmaCongr (Equiv.piCongrRight φ) fun k => (key k).some

/-! ## Non-vacuity -/

/-- krawczyk.Split 2-of-4; look at share 3; Split 2-of-3; look at its shares 0 and 1. -/
def exKNext (past : List Sight) : KMove :=
  match past.length with
  | 0 => .krawczyk ⟨4, 2, List.range 255⟩
  | 1 => .plain (.look 0 3)
  | 2 => .plain (.split ⟨false, 3, 2, List.range 255⟩)
  | 3 => .plain (.look 1 0)
  | _ => .plain (.look 1 1)

/-- The second secret is what was seen of the first (three bytes of it). -/
def exKSecret (first : List Byte) (past : List Sight) : List Byte :=
  if past.length = 0 then first else
    match past.getLast? with
    | some (.share w) => [w.getD 0 0, w.getD 20 0, w.getD 21 0]
    | _ => [1, 2, 3]

theorem exKNext_krawczyk {past : List Sight} {c : KAsk} (h : exKNext past = .krawczyk c) :
    past = [] ∧ c = ⟨4, 2, List.range 255⟩ := by
  unfold exKNext at h
  split at h <;> simp only [KMove.krawczyk.injEq, reduceCtorEq] at h
  rename_i h0
  exact ⟨List.length_eq_zero_iff.1 h0, h.symm⟩

theorem exKNext_split {past : List Sight} {a : Ask} (h : exKNext past = .plain (.split a)) :
    past.length = 2 ∧ a = ⟨false, 3, 2, List.range 255⟩ := by
  unfold exKNext at h
  split at h <;> simp only [KMove.plain.injEq, Move.split.injEq, reduceCtorEq] at h
  rename_i h0
  exact ⟨h0, h.symm⟩

theorem exKPerm {past : List Sight} {a : Ask} (h : exKNext past = .plain (.split a)) : a.perm.Perm (List.range 255) := by
  rw [(exKNext_split h).2]

theorem exKProper (seen : List Sight) : KProper exKNext seen := by
  have no : ∀ past r g, exKNext past ≠ .plain (.renew r g) := by
    intro past r g h
    unfold exKNext at h
    split at h <;> cases h
  exact ⟨fun _ _ _ _ _ _ _ h => absurd h (no _ _ _), fun _ _ _ _ _ _ _ _ => no _ _ _⟩

theorem exKLegal (s s' : List Byte) (key key' : List Sight → Nat → Byte) (seen : List Sight) :
    KLegal exKNext (exKSecret s) (exKSecret s') key key' seen := by
  constructor
  · intro past a _ hm
    left
    unfold exKSecret
    rw [if_neg (by rw [(exKNext_split hm).1]; decide), if_neg (by rw [(exKNext_split hm).1]; decide)]
  · intro past c _ hm
    obtain ⟨rfl, rfl⟩ := exKNext_krawczyk hm
    right
    have hsub : kKnown exKNext seen (sharings []) ⊆
        ({(fun o : Option Sight => match o with | some (.share w) => w | _ => []) seen[1]?} : Set (List Byte)) := by
      rintro w ⟨p, i, hp, hn⟩
      have hlen : p.length = 1 := by
        unfold exKNext at hn
        have hz : sharings [] = 0 := rfl
        rw [hz] at hn
        split at hn <;> simp_all
      obtain ⟨q, rfl⟩ := hp
      have : (p ++ [Sight.share w] ++ q)[1]? = some (.share w) := by
        rw [List.append_assoc, List.getElem?_append_right (by omega), hlen]
        rfl
      rw [this]
      rfl
    have h1 := Set.ncard_le_ncard hsub (Set.finite_singleton _)
    rw [Set.ncard_singleton] at h1
    show ((kKnown exKNext seen (sharings [])).ncard : Int) < 2
    omega

set_option maxRecDepth 8000 in
/-- Five sights that happen. -/
theorem exKHappens (key : List Sight → Nat → Byte) (rnd : Nat → Byte) (ps : Pools) : ∃ a b c,
    KHappens padEnv exKNext (exKSecret [5, 9]) key [] rnd ps [] [.made, .share a, .made, .share b, .share c] := by
  have h0 : kSplitError padEnv.lib (exKSecret [5, 9] []) 4 2 = none :=
    kSplitError_none.2 ⟨by decide, by decide, by decide, by simp [exKSecret], by simp [exKSecret], fun h => absurd h.1 (by decide)⟩
  obtain ⟨shares, md, q, h1, -⟩ := ksplit_none (env := padEnv) (s := exKSecret [5, 9] []) (parts := 4) (threshold := 2)
    exEnv_contract (κ := key []) (List.Perm.refl (List.range 255)) (rnd := rnd) (ps := ps) h0
  have hl : shares.length = 4 := by
    have := C36_split_format padEnv exEnv_contract _ _ _ _ _ (List.Perm.refl _) _ _ _ _ h1
    omega
  obtain ⟨w, hw⟩ : ∃ w, shares[3]? = some w := ⟨_, List.getElem?_eq_getElem (by omega)⟩
  have hs : exKSecret [5, 9] [.made, .share w] = [w.getD 0 0, w.getD 20 0, w.getD 21 0] := rfl
  obtain ⟨q', h2⟩ := run_ok padEnv.arch (a := ⟨false, 3, 2, List.range 255⟩) (s := exKSecret [5, 9] [.made, .share w])
    (fun j => rnd (40 + j)) q
    (argError_none.2 ⟨by decide, by decide, by decide, by rw [hs]; simp⟩)
    (exKPerm (past := [.made, .made]) rfl)
  have ht : Ask.tags ⟨false, 3, 2, List.range 255⟩ = [1, 2, 3] := by decide
  rw [ht] at h2
  exact ⟨w, _, _, shares, q, h1, hw, _, q', h2, rfl, rfl, trivial⟩

theorem exKBytes (s : List Byte) (hs : s.length ≤ 3) : ∀ (seen past : List Sight), kBytesRead exKNext (exKSecret s) past seen
    ≤ (if past.length = 0 then 40 else 0) + (if past.length ≤ 2 then 6 else 0)
  | [], _ => by simp [kBytesRead]
  | x :: seen, past => by
    have ih := exKBytes s hs seen (past ++ [x])
    have hlen : (exKSecret s past).length ≤ 3 := by
      unfold exKSecret
      split
      · exact hs
      · split <;> simp
    simp only [kBytesRead]
    simp only [List.length_append, List.length_singleton] at ih
    cases hm : exKNext past with
    | krawczyk c =>
      obtain ⟨rfl, rfl⟩ := exKNext_krawczyk hm
      cases x <;> simp [KAsk.reads] at ih ⊢ <;> omega
    | plain m =>
      cases m with
      | split a =>
        obtain ⟨hp, rfl⟩ := exKNext_split hm
        rw [hp] at ih ⊢
        cases x <;> simp [Ask.reads] at ih ⊢ <;> omega
      | _ =>
        rw [if_neg (by omega)] at ih
        simp only [Nat.zero_add]
        refine ih.trans ?_
        split_ifs <;> omega

/-- With a one-time pad for the block function the ciphertexts of two-byte secrets tell nothing. -/
theorem pad_perfect (a b a' b' : Byte) (ct : List Byte) :
    count (m := 16) (fun κ => encrypt padEnv [a, b] (keyOf (stream κ)) = ok ct)
      = count (m := 16) (fun κ => encrypt padEnv [a', b'] (keyOf (stream κ)) = ok ct) := by
  have hform : ∀ (a b : Byte) (κ : Fin 16 → Byte),
      encrypt padEnv [a, b] (keyOf (stream κ)) = ok [a ^^^ κ 0, b ^^^ κ 1] := by
    intro a b κ
    rw [encrypt_ok _ _ (Or.inl (length_keyOf _))]
    simp [padEnv, xorKs, keyStream, ofb, keyOf, stream, List.range_succ]
  let d : Fin 16 → Byte := fun i => if i = 0 then a ^^^ a' else if i = 1 then b ^^^ b' else 0
  have hx : ∀ a b : Byte, (a ^^^ b) ^^^ b = a := fun a b => by simp [BitVec.xor_assoc]
  let e : (Fin 16 → Byte) ≃ (Fin 16 → Byte) :=
    ⟨fun κ i => κ i ^^^ d i, fun κ i => κ i ^^^ d i, fun κ => by funext i; exact hx _ _, fun κ => by funext i; exact hx _ _⟩
  refine count_congr e fun κ => ?_
  rw [hform, hform]
  have hy : ∀ a a' y : Byte, a' ^^^ (y ^^^ (a ^^^ a')) = a ^^^ y := fun a a' y => by
    rw [BitVec.xor_comm a', BitVec.xor_comm a a', ← BitVec.xor_assoc, BitVec.xor_assoc, BitVec.xor_assoc,
      BitVec.xor_comm a a', ← BitVec.xor_assoc a', BitVec.xor_self, BitVec.zero_xor, BitVec.xor_comm]
  have h0 : a' ^^^ e κ 0 = a ^^^ κ 0 := hy _ _ _
  have h1 : b' ^^^ e κ 1 = b ^^^ κ 1 := hy _ _ _
  rw [h0, h1]

/-- C83: with a one-time pad for the block function, one share of a 2-of-4 krawczyk sharing, a part of which was split again and
made known, tells nothing about the secret; the sights considered do occur. -/
example : ∃ seen : List Sight, seen.length = 5 ∧
    0 < Nat.card {x : (Fin (seen.length + 1) → Fin 16 → Byte) × (Fin 46 → Byte) //
        KHappens padEnv exKNext (exKSecret [5, 9]) (drawn x.1) [] (stream x.2) (Pools.init 1) [] seen} ∧
    Nat.card {x : (Fin (seen.length + 1) → Fin 16 → Byte) × (Fin 46 → Byte) //
        KHappens padEnv exKNext (exKSecret [5, 9]) (drawn x.1) [] (stream x.2) (Pools.init 1) [] seen}
      = Nat.card {x : (Fin (seen.length + 1) → Fin 16 → Byte) × (Fin 46 → Byte) //
        KHappens padEnv exKNext (exKSecret [77, 0]) (drawn x.1) [] (stream x.2) (Pools.init 1) [] seen} := by
  obtain ⟨a, b, c, h⟩ := exKHappens (drawn (n := 6) fun j i => BitVec.ofNat 8 (16 * j + i)) (stream (m := 46) fun _ => 1) (Pools.init 1)
  refine ⟨[.made, .share a, .made, .share b, .share c], rfl, ?_, ?_⟩
  · exact @Nat.card_pos _ ⟨⟨(fun j i => BitVec.ofNat 8 (16 * j + i), fun _ => 1), h⟩⟩ inferInstance
  · refine C83_perfect padEnv exEnv_contract exKNext _ _ (fun p a h => ?_) (fun p c h => ?_) _ (fun p _ => ?_)
      (fun p c _ h ct => ?_) (fun key => exKLegal _ _ _ _ _) (exKProper _) 46 (exKBytes _ (by decide) _ _) _
    · rw [(exKNext_split h).2]
    · rw [(exKNext_krawczyk h).2]
    · unfold exKSecret
      split <;> rfl
    · rw [(exKNext_krawczyk h).1]
      exact pad_perfect 5 9 77 0 ct

/-- C83: and other keys than the drawn ones are possible: with some secret they lead to the same sights as often. -/
example : ∃ (secret' : List Sight → List Byte) (seen : List Sight),
    0 < count (m := 46) (fun ρ => KHappens padEnv exKNext secret' (fun _ _ => 200) [] (stream ρ) (Pools.init 1) [] seen) := by
  obtain ⟨a, b, c, h⟩ := exKHappens (fun _ j => BitVec.ofNat 8 j) (stream (m := 46) fun _ => 1) (Pools.init 1)
  obtain ⟨secret', -, -, hs⟩ := C83_every_key_possible padEnv exEnv_contract exKNext (exKSecret [5, 9])
    (fun _ j => BitVec.ofNat 8 j) (fun _ _ => 200) (fun p a h => by rw [(exKNext_split h).2])
    (fun p c h => by rw [(exKNext_krawczyk h).2])
  refine ⟨secret', [.made, .share a, .made, .share b, .share c], ?_⟩
  rw [← hs _ (fun p c h hm => ((exKLegal [5, 9] [7, 9] (fun _ j => BitVec.ofNat 8 j) (fun _ _ => 200) _).krawczyk p c h hm).imp (fun h => h.2) id)
    (exKProper _) 46 (exKBytes _ (by decide) _ _) _]
  exact @Nat.card_pos _ ⟨⟨_, h⟩⟩ inferInstance

end Verif.Props
