import Verif.Model.Main
import Verif.Props.Sharing

/-! # C60: the program main.go -/

namespace Verif.Props
open Verif Outcome Galois Spec Proofs Shamir Main

/-! ## Sequencing -/

theorem run_ok {α β : Type} {p : Run α} {a : α} (h : p.res = ok a) (q : α → Run β) :
    (p >>= q) = ⟨p.out ++ (q a).out, (q a).res⟩ := by
  show Run.andThen p q = _
  unfold Run.andThen
  rw [h]

theorem run_orFatal {α β : Type} {o : Outcome α} {a : α} (h : o = ok a) (q : α → Run β) : (orFatal o >>= q) = q a := by
  rw [run_ok (p := orFatal o) h]; rfl

theorem run_fatal {α β : Type} {o : Outcome α} {e : Err} (h : o = err e) (q : α → Run β) :
    (orFatal o >>= q) = ⟨[], err e⟩ := by
  subst h; rfl

theorem run_print {β : Type} (l : Line) (q : Unit → Run β) : (print l >>= q) = ⟨l :: (q ()).out, (q ()).res⟩ := rfl

theorem splitCall_ok (arch : Arch) {draws : Nat → Draw} (hd : ∀ n, (draws n).perm.Perm (List.range 255))
    {msg : List Byte} {part threshold : Int} (hv : ValidArgs msg part threshold) (st : St) :
    ∃ shares st', splitCall arch draws msg part threshold st = ok (shares, st') ∧ combine shares = ok msg := by
  have h := C13_split_validates arch msg part threshold _ (hd st.calls) (draws st.calls).rnd st.ps
  rw [argError_none.2 hv] at h
  obtain ⟨⟨shares, ps'⟩, h⟩ := h
  refine ⟨shares, ⟨st.calls + 1, ps'⟩, by rw [splitCall, h]; rfl, ?_⟩
  refine C08_split_combine arch msg part threshold _ (hd st.calls) _ _ _ _ shares h (List.Subperm.refl _) ?_
  obtain ⟨-, -, hl⟩ := split_ok arch (hd st.calls) h
  have := hv.1
  omega

theorem splitCall_err (arch : Arch) {draws : Nat → Draw} (hd : ∀ n, (draws n).perm.Perm (List.range 255))
    {msg : List Byte} {part threshold : Int} {e : Err} (he : argError msg part threshold = some e) (st : St) :
    splitCall arch draws msg part threshold st = err e := by
  have h := C13_split_validates arch msg part threshold _ (hd st.calls) (draws st.calls).rnd st.ps
  rw [he] at h
  simp only [] at h
  rw [splitCall, h]; rfl

/-! ## checkSecretSharing -/

/-- C60: on arguments Split accepts, checkSecretSharing prints the message twice and goes on; on others the process ends
with the error of the first violated condition, and nothing is printed. -/
theorem C60_check (arch : Arch) (draws : Nat → Draw) (hd : ∀ n, (draws n).perm.Perm (List.range 255))
    (msg : List Byte) (part threshold : Int) (st : St) :
    match argError msg part threshold with
    | none => (checkSecretSharing arch draws msg part threshold st).out = [.text msg, .text msg] ∧
        ∃ st', (checkSecretSharing arch draws msg part threshold st).res = ok st'
    | some e => checkSecretSharing arch draws msg part threshold st = ⟨[], err e⟩ := by
  cases he : argError msg part threshold with
  | none =>
    obtain ⟨shares, st', h1, h2⟩ := splitCall_ok arch hd (argError_none.1 he) st
    simp only []
    unfold checkSecretSharing
    rw [run_orFatal h1]
    simp only []
    rw [run_orFatal h2]
    exact ⟨rfl, st', rfl⟩
  | some e =>
    simp only []
    unfold checkSecretSharing
    rw [run_fatal (splitCall_err arch hd he st)]

/-! ## The latency of Split -/

theorem splitLoop_ok (arch : Arch) {draws : Nat → Draw} (hd : ∀ n, (draws n).perm.Perm (List.range 255))
    {msg : List Byte} (hm : msg ≠ []) (n : Nat) (st : St) :
    ∃ st', forUp n (fun _ st => do
        let (_, st) ← splitCall arch draws msg 4 2 st
        pure st) st = ok st' := by
  induction n with
  | zero => exact ⟨st, rfl⟩
  | succ n ih =>
    obtain ⟨st', h⟩ := ih
    obtain ⟨sh, st'', h2, -⟩ := splitCall_ok arch hd (msg := msg) (part := 4) (threshold := 2)
      ⟨by omega, by omega, by omega, hm⟩ st'
    exact ⟨st'', by rw [forUp, h, ok_bind, h2]; rfl⟩

/-- The lengths reached by doubling: `J` of them are within the limit. -/
theorem doublings {len : Nat} (h0 : 0 < len) (max : Int) :
    ∃ J, ∀ j : Nat, j < J ↔ ((len * 2 ^ j : Nat) : Int) ≤ max := by
  have hex : ∃ j : Nat, max < ((len * 2 ^ j : Nat) : Int) := by
    refine ⟨max.toNat, ?_⟩
    have h1 : max.toNat < 2 ^ max.toNat := Nat.lt_two_pow_self
    have h2 : 2 ^ max.toNat ≤ len * 2 ^ max.toNat := Nat.le_mul_of_pos_left _ h0
    omega
  classical
  refine ⟨Nat.find hex, fun j => ⟨fun h => ?_, fun h => ?_⟩⟩
  · have := Nat.find_min hex h
    omega
  · by_contra c
    have hs := Nat.find_spec hex
    have hle : 2 ^ Nat.find hex ≤ 2 ^ j := Nat.pow_le_pow_right (by omega) (by omega)
    have := Nat.mul_le_mul_left len hle
    omega

theorem measure_run (arch : Arch) {draws : Nat → Draw} (hd : ∀ n, (draws n).perm.Perm (List.range 255))
    (max repetition : Int) : ∀ (J : Nat) (msg : List Byte) (fuel : Nat) (st : St), msg ≠ [] →
    (∀ j : Nat, j < J ↔ ((msg.length * 2 ^ j : Nat) : Int) ≤ max) → J < fuel →
    (measureSecretSharingLatency arch draws max repetition fuel msg st).out
      = (List.range J).map (fun j => .latency (msg.length * 2 ^ j)) ∧
    ∃ st', (measureSecretSharingLatency arch draws max repetition fuel msg st).res = ok st'
  | J, msg, 0, st, hm, hJ, hf => absurd hf (by omega)
  | 0, msg, fuel + 1, st, hm, hJ, hf => by
    have := (hJ 0).not.1 (by omega)
    rw [measureSecretSharingLatency, if_neg (by simpa using this)]
    exact ⟨rfl, st, rfl⟩
  | J + 1, msg, fuel + 1, st, hm, hJ, hf => by
    have := (hJ 0).1 (by omega)
    obtain ⟨st', hl⟩ := splitLoop_ok arch hd hm repetition.toNat st
    rw [measureSecretSharingLatency, if_pos (by simpa using this), run_orFatal hl, run_print]
    obtain ⟨h1, h2⟩ := measure_run arch hd max repetition J (msg ++ msg) fuel st' (by simp [hm])
      (fun j => by
        have := hJ (j + 1)
        rw [List.length_append, show (msg.length + msg.length) * 2 ^ j = msg.length * 2 ^ (j + 1) by ring]
        rw [← this]; omega) (by omega)
    refine ⟨?_, h2⟩
    simp only []
    rw [h1, List.range_succ_eq_map, List.map_cons, List.map_map]
    congr 1
    · simp
    · apply List.map_congr_left
      intro j _
      simp only [Function.comp, Line.latency.injEq, List.length_append, Nat.succ_eq_add_one]
      ring

/-- C60: for a non-empty message measureSecretSharingLatency ends and has printed a line for each of the lengths
`len(msg)`, `2*len(msg)`, `4*len(msg)`, ... that do not exceed the limit, in this order; with any number of repetitions. -/
theorem C60_measure_split (arch : Arch) (draws : Nat → Draw) (hd : ∀ n, (draws n).perm.Perm (List.range 255))
    (msg : List Byte) (hm : msg ≠ []) (max repetition : Int) (st : St) :
    ∃ J, (∀ j : Nat, j < J ↔ ((msg.length * 2 ^ j : Nat) : Int) ≤ max) ∧ ∀ fuel, J < fuel →
      (measureSecretSharingLatency arch draws max repetition fuel msg st).out
        = (List.range J).map (fun j => .latency (msg.length * 2 ^ j)) ∧
      ∃ st', (measureSecretSharingLatency arch draws max repetition fuel msg st).res = ok st' := by
  obtain ⟨J, hJ⟩ := doublings (List.length_pos_iff.2 hm) max
  exact ⟨J, hJ, fun fuel hf => measure_run arch hd max repetition J msg fuel st hm hJ hf⟩

/-- C60: for the empty message it ends the process with the error of Split, if there is anything to do. -/
theorem C60_measure_split_empty (arch : Arch) (draws : Nat → Draw) (hd : ∀ n, (draws n).perm.Perm (List.range 255))
    (max repetition : Int) (hmax : 0 ≤ max) (hr : 0 < repetition) (st : St) (fuel : Nat) :
    measureSecretSharingLatency arch draws max repetition (fuel + 1) [] st = ⟨[], err .emptySecret⟩ := by
  rw [measureSecretSharingLatency, if_pos (by simpa using hmax)]
  apply run_fatal
  obtain ⟨n, hn⟩ : ∃ n, repetition.toNat = n + 1 := ⟨repetition.toNat - 1, by omega⟩
  rw [hn]
  clear hn hr
  induction n with
  | zero =>
    rw [forUp, forUp, ok_bind, splitCall_err arch hd (e := .emptySecret) rfl st]; rfl
  | succ n ih => rw [forUp, ih]; rfl

/-- C60: without repetitions it prints the length 0 for ever. -/
theorem C60_measure_split_empty_spins (arch : Arch) (draws : Nat → Draw) (max repetition : Int) (hmax : 0 ≤ max)
    (hr : repetition ≤ 0) (st : St) (fuel : Nat) :
    measureSecretSharingLatency arch draws max repetition fuel [] st = ⟨List.replicate fuel (.latency 0), spin⟩ := by
  induction fuel with
  | zero => rfl
  | succ fuel ih =>
    rw [measureSecretSharingLatency, if_pos (by simpa using hmax), show repetition.toNat = 0 by omega,
      forUp, run_orFatal rfl, run_print, List.append_nil, ih]
    rfl

/-! ## The latency of encryption -/

theorem encryptLoop_ok {ivs : Nat → Option (List Byte)} (hiv : ∀ n, (ivs n).isSome) (msg : List Byte) (repetition : Int)
    (n : Nat) : encryptLoop ivs msg repetition n = ok (some (n + repetition.toNat)) := by
  unfold encryptLoop
  generalize repetition.toNat = r
  induction r with
  | zero => rfl
  | succ r ih =>
    obtain ⟨iv, hiv'⟩ := Option.isSome_iff_exists.1 (hiv (n + r))
    rw [forUp, ih]
    simp only [ok_bind]
    rw [slice_ok (by omega) (by simp), ok_bind, hiv']
    simp only []
    rw [slice_ok (by simp) (by omega), ok_bind, if_neg (by simp)]
    rfl

theorem encrypt_run {ivs : Nat → Option (List Byte)} (hiv : ∀ n, (ivs n).isSome)
    (max repetition : Int) : ∀ (J : Nat) (msg : List Byte) (fuel n : Nat),
    (∀ j : Nat, j < J ↔ ((msg.length * 2 ^ j : Nat) : Int) ≤ max) → J < fuel →
    encryptLengths ivs max repetition fuel msg n
      = ⟨(List.range J).map (fun j => .latency (msg.length * 2 ^ j)), ok ()⟩
  | J, msg, 0, n, hJ, hf => absurd hf (by omega)
  | 0, msg, fuel + 1, n, hJ, hf => by
    have := (hJ 0).not.1 (by omega)
    rw [encryptLengths, if_neg (by simpa using this)]
    rfl
  | J + 1, msg, fuel + 1, n, hJ, hf => by
    have := (hJ 0).1 (by omega)
    rw [encryptLengths, if_pos (by simpa using this), run_orFatal (encryptLoop_ok hiv msg repetition n)]
    simp only []
    rw [run_print, encrypt_run hiv max repetition J (msg ++ msg) fuel _
      (fun j => by
        have := hJ (j + 1)
        rw [List.length_append, show (msg.length + msg.length) * 2 ^ j = msg.length * 2 ^ (j + 1) by ring]
        rw [← this]; omega) (by omega)]
    simp only [Run.mk.injEq, and_true]
    rw [List.range_succ_eq_map, List.map_cons, List.map_map]
    congr 1
    · simp
    · apply List.map_congr_left
      intro j _
      simp only [Function.comp, Line.latency.injEq, List.length_append, Nat.succ_eq_add_one]
      ring

theorem mainKey (env : Krawczyk.Env) :
    Krawczyk.newCipher env (ascii "0123456789012345") = ok (env.aes (ascii "0123456789012345")) := by
  unfold Krawczyk.newCipher
  rw [if_pos (Or.inl (by decide))]

/-- C60: measureEncryptionLatency likewise, as long as the system's random source works. -/
theorem C60_measure_encryption (env : Krawczyk.Env) (ivs : Nat → Option (List Byte)) (hiv : ∀ n, (ivs n).isSome)
    (msg : List Byte) (hm : msg ≠ []) (max repetition : Int) :
    ∃ J, (∀ j : Nat, j < J ↔ ((msg.length * 2 ^ j : Nat) : Int) ≤ max) ∧ ∀ fuel, J < fuel →
      measureEncryptionLatency env ivs max repetition fuel msg
        = ⟨(List.range J).map (fun j => .latency (msg.length * 2 ^ j)), ok ()⟩ := by
  obtain ⟨J, hJ⟩ := doublings (List.length_pos_iff.2 hm) max
  refine ⟨J, hJ, fun fuel hf => ?_⟩
  unfold measureEncryptionLatency
  rw [run_orFatal (mainKey env)]
  exact encrypt_run hiv max repetition J msg fuel 0 hJ hf

/-- C60: with the empty message it never ends. -/
theorem C60_measure_encryption_empty_spins (env : Krawczyk.Env) (ivs : Nat → Option (List Byte))
    (hiv : ∀ n, (ivs n).isSome) (max repetition : Int) (hmax : 0 ≤ max) (fuel : Nat) :
    measureEncryptionLatency env ivs max repetition fuel [] = ⟨List.replicate fuel (.latency 0), spin⟩ := by
  unfold measureEncryptionLatency
  rw [run_orFatal (mainKey env)]
  suffices h : ∀ n, encryptLengths ivs max repetition fuel [] n = ⟨List.replicate fuel (.latency 0), spin⟩ from h 0
  intro n
  induction fuel generalizing n with
  | zero => rfl
  | succ fuel ih =>
    rw [encryptLengths, if_pos (by simpa using hmax), run_orFatal (encryptLoop_ok hiv [] repetition n)]
    simp only []
    rw [run_print, List.append_nil, ih]
    rfl

theorem encryptLoop_returns (ivs : Nat → Option (List Byte)) (msg : List Byte) (repetition : Int) (n : Nat) :
    ∃ r, encryptLoop ivs msg repetition n = ok r := by
  unfold encryptLoop
  generalize repetition.toNat = r
  induction r with
  | zero => exact ⟨_, rfl⟩
  | succ r ih =>
    obtain ⟨q, ih⟩ := ih
    rw [forUp, ih]
    simp only [ok_bind]
    cases q with
    | none => exact ⟨_, rfl⟩
    | some n' =>
      simp only []
      rw [slice_ok (by omega) (by simp), ok_bind]
      cases ivs n' with
      | none => exact ⟨_, rfl⟩
      | some iv =>
        simp only []
        rw [slice_ok (by simp) (by omega), ok_bind, if_neg (by simp)]
        exact ⟨_, rfl⟩

theorem encrypt_prefix (ivs : Nat → Option (List Byte)) (max repetition : Int) : ∀ (J : Nat) (msg : List Byte) (fuel n : Nat),
    (∀ j : Nat, j < J ↔ ((msg.length * 2 ^ j : Nat) : Int) ≤ max) → J < fuel →
    (encryptLengths ivs max repetition fuel msg n).out <+: (List.range J).map (fun j => .latency (msg.length * 2 ^ j)) ∧
    (encryptLengths ivs max repetition fuel msg n).res = ok ()
  | J, msg, 0, n, hJ, hf => absurd hf (by omega)
  | 0, msg, fuel + 1, n, hJ, hf => by
    have := (hJ 0).not.1 (by omega)
    rw [encryptLengths, if_neg (by simpa using this)]
    exact ⟨List.nil_prefix, rfl⟩
  | J + 1, msg, fuel + 1, n, hJ, hf => by
    have := (hJ 0).1 (by omega)
    obtain ⟨r, hr⟩ := encryptLoop_returns ivs msg repetition n
    rw [encryptLengths, if_pos (by simpa using this), run_orFatal hr]
    cases r with
    | none => exact ⟨List.nil_prefix, rfl⟩
    | some n' =>
      simp only []
      rw [run_print]
      obtain ⟨h1, h2⟩ := encrypt_prefix ivs max repetition J (msg ++ msg) fuel n'
        (fun j => by
          have := hJ (j + 1)
          rw [List.length_append, show (msg.length + msg.length) * 2 ^ j = msg.length * 2 ^ (j + 1) by ring]
          rw [← this]; omega) (by omega)
      refine ⟨?_, h2⟩
      rw [List.range_succ_eq_map, List.map_cons, List.map_map]
      simp only [pow_zero, mul_one, List.cons_prefix_cons, true_and]
      refine List.IsPrefix.trans h1 ?_
      rw [List.map_congr_left (g := (fun j => Line.latency (msg.length * 2 ^ j)) ∘ Nat.succ)]
      intro j _
      simp only [Function.comp, Line.latency.injEq, List.length_append, Nat.succ_eq_add_one]
      ring

/-- C60: when the system's random source fails, it stops without a message: the lines printed are the first of those above,
and the end is normal. -/
theorem C60_measure_encryption_silent (env : Krawczyk.Env) (ivs : Nat → Option (List Byte)) (msg : List Byte)
    (hm : msg ≠ []) (max repetition : Int) :
    ∃ J, (∀ j : Nat, j < J ↔ ((msg.length * 2 ^ j : Nat) : Int) ≤ max) ∧ ∀ fuel, J < fuel →
      (measureEncryptionLatency env ivs max repetition fuel msg).out
        <+: (List.range J).map (fun j => .latency (msg.length * 2 ^ j)) ∧
      (measureEncryptionLatency env ivs max repetition fuel msg).res = ok () := by
  obtain ⟨J, hJ⟩ := doublings (List.length_pos_iff.2 hm) max
  refine ⟨J, hJ, fun fuel hf => ?_⟩
  unfold measureEncryptionLatency
  rw [run_orFatal (mainKey env)]
  exact encrypt_prefix ivs max repetition J msg fuel 0 hJ hf

/-! ## main -/

/-- C60: the program prints its message twice, then the lengths 64, 128, ..., 32768 twice, and ends normally; on every
machine, with every outcome of the random number generators. -/
theorem C60_main (env : Krawczyk.Env) (draws : Nat → Draw) (hd : ∀ n, (draws n).perm.Perm (List.range 255))
    (ivs : Nat → Option (List Byte)) (hiv : ∀ n, (ivs n).isSome) (numCPU fuel : Nat) (hf : 10 < fuel) :
    Main.main env draws ivs numCPU fuel = ⟨
      [.text (ascii "A quick brown fox jumped over the lazy dog.aaaaaaaaaaaaaaaaaaaaa"),
       .text (ascii "A quick brown fox jumped over the lazy dog.aaaaaaaaaaaaaaaaaaaaa"),
       .latency 64, .latency 128, .latency 256, .latency 512, .latency 1024, .latency 2048, .latency 4096,
       .latency 8192, .latency 16384, .latency 32768,
       .latency 64, .latency 128, .latency 256, .latency 512, .latency 1024, .latency 2048, .latency 4096,
       .latency 8192, .latency 16384, .latency 32768], ok ()⟩ := by
  unfold Main.main
  obtain ⟨msg, hmsg⟩ : ∃ msg, msg = ascii "A quick brown fox jumped over the lazy dog.aaaaaaaaaaaaaaaaaaaaa" := ⟨_, rfl⟩
  have hlen : msg.length = 64 := by rw [hmsg]; decide
  have hne : msg ≠ [] := by intro c; rw [c] at hlen; cases hlen
  rw [← hmsg]
  have hJ : ∀ j : Nat, j < 10 ↔ ((msg.length * 2 ^ j : Nat) : Int) ≤ 32768 := by
    intro j
    rw [hlen]
    constructor
    · intro h
      have : 2 ^ j ≤ 2 ^ 9 := Nat.pow_le_pow_right (by omega) (by omega)
      omega
    · intro h
      by_contra c
      have : 2 ^ 10 ≤ 2 ^ j := Nat.pow_le_pow_right (by omega) (by omega)
      omega
  have hc := C60_check env.arch draws hd msg 4 2 ⟨0, Pools.init numCPU⟩
  rw [argError_none.2 ⟨by omega, by omega, by omega, hne⟩] at hc
  obtain ⟨o1, st1, r1⟩ := hc
  obtain ⟨o2, st2, r2⟩ := measure_run env.arch hd 32768 1000 10 msg fuel st1 hne hJ hf
  simp only []
  rw [run_ok r1, run_ok r2]
  unfold measureEncryptionLatency
  rw [run_orFatal (mainKey env), encrypt_run hiv 32768 1000 10 msg fuel 0 hJ hf, o1, o2, hlen]
  rfl

/-- C60: the bytes of the texts printed are the character codes of the string constants. -/
theorem C60_text (s : String) (h : ∀ c ∈ s.toList, c.toNat < 128) : (ascii s).map BitVec.toNat = s.toList.map Char.toNat := by
  unfold ascii
  rw [List.map_map]
  refine List.map_congr_left fun c hc => ?_
  have := h c hc
  simp only [Function.comp, BitVec.toNat_ofNat]
  omega

example : (ascii "A quick brown fox jumped over the lazy dog.aaaaaaaaaaaaaaaaaaaaa").map BitVec.toNat
    = "A quick brown fox jumped over the lazy dog.aaaaaaaaaaaaaaaaaaaaa".toList.map Char.toNat :=
  C60_text _ (by decide)

/-- C60: what was printed before a fatal error stays printed: when checkSecretSharing succeeds for one message and
measureSecretSharingLatency then gets the empty one, the first message has been printed twice. -/
theorem C60_fatal_keeps_output (arch : Arch) (draws : Nat → Draw) (hd : ∀ n, (draws n).perm.Perm (List.range 255))
    (msg : List Byte) (part threshold : Int) (hv : ValidArgs msg part threshold) (max repetition : Int) (hmax : 0 ≤ max)
    (hr : 0 < repetition) (st : St) (fuel : Nat) {β : Type} (rest : Unit → Run β) :
    ((do let st ← checkSecretSharing arch draws msg part threshold st
         let _ ← measureSecretSharingLatency arch draws max repetition (fuel + 1) [] st
         pure ()) >>= rest) = ⟨[.text msg, .text msg], err .emptySecret⟩ := by
  have hc := C60_check arch draws hd msg part threshold st
  rw [argError_none.2 hv] at hc
  obtain ⟨o1, st1, r1⟩ := hc
  rw [run_ok r1, C60_measure_split_empty arch draws hd max repetition hmax hr st1 fuel, o1]
  rfl

example (rest : Unit → Run Unit) : ((do
      let st ← checkSecretSharing .noasm (fun n => ⟨List.range 255, fun i => BitVec.ofNat 8 (n + i)⟩) [7, 8] 3 2 ⟨0, Pools.init 2⟩
      let _ ← measureSecretSharingLatency .noasm (fun n => ⟨List.range 255, fun i => BitVec.ofNat 8 (n + i)⟩) 10 5 3 [] st
      pure ()) >>= rest) = ⟨[.text [7, 8], .text [7, 8]], err .emptySecret⟩ :=
  C60_fatal_keeps_output .noasm (fun n => ⟨List.range 255, fun i => BitVec.ofNat 8 (n + i)⟩)
    (fun _ => by simp only [List.Perm.refl]) [7, 8] 3 2
    ⟨by decide, by decide, by decide, by simp⟩ 10 5 (by decide) (by decide) ⟨0, Pools.init 2⟩ 2 rest

def exDraws (n : Nat) : Draw := ⟨List.range 255, fun i => BitVec.ofNat 8 (n + i)⟩

theorem exDraws_perm (n : Nat) : (exDraws n).perm.Perm (List.range 255) := by
  simp only [exDraws, List.Perm.refl]

/-- The hypotheses of C60 can be met: fixed randomness; messages of three bytes up to 20 bytes: 3, 6, 12. -/
example : (measureSecretSharingLatency .noasm exDraws 20 5 4 [1, 2, 3]
    ⟨0, Pools.init 2⟩).out = [.latency 3, .latency 6, .latency 12] := by
  refine (measure_run .noasm exDraws_perm 20 5 3 [1, 2, 3] 4 _ (by simp) (fun j => ?_) (by omega)).1
  have e : ([1, 2, 3] : List Byte).length = 3 := rfl
  rw [e]
  constructor
  · intro h
    have : 2 ^ j ≤ 2 ^ 2 := Nat.pow_le_pow_right (by omega) (by omega)
    omega
  · intro h
    by_contra c
    have : 2 ^ 3 ≤ 2 ^ j := Nat.pow_le_pow_right (by omega) (by omega)
    omega

example : checkSecretSharing .noasm exDraws [1, 2, 3] 2 3
    ⟨0, Pools.init 2⟩ = ⟨[], err .partsLtThreshold⟩ :=
  C60_check .noasm exDraws exDraws_perm [1, 2, 3] 2 3 _

/-- Four bytes, limit 7, any number of repetitions: one line. -/
example (arch : Arch) (n : Int) : (measureSecretSharingLatency arch exDraws 7 n 5 [1, 2, 3, 4] ⟨0, Pools.init 2⟩).out = [.latency 4] := by
  obtain ⟨J, hJ, h⟩ := C60_measure_split arch exDraws exDraws_perm [1, 2, 3, 4] (by simp) 7 n ⟨0, Pools.init 2⟩
  have h0 : 0 < J := (hJ 0).2 (by decide)
  have h1 : ¬ 1 < J := fun c => absurd ((hJ 1).1 c) (by decide)
  obtain rfl : J = 1 := by omega
  exact (h 5 (by omega)).1

example (fuel : Nat) : measureSecretSharingLatency .noasm exDraws 32768 100 (fuel + 1) [] ⟨0, Pools.init 2⟩ = ⟨[], err .emptySecret⟩ :=
  C60_measure_split_empty .noasm exDraws exDraws_perm 32768 100 (by decide) (by decide) _ fuel

example : measureSecretSharingLatency .noasm exDraws 32768 0 3 [] ⟨0, Pools.init 2⟩ = ⟨[.latency 0, .latency 0, .latency 0], spin⟩ :=
  C60_measure_split_empty_spins .noasm exDraws 32768 0 (by decide) (by decide) _ 3

/-- A random source that works, and one that fails at the third read. -/
example (env : Krawczyk.Env) :
    (measureEncryptionLatency env (fun _ => some (List.replicate 16 0)) 9 3 5 [1, 2, 3, 4]) = ⟨[.latency 4, .latency 8], ok ()⟩ ∧
    (measureEncryptionLatency env (fun n => if n < 2 then some (List.replicate 16 0) else none) 9 3 5 [1, 2, 3, 4]).res = ok () ∧
    (measureEncryptionLatency env (fun n => if n < 2 then some (List.replicate 16 0) else none) 9 3 5 [1, 2, 3, 4]).out
      <+: [.latency 4, .latency 8] ∧
    measureEncryptionLatency env (fun _ => some (List.replicate 16 0)) 9 3 2 [] = ⟨[.latency 0, .latency 0], spin⟩ := by
  have key : ∀ J, (∀ j : Nat, j < J ↔ ((([1, 2, 3, 4] : List Byte).length * 2 ^ j : Nat) : Int) ≤ 9) → J = 2 := by
    intro J hJ
    have h1 : 1 < J := (hJ 1).2 (by decide)
    have h2 : ¬ 2 < J := fun c => absurd ((hJ 2).1 c) (by decide)
    omega
  refine ⟨?_, ?_, ?_, C60_measure_encryption_empty_spins env _ (fun _ => rfl) 9 3 (by decide) 2⟩
  · obtain ⟨J, hJ, h⟩ := C60_measure_encryption env (fun _ => some (List.replicate 16 0)) (fun _ => rfl) [1, 2, 3, 4] (by simp) 9 3
    obtain rfl := key J hJ
    exact h 5 (by omega)
  · obtain ⟨J, hJ, h⟩ := C60_measure_encryption_silent env (fun n => if n < 2 then some (List.replicate 16 0) else none)
      [1, 2, 3, 4] (by simp) 9 3
    obtain rfl := key J hJ
    exact (h 5 (by omega)).2
  · obtain ⟨J, hJ, h⟩ := C60_measure_encryption_silent env (fun n => if n < 2 then some (List.replicate 16 0) else none)
      [1, 2, 3, 4] (by simp) 9 3
    obtain rfl := key J hJ
    exact (h 5 (by omega)).1

/-- The whole program, with fixed randomness. -/
example (env : Krawczyk.Env) : (Main.main env exDraws (fun n => some (List.replicate 16 (BitVec.ofNat 8 n))) 4 11).res = ok () := by
  rw [C60_main env exDraws exDraws_perm _ (fun _ => rfl) 4 11 (by decide)]

end Verif.Props
