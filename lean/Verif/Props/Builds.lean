import Verif.Props.Krawczyk

/-! # C47, C21 for the krawczyk and worker packages -/

namespace Verif.Props
open Verif Outcome Galois Spec Proofs Csprng RS Krawczyk

/-- The same program on a machine with another CPU, where `io.Copy` cuts the streams in another way. -/
def onMachine (env : Env) (arch : Arch) (enc dec : Chunking) : Env :=
  { env with arch := arch, encChunks := enc, decChunks := dec }

theorem encode_on (env : Env) (arch : Arch) (enc dec : Chunking) (secret key : List Byte) (parts threshold : Int) :
    encode (onMachine env arch enc dec) secret key parts threshold = encode env secret key parts threshold := by
  unfold encode
  rw [(C41_chunking_irrelevant env (onMachine env arch enc dec) rfl secret key).1]
  rfl

theorem map_bind_congr {α β γ δ : Type} {g : β → δ} {x y : Outcome (α × β)} (f : α → Outcome γ)
    (h : (fun z => (z.1, g z.2)) <$> x = (fun z => (z.1, g z.2)) <$> y) :
    ((fun z : γ × β => (z.1, g z.2)) <$> (x >>= fun z => f z.1 >>= fun r => ok (r, z.2)))
      = ((fun z : γ × β => (z.1, g z.2)) <$> (y >>= fun z => f z.1 >>= fun r => ok (r, z.2))) := by
  cases x with
  | ok a =>
    cases y with
    | ok b =>
      have h := Outcome.ok.inj h
      simp only [Prod.mk.injEq] at h
      simp only [ok_bind]
      rw [h.1]
      cases f b.1 with
      | ok c => exact congrArg (fun u => ok (c, u)) h.2
      | _ => rfl
    | _ => cases h
  | _ => cases y <;> cases h <;> rfl

theorem fst_of_pair {α β : Type} {x y : Outcome (α × β)} (h : (fun z => (z.1, ())) <$> x = (fun z => (z.1, ())) <$> y) :
    (Prod.fst <$> x) = (Prod.fst <$> y) := by
  cases x with
  | ok a =>
    cases y with
    | ok b => exact congrArg ok (Prod.mk.inj (Outcome.ok.inj h)).1
    | _ => cases h
  | _ => cases y <;> cases h <;> rfl

theorem pair_of_fst {α β : Type} {x y : Outcome (α × β)} (h : (Prod.fst <$> x) = (Prod.fst <$> y)) :
    (fun z => (z.1, ())) <$> x = (fun z => (z.1, ())) <$> y := by
  cases x with
  | ok a =>
    cases y with
    | ok b => exact congrArg (fun u => ok (u, ())) (Outcome.ok.inj h)
    | _ => cases h
  | _ => cases y <;> cases h <;> rfl

/-- krawczyk.Split gives the same shares on every CPU, however `io.Copy` cuts the streams, and whatever the recycled buffers
contain. -/
theorem C21_C47_krawczyk_deterministic (env : Env) (arch : Arch) (enc dec : Chunking) (secret : List Byte)
    (parts threshold : Int) (keyRnd : Nat → Byte) (perm : List Nat) (hperm : perm.Perm (List.range 255)) (rnd : Nat → Byte)
    (ps ps' : Shamir.Pools) :
    (Prod.fst <$> Krawczyk.split env secret parts threshold keyRnd perm rnd ps)
      = (Prod.fst <$> Krawczyk.split (onMachine env arch enc dec) secret parts threshold keyRnd perm rnd ps') := by
  unfold Krawczyk.split
  simp only [encode_on]
  cases checkArgs secret.length parts threshold with
  | ok u =>
    simp only [ok_bind]
    cases encode env secret (Shamir.randRead keyRnd 0 (List.replicate 16 0)) parts threshold with
    | ok x =>
      exact fst_of_pair (map_bind_congr (g := fun _ => ()) (fun ss => assemble parts.toNat x.2 ss) (pair_of_fst
        (C21_C47_split_deterministic env.arch arch
          (keyLenPair (Shamir.randRead keyRnd 0 (List.replicate 16 0)) x.1) parts threshold perm hperm rnd ps ps')))
    | err e => simp only [err_bind]
    | panic => simp only [panic_bind]
    | corrupt => simp only [corrupt_bind]
    | spin => simp only [spin_bind]
  | err e => simp only [err_bind]
  | panic => simp only [panic_bind]
  | corrupt => simp only [corrupt_bind]
  | spin => simp only [spin_bind]

/-- krawczyk.SplitWithRandomizer: the same shares and the same recycled buffers for later calls (the shares do depend on the
buffer it receives). -/
theorem C47_krawczyk_splitWithRandomizer (env : Env) (arch : Arch) (enc dec : Chunking) (fuel : Nat) (secret : List Byte)
    (parts threshold : Int) (r : CSPRNG) (ps ps' : Shamir.Pools) (hb : ps.bPool = ps'.bPool) :
    ((fun x => (x.1, x.2.bPool)) <$> Krawczyk.splitWithRandomizer env fuel secret parts threshold r ps)
      = ((fun x => (x.1, x.2.bPool)) <$>
          Krawczyk.splitWithRandomizer (onMachine env arch enc dec) fuel secret parts threshold r ps') := by
  unfold Krawczyk.splitWithRandomizer
  simp only [encode_on]
  cases checkArgs secret.length parts threshold with
  | ok u =>
    simp only [ok_bind]
    cases encode env secret (r.read (List.replicate 16 0)) parts threshold with
    | ok x =>
      exact map_bind_congr (g := fun p : Shamir.Pools => p.bPool) (fun ss => assemble parts.toNat x.2 ss)
        (C47_splitWithRandomizer_arch env.arch arch fuel (keyLenPair (r.read (List.replicate 16 0)) x.1) parts threshold r ps
          ps' hb)
    | err e => simp only [err_bind]
    | panic => simp only [panic_bind]
    | corrupt => simp only [corrupt_bind]
    | spin => simp only [spin_bind]
  | err e => simp only [err_bind]
  | panic => simp only [panic_bind]
  | corrupt => simp only [corrupt_bind]
  | spin => simp only [spin_bind]

/-- krawczyk.Combine depends neither on the CPU nor on how streams are cut. -/
theorem C47_krawczyk_combine (env : Env) (arch : Arch) (enc dec : Chunking) (ssData : List (Option (List Byte)))
    (parts threshold : Int) :
    Krawczyk.combine env ssData parts threshold = Krawczyk.combine (onMachine env arch enc dec) ssData parts threshold := by
  have hd : ∀ m key, decrypt (onMachine env arch enc dec) m key = decrypt env m key := fun m key =>
    (C41_chunking_irrelevant env (onMachine env arch enc dec) rfl m key).2
  unfold Krawczyk.combine
  simp only [hd]
  rfl

/-- Worker.Split and Worker.Combine. -/
theorem C47_worker (env : Env) (arch : Arch) (enc dec : Chunking) (fuel : Nat) (w : Worker.Worker) (alg : String)
    (input : List Byte) (n k : Int) (ps ps' : Shamir.Pools) (hb : ps.bPool = ps'.bPool) (ssData : List (Option (List Byte))) :
    ((fun x => (x.1, x.2.bPool)) <$> w.split env fuel alg input n k ps)
      = ((fun x => (x.1, x.2.bPool)) <$> w.split (onMachine env arch enc dec) fuel alg input n k ps') ∧
    w.combine env alg ssData n k = w.combine (onMachine env arch enc dec) alg ssData n k := by
  unfold Worker.Worker.split Worker.Worker.combine
  constructor
  · split_ifs
    · rfl
    · exact C47_splitWithRandomizer_arch env.arch arch fuel input n k w.r ps ps' hb
    · exact C47_krawczyk_splitWithRandomizer env arch enc dec fuel input n k w.r ps ps' hb
  · split_ifs
    · rfl
    · rfl
    · exact C47_krawczyk_combine env arch enc dec ssData n k

/-- The shares of a call on the pure Go build, made again on amd64 with AVX2, streams cut the other way round, and used
buffers in the pools. -/
example (ps : Shamir.Pools) : ∃ shares ps1 ps2,
    Krawczyk.split exEnv [1, 2, 3, 4, 5] 5 3 (fun i => BitVec.ofNat 8 (3 * i)) (List.range 255)
      (fun i => BitVec.ofNat 8 (7 * i + 1)) (Shamir.Pools.init 4) = ok (shares, ps1) ∧
    Krawczyk.split (onMachine exEnv (.amd64 ⟨true, true, true⟩) exEnv.decChunks exEnv.encChunks) [1, 2, 3, 4, 5] 5 3
      (fun i => BitVec.ofNat 8 (3 * i)) (List.range 255) (fun i => BitVec.ofNat 8 (7 * i + 1)) ps = ok (shares, ps2) := by
  obtain ⟨shares, ps1, h⟩ := ex_split
  have e := C21_C47_krawczyk_deterministic exEnv (.amd64 ⟨true, true, true⟩) exEnv.decChunks exEnv.encChunks [1, 2, 3, 4, 5] 5 3
    (fun i => BitVec.ofNat 8 (3 * i)) (List.range 255) (List.Perm.refl _) (fun i => BitVec.ofNat 8 (7 * i + 1))
    (Shamir.Pools.init 4) ps
  rw [h] at e
  generalize hx : Krawczyk.split (onMachine _ _ _ _) _ _ _ _ _ _ _ = x at e
  cases x with
  | ok y => exact ⟨shares, ps1, y.2, h, by rw [show shares = y.1 from Outcome.ok.inj e]⟩
  | _ => cases e

end Verif.Props
