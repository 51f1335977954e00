import Verif.Model.Leak

/-! # The model with observations computes the same; its observations -/

namespace Verif.Leak
open Verif Outcome Galois Pool

@[simp] theorem out_bind {α β : Type} (x : Traced α) (f : α → Traced β) : (x >>= f).out = x.out >>= fun a => (f a).out := rfl
@[simp] theorem out_pure {α : Type} (a : α) : (pure a : Traced α).out = ok a := rfl
@[simp] theorem out_shows {α : Type} (e : Ev) (o : Outcome α) : (shows e o).out = o := rfl
@[simp] theorem out_quiet {α : Type} (o : Outcome α) : (quiet o).out = o := rfl
@[simp] theorem out_test (c : Prop) [Decidable c] : (test c).out = ok (decide c) := rfl
@[simp] theorem out_ite {α : Type} (c : Prop) [Decidable c] (x y : Traced α) :
    (if c then x else y).out = if c then x.out else y.out := apply_ite _ _ _ _
@[simp] theorem out_idx {α : Type} (l : List α) (i : Nat) : (idx l i).out = Verif.idx l i := rfl
@[simp] theorem out_setIdx {α : Type} (l : List α) (i : Nat) (v : α) : (setIdx l i v).out = Verif.setIdx l i v := rfl
@[simp] theorem out_slice {α : Type} (l : List α) (s e : Nat) : (slice l s e).out = Verif.slice l s e := rfl
@[simp] theorem out_copyInto (l m : List Byte) : (copyInto l m).out = ok (Verif.copyInto l m) := rfl

theorem out_iterUp {σ : Type} (n : Nat) (body : Nat → σ → Traced σ) (s : σ) :
    (iterUp n body s).out = Verif.forUp n (fun i s => (body i s).out) s := by
  induction n with
  | zero => rfl
  | succ n ih => simp only [iterUp, Verif.forUp, out_bind, ih]

theorem out_iterDown {σ : Type} (n : Nat) (body : Nat → σ → Traced σ) (s : σ) :
    (iterDown n body s).out = Verif.forDown n (fun i s => (body i s).out) s := by
  induction n generalizing s with
  | zero => rfl
  | succ n ih => simp only [iterDown, Verif.forDown, out_bind, ih]

@[simp] theorem out_forUp {σ : Type} (n : Nat) (body : Nat → σ → Traced σ) (s : σ) :
    (forUp n body s).out = Verif.forUp n (fun i s => (body i s).out) s := by
  rw [← out_iterUp]; rfl

@[simp] theorem out_forDown {σ : Type} (n : Nat) (body : Nat → σ → Traced σ) (s : σ) :
    (forDown n body s).out = Verif.forDown n (fun i s => (body i s).out) s := by
  rw [← out_iterDown]; rfl

@[simp] theorem out_div (a b : Byte) : (div a b).out = Shamir.div a b := by
  simp [div, Shamir.div]

@[simp] theorem out_mult (a b : Byte) : (mult a b).out = Shamir.mult a b := by
  simp [mult, Shamir.mult]

@[simp] theorem out_interpolatePolynomial (xs ys : List Byte) (x : Byte) :
    (interpolatePolynomial xs ys x).out = Shamir.interpolatePolynomial xs ys x := by
  simp [interpolatePolynomial, Shamir.interpolatePolynomial]

@[simp] theorem out_checkLengths (parts : List (List Byte)) (n : Nat) : (checkLengths parts n).out = Shamir.checkLengths parts n := by
  simp [checkLengths, Shamir.checkLengths]

@[simp] theorem out_collectTags (parts : List (List Byte)) (n : Nat) (xs : List Byte) :
    (collectTags parts n xs).out = Shamir.collectTags parts n xs := by
  simp [collectTags, Shamir.collectTags]

@[simp] theorem out_collectY (parts : List (List Byte)) (n : Nat) (xs : List Byte) :
    (collectY parts n xs).out = Shamir.collectY parts n xs := by
  simp [collectY, Shamir.collectY]

@[simp] theorem out_combine (parts : List (List Byte)) : (combine parts).out = Shamir.combine parts := by
  simp [combine, Shamir.combine]

@[simp] theorem out_mulTail (c : Byte) (d : Nat) (inp out : List Byte) : (mulTail c d inp out).out = Galois.mulTail c d inp out := by
  simp [mulTail, Galois.mulTail]

@[simp] theorem out_xorTail (d : Nat) (inp out : List Byte) : (xorTail d inp out).out = Galois.xorTail d inp out := by
  simp [xorTail, Galois.xorTail]

@[simp] theorem out_mulConstVectorAmd64 (cpu : Cpu) (c : Byte) (a : List Byte) :
    (mulConstVectorAmd64 cpu c a).out = Galois.mulConstVectorAmd64 cpu c a := by
  simp [mulConstVectorAmd64, Galois.mulConstVectorAmd64, mulConstVectorAmd64With, blocks]

@[simp] theorem out_addVectorAmd64 (cpu : Cpu) (a b : List Byte) :
    (addVectorAmd64 cpu a b).out = Galois.addVectorAmd64 cpu a b := by
  simp [addVectorAmd64, Galois.addVectorAmd64, addVectorAmd64With, blocks]

@[simp] theorem out_mulConstVectorArm64 (c : Byte) (a : List Byte) :
    (mulConstVectorArm64 c a).out = Galois.mulConstVectorArm64 c a := by
  simp [mulConstVectorArm64, Galois.mulConstVectorArm64, mulConstVectorArm64With, blocks]

@[simp] theorem out_addVectorArm64 (a b : List Byte) : (addVectorArm64 a b).out = Galois.addVectorArm64 a b := by
  simp [addVectorArm64, Galois.addVectorArm64, addVectorArm64With, blocks]

theorem out_addVectorBatchLoop (a b : List Byte) : (addVectorBatchLoop a b).out = Galois.addVectorBatchLoop a b := by
  induction a, b using Galois.addVectorBatchLoop.induct with
  | case1 a b h ih =>
    rw [addVectorBatchLoop, Galois.addVectorBatchLoop]
    simp [h, ih]
  | case2 a b h =>
    rw [addVectorBatchLoop, Galois.addVectorBatchLoop]
    simp [h]

@[simp] theorem out_addVectorGeneric (a b : List Byte) : (addVectorGeneric a b).out = Galois.addVectorGeneric a b := by
  simp [addVectorGeneric, Galois.addVectorGeneric, addVectorBatchGeneric, Galois.addVectorBatchGeneric, out_addVectorBatchLoop]

@[simp] theorem out_mulConstVectorGeneric (c : Byte) (a : List Byte) :
    (mulConstVectorGeneric c a).out = Galois.mulConstVectorGeneric c a := by
  simp [mulConstVectorGeneric, Galois.mulConstVectorGeneric]

@[simp] theorem out_mulConstVector (arch : Arch) (c : Byte) (a : List Byte) :
    (mulConstVector arch c a).out = Galois.mulConstVector arch c a := by
  cases arch <;> simp [mulConstVector, Galois.mulConstVector]

@[simp] theorem out_addVector (arch : Arch) (a b : List Byte) : (addVector arch a b).out = Galois.addVector arch a b := by
  cases arch <;> simp [addVector, Galois.addVector]

@[simp] theorem out_setIntercepts (i : List Byte) (d : Nat) (b : List Byte) : (setIntercepts i d b).out = Shamir.setIntercepts i d b := by
  simp [setIntercepts, Shamir.setIntercepts]

@[simp] theorem out_transposeMatrixBuffer (d s : List Byte) (n : Nat) :
    (transposeMatrixBuffer d s n).out = Shamir.transposeMatrixBuffer d s n := by
  simp [transposeMatrixBuffer, Shamir.transposeMatrixBuffer]

@[simp] theorem out_evaluate (arch : Arch) (b : List Byte) (n : Nat) (x : Byte) (out : List Byte) (pool : BytesBufferPool) :
    (evaluatePolynomialsAtWithCoefficientsBuffer arch b n x out pool).out
      = Shamir.evaluatePolynomialsAtWithCoefficientsBuffer arch b n x out pool := by
  simp [evaluatePolynomialsAtWithCoefficientsBuffer, Shamir.evaluatePolynomialsAtWithCoefficientsBuffer]

@[simp] theorem out_allocShares (n p : Nat) (xs : List Byte) : (allocShares n p xs).out = Shamir.allocShares n p xs := by
  simp [allocShares, Shamir.allocShares]

@[simp] theorem out_fillShares (arch : Arch) (b : List Byte) (n p : Nat) (xs : List Byte) (out : List (List Byte))
    (pool : BytesBufferPool) : (fillShares arch b n p xs out pool).out = Shamir.fillShares arch b n p xs out pool := by
  simp [fillShares, Shamir.fillShares]

@[simp] theorem out_split (arch : Arch) (secret : List Byte) (parts threshold : Int) (perm : List Nat) (rnd : Nat → Byte)
    (ps : Shamir.Pools) : (split arch secret parts threshold perm rnd ps).out = Shamir.split arch secret parts threshold perm rnd ps := by
  simp [split, Shamir.split, Shamir.makePolynomialsWithBuff]

end Verif.Leak
