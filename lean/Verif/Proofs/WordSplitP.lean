import Verif.Model.WordSplitP
import Verif.Proofs.Word
import Verif.Proofs.SplitPTerm

namespace Verif.Proofs
open Verif Outcome Spec Shamir Heap
open Verif.Word (wrap)

theorem progForUp_panic {σ : Type} {n : Nat} (hn : 0 < n) (body : Nat → σ → Prog σ) (hb : ∀ i s, body i s = .panic) (s : σ) :
    Prog.forUp n body s = .panic := by
  induction n with
  | zero => omega
  | succ n ih =>
    show (Prog.forUp n body s).bind (body n) = .panic
    rcases Nat.eq_zero_or_pos n with rfl | h
    · show (Prog.ret s).bind (body 0) = _
      exact hb 0 s
    · rw [ih h]; rfl

theorem word_splitPSetup {w : Nat} (hw : 0 < w) (secret : Slice) (h : (secret.len : Int) + 1 < top w)
    (parts threshold : Int) (perm : List Nat) :
    Word.splitPSetup w secret parts threshold perm = splitPSetup secret parts threshold perm := by
  have e : wrap w (secret.len + 1) = secret.len + 1 := wrap_eq hw (by unfold top at *; omega) h
  unfold Word.splitPSetup splitPSetup
  have hn : ¬ (secret.len : Int) + 1 < 0 := by omega
  simp only [e, Word.allocInt, if_neg hn]
  rfl

theorem word_splitPSetup_panic {w : Nat} (hw : 0 < w) (secret : Slice) (h : (secret.len : Int) + 1 = top w)
    {parts threshold : Int} (hv : 2 ≤ threshold ∧ threshold ≤ parts ∧ parts ≤ 255 ∧ 0 < secret.len) (perm : List Nat) :
    Word.splitPSetup w secret parts threshold perm = .panic := by
  have e : wrap w (secret.len + 1) < 0 := wrap_neg hw (by omega) (by omega)
  unfold Word.splitPSetup checkP
  obtain ⟨h1, h2, h3, h4⟩ := hv
  rw [if_neg (by omega), if_neg (by omega), if_neg (by omega), if_neg (by omega), if_neg (by omega)]
  simp only [Word.allocInt, if_pos e]
  show (Prog.forUp _ _ _).bind _ = _
  rw [progForUp_panic (by omega) _ (fun _ _ => rfl)]
  rfl

theorem checkP_invalid {N : Nat} {parts threshold : Int} (hv : ¬ (2 ≤ threshold ∧ threshold ≤ parts ∧ parts ≤ 255 ∧ 0 < N))
    (k k' : Prog (Outcome (List Slice))) : checkP N parts threshold k = checkP N parts threshold k' := by
  unfold checkP
  split_ifs <;> first | rfl | omega

/-- A panicking call goes nowhere. -/
theorem stuck_reach {jobs : Unit → Job} {s s' : World Unit} (hm : (s.proc ()).main.prog = .panic)
    (hp : (s.proc ()).phase = .sequential) (hw : (s.proc ()).workers = []) (hr : WReach jobs s s') : s' = s := by
  induction hr with
  | refl => rfl
  | tail _ hst ih =>
    subst ih
    cases hst with
    | mk i σ' p' h =>
      exfalso
      cases i
      generalize jobs () = job at h
      generalize World.proc _ () = p at *
      cases h <;> simp_all
      all_goals (rename_i h; cases h)

end Verif.Proofs
