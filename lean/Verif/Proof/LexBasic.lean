import Verif.Spec.Lexical

/-!
# Symbolic execution of the tokenizer: states and the primitive steps
-/

namespace Pbrt.Proof
open Pbrt.Spec

variable {F : Type}

/-- The tokenizer state after reading `pre` with `cs` still to be read. -/
def St (pre cs : List Char) : Tokenizer where
  chars := pre ++ cs
  index := pre.length
  pos := posOf pre
  prevPos := posOf pre.dropLast

theorem posOf_nil : posOf [] = ⟨1, 1⟩ := rfl

theorem posOf_snoc (pre : List Char) (c : Char) :
    posOf (pre ++ [c]) =
      if c = '\n' then ⟨(posOf pre).r + 1, 1⟩ else ⟨(posOf pre).r, (posOf pre).c + 1⟩ := by
  unfold posOf
  by_cases h : c = '\n'
  · subst h; simp [List.count_append]; omega
  · simp [List.count_append, h]; omega

theorem new_eq (input : List Char) : Tokenizer.new input = St [] (replaceCrlf input) := rfl

theorem isEmpty_St (pre cs : List Char) : (St pre cs).isEmpty = cs.isEmpty := by
  cases cs <;> simp [Tokenizer.isEmpty, St]

theorem getElem_St (pre : List Char) (c : Char) (cs : List Char) :
    (St pre (c :: cs)).chars[(St pre (c :: cs)).index]? = some c := by
  simp [St]

@[simp] theorem tkPeek_nil (pre : List Char) : tkPeek (St pre []) = (.err .Eof, St pre []) := by
  simp [tkPeek, isEmpty_St]

@[simp] theorem tkPeek_cons (pre : List Char) (c : Char) (cs : List Char) :
    tkPeek (St pre (c :: cs)) = (.ok c, St pre (c :: cs)) := by
  simp [tkPeek, isEmpty_St, getElem_St]

@[simp] theorem tkNext_nil (pre : List Char) : tkNext (St pre []) = (.err .Eof, St pre []) := by
  simp [tkNext, isEmpty_St]

@[simp] theorem tkNext_cons (pre : List Char) (c : Char) (cs : List Char) :
    tkNext (St pre (c :: cs)) = (.ok c, St (pre ++ [c]) cs) := by
  simp only [tkNext, isEmpty_St, getElem_St]
  simp [St, posOf_snoc]

@[simp] theorem tkPos_St (pre cs : List Char) : tkPos (St pre cs) = (.ok (posOf pre), St pre cs) :=
  rfl

@[simp] theorem tkPrevPos_St (pre cs : List Char) :
    tkPrevPos (St pre cs) = (.ok (posOf pre.dropLast), St pre cs) := rfl

/-! ### Monad steps -/
section
variable {σ ε α β : Type}

theorem bind_ok {x : M σ ε α} {f : α → M σ ε β} {s s' : σ} {a : α} (h : x s = (.ok a, s')) :
    (x >>= f) s = f a s' := by
  rw [M.bind_apply, h]

theorem bind_err {x : M σ ε α} {f : α → M σ ε β} {s s' : σ} {e : ε} (h : x s = (.err e, s')) :
    (x >>= f) s = (.err e, s') := by
  rw [M.bind_apply, h]

theorem bind_panic {x : M σ ε α} {f : α → M σ ε β} {s s' : σ} (h : x s = (.panic, s')) :
    (x >>= f) s = (.panic, s') := by
  rw [M.bind_apply, h]

theorem bind_diverge {x : M σ ε α} {f : α → M σ ε β} {s s' : σ} (h : x s = (.diverge, s')) :
    (x >>= f) s = (.diverge, s') := by
  rw [M.bind_apply, h]

theorem attempt_ok {x : M σ ε α} {s s' : σ} {a : α} (h : x s = (.ok a, s')) :
    M.attempt x s = (.ok (.ok a), s') := by
  rw [M.attempt_apply, h]

theorem attempt_err {x : M σ ε α} {s s' : σ} {e : ε} (h : x s = (.err e, s')) :
    M.attempt x s = (.ok (.error e), s') := by
  rw [M.attempt_apply, h]

theorem attempt_panic {x : M σ ε α} {s s' : σ} (h : x s = (.panic, s')) :
    M.attempt x s = (.panic, s') := by
  rw [M.attempt_apply, h]

theorem attempt_diverge {x : M σ ε α} {s s' : σ} (h : x s = (.diverge, s')) :
    M.attempt x s = (.diverge, s') := by
  rw [M.attempt_apply, h]

end

/-! ### Splitting a text at the end of a run of characters -/

theorem span_exists (p : Char → Bool) (cs : List Char) :
    ∃ a b, cs = a ++ b ∧ (∀ c ∈ a, p c = true) ∧ (∀ c, b.head? = some c → p c = false) := by
  induction cs with
  | nil => exact ⟨[], [], rfl, by simp, by simp⟩
  | cons c cs ih =>
    by_cases h : p c = true
    · obtain ⟨a, b, rfl, ha, hb⟩ := ih
      refine ⟨c :: a, b, rfl, ?_, hb⟩
      intro d hd
      rcases List.mem_cons.1 hd with rfl | hd
      · exact h
      · exact ha d hd
    · refine ⟨[], c :: cs, rfl, by simp, ?_⟩
      intro d hd
      simp at hd
      subst hd
      simpa using h

end Pbrt.Proof
