/-!
# Outcomes and state-passing computations

The Rust code of `/repo/src/parser.rs` is written with `&mut self` methods returning
`Result<_, _>`.  A method becomes a function from the state before to an outcome and the state
after.  Besides `Ok` and `Err` there are two more outcomes: `panic` (a failed index, a failed
`assert!`, or an arithmetic overflow with overflow checks on) and `diverge` (the fuel of a loop
or of a recursion ran out; that this never happens is a theorem, C01).
-/

namespace Pbrt

/-- Outcome of a Rust function returning `Result<α, ε>`. -/
inductive Res (ε α : Type) where
  | ok (a : α)
  | err (e : ε)
  | panic
  | diverge
deriving DecidableEq

/-- A method with `&mut self` (`self : σ`) returning `Result<α, ε>`. -/
def M (σ ε α : Type) : Type := σ → Res ε α × σ

namespace M
variable {σ ε α β : Type}

/-- `Ok(a)` -/
protected def pure (a : α) : M σ ε α := fun s => (.ok a, s)

/-- The `?` operator: continue on `Ok`, stop with the same outcome otherwise.  The state is kept
    on errors, because callers of the parser may swallow an error and go on. -/
protected def bind (x : M σ ε α) (f : α → M σ ε β) : M σ ε β := fun s =>
  match x s with
  | (.ok a, s') => f a s'
  | (.err e, s') => (.err e, s')
  | (.panic, s') => (.panic, s')
  | (.diverge, s') => (.diverge, s')

instance : Monad (M σ ε) where
  pure := M.pure
  bind := M.bind

/-- `return Err(e)` -/
def throw (e : ε) : M σ ε α := fun s => (.err e, s)
/-- A panic. -/
def panic : M σ ε α := fun s => (.panic, s)
/-- Out of fuel. -/
def diverge : M σ ε α := fun s => (.diverge, s)
/-- Inspect the `Result` of a call without leaving the function (`match self.f() { Ok.. Err.. }`,
    `let _ = self.f();`, `self.f().is_ok()`).  Panics are not caught. -/
def attempt (x : M σ ε α) : M σ ε (Except ε α) := fun s =>
  match x s with
  | (.ok a, s') => (.ok (.ok a), s')
  | (.err e, s') => (.ok (.error e), s')
  | (.panic, s') => (.panic, s')
  | (.diverge, s') => (.diverge, s')
/-- Read `self`. -/
def get : M σ ε σ := fun s => (.ok s, s)
/-- Write `self`. -/
def set (s : σ) : M σ ε Unit := fun _ => (.ok (), s)

theorem pure_apply (a : α) (s : σ) : (pure a : M σ ε α) s = (.ok a, s) := rfl
theorem throw_apply (e : ε) (s : σ) : (throw e : M σ ε α) s = (.err e, s) := rfl
theorem panic_apply (s : σ) : (panic : M σ ε α) s = (.panic, s) := rfl
theorem diverge_apply (s : σ) : (diverge : M σ ε α) s = (.diverge, s) := rfl
theorem get_apply (s : σ) : (get : M σ ε σ) s = (.ok s, s) := rfl
theorem set_apply (s t : σ) : (set t : M σ ε Unit) s = (.ok (), t) := rfl
theorem bind_apply (x : M σ ε α) (f : α → M σ ε β) (s : σ) :
    (x >>= f) s = match x s with
      | (.ok a, s') => f a s'
      | (.err e, s') => (.err e, s')
      | (.panic, s') => (.panic, s')
      | (.diverge, s') => (.diverge, s') := rfl
theorem attempt_apply (x : M σ ε α) (s : σ) :
    (attempt x) s = match x s with
      | (.ok a, s') => (.ok (.ok a), s')
      | (.err e, s') => (.ok (.error e), s')
      | (.panic, s') => (.panic, s')
      | (.diverge, s') => (.diverge, s') := rfl
end M

end Pbrt
