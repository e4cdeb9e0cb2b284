import Verif.Lemmas.Np

/-!
# Python code that mutates state

`PyS σ α`: a computation that reads and updates a state and may raise; the state survives
the exception (as in Python).
-/

namespace Calk

def PyS (σ α : Type) : Type := σ → Py α × σ

namespace PyS
variable {σ α β : Type}

protected def pure (a : α) : PyS σ α := fun s => (.ok a, s)
protected def bind (x : PyS σ α) (f : α → PyS σ β) : PyS σ β := fun s =>
  match x s with
  | (.ok a, s') => f a s'
  | (.error e, s') => (.error e, s')

instance : Monad (PyS σ) where
  pure := PyS.pure
  bind := PyS.bind

/-- a call that does not touch the state -/
def lift (x : Py α) : PyS σ α := fun s => (x, s)
def get : PyS σ σ := fun s => (.ok s, s)
def set (s : σ) : PyS σ Unit := fun _ => (.ok (), s)
def raise (e : PyErr) : PyS σ α := fun s => (.error e, s)
/-- `try: x except Exception: h` (state changes made by `x` persist). -/
def tryCatch (x : PyS σ α) (h : PyErr → PyS σ α) : PyS σ α := fun s =>
  match x s with
  | (.ok a, s') => (.ok a, s')
  | (.error e, s') => h e s'

@[simp] theorem pure_apply (a : α) (s : σ) : (pure a : PyS σ α) s = (.ok a, s) := rfl
theorem bind_apply (x : PyS σ α) (f : α → PyS σ β) (s : σ) :
    (x >>= f) s = match x s with
      | (.ok a, s') => f a s'
      | (.error e, s') => (.error e, s') := rfl
@[simp] theorem lift_apply (x : Py α) (s : σ) : (lift x : PyS σ α) s = (x, s) := rfl
@[simp] theorem get_apply (s : σ) : (get : PyS σ σ) s = (.ok s, s) := rfl
@[simp] theorem set_apply (s s' : σ) : (set s' : PyS σ Unit) s = (.ok (), s') := rfl
@[simp] theorem raise_apply (e : PyErr) (s : σ) : (raise e : PyS σ α) s = (.error e, s) := rfl

theorem bind_of_ok {x : PyS σ α} {f : α → PyS σ β} {s s' : σ} {a : α} (h : x s = (.ok a, s')) :
    (x >>= f) s = f a s' := by rw [bind_apply, h]
theorem bind_of_error {x : PyS σ α} {f : α → PyS σ β} {s s' : σ} {e : PyErr}
    (h : x s = (.error e, s')) : (x >>= f) s = (.error e, s') := by rw [bind_apply, h]

end PyS

/-! ## The optimiser -/

/-- What is used of `scipy.optimize.OptimizeResult`: the solution and the residuals there. -/
structure LsqResult (X : Type) where
  x : X
  fun_ : List Flt

/-- `scipy.optimize.least_squares` as an arbitrary adaptive strategy: looking at the start
point and the residuals obtained so far it asks for a residual at another point, or stops with
a result (or raises). -/
structure Lsq (X : Type) where
  next : X → List (X × List Flt) → Option X
  finish : X → List (X × List Flt) → Py (LsqResult X)
  maxEval : ℕ

/-- Run a strategy against a residual function that may mutate state and may raise. -/
def Lsq.loop {X σ : Type} (opt : Lsq X) (f : X → PyS σ (List Flt)) (x0 : X) :
    ℕ → List (X × List Flt) → PyS σ (LsqResult X)
  | 0, hist => fun s => (opt.finish x0 hist, s)
  | n + 1, hist => fun s =>
    match opt.next x0 hist with
    | none => (opt.finish x0 hist, s)
    | some x =>
      match f x s with
      | (.ok r, s') => Lsq.loop opt f x0 n (hist ++ [(x, r)]) s'
      | (.error e, s') => (.error e, s')

def Lsq.run {X σ : Type} (opt : Lsq X) (f : X → PyS σ (List Flt)) (x0 : X) :
    PyS σ (LsqResult X) := opt.loop f x0 opt.maxEval []

/-- A least-squares routine applied to a residual function without side effects.  In the model
of `solve_emf` this is an arbitrary function. -/
abbrev LsFun (X : Type) := (X → Py (List Flt)) → X → Py (LsqResult X)

end Calk
