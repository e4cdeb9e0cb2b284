import Verif.Flt

/-!
# Python values: exceptions, dicts, numpy arrays, loosely typed cells
-/

namespace Calk

/-- Python exceptions that the modelled code can raise. -/
inductive PyErr where
  | AssertionError
  | KeyError (key : String)
  | IndexError
  | ValueError
  | TypeError
  | AttributeError (name : String)
  | NameError (name : String)
  | FileNotFoundError
  | FileExistsError
  | RecursionError
  /-- `raise Exception("...")` -/
  | Exception
  /-- anything else, raised by code outside the model -/
  | Other (msg : String)
  deriving DecidableEq, Repr

/-- Result of a Python call. -/
abbrev Py := Except PyErr

/-- `assert c` -/
def pyAssert (c : Bool) : Py Unit := if c then .ok () else .error .AssertionError

/-! ## Dicts -/

/-- A `dict` with string keys, in insertion order. -/
abbrev Dict (α : Type) := List (String × α)

namespace Dict
variable {α β : Type}

/-- `d.get(k)` -/
def get? : Dict α → String → Option α
  | [], _ => none
  | (k', v) :: d, k => if k' = k then some v else get? d k

/-- `d[k]` (reading): `KeyError` if absent. -/
def get (d : Dict α) (k : String) : Py α :=
  match d.get? k with
  | some v => .ok v
  | none => .error (.KeyError k)

/-- `k in d` -/
def has (d : Dict α) (k : String) : Bool := (d.get? k).isSome

/-- `d[k] = v`: update in place or append. -/
def set : Dict α → String → α → Dict α
  | [], k, v => [(k, v)]
  | (k', v') :: d, k, v => if k' = k then (k', v) :: d else (k', v') :: set d k v

/-- `{k: f(k, v) for k, v in d.items()}` -/
def mapKV (f : String → α → β) (d : Dict α) : Dict β := d.map fun kv => (kv.1, f kv.1 kv.2)

/-- `d.keys()` -/
def keys (d : Dict α) : List String := d.map Prod.fst

@[simp] theorem get?_nil (k : String) : get? ([] : Dict α) k = none := rfl
theorem get?_cons (k' k : String) (v : α) (d : Dict α) :
    get? ((k', v) :: d) k = if k' = k then some v else get? d k := rfl

theorem get?_set_self (d : Dict α) (k : String) (v : α) : (d.set k v).get? k = some v := by
  induction d with
  | nil => simp [set, get?_cons]
  | cons kv d ih =>
    obtain ⟨k', v'⟩ := kv
    by_cases h : k' = k
    · simp [set, get?_cons, h]
    · simp [set, get?_cons, h, ih]

theorem get?_set_ne (d : Dict α) (k k₂ : String) (v : α) (h : k₂ ≠ k) :
    (d.set k v).get? k₂ = d.get? k₂ := by
  induction d with
  | nil => simp [set, get?_cons, Ne.symm h]
  | cons kv d ih =>
    obtain ⟨k', v'⟩ := kv
    by_cases h' : k' = k
    · subst h'; simp [set, get?_cons, Ne.symm h]
    · by_cases h'' : k' = k₂
      · subst h''; simp [set, get?_cons, h]
      · simp [set, get?_cons, h', h'', ih]

theorem get?_set (d : Dict α) (k k₂ : String) (v : α) :
    (d.set k v).get? k₂ = if k₂ = k then some v else d.get? k₂ := by
  by_cases h : k₂ = k
  · subst h; simp [get?_set_self]
  · simp [h, get?_set_ne]

theorem get?_mapKV (f : String → α → β) (d : Dict α) (k : String) :
    (d.mapKV f).get? k = (d.get? k).map (f k) := by
  induction d with
  | nil => rfl
  | cons kv d ih =>
    obtain ⟨k', v'⟩ := kv
    by_cases h : k' = k
    · subst h; simp [mapKV, get?_cons]
    · simp only [mapKV] at ih
      simp [mapKV, get?_cons, h, ih]

theorem keys_mapKV (f : String → α → β) (d : Dict α) : (d.mapKV f).keys = d.keys := by
  simp [keys, mapKV, Function.comp_def]

theorem get?_append (d e : Dict α) (k : String) :
    get? (d ++ e) k = (d.get? k).or (e.get? k) := by
  induction d with
  | nil => simp
  | cons kv d ih =>
    obtain ⟨k', v'⟩ := kv
    by_cases h : k' = k
    · simp [get?_cons, h]
    · simp [get?_cons, h, ih]

theorem get?_eq_none_iff (d : Dict α) (k : String) : d.get? k = none ↔ k ∉ d.keys := by
  induction d with
  | nil => simp [keys]
  | cons kv d ih =>
    obtain ⟨k', v'⟩ := kv
    by_cases h : k' = k
    · simp [get?_cons, keys, h]
    · simp only [keys] at ih
      simp [get?_cons, keys, h, ih, Ne.symm h, eq_comm]

theorem mem_of_get? {d : Dict α} {k : String} {v : α} (h : d.get? k = some v) :
    (k, v) ∈ d := by
  induction d with
  | nil => simp at h
  | cons kv d ih =>
    obtain ⟨k', v'⟩ := kv
    by_cases h' : k' = k
    · subst h'; simp [get?_cons] at h; simp [h]
    · simp [get?_cons, h'] at h; exact List.mem_cons_of_mem _ (ih h)

theorem get_ok_iff {d : Dict α} {k : String} {v : α} : d.get k = .ok v ↔ d.get? k = some v := by
  unfold get; cases d.get? k <;> simp

end Dict

/-! ## numpy -/

noncomputable section

/-- A numpy value: scalar or 1-D array. -/
inductive NpVal where
  | scalar (x : Flt)
  | arr (xs : List Flt)

namespace NpVal

/-- `np.size(v)` -/
def size : NpVal → ℕ
  | scalar _ => 1
  | arr xs => xs.length

/-- element `i` after broadcasting -/
def at_ : NpVal → ℕ → Flt
  | scalar x, _ => x
  | arr [x], _ => x
  | arr xs, i => xs.getD i Flt.nan

/-- Can this value take part in an element-wise operation with an array of `n` values?
(numpy raises `ValueError` otherwise.) -/
def fits (n : ℕ) : NpVal → Bool
  | scalar _ => true
  | arr xs => xs.length == n || xs.length == 1

/-- Broadcast to `n` values. -/
def bcast (n : ℕ) (v : NpVal) : List Flt := (List.range n).map v.at_

/-- Element-wise operation of a value with an array. -/
def zipW (f : Flt → Flt → Flt) (v : NpVal) (xs : List Flt) : Py NpVal :=
  if v.fits xs.length then .ok (.arr (List.zipWith f (v.bcast xs.length) xs))
  else .error .ValueError

end NpVal

/-- Boolean-mask indexing `xs[used]`. -/
def mask {α : Type} (used : List Bool) (xs : List α) : List α :=
  ((used.zip xs).filter (fun p => p.1)).map Prod.snd

/-- `v[used] if np.size(v) > 1 else v` -/
def NpVal.maskIf (used : List Bool) (v : NpVal) : Py NpVal :=
  if v.size > 1 then
    match v with
    | .scalar x => .ok (.scalar x)
    | .arr xs => if xs.length = used.length then .ok (.arr (mask used xs)) else .error .IndexError
  else .ok v

/-- `np.sum` of a list (exact). -/
def npSum (xs : List Flt) : Flt := xs.sum

/-- `np.mean`: NaN for an empty array. -/
def npMean (xs : List Flt) : Flt := npSum xs / Flt.fin (xs.length : ℝ)

/-- `np.std` (population standard deviation, `ddof=0`). -/
def npStd (xs : List Flt) : Flt :=
  Flt.sqrt (npMean (xs.map fun x => Flt.sq (x - npMean xs)))

/-- maximum of two floats, NaN if either is NaN (numpy rule). -/
def fmax2 (a b : Flt) : Flt :=
  if a.isNaN || b.isNaN then .nan else if a.le b then b else a

def fmin2 (a b : Flt) : Flt :=
  if a.isNaN || b.isNaN then .nan else if a.le b then a else b

/-- `np.max`: `ValueError` on an empty array, NaN if any entry is NaN. -/
def npMax : List Flt → Py Flt
  | [] => .error .ValueError
  | x :: xs => .ok (xs.foldl fmax2 x)

def npMin : List Flt → Py Flt
  | [] => .error .ValueError
  | x :: xs => .ok (xs.foldl fmin2 x)

/-- Is this a pair of equal numbers (`==`, false on NaN)? -/
def feq (a b : Flt) : Bool := a.le b && b.le a

/-- Result of `scipy.stats.linregress` (the fields that are used). -/
structure LinRegress where
  slope : Flt
  intercept : Flt
  rvalue : Flt

/-- `scipy.stats.linregress(x, y)`: ordinary least squares.  Raises `ValueError` for empty
input and when all x are identical (more than one point). -/
def linregress (x y : List Flt) : Py LinRegress :=
  if x.length ≠ y.length then .error .ValueError else do
  let hi ← npMax x
  let lo ← npMin x
  if feq hi lo && decide (1 < x.length) then .error .ValueError
  let xm := npMean x
  let ym := npMean y
  let ssxm := npMean (x.map fun a => Flt.sq (a - xm))
  let ssym := npMean (y.map fun b => Flt.sq (b - ym))
  let ssxym := npMean (List.zipWith (fun a b => (a - xm) * (b - ym)) x y)
  let r := if feq ssxm (.fin 0) || feq ssym (.fin 0) then .fin 0
    else ssxym / Flt.sqrt (ssxm * ssym)
  let slope := ssxym / ssxm
  return { slope := slope, intercept := ym - slope * xm, rvalue := r }

end

/-! ## Cells and keyword arguments -/

/-- A dynamically typed Python value as found in DataFrame cells and keyword arguments.
The int/float distinction is not modelled. -/
inductive Val where
  | none
  | num (x : Flt)
  | bool (b : Bool)
  | str (s : String)
  | tup (xs : List Val)
  | dict (d : List (String × Val))

namespace Val

/-- `pd.isnull(v)` -/
def isNull : Val → Bool
  | .none => true
  | .num x => x.isNaN
  | _ => false

/-- use as a number -/
def toFlt : Val → Py Flt
  | .num x => .ok x
  | .bool true => .ok (.fin 1)
  | .bool false => .ok (.fin 0)
  | _ => .error .TypeError

/-- use as a string -/
def toStr : Val → Py String
  | .str s => .ok s
  | _ => .error .TypeError

noncomputable instance : Inhabited Val := ⟨.none⟩

end Val

/-- Keyword arguments seen as a finite map. -/
abbrev Kw := String → Option Val

/-- The map view of a dict of keyword arguments. -/
def Dict.toKw (d : Dict Val) : Kw := fun k => d.get? k

end Calk
