import Verif.Model.Core

/-! # `calkulate/meta.py` (argument collection) and `calkulate/interface.py`

Keyword arguments are dicts of `Val`; numeric arguments are scalars (array-valued totals and
constants are not modelled).  A value of a wrong type raises `TypeError` when the argument is first
used, which in this model is at the start of the function. -/

namespace Calk
noncomputable section

open Flt

/-! ## Keyword arguments -/

/-- meta.py:43-45: one pass of the loop over the keys -/
def setFromRow (row : Dict Val) (d : Dict Val) (k : String) : Dict Val :=
  match row.get? k with
  | some v => if v.isNull then d else d.set k v
  | none => d

/-- meta.py:38-46 `_get_kwargs_for`.  `keys` is a Python set, here in an arbitrary order. -/
def get_kwargs_for (keys : List String) (kwargs : Dict Val) (row : Option (Dict Val)) : Dict Val :=
  let kwargs_for := kwargs.filter fun kv => keys.contains kv.1
  match row with
  | none => kwargs_for
  | some row => keys.foldl (setFromRow row) kwargs_for

/-- a numeric parameter with a default (default arguments, e.g. interface.py:47-53) -/
def argNum (kw : Dict Val) (k : String) (dflt : Flt) : Py Flt :=
  match kw.get? k with
  | none => .ok dflt
  | some v => v.toFlt

/-- a numeric parameter with default `None`, tested with `is None`
(convert.py:208, 215; core.py:628, 634) -/
def argOpt (kw : Dict Val) (k : String) : Py (Option Flt) :=
  match kw.get? k with
  | none => .ok none
  | some .none => .ok none
  | some v => do
    let x ← v.toFlt
    return some x

/-- a numeric parameter with default `None`, tested with `pd.isnull`
(convert.py:239-240; interface.py:70-74, 133-160) -/
def argNotNull (kw : Dict Val) (k : String) : Py (Option Flt) :=
  match kw.get? k with
  | none => .ok none
  | some v => if v.isNull then .ok none else do
    let x ← v.toFlt
    return some x

/-- a parameter that is passed on as it is (interface.py:57-58, 124-128) -/
def argVal (kw : Dict Val) (k : String) (dflt : Val) : Val := (kw.get? k).getD dflt

/-- Python truth value (core.py:432; dataset.py:66, 210) -/
def Val.truthy : Val → Bool
  | .none => false
  | .num x => !feq x (fin 0)
  | .bool b => b
  | .str s => s ≠ ""
  | .tup xs => !xs.isEmpty
  | .dict d => !d.isEmpty

/-- `v == n` for a number `n` (interface.py:179) -/
def Val.eqNum (v : Val) (n : ℝ) : Bool :=
  match v with
  | .num x => feq x (fin n)
  | .bool true => decide (n = 1)
  | .bool false => decide (n = 0)
  | _ => false

/-- `s.lower()` (ASCII letters) (convert.py:213, files.py:117) -/
def lowerS (s : String) : String := String.ofList (s.toList.map Char.toLower)

/-- `s.upper()` (ASCII letters) (convert.py:216) -/
def upperS (s : String) : String := String.ofList (s.toList.map Char.toUpper)

/-- `v.lower()` (ASCII letters) (convert.py:213-236, files.py:117-159) -/
def Val.lower : Val → Py String
  | .str s => .ok (lowerS s)
  | _ => .error (.AttributeError "lower")

/-- `v.upper()` (ASCII letters) (convert.py:216-217) -/
def Val.upper : Val → Py String
  | .str s => .ok (upperS s)
  | _ => .error (.AttributeError "upper")

/-! ## External packages -/

/-- titrations.py:13-15 `DatData`.  The arrays hold floats, except that the temperatures may be
whole numbers in an integer array; the type of the other two arrays makes no difference. -/
structure DatData where
  titrant_amount : List Flt
  measurement : List Flt
  temperature : List Flt
  /-- the dtype of `temperature` is an integer type -/
  temperature_int : Bool := false

/-- Everything the modelled code calls outside itself: reading a titration file, PyCO2SYS and
`scipy.optimize.least_squares`.  Arbitrary functions; what a theorem needs to know about them is a
hypothesis of that theorem (files.py:109, interface.py:76, 161, core.py:648, 986, 1109, 1229). -/
structure World where
  /-- `read.read_dat(file_name, **kwargs)` -/
  readDat : String → Dict Val → Py DatData
  /-- `pyco2.salts.assemble(salinity, silicate, phosphate, ammonia, sulfide, opt_k_carbonic,
  opt_total_borate, totals=...)` -/
  saltsAssemble : (salinity silicate phosphate ammonia sulfide : Flt) →
    (opt_k_carbonic opt_total_borate : Val) → Dict NpVal → Py (Dict NpVal)
  /-- `pyco2.equilibria.assemble(temperature, 0, totals, opt_pH_scale, opt_k_carbonic,
  opt_k_bisulfate, opt_k_fluoride, 3, Ks=...)` -/
  equilibriaAssemble : List Flt → Dict NpVal → (opt_pH_scale opt_k_carbonic opt_k_bisulfate
    opt_k_fluoride : Val) → Dict NpVal → Py (Dict NpVal)
  /-- `pyco2.sys(salinity=..., opt_total_borate=...)`, one row: total sulfate, borate, fluoride -/
  sysSalts : (salinity opt_total_borate : Val) → (String → Flt)
  /-- `least_squares` as called by the EMF solver -/
  ls : LsFun (Flt × Flt)
  /-- `least_squares` as called by the calibrators -/
  opt : Lsq Flt

/-! ## interface.py -/

/-- interface.py:23-38 `calk_to_pyco2__k_constants` -/
def calk_to_pyco2_ks : Dict String :=
  [ ("k_alpha", "k_alpha"), ("k_ammonia", "KNH3"), ("k_beta", "k_beta"), ("k_bisulfate", "KSO4"),
    ("k_borate", "KB"), ("k_carbonic_1", "K1"), ("k_carbonic_2", "K2"), ("k_fluoride", "KF"),
    ("k_phosphoric_1", "KP1"), ("k_phosphoric_2", "KP2"), ("k_phosphoric_3", "KP3"),
    ("k_silicate", "KSi"), ("k_sulfide", "KH2S"), ("k_water", "KW") ]

/-- interface.py:40-42 `pyco2_to_calk__k_constants` -/
def pyco2_to_calk_ks : Dict String :=
  calk_to_pyco2_ks.foldl (fun d kv => d.set kv.2 kv.1) []

/-- `d[k] = v` if the value is there (interface.py:70-75, 133-160) -/
def setIf (d : Dict NpVal) (k : String) (v : Option Flt) (scale : Flt) : Dict NpVal :=
  match v with
  | none => d
  | some x => d.set k (.scalar (x * scale))

/-- `if x > 0: d[k] = x * 1e-6` (interface.py:66-69, 89-92) -/
def setIfPos (d : Dict NpVal) (k : String) (x : Flt) : Dict NpVal :=
  if (fin 0).lt x then d.set k (.scalar (x * fin 1e-6)) else d

/-- `if x > 0: t[k] = tp[pk]` (interface.py:93-100) -/
def copyIfPos (t tp : Dict NpVal) (x : Flt) (k pk : String) : Py (Dict NpVal) :=
  if (fin 0).lt x then do
    let v ← tp.get pk
    return t.set k v
  else return t

/-- interface.py:66-75: the totals handed to PyCO2SYS -/
def totals_for_pyco2 (alpha beta : Flt) (borate fluoride sulfate : Option Flt) : Dict NpVal :=
  let d : Dict NpVal := []
  let d := setIfPos d "alpha" alpha
  let d := setIfPos d "beta" beta
  let d := setIf d "TB" borate (fin 1e-6)
  let d := setIf d "TF" fluoride (fin 1e-6)
  setIf d "TSO4" sulfate (fin 1e-6)

/-- interface.py:45-104 `get_totals` -/
def get_totals (w : World) (salinity : Flt) (kw : Dict Val) :
    Py (Dict NpVal × Dict NpVal) := do
  let dic ← argNum kw "dic" (fin 0)
  let alpha ← argNum kw "total_alpha" (fin 0)
  let beta ← argNum kw "total_beta" (fin 0)
  let ammonia ← argNum kw "total_ammonia" (fin 0)
  let phosphate ← argNum kw "total_phosphate" (fin 0)
  let silicate ← argNum kw "total_silicate" (fin 0)
  let sulfide ← argNum kw "total_sulfide" (fin 0)
  let borate ← argNotNull kw "total_borate"
  let fluoride ← argNotNull kw "total_fluoride"
  let sulfate ← argNotNull kw "total_sulfate"
  let totals_pyco2 ← w.saltsAssemble salinity silicate phosphate ammonia sulfide
    (argVal kw "opt_k_carbonic" (.num (fin 10))) (argVal kw "opt_total_borate" (.num (fin 1)))
    (totals_for_pyco2 alpha beta borate fluoride sulfate)
  let t : Dict NpVal := [("dic", .scalar (dic * fin 1e-6))]
  let t := setIfPos t "total_alpha" alpha
  let t := setIfPos t "total_beta" beta
  let t ← copyIfPos t totals_pyco2 ammonia "total_ammonia" "TNH3"
  let t ← copyIfPos t totals_pyco2 silicate "total_silicate" "TSi"
  let t ← copyIfPos t totals_pyco2 phosphate "total_phosphate" "TPO4"
  let t ← copyIfPos t totals_pyco2 sulfide "total_sulfide" "TH2S"
  let tb ← totals_pyco2.get "TB"
  let t := t.set "total_borate" tb
  let tf ← totals_pyco2.get "TF"
  let t := t.set "total_fluoride" tf
  let ts ← totals_pyco2.get "TSO4"
  let t := t.set "total_sulfate" ts
  return (t, totals_pyco2)

/-- element-wise operation on two numpy values (interface.py:180-185) -/
def NpVal.bin (f : Flt → Flt → Flt) : NpVal → NpVal → Py NpVal
  | .scalar x, .scalar y => .ok (.scalar (f x y))
  | .scalar x, .arr ys => .ok (.arr (ys.map fun y => f x y))
  | .arr xs, .scalar y => .ok (.arr (xs.map fun x => f x y))
  | .arr xs, .arr ys =>
    if xs.length = ys.length then .ok (.arr (List.zipWith f xs ys))
    else match xs, ys with
      | [x], ys => .ok (.arr (ys.map fun y => f x y))
      | xs, [y] => .ok (.arr (xs.map fun x => f x y))
      | _, _ => .error .ValueError

/-- interface.py:131-160: the constants handed to PyCO2SYS -/
def ks_for_pyco2 (kw : Dict Val) : List (String × String) → Dict NpVal → Py (Dict NpVal)
  | [], d => .ok d
  | (k, pk) :: rest, d => do
    let v ← argNotNull kw k
    ks_for_pyco2 kw rest (setIf d pk v (fin 1))

/-- interface.py:107-186 `get_k_constants` -/
def get_k_constants (w : World) (totals_pyco2 : Dict NpVal) (temperature : List Flt)
    (kw : Dict Val) : Py (Dict NpVal) := do
  let ks ← ks_for_pyco2 kw calk_to_pyco2_ks [("RGas", .scalar (fin 30))]
  let opt_pH_scale := argVal kw "opt_pH_scale" (.num (fin 3))
  let kp ← w.equilibriaAssemble temperature totals_pyco2 opt_pH_scale
    (argVal kw "opt_k_carbonic" (.num (fin 10))) (argVal kw "opt_k_bisulfate" (.num (fin 1)))
    (argVal kw "opt_k_fluoride" (.num (fin 1))) ks
  let k_constants : Dict NpVal := calk_to_pyco2_ks.filterMap fun kv =>
    (kp.get? kv.2).map fun v => (kv.1, v)
  if opt_pH_scale.eqNum 1 && totals_pyco2.has "TSO4" then do
    let tso4 ← totals_pyco2.get "TSO4"
    let kso4 ← k_constants.get "k_bisulfate"
    let ratio ← tso4.bin (fun x y => fin 1 + x / y) kso4
    let kf ← k_constants.get "k_fluoride"
    let kf' ← kf.bin (fun x y => x * y) ratio
    return k_constants.set "k_fluoride" kf'
  else return k_constants

end
end Calk
