import Verif.Model.Files

/-! # `calkulate/dataset.py`

A DataFrame is a list of column names and a list of rows; a row gives a value for every column name
(values for names that are not columns are never looked at).  Not modelled: index labels (the code
only ever assigns whole columns back to the frame they were computed from), dtypes, duplicate or
non-string column names, DataFrames without rows, printing (`verbose`), and keyword arguments that
`DataFrame.apply` takes for itself (`raw`, `result_type`, ...). -/

namespace Calk
noncomputable section

open Flt

/-! ## Frames -/

/-- a row of the `pandas.DataFrame` that dataset.py works on -/
abbrev Row := String → Val

/-- the `pandas.DataFrame` that dataset.py works on -/
structure DF where
  cols : List String
  rows : List Row

/-- `c in ds` (dataset.py:20, 22, 113, 126, 157, 258) -/
def DF.has (df : DF) (c : String) : Bool := df.cols.contains c

/-- the columns after `ds[c] = ...` (dataset.py:23, 37, 117, 127, 153, 162, 263) -/
def addCol (cols : List String) (c : String) : List String :=
  if cols.contains c then cols else cols ++ [c]

/-- the row with `row[c] = v` (dataset.py:23, 37, 117, 127, 153, 162, 263) -/
def Row.put (r : Row) (c : String) (v : Val) : Row := fun c' => if c' = c then v else r c'

/-- `ds[c] = ...` with a value for every row (dataset.py:27, 117, 121, 127, 158, 160, 263, 265) -/
def DF.setCol (df : DF) (c : String) (f : Row → Val) : DF where
  cols := addCol df.cols c
  rows := df.rows.map fun r => r.put c (f r)

/-- apply a function to every row; the first exception ends it
(`ds.apply(..., axis=1)`, dataset.py:153, 261) -/
def mapPy {α β : Type} (f : α → Py β) : List α → Py (List β)
  | [] => .ok []
  | x :: xs => do
    let y ← f x
    let ys ← mapPy f xs
    return y :: ys

/-- `ds[c] = ds.apply(f, axis=1)` (dataset.py:153) -/
def DF.setColM (df : DF) (c : String) (f : Row → Py Val) : Py DF := do
  let rows ← mapPy (fun r => do let v ← f r; return r.put c v) df.rows
  return { cols := addCol df.cols c, rows }

/-- one row as the Series handed to `calibrate_row` and `solve_row` (dataset.py:153, 261) -/
def rowDict (cols : List String) (r : Row) : Dict Val := cols.map fun c => (c, r c)

namespace PyS
variable {σ : Type}
/-- `assert c(state)` (dataset.py:20, 114, 119, 149, 258) -/
def require (c : σ → Bool) : PyS σ Unit := fun s =>
  (if c s then .ok () else .error .AssertionError, s)
/-- an assignment that cannot fail (dataset.py:23-27, 117-127, 157-160) -/
def modify (f : σ → σ) : PyS σ Unit := fun s => (.ok (), f s)
/-- an assignment whose right-hand side may raise, leaving the state as it was
(dataset.py:153, 162, 261-265) -/
def update (f : σ → Py σ) : PyS σ Unit := fun s =>
  match f s with
  | .ok s' => (.ok (), s')
  | .error e => (.error e, s)
end PyS

/-! ## Salts -/

/-- dataset.py:28 -/
def salts : List String := ["total_sulfate", "total_borate", "total_fluoride"]

/-- `ds[c].where(ds[c].notnull(), other)`, for a column that may not be there yet
(dataset.py:36-38) -/
def fillNull (present : Bool) (c : String) (other : Row → Val) (r : Row) : Val :=
  if present && !(r c).isNull then r c else other r

/-- dataset.py:21-27: `opt_total_borate` is 1 where not given -/
def defaultBorate (df : DF) : DF :=
  df.setCol "opt_total_borate" (fillNull (df.has "opt_total_borate") "opt_total_borate"
    fun _ => .num (fin 1))

/-- dataset.py:29: is any salt missing anywhere? -/
def saltsMissing (df : DF) : Bool :=
  !(salts.all fun s => df.has s && df.rows.all fun r => !(r s).isNull)

/-- dataset.py:36-38.  `pyco2.sys` works element by element. -/
def fillSalt (w : World) (df : DF) (s : String) : DF :=
  df.setCol s (fillNull (df.has s) s fun r =>
    .num (w.sysSalts (r "salinity") (r "opt_total_borate") s))

/-- dataset.py:30-38 -/
def fillSalts (w : World) (df : DF) : DF :=
  if saltsMissing df then salts.foldl (fillSalt w) df else df

/-- dataset.py:16-39 `get_total_salts` -/
def get_total_salts (w : World) : PyS DF Unit := do
  PyS.require (·.has "salinity")
  PyS.modify defaultBorate
  PyS.modify (fillSalts w)

/-! ## Old-style keyword arguments -/

/-- unpacking into two targets: `a, b = v` (dataset.py:50) -/
def Val.unpack2 : Val → Py (Val × Val)
  | .tup [a, b] => .ok (a, b)
  | .tup _ => .error .ValueError
  | .str s => match s.toList with
    | [a, b] => .ok (.str (String.ofList [a]), .str (String.ofList [b]))
    | _ => .error .ValueError
  | .dict [(a, _), (b, _)] => .ok (.str a, .str b)
  | .dict _ => .error .ValueError
  | _ => .error .TypeError

/-- dataset.py:44-48 -/
def backcompat_dicts (kw : Dict Val) : Py (Dict Val) :=
  match kw.get? "read_dat_kwargs" with
  | none => .ok kw
  | some (.dict d) => .ok (d.foldl (fun kw kv => kw.set kv.1 kv.2) kw)
  | some _ => .error (.AttributeError "items")

/-- dataset.py:49-50 -/
def backcompat_range (kw : Dict Val) : Py (Dict Val) :=
  match kw.get? "pH_range" with
  | none => .ok kw
  | some v => do
    let (a, b) ← v.unpack2
    return (kw.set "pH_min" a).set "pH_max" b

/-- `if v is there: kwargs["file_type"] = v` (dataset.py:51-56) -/
def setFileType (kw : Dict Val) : Option Val → Dict Val
  | none => kw
  | some v => kw.set "file_type" v

/-- dataset.py:42-57 `_backcompat` -/
def backcompat (kw row : Dict Val) : Py (Dict Val) := do
  let kw ← backcompat_dicts kw
  let kw ← backcompat_range kw
  let kw := setFileType kw (kw.get? "read_dat_method")
  return setFileType kw (row.get? "read_dat_method")

/-! ## Rows -/

/-- `row.c` (dataset.py:66, 73-75, 202, 210, 217-219) -/
def rowAttr (cols : List String) (r : Row) (c : String) : Py Val :=
  if cols.contains c then .ok (r c) else .error (.AttributeError c)

/-- dataset.py:70-78: what `calibrate_row` tries to do -/
def calibrate_attempt (w : World) (kw : Dict Val) (cols : List String) (r : Row) : Py Flt := do
  let kw ← backcompat kw (rowDict cols r)
  let file ← rowAttr cols r "file_name"
  let file ← file.toStr
  let cert ← (r "alkalinity_certified").toFlt
  let salinity ← (r "salinity").toFlt
  let cal ← files_calibrate w file cert salinity
    (get_kwargs_for keys_calibrate kw (some (rowDict cols r)))
  return cal.x

/-- dataset.py:79-82, 223-226: the handler prints `row.file_name` and carries on with `v` -/
def caught {α : Type} (cols : List String) (v : α) : Py α :=
  if cols.contains "file_name" then .ok v else .error (.AttributeError "file_name")

/-- dataset.py:60-83 `calibrate_row` -/
def calibrate_row (w : World) (kw : Dict Val) (cols : List String) (r : Row) : Py Val :=
  if !(r "alkalinity_certified").isNull && (r "file_good").truthy then
    match calibrate_attempt w kw cols r with
    | .ok x => .ok (.num x)
    | .error _ => caught cols (.num nan)
  else .ok (.num nan)

/-- the columns that `solve_row` returns, dataset.py:197-209 -/
def solvedCols : List String :=
  [ "alkalinity_npts", "alkalinity_std", "alkalinity", "analyte_mass", "emf0", "gran_alkalinity",
    "gran_emf0", "pH_init", "temperature_init" ]

/-- dataset.py:197-209: blank output -/
def blankSolved (r : Row) : Row := fun c =>
  if c = "alkalinity_npts" then .num (fin 0)
  else if c = "analyte_mass" then r "analyte_mass"
  else .num nan

/-- `solved[c] = x` (dataset.py:172-190) -/
def putNum (c : String) (x : Flt) : PyS Row Unit := PyS.modify fun s => s.put c (.num x)

/-- `solved[c] = xs[0]` (dataset.py:178-179, 184-185, 189-190) -/
def putFirst (c : String) : List Flt → PyS Row Unit
  | [] => PyS.raise .IndexError
  | x :: _ => putNum c x

/-- `used.sum()` (dataset.py:172, 181, 187) -/
def countUsed (used : List Bool) : Flt := fin ((used.filter id).length : ℝ)

/-- dataset.py:170-191 `add_solve_results` -/
def add_solve_results : SolveRes → PyS Row Unit
  | .emf sr temperature => do
    putNum "alkalinity_npts" (countUsed sr.used)
    putNum "alkalinity_std" (npStd (mask sr.used sr.alkalinity_all))
    putNum "alkalinity" sr.alkalinity
    putNum "emf0" sr.emf0
    putNum "gran_alkalinity" (sr.ggr.ga.alkalinity * fin 1e6)
    putNum "gran_emf0" sr.ggr.emf0
    putFirst "pH_init" sr.pH
    putFirst "temperature_init" temperature
  | .pH sr pH temperature => do
    putNum "alkalinity_npts" (countUsed sr.used)
    putNum "alkalinity_std" (npStd (mask sr.used sr.alkalinity_all))
    putNum "alkalinity" sr.alkalinity
    putFirst "pH_init" pH
    putFirst "temperature_init" temperature
  | .pH_gran sr pH temperature => do
    putNum "alkalinity_npts" (countUsed sr.used)
    putNum "alkalinity" sr.alkalinity
    putFirst "pH_init" pH
    putFirst "temperature_init" temperature

/-- dataset.py:214-221: the call of `files.solve` -/
def solve_call (w : World) (kw : Dict Val) (cols : List String) (r : Row) : Py SolveRes := do
  let kw ← backcompat kw (rowDict cols r)
  let file ← rowAttr cols r "file_name"
  let file ← file.toStr
  let titrant_molinity ← (r "titrant_molinity").toFlt
  let salinity ← (r "salinity").toFlt
  files_solve w file titrant_molinity salinity
    (get_kwargs_for keys_solve kw (some (rowDict cols r)))

/-- dataset.py:213-222: what `solve_row` tries to do, writing into `solved` -/
def solve_attempt (w : World) (kw : Dict Val) (cols : List String) (r : Row) : PyS Row Unit := do
  let sr ← PyS.lift (solve_call w kw cols r)
  add_solve_results sr

/-- dataset.py:194-227 `solve_row` -/
def solve_row (w : World) (kw : Dict Val) (cols : List String) (r : Row) : Py Row :=
  if !(r "titrant_molinity").isNull && (r "file_good").truthy then
    match solve_attempt w kw cols r (blankSolved r) with
    | (.ok _, s) => .ok s
    | (.error _, s) => caught cols s
  else .ok (blankSolved r)

/-! ## Frames again -/

/-- dataset.py:112-117 -/
def addAnalyteMass (df : DF) : Py DF :=
  if df.has "analyte_mass" then .ok df
  else if df.has "analyte_volume" then .ok (df.setCol "analyte_mass" fun _ => .num nan)
  else .error .AssertionError

/-- dataset.py:120-125 -/
def defaultUnit (df : DF) : DF :=
  if df.has "titrant_amount_unit" then
    df.setCol "titrant_amount_unit" fun r =>
      if (r "titrant_amount_unit").isNull then .str "ml" else r "titrant_amount_unit"
  else df

/-- dataset.py:126-127 -/
def defaultFileGood (df : DF) : DF :=
  if df.has "file_good" then df else df.setCol "file_good" fun _ => .bool true

/-- dataset.py:110-127 `prepare` -/
def prepare (w : World) : PyS DF Unit := do
  get_total_salts w
  PyS.update addAnalyteMass
  PyS.require (·.has "salinity")
  PyS.modify defaultUnit
  PyS.modify defaultFileGood

/-- `row[c]` for the solver's results (dataset.py:261-263) -/
def mergeSolved (r s : Row) : Row := fun c => if c ∈ solvedCols then s c else r c

/-- dataset.py:261-263 -/
def assignSolved (w : World) (kw : Dict Val) (df : DF) : Py DF := do
  let rows ← mapPy (fun r => do let s ← solve_row w kw df.cols r; return mergeSolved r s) df.rows
  return { cols := solvedCols.foldl addCol df.cols, rows }

/-- a cell in arithmetic: null is NaN (dataset.py:265) -/
def cellNum (v : Val) : Py Flt := if v.isNull then .ok nan else v.toFlt

/-- dataset.py:264-265 -/
def addOffset (df : DF) : Py DF :=
  if df.has "alkalinity_certified" then
    df.setColM "alkalinity_offset" fun r => do
      let a ← cellNum (r "alkalinity")
      let c ← cellNum (r "alkalinity_certified")
      return .num (a - c)
  else .ok df

/-- dataset.py:247-256: the keyword arguments reported as not recognised -/
def dataset_ignored (kw : Dict Val) : Py (List String) := do
  let kw ← backcompat kw []
  return kw.keys.filter fun k => !(keys_calibrate ++ ["pH_range", "read_dat_kwargs"]).contains k

/-- dataset.py:230-267 `solve` -/
def dataset_solve (w : World) (kw : Dict Val) : PyS DF Unit := do
  let _ ← PyS.lift (dataset_ignored kw)
  prepare w
  PyS.require (·.has "titrant_molinity")
  PyS.update (assignSolved w kw)
  PyS.update addOffset

/-! ## Calibration -/

/-- Do two `analysis_batch` labels belong to the same group? (dataset.py:104, 162-163) -/
def Val.sameLabel (a b : Val) : Bool :=
  match a.toFlt, b.toFlt with
  | .ok x, .ok y => feq x y
  | .error _, .error _ => open Classical in decide (a = b)
  | _, _ => false

/-- A `reference_good` cell as used in `reference_good & ...`: nulls count as False.  Cells that are
neither Boolean nor null are outside the model (`none`, treated as a `TypeError`)
(dataset.py:88-90). -/
def refFlag (v : Val) : Option Bool :=
  match v with
  | .bool b => some b
  | v => if v.isNull then some false else none

/-- dataset.py:88-90: does this row count towards its batch? -/
def isReference (r : Row) : Bool :=
  refFlag (r "reference_good") == some true && !(r "titrant_molinity_here").isNull

/-- dataset.py:86-97 `get_group_calibration`: the mean for the batch `b` -/
def batchMean (rows : List Row) (b : Val) : Flt :=
  npMean ((rows.filter fun r => (r "analysis_batch").sameLabel b && isReference r).map
    fun r => match r "titrant_molinity_here" with | .num x => x | _ => nan)

/-- dataset.py:161-164 with `get_batches` (100-107): `groupby` drops null labels, so looking one up
raises `KeyError`. -/
def assignMolinity (df : DF) : Py DF :=
  if df.rows.any fun r => !(r "analysis_batch").isNull && (refFlag (r "reference_good")).isNone then
    .error .TypeError
  else if df.rows.any fun r => (r "analysis_batch").isNull then .error (.KeyError "nan")
  else .ok (df.setCol "titrant_molinity" fun r => .num (batchMean df.rows (r "analysis_batch")))

/-- dataset.py:157-158 -/
def defaultBatch (df : DF) : DF :=
  if df.has "analysis_batch" then df else df.setCol "analysis_batch" fun _ => .num (fin 0)

/-- dataset.py:159-160 -/
def defaultReferenceGood (df : DF) : DF :=
  if df.has "reference_good" then df
  else df.setCol "reference_good" fun r => .bool !(r "titrant_molinity_here").isNull

/-- dataset.py:130-167 `calibrate` -/
def dataset_calibrate (w : World) (kw : Dict Val) : PyS DF Unit := do
  prepare w
  PyS.require (·.has "alkalinity_certified")
  PyS.update fun df => df.setColM "titrant_molinity_here" (calibrate_row w kw df.cols)
  PyS.modify defaultBatch
  PyS.modify defaultReferenceGood
  PyS.update assignMolinity
  dataset_solve w kw

/-- dataset.py:270-288 `calkulate` -/
def dataset_calkulate (w : World) (kw : Dict Val) : PyS DF Unit := do
  dataset_calibrate w kw
  dataset_solve w kw

end
end Calk
