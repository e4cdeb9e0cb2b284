import Verif.Model.Dataset

/-! # `calkulate/classes.py`: `Titration`

A row of a data set is a pandas Series with string labels, each occurring once.  `pyco2.sys` is a
parameter.  The plotting methods are in
`Model/Plot.lean`. -/

namespace Calk
noncomputable section

open Flt

/-! ## What `files.solve` returns -/

/-- The namedtuple that `files.solve` returns: the computed fields and the arrays it echoes
(core.py:56-107). -/
structure SolveOut where
  sr : SolveRes
  cv : Converted
  emf : List Flt
  totals : Dict NpVal
  ks : Dict NpVal

/-- files.py:232-260: the EMFs handed to the solver (modes "emf" and "pH_adjust") -/
def echoed_emf (mode : String) (cv : Converted) : List Flt :=
  if mode = "ph_adjust" then
    List.zipWith (fun p t => pH_to_emf p (fin 0) t) cv.measurement cv.temperature
  else cv.measurement

/-- files.py:179-289 `solve`, with the echoed fields of its result -/
def files_solve_all (w : World) (file_name : String) (titrant_molinity salinity : Flt)
    (kw : Dict Val) : Py SolveOut := do
  let (cv, totals, ks) ← load w file_name salinity kw
  let tts ← titrant_totals kw
  let (r, totals') := add_titrant_totals cv.titrant_mass cv.analyte_mass titrant_molinity (fin 0)
    tts totals
  r
  let mode ← solve_mode kw
  let sr ← solve_dispatch w mode cv titrant_molinity totals' ks kw
  return { sr, cv, emf := echoed_emf mode cv, totals := totals', ks }

/-- `sr.pH` (classes.py:180) -/
def SolveRes.pHs : SolveRes → List Flt
  | .emf sr _ => sr.pH
  | .pH _ p _ => p
  | .pH_gran _ p _ => p

/-- `sr.temperature` (classes.py:179) -/
def SolveRes.temperatures : SolveRes → List Flt
  | .emf _ t => t
  | .pH _ _ t => t
  | .pH_gran _ _ t => t

/-- `sr.used` (classes.py:181) -/
def SolveRes.useds : SolveRes → List Bool
  | .emf sr _ => sr.used
  | .pH sr _ _ => sr.used
  | .pH_gran sr _ _ => sr.used

/-! ## Rows -/

/-- a pandas Series (the `row` of classes.py:171-172) -/
structure Series where
  labels : List String
  val : Row

/-- `row[k] = v` (classes.py:175, dataset.py:172-190) -/
def Series.set (s : Series) (k : String) (v : Val) : Series :=
  ⟨addCol s.labels k, s.val.put k v⟩

/-- the Series as a mapping (classes.py:176) -/
def Series.dict (s : Series) : Dict Val := rowDict s.labels s.val

/-- `k in row` (classes.py:224) -/
def Series.has (s : Series) (k : String) : Bool := s.labels.contains k

/-- classes.py:172-175: the row with the keyword arguments put in.  `_backcompat` changes the keyword
arguments themselves, so the loop goes over the changed ones. -/
def titrationRow (row : Series) (kw : Dict Val) : Py Series := do
  let kw ← backcompat kw row.dict
  return kw.foldl (fun s kv => s.set kv.1 kv.2) row

/-- the parameters of `files.solve` without default (files.py:179-185) -/
def solveParams : List String := ["file_name", "titrant_molinity", "salinity"]

/-- `f(**row)`: a parameter without default (classes.py:176, files.py:179-185) -/
def required (d : Dict Val) (k : String) : Py Val :=
  match d.get? k with
  | some v => .ok v
  | none => .error .TypeError

/-- classes.py:176: `solve(**self.row)` -/
def titration_solve (w : World) (row : Series) : Py SolveOut := do
  let file_name ← required row.dict "file_name"
  let titrant_molinity ← required row.dict "titrant_molinity"
  let salinity ← required row.dict "salinity"
  let file_name ← file_name.toStr
  let titrant_molinity ← titrant_molinity.toFlt
  let salinity ← salinity.toFlt
  files_solve_all w file_name titrant_molinity salinity
    (row.dict.filter fun kv => !solveParams.contains kv.1)

/-- the labels that `add_solve_results` sets (dataset.py:170-191) -/
def resultLabels : SolveRes → List String
  | .emf .. => ["alkalinity_npts", "alkalinity_std", "alkalinity", "emf0", "gran_alkalinity",
      "gran_emf0", "pH_init", "temperature_init"]
  | .pH .. => ["alkalinity_npts", "alkalinity_std", "alkalinity", "pH_init", "temperature_init"]
  | .pH_gran .. => ["alkalinity_npts", "alkalinity", "pH_init", "temperature_init"]

/-- classes.py:183: `self.row = add_solve_results(self.row, self.sr)` -/
def resultRow (row : Series) (sr : SolveRes) : Py Series :=
  match add_solve_results sr row.val with
  | (.ok _, val) => .ok ⟨(resultLabels sr).foldl addCol row.labels, val⟩
  | (.error e, _) => .error e

/-! ## The table -/

/-- a value in `pd.DataFrame({...})` for `n` rows: scalars are repeated (classes.py:202) -/
def NpVal.column (n : ℕ) : NpVal → Py (List Flt)
  | .scalar x => .ok (List.replicate n x)
  | .arr xs => if xs.length = n then .ok xs else .error .ValueError

/-- classes.py:177-182, 184-200: the columns that are numbers -/
def numColumns (o : SolveOut) : Dict NpVal :=
  [ ("titrant_mass", .arr o.cv.titrant_mass), ("temperature", .arr o.sr.temperatures),
    ("pH", .arr o.sr.pHs) ] ++
  match o.sr with
  | .emf sr _ => [ ("emf", .arr o.emf), ("gran_func", .arr sr.ggr.ga.gfunc),
      ("gran_emf0", .arr sr.ggr.emf0s), ("gran_pH", .arr sr.ggr.pH) ]
  | .pH .. => []
  | .pH_gran sr _ _ => [("gran_func", .arr sr.gfunc)]

/-- classes.py:177-200: the columns that are Booleans -/
def boolColumns (o : SolveOut) : Dict (List Bool) :=
  [("used", o.sr.useds)] ++
  match o.sr with
  | .emf sr _ => [("gran_used", sr.ggr.ga.used)]
  | .pH .. => []
  | .pH_gran sr _ _ => [("gran_used", sr.used)]

/-- a column of Booleans with the right number of rows (classes.py:181, 191, 202) -/
def checkBools (n : ℕ) (u : List Bool) : Py (List Bool) :=
  if u.length = n then .ok u else .error .ValueError

/-- classes.py:201: `{**totals, **k_constants}` put over the other columns -/
def allColumns (o : SolveOut) : Dict NpVal :=
  o.ks.foldl (fun d kv => d.set kv.1 kv.2)
    (o.totals.foldl (fun d kv => d.set kv.1 kv.2) (numColumns o))

/-- classes.py:177-202: the table, one list per column -/
structure Table where
  rows : ℕ
  nums : Dict (List Flt)
  bools : Dict (List Bool)

/-- classes.py:177-202 `self.t` -/
def makeTable (o : SolveOut) : Py Table := do
  let n := o.cv.titrant_mass.length
  let nums ← Dict.mapValsM (fun _ v => v.column n) (allColumns o)
  let bools ← Dict.mapValsM (fun _ u => checkBools n u) (boolColumns o)
  return { rows := n, nums, bools }

/-- `t[c] = xs` (classes.py:238, 245, 276-296) -/
def Table.put (t : Table) (c : String) (xs : List Flt) : Py Table :=
  if xs.length = t.rows then .ok { t with nums := t.nums.set c xs } else .error .ValueError

/-- `t.c` (classes.py:240, 246, 266-272) -/
def Table.attr (t : Table) (c : String) : Py (List Flt) :=
  match t.nums.get? c with
  | some xs => .ok xs
  | none => .error (.AttributeError c)

/-! ## Attributes -/

/-- classes.py:206-214 `__getattr__`, for names that are not attributes of the object itself: those
are `row`, `kwargs`, `sr`, `t`, `titration` and the methods. -/
def Series.getattr (s : Series) (attr : String) : Py Val :=
  match s.dict.get? attr with
  | some v => .ok v
  | none => .error (.AttributeError attr)

/-- classes.py:216-221 `__getitem__` -/
def Series.getitem (s : Series) (key : String) : Py Val :=
  match (match s.dict.get? key with
    | some v => (.ok v : Py Val)
    | none => .error (.KeyError key)) with
  | .ok v => .ok v
  | .error (.KeyError _) => .error (.AttributeError key)
  | .error e => .error e

/-- `v.attr` for a value of a cell: none of them has an attribute `file_name` (classes.py:227, 234) -/
def Val.getattr (_ : Val) (attr : String) : Py Val := .error (.AttributeError attr)

/-- `os.path.join(a, b)` (classes.py:225, 232) -/
def joinVals (a b : Val) : Py String :=
  match a, b with
  | .str a, .str b => .ok (pathJoin a b)
  | _, _ => .error .TypeError

/-- `f"{v}"`, for strings (classes.py:228, 235) -/
def strOf : Val → Py String
  | .str s => .ok s
  | _ => .error .TypeError

/-- classes.py:223-235 `__str__` and `__repr__`: the name of the file -/
def titration_file (row : Series) : Py String :=
  if row.has "file_path" then do
    let p ← row.getattr "file_path"
    let f ← row.getattr "file_name"
    joinVals p f
  else do
    let ro ← row.getattr "ro"
    let f ← ro.getattr "file_name"
    strOf f

/-- classes.py:223-235 `__str__` and `__repr__` -/
def titration_str (row : Series) : Py String := do
  let f ← titration_file row
  return "calkulate.Titration for file \"" ++ f ++ "\""

/-! ## Alkalinity through the titration -/

/-- a number as attribute (classes.py:239-241, 246, 271, 299-300) -/
def numAttr (row : Series) (k : String) : Py Flt := do
  let v ← row.getattr k
  v.toFlt

/-- classes.py:238-241: one point -/
def acidPoint (alkalinity analyte_mass titrant_molinity m : Flt) : Flt :=
  (fin 1e-6 * alkalinity * analyte_mass - m * titrant_molinity) / (analyte_mass + m)

/-- classes.py:237-241 `get_alkalinity_from_acid` -/
def get_alkalinity_from_acid (row : Series) (t : Table) : Py Table := do
  let alkalinity ← numAttr row "alkalinity"
  let analyte_mass ← numAttr row "analyte_mass"
  let tm ← t.attr "titrant_mass"
  let titrant_molinity ← numAttr row "titrant_molinity"
  t.put "alkalinity_from_acid" (tm.map (acidPoint alkalinity analyte_mass titrant_molinity))

/-- arguments of `pyco2.sys` at classes.py:265-275 (`par1_type=2`, `par2_type=3`,
`opt_pH_scale=3`) -/
structure SysIn where
  dic : List Flt
  pH : List Flt
  salinity : Val
  temperature : List Flt
  totals : Dict NpVal
  ks : Dict (List Flt)

/-- results of `pyco2.sys` that are used (classes.py:276-295) -/
structure SysOut where
  alkalinity : List Flt
  k_CO2 : List Flt
  /-- the substances at classes.py:278-291 -/
  comps : String → List Flt
  alkalinity_alpha : List Flt
  alkalinity_beta : List Flt

/-- classes.py:250-258 -/
def sysTotals : List String :=
  ["total_sulfate", "total_fluoride", "total_borate", "total_phosphate", "total_silicate",
    "total_ammonia", "total_sulfide", "total_alpha", "total_beta"]

/-- classes.py:248-259: one of the totals, in µmol/kg, zero if it is not in the table -/
def sysTotal (t : Table) (k : String) : NpVal :=
  match t.nums.get? k with
  | some xs => .arr (xs.map fun x => x * fin 1e6)
  | none => .scalar (fin 0)

/-- `k.startswith("k_")` (classes.py:263) -/
def isConstant (k : String) : Bool := ['k', '_'].isPrefixOf k.toList

/-- classes.py:278-291 -/
def sysComps : List String :=
  ["HCO3", "CO3", "BOH4", "PO4", "HPO4", "H3PO4", "HSO4", "HF", "H3SiO4", "NH3", "HS", "OH"]

/-- put several columns in turn (classes.py:276-295) -/
def Table.putAll (t : Table) : List (String × List Flt) → Py Table
  | [] => .ok t
  | (c, xs) :: rest => do
    let t ← t.put c xs
    t.putAll rest

/-- classes.py:296-301: one point of `alkalinity_estimate` -/
def estimatePoint (titrant_molinity analyte_mass a m : Flt) : Flt :=
  (a + m * titrant_molinity / (m + analyte_mass)) / get_dilution_factor m analyte_mass

/-- `xs * 1e-6` (classes.py:276, 292, 294-295) -/
def micro (xs : List Flt) : List Flt := xs.map fun x => x * fin 1e-6

/-- classes.py:243-301 `do_CO2SYS` -/
def do_CO2SYS (sys : SysIn → Py SysOut) (row : Series) (t : Table) : Py Table := do
  let tm ← t.attr "titrant_mass"
  let analyte_mass ← numAttr row "analyte_mass"
  let t ← t.put "dilution_factor" (tm.map fun m => get_dilution_factor m analyte_mass)
  let dic ← t.attr "dic"
  let pH ← t.attr "pH"
  let salinity ← row.getattr "salinity"
  let temperature ← t.attr "temperature"
  let r ← sys { dic := dic.map fun x => x * fin 1e6, pH, salinity, temperature,
                totals := sysTotals.map fun k => (k, sysTotal t k),
                ks := t.nums.filter fun kv => isConstant kv.1 }
  let t ← t.putAll ([("alkalinity_from_pH", micro r.alkalinity), ("k_CO2", r.k_CO2)] ++
    (sysComps.map fun c => (c, micro (r.comps c))) ++
    [("H", pH.map fun p => Flt.pow10 (-p)), ("alk_alpha", micro r.alkalinity_alpha),
      ("alk_beta", micro r.alkalinity_beta)])
  let titrant_molinity ← numAttr row "titrant_molinity"
  t.put "alkalinity_estimate"
    (List.zipWith (estimatePoint titrant_molinity analyte_mass) (micro r.alkalinity) tm)

/-- a `Titration` (classes.py:97-204) -/
structure Titration where
  row : Series
  sr : SolveOut
  t : Table

/-- classes.py:171-204 `Titration.__init__` -/
def Titration_init (w : World) (sys : SysIn → Py SysOut) (row : Series) (kw : Dict Val) :
    Py Titration := do
  let row ← titrationRow row kw
  let sr ← titration_solve w row
  let row ← resultRow row sr.sr
  let t ← makeTable sr
  let t ← get_alkalinity_from_acid row t
  let t ← do_CO2SYS sys row t
  return { row, sr, t }

/-- classes.py:12-30 `to_Titration`, and classes.py:69-90 for the method of `Dataset`. The index labels of
the frame are taken to be 0, 1, …; the only keyword arguments are those given here. -/
def to_Titration (w : World) (sys : SysIn → Py SysOut) (ds : DF) (index : ℕ) (kw : Dict Val) :
    Py Titration :=
  match ds.rows[index]? with
  | some r => Titration_init w sys ⟨ds.cols, r⟩ kw
  | none => .error (.KeyError (toString index))

end
end Calk
