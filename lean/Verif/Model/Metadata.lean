import Verif.Model.Dataset
import Verif.Text

/-! # `calkulate/read/metadata.py`

Tables are those of `Verif.Model.Dataset` (unique index labels).  A format string is the list of its
pieces (its parsing by `str.format` is not modelled); `str` of a number, `int` of a string,
`np.datetime64` of a string, `matplotlib.dates.date2num` and `pd.read_table` are parameters.
`read_clipboard`, `read_csv`, `read_excel`, `read_fwf` and `read_table` only wrap pandas. -/

namespace Calk
noncomputable section

open Flt

/-- What the functions below use of Python, numpy and matplotlib (metadata.py:42, 66-70, 121). -/
structure DbsLib where
  /-- `str(x)` for a number -/
  numStr : Flt → List Char
  /-- `str(v)` for other values (not strings) -/
  otherStr : Val → List Char
  /-- `int(s)` for a string -/
  intStr : String → Py Int
  /-- `np.datetime64(s)`, as a day number with fraction; `none` stands for a string it refuses -/
  datetime64 : List Char → Option Flt

/-- `f"{v}"` (metadata.py:73) -/
def DbsLib.str (lib : DbsLib) : Val → List Char
  | .str s => s.toList
  | .num x => lib.numStr x
  | v => lib.otherStr v

/-- `int(v)`: numbers are truncated towards zero (metadata.py:66-69) -/
def DbsLib.int (lib : DbsLib) : Val → Py Int
  | .num (.fin x) => .ok (if 0 ≤ x then ⌊x⌋ else ⌈x⌉)
  | .num .nan => .error .ValueError
  | .num _ => .error (.Other "OverflowError")
  | .bool b => .ok (if b then 1 else 0)
  | .str s => lib.intStr s
  | _ => .error .TypeError

/-- `str(i)` for an integer (metadata.py:65-71) -/
def intChars (i : Int) : List Char :=
  (if i < 0 then ['-'] else []) ++ natChars i.natAbs

/-- pieces of a file name format: text, or one of the keys s, c, n, d, b (metadata.py:56, 100-108) -/
inductive Piece where
  | lit (s : List Char)
  | station | cast | niskin | depth | bottle

/-- the default `filename_format="{s}-{c}  {n}  ({d}){b}.dat"` (metadata.py:56) -/
def defaultFormat : List Piece :=
  [.station, .lit ['-'], .cast, .lit [' ', ' '], .niskin, .lit [' ', ' ', '('], .depth, .lit [')'],
    .bottle, .lit ['.', 'd', 'a', 't']]

/-- the values for the keys (metadata.py:65-71) -/
structure BottleId where
  station : Int
  cast : Int
  niskin : Int
  depth : Int
  bottle : List Char

/-- `filename_format.format(s=..., c=..., n=..., d=..., b=...)` (metadata.py:65-71) -/
def formatName (fmt : List Piece) (id : BottleId) : List Char :=
  fmt.flatMap fun
    | .lit s => s
    | .station => intChars id.station
    | .cast => intChars id.cast
    | .niskin => intChars id.niskin
    | .depth => intChars id.depth
    | .bottle => id.bottle

/-- metadata.py:65-71: the values for the keys, in the order they are evaluated -/
def bottleId (lib : DbsLib) (cols : List String) (r : Row) : Py BottleId := do
  let s ← rowAttr cols r "station"
  let station ← lib.int s
  let c ← rowAttr cols r "cast"
  let cast ← lib.int c
  let n ← rowAttr cols r "niskin"
  let niskin ← lib.int n
  let d ← rowAttr cols r "depth"
  let depth ← lib.int d
  let b ← rowAttr cols r "bottle"
  return { station, cast, niskin, depth, bottle := lib.str b }

/-- metadata.py:73: `f"CRM{row.batch}{row.bottle}.dat"` -/
def crmName (lib : DbsLib) (cols : List String) (r : Row) : Py (List Char) := do
  let a ← rowAttr cols r "batch"
  let b ← rowAttr cols r "bottle"
  return "CRM".toList ++ lib.str a ++ lib.str b ++ ".dat".toList

/-- `row[c]` (metadata.py:41, 45, 64-74) -/
def rowItem (cols : List String) (r : Row) (c : String) : Py Val :=
  if cols.contains c then .ok (r c) else .error (.KeyError c)

/-- `v == s` for a string `s` (metadata.py:64, 72) -/
def Val.isStr (v : Val) (s : String) : Bool :=
  match v with
  | .str t => t == s
  | _ => false

/-- metadata.py:64-76: one row.  An exception while the certified value is looked up comes after the
file name has been stored, hence the state. -/
def vindtaRow (lib : DbsLib) (fmt : List Piece) (cols : List String) : PyS Row Unit := do
  let r ← PyS.get
  let run_type ← PyS.lift (rowAttr cols r "run_type")
  if run_type.isStr "bottle" then do
    let id ← PyS.lift (bottleId lib cols r)
    PyS.modify fun r => r.put "file_name" (.str (String.ofList (formatName fmt id)))
  else if run_type.isStr "CRM" then do
    let name ← PyS.lift (crmName lib cols r)
    PyS.modify fun r => r.put "file_name" (.str (String.ofList name))
    let cert ← PyS.lift (rowItem cols r "cert. CRM AT")
    PyS.modify fun r => r.put "alkalinity_certified" cert
  else PyS.modify fun r => r.put "file_good" (.bool false)

/-- metadata.py:63: the loop over the rows -/
def vindtaLoop (lib : DbsLib) (fmt : List Piece) (cols : List String) : PyS (List Row) Unit
  | [] => (.ok (), [])
  | r :: rs =>
    match vindtaRow lib fmt cols r with
    | (.ok _, r') => let (x, rs') := vindtaLoop lib fmt cols rs; (x, r' :: rs')
    | (.error e, r') => (.error e, r' :: rs)

/-- is this row a CRM run? (metadata.py:72) -/
def isCRM (r : Row) : Bool := (r "run_type").isStr "CRM"

/-- metadata.py:74: `dbs.loc[i, "alkalinity_certified"] = ...` makes the column if it is not there,
null elsewhere.  (After an exception in an earlier row the column is not yet there; this is not
modelled.) -/
def certifiedCol (df : DF) : DF :=
  if !df.has "alkalinity_certified" && df.rows.any isCRM then
    df.setCol "alkalinity_certified" fun _ => .num nan
  else df

/-- metadata.py:60-62 -/
def vindtaInit (df : DF) : DF := defaultFileGood (df.setCol "file_name" fun _ => .str "")

/-- metadata.py:56-77 `get_VINDTA_filenames` -/
def get_VINDTA_filenames (lib : DbsLib) (fmt : List Piece) : PyS DF Unit := fun df =>
  let df := vindtaInit df
  let out := certifiedCol df
  match vindtaLoop lib fmt df.cols out.rows with
  | (x, rows) => (x, { out with rows })

/-! ## Dates -/

/-- metadata.py:41-44: the day in the text handed to `np.datetime64` -/
def dbsDay (date : List Char) : Py (List Char) :=
  match splitC '/' date with
  | d0 :: d1 :: d2 :: _ => .ok ("20".toList ++ d2 ++ '-' :: d0 ++ '-' :: d1)
  | _ => .error .IndexError

/-- `"..." + v` for a string on the left (metadata.py:43-45) -/
def Val.addStr : Val → Py (List Char)
  | .str s => .ok s.toList
  | _ => .error .TypeError

/-- `np.datetime64(text)` (metadata.py:42-46) -/
def DbsLib.toDatetime (lib : DbsLib) (text : List Char) : Py Flt :=
  match lib.datetime64 text with
  | some t => .ok t
  | none => .error .ValueError

/-- metadata.py:38-53 `dbs_datetime`; `nan` stands for NaT -/
def dbs_datetime (lib : DbsLib) (cols : List String) (r : Row) : Py Flt := do
  let date ← rowItem cols r "date"
  match date with
  | .str date => do
    let day ← dbsDay date.toList
    let time ← rowItem cols r "time"
    let time ← time.addStr
    lib.toDatetime (day ++ 'T' :: time)
  | _ => .ok nan

/-! ## read_dbs -/

/-- metadata.py:33-35 `add_func_cols`: `df.join(df.apply(func, axis=1))`, where `func` returns for every
row a Series with the labels `names`.  `join` refuses columns that are there already. -/
def add_func_cols (names : List String) (func : List String → Row → Py Row) (df : DF) : Py DF := do
  let rows ← mapPy (fun r => do
    let s ← func df.cols r
    return names.foldl (fun r' c => r'.put c (s c)) r) df.rows
  if names.any df.has then .error .ValueError
  else .ok { cols := names.foldl addCol df.cols, rows }

/-- metadata.py:116-118: `.rename(columns={"run type": "run_type"})`; there is no column
`run_type` before -/
def renameRunType (df : DF) : DF where
  cols := df.cols.map fun c => if c = "run type" then "run_type" else c
  rows := df.rows.map fun r c => if c = "run_type" ∧ df.has "run type" then r "run type" else r c

/-- metadata.py:123-126 -/
def setAnalyte (analyte_volume : Flt) (analyte_mass : Option Flt) (df : DF) : DF :=
  match analyte_mass with
  | none => df.setCol "analyte_volume" fun _ => .num analyte_volume
  | some m => df.setCol "analyte_mass" fun _ => .num m

/-- metadata.py:127-129 -/
def setFilePath (file_path : Val) (df : DF) : Py DF :=
  match file_path with
  | .none => .ok df
  | .str p => .ok (df.setCol "file_path" fun _ => .str p)
  | _ => .error .AssertionError

/-- metadata.py:80-130 `read_dbs`, from the table that pandas reads on.  `date2num` is the identity on
day numbers. -/
def read_dbs (lib : DbsLib) (table : DF) (fname : String) (analyte_volume : Flt)
    (analyte_mass : Option Flt) (file_path : Val) (fmt : List Piece) : Py DF := do
  let df := (renameRunType table).setCol "dbs_fname" fun _ => .str fname
  let df ← add_func_cols ["analysis_datetime"] (fun cols r => do
    let t ← dbs_datetime lib cols r
    return fun _ => .num t) df
  let df := df.setCol "analysis_datenum" fun r => r "analysis_datetime"
  match get_VINDTA_filenames lib fmt df with
  | (.error e, _) => .error e
  | (.ok _, df) => setFilePath file_path (setAnalyte analyte_volume analyte_mass df)

end
end Calk
