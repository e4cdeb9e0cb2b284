import Verif.Model.Metadata
import Verif.Model.Classes

/-! # Row labels: `calkulate/read/metadata.py`, `calkulate/classes.py`

The index of a DataFrame.  The other modules leave it out: dataset.py only assigns whole columns back to the
frame they were computed from (pandas then does not look at the labels), and `read_dbs` works on a table that
has just been read, with the labels 0, 1, …  Here the functions that do look rows up by their labels are
modelled with them: `to_Titration` (`ds.loc[index]`), `get_VINDTA_filenames` (`dbs.loc[i, ...] = ...`) and
`add_func_cols` (`df.join`).  Labels are of any type `L` with an equality (no NaN). -/

namespace Calk
noncomputable section

open Flt

variable {L : Type} [DecidableEq L]

/-- a DataFrame with its index: every row has a label (classes.py:30, metadata.py:35, 63-76) -/
structure LDF (L : Type) where
  cols : List String
  rows : List (L × Row)

/-- the frame without its index (metadata.py:35, 63) -/
def LDF.plain (df : LDF L) : DF := ⟨df.cols, df.rows.map Prod.snd⟩

/-- the frame with the rows replaced one by one, under the same labels (metadata.py:60-62) -/
def LDF.withRows (df : LDF L) (d : DF) : LDF L := ⟨d.cols, (df.rows.map Prod.fst).zip d.rows⟩

/-- a frame that has just been read: the labels are 0, 1, … (metadata.py:116) -/
def fresh (d : DF) : LDF ℕ := ⟨d.cols, (List.range d.rows.length).zip d.rows⟩

/-- the rows of `ds.loc[index]` (classes.py:30) -/
def LDF.loc (df : LDF L) (l : L) : List Row := (df.rows.filter fun p => p.1 = l).map Prod.snd

/-- classes.py:12-30 `to_Titration`, by label.  If several rows have the label, `ds.loc[index]` is a
DataFrame; what `Titration` does with that is not modelled. -/
def to_Titration_at (w : World) (sys : SysIn → Py SysOut) (name : L → String) (ds : LDF L) (index : L)
    (kw : Dict Val) : Py Titration :=
  match ds.loc index with
  | [] => .error (.KeyError (name index))
  | [r] => Titration_init w sys ⟨ds.cols, r⟩ kw
  | _ => .error (.Other "not modelled")

/-- `dbs.loc[l, c] = v`: in every row with that label (metadata.py:65, 73-76) -/
def setLoc (l : L) (c : String) (v : Val) (rows : List (L × Row)) : List (L × Row) :=
  rows.map fun p => if p.1 = l then (p.1, p.2.put c v) else p

/-- metadata.py:64-76: one turn of the loop.  `l` and `r` come from `iterrows`, which hands out the rows as
they were when the loop began. -/
def vindtaRowAt (lib : DbsLib) (fmt : List Piece) (cols : List String) (l : L) (r : Row) :
    PyS (List (L × Row)) Unit := do
  let run_type ← PyS.lift (rowAttr cols r "run_type")
  if run_type.isStr "bottle" then do
    let id ← PyS.lift (bottleId lib cols r)
    PyS.modify (setLoc l "file_name" (.str (String.ofList (formatName fmt id))))
  else if run_type.isStr "CRM" then do
    let name ← PyS.lift (crmName lib cols r)
    PyS.modify (setLoc l "file_name" (.str (String.ofList name)))
    let cert ← PyS.lift (rowItem cols r "cert. CRM AT")
    PyS.modify (setLoc l "alkalinity_certified" cert)
  else PyS.modify (setLoc l "file_good" (.bool false))

/-- metadata.py:63: the loop over the rows -/
def vindtaLoopAt (lib : DbsLib) (fmt : List Piece) (cols : List String) :
    List (L × Row) → PyS (List (L × Row)) Unit
  | [] => PyS.lift (.ok ())
  | (l, r) :: rest => do
    vindtaRowAt lib fmt cols l r
    vindtaLoopAt lib fmt cols rest

/-- metadata.py:56-77 `get_VINDTA_filenames`, by label.  (As in `Model.Metadata`: after an exception the
column of certified values may be there too early.) -/
def get_VINDTA_filenames_at (lib : DbsLib) (fmt : List Piece) : PyS (LDF L) Unit := fun df =>
  let init := df.withRows (vindtaInit df.plain)
  let out := df.withRows (certifiedCol (vindtaInit df.plain))
  match vindtaLoopAt lib fmt init.cols init.rows out.rows with
  | (x, rows) => (x, { out with rows })

/-- metadata.py:33-35 `add_func_cols`, by label: `join` puts beside a row every result that has its label -/
def add_func_cols_at (names : List String) (func : List String → Row → Py Row) (df : LDF L) :
    Py (LDF L) := do
  let results ← mapPy (fun p : L × Row => do
    let s ← func df.cols p.2
    return (p.1, s)) df.rows
  if names.any (df.cols.contains ·) then .error .ValueError
  else .ok { cols := names.foldl addCol df.cols,
             rows := df.rows.flatMap fun p => (results.filter fun q => q.1 = p.1).map fun q =>
               (p.1, names.foldl (fun r' c => r'.put c (q.2 c)) p.2) }

/-- `df[c] = ...` with a value for every row (metadata.py:119, 121-129) -/
def LDF.setCol (df : LDF L) (c : String) (f : Row → Val) : LDF L where
  cols := addCol df.cols c
  rows := df.rows.map fun p => (p.1, p.2.put c (f p.2))

/-- metadata.py:123-126, by label -/
def setAnalyteAt (analyte_volume : Flt) (analyte_mass : Option Flt) (df : LDF L) : LDF L :=
  match analyte_mass with
  | none => df.setCol "analyte_volume" fun _ => .num analyte_volume
  | some m => df.setCol "analyte_mass" fun _ => .num m

/-- metadata.py:127-129, by label -/
def setFilePathAt (file_path : Val) (df : LDF L) : Py (LDF L) :=
  match file_path with
  | .none => .ok df
  | .str p => .ok (df.setCol "file_path" fun _ => .str p)
  | _ => .error .AssertionError

/-- metadata.py:80-130 `read_dbs`, from the table that pandas reads on, by label.  `date2num` is the identity
on day numbers. -/
def read_dbs_at (lib : DbsLib) (table : DF) (fname : String) (analyte_volume : Flt)
    (analyte_mass : Option Flt) (file_path : Val) (fmt : List Piece) : Py (LDF ℕ) := do
  let df := (fresh (renameRunType table)).setCol "dbs_fname" fun _ => .str fname
  let df ← add_func_cols_at ["analysis_datetime"] (fun cols r => do
    let t ← dbs_datetime lib cols r
    return fun _ => .num t) df
  let df := df.setCol "analysis_datenum" fun r => r "analysis_datetime"
  match get_VINDTA_filenames_at lib fmt df with
  | (.error e, _) => .error e
  | (.ok _, df) => setFilePathAt file_path (setAnalyteAt analyte_volume analyte_mass df)

end
end Calk
