import Verif.Text
import Verif.PyS
import Verif.Model.Dataset

/-!
# `calkulate/read/titrations.py`

Files are maps from names to decoded text; missing directories, permissions and encodings are not
modelled.  `pandas.read_csv` and `pandas.read_excel` are parameters.
-/

namespace Calk
noncomputable section

open Flt

/-- the text files there are (for titrations.py:28, 46, 101, 194) -/
abbrev FS := String → Option (List Char)

/-- pandas (titrations.py:91, 105) -/
structure Pandas where
  /-- `pd.read_csv(file_name, skiprows=n, sep=";")`: columns by name -/
  readCsv : String → ℕ → Py (Dict (List Flt))
  /-- the names of those columns of that table which are integer arrays (all values written without
  decimals, none missing) -/
  csvInts : String → ℕ → List String
  /-- `pd.read_excel(file_name, skiprows=1)` -/
  readExcel : String → Py (Dict (List Flt))

/-- open a file and read it as text (titrations.py:46-47, 101-102) -/
def readText (fs : FS) (file_name : String) : Py (List Char) :=
  match fs file_name with
  | some t => .ok (universal t)
  | none => .error .FileNotFoundError

/-! ## numpy -/

/-- numpy.genfromtxt: cut off comments, strip and split a line; an empty line has no values
(for titrations.py:28-30) -/
def splitLine (delimiter : Char) (line : List Char) : List (List Char) :=
  let line := stripEnds (line.takeWhile (· ≠ '#'))
  if line.isEmpty then [] else splitC delimiter line

/-- numpy.genfromtxt: a value that is not a number is NaN (for titrations.py:28-30) -/
def looseFloat (s : List Char) : Flt := (parseFloat s).getD nan

/-- numpy.genfromtxt with `dtype=float`: the rows of numbers; `ValueError` unless all rows have as
many values as the first (for titrations.py:28-30) -/
def genRows (delimiter : Char) (skip_header : ℕ) (text : List Char) : Py (List (List Flt)) :=
  let rows := (((fileLines text).drop skip_header).map (splitLine delimiter)).filter
    fun vs => !vs.isEmpty
  match rows with
  | [] => .ok []
  | first :: _ =>
    if rows.all fun vs => vs.length == first.length then .ok (rows.map fun vs => vs.map looseFloat)
    else .error .ValueError

/-- `data[:, c]` on a two-dimensional array (titrations.py:65-67) -/
def colAt (rows : List (List Flt)) (c : ℤ) : Py (List Flt) :=
  let n : ℤ := (rows.headD []).length
  if 0 ≤ c ∧ c < n then .ok (rows.map fun r => r.getD c.toNat nan)
  else if -n ≤ c ∧ c < 0 then .ok (rows.map fun r => r.getD (c + n).toNat nan)
  else .error .IndexError

/-- `data[:, c]` on what `np.genfromtxt` returns: axes of length one have been removed
(titrations.py:31-33) -/
def colAtSqueezed (rows : List (List Flt)) (c : ℤ) : Py (List Flt) :=
  if rows.length < 2 ∨ (rows.headD []).length < 2 then .error .IndexError else colAt rows c

/-- `np.array(data, dtype="float64")` for lists of strings: `ValueError` if a string is not a number
or the lists have different lengths (titrations.py:64) -/
def strictRow (r : List (List Char)) : Py (List Flt) :=
  match r.mapM parseFloat with
  | some xs => .ok xs
  | none => .error .ValueError

/-- titrations.py:64 `np.array(data, dtype="float64")` -/
def strictRows (rows : List (List (List Char))) : Py (List (List Flt)) :=
  if rows.all fun r => r.length == (rows.headD []).length then mapPy strictRow rows
  else .error .ValueError

/-! ## Readers -/

/-- titrations.py:18-34 `read_dat_genfromtxt` (one-character delimiter; of the other keyword
arguments only `encoding` is taken, and ignored) -/
def read_dat_genfromtxt (fs : FS) (file_name : String) (col_titrant_amount col_measurement
    col_temperature : ℤ) (delimiter : Char) (skip_header : ℕ) : Py DatData := do
  let text ← readText fs file_name
  let data ← genRows delimiter skip_header text
  let titrant_amount ← colAtSqueezed data col_titrant_amount
  let measurement ← colAtSqueezed data col_measurement
  let temperature ← colAtSqueezed data col_temperature
  return { titrant_amount, measurement, temperature }

/-- a digit or a dot (titrations.py:49) -/
def isDigitDot (c : Char) : Bool := isDigit c || c == '.'

/-- titrations.py:49,56: does `[\d\.]*` followed by `k` times `\t[\d\.]*` match at the start of the
line?  (No tab is a digit or a dot, so taking as many of those as possible loses nothing.) -/
def matchFields : ℕ → List Char → Bool
  | 0, _ => true
  | k + 1, s => match s.dropWhile isDigitDot with
    | '\t' :: s => matchFields k s
    | _ => false

/-- titrations.py:50-62: the loop over the lines; `found_any` -/
def pclimsLoop (k : ℕ) : Bool → List (List Char) → List (List Char)
  | _, [] => []
  | found, line :: lines =>
    if matchFields k line then line :: pclimsLoop k true lines
    else if found then [] else pclimsLoop k false lines

/-- titrations.py:63-68: the data as an array; `data[:, c]` on no data at all is an `IndexError` -/
def pclimsColumn (data : List (List Flt)) (c : ℤ) : Py (List Flt) :=
  if data.isEmpty then .error .IndexError else colAt data c

/-- titrations.py:37-68 `read_dat_pclims` -/
def read_dat_pclims (fs : FS) (file_name : String) (col_titrant_amount col_measurement
    col_temperature n_cols : ℤ) : Py DatData := do
  let text ← readText fs file_name
  let lines := pclimsLoop (n_cols - 1).toNat false (splitlines text)
  let data ← strictRows (lines.map (splitC '\t'))
  let titrant_amount ← pclimsColumn data col_titrant_amount
  let measurement ← pclimsColumn data col_measurement
  let temperature ← pclimsColumn data col_temperature
  return { titrant_amount, measurement, temperature }

/-- attribute of a DataFrame (titrations.py:93-96, 149) -/
def colAttr (d : Dict (List Flt)) (c : String) : Py (List Flt) :=
  match d.get? c with
  | some xs => .ok xs
  | none => .error (.AttributeError c)

/-- titrations.py:71-97 `read_dat_orgalk_excel` -/
def read_dat_orgalk_excel (pd : Pandas) (file_name : String) : Py (List (List Flt)) := do
  let data ← pd.readExcel file_name
  let acid ← colAttr data "acid"
  let base ← colAttr data "base"
  let emf ← colAttr data "emf"
  let temperature ← colAttr data "temperature"
  return [acid, base, emf, temperature]

/-- `xs[i]` for a list, where a negative index counts from the end (titrations.py:104) -/
def pyIndex {α : Type} (xs : List α) (i : ℤ) : Py α :=
  match xs[(if 0 ≤ i then i else i + xs.length).toNat]? with
  | some x => if -(xs.length : ℤ) ≤ i then .ok x else .error .IndexError
  | none => .error .IndexError

/-- `xs.index(x)` (titrations.py:103) -/
def pyIndexOf (x : List Char) (xs : List (List Char)) : Py ℕ :=
  if x ∈ xs then .ok (xs.idxOf x) else .error .ValueError

/-- `float(s)` (titrations.py:104) -/
def pyFloat (s : List Char) : Py Flt :=
  match parseFloat s with
  | some x => .ok x
  | none => .error .ValueError

/-- titrations.py:110-121 -/
def tiamoNames : Dict String :=
  [ ("Volumen [mL]", "volume"), ("Messwert", "pH"), ("dMW [pH]", "dpH"), ("Zeit [s]", "time"),
    ("Temperatur [°C]", "temperature"), ("Berechnet 1", "b1"), ("Berechnet 2", "b2"),
    ("Berechnet 3", "b3") ]

/-- titrations.py:110-121 `.rename(columns=...)` -/
def tiamoRename (c : String) : String :=
  match tiamoNames.get? c with
  | some c' => c'
  | none => c

/-- titrations.py:100-123 `_read_tiamo_de_df`; also whether the temperatures are integers -/
def read_tiamo_de_df (fs : FS) (pd : Pandas) (file_name : String) : Py (Dict (List Flt) × Bool) := do
  let text ← readText fs file_name
  let data := splitlines text
  let gran_line ← pyIndexOf "Gran.1".toList data
  let line ← pyIndex data ((gran_line : ℤ) - 3)
  let field ← pyIndex (splitC ';' line) 2
  let volume_start ← pyFloat field
  let table ← pd.readCsv file_name (gran_line + 1)
  let table : Dict (List Flt) := table.map fun kv => (tiamoRename kv.1, kv.2)
  let volume ← table.get "volume"
  return (table.set "volume" (volume.map (· + volume_start)),
    ((pd.csvInts file_name (gran_line + 1)).map tiamoRename).contains "temperature")

/-- titrations.py:126-149 `read_tiamo_de` -/
def read_tiamo_de (fs : FS) (pd : Pandas) (file_name : String) : Py DatData := do
  let (data, temperature_int) ← read_tiamo_de_df fs pd file_name
  let titrant_amount ← colAttr data "volume"
  let measurement ← colAttr data "pH"
  let temperature ← colAttr data "temperature"
  return { titrant_amount, measurement, temperature, temperature_int }

/-! ## `read_dat` -/

/-- titrations.py:152-158 -/
inductive Reader where
  | genfromtxt
  | orgalk_excel
  | pclims
  | tiamo_de
  deriving DecidableEq

/-- titrations.py:152-158 `file_types` -/
def file_types : Dict Reader :=
  [ ("genfromtxt", .genfromtxt), ("vindta", .genfromtxt), ("orgalk_excel", .orgalk_excel),
    ("pclims", .pclims), ("tiamo_de", .tiamo_de) ]

/-- titrations.py:173-176: the reader used and the warning issued (dicts are not hashable) -/
def chooseReader (file_type : Val) : Py (Reader × Option String) :=
  match file_type with
  | .dict _ => .error .TypeError
  | .str s => match file_types.get? s with
    | some r => .ok (r, none)
    | none => .ok (.genfromtxt, some "method 'genfromtxt' not recognised, trying 'genfromtxt'.")
  | _ => .ok (.genfromtxt, some "method 'genfromtxt' not recognised, trying 'genfromtxt'.")

open Classical in
/-- a keyword argument used as an index or a count (the int/float distinction is not modelled)
(titrations.py:18-26, 37-43) -/
def argInt (kw : Dict Val) (k : String) (default : ℤ) : Py ℤ :=
  match kw.get? k with
  | none => .ok default
  | some (.num (.fin x)) => if x = ⌊x⌋ then .ok ⌊x⌋ else .error .IndexError
  | some _ => .error .IndexError

/-- a one-character delimiter (titrations.py:23) -/
def argDelimiter (kw : Dict Val) : Py Char :=
  match kw.get? "delimiter" with
  | none => .ok '\t'
  | some (.str s) => match s.toList with
    | [c] => .ok c
    | _ => .error (.Other "delimiter")
  | some _ => .error (.Other "delimiter")

/-- keyword arguments a reader does not have are a `TypeError` (titrations.py:176) -/
def acceptOnly (keys : List String) (kw : Dict Val) : Py Unit :=
  if kw.all fun kv => keys.contains kv.1 then .ok () else .error .TypeError

/-- what a reader returns: a `DatData`, or just a tuple (titrations.py:13-15, 92-97) -/
inductive ReadResult where
  | dat (d : DatData)
  | tuple (xs : List (List Flt))

/-- call a reader with keyword arguments (titrations.py:176) -/
def callReader (fs : FS) (pd : Pandas) (file_name : String) (kw : Dict Val) : Reader → Py ReadResult
  | .genfromtxt => do
    acceptOnly ["col_titrant_amount", "col_measurement", "col_temperature", "delimiter",
      "skip_header", "encoding"] kw
    let c0 ← argInt kw "col_titrant_amount" 0
    let c1 ← argInt kw "col_measurement" 1
    let c2 ← argInt kw "col_temperature" 2
    let delimiter ← argDelimiter kw
    let skip_header ← argInt kw "skip_header" 2
    let d ← read_dat_genfromtxt fs file_name c0 c1 c2 delimiter skip_header.toNat
    return .dat d
  | .pclims => do
    acceptOnly ["col_titrant_amount", "col_measurement", "col_temperature", "n_cols"] kw
    let c0 ← argInt kw "col_titrant_amount" 1
    let c1 ← argInt kw "col_measurement" 2
    let c2 ← argInt kw "col_temperature" 5
    let n_cols ← argInt kw "n_cols" 6
    let d ← read_dat_pclims fs file_name c0 c1 c2 n_cols
    return .dat d
  | .orgalk_excel => do
    acceptOnly [] kw
    let t ← read_dat_orgalk_excel pd file_name
    return .tuple t
  | .tiamo_de => do
    acceptOnly ["encoding"] kw
    let d ← read_tiamo_de fs pd file_name
    return .dat d

/-- titrations.py:171-177 `read_dat` -/
def read_dat (fs : FS) (pd : Pandas) (file_name : String) (kw : Dict Val) : Py ReadResult := do
  let (reader, _) ← chooseReader (argVal kw "file_type" (.str "genfromtxt"))
  callReader fs pd file_name (kw.filter fun kv => kv.1 ≠ "file_type") reader

/-- `read_dat(...)` as used in files.py: the result needs its named fields -/
def asDatData : ReadResult → Py DatData
  | .dat d => .ok d
  | .tuple _ => .error (.AttributeError "titrant_amount")

/-- files.py:108-112: `read_dat`, whose result must be a `DatData` for what follows -/
def readDatFrom (fs : FS) (pd : Pandas) (file_name : String) (kw : Dict Val) : Py DatData := do
  let r ← read_dat fs pd file_name kw
  asDatData r

/-! ## `write_dat` -/

/-- titrations.py:199-213: the line for a point -/
def datLine (k0 k1 k2 : ℕ) (p : Flt × Flt × Flt) : List Char :=
  fmtF k0 p.1 ++ ['\t'] ++ fmtF k1 p.2.1 ++ ['\t'] ++ fmtF k2 p.2.2 ++ ['\n']

/-- everything `write_dat` writes (titrations.py:195-213) -/
def datText (line0 line1 : List Char) (k0 k1 k2 : ℕ) (ps : List (Flt × Flt × Flt)) : List Char :=
  line0 ++ ['\n'] ++ line1 ++ ['\n'] ++ (ps.map (datLine k0 k1 k2)).flatten

/-- `open(filepath, mode)` for writing: what is in the file to begin with (titrations.py:194) -/
def openWrite (fs : FS) (filepath mode : String) : Py (List Char) :=
  if mode = "x" then
    match fs filepath with
    | none => .ok []
    | some _ => .error .FileExistsError
  else if mode = "w" then .ok []
  else if mode = "a" then .ok ((fs filepath).getD [])
  else .error .ValueError

/-- titrations.py:180-213 `write_dat` with formats `".{k}f"` and arrays of numbers -/
def write_dat (filepath : String) (titrant_amount measurement temperature : List Flt)
    (line0 : String := "Titration data exported by Calkulate")
    (line1 : String := "titrant_amount\tmeasurement\ttemperature") (mode : String := "x")
    (k0 : ℕ := 3) (k1 : ℕ := 3) (k2 : ℕ := 3) : PyS FS Unit := fun fs =>
  match openWrite fs filepath mode with
  | .error e => (.error e, fs)
  | .ok start =>
    let text := start ++ datText line0.toList line1.toList k0 k1 k2
      (titrant_amount.zip (measurement.zip temperature))
    (.ok (), fun f => if f = filepath then some text else fs f)

end
end Calk
