import Verif.Model.Interface

/-! # `calkulate/convert.py: amount_units`, `calkulate/core.py: totals_ks`, `calkulate/files.py` -/

namespace Calk
noncomputable section

open Flt

/-! ## Key sets -/

/-- convert.py:256 `keys_cau`: the keyword parameters of `amount_units` -/
def keys_cau : List String :=
  [ "analyte_mass", "analyte_volume", "molinity_H2SO4", "molinity_HCl", "molinity_NaCl",
    "temperature_override", "titrant_amount_unit", "titrant_density", "titrant" ]

/-- core.py:109-140 `keys_totals_ks` -/
def keys_totals_ks : List String :=
  [ "dic", "dilute_totals_for_ks", "k_alpha", "k_ammonia", "k_beta", "k_bisulfate", "k_borate",
    "k_carbonic_1", "k_carbonic_2", "k_fluoride", "k_phosphoric_1", "k_phosphoric_2",
    "k_phosphoric_3", "k_silicate", "k_sulfide", "k_water", "opt_k_bisulfate", "opt_k_carbonic",
    "opt_k_fluoride", "opt_pH_scale", "opt_total_borate", "total_alpha", "total_ammonia",
    "total_beta", "total_borate", "total_fluoride", "total_phosphate", "total_silicate",
    "total_sulfate", "total_sulfide" ]

/-- read/titrations.py:159-168 `keys_read_dat` -/
def keys_read_dat : List String :=
  [ "col_measurement", "col_temperature", "col_titrant_amount", "delimiter", "encoding",
    "file_type", "n_cols", "skip_header" ]

/-- core.py:1250 `keys_solve_emf` -/
def keys_solve_emf : List String :=
  [ "alkalinity_init", "double", "emf0_init", "gran_logic", "pH_min", "pH_max",
    "titrant_normality" ]
/-- core.py:1251 `keys_solve_pH` -/
def keys_solve_pH : List String := ["pH_min", "pH_max", "titrant_normality"]
/-- core.py:1252 `keys_solve_pH_gran` -/
def keys_solve_pH_gran : List String := ["pH_min", "pH_max", "titrant_normality"]
/-- core.py:1253-1255 `keys_titrant_totals` -/
def keys_titrant_totals : List String :=
  ["titrant_total_sulfate", "titrant_total_phosphate", "titrant_total_fluoride"]
/-- core.py:1256-1257 `keys_calibrate_emf` -/
def keys_calibrate_emf : List String :=
  [ "alkalinity_init", "emf0_init", "double", "pH_min", "pH_max", "titrant_molinity_init",
    "titrant_normality" ] ++ keys_titrant_totals
/-- core.py:1258-1259 `keys_calibrate_pH` -/
def keys_calibrate_pH : List String :=
  ["pH_min", "pH_max", "titrant_molinity_init", "titrant_normality"] ++ keys_titrant_totals
/-- core.py:1260-1261 `keys_calibrate_pH_gran` -/
def keys_calibrate_pH_gran : List String :=
  ["pH_min", "pH_max", "titrant_molinity_init", "titrant_normality"] ++ keys_titrant_totals

/-- `a | b` for sets of strings, kept as lists without repeats (files.py:41-59) -/
def setUnion (a b : List String) : List String := a ++ b.filter fun k => !a.contains k

/-- files.py:41-49 `keys_calibrate` -/
def keys_calibrate : List String :=
  [keys_cau, keys_totals_ks, keys_calibrate_emf, keys_calibrate_pH, keys_calibrate_pH_gran,
    ["solve_mode", "file_path"]].foldl setUnion keys_read_dat
/-- files.py:50-59 `keys_solve` -/
def keys_solve : List String :=
  [keys_cau, keys_totals_ks, keys_titrant_totals, keys_solve_emf, keys_solve_pH,
    keys_solve_pH_gran, ["solve_mode", "file_path"]].foldl setUnion keys_read_dat

/-! ## Unit conversion -/

/-- convert.py:14-17 `Converted` -/
structure Converted where
  titrant_mass : List Flt
  measurement : List Flt
  temperature : List Flt
  analyte_mass : Flt
  salinity : Flt

/-- convert.py:212-237: titrant masses in kg -/
def titrant_masses (dd : DatData) (kw : Dict Val) : Py (List Flt) := do
  let unit ← (argVal kw "titrant_amount_unit" (.str "ml")).lower
  pyAssert (unit ∈ ["ml", "g", "kg"])
  if unit = "ml" then do
    let density ← argOpt kw "titrant_density"
    match density with
    | none =>
      let titrant ← (argVal kw "titrant" (.str "HCl")).upper
      pyAssert (titrant ∈ ["H2SO4", "HCL"])
      if titrant = "H2SO4" then do
        let m ← argNum kw "molinity_H2SO4" (fin 0.1)
        return dd.titrant_amount.map fun x => x * H2SO4_25C_EAIM m * fin 1e-3
      else do
        let mHCl ← argNum kw "molinity_HCl" (fin 0.1)
        let mNaCl ← argNum kw "molinity_NaCl" (fin 0.6)
        return dd.titrant_amount.map fun x => x * HCl_NaCl_25C_DSC07 mHCl mNaCl * fin 1e-3
    | some d => return dd.titrant_amount.map fun x => x * d * fin 1e-3
  else if unit = "g" then return dd.titrant_amount.map fun x => x * fin 1e-3
  else return dd.titrant_amount

/-- convert.py:238-250: the analyte mass in kg -/
def get_analyte_mass (temperature : List Flt) (salinity : Flt) (kw : Dict Val) : Py Flt := do
  let mass ← argNotNull kw "analyte_mass"
  match mass with
  | some m => return m
  | none =>
    let volume ← argNotNull kw "analyte_volume"
    match volume, temperature with
    | none, _ => .error .AssertionError
    | some _, [] => .error .IndexError
    | some v, t :: _ => return v * seawater_1atm_MP81 t salinity * fin 1e-3

/-- conversion of a float to a 64-bit integer by `np.full_like` (convert.py:209): the decimals are cut
off; what is no number or too large becomes the smallest integer (as on x86-64) -/
def toInt64 : Flt → Flt
  | .fin x =>
    let z : ℤ := if 0 ≤ x then ⌊x⌋ else ⌈x⌉
    if -2 ^ 63 ≤ z ∧ z < 2 ^ 63 then .fin z else .fin (-2 ^ 63)
  | _ => .fin (-2 ^ 63)

/-- convert.py:207-211: `np.full_like(temperature, temperature_override)` if that is not None; the new
array has the dtype of the old one -/
def override_temperature (dd : DatData) (kw : Dict Val) : Py (List Flt) := do
  let override ← argOpt kw "temperature_override"
  match override with
  | none => return dd.temperature
  | some t => return dd.temperature.map fun _ => if dd.temperature_int then toInt64 t else t

/-- convert.py:147-253 `amount_units` -/
def amount_units (dd : DatData) (salinity : Flt) (kw : Dict Val) : Py Converted := do
  let temperature ← override_temperature dd kw
  let titrant_mass ← titrant_masses dd kw
  let analyte_mass ← get_analyte_mass temperature salinity kw
  return { titrant_mass, measurement := dd.measurement, temperature, analyte_mass, salinity }

/-! ## Totals and constants through the titration -/

/-- core.py:406-424: arguments that `totals_ks` passes to `get_totals` -/
def keys_get_totals : List String :=
  [ "dic", "total_alpha", "total_beta", "total_ammonia", "total_phosphate", "total_silicate",
    "total_sulfide", "total_borate", "total_fluoride", "total_sulfate", "opt_k_carbonic",
    "opt_total_borate" ]

/-- core.py:437-462: arguments that `totals_ks` passes to `get_k_constants` -/
def keys_get_k_constants : List String :=
  [ "k_alpha", "k_ammonia", "k_beta", "k_bisulfate", "k_borate", "k_carbonic_1", "k_carbonic_2",
    "k_fluoride", "k_phosphoric_1", "k_phosphoric_2", "k_phosphoric_3", "k_silicate", "k_sulfide",
    "k_water", "opt_k_bisulfate", "opt_k_carbonic", "opt_k_fluoride", "opt_pH_scale",
    "opt_total_borate" ]

/-- core.py:427-435: the totals that the constants are evaluated with, diluted on request -/
def totals_for_ks (cv : Converted) (tp : Dict NpVal) (kw : Dict Val) : Py (Dict NpVal) :=
  if (argVal kw "dilute_totals_for_ks" (.bool false)).truthy then
    dilute_totals_pyco2 tp cv.titrant_mass cv.analyte_mass
  else .ok tp

/-- core.py:355-466 `totals_ks` -/
def totals_ks (w : World) (cv : Converted) (kw : Dict Val) : Py (Dict NpVal × Dict NpVal) := do
  let (t, tp) ← get_totals w cv.salinity (kw.filter fun kv => keys_get_totals.contains kv.1)
  let totals ← dilute_totals t cv.titrant_mass cv.analyte_mass
  let totals_pyco2 ← totals_for_ks cv tp kw
  let ks ← get_k_constants w totals_pyco2 cv.temperature
    (kw.filter fun kv => keys_get_k_constants.contains kv.1)
  return (totals, ks)

/-! ## files.py -/

/-- `os.path.join(a, b)` (POSIX) (files.py:107, 213) -/
def pathJoin (a b : String) : String :=
  if b.toList.head? = some '/' then b
  else if a = "" ∨ a.toList.getLast? = some '/' then a ++ b
  else a ++ "/" ++ b

/-- files.py:106-107, 212-213 -/
def full_name (file_name : String) (kw : Dict Val) : Py String :=
  match kw.get? "file_path" with
  | none => .ok file_name
  | some (.str p) => .ok (pathJoin p file_name)
  | some _ => .error .TypeError

/-- files.py:105-115 and 208-219: read the file, convert units, get totals and constants -/
def load (w : World) (file_name : String) (salinity : Flt) (kw : Dict Val) :
    Py (Converted × Dict NpVal × Dict NpVal) := do
  let fname ← full_name file_name kw
  let dd ← w.readDat fname (get_kwargs_for keys_read_dat kw none)
  let cv ← amount_units dd salinity (get_kwargs_for keys_cau kw none)
  let (totals, ks) ← totals_ks w cv (get_kwargs_for keys_totals_ks kw none)
  return (cv, totals, ks)

/-- `solve_mode.lower()` (files.py:117, 232) -/
def solve_mode (kw : Dict Val) : Py String := (argVal kw "solve_mode" (.str "emf")).lower

/-- the titrant totals among the keyword arguments, in the order given
(files.py:222, core.py:1253-1255) -/
def titrant_totals (kw : Dict Val) : Py (List (String × Flt)) :=
  Dict.mapValsM (fun _ v => v.toFlt) (kw.filter fun kv => keys_titrant_totals.contains kv.1)

/-- keyword arguments of `solve_emf` from a dict (files.py:119, 234, 247) -/
def emf_opts (kw : Dict Val) : Py (EmfOpts × Bool) := do
  let alkalinity_init ← argOpt kw "alkalinity_init"
  let emf0_init ← argOpt kw "emf0_init"
  let pH_min ← argNum kw "pH_min" (fin 3)
  let pH_max ← argNum kw "pH_max" (fin 4)
  let titrant_normality ← argNum kw "titrant_normality" (fin 1)
  let gran_logic := match argVal kw "gran_logic" (.str "v23.7+") with
    | .str s => s
    | _ => ""
  return ({ alkalinity_init, emf0_init, gran_logic, pH_min, pH_max, titrant_normality },
    (argVal kw "double" (.bool true)).truthy)

/-- keyword arguments of `solve_pH` and `solve_pH_gran` from a dict (files.py:148, 263, 276) -/
def ph_opts (kw : Dict Val) : Py PHOpts := do
  let pH_min ← argNum kw "pH_min" (fin 3)
  let pH_max ← argNum kw "pH_max" (fin 4)
  let titrant_normality ← argNum kw "titrant_normality" (fin 1)
  return { pH_min, pH_max, titrant_normality }

/-- Results of `files.solve`: the three namedtuples, with the arrays they echo
(files.py:232-289, core.py:56-107). -/
inductive SolveRes where
  | emf (sr : SolveEmf) (temperature : List Flt)
  | pH (sr : SolvePH) (pH temperature : List Flt)
  | pH_gran (sr : SolvePHGran) (pH temperature : List Flt)

/-- `sr.alkalinity`, core.py:59, 79, 95 -/
def SolveRes.alkalinity : SolveRes → Flt
  | .emf sr _ => sr.alkalinity
  | .pH sr _ _ => sr.alkalinity
  | .pH_gran sr _ _ => sr.alkalinity

/-- element-wise `pH_to_emf(measurement, 0, temperature)` (files.py:135, 250) -/
def pH_to_emf_arr (pH temperature : List Flt) : Py (List Flt) := do
  sameShape2 pH temperature
  return List.zipWith (fun p t => pH_to_emf p (fin 0) t) pH temperature

/-- files.py:231-289: run the solver for the mode -/
def solve_dispatch (w : World) (mode : String) (cv : Converted) (titrant_molinity : Flt)
    (totals ks : Dict NpVal) (kw : Dict Val) : Py SolveRes :=
  if mode = "emf" then do
    let (o, double) ← emf_opts (get_kwargs_for keys_solve_emf kw none)
    let sr ← solve_emf w.ls titrant_molinity cv.titrant_mass cv.measurement cv.temperature
      cv.analyte_mass totals ks o double
    return .emf sr cv.temperature
  else if mode = "ph_adjust" then do
    let (o, double) ← emf_opts
      ((get_kwargs_for keys_solve_emf kw none).set "emf0_init" (.num (fin 0)))
    let emf ← pH_to_emf_arr cv.measurement cv.temperature
    let sr ← solve_emf w.ls titrant_molinity cv.titrant_mass emf cv.temperature
      cv.analyte_mass totals ks o double
    return .emf sr cv.temperature
  else if mode = "ph" then do
    let o ← ph_opts (get_kwargs_for keys_solve_pH kw none)
    let sr ← solve_pH titrant_molinity cv.titrant_mass cv.measurement cv.analyte_mass totals ks o
    return .pH sr cv.measurement cv.temperature
  else if mode = "ph_gran" then do
    let o ← ph_opts (get_kwargs_for keys_solve_pH_gran kw none)
    let sr ← solve_pH_gran titrant_molinity cv.titrant_mass cv.measurement cv.analyte_mass o
    return .pH_gran sr cv.measurement cv.temperature
  else .error .Exception

/-- files.py:179-289 `solve` -/
def files_solve (w : World) (file_name : String) (titrant_molinity salinity : Flt)
    (kw : Dict Val) : Py SolveRes := do
  let (cv, totals, ks) ← load w file_name salinity kw
  let tts ← titrant_totals kw
  let (r, totals') := add_titrant_totals cv.titrant_mass cv.analyte_mass titrant_molinity (fin 0)
    tts totals
  r
  let mode ← solve_mode kw
  solve_dispatch w mode cv titrant_molinity totals' ks kw

/-- files.py:95-104: the keyword arguments that `calibrate` reports as not recognised
(`solve_mode` is a named parameter and not among them). -/
def calibrate_ignored (kw : Dict Val) : List String :=
  (kw.keys.filter fun k => k ≠ "solve_mode").filter fun k => !keys_calibrate.contains k

/-- files.py:116-176: run the calibrator for the mode -/
def calibrate_dispatch (w : World) (mode : String) (cv : Converted) (alkalinity_certified : Flt)
    (ks : Dict NpVal) (kw : Dict Val) : PyS (Dict NpVal) (LsqResult Flt) :=
  if mode = "emf" then do
    let kc := get_kwargs_for keys_calibrate_emf kw none
    let (o, double) ← PyS.lift (emf_opts kc)
    let c0 ← PyS.lift (argNum kc "titrant_molinity_init" (fin 0.1))
    let tts ← PyS.lift (titrant_totals kc)
    calibrate_emf w.opt w.ls alkalinity_certified cv.titrant_mass cv.measurement cv.temperature
      cv.analyte_mass ks o.alkalinity_init o.emf0_init double o.pH_min o.pH_max c0
      o.titrant_normality tts
  else if mode = "ph_adjust" then do
    let kc := (get_kwargs_for keys_calibrate_emf kw none).set "emf0_init" (.num (fin 0))
    let (o, double) ← PyS.lift (emf_opts kc)
    let c0 ← PyS.lift (argNum kc "titrant_molinity_init" (fin 0.1))
    let tts ← PyS.lift (titrant_totals kc)
    let emf ← PyS.lift (pH_to_emf_arr cv.measurement cv.temperature)
    calibrate_emf w.opt w.ls alkalinity_certified cv.titrant_mass emf cv.temperature
      cv.analyte_mass ks o.alkalinity_init o.emf0_init double o.pH_min o.pH_max c0
      o.titrant_normality tts
  else if mode = "ph" then do
    let kc := get_kwargs_for keys_calibrate_pH kw none
    let o ← PyS.lift (ph_opts kc)
    let c0 ← PyS.lift (argNum kc "titrant_molinity_init" (fin 0.1))
    let tts ← PyS.lift (titrant_totals kc)
    calibrate_pH w.opt alkalinity_certified cv.titrant_mass cv.measurement cv.analyte_mass ks
      o.pH_min o.pH_max c0 o.titrant_normality tts
  else if mode = "ph_gran" then do
    let kc := get_kwargs_for keys_calibrate_pH_gran kw none
    let o ← PyS.lift (ph_opts kc)
    let c0 ← PyS.lift (argNum kc "titrant_molinity_init" (fin 0.1))
    let tts ← PyS.lift (titrant_totals kc)
    calibrate_pH_gran w.opt alkalinity_certified cv.titrant_mass cv.measurement cv.analyte_mass
      o.pH_min o.pH_max c0 o.titrant_normality tts
  else PyS.raise .Exception

/-- files.py:62-176 `calibrate` -/
def files_calibrate (w : World) (file_name : String) (alkalinity_certified salinity : Flt)
    (kw : Dict Val) : Py (LsqResult Flt) := do
  let (cv, totals, ks) ← load w file_name salinity kw
  let mode ← solve_mode kw
  (calibrate_dispatch w mode cv alkalinity_certified ks kw totals).1

end
end Calk
