import Verif.Model.Simulate
import Verif.Model.Interface

/-!
# `calkulate/simulate.py`: `_titration`

`pyco2.sys` is a parameter from keyword arguments to results (both dicts of numpy values; options are
numbers).  `alkalinity`, `analyte_mass`, `dic`, `emf0`, the masses and the molinity are numbers;
`temperature` and `salinity` may be numbers or arrays.  The keyword arguments in `pyco2sys_kwargs`
cannot have the names of the other parameters.
-/

namespace Calk
noncomputable section
open Flt

/-- `pyco2.sys(**kwargs)` (simulate.py:213, 244, 263) -/
abbrev Sys := Dict NpVal → Py (Dict NpVal)

/-- parameters of simulate.py:132-146 `_titration` -/
structure SimArgs where
  alkalinity : Flt
  analyte_mass : Flt := fin 0.1
  dic : Flt := fin 0
  emf0 : Flt := fin 600
  fCO2_air : Flt := fin 450
  k_dic_loss : Option Flt := none
  salinity : NpVal := .scalar (fin 35)
  temperature : NpVal := .scalar (fin 25)
  titrant_mass_start : Flt := fin 0
  titrant_mass_step : Flt := fin 0.15e-3
  titrant_mass_stop : Flt := fin 4.2e-3
  titrant_molinity : Flt := fin 0.1
  pyco2sys_kwargs : Dict NpVal := []

/-- what `_titration` returns (simulate.py:278) -/
structure SimOut where
  titrant_mass : List Flt
  emf : NpVal
  temperature : List Flt
  analyte_mass : Flt
  totals : Dict NpVal
  k_constants : Dict NpVal

open Classical in
/-- `np.arange(start, stop, step)` (simulate.py:190-192) -/
def arange : Flt → Flt → Flt → Py (List Flt)
  | .fin a, .fin b, .fin d =>
    if d = 0 then .error (.Other "ZeroDivisionError")
    else .ok ((List.range ⌈(b - a) / d⌉₊).map fun i : ℕ => fin (a + i * d))
  | _, _, _ => .error .ValueError

/-- simulate.py:193-194 -/
def sim_temperature (t : NpVal) (n : ℕ) : List Flt :=
  match t with
  | .scalar x => List.replicate n x
  | .arr xs => xs

/-- simulate.py:197-205 with default.py:12-17 -/
def sim_options : Dict NpVal :=
  [ ("opt_gas_constant", .scalar (fin 3)), ("opt_k_bisulfate", .scalar (fin 1)),
    ("opt_k_carbonic", .scalar (fin 10)), ("opt_k_fluoride", .scalar (fin 1)),
    ("opt_total_borate", .scalar (fin 1)) ]

/-- one turn of the loop at simulate.py:197-205 -/
def setMissing (kw : Dict NpVal) (o : String × NpVal) : Dict NpVal :=
  if kw.has o.1 then kw else kw.set o.1 o.2

/-- simulate.py:207-212 `kwargs_start` -/
def kwargs_start (salinity : NpVal) (temperature : List Flt) (kw : Dict NpVal) : Py (Dict NpVal) :=
  if kw.has "opt_pH_scale" then .error .TypeError
  else .ok ([("salinity", salinity), ("temperature", .arr temperature),
    ("opt_pH_scale", .scalar (fin 3))] ++ kw)

/-- simulate.py:222-233 -/
def sim_diluted : List String :=
  [ "total_alpha", "total_ammonia", "total_beta", "total_borate", "total_calcium", "total_fluoride",
    "total_phosphate", "total_silicate", "total_sulfate", "total_sulfide" ]

/-- simulate.py:222-234 -/
def dilute_start (start : Dict NpVal) (df : List Flt) : List String → Dict NpVal → Py (Dict NpVal)
  | [], kw => .ok kw
  | k :: ks, kw => do
    let v ← start.get k
    let x ← v.zipW (fun x y => x * y) df
    dilute_start start df ks (kw.set k x)

/-- a call with the two carbonate system parameters: alkalinity (type 1) and DIC (type 2)
(simulate.py:244-250, 263-265) -/
def callSys (sys : Sys) (par1 par2 : NpVal) (kw : Dict NpVal) : Py (Dict NpVal) :=
  if kw.has "par1" || kw.has "par2" || kw.has "par1_type" || kw.has "par2_type" then .error .TypeError
  else sys ([("par1", par1), ("par2", par2), ("par1_type", .scalar (fin 1)),
    ("par2_type", .scalar (fin 2))] ++ kw)

/-- simulate.py:240-243 `v if np.isscalar(v) else v[i]` -/
def pointValue (i : ℕ) : NpVal → Py NpVal
  | .scalar x => .ok (.scalar x)
  | .arr xs => match xs[i]? with
    | some x => .ok (.scalar x)
    | none => .error .IndexError

/-- a value assigned to an array element (simulate.py:238, 253) -/
def asNumber : NpVal → Py Flt
  | .scalar x => .ok x
  | .arr [x] => .ok x
  | .arr _ => .error .ValueError

/-- simulate.py:239-259: the DIC from point `i` on, given the DIC at point `i`; `pts` are the titrant
mass and the alkalinity from point `i` on -/
def loss_from (sys : Sys) (kw : Dict NpVal) (k fCO2_air step M : Flt) :
    ℕ → List (Flt × Flt) → Flt → Py (List Flt)
  | _, [], _ => .ok []
  | _, [_], d => .ok [d]
  | i, (m, a) :: p :: rest, d => do
    let kwargs_i ← Dict.mapValsM (fun _ v => pointValue i v) kw
    let r ← callSys sys (.scalar a) (.scalar d) kwargs_i
    let f ← r.get "fCO2"
    let fCO2 ← asNumber f
    let delta_fCO2 := fCO2 - fCO2_air
    let dic_loss := k * delta_fCO2 * step
    let ds ← loss_from sys kw k fCO2_air step M (i + 1) (p :: rest)
      (d * get_dilution_factor step (M + m) - dic_loss)
    return d :: ds

/-- simulate.py:236-261 `dic_titration` -/
def sim_dic (sys : Sys) (a : SimArgs) (kw : Dict NpVal) (tm alk df : List Flt) : Py (List Flt) :=
  match a.k_dic_loss with
  | none => .ok (df.map fun y => a.dic * y)
  | some k =>
    if tm.isEmpty then .error .IndexError
    else loss_from sys kw k a.fCO2_air a.titrant_mass_step a.analyte_mass 0 (tm.zip alk) a.dic

/-- simulate.py:216-220 `alkalinity_titration` at one point -/
def sim_alkalinity (A M c m : Flt) : Flt :=
  fin 1e6 * (M * A * fin 1e-6 - m * c) / (M + m)

/-- `v * x` (simulate.py:234, 270, 274) -/
def NpVal.scale (x : Flt) : NpVal → NpVal
  | .scalar v => .scalar (v * x)
  | .arr vs => .arr (vs.map fun v => v * x)

/-- `k.startswith(pre)` (simulate.py:272, 276) -/
def startsWith (pre k : String) : Bool := pre.toList.isPrefixOf k.toList

/-- simulate.py:132-278 `_titration` -/
def simulate_titration (sys : Sys) (a : SimArgs) : Py SimOut := do
  let tm ← arange a.titrant_mass_start a.titrant_mass_stop a.titrant_mass_step
  let T := sim_temperature a.temperature tm.length
  let ks ← kwargs_start a.salinity T (sim_options.foldl setMissing a.pyco2sys_kwargs)
  let start ← sys ks
  let df := dilution_factors tm a.analyte_mass
  let alk := tm.map fun m => sim_alkalinity a.alkalinity a.analyte_mass a.titrant_molinity m
  let kt ← dilute_start start df sim_diluted ks
  let dic ← sim_dic sys a kt tm alk df
  let r ← callSys sys (.arr alk) (.arr dic) kt
  let pH ← r.get "pH_free"
  let emf ← pH.bin (fun p t => pH_to_emf p a.emf0 t) (.arr T)
  let d ← r.get "dic"
  let totals : Dict NpVal := (Dict.mapKV (fun _ v => v.scale (fin 1e-6))
    (r.filter fun kv => startsWith "total_" kv.1)).set "dic" (d.scale (fin 1e-6))
  return { titrant_mass := tm, emf, temperature := T, analyte_mass := a.analyte_mass, totals,
           k_constants := r.filter fun kv => startsWith "k_" kv.1 }

end
end Calk
