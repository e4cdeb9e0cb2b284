import Verif.Model.Density

/-! # `calkulate/convert.py` -/

namespace Calk
noncomputable section

open Flt

/-- convert.py:24-26 `get_dilution_factor` at one titration point. -/
def get_dilution_factor (titrant_mass analyte_mass : Flt) : Flt :=
  analyte_mass / (titrant_mass + analyte_mass)

/-- convert.py:24-26 applied to an array of titrant masses. -/
def dilution_factors (titrant_mass : List Flt) (analyte_mass : Flt) : List Flt :=
  titrant_mass.map fun m => get_dilution_factor m analyte_mass

/-- Apply a fallible function to every value of a dict, keeping keys and order
(the dict comprehensions of convert.py:32, 38-57). -/
def Dict.mapValsM {α β : Type} (f : String → α → Py β) : Dict α → Py (Dict β)
  | [] => .ok []
  | (k, v) :: d => do
    let w ← f k v
    let d' ← Dict.mapValsM f d
    return (k, w) :: d'

/-- convert.py:29-32 `dilute_totals` -/
def dilute_totals (totals : Dict NpVal) (titrant_mass : List Flt) (analyte_mass : Flt) :
    Py (Dict NpVal) :=
  let df := dilution_factors titrant_mass analyte_mass
  Dict.mapValsM (fun _ v => v.zipW (fun x y => x * y) df) totals

/-- convert.py:35-57: the keys that `dilute_totals_pyco2` dilutes. -/
def pyco2_diluted_keys : List String :=
  ["TB", "TF", "TSO4", "TCa", "alpha", "beta", "TPO4", "TSi", "TNH3", "TH2S"]

/-- convert.py:35-57 `dilute_totals_pyco2` -/
def dilute_totals_pyco2 (totals_pyco2 : Dict NpVal) (titrant_mass : List Flt)
    (analyte_mass : Flt) : Py (Dict NpVal) :=
  let df := dilution_factors titrant_mass analyte_mass
  Dict.mapValsM
    (fun k v => if k ∈ pyco2_diluted_keys then v.zipW (fun x y => x * y) df else .ok v)
    totals_pyco2

/-- interface.py:11-22 `calk_to_pyco2__totals` -/
def calk_to_pyco2_totals : Dict String :=
  [ ("total_ammonia", "TNH3"), ("total_phosphate", "TPO4"), ("total_silicate", "TSi"),
    ("total_sulfide", "TH2S"), ("total_borate", "TB"), ("total_fluoride", "TF"),
    ("total_sulfate", "TSO4"), ("total_alpha", "total_alpha"), ("total_beta", "total_beta"),
    ("total_calcium", "total_calcium") ]

/-- interface.py:39 `pyco2_to_calk__totals` (the inverse table; built by inserting each
reversed pair in turn, so a repeated value would overwrite). -/
def pyco2_to_calk_totals : Dict String :=
  calk_to_pyco2_totals.foldl (fun d kv => d.set kv.2 kv.1) []

/-- convert.py:60-67 `totals_to_pyco2` -/
def totals_to_pyco2 (totals : Dict NpVal) (salinity : NpVal) : Dict NpVal :=
  Dict.set
    (pyco2_to_calk_totals.mapKV fun _ c => (totals.get? c).getD (.scalar (fin 0)))
    "Sal" salinity

/-- convert.py:70-82 `dilute_totals_H2SO4` -/
def dilute_totals_H2SO4 (totals : Dict NpVal) (titrant_molinity : Flt)
    (titrant_mass : List Flt) (analyte_mass : Flt) : Py (Dict NpVal) :=
  let df := dilution_factors titrant_mass analyte_mass
  Dict.mapValsM
    (fun k v =>
      if k ≠ "total_sulfate" then v.zipW (fun x y => x * y) df
      else v.zipW (fun x m => (x * analyte_mass + titrant_molinity * m) / (analyte_mass + m))
        titrant_mass)
    totals

/-- convert.py:85-114 `dilute_totals_pyco2_H2SO4` -/
def dilute_totals_pyco2_H2SO4 (totals_pyco2 : Dict NpVal) (titrant_molinity : Flt)
    (titrant_mass : List Flt) (analyte_mass : Flt) : Py (Dict NpVal) := do
  let df := dilution_factors titrant_mass analyte_mass
  let d ← Dict.mapValsM
    (fun k v =>
      if k ∈ ["TB", "TF", "TCa", "alpha", "beta", "TPO4", "TSi", "TNH3", "TH2S"]
      then v.zipW (fun x y => x * y) df else .ok v)
    totals_pyco2
  let s ← d.get "TSO4"
  let s' ← s.zipW (fun x m => (x * analyte_mass + titrant_molinity * m) / (analyte_mass + m))
    titrant_mass
  return d.set "TSO4" s'

/-- convert.py:117-121 `emf_to_h` -/
def emf_to_h (emf emf0 temperature : Flt) : Flt :=
  let temperature_K := temperature + fin absolute_zero
  Flt.exp ((emf - emf0) * fin faraday / (fin ideal_gas * temperature_K))

/-- convert.py:124-126 `emf_to_pH` -/
def emf_to_pH (emf emf0 temperature : Flt) : Flt :=
  - Flt.log10 (emf_to_h emf emf0 temperature)

/-- convert.py:129-132 `h_to_emf` -/
def h_to_emf (h emf0 temperature : Flt) : Flt :=
  let temperature_K := temperature + fin absolute_zero
  emf0 + Flt.log h * fin ideal_gas * temperature_K / fin faraday

/-- convert.py:135-138 `pH_to_emf` -/
def pH_to_emf (pH emf0 temperature : Flt) : Flt :=
  let h := Flt.pow10 (-pH)
  h_to_emf h emf0 temperature

/-- convert.py:141-144 `f_to_demf0` -/
def f_to_demf0 (f temperature : Flt) : Flt :=
  let temperature_K := temperature + fin absolute_zero
  Flt.log f * fin ideal_gas * temperature_K / fin faraday

/-- Element-wise `emf_to_pH` on arrays (scalar `emf0`) (convert.py:124-126). -/
def emf_to_pH_arr (emf : List Flt) (emf0 : Flt) (temperature : List Flt) : List Flt :=
  List.zipWith (fun e t => emf_to_pH e emf0 t) emf temperature

end
end Calk
