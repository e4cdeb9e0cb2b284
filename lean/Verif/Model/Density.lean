import Verif.Model.Constants

/-! # `calkulate/density.py` (scalar arguments, as called by `convert.amount_units`) -/

namespace Calk
noncomputable section

open Flt

/-- `x ** n` for a natural number `n` (density.py:32-46, 98). -/
def fpow (x : Flt) : ℕ → Flt
  | 0 => fin 1
  | n + 1 => fpow x n * x

/-- `x ** 1.5`: NaN for negative `x` (density.py:45). -/
def fpow15 : Flt → Flt
  | .nan => .nan
  | .ninf => .pinf
  | .pinf => .pinf
  | .fin x => if x < 0 then .nan else .fin (x * Real.sqrt x)

/-- density.py:12-47 `seawater_1atm_MP81` (value). -/
def seawater_1atm_MP81 (t s : Flt) : Flt :=
  ( fin 999.842594
    + fin 6.793952e-2 * t
    - fin 9.095290e-3 * fpow t 2
    + fin 1.001685e-4 * fpow t 3
    - fin 1.120083e-6 * fpow t 4
    + fin 6.536336e-9 * fpow t 5
    + ( fin 0.824493
        - fin 4.0899e-3 * t
        + fin 7.6438e-5 * fpow t 2
        - fin 8.2467e-7 * fpow t 3
        + fin 5.3875e-9 * fpow t 4 ) * s
    + (fin (-5.72466e-3) + fin 1.0227e-4 * t - fin 1.6546e-6 * fpow t 2) * fpow15 s
    + fin 4.8314e-4 * fpow s 2 ) * fin 1e-3

/-- density.py:19-23: does `seawater_1atm_MP81` warn about the temperatures? -/
def seawater_warns_temperature (ts : List Flt) : Bool :=
  ts.any (fun t => t.lt (fin 0)) || ts.any (fun t => (fin 40).lt t)
/-- density.py:24-28: does `seawater_1atm_MP81` warn about the salinities? -/
def seawater_warns_salinity (ss : List Flt) : Bool :=
  ss.any (fun s => s.lt (fin 0.5)) || ss.any (fun s => (fin 43).lt s)

/-- density.py:50-86 `HCl_NaCl_25C_DSC07` with both molinities given. -/
def HCl_NaCl_25C_DSC07 (mHCl mNaCl : Flt) : Flt :=
  let rhow25 := fin 0.99704
  let molinity_total := mHCl + mNaCl
  let phiHCl := fin 17.854 + fin 1.460 * Flt.sqrt molinity_total - fin 0.307 * molinity_total
  let phiNaCl := fin 16.613 + fin 1.811 * Flt.sqrt molinity_total + fin 0.094 * molinity_total
  let mT := (fin 36.46 * mHCl + fin 58.44 * mNaCl) / (mHCl + mNaCl)
  let phi_mix := (mHCl * phiHCl + mNaCl * phiNaCl) / (mHCl + mNaCl)
  rhow25 * (fin 1e3 + mT * (mHCl + mNaCl)) / (fin 1e3 + phi_mix * (mHCl + mNaCl) * rhow25)

/-- density.py:89-99 `H2SO4_25C_EAIM` (value). -/
def H2SO4_25C_EAIM (m : Flt) : Flt :=
  fin 0.99750018 + fin 0.06181819 * m - fin 0.00285491 * fpow m 2

/-- density.py:93-94: does `H2SO4_25C_EAIM` warn? -/
def H2SO4_warns (m : Flt) : Bool := m.lt (fin 0.05) || (fin 3).lt m

end
end Calk
