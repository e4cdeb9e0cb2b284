import Verif.PyS
import Verif.Model.Convert

/-! # `calkulate/loss.py`

Arrays are lists of floats.  `scipy.interpolate.pchip_interpolate` and
`scipy.optimize.least_squares` are parameters.  Not modelled: that `least_squares` returns its
one-element `x` as an array, and warnings. -/

namespace Calk
noncomputable section

open Flt

/-! ## The fitted part -/

/-- loss.py:18-23: DIC after one more step -/
def loss_step (k_dic_loss analyte_mass step_tm dic mass delta : Flt) : Flt :=
  dic * get_dilution_factor step_tm (analyte_mass + mass) - k_dic_loss * delta * step_tm

/-- loss.py:17-23: fill the rest of the array from the entry `dic` on; `deltas` are the entries of
`i_delta_fCO2` that belong to it -/
def loss_fill (k_dic_loss analyte_mass step_tm : Flt) : Flt → List Flt → List Flt → Py (List Flt)
  | dic, mass :: masses, delta :: delta' :: deltas => do
    let rest ← loss_fill k_dic_loss analyte_mass step_tm
      (loss_step k_dic_loss analyte_mass step_tm dic mass delta) masses (delta' :: deltas)
    return dic :: rest
  | _, [], _ :: _ :: _ => .error .IndexError
  | dic, _, [_] => .ok [dic]
  | _, _, [] => .error .IndexError

/-- loss.py:11-24 `dic_loss_model_fitted` -/
def dic_loss_model_fitted (k_dic_loss : Flt) (i_titrant_mass i_delta_fCO2 : List Flt)
    (dic_start analyte_mass step_tm : Flt) : Py (List Flt) :=
  loss_fill k_dic_loss analyte_mass step_tm (dic_start * fin 1e6) i_titrant_mass i_delta_fCO2

/-- numpy shape check for `a - b` (no broadcasting of length-1 arrays) (loss.py:36-46) -/
def sub_arrays (a b : List Flt) : Py (List Flt) :=
  if a.length = b.length then .ok (List.zipWith (· - ·) a b) else .error .ValueError

/-- loss.py:27-46 `_lsqfun_dic_loss_model` -/
def lsqfun_dic_loss_model (k_dic_loss : Flt) (i_titrant_mass i_delta_fCO2 : List Flt)
    (dic_start analyte_mass step_tm : Flt) (i_dic_loss : List Flt) : Py (List Flt) := do
  let dic ← dic_loss_model_fitted k_dic_loss i_titrant_mass i_delta_fCO2 dic_start analyte_mass
    step_tm
  sub_arrays dic i_dic_loss

/-! ## The forecast -/

/-- loss.py:49-54 `get_fCO2_from_dic_pH` -/
def get_fCO2_from_dic_pH (dic pH k0 k1 k2 : Flt) : Flt :=
  let h := pow10 (-pH)
  let CO2aq := dic / (fin 1 + k1 / h + k1 * k2 / Flt.sq h)
  CO2aq / k0

/-- what the forecast needs to know about one point: its pH and constants (loss.py:143-163) -/
structure LossPoint where
  pH : Flt
  k0 : Flt
  k1 : Flt
  k2 : Flt

/-- excess of the sample's fCO2 over the air's, at one point (loss.py:83-86, 95-104) -/
def delta_fCO2 (fCO2_air dic : Flt) (p : LossPoint) : Flt :=
  get_fCO2_from_dic_pH dic p.pH p.k0 p.k1 p.k2 - fCO2_air

/-- loss.py:87-104: fill the rest of the two arrays from the entries `dic` and `delta` on; `masses`
and `points` are the entries that belong to them -/
def forecast_fill (k_dic_loss analyte_mass step_tm fCO2_air : Flt) :
    Flt → Flt → List Flt → List LossPoint → List (Flt × Flt)
  | dic, delta, mass :: mass' :: masses, _ :: point' :: points =>
    let dic' := loss_step k_dic_loss analyte_mass step_tm dic mass delta
    (dic, delta) :: forecast_fill k_dic_loss analyte_mass step_tm fCO2_air dic'
      (delta_fCO2 fCO2_air dic' point') (mass' :: masses) (point' :: points)
  | dic, delta, _, _ => [(dic, delta)]

/-- loss.py:57-105 `dic_loss_model_future`; the arrays `f_pH`, `f_k0`, `f_k1`, `f_k2` have one entry
for each of `f_titrant_mass` (as `get_dic_loss_hires` passes them). -/
def dic_loss_model_future (k_dic_loss : Flt) (f_titrant_mass : List Flt) (f : List LossPoint)
    (delta_fCO2_start dic_start : Flt) (start : LossPoint) (analyte_mass step_tm fCO2_air : Flt) :
    Py (List (Flt × Flt)) :=
  match f_titrant_mass with
  | [] => .error .IndexError
  | mass :: _ =>
    let dic := dic_start * get_dilution_factor step_tm (analyte_mass + mass - step_tm)
      - k_dic_loss * delta_fCO2_start * step_tm
    .ok (forecast_fill k_dic_loss analyte_mass step_tm fCO2_air dic
      (delta_fCO2 fCO2_air dic start) f_titrant_mass f)

/-! ## Fit and forecast -/

/-- `np.diff` (loss.py:131) -/
def npDiff : List Flt → List Flt
  | x :: y :: xs => (y - x) :: npDiff (y :: xs)
  | _ => []

/-- `np.median`: NaN for an empty array or if any entry is NaN (loss.py:131) -/
def npMedian (xs : List Flt) : Flt :=
  let s := xs.mergeSort Flt.le
  if xs.any Flt.isNaN then nan
  else if xs.length % 2 = 1 then s.getD (xs.length / 2) nan
  else (s.getD (xs.length / 2 - 1) nan + s.getD (xs.length / 2) nan) / fin 2

/-- `np.nanmax`: NaN (with a warning) if all entries are NaN (loss.py:127) -/
def npNanMax (xs : List Flt) : Py Flt :=
  match xs.filter fun x => !x.isNaN with
  | [] => if xs.isEmpty then .error .ValueError else .ok nan
  | y :: ys => .ok (ys.foldl fmax2 y)

/-- `np.arange(0, stop, step)` (loss.py:132); `step` is a numpy float, so a step of zero makes the number
of points infinite or NaN, which is a `ValueError` -/
def npArange0 (stop step : Flt) : Py (List Flt) :=
  match stop, step with
  | .fin b, .fin s =>
    if s = 0 then .error .ValueError
    else .ok ((List.range ⌈b / s⌉₊).map fun i : ℕ => fin (i * s))
  | _, _ => .error .ValueError

/-- the routines of scipy that the loss model uses (loss.py:133-176) -/
structure LossLib where
  /-- `interpolate.pchip_interpolate(xi, yi, x)` -/
  pchip : List Flt → List Flt → List Flt → Py (List Flt)
  /-- `optimize.least_squares(fun, x0)["x"]` -/
  lsq : (Flt → Py (List Flt)) → Flt → Py Flt

/-- `interpolate.pchip_interpolate(xi, yi, x)` for a number `x` (loss.py:152-163) -/
def LossLib.pchip1 (lib : LossLib) (xi yi : List Flt) (x : Flt) : Py Flt := do
  let ys ← lib.pchip xi yi [x]
  return ys.getD 0 nan

/-- `xs[-1]` (loss.py:153-162, 195-196) -/
def pyLast (xs : List Flt) : Py Flt :=
  match xs.getLast? with
  | some x => .ok x
  | none => .error .IndexError

/-- combine the interpolated arrays (loss.py:143-150) -/
def lossPoints (f_pH f_k0 f_k1 f_k2 : List Flt) : List LossPoint :=
  List.zipWith (fun (a b : Flt × Flt) => { pH := a.1, k0 := a.2, k1 := b.1, k2 := b.2 })
    (f_pH.zip f_k0) (f_k1.zip f_k2)

/-- the measured arrays and settings that the loss model is given (loss.py:108-120) -/
structure LossIn where
  titrant_mass : List Flt
  pH : List Flt
  dic_loss : List Flt
  fCO2_loss : List Flt
  k_CO2 : List Flt
  k_carbonic_1 : List Flt
  k_carbonic_2 : List Flt
  analyte_mass : Flt
  dic_start : Flt
  /-- `default.fCO2_air` is 450 -/
  fCO2_air : Flt := fin 450
  /-- `default.split_pH` is 5.5 -/
  split_pH : Flt := fin 5.5

/-- loss.py:205-210: the table that is returned -/
structure LossHires where
  k_dic_loss : Flt
  titrant_mass : List Flt
  pH : List Flt
  dic : List Flt
  delta_fCO2 : List Flt

/-- loss.py:122-124: NaN `dic_loss` values are set to zero -/
def zeroNaN (xs : List Flt) : List Flt := xs.map fun x => if x.isNaN then fin 0 else x

/-- loss.py:125-129: NaN `fCO2_loss` values are set to the maximum, then the air's fCO2 is taken
off.  (With no NaN among them the maximum is computed but not used; it fails for empty arrays.) -/
def delta_fCO2_loss (inp : LossIn) : Py (List Flt) := do
  let top ← npNanMax inp.fCO2_loss
  return inp.fCO2_loss.map fun x => (if x.isNaN then top else x) - inp.fCO2_air

/-- loss.py:131 -/
def loss_step_tm (inp : LossIn) : Flt := npMedian (npDiff inp.titrant_mass) / fin 10

/-- loss.py:132 -/
def loss_masses (inp : LossIn) : Py (List Flt) := do
  let top ← npMax inp.titrant_mass
  npArange0 top (loss_step_tm inp)

/-- loss.py:151-163: the constants and pH at one of the points, by interpolation -/
def loss_start (lib : LossLib) (inp : LossIn) (x : Flt) : Py LossPoint := do
  let pH ← lib.pchip1 inp.titrant_mass inp.pH x
  let k0 ← lib.pchip1 inp.titrant_mass inp.k_CO2 x
  let k1 ← lib.pchip1 inp.titrant_mass inp.k_carbonic_1 x
  let k2 ← lib.pchip1 inp.titrant_mass inp.k_carbonic_2 x
  return { pH, k0, k1, k2 }

/-- loss.py:143-150: the constants and pH at the points of the forecast, by interpolation -/
def loss_points (lib : LossLib) (inp : LossIn) (xs : List Flt) : Py (List LossPoint) := do
  let pH ← lib.pchip inp.titrant_mass inp.pH xs
  let k0 ← lib.pchip inp.titrant_mass inp.k_CO2 xs
  let k1 ← lib.pchip inp.titrant_mass inp.k_carbonic_1 xs
  let k2 ← lib.pchip inp.titrant_mass inp.k_carbonic_2 xs
  return lossPoints pH k0 k1 k2

/-- loss.py:108-210 `get_dic_loss_hires` -/
def get_dic_loss_hires (lib : LossLib) (inp : LossIn) : Py LossHires := do
  let deltas ← delta_fCO2_loss inp
  let step_tm := loss_step_tm inp
  let a_titrant_mass ← loss_masses inp
  let a_pH ← lib.pchip inp.titrant_mass inp.pH a_titrant_mass
  let i_titrant_mass := mask (a_pH.map fun p => inp.split_pH.le p) a_titrant_mass
  let f_titrant_mass := mask (a_pH.map fun p => p.lt inp.split_pH) a_titrant_mass
  let i_dic_loss ← lib.pchip inp.titrant_mass (zeroNaN inp.dic_loss) i_titrant_mass
  let i_delta_fCO2 ← lib.pchip inp.titrant_mass deltas i_titrant_mass
  let f ← loss_points lib inp f_titrant_mass
  let last ← pyLast i_titrant_mass
  let start ← loss_start lib inp last
  let k_dic_loss ← lib.lsq (fun k => lsqfun_dic_loss_model k i_titrant_mass i_delta_fCO2
    inp.dic_start inp.analyte_mass step_tm i_dic_loss) (fin 1)
  let i_dic ← dic_loss_model_fitted k_dic_loss i_titrant_mass i_delta_fCO2 inp.dic_start
    inp.analyte_mass step_tm
  let delta_start ← pyLast i_delta_fCO2
  let dic_start ← pyLast i_dic
  let fs ← dic_loss_model_future k_dic_loss f_titrant_mass f delta_start dic_start start
    inp.analyte_mass step_tm inp.fCO2_air
  return { k_dic_loss, titrant_mass := a_titrant_mass, pH := a_pH,
           dic := i_dic ++ fs.map Prod.fst, delta_fCO2 := i_delta_fCO2 ++ fs.map Prod.snd }

/-- loss.py:213-257 `get_dic_loss`: the fitted rate, modelled DIC (mol/kg) and fCO2 (µatm) at the
points of the titration, and which points were fitted -/
def get_dic_loss (lib : LossLib) (inp : LossIn) :
    Py (Flt × List Flt × List Flt × List Bool) := do
  let hi ← get_dic_loss_hires lib inp
  let dic ← lib.pchip hi.titrant_mass hi.dic inp.titrant_mass
  let delta ← lib.pchip hi.titrant_mass hi.delta_fCO2 inp.titrant_mass
  return (hi.k_dic_loss, dic.map (· * fin 1e-6), delta.map (· + inp.fCO2_air),
    inp.pH.map fun p => inp.split_pH.le p)

end
end Calk
