import Verif.PyS
import Verif.Model.Simulate

/-! # `calkulate/core.py`

Arrays are lists.  The solvers take equally long arrays; numpy's `ValueError` for arrays that
do not match is modelled, its broadcasting of length-1 measurement arrays is not. -/

namespace Calk
noncomputable section

open Flt

/-! ## Gran estimates -/

/-- core.py:143-166 `gran_function` at one point -/
def gran_function (titrant_mass emf temperature analyte_mass : Flt) : Flt :=
  (titrant_mass + analyte_mass) *
    Flt.exp (emf * fin faraday / (fin ideal_gas * (temperature + fin absolute_zero)))

/-- element-wise operation on three arrays of equal length (numpy, for core.py:162-166, 272-282) -/
def zip3With (f : Flt → Flt → Flt → Flt) (a b c : List Flt) : List Flt :=
  List.zipWith (fun x yz => f x yz.1 yz.2) a (b.zip c)

/-- numpy's shape check for three arrays (no broadcasting of length-1 arrays)
(numpy, for core.py:162-166, 272-282) -/
def sameShape3 (a b c : List Flt) : Py Unit :=
  if a.length = b.length ∧ b.length = c.length then .ok () else .error .ValueError

/-- core.py:51-52, 220-225: `GranAlkalinityResult` plus the two warnings. -/
structure GranAlk where
  alkalinity : Flt
  gfunc : List Flt
  used : List Bool
  intercept_x : Flt
  lr : LinRegress
  warnFew : Bool
  warnR : Bool

/-- core.py:211-219: which points the Gran fit uses. -/
def gran_used (gfunc : List Flt) (gran_logic : String) : Py (List Bool) :=
  if gran_logic = "v23.7+" then do
    let mx ← npMax gfunc
    let use_logic := gfunc.map fun g => (fin 0.1 * mx).lt g
    match use_logic.findIdx? id with
    | none => .error .IndexError
    | some use_from =>
      .ok (List.replicate use_from false ++ List.replicate (gfunc.length - use_from) true)
  else if gran_logic = "legacy" then do
    let mx ← npMax gfunc
    return gfunc.map fun g => (fin 0.1 * mx).lt g && g.lt (fin 0.9 * mx)
  else .error .Exception

/-- core.py:169-230 `gran_alkalinity` -/
def gran_alkalinity (titrant_mass emf temperature : List Flt) (analyte_mass titrant_molinity
    titrant_normality : Flt) (gran_logic : String) : Py GranAlk := do
  sameShape3 titrant_mass emf temperature
  let gfunc := zip3With (fun m e t => gran_function m e t analyte_mass) titrant_mass emf temperature
  let used ← gran_used gfunc gran_logic
  let lr ← linregress (mask used titrant_mass) (mask used gfunc)
  let intercept_x := -lr.intercept / lr.slope
  let alkalinity := intercept_x * titrant_molinity * titrant_normality / analyte_mass
  return { alkalinity, gfunc, used, intercept_x, lr,
           warnFew := decide ((used.filter id).length < 3), warnR := lr.rvalue.lt (fin 0.95) }

/-- core.py:233-283 `gran_emf0s` at one point -/
def gran_emf0 (titrant_mass emf temperature analyte_mass titrant_molinity alkalinity
    titrant_normality : Flt) : Flt :=
  emf - (fin ideal_gas * (temperature + fin absolute_zero) / fin faraday) *
    Flt.log ((titrant_mass * titrant_molinity * titrant_normality - analyte_mass * alkalinity)
      / (titrant_mass + analyte_mass))

/-- core.py:53-55: `GranGuessesResult` -/
structure GranGuesses where
  ga : GranAlk
  emf0 : Flt
  emf0s : List Flt
  pH : List Flt

/-- core.py:286-352 `gran_guesses` -/
def gran_guesses (titrant_mass emf temperature : List Flt) (analyte_mass titrant_molinity
    titrant_normality : Flt) (gran_logic : String) : Py GranGuesses := do
  let ga ← gran_alkalinity titrant_mass emf temperature analyte_mass titrant_molinity
    titrant_normality gran_logic
  let emf0s := zip3With (fun m e t => gran_emf0 m e t analyte_mass titrant_molinity ga.alkalinity
    titrant_normality) titrant_mass emf temperature
  let emf0 := npMean (mask ga.used emf0s)
  let pH := emf_to_pH_arr emf emf0 temperature
  return { ga, emf0, emf0s, pH }

/-! ## Titrant contributions to totals -/

/-- numpy/Python `v += xs`: in place for arrays (the result keeps the shape of `v`),
rebinding for scalars (core.py:512). -/
def NpVal.iadd (v : NpVal) (xs : List Flt) : Py NpVal :=
  match v with
  | .scalar x => .ok (.arr (xs.map fun y => x + y))
  | .arr ys =>
    if ys.length = xs.length then .ok (.arr (List.zipWith (· + ·) ys xs))
    else match xs with
      | [x] => .ok (.arr (ys.map fun y => y + x))
      | _ => .error .ValueError

/-- core.py:512-517: what is added to one total. -/
def titrant_contribution (titrant_mass : List Flt) (analyte_mass titrant_molinity prev factor : Flt) :
    List Flt :=
  titrant_mass.map fun m => m * (titrant_molinity - prev) * factor / (m + analyte_mass)

/-- `s.startswith("titrant_total_")` and then `s[8:]`: the 14-character prefix, of which 8 are
dropped (core.py:510). -/
def titrantPrefix : String := "titrant_total_"

/-- `t_total[8:]` (core.py:511) -/
def dropTitrant (s : String) : String := String.ofList (s.toList.drop 8)

/-- core.py:469-518 `add_titrant_totals`; operates in place on the totals dict, so an exception
leaves the totals already updated. -/
def add_titrant_totals (titrant_mass : List Flt) (analyte_mass titrant_molinity prev : Flt) :
    List (String × Flt) → PyS (Dict NpVal) Unit
  | [] => pure ()
  | (t_total, factor) :: rest => do
    PyS.lift (pyAssert (titrantPrefix.toList.isPrefixOf t_total.toList))
    let total := dropTitrant t_total
    let totals ← PyS.get
    let old ← PyS.lift (totals.get total)
    let new ← PyS.lift (old.iadd
      (titrant_contribution titrant_mass analyte_mass titrant_molinity prev factor))
    PyS.set (totals.set total new)
    add_titrant_totals titrant_mass analyte_mass titrant_molinity prev rest

/-! ## Solvers -/

/-- core.py:668-676, 770-778: alkalinity estimate (µmol/kg) at one point from the simulated
alkalinity `a`. -/
def point_alkalinity (titrant_molinity titrant_normality analyte_mass a m : Flt) : Flt :=
  fin 1e6 * (a + m * titrant_molinity * titrant_normality / (m + analyte_mass))
    / get_dilution_factor m analyte_mass

/-- `(pH >= pH_min) & (pH <= pH_max)` (core.py:640, 769) -/
def pH_used (pH : List Flt) (pH_min pH_max : Flt) : List Bool :=
  pH.map fun p => pH_min.le p && p.le pH_max

/-- `{k: v[used] if np.size(v) > 1 else v for k, v in d.items()}` (core.py:641-646) -/
def maskDict (used : List Bool) (d : Dict NpVal) : Py (Dict NpVal) :=
  Dict.mapValsM (fun _ v => v.maskIf used) d

/-- core.py:521-541 `_lsqfun_solve_emf` -/
def lsqfun_solve_emf (titrant_molinity : Flt) (titrant_mass emf temperature : List Flt)
    (analyte_mass : Flt) (totals ks : Dict NpVal) (titrant_normality : Flt)
    (alkalinity_emf0 : Flt × Flt) : Py (List Flt) := do
  let pH := emf_to_pH_arr emf alkalinity_emf0.2 temperature
  let a ← alkalinity_arr pH totals ks 3
  return List.zipWith
    (fun a m => a - alkalinity_emf0.1 * get_dilution_factor m analyte_mass
      + m * titrant_molinity * titrant_normality / (m + analyte_mass)) a titrant_mass

/-- core.py:56-75: `SolveEmfResult` (computed fields). -/
structure SolveEmf where
  alkalinity : Flt
  emf0 : Flt
  used : List Bool
  pH : List Flt
  alkalinity_std : Flt
  alkalinity_all : List Flt
  opt_result : LsqResult (Flt × Flt)
  ggr : GranGuesses

/-- Keyword arguments of `solve_emf` other than `double` (core.py:544-559). -/
structure EmfOpts where
  alkalinity_init : Option Flt := none
  emf0_init : Option Flt := none
  gran_logic : String := "v23.7+"
  pH_min : Flt := fin 3
  pH_max : Flt := fin 4
  titrant_normality : Flt := fin 1

/-- core.py:544-713 `solve_emf`.  `ls` is `scipy.optimize.least_squares`. -/
def solve_emf (ls : LsFun (Flt × Flt)) (titrant_molinity : Flt)
    (titrant_mass emf temperature : List Flt) (analyte_mass : Flt) (totals ks : Dict NpVal)
    (o : EmfOpts) (double : Bool) : Py SolveEmf := do
  let ggr ← gran_guesses titrant_mass emf temperature analyte_mass titrant_molinity
    o.titrant_normality o.gran_logic
  let alkalinity := match o.alkalinity_init with
    | none => ggr.ga.alkalinity
    | some a => a * fin 1e-6
  pyAssert (o.pH_min.lt o.pH_max)
  let emf0 := match o.emf0_init with
    | none => ggr.emf0
    | some e => e
  let pH := match o.emf0_init with
    | none => ggr.pH
    | some e => emf_to_pH_arr emf e temperature
  let used := pH_used pH o.pH_min o.pH_max
  let totals_used ← maskDict used totals
  let ks_used ← maskDict used ks
  let opt_result ← ls
    (lsqfun_solve_emf titrant_molinity (mask used titrant_mass) (mask used emf)
      (mask used temperature) analyte_mass totals_used ks_used o.titrant_normality)
    (alkalinity, emf0)
  let alkalinity := opt_result.x.1 * fin 1e6
  let alkalinity_std := npStd opt_result.fun_ * fin 1e6
  let emf0 := opt_result.x.2
  let pH := emf_to_pH_arr emf emf0 temperature
  let a ← alkalinity_arr pH totals ks 3
  let alkalinity_all := List.zipWith
    (fun a m => point_alkalinity titrant_molinity o.titrant_normality analyte_mass a m)
    a titrant_mass
  let sr : SolveEmf := { alkalinity, emf0, used, pH, alkalinity_std, alkalinity_all,
                         opt_result, ggr }
  match double with
  | true =>
    solve_emf ls titrant_molinity titrant_mass emf temperature analyte_mass totals ks
      { alkalinity_init := some sr.alkalinity, emf0_init := some sr.emf0,
        pH_min := o.pH_min, pH_max := o.pH_max, titrant_normality := o.titrant_normality }
      false
  | false => return sr
termination_by if double then 1 else 0

/-- core.py:76-91: `SolvePhResult` (computed fields). -/
structure SolvePH where
  alkalinity : Flt
  used : List Bool
  alkalinity_std : Flt
  alkalinity_all : List Flt

/-- Keyword arguments of `solve_pH` and `solve_pH_gran` (core.py:716-727, 796-807). -/
structure PHOpts where
  pH_min : Flt := fin 3
  pH_max : Flt := fin 4
  titrant_normality : Flt := fin 1

/-- numpy's shape check for two arrays (no broadcasting of length-1 arrays)
(numpy, for core.py:770-778) -/
def sameShape2 (a b : List Flt) : Py Unit :=
  if a.length = b.length then .ok () else .error .ValueError

/-- core.py:716-793 `solve_pH` (the temperatures are not used by the code). -/
def solve_pH (titrant_molinity : Flt) (titrant_mass pH : List Flt) (analyte_mass : Flt)
    (totals ks : Dict NpVal) (o : PHOpts) : Py SolvePH := do
  pyAssert (o.pH_min.lt o.pH_max)
  let used := pH_used pH o.pH_min o.pH_max
  let a ← alkalinity_arr pH totals ks 3
  sameShape2 titrant_mass pH
  let alkalinity_all := List.zipWith
    (fun a m => point_alkalinity titrant_molinity o.titrant_normality analyte_mass a m)
    a titrant_mass
  return { alkalinity := npMean (mask used alkalinity_all), used,
           alkalinity_std := npStd (mask used alkalinity_all), alkalinity_all }

/-- core.py:92-107: `SolvePhGranResult` (computed fields). -/
structure SolvePHGran where
  alkalinity : Flt
  used : List Bool
  gfunc : List Flt
  lr : LinRegress

/-- core.py:796-863 `solve_pH_gran` (temperatures, totals and constants are not used). -/
def solve_pH_gran (titrant_molinity : Flt) (titrant_mass pH : List Flt) (analyte_mass : Flt)
    (o : PHOpts) : Py SolvePHGran := do
  pyAssert (o.pH_min.lt o.pH_max)
  let used := pH_used pH o.pH_min o.pH_max
  sameShape2 titrant_mass pH
  let gfunc := List.zipWith (fun m p => (m + analyte_mass) * Flt.pow10 (-p)) titrant_mass pH
  let lr ← linregress (mask used titrant_mass) (mask used gfunc)
  let intercept_x := -lr.intercept / lr.slope
  let alkalinity := fin 1e6 *
    (intercept_x * titrant_molinity * o.titrant_normality / analyte_mass)
  return { alkalinity, used, gfunc, lr }

/-! ## Calibrators -/

/-- core.py:866-918, 1009-1055, 1129-1175: the three `_lsqfun_calibrate_*` share this shape:
add the titrant to the totals, solve, revert, subtract the certified value.  `solver` is the
solver's `alkalinity` as a function of molinity and (current) totals. -/
def lsqfun_calibrate (solver : Flt → Dict NpVal → Py Flt) (alkalinity_certified : Flt)
    (titrant_mass : List Flt) (analyte_mass : Flt) (titrant_totals : List (String × Flt))
    (titrant_molinity : Flt) : PyS (Dict NpVal) (List Flt) := do
  add_titrant_totals titrant_mass analyte_mass titrant_molinity (fin 0) titrant_totals
  let totals ← PyS.get
  let alk ← PyS.lift (solver titrant_molinity totals)
  add_titrant_totals titrant_mass analyte_mass (fin 0) titrant_molinity titrant_totals
  return [alk - alkalinity_certified]

/-- core.py:921-1006 `calibrate_emf` (no `gran_logic` argument). -/
def calibrate_emf (opt : Lsq Flt) (ls : LsFun (Flt × Flt)) (alkalinity_certified : Flt)
    (titrant_mass emf temperature : List Flt) (analyte_mass : Flt) (ks : Dict NpVal)
    (alkalinity_init emf0_init : Option Flt) (double : Bool) (pH_min pH_max : Flt)
    (titrant_molinity_init titrant_normality : Flt) (titrant_totals : List (String × Flt)) :
    PyS (Dict NpVal) (LsqResult Flt) :=
  opt.run (lsqfun_calibrate
    (fun c totals => do
      let sr ← solve_emf ls c titrant_mass emf temperature analyte_mass totals ks
        { alkalinity_init, emf0_init, pH_min, pH_max, titrant_normality } double
      return sr.alkalinity)
    alkalinity_certified titrant_mass analyte_mass titrant_totals) titrant_molinity_init

/-- core.py:1058-1126 `calibrate_pH` -/
def calibrate_pH (opt : Lsq Flt) (alkalinity_certified : Flt)
    (titrant_mass pH : List Flt) (analyte_mass : Flt) (ks : Dict NpVal)
    (pH_min pH_max titrant_molinity_init titrant_normality : Flt)
    (titrant_totals : List (String × Flt)) : PyS (Dict NpVal) (LsqResult Flt) :=
  opt.run (lsqfun_calibrate
    (fun c totals => do
      let sr ← solve_pH c titrant_mass pH analyte_mass totals ks
        { pH_min, pH_max, titrant_normality }
      return sr.alkalinity)
    alkalinity_certified titrant_mass analyte_mass titrant_totals) titrant_molinity_init

/-- core.py:1178-1246 `calibrate_pH_gran` -/
def calibrate_pH_gran (opt : Lsq Flt) (alkalinity_certified : Flt)
    (titrant_mass pH : List Flt) (analyte_mass : Flt)
    (pH_min pH_max titrant_molinity_init titrant_normality : Flt)
    (titrant_totals : List (String × Flt)) : PyS (Dict NpVal) (LsqResult Flt) :=
  opt.run (lsqfun_calibrate
    (fun c _ => do
      let sr ← solve_pH_gran c titrant_mass pH analyte_mass
        { pH_min, pH_max, titrant_normality }
      return sr.alkalinity)
    alkalinity_certified titrant_mass analyte_mass titrant_totals) titrant_molinity_init

end
end Calk
