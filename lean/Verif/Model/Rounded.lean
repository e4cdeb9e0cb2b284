import Verif.Model.Core

/-! # The same code in floating-point arithmetic

Everywhere else in the model finite arithmetic is exact.  Here the part of the code that computes an
alkalinity from pH data is written once more, operation by operation, over an arithmetic that is a
parameter: every `+ - * /` is followed by a rounding, and powers, logarithms, square roots and sums
are whatever the platform provides.  With the exact arithmetic these definitions are those of the
exact model (`Props/Rounding.lean`, `exact_*`). -/

namespace Calk
noncomputable section

open Flt

/-- The floating-point arithmetic the code runs on: how the result of `+ - * /` is rounded, and what
`10.0**x`, `np.exp`, `x**n`, `np.log`, `np.log10`, `np.sqrt` and `np.sum` return (numpy, for
simulate.py:11-129, convert.py:117-138 and core.py:521-780). -/
structure Arith where
  rnd : Flt → Flt
  pow10 : Flt → Flt
  exp : Flt → Flt
  pow : Flt → ℕ → Flt
  log : Flt → Flt
  log10 : Flt → Flt
  sqrt : Flt → Flt
  sum : List Flt → Flt

namespace Arith
variable (F : Arith)

/-- `+` -/
def add (a b : Flt) : Flt := F.rnd (a + b)
/-- `-` -/
def sub (a b : Flt) : Flt := F.rnd (a - b)
/-- `*` -/
def mul (a b : Flt) : Flt := F.rnd (a * b)
/-- `/` -/
def div (a b : Flt) : Flt := F.rnd (a / b)

/-- `np.mean` (core.py:779) -/
def mean (xs : List Flt) : Flt := F.div (F.sum xs) (fin (xs.length : ℝ))

/-- `np.std` (core.py:780) -/
def std (xs : List Flt) : Flt :=
  F.sqrt (F.mean (xs.map fun x => F.mul (F.sub x (F.mean xs)) (F.sub x (F.mean xs))))

end Arith

/-- exact arithmetic -/
def exactArith : Arith where
  rnd := id
  pow10 := Flt.pow10
  exp := Flt.exp
  pow := fpow
  log := Flt.log
  log10 := Flt.log10
  sqrt := Flt.sqrt
  sum := npSum

variable (F : Arith)

/-- simulate.py:35-36 -/
def blk_waterF (h : Flt) (ks : Dict Flt) : Py (Dict Flt) :=
  match ks.get? "k_water" with
  | some kw => .ok [("OH", F.div kw h)]
  | none => .ok []

/-- simulate.py:37-43 -/
def blk_carbonateF (h : Flt) (totals ks : Dict Flt) : Py (Dict Flt) :=
  match totals.get? "dic" with
  | none => .ok []
  | some TCO2 => do
    let K1 ← ks.get "k_carbonic_1"
    let K2 ← ks.get "k_carbonic_2"
    let CO2 := F.div TCO2
      (F.add (F.add (fin 1) (F.div K1 h)) (F.div (F.mul K1 K2) (F.pow h 2)))
    let HCO3 := F.div (F.mul K1 CO2) h
    let CO3 := F.div (F.mul K2 HCO3) h
    return [("CO2", CO2), ("HCO3", HCO3), ("CO3", CO3)]

/-- simulate.py:44-47 (borate), 57-60 (silicate), 61-64 (ammonia), 65-68 (sulfide) -/
def blk_monoF (h : Flt) (totals ks : Dict Flt) (total k name : String) : Py (Dict Flt) :=
  match totals.get? total with
  | none => .ok []
  | some T => do
    let K ← ks.get k
    return [(name, F.div (F.mul T K) (F.add K h))]

/-- simulate.py:48-56 -/
def blk_phosphateF (h : Flt) (totals ks : Dict Flt) : Py (Dict Flt) :=
  match totals.get? "total_phosphate" with
  | none => .ok []
  | some TPO4 => do
    let KP1 ← ks.get "k_phosphoric_1"
    let KP2 ← ks.get "k_phosphoric_2"
    let KP3 ← ks.get "k_phosphoric_3"
    let denom := F.add (F.add (F.add (F.pow h 3) (F.mul KP1 (F.pow h 2)))
      (F.mul (F.mul KP1 KP2) h)) (F.mul (F.mul KP1 KP2) KP3)
    return [("H3PO4", F.div (F.mul TPO4 (F.pow h 3)) denom),
            ("HPO4", F.div (F.mul (F.mul (F.mul TPO4 KP1) KP2) h) denom),
            ("PO4", F.div (F.mul (F.mul (F.mul TPO4 KP1) KP2) KP3) denom)]

/-- simulate.py:69-76 (alpha) and 77-84 (beta) -/
def blk_extraF (h : Flt) (totals ks : Dict Flt) (total k name : String) : Py (Dict Flt) :=
  match totals.get? total with
  | none => .ok []
  | some T => do
    let K ← ks.get k
    let alpha := F.div (F.mul T K) (F.add K h)
    let alphaH := F.sub T alpha
    return [(name, if (-(F.log10 K)).le (fin zlp) then -alphaH else alpha)]

/-- simulate.py:86-90 (HF, scales 1 and 3) and 91-95 (HSO4, scale 3) -/
def blk_protonF (on : Bool) (h : Flt) (totals ks : Dict Flt) (total k name : String) :
    Py (Dict Flt) :=
  if on then
    match totals.get? total with
    | none => .ok []
    | some T => do
      let K ← ks.get k
      return [(name, F.div (F.mul T h) (F.add K h))]
  else .ok []

/-- simulate.py:11-96 `alkalinity_components` -/
def alkalinity_componentsF (pH : Flt) (totals ks : Dict Flt) (scale : ℕ) : Py (Dict Flt) := do
  pyAssert (scale ∈ [1, 2, 3])
  let h := F.pow10 (-pH)
  let c1 ← blk_waterF F h ks
  let c2 ← blk_carbonateF F h totals ks
  let c3 ← blk_monoF F h totals ks "total_borate" "k_borate" "BOH4"
  let c4 ← blk_phosphateF F h totals ks
  let c5 ← blk_monoF F h totals ks "total_silicate" "k_silicate" "H3SiO4"
  let c6 ← blk_monoF F h totals ks "total_ammonia" "k_ammonia" "NH3"
  let c7 ← blk_monoF F h totals ks "total_sulfide" "k_sulfide" "HS"
  let c8 ← blk_extraF F h totals ks "total_alpha" "k_alpha" "alk_alpha"
  let c9 ← blk_extraF F h totals ks "total_beta" "k_beta" "alk_beta"
  let c10 ← blk_protonF F (scale ∈ [1, 3]) h totals ks "total_fluoride" "k_fluoride" "HF"
  let c11 ← blk_protonF F (scale = 3) h totals ks "total_sulfate" "k_bisulfate" "HSO4"
  return [("H", h)] ++ c1 ++ c2 ++ c3 ++ c4 ++ c5 ++ c6 ++ c7 ++ c8 ++ c9 ++ c10 ++ c11

/-- simulate.py:128: `[v * component_multipliers[k] for k, v in components.items()]` -/
def alk_termsF : Dict Flt → Py (List Flt)
  | [] => .ok []
  | (k, v) :: d => do
    let m ← component_multipliers.get k
    let r ← alk_termsF d
    return (F.mul v (fin m)) :: r

/-- simulate.py:122-129 `alkalinity` at one titration point -/
def alkalinityF (pH : Flt) (totals ks : Dict Flt) (scale : ℕ) : Py Flt := do
  let c ← alkalinity_componentsF F pH totals ks scale
  let ts ← alk_termsF F c
  return F.sum ts

/-- `alkalinity` on points `i, i+1, ...` (simulate.py:122-129) -/
def alkalinity_fromF (totals ks : Dict NpVal) (scale : ℕ) : ℕ → List Flt → Py (List Flt)
  | _, [] => .ok []
  | i, p :: ps => do
    let a ← alkalinityF F p (rowAt totals i) (rowAt ks i) scale
    let r ← alkalinity_fromF totals ks scale (i + 1) ps
    return a :: r

/-- simulate.py:122-129 `alkalinity` on arrays -/
def alkalinity_arrF (pH : List Flt) (totals ks : Dict NpVal) (scale : ℕ) : Py (List Flt) := do
  let _ ← alkalinityF F (fin 7) (rowAt totals 0) (rowAt ks 0) scale
  if !(dictFits pH.length totals && dictFits pH.length ks) then .error .ValueError
  alkalinity_fromF F totals ks scale 0 pH

/-- core.py:770-778 and convert.py:24-26: alkalinity estimate at one point from the simulated
alkalinity `a` -/
def point_alkalinityF (titrant_molinity titrant_normality analyte_mass a m : Flt) : Flt :=
  F.div (F.mul (fin 1e6)
      (F.add a (F.div (F.mul (F.mul m titrant_molinity) titrant_normality) (F.add m analyte_mass))))
    (F.div analyte_mass (F.add m analyte_mass))

/-- core.py:716-793 `solve_pH` -/
def solve_pHF (titrant_molinity : Flt) (titrant_mass pH : List Flt) (analyte_mass : Flt)
    (totals ks : Dict NpVal) (o : PHOpts) : Py SolvePH := do
  pyAssert (o.pH_min.lt o.pH_max)
  let used := pH_used pH o.pH_min o.pH_max
  let a ← alkalinity_arrF F pH totals ks 3
  sameShape2 titrant_mass pH
  let alkalinity_all := List.zipWith
    (fun a m => point_alkalinityF F titrant_molinity o.titrant_normality analyte_mass a m)
    a titrant_mass
  return { alkalinity := F.mean (mask used alkalinity_all), used,
           alkalinity_std := F.std (mask used alkalinity_all), alkalinity_all }

/-- `v += xs` (core.py:512) -/
def iaddF (v : NpVal) (xs : List Flt) : Py NpVal :=
  match v with
  | .scalar x => .ok (.arr (xs.map fun y => F.add x y))
  | .arr ys =>
    if ys.length = xs.length then .ok (.arr (List.zipWith F.add ys xs))
    else match xs with
      | [x] => .ok (.arr (ys.map fun y => F.add y x))
      | _ => .error .ValueError

/-- core.py:512-517: what is added to one total -/
def titrant_contributionF (titrant_mass : List Flt) (analyte_mass titrant_molinity prev factor : Flt) :
    List Flt :=
  titrant_mass.map fun m =>
    F.div (F.mul (F.mul m (F.sub titrant_molinity prev)) factor) (F.add m analyte_mass)

/-- core.py:469-518 `add_titrant_totals` -/
def add_titrant_totalsF (titrant_mass : List Flt) (analyte_mass titrant_molinity prev : Flt) :
    List (String × Flt) → PyS (Dict NpVal) Unit
  | [] => pure ()
  | (t_total, factor) :: rest => do
    PyS.lift (pyAssert (titrantPrefix.toList.isPrefixOf t_total.toList))
    let total := dropTitrant t_total
    let totals ← PyS.get
    let old ← PyS.lift (totals.get total)
    let new ← PyS.lift (iaddF F old
      (titrant_contributionF F titrant_mass analyte_mass titrant_molinity prev factor))
    PyS.set (totals.set total new)
    add_titrant_totalsF titrant_mass analyte_mass titrant_molinity prev rest

/-- core.py:866-918, 1009-1055, 1129-1175: the three `_lsqfun_calibrate_*` -/
def lsqfun_calibrateF (solver : Flt → Dict NpVal → Py Flt) (alkalinity_certified : Flt)
    (titrant_mass : List Flt) (analyte_mass : Flt) (titrant_totals : List (String × Flt))
    (titrant_molinity : Flt) : PyS (Dict NpVal) (List Flt) := do
  add_titrant_totalsF F titrant_mass analyte_mass titrant_molinity (fin 0) titrant_totals
  let totals ← PyS.get
  let alk ← PyS.lift (solver titrant_molinity totals)
  add_titrant_totalsF F titrant_mass analyte_mass (fin 0) titrant_molinity titrant_totals
  return [F.sub alk alkalinity_certified]

/-- core.py:1058-1126 `calibrate_pH` -/
def calibrate_pHF (opt : Lsq Flt) (alkalinity_certified : Flt)
    (titrant_mass pH : List Flt) (analyte_mass : Flt) (ks : Dict NpVal)
    (pH_min pH_max titrant_molinity_init titrant_normality : Flt)
    (titrant_totals : List (String × Flt)) : PyS (Dict NpVal) (LsqResult Flt) :=
  opt.run (lsqfun_calibrateF F
    (fun c totals => do
      let sr ← solve_pHF F c titrant_mass pH analyte_mass totals ks
        { pH_min, pH_max, titrant_normality }
      return sr.alkalinity)
    alkalinity_certified titrant_mass analyte_mass titrant_totals) titrant_molinity_init

/-- convert.py:117-121 `emf_to_h`; the constants of constants.py are rounded when they are read in -/
def emf_to_hF (emf emf0 temperature : Flt) : Flt :=
  let temperature_K := F.add temperature (F.rnd (fin absolute_zero))
  F.exp (F.div (F.mul (F.sub emf emf0) (F.rnd (fin faraday)))
    (F.mul (F.rnd (fin ideal_gas)) temperature_K))

/-- convert.py:124-126 `emf_to_pH` -/
def emf_to_pHF (emf emf0 temperature : Flt) : Flt := -F.log10 (emf_to_hF F emf emf0 temperature)

/-- convert.py:124-126 `emf_to_pH` on arrays -/
def emf_to_pH_arrF (emf : List Flt) (emf0 : Flt) (temperature : List Flt) : List Flt :=
  List.zipWith (fun e t => emf_to_pHF F e emf0 t) emf temperature

/-- convert.py:129-132 `h_to_emf` -/
def h_to_emfF (h emf0 temperature : Flt) : Flt :=
  let temperature_K := F.add temperature (F.rnd (fin absolute_zero))
  F.add emf0 (F.div (F.mul (F.mul (F.log h) (F.rnd (fin ideal_gas))) temperature_K) (F.rnd (fin faraday)))

/-- convert.py:135-138 `pH_to_emf` -/
def pH_to_emfF (pH emf0 temperature : Flt) : Flt :=
  let h := F.pow10 (-pH)
  h_to_emfF F h emf0 temperature

/-- convert.py:135-138 `pH_to_emf` on arrays of the same length, with EMF0 = 0 (files.py:248-250) -/
def pH_to_emf_arrF (pH temperature : List Flt) : List Flt :=
  List.zipWith (fun p t => pH_to_emfF F p (fin 0) t) pH temperature

/-- core.py:521-541 `_lsqfun_solve_emf` -/
def lsqfun_solve_emfF (titrant_molinity : Flt) (titrant_mass emf temperature : List Flt)
    (analyte_mass : Flt) (totals ks : Dict NpVal) (titrant_normality : Flt)
    (alkalinity_emf0 : Flt × Flt) : Py (List Flt) := do
  let pH := emf_to_pH_arrF F emf alkalinity_emf0.2 temperature
  let a ← alkalinity_arrF F pH totals ks 3
  return List.zipWith
    (fun a m => F.add
      (F.sub a (F.mul alkalinity_emf0.1 (F.div analyte_mass (F.add m analyte_mass))))
      (F.div (F.mul (F.mul m titrant_molinity) titrant_normality) (F.add m analyte_mass)))
    a titrant_mass

/-- core.py:544-713 `solve_emf`.  What the Gran estimate (core.py:619-627) returns, for each
`gran_logic`, is a parameter here. -/
def solve_emfF (ls : LsFun (Flt × Flt)) (gran : String → Py GranGuesses) (titrant_molinity : Flt)
    (titrant_mass emf temperature : List Flt) (analyte_mass : Flt) (totals ks : Dict NpVal)
    (o : EmfOpts) (double : Bool) : Py SolveEmf := do
  let ggr ← gran o.gran_logic
  let alkalinity := match o.alkalinity_init with
    | none => ggr.ga.alkalinity
    | some a => F.mul a (F.rnd (fin 1e-6))
  pyAssert (o.pH_min.lt o.pH_max)
  let emf0 := match o.emf0_init with
    | none => ggr.emf0
    | some e => e
  let pH := match o.emf0_init with
    | none => ggr.pH
    | some e => emf_to_pH_arrF F emf e temperature
  let used := pH_used pH o.pH_min o.pH_max
  let totals_used ← maskDict used totals
  let ks_used ← maskDict used ks
  let opt_result ← ls
    (lsqfun_solve_emfF F titrant_molinity (mask used titrant_mass) (mask used emf)
      (mask used temperature) analyte_mass totals_used ks_used o.titrant_normality)
    (alkalinity, emf0)
  let alkalinity := F.mul opt_result.x.1 (fin 1e6)
  let alkalinity_std := F.mul (F.std opt_result.fun_) (fin 1e6)
  let emf0 := opt_result.x.2
  let pH := emf_to_pH_arrF F emf emf0 temperature
  let a ← alkalinity_arrF F pH totals ks 3
  let alkalinity_all := List.zipWith
    (fun a m => point_alkalinityF F titrant_molinity o.titrant_normality analyte_mass a m)
    a titrant_mass
  let sr : SolveEmf := { alkalinity, emf0, used, pH, alkalinity_std, alkalinity_all,
                         opt_result, ggr }
  match double with
  | true =>
    solve_emfF ls gran titrant_molinity titrant_mass emf temperature analyte_mass totals ks
      { alkalinity_init := some sr.alkalinity, emf0_init := some sr.emf0,
        pH_min := o.pH_min, pH_max := o.pH_max, titrant_normality := o.titrant_normality }
      false
  | false => return sr
termination_by if double then 1 else 0

end
end Calk
