import Verif.Model.Convert

/-! # `calkulate/simulate.py` -/

namespace Calk
noncomputable section

open Flt

/-! `alkalinity_components` is modelled at one titration point (all its numpy operations
are element-wise); `alkalinity_arr` below lifts it to arrays.  The dict is built by
appending one block after the other: the keys are distinct, so this is the same as the
successive `components[...] = ...` assignments. -/

/-- simulate.py:35-36 -/
def blk_water (h : Flt) (ks : Dict Flt) : Py (Dict Flt) :=
  match ks.get? "k_water" with
  | some kw => .ok [("OH", kw / h)]
  | none => .ok []

/-- simulate.py:37-43 -/
def blk_carbonate (h : Flt) (totals ks : Dict Flt) : Py (Dict Flt) :=
  match totals.get? "dic" with
  | none => .ok []
  | some TCO2 => do
    let K1 ← ks.get "k_carbonic_1"
    let K2 ← ks.get "k_carbonic_2"
    let CO2 := TCO2 / (fin 1 + K1 / h + K1 * K2 / fpow h 2)
    let HCO3 := K1 * CO2 / h
    let CO3 := K2 * HCO3 / h
    return [("CO2", CO2), ("HCO3", HCO3), ("CO3", CO3)]

/-- simulate.py:44-47 (borate), 57-60 (silicate), 61-64 (ammonia), 65-68 (sulfide): the
four monoprotic acids share one shape, `T * K / (K + h)`. -/
def blk_mono (h : Flt) (totals ks : Dict Flt) (total k name : String) : Py (Dict Flt) :=
  match totals.get? total with
  | none => .ok []
  | some T => do
    let K ← ks.get k
    return [(name, T * K / (K + h))]

/-- simulate.py:48-56 -/
def blk_phosphate (h : Flt) (totals ks : Dict Flt) : Py (Dict Flt) :=
  match totals.get? "total_phosphate" with
  | none => .ok []
  | some TPO4 => do
    let KP1 ← ks.get "k_phosphoric_1"
    let KP2 ← ks.get "k_phosphoric_2"
    let KP3 ← ks.get "k_phosphoric_3"
    let denom := fpow h 3 + KP1 * fpow h 2 + KP1 * KP2 * h + KP1 * KP2 * KP3
    return [("H3PO4", TPO4 * fpow h 3 / denom),
            ("HPO4", TPO4 * KP1 * KP2 * h / denom),
            ("PO4", TPO4 * KP1 * KP2 * KP3 / denom)]

/-- simulate.py:69-76 (alpha) and 77-84 (beta) -/
def blk_extra (h : Flt) (totals ks : Dict Flt) (total k name : String) : Py (Dict Flt) :=
  match totals.get? total with
  | none => .ok []
  | some T => do
    let K ← ks.get k
    let alpha := T * K / (K + h)
    let alphaH := T - alpha
    return [(name, if (-(Flt.log10 K)).le (fin zlp) then -alphaH else alpha)]

/-- simulate.py:86-90 (HF, scales 1 and 3) and 91-95 (HSO4, scale 3) -/
def blk_proton (on : Bool) (h : Flt) (totals ks : Dict Flt) (total k name : String) :
    Py (Dict Flt) :=
  if on then
    match totals.get? total with
    | none => .ok []
    | some T => do
      let K ← ks.get k
      return [(name, T * h / (K + h))]
  else .ok []

/-- simulate.py:11-96 `alkalinity_components`.  `scale` is `opt_pH_scale`. -/
def alkalinity_components (pH : Flt) (totals ks : Dict Flt) (scale : ℕ) : Py (Dict Flt) := do
  pyAssert (scale ∈ [1, 2, 3])
  let h := Flt.pow10 (-pH)
  let c1 ← blk_water h ks
  let c2 ← blk_carbonate h totals ks
  let c3 ← blk_mono h totals ks "total_borate" "k_borate" "BOH4"
  let c4 ← blk_phosphate h totals ks
  let c5 ← blk_mono h totals ks "total_silicate" "k_silicate" "H3SiO4"
  let c6 ← blk_mono h totals ks "total_ammonia" "k_ammonia" "NH3"
  let c7 ← blk_mono h totals ks "total_sulfide" "k_sulfide" "HS"
  let c8 ← blk_extra h totals ks "total_alpha" "k_alpha" "alk_alpha"
  let c9 ← blk_extra h totals ks "total_beta" "k_beta" "alk_beta"
  let c10 ← blk_proton (scale ∈ [1, 3]) h totals ks "total_fluoride" "k_fluoride" "HF"
  let c11 ← blk_proton (scale = 3) h totals ks "total_sulfate" "k_bisulfate" "HSO4"
  return [("H", h)] ++ c1 ++ c2 ++ c3 ++ c4 ++ c5 ++ c6 ++ c7 ++ c8 ++ c9 ++ c10 ++ c11

/-- simulate.py:101-119 `component_multipliers` -/
def component_multipliers : Dict ℝ :=
  [ ("H", -1), ("OH", 1), ("CO2", 0), ("HCO3", 1), ("CO3", 2), ("BOH4", 1), ("HSO4", -1),
    ("HF", -1), ("H3PO4", -1), ("HPO4", 1), ("PO4", 2), ("H3SiO4", 1), ("NH3", 1), ("HS", 1),
    ("alk_alpha", 1), ("alk_beta", 1), ("alkalinity_estimate", 1) ]

/-- simulate.py:128: `[v * component_multipliers[k] for k, v in components.items()]` -/
def alk_terms : Dict Flt → Py (List Flt)
  | [] => .ok []
  | (k, v) :: d => do
    let m ← component_multipliers.get k
    let r ← alk_terms d
    return (v * fin m) :: r

/-- simulate.py:122-129 `alkalinity` at one titration point. -/
def alkalinity (pH : Flt) (totals ks : Dict Flt) (scale : ℕ) : Py Flt := do
  let c ← alkalinity_components pH totals ks scale
  let ts ← alk_terms c
  return npSum ts

/-- The value of every entry at titration point `i` (numpy broadcasting in simulate.py:34-95). -/
def rowAt (d : Dict NpVal) (i : ℕ) : Dict Flt := d.mapKV fun _ v => v.at_ i

/-- Every entry has either one value or one value per titration point
(numpy broadcasting in simulate.py:34-95). -/
def dictFits (n : ℕ) (d : Dict NpVal) : Bool := d.all fun kv => kv.2.fits n

/-- `alkalinity` on points `i, i+1, ...` (simulate.py:122-129) -/
def alkalinity_from (totals ks : Dict NpVal) (scale : ℕ) : ℕ → List Flt → Py (List Flt)
  | _, [] => .ok []
  | i, p :: ps => do
    let a ← alkalinity p (rowAt totals i) (rowAt ks i) scale
    let r ← alkalinity_from totals ks scale (i + 1) ps
    return a :: r

/-- simulate.py:122-129 `alkalinity` on arrays.  The components are evaluated once up front
because the scale assertion and missing keys raise even when the arrays are empty;
incompatible shapes raise `ValueError`. -/
def alkalinity_arr (pH : List Flt) (totals ks : Dict NpVal) (scale : ℕ) : Py (List Flt) := do
  let _ ← alkalinity (fin 7) (rowAt totals 0) (rowAt ks 0) scale
  if !(dictFits pH.length totals && dictFits pH.length ks) then .error .ValueError
  alkalinity_from totals ks scale 0 pH

end
end Calk
