import Verif.Model.Classes

/-! # `calkulate/plot/titration.py`, `calkulate/plot/__init__.py`

A figure is modelled by what is drawn in it, in order, and by the numbers in its title.  Colours,
other marker styles, axis labels and limits, the legend, the credit line and the formatting of the
numbers in the title are not modelled; neither are NaN points left out (matplotlib draws nothing for
them, here they are in the list).  `scipy.interpolate.pchip_interpolate` and the order in which
pandas' `groupby` sorts the groups are parameters. -/

namespace Calk
noncomputable section

open Flt

/-- something drawn (matplotlib, as used in plot/) -/
inductive Artist where
  /-- `ax.scatter`; `filled` is how the unused points are told apart from the used ones -/
  | points (label : Option String) (filled : Bool) (pts : List (Flt × Flt))
  /-- `ax.plot` -/
  | line (label : Option String) (pts : List (Flt × Flt))
  /-- `ax.axhline` -/
  | hline (y : Flt)
  /-- `ax.axvline` -/
  | vline (x : Flt)
  /-- `ax.fill_between` over the whole width -/
  | band (lo hi : Flt)

/-- what is drawn, and the numbers in the title (matplotlib, as used in plot/) -/
structure Figure where
  artists : List Artist
  title : List Flt := []

/-- `t.c` for a column of Booleans (plot/titration.py:72, 78, 86, 92) -/
def Table.flag (t : Table) (c : String) : Py (List Bool) :=
  match t.bools.get? c with
  | some u => .ok u
  | none => .error (.AttributeError c)

/-- `titrant_mass * 1e3` (plot/titration.py:57) -/
def grams (xs : List Flt) : List Flt := xs.map fun x => x * fin 1e3

/-- `hasattr(tt, k)`, for names that are not attributes of the object itself
(plot/titration.py:97-98, 224) -/
def Series.hasattr (s : Series) (k : String) : Bool := (s.dict.get? k).isSome

/-- plot/titration.py:71-82, 85-96, 121-132, 147-158, 190-201: the unused points, then the used
ones -/
def usedScatters (unused used : Option String) (u : List Bool) (x y : List Flt) : List Artist :=
  [ .points unused false ((grams (mask (u.map not) x)).zip (mask (u.map not) y)),
    .points used true ((grams (mask u x)).zip (mask u y)) ]

/-- plot/titration.py:52-61 `emf` -/
def plot_emf (tt : Titration) : Py Figure := do
  let tm ← tt.t.attr "titrant_mass"
  let e ← tt.t.attr "emf"
  return { artists := [.points none true ((grams tm).zip e)] }

/-- plot/titration.py:71-82: the first guess of the pH -/
def pH_first_guess (tt : Titration) : Py (List Artist) := do
  let tm ← tt.t.attr "titrant_mass"
  let u ← tt.t.flag "gran_used"
  let p ← tt.t.attr "gran_pH"
  return usedScatters (some "First guess, unused") (some "First guess, used") u tm p

/-- `try: ... except AttributeError: pass` (plot/titration.py:70-84) -/
def unlessAttributeError (p : Py (List Artist)) : Py (List Artist) :=
  match p with
  | .error (.AttributeError _) => .ok []
  | p => p

/-- plot/titration.py:69-84 -/
def pH_guess_artists (tt : Titration) : Bool → Py (List Artist)
  | true => unlessAttributeError (pH_first_guess tt)
  | false => .ok []

/-- plot/titration.py:97-98: `tt.k if hasattr(tt, k) else d` -/
def attrOr (row : Series) (k : String) (d : Flt) : Py Flt :=
  if row.hasattr k then numAttr row k else .ok d

/-- plot/titration.py:64-113 `pH` -/
def plot_pH (tt : Titration) (show_gran : Bool := true) : Py Figure := do
  let guess ← pH_guess_artists tt show_gran
  let tm ← tt.t.attr "titrant_mass"
  let u ← tt.t.flag "used"
  let p ← tt.t.attr "pH"
  let pH_min ← attrOr tt.row "pH_min" (fin 3)
  let pH_max ← attrOr tt.row "pH_max" (fin 4)
  return { artists := guess ++ usedScatters (some "Final, unused") (some "Final, used") u tm p
             ++ [.band pH_min pH_max] }

/-- plot/titration.py:116-139 `gran_emf0` -/
def plot_emf0_gran (tt : Titration) : Py Figure := do
  let tm ← tt.t.attr "titrant_mass"
  let u ← tt.t.flag "gran_used"
  let e ← tt.t.attr "gran_emf0"
  let emf0 ← numAttr tt.row "gran_emf0"
  return { artists := usedScatters (some "Unused") (some "Used") u tm e ++ [.hline emf0],
           title := [emf0] }

/-- plot/titration.py:161-166: the regression and the alkalinity of the Gran plot -/
def gran_fit (tt : Titration) : Py (LinRegress × Flt) :=
  match tt.sr.sr with
  | .emf sr _ => do
    let a ← numAttr tt.row "gran_alkalinity"
    return (sr.ggr.ga.lr, a)
  | .pH_gran sr _ _ => do
    let a ← numAttr tt.row "alkalinity"
    return (sr.lr, a)
  | .pH .. => .error (.NameError "lr")

/-- pandas `Series.max()`: NaN is left out (plot/titration.py:167, 371) -/
def pdMax (xs : List Flt) : Flt :=
  match xs.filter fun x => !x.isNaN with
  | [] => nan
  | x :: rest => rest.foldl fmax2 x

/-- pandas `Series.min()` (plot/titration.py:371) -/
def pdMin (xs : List Flt) : Flt :=
  match xs.filter fun x => !x.isNaN with
  | [] => nan
  | x :: rest => rest.foldl fmin2 x

/-- plot/titration.py:167-169: a point of the fitted line -/
def linePoint (lr : LinRegress) (x : Flt) : Flt × Flt :=
  (x * fin 1e3, x * lr.slope + lr.intercept)

/-- plot/titration.py:142-182 `gran_alkalinity` -/
def plot_alkalinity_gran (tt : Titration) : Py Figure := do
  let tm ← tt.t.attr "titrant_mass"
  let u ← tt.t.flag "gran_used"
  let g ← tt.t.attr "gran_func"
  let (lr, a) ← gran_fit tt
  let x0 := -lr.intercept / lr.slope
  return { artists := usedScatters (some "Unused") (some "Used") u tm g
             ++ [.hline (fin 0), .line (some "Fit") [linePoint lr x0, linePoint lr (pdMax tm)],
                 .vline (x0 * fin 1e3)],
           title := [a] }

/-- pandas `Series.mean()`: NaN is left out (plot/titration.py:376) -/
def pdMean (xs : List Flt) : Flt := npMean (xs.filter fun x => !x.isNaN)

/-- pandas `Series.std()`: NaN is left out, `ddof=1` (plot/titration.py:210) -/
def pdStd (xs : List Flt) : Flt :=
  let ys := xs.filter fun x => !x.isNaN
  if ys.length < 2 then nan
  else Flt.sqrt (npSum (ys.map fun y => Flt.sq (y - npMean ys)) / fin ((ys.length : ℝ) - 1))

/-- plot/titration.py:185-216 `alkalinity` -/
def plot_alkalinity (tt : Titration) : Py Figure := do
  let tm ← tt.t.attr "titrant_mass"
  let u ← tt.t.flag "used"
  let est ← tt.t.attr "alkalinity_estimate"
  let a ← numAttr tt.row "alkalinity"
  return { artists := usedScatters (some "Unused") (some "Used") u tm (est.map fun x => x * fin 1e6)
             ++ [.hline a],
           title := [a, pdStd (mask u est) * fin 1e6, countUsed u] }

/-- `tt.k` and then a call: what a cell holds cannot be called (plot/titration.py:225-226, 283-284) -/
def callAttr (row : Series) (k : String) : Py Unit := do
  let _ ← row.getattr k
  .error .TypeError

/-- plot/titration.py:224-226, 282-284: the first thing that the two loss plots do.  `Titration` has
neither of the methods, so the names are looked up in the row. -/
def loss_hires (tt : Titration) : Py Unit :=
  if tt.row.hasattr "k_dic_loss" then callAttr tt.row "_get_dic_loss_hires"
  else do
    callAttr tt.row "get_dic_loss"
    callAttr tt.row "_get_dic_loss_hires"

/-- plot/titration.py:219-274 `dic_loss`, 277-323 `fCO2_loss`: nothing is drawn before the methods
are called; what is drawn afterwards is not modelled, as that is never reached. -/
def plot_loss (tt : Titration) : Py Figure := do
  loss_hires tt
  return { artists := [] }

/-! ## Components -/

/-- plot/titration.py:326-343: the variables of the components plot, in order -/
def componentVars : List String :=
  ["alkalinity_estimate", "HCO3", "CO3", "BOH4", "PO4", "HPO4", "H3PO4", "HSO4", "HF", "H3SiO4",
    "NH3", "HS", "H", "OH", "alk_alpha", "alk_beta"]

/-- plot/titration.py:345-362 `component_labels` -/
def componentLabels : Dict String :=
  [ ("alkalinity_estimate", "Total"), ("HCO3", "+[HCO$_3^-$]"), ("CO3", "+2[CO$_3^{2-}$]"),
    ("BOH4", "+[B(OH)$_4^-$]"), ("PO4", "+2[PO$_4^{3-}$]"), ("HPO4", "+[HPO$_4^{2-}$]"),
    ("H3PO4", "$-$[H$_3$PO$_4$]"), ("HSO4", "$-$[HSO$_4$]"), ("HF", "$-$[HF]"),
    ("H3SiO4", "+[H$_3$SiO$_4$]"), ("NH3", "+[NH$_3$]"), ("HS", "+[HS$^-$]"), ("H", "$-$[H$^+$]"),
    ("OH", "+[OH$^-$]"), ("alk_alpha", "$A_α$"), ("alk_beta", "$A_β$") ]

/-- plot/titration.py:373-377: `ttt[[...]]` -/
def checkColumns (t : Table) : List String → Py Unit
  | [] => .ok ()
  | c :: rest => if (t.nums.get? c).isSome then checkColumns t rest else .error (.KeyError c)

/-- put a mass among sorted distinct ones (plot/titration.py:375) -/
def insertMass (m : Flt) : List Flt → List Flt
  | [] => [m]
  | x :: rest =>
    if feq m x then x :: rest
    else if m.lt x then m :: x :: rest
    else x :: insertMass m rest

/-- `groupby("titrant_mass")`: the groups, sorted; NaN belongs to none (plot/titration.py:375, 378) -/
def groupMasses (tm : List Flt) : List Flt :=
  (tm.filter fun m => !m.isNaN).foldr insertMass []

/-- `groupby("titrant_mass").mean()` for one column (plot/titration.py:373-377) -/
def groupMean (tm xs : List Flt) (m : Flt) : Flt :=
  pdMean (((tm.zip xs).filter fun p => feq p.1 m).map Prod.snd)

/-- `np.linspace(lo, hi, num=500)` (plot/titration.py:370-372) -/
def linspace500 (lo hi : Flt) : List Flt :=
  (List.range 500).map fun i : ℕ => lo + fin i * ((hi - lo) / fin 499)

/-- `scipy.interpolate.pchip_interpolate(xi, yi, x)` (plot/titration.py:394-398) -/
abbrev Pchip := List Flt → List Flt → List Flt → Py (List Flt)

/-- plot/titration.py:382-391: what is shown of a content `x` -/
def shown (log_scale : Bool) (mult : ℝ) (x : Flt) : Flt :=
  if log_scale then -Flt.log10 (x * fin |mult|) else x * fin mult * fin 1e6

/-- plot/titration.py:380-412: one variable -/
def componentArtists (pchip : Pchip) (log_scale : Bool) (tm : List Flt) (u : List Bool)
    (var : String) (xs : List Flt) : Py (List Artist) :=
  if xs.all fun x => (fin 0).lt x then do
    let mult ← component_multipliers.get var
    let x_line := linspace500 (pdMin tm) (pdMax tm)
    let masses := groupMasses tm
    let curve ← pchip masses (masses.map fun m => shown log_scale mult (groupMean tm xs m)) x_line
    return [.line (some ((componentLabels.get? var).getD var)) ((grams x_line).zip curve)] ++
      usedScatters none none u tm (xs.map (shown log_scale mult))
  else return []

/-- plot/titration.py:379-412: the variables in turn -/
def allComponents (pchip : Pchip) (log_scale : Bool) (t : Table) (tm : List Flt) (u : List Bool) :
    List String → Py (List Artist)
  | [] => .ok []
  | var :: rest => do
    let xs ← t.attr var
    let a ← componentArtists pchip log_scale tm u var xs
    let b ← allComponents pchip log_scale t tm u rest
    return a ++ b

/-- plot/titration.py:365-421 `components`; returns nothing, the figure is what is drawn.  The
zero line (log_scale=False) comes last. The column `used` is looked up first here, in the code with
the first variable drawn; every Titration has it. -/
def plot_components (pchip : Pchip) (tt : Titration) (log_scale : Bool := true) : Py Figure := do
  let tm ← tt.t.attr "titrant_mass"
  checkColumns tt.t ("titrant_mass" :: componentVars)
  let u ← tt.t.flag "used"
  let a ← allComponents pchip log_scale tt.t tm u componentVars
  return { artists := a ++ if log_scale then [] else [.hline (fin 0)] }

/-! ## Data sets -/

/-- `data[xvar]`, or the number of each row (plot/__init__.py:20-25, 76-81) -/
def xData (df : DF) : Option String → Py (List Flt)
  | none => .ok ((List.range df.rows.length).map fun i : ℕ => fin i)
  | some c => if df.has c then mapPy (fun r => cellNum (r c)) df.rows else .error (.KeyError c)

/-- `data.reference_good.values` as index: only Booleans are modelled (others: `IndexError`)
(plot/__init__.py:27, 83) -/
def goodFlag (r : Row) : Py Bool :=
  match r "reference_good" with
  | .bool b => .ok b
  | _ => .error .IndexError

/-- plot/__init__.py:26-29, 82-85 -/
def goodFlags (df : DF) : Py (List Bool) :=
  if df.has "reference_good" then mapPy goodFlag df.rows
  else .ok (df.rows.map fun _ => true)

/-- `data.c`, as numbers (plot/__init__.py:34, 55, 99) -/
def DF.nums (df : DF) (c : String) : Py (List Flt) :=
  if df.has c then mapPy (fun r => cellNum (r c)) df.rows else .error (.AttributeError c)

/-- dataset.py:102-103: the columns that `get_batches` takes -/
def batchCols : List String := ["analysis_batch", "titrant_molinity_here", "reference_good"]

/-- the distinct labels (dataset.py:104) -/
def distinctLabels : List Val → List Val
  | [] => []
  | v :: rest => v :: (distinctLabels rest).filter fun v' => !v'.sameLabel v

/-- dataset.py:100-107 `get_batches(...).index`; `order` sorts the labels -/
def batchLabels (order : List Val → List Val) (df : DF) : Py (List Val) :=
  match batchCols.find? fun c => !df.has c with
  | some c => .error (.KeyError c)
  | none =>
    if df.rows.any fun r => !(r "analysis_batch").isNull && (refFlag (r "reference_good")).isNone then
      .error .TypeError
    else .ok (order (distinctLabels
      ((df.rows.map fun r => r "analysis_batch").filter fun v => !v.isNull)))

/-- `data.analysis_batch == batch` (plot/__init__.py:54, 90) -/
def inBatch (df : DF) (b : Val) : List Bool :=
  df.rows.map fun r => (r "analysis_batch").sameLabel b

/-- `ax.scatter(xdata[G], y[G])`, and the bad ones if they are shown
(plot/__init__.py:32-49, 97-115) -/
def goodScatters (show_bad : Bool) (g : List Bool) (x y : List Flt) : List Artist :=
  [.points (some "Good data") true ((mask g x).zip (mask g y))] ++
  if show_bad then [.points (some "Bad data") false ((mask (g.map not) x).zip (mask (g.map not) y))]
  else []

/-- plot/__init__.py:51-55: the lines of the batches -/
def batchLines (order : List Val → List Val) (df : DF) (x : List Flt) : Bool → Py (List Artist)
  | false => .ok []
  | true => do
    let bs ← batchLabels order df
    let c ← df.nums "titrant_molinity"
    return bs.map fun b => .line none ((mask (inBatch df b) x).zip (mask (inBatch df b) c))

/-- plot/__init__.py:12-63 `titrant_molinity` -/
def plot_titrant_molinity (order : List Val → List Val) (df : DF) (xvar : Option String := none)
    (show_bad : Bool := true) (show_batches : Bool := true) : Py Figure := do
  let x ← xData df xvar
  let g ← goodFlags df
  let y ← df.nums "titrant_molinity_here"
  let ls ← batchLines order df x show_batches
  return { artists := goodScatters show_bad g x y ++ ls }

/-- plot/__init__.py:87-91: the number of its batch for each row, -1 if there is none -/
def batchNumbers (bs : List Val) (df : DF) : List ℤ :=
  df.rows.map fun r => match bs.findIdx? fun b => (r "analysis_batch").sameLabel b with
    | some i => (i : ℤ)
    | none => -1

/-- plot/__init__.py:86-94: the colours of the good points: the numbers of their batches -/
def batchColours (order : List Val → List Val) (df : DF) (g : List Bool) :
    Bool → Py (Option (List ℤ))
  | false => .ok none
  | true => do
    let bs ← batchLabels order df
    return some (mask g (batchNumbers bs df))

/-- plot/__init__.py:66-127 `alkalinity_offset`; with the colours of the good points -/
def plot_alkalinity_offset (order : List Val → List Val) (df : DF) (xvar : Option String := none)
    (show_bad : Bool := true) (show_batches : Bool := true) : Py (Figure × Option (List ℤ)) := do
  let x ← xData df xvar
  let g ← goodFlags df
  let clr ← batchColours order df g show_batches
  let y ← df.nums "alkalinity_offset"
  return ({ artists := goodScatters show_bad g x y ++ [.hline (fin 0)] }, clr)

end
end Calk
