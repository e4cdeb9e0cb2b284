import Verif.Model.Plot

/-! # `calkulate/dataset.py: get_group_calibration, get_batches` -/

namespace Calk
noncomputable section

open Flt

/-- dataset.py:91-97: a row of the table of the batches.  `__std` and `__count` are the endings of the
names of the columns. -/
structure BatchStats where
  titrant_molinity : Flt
  titrant_molinity__std : Flt
  titrant_molinity__count : Flt

/-- a cell of `ds_group.titrant_molinity_here` (dataset.py:88); cells that are no numbers are not modelled -/
def hereOf (r : Row) : Flt := match r "titrant_molinity_here" with | .num x => x | _ => nan

/-- dataset.py:86-97 `get_group_calibration` -/
def get_group_calibration (group : List Row) : BatchStats :=
  let titrant_molinities := (group.filter isReference).map hereOf
  { titrant_molinity := pdMean titrant_molinities
    titrant_molinity__std := pdStd titrant_molinities
    titrant_molinity__count := fin (titrant_molinities.length : ℝ) }

/-- dataset.py:100-107 `get_batches`: the table, with the label of each batch; `order` sorts the labels -/
def get_batches (order : List Val → List Val) (df : DF) : Py (List (Val × BatchStats)) := do
  let bs ← batchLabels order df
  return bs.map fun b =>
    (b, get_group_calibration (df.rows.filter fun r => (r "analysis_batch").sameLabel b))

end
end Calk
