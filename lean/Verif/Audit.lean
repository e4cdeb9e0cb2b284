import Verif.Flt
import Verif.Py
import Verif.Lemmas.Np
import Verif.Model.Constants
import Verif.Model.Density
import Verif.Model.Convert
import Verif.Model.Simulate
import Verif.Lemmas.Convert
import Verif.Props.Convert
import Verif.Spec
import Verif.Lemmas.SpecAlk
import Verif.Lemmas.Simulate
import Verif.Lemmas.Components
import Verif.Props.Simulate
import Verif.Props.Scales
import Verif.PyS
import Verif.Model.Core
import Verif.Lemmas.Arr
import Verif.Lemmas.SolvePH
import Verif.Lemmas.FltMul
import Verif.Props.SolvePH
import Verif.Lemmas.Gran
import Verif.Props.Gran
import Verif.Lemmas.SolveEmf
import Verif.Props.SolveEmf
import Verif.Lemmas.Totals
import Verif.Props.Totals
import Verif.Model.Interface
import Verif.Model.Files
import Verif.Lemmas.Files
import Verif.Props.Files
import Verif.Props.Settings
import Verif.Props.Override
import Verif.Lemmas.Interface
import Verif.Props.Interface
import Verif.Model.Dataset
import Verif.Lemmas.Kwargs
import Verif.Lemmas.Dataset
import Verif.Props.Dataset
import Verif.Props.DatasetRows
import Verif.Props.Calibrate
import Verif.Props.CalibrateCases
import Verif.Props.Backcompat
import Verif.Props.Density
import Verif.Props.DensityFormula
import Verif.Text
import Verif.Model.Read
import Verif.Lemmas.Text
import Verif.Props.Read
import Verif.Props.ReadTypes
import Verif.Model.Loss
import Verif.Props.Loss
import Verif.Props.LossTable
import Verif.Props.LossPoints
import Verif.Model.Metadata
import Verif.Props.Metadata
import Verif.Props.ReadDbs
import Verif.Model.Classes
import Verif.Lemmas.Classes
import Verif.Props.Titration
import Verif.Props.TitrationTable
import Verif.Props.TitrationEstimate
import Verif.Props.TitrationExample
import Verif.Props.EmfFit
import Verif.Props.DatasetResults
import Verif.Props.TitrationColumns
import Verif.Props.TitrationMade
import Verif.Props.TitrationEmfExample
import Verif.Props.Defaults
import Verif.Props.ReadDefaults
import Verif.Props.ConvertH2SO4
import Verif.Props.SettingScope
import Verif.Model.SimTitration
import Verif.Props.SimTitration
import Verif.Props.SimLoss
import Verif.Lemmas.Capacity
import Verif.Props.Unique
import Verif.Props.DatasetInputs
import Verif.Lemmas.ByName
import Verif.Props.ToTitration
import Verif.Model.Plot
import Verif.Lemmas.Plot
import Verif.Lemmas.Scale
import Verif.Props.Plot
import Verif.Props.PlotExample
import Verif.Props.PlotComponents
import Verif.Props.PlotDataset
import Verif.Props.Attributes
import Verif.Props.FileLevel
import Verif.Props.GranWarn
import Verif.Props.FileCalibrate
import Verif.Props.FileEmf
import Verif.Props.FileErrors
import Verif.Props.EmfOffset
import Verif.Props.Resize
import Verif.Props.FileGran
import Verif.Props.FileAdjust
import Verif.Props.DatasetTrue
import Verif.Props.Readers
import Verif.Props.EmfErrors
import Verif.Props.EmfWritten
import Verif.Props.EmfWrittenExample
import Verif.Props.EmfMolinity
import Verif.Props.Tolerance
import Verif.Props.Bias
import Verif.Props.Refuse
import Verif.Props.WriteModes
import Verif.Props.Rounding
import Verif.Props.RoundingTotals
import Verif.Props.ReadOptions
import Verif.Props.EmfCalibrate
import Verif.Props.ExtraColumns
import Verif.Props.DatasetEmf
import Verif.Props.RoundingEmf
import Verif.Props.Signatures
import Verif.Props.RoundingAdjust
import Verif.Props.EmfTolerance
import Verif.Props.EmfToleranceExample
import Verif.Props.EmfSulfuricExample
import Verif.Props.AdjustCalibrate
import Verif.Props.AdjustCalibrateExample
import Verif.Props.Batches
import Verif.Props.Mixed
import Verif.Props.NotText
import Verif.Props.Labels
import Verif.Props.Contents
import Verif.Props.WrongConstants
import Verif.Props.GranBias
import Verif.Props.GranSign
import Verif.Props.PHOffset
import Verif.Props.Burette
import Verif.Props.PHOffsetAdjust
import Verif.Props.RefuseAdjust
import Verif.Props.Numbers
import Verif.Props.Order
import Verif.Props.FileOrder

/-! # Axioms

Checked when this file is built: every constant of the namespace `Calk` depends on no axioms other
than `propext`, `Classical.choice` and `Quot.sound`. -/

open Lean Elab Command

run_cmd do
  let env ← getEnv
  let allowed : List Name := [``propext, ``Classical.choice, ``Quot.sound]
  let names := env.constants.fold (init := #[]) fun ns n _ =>
    if (`Calk).isPrefixOf n then ns.push n else ns
  for n in names do
    let axs ← collectAxioms n
    for a in axs do
      unless allowed.contains a do
        throwError "{n} depends on the axiom {a}"
  if names.size < 1000 then throwError "only {names.size} constants found"
