# Formal model of calkulate

Subject: `mvdh7/calkulate`, Python source at `/repo` (pinned commit). The code was
read as text only; nothing was executed. The model and proofs are in Lean 4 with
Mathlib, under `lean/Verif/`.

## Layout

- `Verif/Flt.lean`, `Verif/Py.lean`, `Verif/PyS.lean`, `Verif/Text.lean`: numbers with
  NaN/inf, exceptions, dicts, arrays, state that survives exceptions, text.
- `Verif/Model/*.lean`: model of the code, one file per Python module (a few modules
  are split). Every definition cites the lines it models.
- `Verif/Spec.lean`: small independent specifications over ℝ used in statements.
- `Verif/Lemmas/*.lean`: helper lemmas.
- `Verif/Props/*.lean`: property theorems (named `Cnn_...`) with concrete instances
  (`example`) beside them.
- `Verif/Audit.lean`: fails to build if anything in the namespace depends on an axiom
  other than `propext`, `Classical.choice`, `Quot.sound`.
- `seeded/LOG.jsonl`: wrong versions of the model and the theorems that rejected them.

## Trusted base

1. Lean's kernel (4.33.0), and Mathlib's definitions of ℝ, exp, log, sqrt, lists.
2. Axioms: every theorem depends on no axioms other than `propext`, `Classical.choice`
   and `Quot.sound` (checked in `Verif/Audit.lean` for every constant of the namespace).
   No `sorry`, `native_decide`, `bv_decide`, `implemented_by` or added axioms.
3. That the model definitions match the cited Python lines under the choices below.
4. Behaviour of the libraries as modelled: the parts of numpy, pandas and
   `scipy.stats.linregress` written as definitions in `Py.lean`, `Model/*`. Everything
   else that the code calls is a parameter of the model; what a theorem assumes about
   it is a visible hypothesis of that theorem (list below).

## Modelling choices

- **Numbers** `Flt = nan | ninf | pinf | fin (x : ℝ)`. Arithmetic follows IEEE for
  NaN and infinities; finite arithmetic is exact real arithmetic. Rounding, overflow,
  underflow and signed zero are not modelled (but see the next item). Decimal literals
  denote their exact decimal value.
- **Rounding** (C127, C128, C133, C135): `Model/Rounded.lean` is a second model of
  `simulate.alkalinity`, `solve_pH`, `add_titrant_totals`, `calibrate_pH`, `emf_to_pH`,
  `pH_to_emf` and `solve_emf` over an arithmetic that is a parameter (`Arith`); with exact arithmetic it
  equals the first (C127_exact, C128_exact, C133_exact, C135_exact). Assumed of the arithmetic (`Accurate F u e`): each of
  `+ - * /` has relative error at most u, `10**x` and `x**n` at most e units, sums are
  made by additions in any order; nothing overflows or underflows. C127 also assumes that
  the rounded `log10` of `k_alpha`, `k_beta` falls on the same side of the zero-level pH
  (`RoundSide`), C128 that rounding is symmetric (`Odd'`), C133 that `np.exp` and
  `np.log10` are as accurate as powers (`AccurateExp`) and that the optimiser gets within
  τ of the least root of the sum of squares of the rounded residuals (`LsNearMin`). C135 assumes the same of `np.log` (`AccurateLog`). In C133 and C135
  the physical constants are rounded when read in, and the Gran estimate is a parameter.
  `double` (53 bits, ties to even,
  no limits on the exponent) is shown to satisfy all of it. The inputs (data, totals,
  constants) are exact. Not bounded: the rounding of `np.std`; not modelled with rounding:
  everything else.
- **Arrays** are lists; numpy element-wise operations are `zipWith`/`map`; shape
  mismatch raises `ValueError`; numpy's broadcasting of size-1 arrays is modelled for
  totals and constants only.
- **Exceptions** are values of `PyErr` in `Except`; code that mutates state and may
  raise is modelled in a state monad in which the state survives the exception.
  Argument type errors are raised when the argument is fetched, which in the model is
  at the start of the function.
- **Dicts** are association lists in insertion order; arguments collected by keyword
  are finite maps. Python sets of keys are lists; iteration order is the list order.
- **pandas**: a DataFrame is a column list plus rows mapping column names to cells.
  `apply(axis=1)` is a row map, `groupby` drops null keys, `.loc` with a missing label
  raises `KeyError`. The index of a table is modelled where rows are looked up by it (`Model/Labels`:
  `to_Titration`, `get_VINDTA_filenames`, `add_func_cols`, `read_dbs`; labels other than NaN) and left out
  elsewhere; a `Titration` made from several rows under one label is not modelled. Not modelled: dtypes (but for the temperatures of a file,
  which may be integers, see finding 25), duplicate or non-string column names, empty DataFrames,
  keyword arguments that `DataFrame.apply` takes itself.
- **Text**: ASCII digits and whitespace, `float()` without underscores and without
  overflow to infinity, one-character delimiters; encodings, permissions and missing
  directories are not modelled. `write_dat` takes formats ".kf" only.
  Case conversion is for ASCII letters.
- **scipy.stats.linregress**: ordinary least-squares formulas and the error cases
  (empty input, all x identical).  When x or y is constant some scipy releases report
  `rvalue` 0, others NaN; the definition says 0, and C110 makes no claim about that case.
- **numpy.arange** over exact reals (a step of zero or a non-finite argument raises).

## Contracts of external functions

| parameter | stands for | assumed where |
|---|---|---|
| `World.readDat` | `read.read_dat` as called by `files` | nothing assumed, except `ByName` in C98, C118, C129 and C132 (keyword order does not matter; proved for the modelled readers in C119) and `Shaped` in C98_made (points, as many temperatures as amounts; see C119_columns); `Model/Read.lean` models the readers themselves |
| `World.saltsAssemble`, `equilibriaAssemble` | PyCO2SYS | `KeepsTotals`, `KeepsKs` (values passed in are returned; for totals, when no nutrients are among them) in C69, C108, C109; `PointByPoint` (single numbers give single totals; constants are single numbers or have an entry for each point, and go with the points) in C139 |
| `World.sysSalts` | `pyco2.sys(salinity, opt_total_borate)` | that it works row by row |
| `World.ls` | `least_squares` of the EMF solver | `LsSound` (returns the residual at its x), `LsGlobalMin`, `LsTranslates` (C114: a start and data moved together give a result moved alike; scipy does so only approximately), `LsRefuses` (C125: `ValueError` for non-finite residuals at the start and for a NaN start), `LsIdle` (C125: no residuals, no step; both hold for the default method `trf`), `LsNearMin` (C133, C136), `Unordered` (C138: residuals in another order lead to the same estimates; with scipy the last digits may differ), only where stated |
| `World.opt` | `least_squares` of the calibrators: any adaptive strategy of evaluations that stops or raises | `FiniteTrials`, `ReportsEvaluated`, `LsqRefuses` (C125: the start is evaluated first; `ValueError` if a residual there is not finite) where stated |
| `Sys` | `pyco2.sys` in `simulate._titration` | `SysExact` (the pH returned has the alkalinity asked for) in C93, C95; `GasFinite` in C94 |
| `sys : SysIn → Py SysOut` | `pyco2.sys` in `Titration` | `SysAgrees` (its alkalinity is that of `simulate.alkalinity`) in C63; `SysTotal` in C88 |
| `LossLib` | pchip interpolation and `least_squares` in `loss.py` | `Regular`, `Total`, `ThroughNodes`, `Within` in C76, C85 |
| parameters of `Model/Metadata.lean` | `str.format`, `str(number)`, `int(string)`, `datetime64`, `read_table` | nothing beyond what the theorem says |

Where the optimiser's convergence matters, theorems are about "if the result is a zero
(minimiser) of the residual then ..."; C95 shows when that determines the alkalinity.

## What is modelled

| Python | Lean | not modelled in it |
|---|---|---|
| (with rounding) parts of `simulate.py`, `core.py` | `Model/Rounded.lean` | see above |
| `constants.py`, `default.py` | `Model/Constants.lean`, defaults in the functions using them | |
| `convert.py` | `Model/Convert.lean`, `amount_units` in `Model/Files.lean` | |
| `density.py` | `Model/Density.lean` | array arguments |
| `simulate.py` | `Model/Simulate.lean`, `Model/SimTitration.lean` | `titration`, which always raises `NameError` |
| `core.py` | `Model/Core.lean`, `totals_ks` in `Model/Files.lean` | broadcasting of length-1 measurement arrays |
| `interface.py`, `meta._get_kwargs_for` | `Model/Interface.lean` | array-valued keyword arguments |
| `files.py` | `Model/Files.lean` | |
| `dataset.py` | `Model/Dataset.lean` | printing, `verbose`; a `reference_good` that is neither Boolean nor null (stand-in `TypeError`) |
| `classes.py` (`Titration`, `to_Titration`) | `Model/Classes.lean` | labels occurring twice |
| `plot/titration.py`, `plot/__init__.py` | `Model/Plot.lean` | a figure is what is drawn (points, lines, band) and the numbers in the title: no colours other than the batch numbers, fonts, axis labels or limits; `pchip_interpolate` and the order in which pandas sorts batch labels are parameters; a `reference_good` that is not Boolean |
| `read/titrations.py` | `Model/Read.lean` | text encodings |
| `read/metadata.py` | `Model/Metadata.lean` | `read_clipboard`, `read_csv`, `read_excel`, `read_fwf`, `read_table` (only pandas calls) |
| `loss.py` | `Model/Loss.lean` | |

`Model/Signatures.lean` has the signatures of the functions that `files.py` and `dataset.py` call,
Python's rules for binding arguments, and the calls they make (keywords only, not the values);
`meta._get_kwarg_keys` is modelled on these signatures, and C134_keys shows that the key lists
written out in `Model/Files.lean` are its results.

Not modelled: `meta.hello`, `settings.py` (an empty dict), `density_estimator.py` (a
script), matplotlib, console printing, multi-threading, and the internals of
PyCO2SYS, numpy, scipy and pandas beyond the above.

## Plan per property

- **C01** EMF and pH are inverse conversions: convert on `Flt`; bridge to ℝ, then Real.exp/log algebra.
- **C02** pH falls strictly as EMF rises and depends only on EMF - EMF0: same bridge; strict monotonicity of exp and -log10.
- **C03** Dickson's f is an EMF0 shift: same bridge.
- **C04** Dilution conserves amount and composes: dilution factor over ℝ; field algebra, list fold for repeated dilution.
- **C05** Diluting totals touches every total the same way: dict-of-arrays model of dilute_totals; lookup characterisation per key and point.
- **C06** dilute_totals_pyco2 dilutes exactly the listed substances: key-filtered dict map; lookup characterisation for every key; witness for the undiluted names.
- **C07** H2SO4 dilution equals dilute-then-add: equality of two model functions on all dicts that contain total_sulfate.
- **C08** Speciation obeys mass balance: per-block lemmas for the component dict, then a theorem on the whole dict.
- **C09** Alkalinity increases strictly with pH: each block's contribution is antitone in h; proton term strict; composition over optional blocks.
- **C10** Every alkalinity has exactly one pH: strict monotonicity + continuity + limits, intermediate value theorem.
- **C11** Absent totals contribute nothing; missing constants raise: case analysis per block; zero-total lemma per block; error characterisation.
- **C12** pH scales agree up to a known excess: closed-form of both evaluations, field_simp.
- **C13** solve_pH recovers the true alkalinity from exact data: array model of solve_pH; per-point identity then mean of a constant list.
- **C14** The pH window is inclusive and decides everything: mask model; congruence under equal masked data; mean bounds by induction.
- **C15** solve_pH does not depend on the order of the points: List.Perm invariance of mask/mean/std.
- **C16** Degenerate windows: error branches; empty mean is NaN.
- **C17** solve_pH is affine in titrant molinity, and calibration has exactly one answer: affine identity through sums; uniqueness from non-zero slope.
- **C18** Gran point selection: index search lemma; subset of legacy selection.
- **C19** Gran estimates are exact for strong-acid titrations: OLS on exactly collinear data returns line (induction-free sum algebra), then closed forms.
- **C20** An electrode offset does not change Gran alkalinity: OLS scaling lemma; selection invariant under positive scaling.
- **C21** Gran-mode pH solver is exact and proportional to molinity: as C19 with the pH form of the Gran function.
- **C22** Unknown gran_logic is rejected: error branch.
- **C23** EMF residuals and per-point alkalinities tell the same story: per-point algebra for any optimiser (optimiser = arbitrary strategy).
- **C24** EMF solver uses exactly the window points: masking commutes with evaluation; non-interference.
- **C25** Double solving is exactly one re-solve: unfolding with an instrumented optimiser call count.
- **C26** Reported Gran diagnostics under double solving: non-interference plus a concrete witness that legacy would differ.
- **C27** Exact EMF data are a zero of the fit: per-point algebra + minimiser contract.
- **C28** Calibration leaves the totals as it found them: optimiser = arbitrary adaptive strategy over a stateful residual; invariant by induction on evaluations.
- **C29** A failing calibration can leave the totals modified: concrete failing run + general characterisation of the state after a failing trial.
- **C30** Adding titrant totals: lookup characterisation; additivity; permutation invariance; error branches.
- **C31** Row values override keyword arguments, null row values do not: lookup characterisation, independence of key order.
- **C32** Calibration and solving run the same solver: file-level model of both entry points; equality for all modes.
- **C33** gran_logic never reaches calibration: non-interference through key filtering.
- **C34** solve_mode is case-insensitive and closed: lower-casing lemma; exhaustive dispatch; values that are no text (C34_no_text).
- **C35** pH_adjust always starts at EMF0 = 0: non-interference.
- **C36** Unrecognised keyword arguments have no effect: non-interference through key filtering.
- **C37** Titrant amount units are interchangeable: amount_units model; algebra per unit; units and titrants that are no text (C37_no_text, C37_titrant).
- **C38** Analyte mass wins over analyte volume: amount_units model with the dtype of the temperatures; case analysis, floor/ceil for the conversion; the readers by cases.
- **C39** Old-style arguments keep working: lookup characterisation of _backcompat.
- **C40** Solving a dataset only touches its own columns: frame theorem on the DataFrame state monad (exceptions keep the state).
- **C41** A bad row never affects another row: row-wise characterisation of solve; row result depends only on the row.
- **C42** Row order does not matter: row-map/perm equivariance, batch means perm-invariant.
- **C43** Batch titrant molinity is the mean of that batch's good references: characterisation of calibrate; independence of other batches.
- **C44** A self-calibrated reference returns its certified value: composition of C32 and C43.
- **C45** Solving is idempotent and calkulate adds nothing to calibrate: idempotence of prepare, solve_row reads no column that solve writes.
- **C46** Recalibration can depend on history: concrete histories (witness) + general preservation lemmas.
- **C47** Keyword arguments shadowed by prepared columns: non-interference.
- **C48** Existing salt totals are never overwritten: cell-wise characterisation, idempotence.
- **C49** file_good False means the file is not touched: solve_row/calibrate_row branches with a reader that is never consulted.
- **C50** Null analysis_batch aborts calibration: error branch, general.
- **C51** Which kwargs are reported as ignored: warning list characterisation.
- **C52** analyte_mass is not back-filled: column characterisation.
- **C53** Written titrations read back: decimal formatting and parsing on characters; round trip by induction.
- **C54** write_dat writes only complete points and never overwrites by default: write model on a file-system map.
- **C55** A single-point file cannot be read: reader model branch.
- **C56** PC LIMS reader takes the first data block: regex matcher model vs. field specification; maximal-run specification.
- **C57** Unknown file types fall back to genfromtxt: dispatch branch.
- **C58** Tiamo volumes are shifted by the start volume: line-level model; pandas table reader as parameter.
- **C59** VINDTA bottle file names are unambiguous, CRM names are not: formatting injectivity on characters; witness for CRM.
- **C60** dbs import marks unusable rows and keeps CRM values: row-wise characterisation.
- **C61** Seawater density is sane over its validity range: real polynomial bounds (interval-style nlinarith), monotonicity in S; `C61_equation` against the published table of coefficients (`Spec.seawaterTable`).
- **C62** Titrant densities are sane: real polynomial bounds; `C62_equation` against mass over volume; `C62_denser` bounds the growth of the volume by that of the mass.
- **C63** Titration point estimates match the solver only for normality 1: algebra on the model of do_CO2SYS.
- **C64** Titration keyword arguments override the row: dict merge characterisation.
- **C65** Printing a Titration needs file_path: attribute lookup branch.
- **C66** DIC loss model: no loss means dilution only: induction over steps.
- **C67** DIC loss model is affine and monotone in k: induction over steps; affine coefficients; uniqueness of the minimiser.
- **C68** fCO2 from DIC and pH: real algebra.
- **C69** User-supplied totals and constants are respected: dict model with PyCO2SYS as a parameter carrying an explicit contract.
- **C70** Name tables are consistent: finite tables; decided by kernel computation over the whole (finite) domain.
- **C71** solve_pH ignores the pH scale: non-interference + excess formula from C12.
- **C72** A NaN reading is contained in pH mode but not in EMF mode: mask lemmas; NaN propagation through max.
- **C73** Default reader: one point per data line, NaN for non-numbers: line/field model of numpy.genfromtxt; list induction.
- **C74** Excel titrations can be read but not solved: type of the reader result; error propagation.
- **C75** The DIC loss table obeys the DIC balance across the fit/forecast boundary: induction over the steps of both fill loops; interpolator and optimiser are parameters.
- **C76** The DIC loss model needs both sides of the split pH: mask emptiness; explicit contracts on the interpolator.
- **C77** Masses of the DIC loss table: arithmetic progression of numpy.arange; median.
- **C78** The first forecast row uses the previous point's pH: index-wise characterisation of the forecast loop; monotonicity from C68.
- **C79** Dates of a dbs file: split on characters.
- **C80** read_dbs keeps every row and sets exactly one analyte amount: row-wise composition of the steps; the join of the new columns checks the names.
- **C81** A Titration needs analyte_mass: symbolic execution of the Titration constructor.
- **C82** A data set row reports what solving its file reports: a solved row is a fixed point of solve_row (C45); extensional settings (C31).
- **C83** What the EMF solver fits and where it starts: symbolic execution of solve_emf with the optimiser as a parameter; textbook residual.
- **C84** What alkalinity_std means: list algebra; exact relation between residuals and estimates; concrete witness.
- **C85** What the DIC loss model returns at the titration points: interpolation and optimiser as parameters with contracts (through the nodes, within the data); induction over the forecast; concrete interpolator as witness.
- **C86** What the DIC loss rate is fitted to: residual function of the fit described for every rate; missing data as Option.
- **C87** What the table and the row of a Titration hold: columns followed from the solver through makeTable, get_alkalinity_from_acid and do_CO2SYS; Nernst and Gran functions from Spec; one concrete EMF, pH and Gran titration.
- **C88** Every titration that can be solved can be made a Titration: each step of __init__ shown to succeed from the shapes that the solvers guarantee.
- **C89** A setting left out is the same as its default: the value each setting has (given or default) determines everything the functions read; congruence lemmas follow the calls; table of defaults written from the documentation.
- **C90** PyCO2SYS totals with a sulfuric acid titrant: map over the dict followed by the update of TSO4; field arithmetic for the mass balance.
- **C91** Settings reach only the part of the calculation they are about: get_kwargs_for drops the setting before the other parts run; C06 for the dilution.
- **C92** What a simulated titration is made of: evaluation of the model of _titration step by step; the keys passed to PyCO2SYS are compared with lists written from the documentation; arange over exact reals.
- **C93** Solving a simulated titration: PyCO2SYS's answer is assumed to have the alkalinity asked for (SysExact); the Nernst equation and its inverse cancel; field arithmetic.
- **C94** CO2 loss in a simulated titration: induction over the loop that fills DIC; mass balance by field arithmetic; C94_empty from the IndexError at the first point.
- **C95** When an EMF solve recovers the true alkalinity: the alkalinity of a mixture falls by at least the rise in acidity and at most (1 + buffering) times it; another exact fit scales both acidities by one factor, which must be 1.
- **C96** What a data set row is solved from: the rows after prepare are described cell by cell; the lookup of each setting in the prepared row is compared with an independent description in terms of the input; blank cells drop out of the fold over the keys.
- **C97** What a data set row is calibrated from: calibration row by row (the lemma behind C43 and C44) together with the description of settings of C96.
- **C98** A Titration made from a row of a solved data set agrees with the row: files.solve depends on its keyword arguments only through lookups by name, and not on whether a null mass, volume, salt or constant is given (Lemmas/ByName, by induction over the folds); the two ways of collecting settings are then compared name by name.
- **C99** The plots of a Titration show each measurement once, in its place: a figure is modelled as the list of what is drawn and the numbers in the title; the table of a Titration is traced to its columns; partition of a list by a mask.
- **C100** What the title of the alkalinity plot says: C63 for the heights; sample and population standard deviation compared in the reals.
- **C101** The pH plot shades the range that was used: C87 for the columns and windows; the limits looked up in the row are those that the solver had.
- **C102** The Gran plots agree with the Gran results: the regression repeated by the plot has the same inputs as the solver's; its zero from the fitted line.
- **C103** The components plot: induction over the species; groupby-mean of strictly increasing masses is the identity, and for any masses gives each once with the mean of its points (`C103_repeated`, added after a wrong program that kept repeated masses survived); interpolation is a parameter. The sum assumes that PyCO2SYS's alkalinity is the sum of its parts (`SysAdds`).
- **C104** The molinity plot of a calibrated data set: boolean indexing as a filter of numbered rows; C43 for the height of the lines; the sort order of batch labels is a parameter (any permutation).
- **C105** The offset plot of a data set: same lemmas; batch numbers as positions in a list without repetition; the missing columns from what solve adds.
- **C106** The plots of CO2 loss cannot be drawn: attribute lookup.
- **C107** The documented attributes of a Titration: attribute lookup; C64 for the row.
- **C108** Which file is read, and what the solver works with: equal calls for the path (string lemmas); C69, C05 and the key lists for contents and constants.
- **C109** The pH-mode alkalinity as an expression of arguments and data: C108, C30 and C14/C13 composed; the solution at each point is `mixture`, written in `Spec.Sol`.
- **C110** What the warnings of the Gran fit mean: `linregress` rvalue is the correlation coefficient (own definition `corr`); corr of a line is 1, scale invariance, Chebyshev for falling data.
- **C111** pH-mode calibration of a file finds the acid's molinity: `files_solve` reduced to the solver for a given sample (`given_solver`); alkalinity of the mixture falls by at most the sulfate added, protons added exceed it; strict monotone, hence injective; calibration residual zero means equal alkalinities.
- **C112** EMF mode from arguments and data: estimates, best fit, exact data: `files_solve` reduced to `solve_emf` for a given sample (`given_solver`); residuals expressed with the mixture; C84 and the optimiser contracts for the best fit, C95 for exact data.
- **C113** What errors in the data, and rounding in a written file, cost: Alkalinity of the mixture is Lipschitz in acidity (`alk_fall`) and affine in titrant mass; bound each point, then the mean; round trip C53 gives the errors of a written file.
- **C114** An electrode offset moves EMF0 and nothing else: EMF readings enter only through EMF - EMF0: the problem handed to the optimiser is the translated one, from the translated start (C20); the second solve restarts from translated results. Best fits by C112.
- **C115** Only the ratio of titrant to sample matters: Masses enter through M/(m+M), m c n/(m+M) and the Gran regression, whose x and y scale together; the two runs are related step by step, failures included (`Parallel`).
- **C116** Gran-mode solves of a file report the best line: `linregress` solves the normal equations, so any other line is worse by a sum of squares (`lineMisfit_sub`): the best line is unique. Reduce files.solve to it; calibration by C44_file.
- **C117** ph_adjust mode is EMF mode on the potentials of the pH values: Relate load in the two worlds (only the measurement differs), then the dispatches; derive an EMF run (C112) from the ph_adjust run and translate misfits (`read_zeroEmf`).
- **C118** A data set of exact titrations is calibrated and solved exactly: Composition: C97 (what each row is calibrated and solved from; now also that the settings have distinct names), C43 (batch mean), C109/C111 (pH mode) and C116 (Gran mode). C118_dataset for rows of which the file-level outcome is known; C118_pH and C118_gran from the chemistry. Settings dicts are only compared by lookups (contract ByName of read_dat). Zero residual of the calibrations is a hypothesis.
- **C119** Reading a file depends on that file and its settings only: Congruence of each modelled reader in the text of its file and in lookups of its settings (C119_local, C119_settings); lengths of the extracted columns (C119_columns; tables from pandas assumed rectangular); invariant over the steps of calibrate and solve that every row is made from a row with the same file cells (C119_dataset, C119_written). C119_settings discharges the contract ByName for the modelled readers (readDatFrom_byName).
- **C120** Small errors in the data have small effects on an EMF solve: `C120_misfit`: from C112 (what is found has the least sum of squared misfits), each found misfit is at most the root of the number of points times the true misfit; two points pin acidity ratio and alkalinity by the monotonicity bounds of Lemmas/Capacity (`pair_stable`). `C120_errors`: errors in masses and potentials give misfits by `point_error` of C113. Spec: `acidExcess`, `acidityOff`, `readPH`, `NearExact`, over C112's `pointMisfit`. Case: the points of C112 with an electrode off by 0.001 mV.
- **C121** What an inexact molinity or an inexact calibration costs: `C121_line` from C109 and the difference of two mixtures (`mixture_alk_sub`); `C121_slope` bounds the bisulfate fraction by 0 and 1; `C121_calibrated` adds that the residual reported is that of solving at the molinity reported (C32, as in C44). `C121_dataset` composes C97, C43 and a bound for means; `C121_pH` instantiates it. Spec: `acidShare`, `acidSlope`, `windowMean`, `NearReference`, `NearRow`, `TitrationPH`, `CalibratedTo`. Case: the data set of C118 with a wrong certified value.
- **C122** Which way an error in an input pushes the alkalinity: `C122_formula` divides the mixture of C109 through by the dilution factor (speciation is linear in the totals at fixed pH). `C122_directions` compares termwise: each species' share is monotone in its total and in pH (C04's bound for one sample), and what a kg of titrant brings is monotone in molinity and, with `10^-lo <= c (n - g)`, not negative. Spec: `sampleAlk`, `titrantAcid`, `estimate`, `baseContents`, `acidContents`, `otherContents`. Case: the file of C109 with a higher first reading.
- **C123** Exact titrations written to a file and solved from there in EMF mode: `C123_points`: the round trip of C53 for the three columns, through `load` (C113's route). `C123_as_written`: a rounded number of three decimals is itself. `C123_near`: the rounding of the potential and that of the temperature (times ln h, at most 14 ln 10) together stay below 0.00005 pH units. `C123_written`: C120 for these errors. Spec: `Thousandths`, `Rounded3`, `RoundedPoint`, `ExactPoint`. Case (`EmfWrittenExample`): two points at 200 and 230 mV, written in g.
- **C124** A wrong molinity in EMF mode: `C124_molinity`: at `k A` and EMF0 lower by `(R T/F) ln k` (`shiftedEmf0`) each point used has a misfit of at most `unscaled`, the change of what is not proportional to acidity (`alk_scaled`, `read_shifted`); then C120's bound for misfits. Spec: `netBase`, `unscaled`, `shiftedEmf0`. The sulfate of sulfuric acid is separated from the mixture by `mixture_sulfate` and counts in `unscaled` as `acidSulfate`. Case: the points of C112 as an exact titration with another molinity and an EMF0 of about 400.03 mV.
- **C125** How many points a result rests on: `Spec.LsRefuses`, `Spec.LsqRefuses` and `Spec.LsIdle` say what `least_squares` with its default method `trf` refuses (settings.py passes no options, so the `method='lm'` of default.py, which would refuse fewer residuals than unknowns, is not in force) and does without residuals. `C125_points` and `C125_numbers` (one file; one point gives a Gran line the slope 0/0), `C125_no_points` (EMF mode returns its start), `C125_no_points_adjust` (so does pH-adjust mode; Props/RefuseAdjust, through C117_as_emf), `C125_one_point` and `C125_one_point_adjust` (any EMF0 fits one point), `C125_rows` (data sets), `C125_calibrated` (the first evaluation of a calibration is the solve at the start molinity). Cases: `lsCareful`, an optimiser that refuses these and stays where it starts, on the points of C112 with windows that have two, one or none of them; a pH-mode calibration; a data set.
- **C126** Writing over a file and adding to it: `C126_overwrite`, `C126_append`, `C126_added`: the lines of two texts written after each other are those of one followed by those of the other (`lines_append`); the header lines in the middle have one and three fields, and `genRows` wants equal numbers (`genRows_unequal`). Case: one titration written, another written over it, a third added.
- **C127** What rounding can do to a pH-mode alkalinity: `Model/Rounded.lean` writes `simulate.alkalinity` and `solve_pH` once more over an arithmetic `Arith` given as a parameter; with exact arithmetic it is the exact model (`C127_exact`). Errors are tracked as factors between (1-u)^k and (1-u)^-k (`Rel`, `Err`; `Lemmas/Rounded.lean`), sums with the number of terms (`Sums`), block by block (`Lemmas/RoundedAlk.lean`), to `C127_rounding`; `C127_double` puts in 2^-53. Case: `double`, rounding to 53 bits with ties to even, is shown to meet `Accurate`, and a titration of three points is bounded.
- **C128** Rounding lets a calibration drift the totals: `calibrate_pHF` (exact: `C128_exact`). `Odd'`: rounding is symmetric, so a trial adds and takes off the same rounded amount; invariant `Drifted` over the trials (`C128_drift`, `C128_double`). `C128_not_restored`: one trial in double precision that loses the last bit. Case: two trials in double precision.
- **C129** Which settings reach the file reader: `C129_file` (an equation between the call and the same call with a reader that always returns what the reader returns for `Spec.readerGets`), `C129_row` and `C129_calibrate` (with C96 and C97; `Spec.RowReads`). Cases: a file with a delimiter; the row of C97.
- **C130** An EMF-mode calibration finds the acid: `C124_general` (C124 with any bound of what does not follow the molinity) with the sharper bound `alk_leftover` (sulfate and fluoride nearly follow the hydrogen ion); at zero residual C44 gives alkalinity A, whereas C124 says it is nearly k A: so k = 1 (`C130_recovers`). Spec: `leftover`, `Sol.others`. Case: the titration of C112 with an outer optimiser that tries its molinity. The acid's sulfate enters by `mix_leftover`. A second case with sulfuric acid is in `EmfSulfuricExample`. Not said: that such a calibration does end with zero residual.
- **C131** Documented columns take effect, extra columns do not: Spec: explicit lists `solveSettings`, `calibrateSettings`, `solveColumns`, `calibrateColumns`, `resultColumns`, and `SameCells`. `C131_used_solve`, `C131_used_calibrate` from C96 and C97 with the explicit lists in place of the key sets of the model. `C131_solve`: preparing keeps rows alike (`prep_agree`), a row's solve depends on the listed columns only, then merging and offsets. `C131_calibrate`: the same for the calibration of each row, the defaults and the batch means (`batchMean_same`). `C131_calkulate` by C45. Failing alike: by symmetry, since each data set finishes if the other does. Case: a data set with a column of remarks added.
- **C132** In the default mode a calibrated data set has the true values: C118_dataset (rows whose file-level outcome is known) with C130 for the references (`exactEmf_reference`) and, for the rows, C124 with factor one, i.e. no misfit (`exactEmf_solve`); EMF0 through C97. Spec: `ExactEmf`, `ToldApart`, `SolvableEmf`, `CalibratableEmf`. Zero residual and two used points that tell alkalinity from EMF0 are hypotheses. Case: a data set of a reference and a sample, both the titration of C112.
- **C133** What rounding does to EMF-mode solves: `Model/Rounded.lean`: `emf_to_hF`, `emf_to_pHF`, `lsqfun_solve_emfF`, `solve_emfF` (exact: `C133_exact`); what the Gran estimate returns is a parameter. An error in the exponent becomes a factor (`rel_exp`), one in the acidity an error of its logarithm (`log_rel`); then the blocks of C127 (`Lemmas/RoundedEmf.lean`), for the points used (`misfits_used`). `C133_residuals`; `C133_rounding` by the argument of C120 (`pair_stable`) with `LsNearMin`, a contract that lets the optimiser stop short of the minimum. Case: two points in double precision with an optimiser that stops 1e-13 from the truth.
- **C134** Every call accepts its arguments, and every option is reachable: signatures and Python's binding rules written out; the keywords of a call are a subset of a fixed list, checked against the signature.
- **C135** Rounding and the pH window: conversions with every operation rounded; errors of exp, log and log10 propagated through the exponent; window comparisons stable beyond the bound; an arithmetic with log10 one rounding low as witness for the edge.
- **C136** What inexact data and calibrations cost in the default mode: `near_best` and `C136_misfit` redo C112_best and C120 for an optimiser within tau of the minimum (`LsNearMin`); `C136_solve` applies it to data moved by a factor in molinity (C124) with the bound of what does not follow it (`leftover`, C130); `C136_sample` and `C136_calibrated` rearrange it, the latter with the residual of C121; `C136_dataset` instantiates C121_dataset. Spec: `alkGain`, `NearEmf`, `Resolved`, `SolvableNear`, `CalibratedNear`, `emfError`, `emfCalibrationError`. Case (`EmfToleranceExample`): a reference that is 5 umol/kg off and a sample, with an optimiser that takes any fit with residuals of at most 1.4e-7.
- **C137** Which texts in a file are numbers: a grammar (`Spec.IsNumber`: digits as lists of naturals, value by `Nat.ofDigits`) shown equivalent to the model's reader of numbers part by part; file-level consequences by C73 and the PC LIMS and Tiamo readers. Cases: a signed number with exponent and white space, a decimal comma, a field with two points.
- **C138** The order of the points in the other modes: points are picked by an index list that is a permutation; sums, maxima and masks commute with picking (`Lemmas/Order.lean`), the optimiser of EMF mode by the contract `Unordered`, calibrations by running the two loops in step. The default logic: a positive theorem (`TailAbove`) and a counterexample. Cases: a legacy fit turned round, an EMF fit with the last point first, calibrations.
- **C139** The order of the lines of a titration file: loading two files in step: masses, temperatures, diluted totals and constants of the second are those of the first, picked by the permutation (`Lemmas/FileOrder.lean`: every array operation commutes with picking), with PyCO2SYS by the contract `PointByPoint`; then C15 and C138 for the solvers and calibrators. The exception is a concrete pair of files in Gran mode. Cases: the examples of C109, C116, C112 and C130 with their lines exchanged.
- **C140** pH_adjust mode finds acid, alkalinity and the error of the electrode; data sets of several modes: `AdjustRun.same_calibrate` (from C117: a file of pH values in pH_adjust mode is a file of potentials of an electrode of EMF0 zero in EMF mode) carries C136_solve, C130_recovers and C136_calibrated over (`C140_solve`, `C140_recovers`, `C140_calibrated`), in terms of the acidity read from the pH (`correctedAcidity`). `C140_dataset` instantiates C118_dataset with the reference and row lemmas of all four modes. Spec: `ExactAdjust`, `ExactRow`, `ExactReference`. Case (`AdjustCalibrateExample`): the file of C117, 10 mV off, calibrated alone and as reference of a data set. The cases of the other modes are those of C118 and C132.
- **C141** The table of the batches: `Model/Batches.lean`: groupby as the distinct labels in any order (`order`, a permutation), the aggregation per group; mean, std and count as in pandas (NaN skipped). Spec: `batchRefs` (rows of the label that are references), `RefValues`, `StatsOf`. The bound is Samuelson's inequality, proved from the sums. `C141_calibrate` joins it to C43, `C141_exact` to C118. Cases: five rows in two batches, one without references; the reference of C118 in Gran mode measured twice.
- **C142** Inexact titrations in Gran and pH_adjust mode; inexact data sets of several modes: best_line_near: the best line is as close to the true one, at each point, as the misfits of the true one allow, then extrapolation from two points (C142_gran); pH_adjust rows via C117/C140 as EMF rows; C142_dataset: C121_dataset with the bounds of each mode as cases of two inductive specifications.
- **C143** Row labels: names and titrations are looked up by label: a second model of the functions that look rows up by label, over labels of any type with an equality; refinement of the model without labels for distinct labels (induction over the loop with the rows done so far), for repeated labels an invariant over the loop that tracks the last bottle, CRM and other run under each label; counting for the join.
- **C144** What a wrong or missing content of the sample costs: Props/Contents: the estimate of a point in pH mode is the alkalinity of the sample itself plus what the titrant brings (C122); the former is linear in the contents, with `Spec.uptake` (textbook fractions, written independently of the model) as coefficients; `C144_contents` is the mean of that, `C144_uptake` uses that every coefficient falls with acidity, `C144_dic` that get_totals and dilution go through whatever the DIC; `C144_emf` turns the wrong contents into a misfit and applies C120_misfit.
- **C145** Which way wrong dissociation constants push the alkalinity: Props/WrongConstants: with C122 and the proton uptake per mole (C144) the estimate of a point is a sum of terms each of which rises with its constants (`di_mono`, `tri_mono` for the di- and triprotic acids); `C145_directions` averages that over the points used; `C145_crossing` bounds the change of role at pK 4.5 (lost + held = 1).
- **C146** What Gran mode leaves out, and how far it and pH mode differ: Props/GranBias: the charge balance of the mixture written as free protons plus the uptake of each content (from C144/C145 lemmas), bounded by the monotone uptakes at the window's ends; the line's error by C142_gran; pH mode by C109_exact. Example: sulfuric acid into a sample with ten of everything, exact points, both modes solved.
- **C147** Which way Gran mode is off: Props/GranSign: normal equations of the least-squares line from its minimality; Chebyshev's sum inequality by induction over the points; the moles left out fall with the titrant mass, since the uptake of each content falls with acidity (C144); so the fitted line is above the ideal one at the equivalence point. Example: 100 umol/kg of borate, solved and calibrated.
- **C148** A constant error of the pH electrode: Props/PHOffset: shifting the pH multiplies the Gran function by 10^-d, so the least-squares line is scaled and its zero stays (from its minimality); for pH mode every estimate of the window rises by at least the drop in protons (alkalinity falls with acidity at slope 1 or more, C122). Example: d = log10 2, solved and calibrated; d = 0.1 in pH mode. Props/PHOffsetAdjust: at constant temperature a shift of the pH acts on the corrected acidity as a shift of the fitted error, so the two sums of squares are the same function, moved. For exact data `C117_exact` then gives the true alkalinity. Example: electrodes 10 and 5 mV off.
- **C149** A burette that is off by a constant factor: Props/Burette: the estimate of a point with recorded mass and molinity k c differs from that with true mass and molinity c by (k - 1) m/M (H - Kw/H) only (C122 formula); mean over the window bounded by induction over the points; calibration and sample through the line in the molinity (C121). Example: k = 1.25, calibrated and solved, for every pH of the first point in the window. Gran mode through C142; example k = 1.01.

## Findings: where the code does not do what one would expect

The theorems state what the code does. Where that differs from what a user would
expect, the difference is itself proved (usually with a concrete witness):

1. With `double=True` the reported Gran diagnostics ignore `gran_logic` (C26); calibration
   always ignores it (C33). `dataset.solve` warns that `gran_logic` and `read_dat_method`
   are ignored although they are used, and accepts `titrant_molinity_init` silently (C51).
2. A calibration whose solver raises leaves the totals polluted (C29).
3. A titrant total for a substance without a total in the analyte raises `KeyError` (C30).
4. `opt_pH_scale` changes the constants but alkalinity is always evaluated on the free
   scale (C71).
5. Keyword arguments `opt_total_borate`, `total_sulfate`, ... of the data set functions are
   shadowed by columns that `prepare` adds (C47); a `titrant_amount_unit` column with blank
   cells means ml even if the keyword argument says otherwise (C96_blank_unit).
6. A second calibration can depend on the first through stored salts and
   `reference_good` (C46).
7. A null `analysis_batch` makes calibration raise `KeyError` (C50). A NaN `file_good` counts
   as good.
8. `analyte_mass` computed from `analyte_volume` is not written back (C52), so such rows
   cannot be made a `Titration` (C81).
9. `Titration.alkalinity_estimate` and `alkalinity_from_acid` omit the normality (C63);
   keyword arguments override the row, the reverse of data sets (C64); null cells are
   passed on (C64_null); `str()` fails without `file_path` (C65).
10. `read_dat` falls back to genfromtxt for unknown file types (C57); a file with one point
    cannot be read (C55); PC LIMS data lines may have any last field (C56).
11. One NaN reading makes the EMF solver raise `IndexError` (C72).
12. The Gran alkalinity is independent of an electrode offset only if the temperature is
    constant (C20). The default Gran logic may select a single point.
13. The points used by the EMF solver are chosen with the starting EMF0, not the final (C24).
14. `dilute_totals_pyco2` does not dilute `total_alpha`, `total_beta`, `total_calcium` (C06).
15. VINDTA CRM file names can collide (C59); a bottle row with NaN station etc. makes the
    whole import fail (C60_gap); dates without separators raise `IndexError` (C79).
16. A missing `file_name` column makes the exception handler itself raise (C41_no_file_name);
    a string in `alkalinity_certified` stops everything (C41_bad_certified).
17. Files of type `orgalk_excel` can be read but never solved (C74).
18. The HCl-NaCl density is NaN for zero molinities (C62_water).
19. `loss.py`: the first forecast row uses the previous pH (C78); points with NaN enter the
    fit as zero loss (C86); no crossing of the split pH raises `IndexError` (C76); the last
    point is extrapolated (C77).
20. The data set column `alkalinity_std` is not the `alkalinity_std` of the EMF solver's
    result (C84_differs).
21. `simulate._titration` with `k_dic_loss` starts from undiluted DIC even if
    `titrant_mass_start > 0` (C94_loss). `simulate.titration` always raises `NameError`.
22. An exact fit of the EMF solver is not always unique: two points on the basic side can be
    fitted exactly by a second alkalinity (C95_ambiguous).
23. `to_Titration` does not know the keyword arguments that the data set was solved with
    (C98_arguments_lost), and raises for a row with a blank `pH_min` or `pH_max`, which the
    data set replaces by the default (C98_blank_limit).
24. Plots: the number after ± in the title of the alkalinity plot is not the `alkalinity_std`
    of the row (C100); `dic_loss` and `fCO2_loss` never work (C106); `plot_alkalinity_offset`
    needs columns that only `calibrate` makes (C105_solved). The documentation of `Titration`
    names `plot_gran_emf0`, `plot_gran_alkalinity` (the methods are `plot_emf0_gran`,
    `plot_alkalinity_gran`) and an attribute `opt_result` that does not exist (C107).
25. `temperature_override` loses its decimals for `tiamo_de` files whose temperatures are all
    written without decimals: pandas reads them as integers and `np.full_like` keeps that type
    (C38_witness, C38_decimals).
26. The documentation (docs/methods.md) offers `calk.calkulate(ds)`; the package exports only
    `calibrate` and `solve` (`calkulate/__init__.py`), so that call raises `AttributeError`.
27. In floating-point arithmetic a calibration leaves the totals slightly changed
    (C128_not_restored); the change stays of the order of the last digits (C128_double).
28. In EMF mode without a single point in the pH window the starting values (the Gran
    estimates, or `alkalinity_init` and `emf0_init` themselves) are reported as the result
    (C125_no_points); only `alkalinity_npts` 0 and the missing spread show it. With one point
    the result depends on the start (C125_one_point). The cause is `settings.py`, which leaves
    `least_squares` at its default method instead of the `lm` of `default.py`.
29. A table that `read_dbs` wrote (with its column `analysis_datetime`) cannot be imported by
    it again: pandas refuses to join a column whose name is taken (C80_taken).
30. A Tiamo file whose first line `Gran.1` is among its first three lines gets its start volume
    from the end of the file, because the index becomes negative (C58_wraps).
31. In `pH_adjust` mode the pH window is applied to pH values that went through EMF and back,
    so a measured pH exactly on an edge may be dropped by rounding (C135_edge); in `pH` mode
    it is compared as it is.
32. The default Gran logic (`v23.7+`) depends on the order of the points: it uses every point
    from the first above a tenth of the largest Gran function on, also those that are not above
    it (C138_default_order); the legacy logic does not (C138_legacy).
33. An analyte volume is converted to mass with the temperature of the first line of the file;
    where temperatures vary, the alkalinity depends on the order of the lines
    (C139_first_temperature).
34. `get_VINDTA_filenames` on a table with repeated row labels (several tables put together without
    `ignore_index`) gives all rows of a label the file name of the last of them; the other files
    are lost without a warning (C143_shared). `add_func_cols` multiplies such rows (C143_squares).
35. The alkalinity jumps when the constant of `alpha` or `beta` passes pK 4.5: the acid turns from
    an acceptor into a donor of protons, which costs almost its whole content however small the
    change of the constant is (C145_crossing). This follows from the definition of alkalinity;
    it matters when the constant is itself fitted or uncertain.
36. `pH_gran` mode gives too low an alkalinity for samples that hold weak bases, and a calibration in
    that mode too strong an acid (C147). It does not notice a constant error of the electrode, whereas
    in `pH` mode such an error shows up in full (C148).
