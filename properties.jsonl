{"id": "C01", "title": "EMF and pH are inverse conversions", "statement": "In exact arithmetic, converting a pH to an EMF and back (same EMF0 and temperature) returns the pH, and converting an EMF to a pH and back returns the EMF; likewise for EMF and [H+] > 0.", "quantifier": "every real EMF, EMF0, pH, [H+] > 0 and every temperature above absolute zero", "why_tests_cant": "the test samples ~100 random points; the claim is over the whole continuum", "anchors": ["calkulate/convert.py: emf_to_h, emf_to_pH, h_to_emf, pH_to_emf"]}
{"id": "C02", "title": "pH falls strictly as EMF rises and depends only on EMF - EMF0", "statement": "At a fixed EMF0 and temperature a larger EMF always gives a strictly smaller pH and a strictly larger, always positive [H+]; adding the same offset to EMF and EMF0 changes neither.", "quantifier": "every pair of EMFs, every EMF0, every offset, every temperature above absolute zero", "why_tests_cant": "monotonicity over all pairs of reals", "anchors": ["calkulate/convert.py: emf_to_h, emf_to_pH"]}
{"id": "C03", "title": "Dickson's f is an EMF0 shift", "statement": "Raising EMF0 by the value converted from Dickson's f divides [H+] by exactly f, and composing two f corrections adds their EMF0 shifts.", "quantifier": "every f > 0, EMF, EMF0, temperature above absolute zero", "why_tests_cant": "algebraic identity over a continuum; no test exists for f_to_demf0", "anchors": ["calkulate/convert.py: f_to_demf0, emf_to_h"]}
{"id": "C04", "title": "Dilution conserves amount and composes", "statement": "The dilution factor lies in (0, 1], equals 1 exactly when no titrant was added, decreases strictly with titrant mass, conserves amount of substance (concentration x total mass), and diluting by a then by b equals diluting by a+b.", "quantifier": "every analyte mass > 0 and titrant masses >= 0", "why_tests_cant": "continuum of masses, any number of dilution steps", "anchors": ["calkulate/convert.py: get_dilution_factor"]}
{"id": "C05", "title": "Diluting totals touches every total the same way", "statement": "dilute_totals keeps the set and order of keys and multiplies every entry of every total by the dilution factor at that titration point; so ratios between totals are unchanged and the amount of each substance is conserved.", "quantifier": "every totals dict, every titration length, all masses with positive sum", "why_tests_cant": "any dict contents and array lengths", "anchors": ["calkulate/convert.py: dilute_totals"]}
{"id": "C06", "title": "dilute_totals_pyco2 dilutes exactly the listed substances", "statement": "In a PyCO2SYS totals dict exactly TB, TF, TSO4, TCa, alpha, beta, TPO4, TSi, TNH3, TH2S are diluted; all other entries, in particular the salinity, come back unchanged. (The names total_alpha, total_beta and total_calcium produced by totals_to_pyco2 are therefore NOT diluted.)", "quantifier": "every dict with any keys", "why_tests_cant": "quantifies over all keys including ones no test uses", "anchors": ["calkulate/convert.py: dilute_totals_pyco2, totals_to_pyco2"]}
{"id": "C07", "title": "H2SO4 dilution equals dilute-then-add", "statement": "dilute_totals_H2SO4 gives the same totals as dilute_totals followed by add_titrant_totals with titrant_total_sulfate=1, and the amount of sulfate in the mixture is the analyte's plus the titrant's.", "quantifier": "every totals dict containing total_sulfate, all masses with positive sum, every molinity", "why_tests_cant": "two code paths must agree on all inputs", "anchors": ["calkulate/convert.py: dilute_totals_H2SO4", "calkulate/core.py: add_titrant_totals"]}
{"id": "C08", "title": "Speciation obeys mass balance", "statement": "At any pH the carbonate species sum to the DIC, the phosphate species reported are non-negative and sum to at most total phosphate, and every other reported species lies between 0 and its total.", "quantifier": "every pH, every non-negative totals and positive constants, any subset of totals present, every valid pH scale", "why_tests_cant": "continuum of pH, totals and constants", "anchors": ["calkulate/simulate.py: alkalinity_components"]}
{"id": "C09", "title": "Alkalinity increases strictly with pH", "statement": "For a solution with non-negative totals and positive equilibrium constants, the simulated alkalinity is strictly increasing in pH.", "quantifier": "every pair of pH values, every totals/constants dict with the needed keys, every subset of optional totals, each of the three pH scales", "why_tests_cant": "monotonicity over all pairs; multi-protic terms interact", "anchors": ["calkulate/simulate.py: alkalinity, alkalinity_components, component_multipliers"]}
{"id": "C10", "title": "Every alkalinity has exactly one pH", "statement": "If a positive water constant is present, then for every real alkalinity there is exactly one pH at which the simulator returns that alkalinity.", "quantifier": "every target alkalinity, every valid totals/constants dict", "why_tests_cant": "existence and uniqueness over the reals", "anchors": ["calkulate/simulate.py: alkalinity"]}
{"id": "C11", "title": "Absent totals contribute nothing; missing constants raise", "statement": "Omitting a total gives the same alkalinity as passing it as zero; a total that is present without its constant raises KeyError; a pH scale other than 1, 2, 3 raises AssertionError before anything else.", "quantifier": "every totals/constants dict and every scale value", "why_tests_cant": "all combinations of present/absent keys (2^11) and all scale values", "anchors": ["calkulate/simulate.py: alkalinity_components"]}
{"id": "C12", "title": "pH scales agree up to a known excess", "statement": "Evaluating alkalinity on the Total scale with Total-scale [H+] and constants equals the Free-scale result minus exactly the higher-order sulfate term TSO4*h^2/(KSO4*(KSO4+h)), provided the organic constants stay on the same side of the pK 4.5 threshold on both scales (crossing it shifts the result by the whole organic total); all non-proton components are identical on both scales.", "quantifier": "every free [H+], sulfate total, constants", "why_tests_cant": "the test checks one solution to 0.5 %; the exact discrepancy holds for all", "anchors": ["calkulate/simulate.py: alkalinity_components", "calkulate/interface.py: get_k_constants"]}
{"id": "C13", "title": "solve_pH recovers the true alkalinity from exact data", "statement": "If at every titration point the pH satisfies the charge balance of a solution with alkalinity A titrated with the given molinity and normality, then solve_pH returns A, with standard deviation 0 and every point estimate equal to A, provided at least one point lies in the pH window.", "quantifier": "every A, molinity, normality, titration length, data, totals, constants and window", "why_tests_cant": "any number of points and any chemistry", "anchors": ["calkulate/core.py: solve_pH"]}
{"id": "C14", "title": "The pH window is inclusive and decides everything", "statement": "solve_pH uses exactly the points with pH_min <= pH <= pH_max (NaN never used); the result is the plain mean of the used point estimates, so changing any data outside the window leaves the alkalinity unchanged, and the result lies between the smallest and largest used estimate.", "quantifier": "every data set and window", "why_tests_cant": "non-interference over all possible replacements of the unused data", "anchors": ["calkulate/core.py: solve_pH"]}
{"id": "C15", "title": "solve_pH does not depend on the order of the points", "statement": "Reordering the titration points (with their totals and constants) leaves the solved alkalinity and its standard deviation unchanged.", "quantifier": "every permutation of every titration", "why_tests_cant": "n! permutations for every n", "anchors": ["calkulate/core.py: solve_pH"]}
{"id": "C16", "title": "Degenerate windows", "statement": "pH_min >= pH_max raises AssertionError in every pH or EMF solver; a valid window containing no point does not raise in solve_pH but yields NaN.", "quantifier": "every data set and window", "why_tests_cant": "all inputs", "anchors": ["calkulate/core.py: solve_pH, solve_emf, solve_pH_gran"]}
{"id": "C17", "title": "solve_pH is affine in titrant molinity, and calibration has exactly one answer", "statement": "With fixed totals the alkalinity from solve_pH is an affine function of titrant molinity with slope 1e6 * normality * mean(titrant mass / analyte mass) over used points; when this is positive there is exactly one molinity that reproduces a certified alkalinity, and any optimiser result with zero residual is that molinity.", "quantifier": "every data set with a used point of positive titrant mass, every certified value", "why_tests_cant": "existence and uniqueness over the reals", "anchors": ["calkulate/core.py: solve_pH, calibrate_pH, _lsqfun_calibrate_pH"]}
{"id": "C18", "title": "Gran point selection", "statement": "With the default logic the points used for the Gran fit are a non-empty suffix of the titration starting at the first point above 10 % of the maximum; they include the maximum and every point used by the legacy logic, which itself never uses the maximum.", "quantifier": "every finite titration with analyte mass > 0", "why_tests_cant": "any length and any shape of the curve", "anchors": ["calkulate/core.py: gran_alkalinity"]}
{"id": "C19", "title": "Gran estimates are exact for strong-acid titrations", "statement": "If the EMFs come from an ideal strong acid titration past the equivalence point (h*(m+M) = m*c*n - M*A at constant temperature), then, as long as at least two points with different titrant masses carry more than 10 % of the largest excess acid, the Gran alkalinity is exactly A, every Gran EMF0 estimate is the true EMF0 and the pH guesses are the true pH.", "quantifier": "every A, EMF0, temperature, molinity, normality, and any >= 2 distinct titrant masses", "why_tests_cant": "continuum of parameters and any number of points", "anchors": ["calkulate/core.py: gran_function, gran_alkalinity, gran_emf0s, gran_guesses"]}
{"id": "C20", "title": "An electrode offset does not change Gran alkalinity", "statement": "For an isothermal titration adding a constant to all EMFs scales the Gran function by a constant, keeps the points used and the Gran alkalinity, and moves every Gran EMF0 by the same constant.", "quantifier": "every isothermal data set and every offset", "why_tests_cant": "metamorphic relation over all offsets", "anchors": ["calkulate/core.py: gran_function, gran_alkalinity, gran_emf0s, gran_guesses"]}
{"id": "C21", "title": "Gran-mode pH solver is exact and proportional to molinity", "statement": "solve_pH_gran returns exactly A for ideal strong-acid data in the window, and its result is proportional to titrant molinity, so doubling the molinity doubles the alkalinity.", "quantifier": "every data set, window and molinity", "why_tests_cant": "continuum of parameters", "anchors": ["calkulate/core.py: solve_pH_gran"]}
{"id": "C22", "title": "Unknown gran_logic is rejected", "statement": "Any gran_logic other than 'v23.7+' and 'legacy' raises an exception.", "quantifier": "every string", "why_tests_cant": "all strings", "anchors": ["calkulate/core.py: gran_alkalinity"]}
{"id": "C23", "title": "EMF residuals and per-point alkalinities tell the same story", "statement": "At the solution, each per-point alkalinity estimate differs from the solved alkalinity by exactly 1e6 times that point's least-squares residual divided by its dilution factor; so zero residuals mean every used point estimate equals the solved alkalinity and the reported spread is zero.", "quantifier": "every data set and every optimiser result", "why_tests_cant": "any titration and any optimiser behaviour", "anchors": ["calkulate/core.py: solve_emf, _lsqfun_solve_emf", "calkulate/dataset.py: add_solve_results"]}
{"id": "C24", "title": "EMF solver uses exactly the window points", "statement": "The used points of solve_emf are those whose pH, computed with the initial EMF0, lies in [pH_min, pH_max]; when initial guesses are supplied, data at unused points do not influence the least-squares problem or the solved alkalinity and EMF0.", "quantifier": "every data set, window, initial guess and optimiser", "why_tests_cant": "non-interference over all replacements of unused data", "anchors": ["calkulate/core.py: solve_emf"]}
{"id": "C25", "title": "Double solving is exactly one re-solve", "statement": "solve_emf with double=True equals: solve once, then solve once more from the alkalinity and EMF0 just found, with the same window and normality; the optimiser is invoked exactly twice.", "quantifier": "every data set, setting and optimiser", "why_tests_cant": "all inputs; recursion structure", "anchors": ["calkulate/core.py: solve_emf"]}
{"id": "C26", "title": "Reported Gran diagnostics under double solving", "statement": "With double=True the reported Gran diagnostics are always those of the default Gran logic, whatever gran_logic was requested (so the documented gran_logic='legacy' is not reflected in them).", "quantifier": "every data set and every valid gran_logic", "why_tests_cant": "needs the relation between two runs for all inputs", "anchors": ["calkulate/core.py: solve_emf"]}
{"id": "C27", "title": "Exact EMF data are a zero of the fit", "statement": "If EMFs were generated from alkalinity A and EMF0 E by the same chemistry, then (A, E) gives all-zero residuals, so any global minimiser of the sum of squares fits every used point exactly.", "quantifier": "every chemistry and titration", "why_tests_cant": "any number of points, all parameters", "anchors": ["calkulate/core.py: _lsqfun_solve_emf, solve_emf"]}
{"id": "C28", "title": "Calibration leaves the totals as it found them", "statement": "In exact arithmetic, when a calibration completes, the caller's totals dict has the values it had before, whatever sequence of trial molinities the optimiser tried; each trial is evaluated on the original totals plus that trial's titrant contribution only.", "quantifier": "every optimiser strategy, every number of evaluations, all titrant totals, all three calibrators", "why_tests_cant": "every schedule of in-place updates", "anchors": ["calkulate/core.py: add_titrant_totals, _lsqfun_calibrate_emf, _lsqfun_calibrate_pH, _lsqfun_calibrate_pH_gran"]}
{"id": "C29", "title": "A failing calibration can leave the totals modified", "statement": "If the solver raises inside a calibration, the totals keep the titrant contribution of the failing trial (the revert step is skipped).", "quantifier": "every failing evaluation", "why_tests_cant": "exception point inside an in-place update", "anchors": ["calkulate/core.py: _lsqfun_calibrate_pH"]}
{"id": "C30", "title": "Adding titrant totals", "statement": "add_titrant_totals changes only the named totals, adds amount titrant_mass*(molinity - previous)*factor, is additive (adding c1 then replacing c1 by c2 equals adding c2), independent of the order of the named totals, raises AssertionError on a name without the titrant_total_ prefix and KeyError when the total is absent.", "quantifier": "every totals dict and every list of titrant totals", "why_tests_cant": "any dict and any number/order of contributions", "anchors": ["calkulate/core.py: add_titrant_totals"]}
{"id": "C31", "title": "Row values override keyword arguments, null row values do not", "statement": "When arguments for a titration are collected, a recognised setting takes the row's value if that is non-null, else the keyword argument's value, else it is left out; unrecognised settings never get through, and the result does not depend on the iteration order of the key set.", "quantifier": "every key set, kwargs dict and row", "why_tests_cant": "all dicts and all set iteration orders", "anchors": ["calkulate/meta.py: _get_kwargs_for"]}
{"id": "C32", "title": "Calibration and solving run the same solver", "statement": "For every solve_mode, the residual the calibrator evaluates at a trial molinity equals the alkalinity that files.solve returns for that molinity minus the certified value, given the same settings and no gran_logic setting.", "quantifier": "every file, every settings dict without gran_logic, every trial molinity, every mode", "why_tests_cant": "equality of two code paths on all inputs", "anchors": ["calkulate/files.py: calibrate, solve", "calkulate/core.py: _lsqfun_calibrate_emf, _lsqfun_calibrate_pH, _lsqfun_calibrate_pH_gran"]}
{"id": "C33", "title": "gran_logic never reaches calibration", "statement": "files.calibrate gives the same result whatever gran_logic is passed, although files.solve honours it.", "quantifier": "every file and settings dict", "why_tests_cant": "non-interference over all values", "anchors": ["calkulate/files.py: keys_calibrate, calibrate", "calkulate/core.py: calibrate_emf"]}
{"id": "C34", "title": "solve_mode is case-insensitive and closed", "statement": "solve_mode values equal up to letter case behave identically in calibrate and solve; any string that is not emf, ph_adjust, ph or ph_gran up to case raises, and a value that is no string (None, a number) is an AttributeError after the file has been read.", "quantifier": "every string and other value", "why_tests_cant": "all strings", "anchors": ["calkulate/files.py: calibrate, solve"]}
{"id": "C35", "title": "pH_adjust always starts at EMF0 = 0", "statement": "In pH_adjust mode a user-supplied emf0_init has no effect, and the first pH guesses equal the measured pH values.", "quantifier": "every file, settings and emf0_init", "why_tests_cant": "non-interference", "anchors": ["calkulate/files.py: calibrate, solve"]}
{"id": "C36", "title": "Unrecognised keyword arguments have no effect", "statement": "Adding any keyword argument outside the recognised set to files.solve or files.calibrate changes nothing but the warning.", "quantifier": "every key not in the recognised set and every value", "why_tests_cant": "all names", "anchors": ["calkulate/files.py: calibrate, solve, keys_calibrate, keys_solve"]}
{"id": "C37", "title": "Titrant amount units are interchangeable", "statement": "The same titration expressed in kg, in g (x1000) or in ml (x1000/density) converts to the same titrant masses; unit names are case-insensitive and any other unit raises AssertionError, a unit that is no string AttributeError; titrant_density takes precedence over the computed density. For volumes without a density the titrant must be HCl or H2SO4 in any case: another text raises AssertionError, no string AttributeError; for masses the titrant has no effect.", "quantifier": "every data set and density > 0, every unit string", "why_tests_cant": "all data and strings", "anchors": ["calkulate/convert.py: amount_units"]}
{"id": "C38", "title": "Analyte mass wins over analyte volume", "statement": "If analyte_mass is non-null it is used as is and analyte_volume has no effect; otherwise the mass is volume times seawater density at the first (possibly overridden) temperature; if both are null AssertionError is raised. temperature_override replaces every temperature, as it is given, for every file type except tiamo_de; for a tiamo_de file whose temperature column is written without decimals it is cut to a whole number first, and solving or calibrating gives exactly what the whole number gives (24.7 is taken as 24).", "quantifier": "every combination, file and override", "why_tests_cant": "all inputs", "anchors": ["calkulate/convert.py: amount_units", "calkulate/read/titrations.py: read_tiamo_de, read_dat"]}
{"id": "C39", "title": "Old-style arguments keep working", "statement": "pH_range=(a, b) behaves as pH_min=a, pH_max=b and wins over them; entries of read_dat_kwargs act as top-level kwargs and win over them; read_dat_method acts as file_type; a read_dat_method in the row wins over all of these.", "quantifier": "every kwargs dict and row", "why_tests_cant": "all combinations", "anchors": ["calkulate/dataset.py: _backcompat"]}
{"id": "C40", "title": "Solving a dataset only touches its own columns", "statement": "dataset.solve never changes any column other than its result columns, the salt/borate-option columns, analyte_mass, titrant_amount_unit and file_good, and never changes a non-null user value in the latter; the number of rows is preserved.", "quantifier": "every dataset, kwargs, and behaviour of file reading and solving", "why_tests_cant": "all columns and all failure patterns", "anchors": ["calkulate/dataset.py: solve, prepare, get_total_salts, solve_row"]}
{"id": "C41", "title": "A bad row never affects another row", "statement": "Whatever exception occurs while reading or solving one row, dataset.solve finishes; that row gets blank results (0 points, NaN elsewhere) and every other row gets the results it would get in a dataset on its own.", "quantifier": "every dataset, every set of failing rows", "why_tests_cant": "all failure patterns", "anchors": ["calkulate/dataset.py: solve_row, calibrate_row, solve"]}
{"id": "C42", "title": "Row order does not matter", "statement": "Permuting the rows of a dataset permutes the results of calibrate and solve and changes nothing else.", "quantifier": "every dataset and permutation", "why_tests_cant": "n! permutations", "anchors": ["calkulate/dataset.py: calibrate, solve, get_batches"]}
{"id": "C43", "title": "Batch titrant molinity is the mean of that batch's good references", "statement": "After calibrate, each row's titrant_molinity is the mean of titrant_molinity_here over the rows with the same analysis_batch that are reference_good and successfully calibrated; it is NaN when there are none; it does not depend on rows of other batches.", "quantifier": "every dataset and partition into batches", "why_tests_cant": "any partition and any number of rows", "anchors": ["calkulate/dataset.py: calibrate, get_batches, get_group_calibration"]}
{"id": "C44", "title": "A self-calibrated reference returns its certified value", "statement": "If a batch has exactly one good reference, calibration of that row reached zero residual and no gran_logic is set, then after calibrate its alkalinity equals its alkalinity_certified and its alkalinity_offset is 0.", "quantifier": "every dataset, settings, mode", "why_tests_cant": "end-to-end equality across layers for all inputs", "anchors": ["calkulate/dataset.py: calibrate, calibrate_row, solve_row", "calkulate/files.py: calibrate, solve"]}
{"id": "C45", "title": "Solving is idempotent and calkulate adds nothing to calibrate", "statement": "Solving an already solved dataset again with the same arguments changes nothing; calibrate already solves, so calkulate and calibrate leave the dataset in the same state.", "quantifier": "every dataset, kwargs, deterministic solver", "why_tests_cant": "all datasets and any number of repetitions", "anchors": ["calkulate/dataset.py: solve, calibrate, calkulate"]}
{"id": "C46", "title": "Recalibration can depend on history", "statement": "Because calibrate stores default reference_good flags and salt totals in the dataset, repeating it after repairing a row can give a different result from calibrating the repaired dataset afresh: a row whose calibration failed the first time is not used as a reference the second time, and totals computed from the old salinity are kept.", "quantifier": "histories of edits and calls", "why_tests_cant": "depends on the history of calls", "anchors": ["calkulate/dataset.py: calibrate, get_total_salts"]}
{"id": "C47", "title": "Keyword arguments shadowed by prepared columns", "statement": "Passing opt_total_borate as a keyword argument to dataset.solve never has an effect; nor do total_sulfate, total_borate, total_fluoride keyword arguments on rows where PyCO2SYS provides a value.", "quantifier": "every dataset and every value", "why_tests_cant": "non-interference over all values", "anchors": ["calkulate/dataset.py: get_total_salts, solve_row", "calkulate/meta.py: _get_kwargs_for"]}
{"id": "C48", "title": "Existing salt totals are never overwritten", "statement": "get_total_salts keeps every non-null total_sulfate, total_borate, total_fluoride and opt_total_borate and fills nulls from salinity (option 1 for borate); it is idempotent and raises AssertionError without a salinity column.", "quantifier": "every dataset", "why_tests_cant": "all datasets", "anchors": ["calkulate/dataset.py: get_total_salts"]}
{"id": "C49", "title": "file_good False means the file is not touched", "statement": "Rows with file_good False, or without a titrant molinity (solve) or certified value (calibrate), get blank results and their file is never read.", "quantifier": "every dataset", "why_tests_cant": "all datasets and reader behaviours", "anchors": ["calkulate/dataset.py: solve_row, calibrate_row"]}
{"id": "C50", "title": "Null analysis_batch aborts calibration", "statement": "If any row has a null analysis_batch, calibrate raises KeyError after calibrating rows and before solving.", "quantifier": "every dataset with a null batch label", "why_tests_cant": "all datasets", "anchors": ["calkulate/dataset.py: calibrate, get_batches"]}
{"id": "C51", "title": "Which kwargs are reported as ignored", "statement": "dataset.solve reports as ignored exactly the kwargs outside the calibration key set; in particular it reports gran_logic as ignored although the solver uses it, and read_dat_method although it is honoured.", "quantifier": "every kwargs dict", "why_tests_cant": "all key sets", "anchors": ["calkulate/dataset.py: solve", "calkulate/files.py: keys_calibrate"]}
{"id": "C52", "title": "analyte_mass is not back-filled", "statement": "When only analyte_volume is given, the analyte_mass column after solving is null for every row.", "quantifier": "every dataset without analyte_mass", "why_tests_cant": "all datasets", "anchors": ["calkulate/dataset.py: prepare, solve_row"]}
{"id": "C53", "title": "Written titrations read back", "statement": "Data written by write_dat with default settings and read by read_dat come back with the same number of points in the same order, each value rounded to 3 decimals (error at most 0.0005; a value exactly in between goes to the even last digit), provided there are at least two points and the header lines contain no line breaks.", "quantifier": "every list of at least 2 finite points", "why_tests_cant": "all real values and all lengths", "anchors": ["calkulate/read/titrations.py: write_dat, read_dat, read_dat_genfromtxt"]}
{"id": "C54", "title": "write_dat writes only complete points and never overwrites by default", "statement": "write_dat writes two header lines plus one line per complete point (the shortest of the three inputs decides); with the default mode an existing file is left unchanged and FileExistsError is raised.", "quantifier": "every input and file system state", "why_tests_cant": "all lengths and file system states", "anchors": ["calkulate/read/titrations.py: write_dat"]}
{"id": "C55", "title": "A single-point file cannot be read", "statement": "Reading a file with exactly one data line (or none) with the default reader raises IndexError.", "quantifier": "every such file", "why_tests_cant": "all contents", "anchors": ["calkulate/read/titrations.py: read_dat_genfromtxt"]}
{"id": "C56", "title": "PC LIMS reader takes the first data block", "statement": "The PC LIMS reader returns exactly the first maximal run of consecutive lines whose first n_cols-1 tab-separated fields consist only of digits and dots and which have at least n_cols fields; nothing after the first interruption is read. In particular a line with a minus sign in one of those fields ends the block.", "quantifier": "every file content and n_cols >= 1", "why_tests_cant": "all texts", "anchors": ["calkulate/read/titrations.py: read_dat_pclims"]}
{"id": "C57", "title": "Unknown file types fall back to genfromtxt", "statement": "read_dat with an unknown file_type behaves exactly like file_type='genfromtxt' (and the warning names 'genfromtxt' instead of the unknown type).", "quantifier": "every file_type string", "why_tests_cant": "all strings", "anchors": ["calkulate/read/titrations.py: read_dat, file_types"]}
{"id": "C58", "title": "Tiamo volumes are shifted by the start volume", "statement": "The Tiamo reader adds the start volume read three lines above the first 'Gran.1' line to every volume and leaves pH and temperature alone; a file without that line raises ValueError. If that line is among the first three, the start volume is silently read from a line at the end of the file.", "quantifier": "every file content", "why_tests_cant": "all texts", "anchors": ["calkulate/read/titrations.py: _read_tiamo_de_df, read_tiamo_de"]}
{"id": "C59", "title": "VINDTA bottle file names are unambiguous, CRM names are not", "statement": "With the default format two bottle rows get the same file name exactly if station, cast, niskin and depth agree as whole numbers (fractions are cut off) and the bottles print the same; a bottle and a CRM never share a name; two CRM rows share a name exactly if batch and bottle written one after the other print the same, so different CRMs can get the same file name.", "quantifier": "every pair of rows", "why_tests_cant": "all pairs of integers and strings", "anchors": ["calkulate/read/metadata.py: get_VINDTA_filenames"]}
{"id": "C60", "title": "dbs import marks unusable rows and keeps CRM values", "statement": "get_VINDTA_filenames sets file_good False exactly for rows whose run type is neither bottle nor CRM (keeping existing False flags), gives every other row a file name, and copies the certified value for CRM rows only; there is a column of certified values afterwards exactly if there was one before or some row is a CRM.", "quantifier": "every table", "why_tests_cant": "all tables", "anchors": ["calkulate/read/metadata.py: get_VINDTA_filenames"]}
{"id": "C61", "title": "Seawater density is sane over its validity range", "statement": "For 0-40 C and 0.5-43 salinity the density is strictly increasing in salinity and lies between 0.99 and 1.04 kg/l; the out-of-range warning is issued exactly outside those ranges. At every temperature and non-negative salinity it is the published equation of Millero and Poisson (1981).", "quantifier": "every temperature and salinity in the range", "why_tests_cant": "continuum; tests check one value", "anchors": ["calkulate/density.py: seawater_1atm_MP81"]}
{"id": "C62", "title": "Titrant densities are sane", "statement": "The H2SO4 density is strictly increasing in molinity over 0.05-3 mol/kg and warns exactly outside; the HCl-NaCl density is positive and exceeds that of pure water for all positive molinities up to 1 mol/kg total. It is mass over volume, with the published apparent molar volumes of acid and salt, and grows with both molinities (up to 2 mol/kg in total).", "quantifier": "every molinity in range", "why_tests_cant": "continuum", "anchors": ["calkulate/density.py: H2SO4_25C_EAIM, HCl_NaCl_25C_DSC07"]}
{"id": "C63", "title": "Titration point estimates match the solver only for normality 1", "statement": "The alkalinity_estimate column of a Titration equals the solver's per-point alkalinity (in mol/kg) when titrant_normality is 1 (given PyCO2SYS agrees with the simulator); for any other normality it differs at every point with titrant.", "quantifier": "every titration and normality", "why_tests_cant": "all data", "anchors": ["calkulate/classes.py: Titration.do_CO2SYS, get_alkalinity_from_acid", "calkulate/core.py: solve_pH"]}
{"id": "C64", "title": "Titration keyword arguments override the row", "statement": "When a Titration is created, keyword arguments replace the row's values (opposite precedence to dataset.solve) except that a read_dat_method in the row overrides both itself and file_type, and null row values are passed on rather than ignored.", "quantifier": "every row and kwargs", "why_tests_cant": "all combinations", "anchors": ["calkulate/classes.py: Titration.__init__"]}
{"id": "C65", "title": "Printing a Titration needs file_path", "statement": "str() of a Titration whose row has no file_path raises AttributeError.", "quantifier": "every Titration without file_path", "why_tests_cant": "all rows", "anchors": ["calkulate/classes.py: Titration.__str__, __getattr__"]}
{"id": "C66", "title": "DIC loss model: no loss means dilution only", "statement": "With k_dic_loss = 0, or with fCO2 always equal to air, the modelled DIC at every step is the start DIC times the overall dilution factor.", "quantifier": "every number of equal steps, masses", "why_tests_cant": "induction over any number of steps", "anchors": ["calkulate/loss.py: dic_loss_model_fitted"]}
{"id": "C67", "title": "DIC loss model is affine and monotone in k", "statement": "The modelled DIC at every step is an affine function of k_dic_loss, non-increasing when fCO2 is at or above air; so the best-fit k is unique unless fCO2 equals air at every fitted point but the last.", "quantifier": "every trajectory and length", "why_tests_cant": "any number of steps", "anchors": ["calkulate/loss.py: dic_loss_model_fitted, _lsqfun_dic_loss_model"]}
{"id": "C68", "title": "fCO2 from DIC and pH", "statement": "fCO2 is non-negative, proportional to DIC, bounded by DIC/k0 and strictly decreasing in pH for positive DIC.", "quantifier": "every pH, DIC >= 0, positive constants", "why_tests_cant": "continuum", "anchors": ["calkulate/loss.py: get_fCO2_from_dic_pH"]}
{"id": "C69", "title": "User-supplied totals and constants are respected", "statement": "Given that PyCO2SYS keeps entries it is handed, totals the user supplies appear in the result as value*1e-6 and supplied constants appear unchanged, except that on the Total scale k_fluoride is multiplied by 1 + TSO4/k_bisulfate even when supplied by the user; optional totals appear in the result only if positive.", "quantifier": "every combination of supplied totals and constants", "why_tests_cant": "2^n combinations and all values", "anchors": ["calkulate/interface.py: get_totals, get_k_constants"]}
{"id": "C70", "title": "Name tables are consistent", "statement": "The Calkulate-PyCO2SYS name tables are one-to-one, every simulated component has a multiplier, solver keys are covered by the file-level key sets, and no result column of dataset.solve is also read as a solver setting except analyte_mass.", "quantifier": "every entry of the tables", "why_tests_cant": "finite but must hold for the whole table at once", "anchors": ["calkulate/interface.py: calk_to_pyco2__totals, calk_to_pyco2__k_constants", "calkulate/simulate.py: component_multipliers", "calkulate/files.py: keys_calibrate, keys_solve", "calkulate/dataset.py: solve_row"]}
{"id": "C71", "title": "solve_pH ignores the pH scale", "statement": "Solving in pH mode always evaluates alkalinity with Free-scale rules whatever opt_pH_scale was requested, so with Total-scale constants the sulfate correction is subtracted although already contained in [H+].", "quantifier": "every titration and pH scale option", "why_tests_cant": "relation to the simulator on all inputs", "anchors": ["calkulate/core.py: solve_pH", "calkulate/files.py: solve"]}
{"id": "C72", "title": "A NaN reading is contained in pH mode but not in EMF mode", "statement": "A NaN pH reading is never used by solve_pH and does not change the result; a NaN EMF reading makes the default Gran selection raise IndexError, so the EMF solver fails for the whole titration.", "quantifier": "every data set and position of the NaN", "why_tests_cant": "all positions and data", "anchors": ["calkulate/core.py: solve_pH, gran_alkalinity, solve_emf"]}
{"id": "C73", "title": "Default reader: one point per data line, NaN for non-numbers", "statement": "The default reader returns one point per data line (a line after the header with something other than blanks before any '#'), with the numbers in the chosen columns; a field that is not a number becomes NaN rather than an error, while data lines with different numbers of fields raise ValueError. Negative column numbers count from the end, and a column that the lines do not have raises IndexError.", "quantifier": "every file content, delimiter, header length and choice of columns", "why_tests_cant": "all texts", "anchors": ["calkulate/read/titrations.py: read_dat_genfromtxt"]}
{"id": "C74", "title": "Excel titrations can be read but not solved", "statement": "With file_type='orgalk_excel' files.solve and files.calibrate always raise, because the reader returns a plain tuple without the fields they use. That tuple is acid, base, EMF and temperature, each from the column of that name.", "quantifier": "every file and keyword arguments", "why_tests_cant": "all inputs", "anchors": ["calkulate/read/titrations.py: read_dat_orgalk_excel, file_types", "calkulate/files.py: solve, calibrate"]}
{"id": "C75", "title": "The DIC loss table obeys the DIC balance across the fit/forecast boundary", "statement": "If the interpolated pH crosses the split value once, the high-resolution DIC loss table has one DIC and one excess fCO2 per titrant mass, starts at the starting DIC, and from every row to the next DIC changes by dilution minus rate times excess fCO2 times step, including from the last fitted to the first forecast row; rows with NaN pH are missing from the DIC and fCO2 columns.", "quantifier": "every titration, any number of table rows", "why_tests_cant": "induction over the rows of a table of any length", "anchors": ["calkulate/loss.py: get_dic_loss_hires, dic_loss_model_fitted, dic_loss_model_future"]}
{"id": "C76", "title": "The DIC loss model needs both sides of the split pH", "statement": "get_dic_loss raises IndexError exactly when the interpolated pH is nowhere at or above split_pH, or nowhere below it; otherwise it returns one value per titration point.", "quantifier": "every titration, split pH and interpolator", "why_tests_cant": "all titrations", "anchors": ["calkulate/loss.py: get_dic_loss, get_dic_loss_hires"]}
{"id": "C77", "title": "Masses of the DIC loss table", "statement": "The table's titrant masses are the multiples of a tenth of the median titrant step, from zero up to but not including the largest titrant mass, so the last titration point is always extrapolated.", "quantifier": "every titration", "why_tests_cant": "all step patterns", "anchors": ["calkulate/loss.py: get_dic_loss_hires"]}
{"id": "C78", "title": "The first forecast row uses the previous point's pH", "statement": "In the forecast each row's excess fCO2 belongs to its own DIC, pH and constants, except the first row, which uses pH and constants of the last fitted row and therefore understates fCO2 in a titration towards lower pH.", "quantifier": "every forecast length and trajectory", "why_tests_cant": "any number of rows", "anchors": ["calkulate/loss.py: dic_loss_model_future, get_dic_loss_hires"]}
{"id": "C79", "title": "Dates of a dbs file", "statement": "Reading a dbs file, a date m/d/y with a time becomes 20y-m-dTtime; a date that is not text gives a null time; a text with fewer than two slashes raises IndexError instead of being treated as missing.", "quantifier": "every text", "why_tests_cant": "all strings", "anchors": ["calkulate/read/metadata.py: dbs_datetime, read_dbs"]}
{"id": "C80", "title": "read_dbs keeps every row and sets exactly one analyte amount", "statement": "read_dbs returns every row of the file in order with all its values, the file name, run type, time and flags of C60 and C79; the result has a column analyte_mass exactly if a mass was given and analyte_volume exactly if not, and file_path exactly if a (string) path was given. Columns made by a function of each row never replace a column that is there: adding one whose name is taken raises ValueError, so a file with a column analysis_datetime cannot be imported.", "quantifier": "every table and arguments", "why_tests_cant": "all tables", "anchors": ["calkulate/read/metadata.py: read_dbs, add_func_cols"]}
{"id": "C81", "title": "A Titration needs analyte_mass", "statement": "A titration whose row has only analyte_volume can be solved, but making a Titration of it raises AttributeError; with a null (NaN) analyte_mass, as a solved data set has in that case, the Titration is made but its dilution_factor, alkalinity_from_acid and alkalinity_estimate columns are NaN at every point.", "quantifier": "every row, keyword arguments and titration", "why_tests_cant": "all titrations and ways of giving settings", "anchors": ["calkulate/classes.py: Titration.get_alkalinity_from_acid, Titration.do_CO2SYS", "calkulate/dataset.py: prepare"]}
{"id": "C82", "title": "A data set row reports what solving its file reports", "statement": "After dataset.solve, every row that is not skipped holds the alkalinity, EMF0, number of points used, Gran estimates, first pH and first temperature that files.solve returns for the row's file, titrant molinity and salinity with the row's settings (each from the row's cell unless null or absent, else from the call); if files.solve raises, the results are blank.", "quantifier": "every data set, row, settings, file content and solver behaviour", "why_tests_cant": "all tables and settings", "anchors": ["calkulate/dataset.py: solve, solve_row, add_solve_results", "calkulate/files.py: solve"]}
{"id": "C83", "title": "What the EMF solver fits and where it starts", "statement": "Solving from EMF asks least_squares for the pair (alkalinity, EMF0) minimising, over the points in use, the alkalinity implied by the reading minus the alkalinity left after dilution and acid addition; the start is alkalinity_init (umol/kg) and emf0_init where given, else the Gran estimates; with double the second fit starts exactly at the first one's answer; alkalinity is reported in umol/kg.", "quantifier": "every titration with real data, options, optimiser", "why_tests_cant": "the residual is compared as a function of every candidate pair, for every data set", "anchors": ["calkulate/core.py: solve_emf, _lsqfun_solve_emf"]}
{"id": "C84", "title": "What alkalinity_std means", "statement": "solve_pH reports the population standard deviation of the point estimates in the window. The EMF solver reports 1e6 times that of the residuals in use, and each point estimate is the alkalinity plus 1e6 times its residual divided by the dilution factor, so that is a different number: it can be positive although all estimates agree. The data set column is always the standard deviation of the point estimates in use.", "quantifier": "every titration with real data", "why_tests_cant": "all titrations", "anchors": ["calkulate/core.py: solve_pH, solve_emf", "calkulate/dataset.py: add_solve_results"]}
{"id": "C85", "title": "What the DIC loss model returns at the titration points", "statement": "At a titration point that is also a row of the fine table, get_dic_loss returns the row's DIC in mol/kg and the row's excess fCO2 plus the air's; the rate is the table's; points at or above the split pH are marked as fitted. For real data that start with no titrant and positive constants every table entry is a real number, and the first returned values are the starting DIC and the measured fCO2 (the largest measured one if it is missing).", "quantifier": "every titration with real data; any interpolation that passes through the nodes and stays within the data, any optimiser", "why_tests_cant": "all data sets and every interpolation routine with the documented behaviour", "anchors": ["calkulate/loss.py: get_dic_loss, get_dic_loss_hires"]}
{"id": "C86", "title": "What the DIC loss rate is fitted to", "statement": "The rate is fitted, starting from 1, to modelled minus measured DIC (umol/kg) at the fine table's places at or above the split pH. The model starts at the starting DIC and follows the DIC balance with the measured excess fCO2. At titration points the measured values are used as given, except that a missing dic_loss counts as a DIC of zero and a missing fCO2 as the largest measured one.", "quantifier": "every titration with real data and missing values anywhere; every candidate rate", "why_tests_cant": "the residual function is identified for all rates and all patterns of missing data", "anchors": ["calkulate/loss.py: get_dic_loss_hires, dic_loss_model_fitted, _lsqfun_dic_loss_model"]}
{"id": "C87", "title": "What the table and the row of a Titration hold", "statement": "The table of a Titration has the titrant masses and temperatures that were solved with, and one column for each total and each equilibrium constant with its value at each point. H is 10**-pH. For pH modes the pH column is the readings, used marks those inside the pH window of the settings. For EMF modes the emf column is the readings, and pH (gran_pH) is what they mean for an ideal electrode with the row's emf0 (gran_emf0); gran_func is the Gran function; gran_emf0 in the row is the mean of the column over gran_used; gran_alkalinity in the row comes from the line fitted through the gran_used points. alkalinity_npts counts the points marked used.", "quantifier": "every data set row, keyword arguments, file and solver result for which the Titration can be made", "why_tests_cant": "relations between the table, the row and the settings for all files, modes and settings", "anchors": ["calkulate/classes.py: Titration.__init__, get_alkalinity_from_acid, do_CO2SYS", "calkulate/dataset.py: add_solve_results"]}
{"id": "C88", "title": "Every titration that can be solved can be made a Titration", "statement": "If files.solve succeeds with the settings of the row and the keyword arguments, the titration has at least one point, as many temperatures as points, one value per point for every equilibrium constant that is an array, and there is a number under analyte_mass, then making a Titration succeeds, and its results are those of files.solve.", "quantifier": "every row, keyword arguments, file, mode and optimiser; PyCO2SYS assumed to succeed with one value per point", "why_tests_cant": "absence of failures for all inputs", "anchors": ["calkulate/classes.py: Titration.__init__, get_alkalinity_from_acid, do_CO2SYS"]}
{"id": "C89", "title": "A setting left out is the same as its default", "statement": "Calling files.solve or files.calibrate without a setting gives exactly the result (or the exception) of the call with the documented default for that setting; any number of settings may be filled in with their defaults, in any order. The same holds for the file readers: a missing file_type is genfromtxt, and the column numbers, the delimiter, the number of header lines and (for PC LIMS) the number of columns have each reader's own defaults.", "quantifier": "every file, settings and setting with a default; every optimiser and PyCO2SYS", "why_tests_cant": "compares calls for all combinations of other settings, for results and for exceptions", "anchors": ["calkulate/default.py", "calkulate/core.py: solve_emf, solve_pH, calibrate_emf, calibrate_pH", "calkulate/convert.py: amount_units", "calkulate/interface.py: get_totals, get_k_constants", "calkulate/files.py: solve, calibrate", "calkulate/read/titrations.py: read_dat"]}
{"id": "C90", "title": "PyCO2SYS totals with a sulfuric acid titrant", "statement": "dilute_totals_pyco2_H2SO4 dilutes TB, TF, TCa, alpha, beta, TPO4, TSi, TNH3, TH2S and nothing else; TSO4 becomes that of the mixture of sample and acid, so that the amounts of sulfate add up; the entries are those given; without TSO4 there is no result. Apart from TSO4 the result is that of dilute_totals_pyco2.", "quantifier": "every dict of totals, molinity, masses", "why_tests_cant": "all dicts with any keys; exact mass balance", "anchors": ["calkulate/convert.py: dilute_totals_pyco2_H2SO4, dilute_totals_pyco2"]}
{"id": "C91", "title": "Settings reach only the part of the calculation they are about", "statement": "Settings about the fit (mode, pH window, normality, initial values, ...) do not change the data, contents and constants that the fit starts from. Settings about the composition and the constants do not change the masses, EMFs and temperatures. Settings about the constants, including dilute_totals_for_ks, do not change the contents. With dilute_totals_for_ks the constants are those for contents diluted point by point by the titrant, at the undiluted salinity; without it those of the undiluted sample.", "quantifier": "every file, settings, setting and value; every PyCO2SYS", "why_tests_cant": "independence for all combinations of settings", "anchors": ["calkulate/core.py: totals_ks, keys_totals_ks", "calkulate/files.py: solve, calibrate", "calkulate/convert.py: dilute_totals_pyco2"]}
{"id": "C92", "title": "What a simulated titration is made of", "statement": "simulate._titration steps the titrant mass from the start in equal steps up to but not including the stop. PyCO2SYS is asked first for the contents of the sample, then for the pH of each mixture of sample and titrant: each total diluted by the titrant, DIC diluted likewise unless its loss is modelled, and an alkalinity equal to what the acid has left of the sample's, in the mass of the mixture. Options not given are the package's own. The EMFs are those of an ideal electrode at the free-scale pH PyCO2SYS answers, and the contents and constants returned are those of the answer, in mol/kg.", "quantifier": "every PyCO2SYS, arguments, step and number of points", "why_tests_cant": "all arguments and all PyCO2SYS keyword settings, without running PyCO2SYS", "anchors": ["calkulate/simulate.py: _titration", "calkulate/convert.py: pH_to_emf, dilution_factor"]}
{"id": "C93", "title": "Solving a simulated titration", "statement": "A titration simulated with simulate._titration has EMFs for which the simulated alkalinity and EMF0 leave no residual. Solved as a pH titration it returns exactly the alkalinity simulated with zero spread, and solved as an EMF titration with a minimising optimiser every point used is fitted exactly, provided PyCO2SYS answers with a pH that has the alkalinity asked for.", "quantifier": "every PyCO2SYS that answers with exact pH, arguments, temperature, composition", "why_tests_cant": "round trip between two parts of the package for all compositions and masses", "anchors": ["calkulate/simulate.py: _titration", "calkulate/core.py: solve_pH, solve_emf, _lsqfun_solve_emf"]}
{"id": "C94", "title": "CO2 loss in a simulated titration", "statement": "With k_dic_loss, DIC starts at the sample's value. From each point to the next it is diluted by one step of titrant and loses the coefficient times the fCO2 excess over the air times the step, the fCO2 being that of the earlier point; so the amount of DIC in the mixture changes by the amount lost and no other. With a coefficient of zero and a titration that starts without titrant the DIC is that of plain dilution. Without any titrant mass there is no result.", "quantifier": "every PyCO2SYS, arguments, number of points", "why_tests_cant": "induction over the points; exact mass balance for all arguments", "anchors": ["calkulate/simulate.py: _titration"]}
{"id": "C95", "title": "When an EMF solve recovers the true alkalinity", "statement": "For exact titration data (made from an alkalinity and an EMF0 for any composition), an EMF solve with an optimiser that finds the minimum returns exactly that alkalinity and EMF0 whenever two points used are at one temperature, the second with more acid than the first by more than the buffering of the first, and the first is fitted as acid. Without that last condition two points can be fitted exactly by two different alkalinities.", "quantifier": "every composition, constants, data set of any length, optimiser that minimises", "why_tests_cant": "uniqueness of a nonlinear fit over all alkalinities and EMF0s", "anchors": ["calkulate/core.py: solve_emf, _lsqfun_solve_emf", "calkulate/simulate.py: alkalinity, _titration"]}
{"id": "C96", "title": "What a data set row is solved from", "statement": "dataset.solve calls files.solve for each row with the row's file, titrant molinity and salinity. Each setting is the row's own cell if not blank; else ml for a blank unit cell, option 1 for borate, PyCO2SYS's value for a salt; else the keyword argument of the call. The row reports the outcome, or blanks if there was an exception. So a column of settings with only blank cells is the same as no column, except that a titrant_amount_unit column shadows the keyword argument even where blank.", "quantifier": "every data set, keyword arguments, file contents, PyCO2SYS and optimiser", "why_tests_cant": "relates the input table to the results for all combinations of cells and arguments", "anchors": ["calkulate/dataset.py: solve, solve_row, prepare, get_total_salts", "calkulate/meta.py: _get_kwargs_for", "calkulate/files.py: keys_solve"]}
{"id": "C97", "title": "What a data set row is calibrated from", "statement": "dataset.calibrate sets titrant_molinity_here to what files.calibrate finds for the row's file, certified alkalinity and salinity with settings chosen as for solving, and to NaN if there was an exception. Then each row is solved with its batch's molinity and the settings the user gave, and alkalinity_offset is its difference to the certified value. Without an analysis_batch column there is one batch; without a reference_good column the rows that could be calibrated are the references.", "quantifier": "every data set, keyword arguments, file contents, PyCO2SYS and optimiser", "why_tests_cant": "relates the input table to the results for all combinations of cells and arguments", "anchors": ["calkulate/dataset.py: calibrate, calibrate_row, prepare, solve_row", "calkulate/meta.py: _get_kwargs_for", "calkulate/files.py: keys_calibrate"]}
{"id": "C98", "title": "A Titration made from a row of a solved data set agrees with the row", "statement": "If a Titration is made with to_Titration from a row of a solved data set, with the keyword arguments that the data set was solved with, and no setting is given in two ways or blank in the row, then its results are those in the row. It can be made for every row with an alkalinity and an analyte mass. Keyword arguments are not remembered: without them the results may differ. A blank pH limit, for which the data set takes the default, makes it impossible.", "quantifier": "every data set, keyword arguments, file contents, PyCO2SYS and optimiser", "why_tests_cant": "two independent paths through settings, reading, conversion and solving must agree for all inputs", "anchors": ["calkulate/classes.py: to_Titration, Titration.__init__", "calkulate/dataset.py: solve, solve_row, _backcompat", "calkulate/meta.py: _get_kwargs_for"]}
{"id": "C99", "title": "The plots of a Titration show each measurement once, in its place", "statement": "plot_emf and plot_alkalinity draw every measurement exactly once: at its titrant mass in grams and at its EMF or at its alkalinity estimate in umol/kg. Points that were used are filled. The line is at the alkalinity reported, and the title has it and the number of points. A titration not solved from EMF has no EMF plot (AttributeError).", "quantifier": "every Titration, whatever the file, settings and solver", "why_tests_cant": "images are compared by eye; the drawn coordinates must be right for all masks and lengths", "anchors": ["calkulate/plot/titration.py: emf, alkalinity, scatter_both", "calkulate/classes.py: Titration"]}
{"id": "C100", "title": "What the title of the alkalinity plot says", "statement": "For titrant of normality 1 the heights of the points are the solver's alkalinities, the line is at their mean over the filled points in pH mode, and the number after the plus-minus sign is the sample standard deviation: sqrt(n/(n-1)) times the alkalinity_std of the data set, and NaN for a single point, for which the data set has 0.", "quantifier": "every Titration solved in EMF or pH mode with real-valued data, PyCO2SYS agreeing with the speciation in simulate.py", "why_tests_cant": "two standard deviations of different definition look alike in any single figure", "anchors": ["calkulate/plot/titration.py: alkalinity", "calkulate/dataset.py: add_solve_results"]}
{"id": "C101", "title": "The pH plot shades the range that was used", "statement": "plot_pH can be drawn for every Titration. It shows the pH of every point, filled where used, and shades the pH range that the titration was solved with, default 3 to 4. In the pH modes the filled points are exactly those in the shaded range. In EMF mode they are the points that were in that range with the EMF0 at which the solver started. The pH of the first guess is added in EMF mode unless show_gran is False.", "quantifier": "every Titration, with or without pH limits in the row or the keyword arguments", "why_tests_cant": "depends on the interplay of defaults, row cells, keyword arguments and solver modes", "anchors": ["calkulate/plot/titration.py: pH", "calkulate/core.py: solve_emf, solve_pH"]}
{"id": "C102", "title": "The Gran plots agree with the Gran results", "statement": "plot_emf0_gran shows the EMF0 estimate from each point and a line at gran_emf0, the mean of the filled points. plot_alkalinity_gran shows the Gran function, the regression line through the filled points and where it is zero. The alkalinity in its title is the acid added up to that zero. Titrations without these data raise AttributeError.", "quantifier": "every Titration in every solver mode", "why_tests_cant": "the regression is computed again for the plot: it must agree with the solver's for all data", "anchors": ["calkulate/plot/titration.py: gran_emf0, gran_alkalinity", "calkulate/core.py: gran_guesses"]}
{"id": "C103", "title": "The components plot", "statement": "plot_components can be drawn for every Titration. A species is shown if and only if its content is positive at every point; each measurement is then drawn once for it, at p(|c| content) or on the linear scale at c times content in umol/kg, c being its contribution to alkalinity, with a curve through exactly these points. On the linear scale the heights at a point add up to the alkalinity there. On the logarithmic scale hydrogen ion is at the pH.", "quantifier": "every Titration, every interpolation", "why_tests_cant": "sixteen species with their own factors and signs, and a rule for leaving some out", "anchors": ["calkulate/plot/titration.py: components", "calkulate/simulate.py: component_multipliers"]}
{"id": "C104", "title": "The molinity plot of a calibrated data set", "statement": "plot_titrant_molinity draws each row once, among the good or the bad data as flagged, at its number or at the value of the column chosen. For each batch there is one line through the places of its rows. After calibrate it is level, at the mean of the good molinities of the batch.", "quantifier": "every data set with Boolean flags; after calibrate with ordinary batch labels, in whatever order pandas sorts them", "why_tests_cant": "any number of batches, rows and flags, interleaved in any way", "anchors": ["calkulate/plot/__init__.py: titrant_molinity", "calkulate/dataset.py: calibrate, get_batches"]}
{"id": "C105", "title": "The offset plot of a data set", "statement": "plot_alkalinity_offset draws alkalinity minus certified alkalinity for each row in the same way, with a line at zero. After calibrate two of the good points have the same colour if and only if they are of the same batch. With the default show_batches=True it raises KeyError for a data set that was only solved, never calibrated; with show_batches=False it can be drawn.", "quantifier": "every data set with Boolean flags", "why_tests_cant": "the failure needs a data set with certified values that was not calibrated", "anchors": ["calkulate/plot/__init__.py: alkalinity_offset", "calkulate/dataset.py: get_batches, solve"]}
{"id": "C106", "title": "The plots of CO2 loss cannot be drawn", "statement": "plot.titration.dic_loss and fCO2_loss draw no figure for any Titration: they call methods that a Titration does not have, so they raise AttributeError.", "quantifier": "every Titration", "why_tests_cant": "a test shows one failure; no Titration at all can be plotted", "anchors": ["calkulate/plot/titration.py: dic_loss, fCO2_loss", "calkulate/classes.py: Titration"]}
{"id": "C107", "title": "The documented attributes of a Titration", "statement": "Every Titration has alkalinity, file_name, titrant_molinity, salinity and analyte_mass as attributes, with the solver's result and the settings it was made with. opt_result, though documented, is not an attribute. emf0, gran_emf0 and gran_alkalinity are the solver's in EMF mode; in the other modes they are absent, or the values that the row had before. Indexing with a name gives the same, and a missing name raises AttributeError rather than KeyError.", "quantifier": "every row, keyword arguments, file and solver mode", "why_tests_cant": "attribute lookup falls through to the row, so what is found depends on what the row had", "anchors": ["calkulate/classes.py: Titration.__getattr__, Titration.__getitem__, Titration.__init__", "calkulate/dataset.py: add_solve_results"]}
{"id": "C108", "title": "Which file is read, and what the solver works with", "statement": "Giving file_path to files.solve or files.calibrate is giving the name of the file in that directory: a name starting with a slash stands for itself, a path that ends in a slash or is empty is put in front, any other path with a slash between. The contents that the solver works with are those given (DIC always, the optional ones if positive), times 1e-6 and diluted by the titrant at every point; there are no others. A constant given is used as it is, at every point (k_fluoride is rescaled on the Total scale).", "quantifier": "every path and name, every set of keyword arguments, all data; PyCO2SYS keeping what it is handed", "why_tests_cant": "two dozen settings pass through four filters by name: one name missing from one list silently drops that setting", "anchors": ["calkulate/files.py: solve, calibrate", "calkulate/core.py: totals_ks, get_totals", "calkulate/interface.py: get_totals, get_k_constants"]}
{"id": "C109", "title": "The pH-mode alkalinity as an expression of arguments and data", "statement": "With contents and constants given and solve_mode pH, files.solve reports the mean, over the points in the window, of 1e6 (Alk (m + M) + m c n) / M, where Alk is the textbook alkalinity, at the measured pH, of the mixture of M kg of sample and m kg of titrant (which may bring sulfate). If every point satisfies the charge balance of a sample of alkalinity A, the result is 1e6 A with zero spread.", "quantifier": "all contents, constants, titrant strengths, normalities, sulfate contents of the titrant, windows, masses and pH values", "why_tests_cant": "the whole chain from arguments to result must be exact for every composition; a test has one", "anchors": ["calkulate/files.py: solve", "calkulate/core.py: totals_ks, add_titrant_totals, solve_pH", "calkulate/convert.py: dilute_totals", "calkulate/simulate.py: alkalinity"]}
{"id": "C110", "title": "What the warnings of the Gran fit mean", "statement": "A Gran fit warns of too few points exactly if fewer than three points are used, and of a poor fit exactly if the correlation of titrant mass and Gran function over the used points is below 0.95. So ideal strong-acid data never give the second warning, a Gran function that never rises always does, and a constant offset of the electrode changes neither.", "quantifier": "all real data, both gran_logic settings; for the second warning used points that differ in mass and in Gran function", "why_tests_cant": "the limits are on real-valued statistics of arbitrary data; a test sees a warning or not for one data set", "anchors": ["calkulate/core.py: gran_alkalinity, gran_guesses"]}
{"id": "C111", "title": "pH-mode calibration of a file finds the acid's molinity", "statement": "In pH mode the alkalinity reported for a file rises strictly with the titrant molinity given, for hydrochloric and for sulfuric acid. So if the data are exact (charge balance of sample plus acid holds at every point) and a calibration against the sample's true alkalinity ends with zero residual, the molinity it reports is that of the acid.", "quantifier": "all files that load, all sample contents, constants, molinities, masses, pH data and windows with a used point that has titrant in it; acids with fewer sulfates than protons", "why_tests_cant": "needs strict monotonicity over a continuum of molinities and that acid sulfate shifts the equilibria of every point; a test calibrates a few files to a tolerance", "anchors": ["calkulate/files.py: solve, calibrate", "calkulate/core.py: calibrate_pH, solve_pH", "calkulate/core.py: add_titrant_totals"]}
{"id": "C112", "title": "EMF mode from arguments and data: estimates, best fit, exact data", "statement": "With all contents and constants given, an EMF-mode solve of a file that returns reports for each point the alkalinity that the mixture of sample and acid has at the acidity read with the reported EMF0, and as spread that of the misfits of the points used. If the optimiser finds minima, no other alkalinity and EMF0 fit the points used better. For exact data it reports the alkalinity and the EMF0 the data were made with, if two used points at one temperature differ enough in acid and the first is fitted as acid.", "quantifier": "all files that load, all contents, constants, acids (with or without sulfate), masses, EMFs, temperatures, options and start values", "why_tests_cant": "the claims compare with every other pair (alkalinity, EMF0) of a continuum and run through reading, unit conversion, contents and fit; a test runs a few files to a tolerance", "anchors": ["calkulate/files.py: solve", "calkulate/core.py: solve_emf, _lsqfun_solve_emf, add_titrant_totals", "calkulate/convert.py: amount_units"]}
{"id": "C113", "title": "What errors in the data, and rounding in a written file, cost", "statement": "If the data of a pH-mode titration are exact up to an error of at most e kg in each titrant mass and d in each pH, the alkalinity reported differs from the true one by at most an explicit bound (buffering times acidity error, plus acid concentration times mass error). So exact data written to a new file with the default formats of write_dat and solved from that file give the alkalinity up to that bound for 0.0005 units of titrant and 0.0005 in pH.", "quantifier": "all exact data of at least two points, all errors, sample contents, constants, acids with no more sulfates than protons, windows, and the units g, kg, or ml with a given density", "why_tests_cant": "an error bound quantifies over all data and all perturbations; a test perturbs or rounds a few files", "anchors": ["calkulate/files.py: solve", "calkulate/core.py: solve_pH", "calkulate/read/titrations.py: write_dat, read_dat", "calkulate/convert.py: amount_units"]}
{"id": "C114", "title": "An electrode offset moves EMF0 and nothing else", "statement": "Adding a constant to every EMF reading of an isothermal titration (and to emf0_init, if given) leaves the alkalinity, its spread, the point estimates, the points used, the pH and the residuals of an EMF-mode solve as they are and moves the reported EMF0 by that constant, for any optimiser indifferent to such a translation; the solve fails exactly if the one without the offset fails. For any sound optimiser that finds minima, the two fits are equally good and each is, with EMF0 moved, a best fit of the other's data, as long as the same points are used.", "quantifier": "all data (also non-finite), offsets, temperatures, options, contents and constants, single and double solves, both Gran logics", "why_tests_cant": "the claim relates two runs for every offset and every data set; a test shifts a few files and compares up to the optimiser's tolerance", "anchors": ["calkulate/core.py: solve_emf, gran_guesses", "calkulate/convert.py: emf_to_pH", "calkulate/files.py: solve"]}
{"id": "C115", "title": "Only the ratio of titrant to sample matters", "statement": "Solving a titration done k times as large - a file with k times the titrant amounts and the same readings, and k times the sample mass (or volume, if no mass is given) - reports the same alkalinity, EMF0, spread, point estimates, points used, pH, warnings and optimiser result, in every solve mode, unit and with every acid; only the Gran function is k times as large. It fails if and only if the original fails, with the same error. Calibrating with it finds the same molinity.", "quantifier": "all factors k > 0, files, data (also non-finite), settings, modes, acids, and all behaviour of PyCO2SYS and the optimisers", "why_tests_cant": "a homogeneity law over all data and factors; a test scales a few files", "anchors": ["calkulate/files.py: solve, calibrate", "calkulate/convert.py: amount_units, get_dilution_factor, dilute_totals", "calkulate/core.py: solve_emf, solve_pH, solve_pH_gran, gran_guesses, add_titrant_totals"]}
{"id": "C116", "title": "Gran-mode solves of a file report the best line", "statement": "In pH_gran mode the alkalinity reported for a file is 1e6 (-b/a) c n / M, where a and b are the slope and intercept of the one straight line that fits the points (m, (m + M) 10^-pH) with pH in the window with the least sum of squares; contents and constants of the sample do not enter. It is exact on ideal strong-acid data. A calibration in this mode that reaches zero residual finds exactly cert M / (1e6 (-b/a) n), so on ideal data the molinity of the acid. The solve succeeds whenever two points of the window differ in titrant mass (acid without sulfate, phosphate, fluoride).", "quantifier": "all files that load, point lists of any length, windows, molinities, normalities, contents, constants and optimisers", "why_tests_cant": "least-squares optimality is a statement about all lines and all data; a test compares a few numbers", "anchors": ["calkulate/files.py: solve, calibrate", "calkulate/core.py: solve_pH_gran, calibrate_pH_gran"]}
{"id": "C117", "title": "ph_adjust mode is EMF mode on the potentials of the pH values", "statement": "Solving or calibrating with a file of pH values in ph_adjust mode gives exactly what EMF mode gives, started from EMF0 zero, for the file with the potentials that an electrode of EMF0 zero has at these pH values and temperatures (failures included). So it reports an alkalinity and an electrode error (emf0, mV) that fit the used points at least as well as any other pair; and with exact data reported by an electrode whose EMF0 is E off, it finds the alkalinity and E.", "quantifier": "all files that load, numbers of points, contents, constants, acids with or without sulfate, and all sound minimising optimisers (exactness: two used points at one temperature with clearly different acid)", "why_tests_cant": "equality of two computations on all files, and optimality over all pairs; a test sees a few files", "anchors": ["calkulate/files.py: solve, calibrate", "calkulate/convert.py: pH_to_emf", "calkulate/core.py: solve_emf, calibrate_emf"]}
{"id": "C118", "title": "A data set of exact titrations is calibrated and solved exactly", "statement": "Calibrating a data set: if every row that serves as a reference is an exact titration with the acid of its analysis batch (pH mode: charge balance of sample plus hydrochloric or sulfuric acid at every point; Gran mode: ideal strong-acid points), has a true certified value and was calibrated to zero residual, then every row of a batch with a reference gets the acid's molinity as titrant_molinity, and every row that is an exact titration with that acid gets its sample's alkalinity, with offset zero if its certified value is true. Settings may come from cells, package defaults or keyword arguments, in any order.", "quantifier": "all data sets, columns and rows, batches, files, settings, keyword arguments, contents, constants, acids, pH windows and points; any optimiser that reports a point it evaluated", "why_tests_cant": "The claim joins the reading of settings, calibration, averaging over references, solving and chemistry for every data set; a test data set fixes all of them, and real data are never exact.", "anchors": ["calkulate/dataset.py: calibrate", "calkulate/dataset.py: solve", "calkulate/files.py: calibrate", "calkulate/files.py: solve", "calkulate/core.py: calibrate_pH", "calkulate/core.py: calibrate_pH_gran"]}
{"id": "C119", "title": "Reading a file depends on that file and its settings only", "statement": "What read_dat returns for a file depends on the contents of that file and on the settings looked up by name, not on their order nor on any other file. Every titration it returns has as many measurements and temperatures as titrant amounts, and at least one point unless it came from a Tiamo file. Hence solving, calibrating and calkulating a data set depend on no other files than those of the rows not marked as bad, each in the directory given for it, and writing a titration to a file that no row uses changes no result.", "quantifier": "all file systems, files, file types, settings, data sets and keyword arguments", "why_tests_cant": "Independence of everything else on the disk, of every order of the settings and of every bad row's file is a statement about all pairs of states; a test compares a few.", "anchors": ["calkulate/read/titrations.py: read_dat", "calkulate/read/titrations.py: read_dat_genfromtxt", "calkulate/read/titrations.py: read_dat_pclims", "calkulate/read/titrations.py: read_tiamo_de", "calkulate/files.py: solve", "calkulate/files.py: calibrate", "calkulate/dataset.py: calibrate", "calkulate/dataset.py: solve", "calkulate/read/titrations.py: write_dat"]}
{"id": "C120", "title": "Small errors in the data have small effects on an EMF solve", "statement": "In the default solve mode, suppose the sample's true alkalinity and the electrode's true EMF0 fit every point used up to small misfits - for example because each mass of titrant and each potential in the file is off by no more than a given amount. Then the solved alkalinity and EMF0 are within an explicit bound of the true ones, proportional to the size of the misfits, given two used points at one temperature of which the second clearly holds more acid.", "quantifier": "All files, samples, titrants, numbers of points, sizes of error; optimisers that find the minimum.", "why_tests_cant": "Tests compare a few solves with certified values; they cannot bound the effect of every possible error on every possible titration.", "anchors": ["calkulate/core.py: solve_emf", "calkulate/core.py: _lsqfun_solve_emf", "calkulate/convert.py: emf_to_h", "calkulate/files.py: solve"]}
{"id": "C121", "title": "What an inexact molinity or an inexact calibration costs", "statement": "In pH mode the alkalinity reported for a file is a straight line in the titrant's molinity, with a slope between protons-less-sulfates and protons, times the mean titrant used per kg of sample. A calibration that stops at a residual (rather than at zero), against a certified value that its file does not meet exactly, finds a molinity that is off by exactly residual plus misfit over that slope. In a calibrated data set the batch molinity is off by no more than the worst of its references, and each sample's alkalinity by no more than its own error plus its slope times that.", "quantifier": "All files, samples, titrants (hydrochloric, sulfuric), residuals, data sets, batches, numbers of references; optimisers that report the residual at the point they return.", "why_tests_cant": "A test sees one optimiser stop at one residual for one data set; the bound is for every residual and every combination of errors.", "anchors": ["calkulate/core.py: calibrate_pH", "calkulate/core.py: solve_pH", "calkulate/files.py: calibrate", "calkulate/dataset.py: calibrate", "calkulate/dataset.py: get_group_calibration"]}
{"id": "C122", "title": "Which way an error in an input pushes the alkalinity", "statement": "In pH mode the alkalinity reported for a file is the mean, over the points in the window, of the sample's own alkalinity at the pH measured plus the titrant used per kg of sample times what a kg of it brings. Therefore, as long as the same points are used and no point is as acid as the titrant: readings that are too high, titrant amounts or a molinity that are too high, a sample mass that is too low, or contents of inorganic carbon, borate, silicate, ammonia or sulfide that are too high, can only raise the alkalinity reported, never lower it; contents of sulfate and fluoride act the other way (phosphate and the two extra ions, whose sign depends on pH, are held fixed). All of these may be wrong at once.", "quantifier": "All pairs of files, samples and settings ordered in this way, any number of points.", "why_tests_cant": "A test compares a handful of perturbed files; the sign of the effect is claimed for every file and every combination of errors.", "anchors": ["calkulate/core.py: solve_pH", "calkulate/simulate.py: alkalinity", "calkulate/files.py: solve", "calkulate/interface.py: get_totals"]}
{"id": "C123", "title": "Exact titrations written to a file and solved from there in EMF mode", "statement": "Titration data written to a new file by write_dat with its default formats and solved from that file in EMF mode are solved with each amount, potential and temperature rounded to three decimals, and nothing else changed; data of three decimals are solved exactly as they are. If the data are those of an exact titration (between pH 0 and 14), each point read back is off by at most half of the last decimal of the amount and 0.00005 in pH, so alkalinity and EMF0 found are within the bound stated in C120.", "quantifier": "All titrations of any length with non-negative amounts and temperatures, samples, titrants, file names, amount units; optimisers that find the least misfit.", "why_tests_cant": "A test writes one titration and compares to one tolerance; whether rounding in the file can matter depends on buffering, amounts and temperatures together.", "anchors": ["calkulate/read/titrations.py: write_dat", "calkulate/read/titrations.py: read_dat", "calkulate/files.py: solve", "calkulate/core.py: solve_emf"]}
{"id": "C124", "title": "A wrong molinity in EMF mode", "statement": "Solving an exact titration with hydrochloric or sulfuric acid at one temperature in EMF mode with a molinity off by a factor k gives an alkalinity off by that factor and an EMF0 lower by (R T / F) ln k, up to a bound that comes from what does not follow the molinity: the bases, water and weak acids of the sample, and the acid's own sulfate. A wrong molinity is therefore hardly visible as misfit; it looks like another electrode.", "quantifier": "All titrations of any length, contents, constants, masses, factors k > 0, optimisers that find the least misfit.", "why_tests_cant": "A test with one wrong molinity gives one pair of numbers; that alkalinity and EMF0 move together like this is a statement about the minimum for all data.", "anchors": ["calkulate/files.py: solve", "calkulate/core.py: solve_emf", "calkulate/convert.py: emf_to_pH"]}
{"id": "C125", "title": "How many points a result rests on", "statement": "In pH mode an alkalinity that is not NaN was found with at least one point of the titration, in Gran mode with at least two. EMF and pH-adjust mode give no such guarantee: in EMF mode without a point in the pH window the values reported are those the fit started from (alkalinity_init and emf0_init, or the Gran estimates), with NaN as spread; in pH-adjust mode likewise, when no recorded pH is in the window, with emf0 zero whatever emf0_init says; with one point every EMF0 (in pH-adjust mode every error of the electrode) has an alkalinity that fits it exactly, a different one for each. But no result is returned if a point in use has a NaN titrant mass, or if points are in use and the molinity or the analyte mass is NaN, nor without alkalinity_init for a file with fewer than two points. In every row of a solved, calibrated or calkulated data set that has an alkalinity but no emf0, alkalinity_npts is at least 1; where it is 0 there is no alkalinity_std. A calibration that returns a molinity started from one (titrant_molinity_init, by default 0.1) with which solving the file works, with a finite alkalinity from as many points as the mode needs, and its certified value is finite.", "quantifier": "All files, settings, data sets, modes and optimisers that, like scipy's least_squares with its default method, raise ValueError for non-finite residuals at the start and for NaN start values, and stay at the start when there are no residuals.", "why_tests_cant": "A test can show one titration with too few points failing; that no combination of window, file, mode and settings gives a number from fewer points is a statement about all of them.", "anchors": ["calkulate/core.py: solve_emf, solve_pH, solve_pH_gran, calibrate_emf, calibrate_pH, calibrate_pH_gran", "calkulate/files.py: solve, calibrate", "calkulate/dataset.py: solve, calibrate, calkulate"]}
{"id": "C126", "title": "Writing over a file and adding to it", "statement": "write_dat with mode w replaces whatever the file had, and read_dat then returns the titration written (rounded); with mode a the old contents are kept and followed by exactly what would be written to a new file. No other file changes. A second titration added with the default header lines to a file that write_dat wrote makes that file unreadable: read_dat raises ValueError, whatever the points of either.", "quantifier": "All file systems, earlier contents, points, headers without line breaks and numbers of decimals.", "why_tests_cant": "Tests write one or two small files; that no data make an appended file readable (and so silently mix two titrations) needs an argument about all of them.", "anchors": ["calkulate/read/titrations.py: write_dat, read_dat, read_dat_genfromtxt"]}
{"id": "C127", "title": "What rounding can do to a pH-mode alkalinity", "statement": "Run in floating-point arithmetic, where every + - * / has a relative error of at most u and powers one of at most e units, solve_pH uses exactly the points it uses in exact arithmetic, fails or succeeds alike, and its alkalinity differs from the exact one by at most ((1/(1-u))^(10e+34+N) - 1) times the mean size of the terms at the N points used (the size being the sum of the absolute contributions of the solutes, diluted, and of the acid added). In double precision with up to 1000 points that is less than 2.5e-13 of the size. The sums may be taken in any order, pairwise or not.", "quantifier": "All titrations, totals, constants, windows, numbers of points, all arithmetics with the stated accuracy; no overflow or underflow.", "why_tests_cant": "Tests compare with a tolerance for a few titrations; a bound for all needs an error analysis.", "anchors": ["calkulate/core.py: solve_pH", "calkulate/simulate.py: alkalinity, alkalinity_components"]}
{"id": "C128", "title": "Rounding lets a calibration drift the totals", "statement": "A pH-mode calibration whose titrant has totals of its own adds them to the sample totals and takes them off again in every trial. In floating-point arithmetic that does not restore the totals exactly (there are doubles for which one trial changes the last bit), but after any number T of trials with molinities up to C a total x at a point with titrant mass m, sample mass M and factor f is off by at most ((1/(1-u))^(2T) - 1)(|x| + (1/(1-u))^5 m C |f|/(m+M)); in double precision with up to 1000 trials, by less than 4.5e-13 of these sizes. Totals that the titrant does not name are not touched.", "quantifier": "All titrations, titrant totals, optimiser strategies with bounded trials, and all arithmetics with the stated accuracy and symmetric rounding.", "why_tests_cant": "Whether the errors of hundreds of trials can build up is a question about all sequences of trials.", "anchors": ["calkulate/core.py: calibrate_pH, _lsqfun_calibrate_pH, add_titrant_totals"]}
{"id": "C129", "title": "Which settings reach the file reader", "statement": "files.solve and files.calibrate pass exactly the reading options of the call (file_type, delimiter, skip_header, col_titrant_amount, col_measurement, col_temperature, n_cols, encoding) to read_dat, for the file in the directory file_path if that is given, and use nothing of the reader but what it returns for those; if it raises, so do they, with the same exception. A data set reads each row's file with the options in the row's own cells and, where these are blank or missing, those of the call; a row whose file cannot be read with them has blank results.", "quantifier": "All readers, files, settings, data sets and rows.", "why_tests_cant": "Tests use default options or one of them; that each of the options arrives, and no other setting, is about all combinations.", "anchors": ["calkulate/files.py: solve, calibrate", "calkulate/dataset.py: solve_row, calibrate_row", "calkulate/read/titrations.py: keys_read_dat, read_dat", "calkulate/meta.py: _get_kwargs_for"]}
{"id": "C130", "title": "An EMF-mode calibration finds the acid", "statement": "For an exact titration with hydrochloric or sulfuric acid at one temperature (charge balance at every point used, for alkalinity A, molinity c and EMF0 E), an EMF-mode calibration against the true alkalinity that ends with zero residual gives the true molinity c, and solving with it gives the alkalinity A and the EMF0 E - provided that what is left at the points used of bases other than hydrogen ion, sulfate and fluoride, and of sulfate and fluoride already taken up (with sulfuric acid also of its sulfate that has taken up none), is small next to the alkalinity (an explicit inequality), and the optimiser of each solve finds the minimum.", "quantifier": "All samples, constants, titrations, molinities, temperatures, outer optimisers that report an evaluated point and inner ones that find the minimum.", "why_tests_cant": "Calibration has a nested optimisation where molinity and EMF0 can trade off against each other; a test shows one root, not that it is the only one.", "anchors": ["calkulate/files.py: calibrate", "calkulate/core.py: calibrate_emf, solve_emf, _lsqfun_calibrate_emf, _lsqfun_solve_emf"]}
{"id": "C131", "title": "Documented columns take effect, extra columns do not", "statement": "A non-blank cell of a documented column is the value of that setting with which the file of the row is solved or calibrated, whatever the call says, and nothing but these settings is passed on. Two data sets that have the same of these columns with the same cells in them, but any other columns, finish or fail alike in solve, calibrate and calkulate, and get the same results (alkalinity, EMF0, offsets, calibrated molinities and the rest).", "quantifier": "All pairs of data sets of any size, all keyword arguments and file contents; the list of columns that count is spelled out.", "why_tests_cant": "docs/metadata.md promises that extra columns are ignored; tests have a handful of fixed tables and cannot rule out that some other column name is picked up, or that a documented one is not.", "anchors": ["calkulate/dataset.py: calibrate, solve, calkulate, calibrate_row, solve_row, get_group_calibration", "calkulate/meta.py: _get_kwarg_keys, _get_kwargs_for", "calkulate/files.py: keys_solve, keys_calibrate"]}
{"id": "C132", "title": "In the default mode a calibrated data set has the true values", "statement": "In a data set of EMF titrations, if every reference used is an exact titration (charge balance at every point) with the hydrochloric or sulfuric acid of its batch and a true certified value, and was calibrated to zero residual at points where little is left of other bases (the explicit inequality of C130), then after calibrate or calkulate every row of a batch with such a reference has the true titrant molinity, and every row that is an exact titration with that acid its true alkalinity, its own EMF0, and offset zero where certified.", "quantifier": "All data sets of any number of rows and batches, samples, constants, acids, EMF0s (one per row) and titrations; optimisers that report an evaluated point (outer) and find the minimum (inner).", "why_tests_cant": "It is the whole purpose of the package in its default mode, through nested fits, batch means and the second solve; tests compare a few recorded titrations with recorded results.", "anchors": ["calkulate/dataset.py: calibrate, calkulate, solve, get_group_calibration", "calkulate/files.py: calibrate, solve", "calkulate/core.py: calibrate_emf, solve_emf"]}
{"id": "C133", "title": "What rounding does to EMF-mode solves", "statement": "Computed in double precision (53 significant bits, exponentials, logarithms and powers to within four units of rounding), the residuals that solve_emf reports are the misfits at the alkalinity and EMF0 that it reports, to within 4.5e-13 of the size of the terms, for temperatures of 0 degrees and above and pH within 14 of zero. If the true alkalinity and EMF0 fit every point used up to a misfit eta, the N points used have terms of size at most s, and the optimiser gets within tau of the smallest root of the sum of squares, then alkalinity and EMF0 are off by no more than the bound of C120 for a misfit of (1 + sqrt N)(eta + 4.5e-13 s) + tau: rounding and an unfinished fit act like measurement errors of that size and are not amplified further. The Gran estimate may be anything. Without rounding the computation is the exact one.", "quantifier": "All titrations, chemistries with valid totals and constants, settings, Gran estimates, single and double solving, optimisers with the stated accuracy and all arithmetics with the stated accuracy.", "why_tests_cant": "The default mode goes through exp, log10, 10** and a fit; that rounding errors in all of them cannot be blown up by the fit is a statement about all data.", "anchors": ["calkulate/core.py: solve_emf, _lsqfun_solve_emf", "calkulate/convert.py: emf_to_h, emf_to_pH, get_dilution_factor", "calkulate/simulate.py: alkalinity"]}
{"id": "C134", "title": "Every call accepts its arguments, and every option is reachable", "statement": "Whatever keyword arguments files.solve and files.calibrate are given, in every solve mode, Python accepts each call they make: no keyword is unknown to the function that gets it, none is given twice and nothing required is missing; likewise for the calls a data set makes for a row. The settings of files.solve are exactly the optional parameters of the functions behind it (readers, unit conversion, contents, constants, solvers), besides dilute_totals_for_ks, the contents of the titrant, solve_mode and file_path; files.calibrate has the same but for titrant_molinity_init, which it has, and gran_logic, which it has not. What a calibration collects besides its own parameters are the contents of the titrant.", "quantifier": "every set of keyword arguments, row and solve mode", "why_tests_cant": "the keyword sets are computed from the signatures when the package is imported; a test passes the few keywords it names", "anchors": ["calkulate/meta.py: _get_kwarg_keys, _get_kwargs_for", "calkulate/files.py: solve, calibrate, keys_solve, keys_calibrate", "calkulate/core.py: totals_ks, add_titrant_totals, solve_emf, solve_pH, solve_pH_gran, calibrate_emf, calibrate_pH, calibrate_pH_gran, keys_totals_ks"]}
{"id": "C135", "title": "Rounding and the pH window", "statement": "In double precision a pH read from an electrode (magnitude at most 14, temperatures not below 0 degrees C) is right to 2.5e-14, and a pH turned into an EMF and back at EMF0 = 0 returns to 5e-14. So one pass of an EMF solve uses exactly the points whose pH at the EMF0 in use lies in the window from pH_min to pH_max, except that points closer than 2.5e-14 to an edge may go either way; in pH_adjust mode the same holds of the measured pH with 5e-14; the second pass of a two-pass solve goes by the EMF0 that the first pass found. A point exactly on an edge need not be used: there is an arithmetic as accurate as double precision that drops it.", "quantifier": "every titration, window, EMF0 and accurate floating-point arithmetic", "why_tests_cant": "a test compares used points on some data sets on one platform; boundary points depend on the last bit of exp and log", "anchors": ["calkulate/convert.py: emf_to_h, emf_to_pH, h_to_emf, pH_to_emf", "calkulate/core.py: solve_emf", "calkulate/files.py: solve"]}
{"id": "C136", "title": "What inexact data and calibrations cost in the default mode", "statement": "In EMF mode with hydrochloric or sulfuric acid at one temperature, let the true alkalinity A, molinity c and EMF0 fit the points used of M kg of sample up to a misfit eta, and let the optimiser get within tau of the smallest root of the sum of squares. Solving with k times the true molinity then gives k times the true alkalinity, up to W ((1 + sqrt N) (k eta + |k - 1| B) + tau) / M, where W is the gain of two of the N points used that tell alkalinity and EMF0 apart and B is what is left of other bases at the points. A calibration against a certified value that is off by e, which stops at a residual of d, finds the molinity to within c ((d + e) 1e-6 M + W ((1 + sqrt N) eta + tau)) / (|A| M - W (1 + sqrt N) (B + eta)). So a data set whose references have calibrations within kappa gives every row of the batch a molinity within kappa of the truth, and the alkalinity of every such titration up to the corresponding explicit bound; the offset column is that alkalinity less the certified value.", "quantifier": "all files, samples, numbers of points, misfits, tolerances, data sets of any size, optimisers within a tolerance of the minimum", "why_tests_cant": "tests use titrations whose true values are unknown, or simulated data without noise and one optimiser tolerance; no set of examples bounds the error for all misfits", "anchors": ["calkulate/core.py: solve_emf, calibrate_emf", "calkulate/files.py: solve, calibrate", "calkulate/dataset.py: calibrate, calibrate_row, get_batches, solve, solve_row"]}
{"id": "C137", "title": "Which texts in a file are numbers", "statement": "A field of a titration file is a number exactly if it is an optional sign and decimal digits (with or without a decimal point, with or without an exponent) or one of the words nan, inf and infinity in any case, with any white space around it; its value is what its digits say, and a text has at most one value. In a text file (genfromtxt) every such field has its value and any other field is NaN. A PC LIMS file is a ValueError if any field of its data lines is not a number, even in a column that is not asked for; a Tiamo file if its start volume is not, for example with a decimal comma.", "quantifier": "every text, column choice and number of lines", "why_tests_cant": "there are infinitely many texts; tests read a handful of well-formed files", "anchors": ["calkulate/read/titrations.py: read_dat_genfromtxt, read_dat_pclims, _read_tiamo_de_df, read_tiamo_de"]}
{"id": "C138", "title": "The order of the points in the other modes", "statement": "Reordering the points of a titration (masses, measurements, temperatures, totals and constants alike) changes neither the alkalinity in Gran mode, nor the Gran estimates of the legacy logic, nor, when both start values are given or the logic is legacy, the alkalinity, the electrode constant and the standard deviation in EMF mode; nor does it change a calibration on pH data, in Gran mode, or in EMF mode with start values given. What belongs to the points goes with them. The default Gran logic takes all points from the first that exceeds a tenth of the largest, so its estimates depend on the order unless in both orders such points are followed by such points only; three points are shown that give 3/4 in one order and 5/27 in another.", "quantifier": "every order of any number of points; any data, also with NaN", "why_tests_cant": "tests have one order, that of the titration; the number of orders grows with the factorial of the points", "anchors": ["calkulate/core.py: gran_alkalinity, gran_emf0s, gran_guesses, solve_emf, solve_pH_gran, calibrate_emf, calibrate_pH, calibrate_pH_gran"]}
{"id": "C139", "title": "The order of the lines of a titration file", "statement": "Two titration files with the same lines in different orders are solved to the same alkalinity: in pH mode with the same standard deviation, in Gran mode with the same fitted line, in EMF and pH_adjust modes (start values given or legacy logic, both files solvable) with the same electrode constant and standard deviation. They are calibrated to the same titrant molinity. pH values and temperatures reported go with the lines. This holds when the analyte mass is given, or one temperature overrides those of the file, or both orders begin with the same temperature. Otherwise the order matters: an analyte volume is converted to mass with the temperature of the first line, and a file of two lines at 0 and 10 degrees is shown that gives another alkalinity with its lines exchanged.", "quantifier": "every file with any number of lines, every order, all keyword arguments (units, densities, dilution of totals, pH scales, titrant contents)", "why_tests_cant": "tests have one file in one order; the unit conversion, the totals, the constants and the titrant contents all have to go with the lines, and the exception needs two temperatures and an analyte volume", "anchors": ["calkulate/files.py: solve, calibrate", "calkulate/convert.py: amount_units", "calkulate/core.py: totals_ks, add_titrant_totals, dilute_totals, dilute_totals_pyco2", "calkulate/interface.py: get_totals, get_k_constants"]}
{"id": "C140", "title": "pH_adjust mode finds acid, alkalinity and the error of the electrode; data sets of several modes", "statement": "For a file of pH values read by an electrode that is off by some EMF0 E (one temperature, hydrochloric or sulfuric acid), solved in pH_adjust mode: (1) with k times the molinity of the acid, the alkalinity is k times the true one up to an explicit gain times the misfits, what does not follow the molinity, and how far the optimiser is from the minimum; (2) if the titration is exact, a calibration against the true alkalinity that ends with zero residual gives the true molinity, and the solve with it the true alkalinity and E, provided little is left of other bases; (3) if the titration is fitted only up to some misfit, the error of the molinity is bounded by the residual, the error of the certified value, and the gain times misfits and optimiser tolerance. A data set may have rows in all four modes (EMF, pH_adjust, pH, Gran): when every reference used is an exact titration in its own mode with a true certified value and calibrated to zero residual, every row of its batch gets the true molinity, and every row that is an exact titration in its own mode gets its true alkalinity, its true EMF0 if its mode finds one, and offset zero if its certified value is true.", "quantifier": "every file, number of points, sample, electrode error, molinity, mixture of modes over the rows and batches of a data set", "why_tests_cant": "tests calibrate in one mode with fixed files; the statement is about all titrations, and about rows of different modes sharing the acid of a batch", "anchors": ["calkulate/core.py: solve_emf, calibrate_emf", "calkulate/convert.py: pH_to_emf", "calkulate/files.py: solve, calibrate", "calkulate/dataset.py: calibrate, solve"]}
{"id": "C141", "title": "The table of the batches", "statement": "The table of the analysis batches (get_batches) has one row per batch label of the data set and no other. It gives the number of references of the batch (rows flagged reference_good with a molinity of their own), and the mean and the sample standard deviation of their molinities: no mean without references, no standard deviation with fewer than two. The counts add up to the number of references in the data set. With n >= 2 references, none is further from the mean than (n - 1) / sqrt n standard deviations, and the standard deviation is zero exactly if all agree. Nothing else enters: not the order of the rows, rows of other batches, bad references or other columns. A missing column is a KeyError. After calibrate the table can be made, its mean is the titrant_molinity of every row of the batch, and if the references are exact titrations with true certified values it is the molinity of the acid, with standard deviation zero.", "quantifier": "every data set with any number of rows, batches and references; every order in which pandas lists the groups", "why_tests_cant": "tests look at one data set with a few batches; the statement is about all sizes, labels and patterns of missing and bad references", "anchors": ["calkulate/dataset.py: get_batches, get_group_calibration, calibrate"]}
{"id": "C142", "title": "Inexact titrations in Gran and pH_adjust mode; inexact data sets of several modes", "statement": "In Gran mode, when the points in the pH window satisfy the strong-acid balance of a sample of alkalinity A only up to some number of moles, the alkalinity solved is off by at most that number times one plus the root of the number of points, times the gain with which two of the points extrapolate to the equivalence point, relative to the slope the line surely has. A data set may have rows in all four modes (EMF, pH_adjust, pH, Gran), none of whose titrations need be exact, with certified values that are not quite true, calibrations that stop at a residual and an optimiser that stops short of the minimum: if the error of the calibration of every reference used, by the formula of its own mode, is at most kappa, every row of its batch gets a molinity within kappa of the truth, an alkalinity within the error of its own mode for such a molinity, and as offset the difference to its certified value.", "quantifier": "every file, number of points, size of misfits, mixture of modes over the rows and batches of a data set", "why_tests_cant": "tests compare with stored results of given files; how far errors of one row reach into others, through the acid they share, is a statement about all data sets", "anchors": ["calkulate/core.py: gran_alkalinity, solve_pH_gran, solve_emf", "calkulate/files.py: solve, calibrate", "calkulate/dataset.py: calibrate, solve"]}
{"id": "C143", "title": "Row labels: names and titrations are looked up by label", "statement": "get_VINDTA_filenames writes under row labels: with distinct labels, whatever they are and in whatever order, every row gets exactly what it gets row by row (C59, C60), errors included; with repeated labels the import succeeds or fails just the same, but every row holds the name of the last bottle or CRM under its label, the certified value of the last CRM there, and is marked bad if any run there is neither, so rows with a common label share one file name. add_func_cols works row by row with distinct labels and turns n rows of one label into n*n. read_dbs labels its rows 0, 1, ... and is not affected. to_Titration takes the row whose label is the given index, wherever it is, and raises KeyError for a label that is not there.", "quantifier": "for all tables, label types, labels and formats", "why_tests_cant": "tests only use tables that have just been read, with labels 0, 1, ...; tables put together by the user have others", "anchors": ["calkulate/read/metadata.py: get_VINDTA_filenames, add_func_cols, read_dbs", "calkulate/classes.py: to_Titration"]}
{"id": "C144", "title": "What a wrong or missing content of the sample costs", "statement": "Solve the same file again with other contents of the sample (DIC, borate, phosphate, ..., sulfate) but the same constants, acid and window. In pH mode the alkalinity changes by exactly the sum, over the contents, of the change in umol/kg times the number of protons that a mole of it takes up at the pH measured, averaged over the points used. Each of these averages lies between the values at the two ends of the window. DIC can be changed in any titration without the call failing: a DIC that is too low by d makes the alkalinity too low by d times a share above 0 and below 2. In EMF mode the result is off by no more than the bound for misfits (C120), with what the wrong contents add at the points used.", "quantifier": "for all files, settings with contents and constants given, windows, contents and points", "why_tests_cant": "tests solve a few files with one set of contents; the effect of a wrong DIC or of a content left out depends on every point", "anchors": ["calkulate/core.py: solve_emf, solve_pH, totals_ks, _lsqfun_solve_emf", "calkulate/interface.py: get_totals", "calkulate/simulate.py: alkalinity", "calkulate/files.py: solve"]}
{"id": "C145", "title": "Which way wrong dissociation constants push the alkalinity", "statement": "Solve the same file in pH mode with other dissociation constants, all else equal. If every constant is the same or higher (carbonic, boric, phosphoric, silicic, ammonium, sulfide, HF, bisulfate, water, and the two additional acids as long as each stays on its side of pK 4.5), the alkalinity is the same or higher. If the constant of an additional acid passes pK 4.5 from the weak to the strong side, everything else equal, the acid counts as a donor instead of an acceptor of protons: the alkalinity falls by at most the whole content of that acid and at least the ratio of the old constant to the new one times it, so that a tiny change of the constant costs almost all of the content.", "quantifier": "for all files, settings with contents and constants given, windows, constants and points", "why_tests_cant": "tests solve with one set of constants; the direction in which each of the constants pushes, and the jump at pK 4.5, hold for every point and window", "anchors": ["calkulate/core.py: solve_pH", "calkulate/simulate.py: alkalinity", "calkulate/interface.py: get_k_constants", "calkulate/files.py: solve"]}
{"id": "C146", "title": "What Gran mode leaves out, and how far it and pH mode differ", "statement": "Take a titration file whose points in the window follow the charge balance of the acid mixed with a buffered sample of alkalinity A (carbonate, borate, phosphate, silicate, ammonia, sulfide, two more acids, fluoride, sulfate, and sulfate from the acid). At each of them the Gran function misses the straight line that solve_mode='pH_gran' fits by no more than the moles of protons that the contents, the hydroxide and the bisulfate can hold or give at the two ends of the pH window, which is a number known from the sample before any titration. So the alkalinity that solve_mode='pH_gran' returns is off by at most the corresponding error of the fitted line; and as solve_mode='pH', told the contents and constants, returns A itself for the same file, this bounds the difference between the two modes. A calibration in solve_mode='pH_gran' against the true alkalinity finds a molinity that is off by no more than that, relatively, plus the misfit that the optimiser reports.", "quantifier": "All files, samples with non-negative contents and positive constants, acids (with or without sulfate), windows and numbers of points; two points of the window far enough apart for the slope to be certain.", "why_tests_cant": "Tests compare the two modes on a few measured files within a hand-picked tolerance; they do not say how large the difference may become for another sample or window.", "anchors": ["calkulate/core.py: solve_pH_gran, solve_pH, gran_guesses", "calkulate/simulate.py: alkalinity", "calkulate/files.py: solve"]}
{"id": "C147", "title": "Which way Gran mode is off", "statement": "Take a titration whose points in the pH window lie beyond the equivalence point and follow the charge balance of the acid mixed with a sample that holds weak bases (borate, carbonate, silicate, ...), where the acidity grows at least in proportion to the mass of the mixture, and where the contents at the acid end of the window can take up at least as many protons as they and the acid's sulfate hold. Then solve_mode='pH_gran', which leaves the contents out, returns less than the true alkalinity; and a calibration in that mode against the true alkalinity finds a molinity above the true one.", "quantifier": "All files, samples, constants, acids, windows, and any number of points with at least two different titrant masses in the window.", "why_tests_cant": "Tests compare a few measured titrations, for which no true value is known; the sign of a systematic error for all samples of a kind cannot be read from them.", "anchors": ["calkulate/core.py: solve_pH_gran, calibrate_pH_gran", "calkulate/simulate.py: alkalinity", "calkulate/files.py: solve, calibrate"]}
{"id": "C148", "title": "A constant error of the pH electrode", "statement": "Take two titration files with the same titrant and sample masses, where the pH of the second is off by the same amount d at every point, with the same points in the pH window of each (the second window may be moved along). With solve_mode='pH_gran' both give exactly the same alkalinity, and calibrations against the same certified value that reach a zero residual give the same molinity. With solve_mode='pH' an error d > 0 makes the alkalinity strictly higher, by at least 1e6 (1 - 10^-d) 10^-pH_max. With solve_mode='pH_adjust', at one constant temperature and with the same points used, the two best fits are equally good, and the one found for the shifted file, its electrode error moved by the potential that d stands for, is a best fit of the other file. For exact data from an electrode with an error of E mV the shifted file still gets the true alkalinity, and as emf0 E less that potential.", "quantifier": "All files, settings, windows, errors d, and any number of points; for pH_gran at least two different titrant masses in the window and a best line that is not flat; for pH any sample with non-negative contents and an acid that brings no more sulfate than protons; for pH_adjust any sample and an optimiser that finds the least sum of squares.", "why_tests_cant": "Tests do not shift the electrode; which of the modes is immune to a shift, and how much it costs at least in the other, holds for all titrations and not for a few files.", "anchors": ["calkulate/core.py: solve_pH_gran, calibrate_pH_gran, solve_pH, solve_emf", "calkulate/files.py: solve, calibrate"]}
{"id": "C149", "title": "A burette that is off by a constant factor", "statement": "Let a burette deliver k times the amounts it records, in the titration of a reference and of a sample with the same acid (hydrochloric or, with sulfate, sulfuric) of molinity c. With solve_mode='pH' and exact pH values, solving a file with titrant_molinity k c gives the true alkalinity, up to 1e6 |k - 1| times the largest mass of titrant recorded per mass of sample, times the larger of 10^-pH_min and Kw 10^pH_max (the dilution that is misjudged). Calibrating the reference finds k c up to that and the residual, over the slope of alkalinity against molinity; and the sample, solved with the molinity so found, gets its true alkalinity up to its own misjudged dilution plus those of the reference times the ratio of the slopes. So the factor itself cancels, and calibrating a data set, with an acid and a burette for each batch, gives every row of a batch that has a reference its true alkalinity within such bounds. The same holds where the recorded masses of sample are off by a constant factor j, with k / j for k. In solve_mode='pH_gran', for a strong acid and a sample without weak bases, solving with k c is off by no more than the fitted line is through the protons in the misjudged mass.", "quantifier": "All factors k >= 0, acids, reference and sample compositions, constants, windows, masses and numbers of points.", "why_tests_cant": "Tests have no second burette; that a systematic error cancels through calibration, and what is left of it, is a statement about every titration.", "anchors": ["calkulate/core.py: solve_pH, calibrate_pH, solve_pH_gran", "calkulate/files.py: solve, calibrate", "calkulate/simulate.py: alkalinity", "calkulate/convert.py: dilute_totals"]}
