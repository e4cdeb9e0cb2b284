import Verif.Model.Files

/-! # Signatures and how a call binds its arguments (`calkulate/meta.py: _get_kwarg_keys`)

The rest of the model takes keyword arguments as dicts and looks up the ones it needs.  Here the
signatures are written out, so that one can say which calls Python accepts. -/

namespace Calk

/-- The signature of a function: its parameters in order, with whether they have a default, and
whether it collects further keyword arguments (`**kwargs`).  No function called here has
positional-only or keyword-only parameters or `*args`. -/
structure Sig where
  params : List (String × Bool)
  varKw : Bool

/-- A call: the function's signature, how many arguments are given by position, and the keywords. -/
structure Call where
  sig : Sig
  pos : ℕ
  keywords : List String

/-- meta.py:33-35 `_get_kwarg_keys`: the parameters with a default.  (A `**kwargs` parameter has none, so
that it is not among them.) -/
def get_kwarg_keys (s : Sig) : List String := (s.params.filter fun p => p.2).map fun p => p.1

/-- Python's rules for binding arguments: `TypeError` if there are too many arguments by position, if a
parameter gets two values, if a keyword is unknown and not collected, and if a parameter without a
default gets none. -/
def Call.bind (c : Call) : Py Unit :=
  let names := c.sig.params.map fun p => p.1
  if c.sig.params.length < c.pos then .error .TypeError
  else if ¬ c.keywords.Nodup then .error .TypeError
  else if c.keywords.any fun k => (names.take c.pos).contains k then .error .TypeError
  else if !c.sig.varKw && c.keywords.any fun k => !names.contains k then .error .TypeError
  else if (c.sig.params.drop c.pos).any fun p => !p.2 && !c.keywords.contains p.1 then
    .error .TypeError
  else .ok ()

/-- a parameter without and with a default -/
def pReq (n : String) : String × Bool := (n, false)
@[inherit_doc pReq] def pOpt (n : String) : String × Bool := (n, true)

/-- read/titrations.py:171 `read_dat` -/
def sig_read_dat : Sig := ⟨[pReq "file_name", pOpt "file_type"], true⟩
/-- read/titrations.py:18-26 `read_dat_genfromtxt` -/
def sig_read_dat_genfromtxt : Sig :=
  ⟨[ pReq "file_name", pOpt "col_titrant_amount", pOpt "col_measurement", pOpt "col_temperature",
    pOpt "delimiter", pOpt "skip_header" ], true⟩
/-- read/titrations.py:37-43 `read_dat_pclims` -/
def sig_read_dat_pclims : Sig :=
  ⟨[ pReq "file_name", pOpt "col_titrant_amount", pOpt "col_measurement", pOpt "col_temperature",
    pOpt "n_cols" ], false⟩
/-- read/titrations.py:71 `read_dat_orgalk_excel` -/
def sig_read_dat_orgalk_excel : Sig := ⟨[pReq "file_name"], false⟩
/-- read/titrations.py:127 `read_tiamo_de` -/
def sig_read_tiamo_de : Sig := ⟨[pReq "file_name", pOpt "encoding"], false⟩
/-- convert.py:147-159 `amount_units` -/
def sig_amount_units : Sig :=
  ⟨[ pReq "dat_data", pReq "salinity", pOpt "analyte_mass", pOpt "analyte_volume", pOpt "molinity_H2SO4",
    pOpt "molinity_HCl", pOpt "molinity_NaCl", pOpt "temperature_override", pOpt "titrant_amount_unit",
    pOpt "titrant_density", pOpt "titrant" ], false⟩
/-- core.py:355 `totals_ks` -/
def sig_totals_ks : Sig := ⟨[pReq "converted"], true⟩
/-- interface.py:45-59 `get_totals` -/
def sig_get_totals : Sig :=
  ⟨[ pReq "salinity", pOpt "dic", pOpt "total_alpha", pOpt "total_beta", pOpt "total_ammonia",
    pOpt "total_phosphate", pOpt "total_silicate", pOpt "total_sulfide", pOpt "total_borate",
    pOpt "total_fluoride", pOpt "total_sulfate", pOpt "opt_k_carbonic", pOpt "opt_total_borate" ], false⟩
/-- interface.py:107-129 `get_k_constants` -/
def sig_get_k_constants : Sig :=
  ⟨[ pReq "totals_pyco2", pReq "temperature", pOpt "k_alpha", pOpt "k_ammonia", pOpt "k_beta",
    pOpt "k_bisulfate", pOpt "k_borate", pOpt "k_carbonic_1", pOpt "k_carbonic_2", pOpt "k_fluoride",
    pOpt "k_phosphoric_1", pOpt "k_phosphoric_2", pOpt "k_phosphoric_3", pOpt "k_silicate",
    pOpt "k_sulfide", pOpt "k_water", pOpt "opt_k_bisulfate", pOpt "opt_k_carbonic",
    pOpt "opt_k_fluoride", pOpt "opt_pH_scale", pOpt "opt_total_borate" ], false⟩
/-- core.py:469-476 `add_titrant_totals` -/
def sig_add_titrant_totals : Sig :=
  ⟨[ pReq "totals", pReq "titrant_mass", pReq "analyte_mass", pReq "titrant_molinity",
    pOpt "titrant_molinity_prev" ], true⟩
/-- core.py:544-559 `solve_emf` -/
def sig_solve_emf : Sig :=
  ⟨[ pReq "titrant_molinity", pReq "titrant_mass", pReq "emf", pReq "temperature", pReq "analyte_mass",
    pReq "totals", pReq "k_constants", pOpt "alkalinity_init", pOpt "double", pOpt "emf0_init",
    pOpt "gran_logic", pOpt "pH_min", pOpt "pH_max", pOpt "titrant_normality" ], false⟩
/-- core.py:716-727 `solve_pH` -/
def sig_solve_pH : Sig :=
  ⟨[ pReq "titrant_molinity", pReq "titrant_mass", pReq "pH", pReq "temperature", pReq "analyte_mass",
    pReq "totals", pReq "k_constants", pOpt "pH_min", pOpt "pH_max", pOpt "titrant_normality" ], false⟩
/-- core.py:796-807 `solve_pH_gran` -/
def sig_solve_pH_gran : Sig :=
  ⟨[ pReq "titrant_molinity", pReq "titrant_mass", pReq "pH", pReq "temperature", pReq "analyte_mass",
    pReq "totals", pReq "k_constants", pOpt "pH_min", pOpt "pH_max", pOpt "titrant_normality" ], false⟩
/-- core.py:921-937 `calibrate_emf` -/
def sig_calibrate_emf : Sig :=
  ⟨[ pReq "alkalinity_certified", pReq "titrant_mass", pReq "emf", pReq "temperature",
    pReq "analyte_mass", pReq "totals", pReq "k_constants", pOpt "alkalinity_init", pOpt "emf0_init",
    pOpt "double", pOpt "pH_min", pOpt "pH_max", pOpt "titrant_molinity_init",
    pOpt "titrant_normality" ], true⟩
/-- core.py:1058-1071 `calibrate_pH` -/
def sig_calibrate_pH : Sig :=
  ⟨[ pReq "alkalinity_certified", pReq "titrant_mass", pReq "pH", pReq "temperature",
    pReq "analyte_mass", pReq "totals", pReq "k_constants", pOpt "pH_min", pOpt "pH_max",
    pOpt "titrant_molinity_init", pOpt "titrant_normality" ], true⟩
/-- core.py:1178-1191 `calibrate_pH_gran` -/
def sig_calibrate_pH_gran : Sig :=
  ⟨[ pReq "alkalinity_certified", pReq "titrant_mass", pReq "pH", pReq "temperature",
    pReq "analyte_mass", pReq "totals", pReq "k_constants", pOpt "pH_min", pOpt "pH_max",
    pOpt "titrant_molinity_init", pOpt "titrant_normality" ], true⟩
/-- core.py:866-882 `_lsqfun_calibrate_emf` -/
def sig_lsqfun_calibrate_emf : Sig :=
  ⟨[ pReq "titrant_molinity", pReq "alkalinity_certified", pReq "titrant_mass", pReq "measurement",
    pReq "temperature", pReq "analyte_mass", pReq "totals", pReq "k_constants", pReq "alkalinity_init",
    pReq "double", pReq "emf0_init", pReq "pH_min", pReq "pH_max", pReq "titrant_normality" ], true⟩
/-- core.py:1009-1022 `_lsqfun_calibrate_pH` and core.py:1129-1142 `_lsqfun_calibrate_pH_gran` -/
def sig_lsqfun_calibrate_pH : Sig :=
  ⟨[ pReq "titrant_molinity", pReq "alkalinity_certified", pReq "titrant_mass", pReq "pH",
    pReq "temperature", pReq "analyte_mass", pReq "totals", pReq "k_constants", pReq "pH_min",
    pReq "pH_max", pReq "titrant_normality" ], true⟩
/-- files.py:179-185 `solve` -/
def sig_files_solve : Sig :=
  ⟨[pReq "file_name", pReq "titrant_molinity", pReq "salinity", pOpt "solve_mode"], true⟩
/-- files.py:60-66 `calibrate` -/
def sig_files_calibrate : Sig :=
  ⟨[pReq "file_name", pReq "alkalinity_certified", pReq "salinity", pOpt "solve_mode"], true⟩

/-- the keywords `_get_kwargs_for` takes from the arguments (meta.py:38-47) -/
def keysFor (keys : List String) (kw : Dict Val) : List String := (get_kwargs_for keys kw none).keys

/-- the keywords that `totals_ks` passes on (core.py:406-424 and 437-462) -/
def keysOf (keys : List String) (kw : Dict Val) : List String :=
  (Dict.keys (get_kwargs_for keys_totals_ks kw none)).filter fun k => keys.contains k

/-- files.py:103-114 and 209-220: the calls that read the file and find contents and constants, and those
in `totals_ks` (core.py:425, 463-465) -/
def loadCalls (kw : Dict Val) : List Call :=
  [ ⟨sig_read_dat, 1, keysFor keys_read_dat kw⟩, ⟨sig_amount_units, 2, keysFor keys_cau kw⟩,
    ⟨sig_totals_ks, 1, keysFor keys_totals_ks kw⟩,
    ⟨sig_get_totals, 1, keysOf keys_get_totals kw⟩,
    ⟨sig_get_k_constants, 2, keysOf keys_get_k_constants kw⟩ ]

/-- files.py:120-172 and 235-286: `d[k] = v` for the `emf0_init` of the mode `pH_adjust` -/
def withKey (keys : List String) (k : String) : List String :=
  if keys.contains k then keys else keys ++ [k]

/-- files.py:222-286: the calls that `files.solve` makes in a solve mode (lower case) -/
def solveCalls (mode : String) (kw : Dict Val) : List Call :=
  loadCalls kw ++
  [⟨sig_add_titrant_totals, 4, "titrant_molinity_prev" :: keysFor keys_titrant_totals kw⟩] ++
  (if mode = "emf" then [⟨sig_solve_emf, 7, keysFor keys_solve_emf kw⟩]
   else if mode = "ph_adjust" then
    [⟨sig_solve_emf, 7, withKey (keysFor keys_solve_emf kw) "emf0_init"⟩]
   else if mode = "ph" then [⟨sig_solve_pH, 7, keysFor keys_solve_pH kw⟩]
   else if mode = "ph_gran" then [⟨sig_solve_pH_gran, 7, keysFor keys_solve_pH_gran kw⟩]
   else [])

/-- the keywords that a calibration function collects in `**titrant_totals` -/
def collected (s : Sig) (keys : List String) : List String :=
  keys.filter fun k => !(s.params.map fun p => p.1).contains k

/-- core.py:981-1006, 884-919 and the like: the calls that a calibration makes.  The misfit gets the
trial value and `args` by position and `kwargs=titrant_totals`; it adds the titrant's totals and
takes them away again. -/
def fitCalls (s f : Sig) (npos : ℕ) (keys : List String) : List Call :=
  [ ⟨s, 7, keys⟩, ⟨f, npos, collected s keys⟩,
    ⟨sig_add_titrant_totals, 4, "titrant_molinity_prev" :: collected s keys⟩ ]

/-- files.py:117-172: the calls that `files.calibrate` makes in a solve mode (lower case) -/
def calibrateCalls (mode : String) (kw : Dict Val) : List Call :=
  loadCalls kw ++
  (if mode = "emf" then
    fitCalls sig_calibrate_emf sig_lsqfun_calibrate_emf 14 (keysFor keys_calibrate_emf kw) ++
      [⟨sig_solve_emf, 7, ["alkalinity_init", "double", "emf0_init", "pH_min", "pH_max",
        "titrant_normality"]⟩]
   else if mode = "ph_adjust" then
    fitCalls sig_calibrate_emf sig_lsqfun_calibrate_emf 14
      (withKey (keysFor keys_calibrate_emf kw) "emf0_init") ++
      [⟨sig_solve_emf, 7, ["alkalinity_init", "double", "emf0_init", "pH_min", "pH_max",
        "titrant_normality"]⟩]
   else if mode = "ph" then
    fitCalls sig_calibrate_pH sig_lsqfun_calibrate_pH 11 (keysFor keys_calibrate_pH kw) ++
      [⟨sig_solve_pH, 7, ["pH_min", "pH_max", "titrant_normality"]⟩]
   else if mode = "ph_gran" then
    fitCalls sig_calibrate_pH_gran sig_lsqfun_calibrate_pH 11 (keysFor keys_calibrate_pH_gran kw) ++
      [⟨sig_solve_pH_gran, 7, ["pH_min", "pH_max", "titrant_normality"]⟩]
   else [])

/-- dataset.py:216-221 and 72-77: the calls of a data set for a row -/
def rowCalls (kw row : Dict Val) : List Call :=
  [ ⟨sig_files_solve, 3, (get_kwargs_for keys_solve kw (some row)).keys⟩,
    ⟨sig_files_calibrate, 3, (get_kwargs_for keys_calibrate kw (some row)).keys⟩ ]

end Calk
