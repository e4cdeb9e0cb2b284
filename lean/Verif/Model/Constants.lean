import Verif.Py

/-! # `calkulate/constants.py`, `calkulate/default.py` -/

namespace Calk
noncomputable section

/-- constants.py:5 `absolute_zero = 273.15` -/
def absolute_zero : ℝ := 273.15
/-- constants.py:6 `faraday = 96.4853365` -/
def faraday : ℝ := 96.4853365
/-- constants.py:7 `ideal_gas = 8.3144621` -/
def ideal_gas : ℝ := 8.3144621

/-- default.py `zlp = 4.5` (zero level of protons) -/
def zlp : ℝ := 4.5
/-- default.py `opt_gas_constant = 3` -/
def opt_gas_constant : ℝ := 3
/-- default.py `molinity_HCl = 0.1`, `molinity_NaCl = 0.6` -/
def default_molinity_HCl : ℝ := 0.1
/-- default.py:11 -/
def default_molinity_NaCl : ℝ := 0.6

end
end Calk
