import Mathlib.Analysis.SpecialFunctions.Pow.Real
import Mathlib.Analysis.SpecialFunctions.Log.Base

/-!
# Independent specifications over the reals

Textbook definitions used to state the properties.  Nothing here refers to the model.
-/

namespace Calk.Spec
noncomputable section

/-- A solution: total contents (mol/kg) and stoichiometric dissociation constants. -/
structure Sol where
  kw : ℝ
  dic : ℝ
  k1 : ℝ
  k2 : ℝ
  tb : ℝ
  kb : ℝ
  tp : ℝ
  kp1 : ℝ
  kp2 : ℝ
  kp3 : ℝ
  tsi : ℝ
  ksi : ℝ
  tnh3 : ℝ
  knh3 : ℝ
  th2s : ℝ
  kh2s : ℝ
  ta : ℝ
  ka : ℝ
  tbeta : ℝ
  kbeta : ℝ
  tf : ℝ
  kf : ℝ
  ts : ℝ
  ks : ℝ

/-- Carbonate alkalinity `[HCO3-] + 2[CO3--]`. -/
def carbAlk (T K1 K2 h : ℝ) : ℝ := T * (K1 * h + 2 * (K1 * K2)) / (h ^ 2 + K1 * h + K1 * K2)

/-- Conjugate base of a monoprotic acid. -/
def base (T K h : ℝ) : ℝ := T * K / (K + h)

/-- Protonated form of a monoprotic acid. -/
def acid (T K h : ℝ) : ℝ := T * h / (K + h)

/-- Phosphate alkalinity `[HPO4--] + 2[PO4---] - [H3PO4]`. -/
def phosAlk (T K1 K2 K3 h : ℝ) : ℝ :=
  T * (K1 * K2 * h + 2 * (K1 * K2 * K3) - h ^ 3) /
    (h ^ 3 + K1 * h ^ 2 + K1 * K2 * h + K1 * K2 * K3)

/-- Alkalinity contribution of an additional monoprotic acid relative to the zero level of
protons (pK 4.5): a proton acceptor if weaker, a proton donor if stronger. -/
def extraAlk (T K h : ℝ) : ℝ :=
  if -Real.logb 10 K ≤ 4.5 then -(acid T K h) else base T K h

/-- Total alkalinity (Dickson 1981) as a function of `h = 10^-pH`.  On the Free scale (3)
`h = [H+]` and HSO4-, HF are subtracted; on the Total scale (1) `h = [H+] + [HSO4-]`; on the
Seawater scale (2) `h = [H+] + [HSO4-] + [HF]`. -/
def Sol.alk (s : Sol) (scale : ℕ) (h : ℝ) : ℝ :=
  -h + s.kw / h + carbAlk s.dic s.k1 s.k2 h + base s.tb s.kb h
    + phosAlk s.tp s.kp1 s.kp2 s.kp3 h + base s.tsi s.ksi h + base s.tnh3 s.knh3 h
    + base s.th2s s.kh2s h + extraAlk s.ta s.ka h + extraAlk s.tbeta s.kbeta h
    - (if scale = 1 ∨ scale = 3 then acid s.tf s.kf h else 0)
    - (if scale = 3 then acid s.ts s.ks h else 0)

/-- Physically meaningful solution: totals non-negative, constants positive. -/
structure Sol.Valid (s : Sol) : Prop where
  kw : 0 ≤ s.kw
  dic : 0 ≤ s.dic
  k1 : 0 < s.k1
  k2 : 0 < s.k2
  tb : 0 ≤ s.tb
  kb : 0 < s.kb
  tp : 0 ≤ s.tp
  kp1 : 0 < s.kp1
  kp2 : 0 < s.kp2
  kp3 : 0 < s.kp3
  tsi : 0 ≤ s.tsi
  ksi : 0 < s.ksi
  tnh3 : 0 ≤ s.tnh3
  knh3 : 0 < s.knh3
  th2s : 0 ≤ s.th2s
  kh2s : 0 < s.kh2s
  ta : 0 ≤ s.ta
  ka : 0 < s.ka
  tbeta : 0 ≤ s.tbeta
  kbeta : 0 < s.kbeta
  tf : 0 ≤ s.tf
  kf : 0 < s.kf
  ts : 0 ≤ s.ts
  ks : 0 < s.ks

/-- The constants that each total needs on a given pH scale. -/
def requiredKs (scale : ℕ) : List (String × String) :=
  [ ("dic", "k_carbonic_1"), ("dic", "k_carbonic_2"), ("total_borate", "k_borate"),
    ("total_phosphate", "k_phosphoric_1"), ("total_phosphate", "k_phosphoric_2"),
    ("total_phosphate", "k_phosphoric_3"), ("total_silicate", "k_silicate"),
    ("total_ammonia", "k_ammonia"), ("total_sulfide", "k_sulfide"),
    ("total_alpha", "k_alpha"), ("total_beta", "k_beta") ]
  ++ (if scale = 1 ∨ scale = 3 then [("total_fluoride", "k_fluoride")] else [])
  ++ (if scale = 3 then [("total_sulfate", "k_bisulfate")] else [])

/-! ### EMF titrations.  A point is (titrant mass / kg, EMF / mV, temperature / °C). -/

/-- Gran function F = (m + M) exp(E F / (R T)) at one point -/
def gran (M : ℝ) (p : ℝ × ℝ × ℝ) : ℝ :=
  (p.1 + M) * Real.exp (p.2.1 * 96.4853365 / (8.3144621 * (p.2.2 + 273.15)))

/-- free [H+] in a strong-acid titration of alkalinity `A` past the equivalence point -/
def strongAcidH (A M c n m : ℝ) : ℝ := (m * c * n - M * A) / (m + M)

/-- ideal electrode reading (Nernst) -/
def nernst (E0 t h : ℝ) : ℝ := E0 + 8.3144621 * (t + 273.15) / 96.4853365 * Real.log h

/-- Ideal isothermal titration with strong acid: every point is past equivalence and the electrode
reading is the Nernst potential of the excess acid. -/
structure IdealStrongAcid (A E0 t M c n : ℝ) (pts : List (ℝ × ℝ × ℝ)) : Prop where
  mass : ∀ p ∈ pts, 0 < p.1 + M
  past : ∀ p ∈ pts, 0 < p.1 * c * n - M * A
  temp : ∀ p ∈ pts, p.2.2 = t
  emf : ∀ p ∈ pts, p.2.1 = nernst E0 t (strongAcidH A M c n p.1)


end
end Calk.Spec
