import Verif.Lemmas.Interface
import Verif.Props.SolvePH
import Verif.Props.Files

/-!
# Properties C69-C71: totals, constants, name tables, pH scale
(`calkulate/interface.py`, `calkulate/core.py: solve_pH`)
-/

namespace Calk
open Flt Spec

/-! ## C69 -/

/-- What is assumed of `pyco2.salts.assemble`: totals handed to it are kept; nutrients given in
µmol/kg (and not among those totals) come back in mol/kg. -/
def KeepsTotals (w : World) : Prop :=
  ∀ S si p nh3 h2s o o' d r, w.saltsAssemble S si p nh3 h2s o o' d = .ok r →
    (∀ k ∈ ["TSi", "TPO4", "TNH3", "TH2S"], d.get? k = none) →
    (∀ k v, d.get? k = some v → r.get? k = some v) ∧
    r.get? "TSi" = some (.scalar (si * fin 1e-6)) ∧ r.get? "TPO4" = some (.scalar (p * fin 1e-6)) ∧
    r.get? "TNH3" = some (.scalar (nh3 * fin 1e-6)) ∧
    r.get? "TH2S" = some (.scalar (h2s * fin 1e-6))

/-- What is assumed of `pyco2.equilibria.assemble`: constants handed to it are kept. -/
def KeepsKs (w : World) : Prop :=
  ∀ T t o1 o2 o3 o4 d r, w.equilibriaAssemble T t o1 o2 o3 o4 d = .ok r →
    ∀ k v, d.get? k = some v → r.get? k = some v

theorem handed_no_nutrients (alpha beta : Flt) (borate fluoride sulfate : Option Flt) :
    ∀ k ∈ ["TSi", "TPO4", "TNH3", "TH2S"],
      (totals_for_pyco2 alpha beta borate fluoride sulfate).get? k = none := by
  intro k hk
  simp only [List.mem_cons, List.not_mem_nil, or_false] at hk
  rcases hk with rfl | rfl | rfl | rfl <;> simp [totals_for_pyco2, setIf_get?, setIfPos_get?]

/-- C69: totals that PyCO2SYS could estimate are respected when the user gives them. -/
theorem C69_salts (w : World) (hw : KeepsTotals w) (S : Flt) (kw : Dict Val) (t tp : Dict NpVal)
    (h : get_totals w S kw = .ok (t, tp)) (k : String)
    (hk : k ∈ ["total_borate", "total_fluoride", "total_sulfate"]) (x : Flt) (hx : x ≠ nan)
    (hkw : kw.get? k = some (.num x)) : t.get? k = some (.scalar (x * fin 1e-6)) := by
  obtain ⟨dic, alpha, beta, ammonia, phosphate, silicate, sulfide, borate, fluoride, sulfate, tb,
    tf, ts, -, -, -, -, -, -, -, h8, h9, h10, h11, hb, hf, hs, ht⟩ := get_totals_ok h
  obtain ⟨keep, -⟩ := hw _ _ _ _ _ _ _ _ _ h11 (handed_no_nutrients _ _ _ _ _)
  have hxn : (Val.num x).isNull = false := by
    simp only [Val.isNull]; exact Bool.eq_false_iff.mpr fun h => hx ((isNaN_iff x).mp h)
  have harg : argNotNull kw k = .ok (some x) := by
    simp [argNotNull, hkw, hxn, Val.toFlt, bind_ok, pure_ok]
  simp only [List.mem_cons, List.not_mem_nil, or_false] at hk
  rcases hk with rfl | rfl | rfl
  · rw [harg] at h8
    simp only [Except.ok.injEq] at h8; subst h8
    have := keep "TB" (.scalar (x * fin 1e-6)) (by
      simp [totals_for_pyco2, setIf_get?])
    rw [hb] at this; rw [ht]; simpa using this
  · rw [harg] at h9
    simp only [Except.ok.injEq] at h9; subst h9
    have := keep "TF" (.scalar (x * fin 1e-6)) (by
      simp [totals_for_pyco2, setIf_get?])
    rw [hf] at this; rw [ht]; simpa using this
  · rw [harg] at h10
    simp only [Except.ok.injEq] at h10; subst h10
    have := keep "TSO4" (.scalar (x * fin 1e-6)) (by
      simp [totals_for_pyco2, setIf_get?])
    rw [hs] at this; rw [ht]; simpa using this

/-- C69: the other totals are in the result exactly if positive, and then as value × 1e-6
(`x` is the value given by the user, or 0 if there is none); DIC is always there. -/
theorem C69_optional (w : World) (hw : KeepsTotals w) (S : Flt) (kw : Dict Val) (t tp : Dict NpVal)
    (h : get_totals w S kw = .ok (t, tp)) (x : String → Flt)
    (hx : ∀ k ∈ ["dic", "total_alpha", "total_beta", "total_ammonia", "total_silicate",
        "total_phosphate", "total_sulfide"],
      kw.get? k = some (.num (x k)) ∨ (kw.get? k = none ∧ x k = fin 0)) :
    t.get? "dic" = some (.scalar (x "dic" * fin 1e-6)) ∧
    ∀ k ∈ ["total_alpha", "total_beta", "total_ammonia", "total_silicate", "total_phosphate",
        "total_sulfide"],
      t.get? k = if (fin 0).lt (x k) then some (.scalar (x k * fin 1e-6)) else none := by
  obtain ⟨dic, alpha, beta, ammonia, phosphate, silicate, sulfide, borate, fluoride, sulfate, tb,
    tf, ts, h1, h2, h3, h4, h5, h6, h7, h8, h9, h10, h11, hb, hf, hs, ht⟩ := get_totals_ok h
  obtain ⟨-, e1, e2, e3, e4⟩ := hw _ _ _ _ _ _ _ _ _ h11 (handed_no_nutrients _ _ _ _ _)
  have harg : ∀ k v, argNum kw k (fin 0) = .ok v → k ∈ ["dic", "total_alpha", "total_beta",
      "total_ammonia", "total_silicate", "total_phosphate", "total_sulfide"] → v = x k := by
    intro k v hv hk
    rcases hx k hk with h' | ⟨h', h''⟩
    · simpa [argNum, h', Val.toFlt] using hv.symm
    · rw [h'']; simpa [argNum, h'] using hv.symm
  rw [harg _ _ h1 (by decide), harg _ _ h2 (by decide), harg _ _ h3 (by decide),
    harg _ _ h4 (by decide), harg _ _ h5 (by decide), harg _ _ h6 (by decide),
    harg _ _ h7 (by decide)] at ht
  rw [harg _ _ h6 (by decide)] at e1
  rw [harg _ _ h5 (by decide)] at e2
  rw [harg _ _ h4 (by decide)] at e3
  rw [harg _ _ h7 (by decide)] at e4
  refine ⟨by rw [ht]; simp, ?_⟩
  intro k hk
  simp only [List.mem_cons, List.not_mem_nil, or_false] at hk
  rw [ht]
  rcases hk with rfl | rfl | rfl | rfl | rfl | rfl <;> simp [e1, e2, e3, e4]

/-- C69: nothing else is in the result. -/
theorem C69_no_other (w : World) (S : Flt) (kw : Dict Val) (t tp : Dict NpVal)
    (h : get_totals w S kw = .ok (t, tp)) (k : String)
    (hk : k ∉ ["dic", "total_alpha", "total_beta", "total_ammonia", "total_silicate",
      "total_phosphate", "total_sulfide", "total_borate", "total_fluoride", "total_sulfate"]) :
    t.get? k = none := by
  obtain ⟨dic, alpha, beta, ammonia, phosphate, silicate, sulfide, borate, fluoride, sulfate, tb,
    tf, ts, h1, h2, h3, h4, h5, h6, h7, h8, h9, h10, h11, hb, hf, hs, ht⟩ := get_totals_ok h
  simp only [List.mem_cons, List.not_mem_nil, or_false, not_or] at hk
  rw [ht]; simp [hk]

/-- Specification: the Total pH scale is asked for: option 1 (in Python `True` is equal to 1). -/
def Spec.OnTotalScale (kw : Dict Val) : Prop :=
  kw.get? "opt_pH_scale" = some (.num (fin 1)) ∨ kw.get? "opt_pH_scale" = some (.bool true)

theorem onTotalScale_iff {kw : Dict Val} :
    (argVal kw "opt_pH_scale" (.num (fin 3))).eqNum 1 = true ↔ OnTotalScale kw := by
  unfold argVal OnTotalScale
  cases kw.get? "opt_pH_scale" with
  | none => simp [Val.eqNum, feq]
  | some v =>
    rcases v with _ | x | b | s | xs | d
    · simp [Val.eqNum]
    · cases x <;> simp [Val.eqNum, feq, Flt.le, ← le_antisymm_iff]
    · cases b <;> simp [Val.eqNum]
    · simp [Val.eqNum]
    · simp [Val.eqNum]
    · simp [Val.eqNum]

theorem not_onTotalScale_iff {kw : Dict Val} :
    (argVal kw "opt_pH_scale" (.num (fin 3))).eqNum 1 = false ↔ ¬ OnTotalScale kw := by
  rw [← onTotalScale_iff, Bool.not_eq_true]

theorem not_onTotalScale {kw : Dict Val} (h : kw.get? "opt_pH_scale" = none) : ¬ OnTotalScale kw := by
  unfold OnTotalScale
  rw [h]
  simp

theorem onTotalScale_congr {kw kw' : Dict Val} (h : kw.get? "opt_pH_scale" = kw'.get? "opt_pH_scale") :
    OnTotalScale kw ↔ OnTotalScale kw' := by
  unfold OnTotalScale
  rw [h]

/-- C69: a constant given by the user is in the result unchanged, except `k_fluoride` on the
Total scale. -/
theorem C69_constants (w : World) (hw : KeepsKs w) (tp : Dict NpVal) (T : List Flt) (kw : Dict Val)
    (ks : Dict NpVal) (h : get_k_constants w tp T kw = .ok ks) (k : String)
    (hk : k ∈ ["k_alpha", "k_ammonia", "k_beta", "k_bisulfate", "k_borate", "k_carbonic_1",
      "k_carbonic_2", "k_fluoride", "k_phosphoric_1", "k_phosphoric_2", "k_phosphoric_3",
      "k_silicate", "k_sulfide", "k_water"])
    (x : Flt) (hx : x ≠ nan) (hkw : kw.get? k = some (.num x))
    (hkf : k ≠ "k_fluoride" ∨ ¬ OnTotalScale kw ∨ tp.get? "TSO4" = none) :
    ks.get? k = some (.scalar x) := by
  have hxn : (Val.num x).isNull = false := by
    simp only [Val.isNull]; exact Bool.eq_false_iff.mpr fun h => hx ((isNaN_iff x).mp h)
  have harg : argNotNull kw k = .ok (some x) := by
    simp [argNotNull, hkw, hxn, Val.toFlt, bind_ok, pure_ok]
  simp only [get_k_constants, bind_ok_iff] at h
  obtain ⟨d, hd, kp, hkp, h⟩ := h
  obtain ⟨pk, hpk⟩ : ∃ pk, (k, pk) ∈ calk_to_pyco2_ks :=
    (by decide : ∀ k ∈ ["k_alpha", "k_ammonia", "k_beta", "k_bisulfate", "k_borate", "k_carbonic_1",
      "k_carbonic_2", "k_fluoride", "k_phosphoric_1", "k_phosphoric_2", "k_phosphoric_3",
      "k_silicate", "k_sulfide", "k_water"], ∃ e ∈ calk_to_pyco2_ks, e.1 = k) k hk |>.elim
      fun e he => ⟨e.2, by obtain ⟨h1, rfl⟩ := he; exact h1⟩
  have h1 := (ks_for_pyco2_get? hd).2 (by decide) k pk x hpk harg
  rw [Flt.fin_mul_one] at h1
  have h2 := hw _ _ _ _ _ _ _ _ hkp pk _ h1
  have h3 := rename_get? (kp := kp) (table := calk_to_pyco2_ks) (by decide) hpk
  rw [h2] at h3
  by_cases hc : ((argVal kw "opt_pH_scale" (.num (fin 3))).eqNum 1 && tp.has "TSO4") = true
  · rw [if_pos hc] at h
    have hne : k ≠ "k_fluoride" := by
      rcases hkf with h | h | h
      · exact h
      · simp [not_onTotalScale_iff.mpr h] at hc
      · simp [Dict.has, h] at hc
    simp only [bind_ok_iff, pure_ok, Except.ok.injEq] at h
    obtain ⟨_, -, _, -, _, -, _, -, _, -, rfl⟩ := h
    rw [Dict.get?_set_ne _ _ _ _ hne]
    exact h3
  · rw [if_neg hc] at h
    simp only [pure_ok, Except.ok.injEq] at h
    subst h
    exact h3

/-- C69: on the Total scale a `k_fluoride` given by the user is rescaled like any other:
multiplied by 1 + TSO4 / k_bisulfate. -/
theorem C69_fluoride_total (w : World) (hw : KeepsKs w) (tp : Dict NpVal) (T : List Flt)
    (kw : Dict Val) (ks : Dict NpVal) (h : get_k_constants w tp T kw = .ok ks)
    (hs : OnTotalScale kw) (x kb ts : Flt) (hx : x ≠ nan)
    (hkw : kw.get? "k_fluoride" = some (.num x)) (ht : tp.get? "TSO4" = some (.scalar ts))
    (hkb : ks.get? "k_bisulfate" = some (.scalar kb)) :
    ks.get? "k_fluoride" = some (.scalar (x * (fin 1 + ts / kb))) := by
  have hxn : (Val.num x).isNull = false := by
    simp only [Val.isNull]; exact Bool.eq_false_iff.mpr fun h => hx ((isNaN_iff x).mp h)
  have harg : argNotNull kw "k_fluoride" = .ok (some x) := by
    simp [argNotNull, hkw, hxn, Val.toFlt, bind_ok, pure_ok]
  simp only [get_k_constants, bind_ok_iff] at h
  obtain ⟨d, hd, kp, hkp, h⟩ := h
  have h1 := (ks_for_pyco2_get? hd).2 (by decide) "k_fluoride" "KF" x (by decide) harg
  rw [Flt.fin_mul_one] at h1
  have h2 := hw _ _ _ _ _ _ _ _ hkp _ _ h1
  have h3 := rename_get? (kp := kp) (table := calk_to_pyco2_ks) (k := "k_fluoride") (pk := "KF")
    (by decide) (by decide)
  rw [h2] at h3
  have hc : ((argVal kw "opt_pH_scale" (.num (fin 3))).eqNum 1 && tp.has "TSO4") = true := by
    simp [onTotalScale_iff.mpr hs, Dict.has, ht]
  rw [if_pos hc] at h
  simp only [bind_ok_iff, pure_ok, Except.ok.injEq, Dict.get_ok_iff] at h
  obtain ⟨v1, e1, v2, e2, v3, e3, v4, e4, v5, e5, rfl⟩ := h
  rw [Dict.get?_set_ne _ _ _ _ (by decide), e2] at hkb
  rw [ht] at e1
  rw [h3] at e4
  simp only [Option.some.injEq] at e1 hkb e4
  subst e1 hkb e4
  simp only [NpVal.bin, Except.ok.injEq] at e3
  subst e3
  simp only [NpVal.bin, Except.ok.injEq] at e5
  subst e5
  exact Dict.get?_set_self _ _ _

/-- Specification: the value at point `i` of a number or an array. -/
def Spec.AtPoint : NpVal → ℕ → Flt → Prop
  | .scalar x, _, y => y = x
  | .arr xs, i, y => xs[i]? = some y

theorem bin_atPoint {f : Flt → Flt → Flt} {u v r : NpVal} (h : u.bin f v = .ok r) {i : ℕ} {x y : Flt}
    (hx : AtPoint u i x) (hy : AtPoint v i y) : AtPoint r i (f x y) := by
  match u, v, h with
  | .scalar a, .scalar b, h => cases h; cases hx; cases hy; rfl
  | .scalar a, .arr ys, h =>
    cases h; cases hx
    simp only [AtPoint] at hy ⊢
    rw [List.getElem?_map, hy]; rfl
  | .arr xs, .scalar b, h =>
    cases h; cases hy
    simp only [AtPoint] at hx ⊢
    rw [List.getElem?_map, hx]; rfl
  | .arr xs, .arr ys, h =>
    simp only [AtPoint] at hx hy
    simp only [NpVal.bin] at h
    split at h
    · cases h
      simp only [AtPoint]
      rw [List.getElem?_zipWith, hx, hy]
    · split at h
      · rename_i a ys' hl
        cases h
        obtain ⟨rfl⟩ : i = 0 := by
          by_contra h0
          rw [List.getElem?_eq_none (by simp; omega)] at hx
          cases hx
        simp only [AtPoint, List.getElem?_map, hy]
        cases Option.some.inj hx
        rfl
      · rename_i xs' b _ hl
        cases h
        obtain ⟨rfl⟩ : i = 0 := by
          by_contra h0
          rw [List.getElem?_eq_none (by simp; omega)] at hy
          cases hy
        simp only [AtPoint, List.getElem?_map, hx]
        cases Option.some.inj hy
        rfl
      · cases h

/-- Specification: what PyCO2SYS (1.8) calls each equilibrium constant. -/
def pyco2Symbols : List (String × String) :=
  [ ("k_alpha", "k_alpha"), ("k_beta", "k_beta"), ("k_carbonic_1", "K1"), ("k_carbonic_2", "K2"),
    ("k_water", "KW"), ("k_borate", "KB"), ("k_fluoride", "KF"), ("k_bisulfate", "KSO4"),
    ("k_phosphoric_1", "KP1"), ("k_phosphoric_2", "KP2"), ("k_phosphoric_3", "KP3"),
    ("k_silicate", "KSi"), ("k_ammonia", "KNH3"), ("k_sulfide", "KH2S") ]

/-- Specification: `out` is what the user's setting `k` gives: nothing if it is left out or null,
the number otherwise. -/
def GivenAs (kw : Dict Val) (k : String) (f : Flt → Flt) (out : Option NpVal) : Prop :=
  (∀ x, x ≠ nan → kw.get? k = some (.num x) → out = some (.scalar (f x))) ∧
  (kw.get? k = none ∨ kw.get? k = some .none ∨ kw.get? k = some (.num nan) → out = none)

theorem argNotNull_num {kw : Dict Val} {k : String} {x : Flt} (hx : x ≠ nan)
    (h : kw.get? k = some (.num x)) : argNotNull kw k = .ok (some x) := by
  have hxn : (Val.num x).isNull = false := by
    simp only [Val.isNull]; exact Bool.eq_false_iff.mpr fun h => hx ((isNaN_iff x).mp h)
  simp [argNotNull, h, hxn, Val.toFlt, bind_ok, pure_ok]

theorem argNotNull_none {kw : Dict Val} {k : String}
    (h : kw.get? k = none ∨ kw.get? k = some .none ∨ kw.get? k = some (.num nan)) :
    argNotNull kw k = .ok none := by
  rcases h with h | h | h <;> simp [argNotNull, h, Val.isNull, isNaN, pure_ok]

/-- C69: the constants come from one call to PyCO2SYS, at the titration's temperatures and
(undiluted or diluted) totals and with the user's options; each constant is handed over under
PyCO2SYS's own name for it exactly if the user gave it, and each constant of the result is the one
PyCO2SYS computed for that name; only, on the Total scale and with sulfate, `k_fluoride` is at every point
PyCO2SYS's times 1 + total sulfate / `k_bisulfate`. -/
theorem C69_assembled (w : World) (tp : Dict NpVal) (T : List Flt) (kw : Dict Val)
    (ks : Dict NpVal) (h : get_k_constants w tp T kw = .ok ks) :
    ∃ handed kp : Dict NpVal,
      w.equilibriaAssemble T tp ((kw.get? "opt_pH_scale").getD (.num (fin 3)))
        ((kw.get? "opt_k_carbonic").getD (.num (fin 10))) ((kw.get? "opt_k_bisulfate").getD (.num (fin 1)))
        ((kw.get? "opt_k_fluoride").getD (.num (fin 1))) handed = .ok kp ∧
      handed.get? "RGas" = some (.scalar (fin 30)) ∧
      (∀ c p, (c, p) ∈ pyco2Symbols → GivenAs kw c id (handed.get? p) ∧
        (c ≠ "k_fluoride" ∨ ¬ OnTotalScale kw ∨ tp.get? "TSO4" = none → ks.get? c = kp.get? p)) ∧
      (OnTotalScale kw → ∀ ts, tp.get? "TSO4" = some ts →
        ∃ kf kb kf', kp.get? "KF" = some kf ∧ kp.get? "KSO4" = some kb ∧ ks.get? "k_fluoride" = some kf' ∧
          ∀ i x y z, AtPoint ts i x → AtPoint kb i y → AtPoint kf i z →
            AtPoint kf' i (z * (fin 1 + x / y))) := by
  simp only [get_k_constants, bind_ok_iff] at h
  obtain ⟨d, hd, kp, hkp, h⟩ := h
  refine ⟨d, kp, hkp, ?_, ?_, ?_⟩
  · rw [(ks_for_pyco2_get? hd).1 "RGas" (by decide)]; rfl
  rotate_left
  · intro hs ts ht
    have hc : ((argVal kw "opt_pH_scale" (.num (fin 3))).eqNum 1 && tp.has "TSO4") = true := by
      simp [onTotalScale_iff.mpr hs, Dict.has, ht]
    rw [if_pos hc] at h
    simp only [bind_ok_iff, pure_ok, Except.ok.injEq, Dict.get_ok_iff] at h
    obtain ⟨v1, e1, v2, e2, v3, e3, v4, e4, v5, e5, rfl⟩ := h
    have h3 := rename_get? (kp := kp) (table := calk_to_pyco2_ks) (k := "k_fluoride") (pk := "KF")
      (by decide) (by decide)
    have h4 := rename_get? (kp := kp) (table := calk_to_pyco2_ks) (k := "k_bisulfate") (pk := "KSO4")
      (by decide) (by decide)
    cases Option.some.inj (ht.symm.trans e1)
    exact ⟨v4, v2, v5, h3.symm.trans e4, h4.symm.trans e2, Dict.get?_set_self _ _ _,
      fun i x y z hx hy hz => bin_atPoint e5 hz (bin_atPoint e3 hx hy)⟩
  intro c p hcp
  have hm : (c, p) ∈ calk_to_pyco2_ks :=
    (by decide : ∀ e ∈ pyco2Symbols, e ∈ calk_to_pyco2_ks) _ hcp
  have h3 := rename_get? (kp := kp) (table := calk_to_pyco2_ks) (by decide) hm
  refine ⟨⟨?_, ?_⟩, ?_⟩
  · intro x hx hkw
    have h1 := (ks_for_pyco2_get? hd).2 (by decide) c p x hm (argNotNull_num hx hkw)
    rw [Flt.fin_mul_one] at h1
    exact h1
  · intro hn
    have hone : ∀ k, (k, p) ∈ calk_to_pyco2_ks → k = c := by
      intro k hk
      have := (by decide : ∀ a ∈ calk_to_pyco2_ks, ∀ b ∈ calk_to_pyco2_ks, a.2 = b.2 → a = b)
        _ hk _ hm rfl
      exact congrArg Prod.fst this
    rw [ks_for_pyco2_none hd p fun k hk => by rw [hone k hk]; exact argNotNull_none hn]
    have : p ≠ "RGas" := (by decide : ∀ e ∈ pyco2Symbols, e.2 ≠ "RGas") _ hcp
    simp [Dict.get?, this.symm]
  · intro hkf
    by_cases hc : ((argVal kw "opt_pH_scale" (.num (fin 3))).eqNum 1 && tp.has "TSO4") = true
    · rw [if_pos hc] at h
      have hne : c ≠ "k_fluoride" := by
        rcases hkf with h | h | h
        · exact h
        · simp [not_onTotalScale_iff.mpr h] at hc
        · simp [Dict.has, h] at hc
      simp only [bind_ok_iff, pure_ok, Except.ok.injEq] at h
      obtain ⟨_, -, _, -, _, -, _, -, _, -, rfl⟩ := h
      rw [Dict.get?_set_ne _ _ _ _ hne]
      exact h3
    · rw [if_neg hc] at h
      simp only [pure_ok, Except.ok.injEq] at h
      subst h
      exact h3

/-- C69: the totals come from one call to PyCO2SYS with the salinity, the nutrients in PyCO2SYS's
order (silicate, phosphate, ammonia, sulfide; 0 if not given) and the user's options; borate,
fluoride and sulfate are handed over exactly if given (in mol/kg), and the result's are those
PyCO2SYS returned - so, not given, they are its estimates. -/
theorem C69_estimated (w : World) (S : Flt) (kw : Dict Val) (t tp : Dict NpVal)
    (h : get_totals w S kw = .ok (t, tp)) (x : String → Flt)
    (hx : ∀ k, k ∈ ["total_silicate", "total_phosphate", "total_ammonia", "total_sulfide"] →
      kw.get? k = some (.num (x k)) ∨ (kw.get? k = none ∧ x k = fin 0)) :
    ∃ handed : Dict NpVal,
      w.saltsAssemble S (x "total_silicate") (x "total_phosphate") (x "total_ammonia")
        (x "total_sulfide") ((kw.get? "opt_k_carbonic").getD (.num (fin 10)))
        ((kw.get? "opt_total_borate").getD (.num (fin 1))) handed = .ok tp ∧
      ∀ c p, (c, p) ∈ [("total_borate", "TB"), ("total_fluoride", "TF"), ("total_sulfate", "TSO4")] →
        GivenAs kw c (· * fin 1e-6) (handed.get? p) ∧ t.get? c = tp.get? p ∧ t.get? c ≠ none := by
  obtain ⟨dic, alpha, beta, ammonia, phosphate, silicate, sulfide, borate, fluoride, sulfate, tb,
    tf, ts, h1, h2, h3, h4, h5, h6, h7, h8, h9, h10, h11, hb, hf, hs, ht⟩ := get_totals_ok h
  have harg : ∀ k, k ∈ ["total_silicate", "total_phosphate", "total_ammonia", "total_sulfide"] →
      ∀ v, argNum kw k (fin 0) = .ok v → v = x k := by
    intro k hk v hv
    rcases hx k hk with h' | ⟨h', h''⟩
    · simpa [argNum, h', Val.toFlt] using hv.symm
    · rw [h'']; simpa [argNum, h'] using hv.symm
  rw [harg _ (by decide) _ h4, harg _ (by decide) _ h5, harg _ (by decide) _ h6,
    harg _ (by decide) _ h7] at h11
  refine ⟨_, h11, ?_⟩
  have key : ∀ {k : String} {v : Option Flt}, argNotNull kw k = .ok v →
      (∀ y, y ≠ nan → kw.get? k = some (.num y) → v = some y) ∧
      (kw.get? k = none ∨ kw.get? k = some .none ∨ kw.get? k = some (.num nan) → v = none) := by
    intro k v hv
    exact ⟨fun y hy hk => by rw [argNotNull_num hy hk] at hv; exact (Except.ok.inj hv).symm,
      fun hn => by rw [argNotNull_none hn] at hv; exact (Except.ok.inj hv).symm⟩
  intro c p hcp
  simp only [List.mem_cons, List.not_mem_nil, or_false, Prod.mk.injEq] at hcp
  rcases hcp with ⟨rfl, rfl⟩ | ⟨rfl, rfl⟩ | ⟨rfl, rfl⟩
  · refine ⟨⟨fun y hy hk => ?_, fun hn => ?_⟩, ?_, ?_⟩
    · rw [(key h8).1 y hy hk]; simp [totals_for_pyco2, setIf_get?]
    · rw [(key h8).2 hn]; simp [totals_for_pyco2, setIf_get?, setIfPos_get?]
    · rw [ht, hb]; simp
    · rw [ht]; simp
  · refine ⟨⟨fun y hy hk => ?_, fun hn => ?_⟩, ?_, ?_⟩
    · rw [(key h9).1 y hy hk]; simp [totals_for_pyco2, setIf_get?]
    · rw [(key h9).2 hn]; simp [totals_for_pyco2, setIf_get?, setIfPos_get?]
    · rw [ht, hf]; simp
    · rw [ht]; simp
  · refine ⟨⟨fun y hy hk => ?_, fun hn => ?_⟩, ?_, ?_⟩
    · rw [(key h10).1 y hy hk]; simp [totals_for_pyco2, setIf_get?]
    · rw [(key h10).2 hn]; simp [totals_for_pyco2, setIf_get?, setIfPos_get?]
    · rw [ht, hs]; simp
    · rw [ht]; simp

/-- a world that keeps its entries -/
noncomputable def keepWorld : World where
  readDat _ _ := .error .FileNotFoundError
  saltsAssemble _ si p nh3 h2s _ _ d := .ok (d ++
    [("TSi", .scalar (si * fin 1e-6)), ("TPO4", .scalar (p * fin 1e-6)),
     ("TNH3", .scalar (nh3 * fin 1e-6)), ("TH2S", .scalar (h2s * fin 1e-6)),
     ("TB", .scalar (fin 0.0004)), ("TF", .scalar (fin 0.00007)), ("TSO4", .scalar (fin 0.028))])
  equilibriaAssemble _ _ _ _ _ _ d := .ok (d ++ [("KSO4", .scalar (fin 0.1))])
  sysSalts _ _ _ := fin 0.01
  ls _ x0 := .ok { x := x0, fun_ := [] }
  opt := { next := fun _ _ => none, finish := fun x0 _ => .ok { x := x0, fun_ := [] }, maxEval := 0 }

theorem keepWorld_totals : KeepsTotals keepWorld := by
  intro S si p nh3 h2s o o' d r h hno
  simp only [keepWorld, Except.ok.injEq] at h
  subst h
  refine ⟨fun k v hv => by rw [Dict.get?_append, hv]; rfl, ?_, ?_, ?_, ?_⟩ <;>
    rw [Dict.get?_append, hno _ (by decide)] <;> rfl

theorem keepWorld_ks : KeepsKs keepWorld := by
  intro T t o1 o2 o3 o4 d r h k v hv
  simp only [keepWorld, Except.ok.injEq] at h
  subst h
  rw [Dict.get?_append, hv]; rfl

/-- C69 applies: user-supplied silicate and sulfate, and a Total-scale `k_fluoride` -/
example : ∃ t tp, get_totals keepWorld (fin 35)
    [("total_silicate", .num (fin 10)), ("total_sulfate", .num (fin 28000))] = .ok (t, tp) := by
  simp [get_totals, keepWorld, argNum, argNotNull, Dict.get?, Val.toFlt, bind_ok, pure_ok,
    copyIfPos, Val.isNull, Dict.get, Dict.get?_append, totals_for_pyco2, setIf_get?, setIfPos_get?]

example : ∃ ks, get_k_constants keepWorld [("TSO4", .scalar (fin 0.028))] [fin 25]
    [("k_fluoride", .num (fin 0.002)), ("opt_pH_scale", .num (fin 1))] = .ok ks ∧
    ks.get? "k_bisulfate" = some (.scalar (fin 0.1)) := by
  simp [get_k_constants, keepWorld, ks_for_pyco2, argNotNull, Dict.get?, Val.toFlt, bind_ok, pure_ok,
    Val.isNull, Dict.get, calk_to_pyco2_ks, setIf, Dict.set, argVal, Val.eqNum, feq,
    Dict.has, NpVal.bin]

/-- C69: diluted sulfate (one value per point), the constants of the stand-in, and `True` for the scale -/
example : ∃ ks kf', get_k_constants keepWorld [("TSO4", .arr [fin 0.02, fin 0.01])] [fin 25, fin 24]
    [("k_fluoride", .num (fin 0.002)), ("opt_pH_scale", .bool true)] = .ok ks ∧
    ks.get? "k_fluoride" = some kf' ∧ AtPoint kf' 1 (fin 0.002 * (fin 1 + fin 0.01 / fin 0.1)) := by
  obtain ⟨ks, h⟩ : ∃ ks, get_k_constants keepWorld [("TSO4", .arr [fin 0.02, fin 0.01])] [fin 25, fin 24]
      [("k_fluoride", .num (fin 0.002)), ("opt_pH_scale", .bool true)] = .ok ks := by
    simp [get_k_constants, keepWorld, ks_for_pyco2, argNotNull, Dict.get?, Val.toFlt, bind_ok, pure_ok,
      Val.isNull, Dict.get, calk_to_pyco2_ks, setIf, Dict.set, argVal, Val.eqNum, feq,
      Dict.has, NpVal.bin]
  obtain ⟨handed, kp, hcall, -, hg, ht⟩ := C69_assembled keepWorld _ _ _ ks h
  obtain ⟨kf, kb, kf', h1, h2, h3, h4⟩ := ht (.inr rfl) _ rfl
  have hkf := keepWorld_ks _ _ _ _ _ _ _ _ hcall "KF" _
    ((hg "k_fluoride" "KF" (by decide)).1.1 (fin 0.002) (by simp) rfl)
  have hkb : kp.get? "KSO4" = some (.scalar (fin 0.1)) := by
    have hno := (hg "k_bisulfate" "KSO4" (by decide)).1.2 (.inl rfl)
    simp only [keepWorld, Except.ok.injEq] at hcall
    rw [← hcall, Dict.get?_append, hno]
    rfl
  cases Option.some.inj (h1.symm.trans hkf)
  cases Option.some.inj (h2.symm.trans hkb)
  exact ⟨ks, kf', h, h3, h4 1 _ _ _ rfl rfl rfl⟩

/-! ## C70 -/

/-- C70: the two name tables are one-to-one, so the reverse tables invert them. -/
theorem C70_tables :
    (∀ a ∈ calk_to_pyco2_ks, ∀ b ∈ calk_to_pyco2_ks, a.1 = b.1 ∨ a.2 = b.2 → a = b) ∧
    (∀ a ∈ calk_to_pyco2_totals, ∀ b ∈ calk_to_pyco2_totals, a.1 = b.1 ∨ a.2 = b.2 → a = b) ∧
    (∀ a ∈ calk_to_pyco2_ks, pyco2_to_calk_ks.get? a.2 = some a.1) ∧
    (∀ a ∈ calk_to_pyco2_totals, pyco2_to_calk_totals.get? a.2 = some a.1) ∧
    (∀ a ∈ pyco2_to_calk_ks, calk_to_pyco2_ks.get? a.2 = some a.1) ∧
    (∀ a ∈ pyco2_to_calk_totals, calk_to_pyco2_totals.get? a.2 = some a.1) := by
  refine ⟨?_, ?_, ?_, ?_, ?_, ?_⟩ <;> decide

/-- C70: the tables relate each quantity to PyCO2SYS's name for it, and have nothing else. -/
theorem C70_names :
    (∀ e, e ∈ calk_to_pyco2_ks ↔ e ∈ pyco2Symbols) ∧
    (∀ e, e ∈ calk_to_pyco2_totals ↔ e ∈
      [ ("total_borate", "TB"), ("total_fluoride", "TF"), ("total_sulfate", "TSO4"),
        ("total_phosphate", "TPO4"), ("total_silicate", "TSi"), ("total_ammonia", "TNH3"),
        ("total_sulfide", "TH2S"), ("total_alpha", "total_alpha"), ("total_beta", "total_beta"),
        ("total_calcium", "total_calcium") ]) :=
  ⟨fun e => ⟨(by decide : ∀ e ∈ calk_to_pyco2_ks, e ∈ pyco2Symbols) e,
      (by decide : ∀ e ∈ pyco2Symbols, e ∈ calk_to_pyco2_ks) e⟩,
   fun e => ⟨(by decide : ∀ e ∈ calk_to_pyco2_totals, e ∈ _) e,
      (by decide : ∀ e ∈ [_, _, _, _, _, _, _, _, _, _], e ∈ calk_to_pyco2_totals) e⟩⟩

/-- C70: every component that the simulator can produce has a multiplier, so the alkalinity sum
never fails because of a missing multiplier. -/
theorem C70_multipliers (p : Flt) (totals ks c : Dict Flt) (scale : ℕ)
    (h : alkalinity_components p totals ks scale = .ok c) (k : String) (hk : k ∈ c.keys) :
    ∃ m, component_multipliers.get? k = some m := by
  have := components_keys h k hk
  simp only [List.mem_cons, List.not_mem_nil, or_false] at this
  rcases this with rfl | rfl | rfl | rfl | rfl | rfl | rfl | rfl | rfl | rfl | rfl | rfl | rfl |
    rfl | rfl | rfl <;> simp [component_multipliers, Dict.get?]

/-- C70: every setting that some stage of solving (calibrating) reads is among the settings that
the file-level functions accept; every constant PyCO2SYS can be handed is accepted. -/
theorem C70_keys :
    (∀ k ∈ keys_read_dat ++ keys_cau ++ keys_get_totals ++ keys_get_k_constants ++
      ["dilute_totals_for_ks"] ++ keys_titrant_totals ++ keys_solve_emf ++ keys_solve_pH ++
      keys_solve_pH_gran ++ ["solve_mode", "file_path"], k ∈ keys_solve) ∧
    (∀ k ∈ keys_read_dat ++ keys_cau ++ keys_get_totals ++ keys_get_k_constants ++
      ["dilute_totals_for_ks"] ++ keys_titrant_totals ++ keys_calibrate_emf ++ keys_calibrate_pH ++
      keys_calibrate_pH_gran ++ ["solve_mode", "file_path"], k ∈ keys_calibrate) ∧
    (∀ k ∈ calk_to_pyco2_ks.keys, k ∈ keys_get_k_constants) ∧
    (∀ k ∈ calk_to_pyco2_totals.keys, k = "total_calcium" ∨ k ∈ keys_get_totals) := by
  refine ⟨?_, ?_, ?_, ?_⟩ <;> decide

/-- C70: calibration and solving accept the same settings, except for the first guess of the
molinity and for `gran_logic`. -/
theorem C70_solve_vs_calibrate (k : String) :
    (k ∈ keys_solve ∧ k ≠ "gran_logic") ↔ (k ∈ keys_calibrate ∧ k ≠ "titrant_molinity_init") := by
  constructor
  · rintro ⟨h1, h2⟩
    exact (by decide : ∀ k ∈ keys_solve, k ≠ "gran_logic" →
      k ∈ keys_calibrate ∧ k ≠ "titrant_molinity_init") k h1 h2
  · rintro ⟨h1, h2⟩
    exact (by decide : ∀ k ∈ keys_calibrate, k ≠ "titrant_molinity_init" →
      k ∈ keys_solve ∧ k ≠ "gran_logic") k h1 h2

/-! ## C71 -/

/-- C71: in every mode, the pH scale has no influence on solving except through the totals and
constants it gives. -/
theorem C71_only_constants (w : World) (f : String) (c S : Flt) (kw : Dict Val) (v v' : Val)
    (h : load w f S (kw.set "opt_pH_scale" v) = load w f S (kw.set "opt_pH_scale" v')) :
    files_solve w f c S (kw.set "opt_pH_scale" v)
      = files_solve w f c S (kw.set "opt_pH_scale" v') := by
  have ht : ∀ v, titrant_totals (kw.set "opt_pH_scale" v) = titrant_totals kw :=
    fun v => titrant_totals_set _ _ (by decide)
  have hm : ∀ v, solve_mode (kw.set "opt_pH_scale" v) = solve_mode kw :=
    fun v => solve_mode_set v (by decide)
  have hd : ∀ mode cv totals ks v, solve_dispatch w mode cv c totals ks (kw.set "opt_pH_scale" v)
      = solve_dispatch w mode cv c totals ks kw :=
    fun _ _ _ _ v => solve_dispatch_set v (by decide) (by decide) (by decide)
  simp only [files_solve, ht, hm, hd, h]

/-- C71: with data that are exact on the Total scale (`A` in mol/kg), every point estimate is too
low by 1e6 [HSO4-] (m + M) / M, `[HSO4-]` being computed with the constant as if the pH were on the
Free scale; so the reported alkalinity is below the true one whenever sulfate is there. -/
theorem C71_bias (A c n M lo hi : ℝ) (tm pH : List ℝ) (totals ks : Dict NpVal)
    (hl : tm.length = pH.length) (hw : lo < hi) (hM : 0 < M) (hm : ∀ m ∈ tm, 0 < m + M)
    (hv : ValidRows totals ks pH.length) (hk : HasKsN totals ks 3)
    (hf : dictFits pH.length totals = true) (hf' : dictFits pH.length ks = true)
    (hbal : ∀ i, (h : i < pH.length) →
      (Sol.of (rowAt totals i) (rowAt ks i)).alk 1 ((10 : ℝ) ^ (-pH[i])) * (tm[i] + M)
        = A * M - tm[i] * c * n)
    (hin : ∃ p ∈ pH, lo ≤ p ∧ p ≤ hi) :
    ∃ (r : SolvePH) (est : List ℝ) (a : ℝ),
      solve_pH (fin c) (tm.map fin) (pH.map fin) (fin M) totals ks
        { pH_min := fin lo, pH_max := fin hi, titrant_normality := fin n } = .ok r ∧
      r.alkalinity_all = est.map fin ∧ est.length = pH.length ∧
      (∀ i, (h : i < pH.length) → (he : i < est.length) →
        est[i] = 1e6 * A - 1e6 * (tm[i] + M) / M *
          acid (rval (rowAt totals i) 0 "total_sulfate") (rval (rowAt ks i) 1 "k_bisulfate")
            ((10 : ℝ) ^ (-pH[i]))) ∧
      r.alkalinity = fin a ∧
      ((∀ i < pH.length, 0 < rval (rowAt totals i) 0 "total_sulfate") → a < 1e6 * A) := by
  obtain ⟨r, est, hr, hlen, hest, hall, halk⟩ := C14_mean c n M lo hi tm pH totals ks hl hw hM hm hv
    hk hf hf' hin
  have he : ∀ i, (h : i < pH.length) → (he : i < est.length) →
        est[i] = 1e6 * A - 1e6 * (tm[i] + M) / M *
          acid (rval (rowAt totals i) 0 "total_sulfate") (rval (rowAt ks i) 1 "k_bisulfate")
            ((10 : ℝ) ^ (-pH[i])) := by
    intro i h he
    have h13 : specAlk totals ks i pH[i] =
        (Sol.of (rowAt totals i) (rowAt ks i)).alk 1 ((10 : ℝ) ^ (-pH[i]))
          - acid (rval (rowAt totals i) 0 "total_sulfate") (rval (rowAt ks i) 1 "k_bisulfate")
            ((10 : ℝ) ^ (-pH[i])) := by
      simp [specAlk, Sol.alk, Sol.of]
    rw [hest i h he, h13, sub_mul, hbal i h]
    field_simp
    ring
  refine ⟨r, est, _, hr, hall, hlen, he, halk, ?_⟩
  intro hs
  have hlt : ∀ x ∈ mask (pH.map fun p => decide (lo ≤ p) && decide (p ≤ hi)) est, x < 1e6 * A := by
    intro x hx
    obtain ⟨i, h1, h2, -, rfl⟩ := mem_mask.mp hx
    have hi : i < pH.length := by omega
    rw [he i hi h2]
    have hK := rval_pos (hv i hi).2 "k_bisulfate"
    have hT := hs i hi
    have h10 : 0 < (10 : ℝ) ^ (-pH[i]) := by positivity
    have hmM := hm tm[i] (List.getElem_mem _)
    have : 0 < acid (rval (rowAt totals i) 0 "total_sulfate") (rval (rowAt ks i) 1 "k_bisulfate")
        ((10 : ℝ) ^ (-pH[i])) := by
      unfold acid; positivity
    have : 0 < 1e6 * (tm[i] + M) / M * acid (rval (rowAt totals i) 0 "total_sulfate")
        (rval (rowAt ks i) 1 "k_bisulfate") ((10 : ℝ) ^ (-pH[i])) := by positivity
    linarith
  have hne : mask (pH.map fun p => decide (lo ≤ p) && decide (p ≤ hi)) est ≠ [] := by
    apply mask_ne_nil (by simp [hlen])
    obtain ⟨p, hp, h1, h2⟩ := hin
    exact List.mem_map.mpr ⟨p, hp, by simp [h1, h2]⟩
  have hcount : (pH.filter fun p => decide (lo ≤ p) && decide (p ≤ hi)).length
      = (mask (pH.map fun p => decide (lo ≤ p) && decide (p ≤ hi)) est).length := by
    rw [← mask_eq_filter]; exact (mask_length_eq hlen).symm
  rw [hcount]
  generalize mask (pH.map fun p => decide (lo ≤ p) && decide (p ≤ hi)) est = xs at hlt hne
  have hpos : (0 : ℝ) < xs.length := by
    have := List.length_pos_iff.mpr hne
    exact_mod_cast this
  rw [div_lt_iff₀ hpos]
  have : ∀ ys : List ℝ, (∀ y ∈ ys, y < 1e6 * A) → ys ≠ [] → ys.sum < 1e6 * A * ys.length := by
    intro ys
    induction ys with
    | nil => simp
    | cons y ys ih =>
      intro h _
      have h1 := h y (by simp)
      by_cases hys : ys = []
      · subst hys; simpa using h1
      · have := ih (fun z hz => h z (by simp [hz])) hys
        simp only [List.sum_cons, List.length_cons, Nat.cast_add, Nat.cast_one]
        linarith
  exact this xs hlt hne

/-- C71 applies: strong acid in a sulfate solution, one point with `h = 0.1` on the Total scale -/
example : ∃ (r : SolvePH) (a : ℝ), solve_pH (fin 1) [fin 1] [fin 1] (fin 1)
      [("total_sulfate", .scalar (fin 0.03))] [("k_bisulfate", .scalar (fin 0.1))]
      { pH_min := fin 0, pH_max := fin 2, titrant_normality := fin 1 } = .ok r ∧
      r.alkalinity = fin a ∧ a < 1e6 * 0.8 := by
  have ht : ∀ i, rowAt [("total_sulfate", .scalar (fin 0.03))] i = [("total_sulfate", fin 0.03)] :=
    fun i => rfl
  have hk : ∀ i, rowAt [("k_bisulfate", .scalar (fin 0.1))] i = [("k_bisulfate", fin 0.1)] :=
    fun i => rfl
  obtain ⟨r, -, a, hr, -, -, -, ha, hlt⟩ := C71_bias 0.8 1 1 1 0 2 [1] [1]
    [("total_sulfate", .scalar (fin 0.03))] [("k_bisulfate", .scalar (fin 0.1))] rfl (by norm_num)
    (by norm_num) (by simp) (by
      intro i _
      rw [ht, hk]
      constructor <;> intro k v hv <;> simp only [Dict.get?_cons, Dict.get?_nil,
        Option.ite_none_right_eq_some, Option.some.injEq] at hv <;> obtain ⟨-, rfl⟩ := hv <;>
        exact ⟨_, by norm_num, rfl⟩)
    (by
      intro tk htk h
      simp only [Dict.has, Dict.get?_cons, Dict.get?_nil] at h ⊢
      revert htk h
      simp only [requiredKs]
      intro htk
      simp at htk
      rcases htk with rfl | rfl | rfl | rfl | rfl | rfl | rfl | rfl | rfl | rfl | rfl | rfl | rfl
        <;> simp)
    rfl rfl (by
      intro i h
      have : i = 0 := by simpa using h
      subst this
      simp [ht, hk, Sol.alk, Sol.of, rval, carbAlk, base, phosAlk, extraAlk, acid, Dict.get?]
      norm_num)
    ⟨1, by simp, by norm_num, by norm_num⟩
  refine ⟨r, a, hr, ha, hlt ?_⟩
  intro i _
  rw [ht]
  simp [rval, Dict.get?]
  norm_num

end Calk
