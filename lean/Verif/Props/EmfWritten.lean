import Verif.Props.EmfErrors

/-!
# Property C123: exact titrations, written to a file and solved from there in EMF mode

`write_dat` rounds amounts, potentials and temperatures to three decimals; C120 bounds what that does.
-/

namespace Calk
open Flt Spec

/-- the arguments and the library of an EMF-mode run, apart from the data -/
structure EmfArgs (w : World) (kw : Dict Val) (x K : String → ℝ) (c n g M : ℝ) : Prop where
  keepsTotals : KeepsTotals w
  keepsKs : KeepsKs w
  sound : LsSound w.ls
  nodup : kw.keys.Nodup
  mode : kw.get? "solve_mode" = none ∨ ∃ s, kw.get? "solve_mode" = some (.str s) ∧ lowerS s = "emf"
  sample : GivenSample kw x K
  sulfate : NumOr kw "titrant_total_sulfate" 0 g
  no_phosphate : kw.get? "titrant_total_phosphate" = none
  no_fluoride : kw.get? "titrant_total_fluoride" = none
  normality : NumOr kw "titrant_normality" 1 n
  mass : 0 < M
  acid : 0 ≤ c * g

theorem EmfArgs.run {w : World} {f : String} {S : Flt} {kw : Dict Val} {x K : String → ℝ}
    {c n g M : ℝ} (h : EmfArgs w kw x K c n g M) {pts : List (ℝ × ℝ × ℝ)}
    (hload : ∃ cv totals ks, load w f S kw = .ok (cv, totals, ks) ∧
      cv.titrant_mass = pts.map (fun p => fin p.1) ∧ cv.analyte_mass = fin M ∧
      cv.measurement = pts.map (fun p => fin p.2.1) ∧ cv.temperature = pts.map (fun p => fin p.2.2))
    (hm : ∀ p ∈ pts, 0 ≤ p.1) (hT : ∀ p ∈ pts, -273.15 < p.2.2) : EmfRun w f S kw x K c n g M pts :=
  ⟨hload, h.keepsTotals, h.keepsKs, h.sound, h.nodup, h.mode, h.sample, h.sulfate, h.no_phosphate,
    h.no_fluoride, h.normality, h.mass, hm, hT, h.acid⟩

/-- a number of three decimals -/
def Spec.Thousandths (y : ℝ) : Prop := ∃ z : ℤ, y = z / 1000

/-- `y` is `x` rounded to three decimals -/
def Spec.Rounded3 (x y : ℝ) : Prop := Thousandths y ∧ |y - x| ≤ 0.0005

/-- `p` is `q` with its three numbers rounded to three decimals, and its amount then converted from
units of `u` kg to kg. -/
def Spec.RoundedPoint (u : ℝ) (q p : ℝ × ℝ × ℝ) : Prop :=
  (∃ a, Rounded3 q.1 a ∧ p.1 = a * u) ∧ Rounded3 q.2.1 p.2.1 ∧ Rounded3 q.2.2 p.2.2

theorem Spec.Rounded3.same {x y : ℝ} (h : Rounded3 x y) (hx : Thousandths x) : y = x := by
  obtain ⟨⟨z, rfl⟩, h⟩ := h
  obtain ⟨z', rfl⟩ := hx
  have hz : z = z' := by
    have h1 : |(z : ℝ) - z'| ≤ 1 / 2 := by
      have e : (z : ℝ) / 1000 - z' / 1000 = (z - z') / 1000 := by ring
      rw [e, abs_div, abs_of_pos (by norm_num : (0 : ℝ) < 1000), div_le_iff₀ (by norm_num)] at h
      exact h.trans (by norm_num)
    by_contra hne
    have h2 : (1 : ℤ) ≤ |z - z'| := Int.one_le_abs (sub_ne_zero.mpr hne)
    have h3 : (1 : ℝ) ≤ |(z : ℝ) - z'| := by exact_mod_cast h2
    linarith
  rw [hz]

/-- **C123**: data written to a new file by `write_dat` with default formats and solved from there in
EMF mode are solved as a titration whose points are those written, up to rounding. -/
theorem C123_points (w : World) (fs : FS) (pd : Pandas) (f : String) (S : Flt) (kw : Dict Val)
    (x K : String → ℝ) (c n g M u : ℝ) (data : List (ℝ × ℝ × ℝ))
    (hnew : fs f = none) (hlen : 2 ≤ data.length)
    (hw : w.readDat = readDatFrom ((write_dat f (data.map fun q => fin q.1) (data.map fun q => fin q.2.1)
      (data.map fun q => fin q.2.2) : PyS FS Unit) fs).2 pd)
    (hset : NoReadSettings kw) (hu : UnitFactor kw u) (hu0 : 0 ≤ u)
    (hov : kw.get? "temperature_override" = none)
    (hmass : kw.get? "analyte_mass" = some (.num (fin M))) (hload : ∃ out, load w f S kw = .ok out)
    (hrun : EmfArgs w kw x K c n g M) (ha : ∀ q ∈ data, 0 ≤ q.1) (hT : ∀ q ∈ data, 0 ≤ q.2.2) :
    ∃ pts, EmfRun w f S kw x K c n g M pts ∧ List.Forall₂ (RoundedPoint u) data pts ∧
      ∀ p ∈ pts, 0 ≤ p.2.2 := by
  obtain ⟨⟨cv, totals, ks⟩, hload⟩ := hload
  obtain ⟨fname, dd, h1, h2, h3, -⟩ := load_parts hload
  have hfn : fname = f := by
    unfold full_name at h1
    rw [hset "file_path" List.mem_cons_self] at h1
    exact (Except.ok.inj h1).symm
  subst hfn
  obtain ⟨fs', d, e1, e2, ca, cm, ct⟩ := C53_round_trip fs pd fname (data.map fun q => fin q.1)
    (data.map fun q => fin q.2.1) (data.map fun q => fin q.2.2)
    "Titration data exported by Calkulate" "titrant_amount\tmeasurement\ttemperature" 3 3 3
    (by constructor <;> decide) (by constructor <;> decide) hnew (by simp; omega)
  have hmin : min (data.map fun q => fin q.1).length (min (data.map fun q => fin q.2.1).length
      (data.map fun q => fin q.2.2).length) = data.length := by simp
  rw [hmin] at ca cm ct
  have hdd : dd = d := by
    rw [hw, hset.nil, e1] at h2
    unfold readDatFrom at h2
    rw [e2] at h2
    exact (Except.ok.inj h2).symm
  subst hdd
  have ca' : ColumnRounded 3 (data.map (·.1)).length ((data.map (·.1)).map fin) dd.titrant_amount := by
    simpa [List.map_map, Function.comp_def] using ca
  have cm' : ColumnRounded 3 (data.map (·.2.1)).length ((data.map (·.2.1)).map fin) dd.measurement := by
    simpa [List.map_map, Function.comp_def] using cm
  have ct' : ColumnRounded 3 (data.map (·.2.2)).length ((data.map (·.2.2)).map fin) dd.temperature := by
    simpa [List.map_map, Function.comp_def] using ct
  obtain ⟨a', ha', hla, hra⟩ := rounded_reals ca'
  obtain ⟨m', hm', hlm, hrm⟩ := rounded_reals cm'
  obtain ⟨t', ht', hlt, hrt⟩ := rounded_reals ct'
  rw [List.length_map] at hla hlm hlt
  unfold amount_units at h3
  simp only [bind_ok_iff, pure_ok, Except.ok.injEq] at h3
  obtain ⟨T'', hTT, tm, htm, am, ham, hcv⟩ := h3
  have htm' := hu.masses htm ha'
  have hT'' : T'' = t'.map fin := by
    unfold override_temperature argOpt at hTT
    rw [cau_get? kw (by decide), hov] at hTT
    simp only [bind_ok, pure_ok, Except.ok.injEq] at hTT
    rw [← hTT, ht']
  have ham' : am = fin M := by
    unfold get_analyte_mass argNotNull at ham
    rw [cau_get? kw (by decide), hmass] at ham
    simp [Val.isNull, Val.toFlt, bind_ok, pure_ok] at ham
    exact ham.symm
  have key : ∀ i, (hi : i < data.length) → (h1 : i < a'.length) → (h2 : i < m'.length) →
      (h3 : i < t'.length) → RoundedPoint u data[i] (a'[i] * u, m'[i], t'[i]) ∧ 0 ≤ a'[i] ∧ 0 ≤ t'[i] := by
    intro i hi h1 h2 h3
    have r1 := hra i (by simpa using hi) h1
    have r2 := hrm i (by simpa using hi) h2
    have r3 := hrt i (by simpa using hi) h3
    simp only [List.getElem_map] at r1 r2 r3
    have conv : ∀ {x y : ℝ}, (∃ z : ℤ, y = z / 10 ^ 3) → |x - y| ≤ (1 / 2) / 10 ^ 3 → Rounded3 x y := by
      rintro x y ⟨z, hz⟩ h
      refine ⟨⟨z, by rw [hz]; norm_num⟩, ?_⟩
      rw [abs_sub_comm]; exact h.trans (by norm_num)
    exact ⟨⟨⟨_, conv r1.1 r1.2, rfl⟩, conv r2.1 r2.2, conv r3.1 r3.2⟩,
      rounded_nonneg (ha _ (List.getElem_mem hi)) r1.1 r1.2,
      rounded_nonneg (hT _ (List.getElem_mem hi)) r3.1 r3.2⟩
  set pts : List (ℝ × ℝ × ℝ) := (a'.map (· * u)).zip (m'.zip t') with hpts
  have hlp : pts.length = data.length := by simp [hpts, hla, hlm, hlt]
  have hget : ∀ i, (hi : i < pts.length) → pts[i] = (a'[i]'(by omega) * u, m'[i]'(by omega), t'[i]'(by omega)) := by
    intro i hi; simp [hpts]
  have f1 : pts.map (fun p => fin p.1) = (a'.map (· * u)).map fin := by
    rw [show (fun p : ℝ × ℝ × ℝ => fin p.1) = fin ∘ Prod.fst from rfl, ← List.map_map, hpts,
      List.map_fst_zip (by simp; omega)]
  have f2 : pts.map (fun p => fin p.2.1) = m'.map fin := by
    rw [show (fun p : ℝ × ℝ × ℝ => fin p.2.1) = fin ∘ Prod.fst ∘ Prod.snd from rfl, ← List.map_map, ← List.map_map,
      hpts, List.map_snd_zip (by simp; omega), List.map_fst_zip (by omega)]
  have f3 : pts.map (fun p => fin p.2.2) = t'.map fin := by
    rw [show (fun p : ℝ × ℝ × ℝ => fin p.2.2) = fin ∘ Prod.snd ∘ Prod.snd from rfl, ← List.map_map, ← List.map_map,
      hpts, List.map_snd_zip (by simp; omega), List.map_snd_zip (by omega)]
  have hpos : ∀ p ∈ pts, 0 ≤ p.1 ∧ 0 ≤ p.2.2 := by
    intro p hp
    obtain ⟨i, hi, rfl⟩ := List.mem_iff_getElem.mp hp
    rw [hget i hi]
    obtain ⟨-, k1, k2⟩ := key i (by omega) (by omega) (by omega) (by omega)
    exact ⟨mul_nonneg k1 hu0, k2⟩
  refine ⟨pts, hrun.run ⟨cv, totals, ks, hload, ?_, ?_, ?_, ?_⟩ (fun p hp => (hpos p hp).1)
    (fun p hp => lt_of_lt_of_le (by norm_num) (hpos p hp).2), ?_, fun p hp => (hpos p hp).2⟩
  · rw [← hcv, f1]; exact htm'
  · rw [← hcv]; exact ham'
  · rw [← hcv, f2]; exact hm'
  · rw [← hcv, f3]; exact hT''
  · rw [List.forall₂_iff_get]
    refine ⟨hlp.symm, fun i h1 h2 => ?_⟩
    simp only [List.get_eq_getElem]
    rw [hget i h2]
    exact (key i h1 (by omega) (by omega) (by omega)).1

theorem rounded_same {u : ℝ} {data pts : List (ℝ × ℝ × ℝ)} (h : List.Forall₂ (RoundedPoint u) data pts)
    (h3 : ∀ q ∈ data, Thousandths q.1 ∧ Thousandths q.2.1 ∧ Thousandths q.2.2) :
    pts = data.map fun q => (q.1 * u, q.2.1, q.2.2) := by
  induction h with
  | nil => rfl
  | cons hab _ ih =>
    obtain ⟨⟨a, ha, ea⟩, hb, hc⟩ := hab
    obtain ⟨k1, k2, k3⟩ := h3 _ List.mem_cons_self
    rw [List.map_cons, ← ih fun q hq => h3 q (List.mem_cons_of_mem _ hq)]
    congr 1
    exact Prod.ext (by rw [ea, ha.same k1]) (Prod.ext (hb.same k2) (hc.same k3))

/-- **C123**: data of three decimals are solved as they are. -/
theorem C123_as_written (w : World) (fs : FS) (pd : Pandas) (f : String) (S : Flt) (kw : Dict Val)
    (x K : String → ℝ) (c n g M u : ℝ) (data : List (ℝ × ℝ × ℝ))
    (hnew : fs f = none) (hlen : 2 ≤ data.length)
    (hw : w.readDat = readDatFrom ((write_dat f (data.map fun q => fin q.1) (data.map fun q => fin q.2.1)
      (data.map fun q => fin q.2.2) : PyS FS Unit) fs).2 pd)
    (hset : NoReadSettings kw) (hu : UnitFactor kw u) (hu0 : 0 ≤ u)
    (hov : kw.get? "temperature_override" = none)
    (hmass : kw.get? "analyte_mass" = some (.num (fin M))) (hload : ∃ out, load w f S kw = .ok out)
    (hrun : EmfArgs w kw x K c n g M) (ha : ∀ q ∈ data, 0 ≤ q.1) (hT : ∀ q ∈ data, 0 ≤ q.2.2)
    (h3 : ∀ q ∈ data, Thousandths q.1 ∧ Thousandths q.2.1 ∧ Thousandths q.2.2) :
    EmfRun w f S kw x K c n g M (data.map fun q => (q.1 * u, q.2.1, q.2.2)) := by
  obtain ⟨pts, h1, h2, -⟩ := C123_points w fs pd f S kw x K c n g M u data hnew hlen hw hset hu hu0 hov
    hmass hload hrun ha hT
  rw [← rounded_same h2 h3]
  exact h1

/-- The exact titration: the potential of an electrode of EMF0 `E` at an acidity between pH 0 and 14
that balances the mixture; amounts in units of `u` kg. -/
def Spec.ExactPoint (x K : String → ℝ) (c n g M A E u : ℝ) (q : ℝ × ℝ × ℝ) : Prop :=
  0 ≤ q.1 ∧ 0 ≤ q.2.2 ∧ ∃ h : ℝ, (10 : ℝ) ^ (-14 : ℝ) ≤ h ∧ h ≤ 1 ∧ q.2.1 = nernst E q.2.2 h ∧
    (mixture x K (q.1 * u) M c g).alk 3 h * (q.1 * u + M) = A * M - q.1 * u * c * n

/-- **C123**: rounding to three decimals takes an exact point to one that is off by no more than half a
unit of the last decimal of the amount and 0.00005 in pH. -/
theorem C123_near {x K : String → ℝ} {c n g M A E u : ℝ} (hu0 : 0 ≤ u) {q p : ℝ × ℝ × ℝ}
    (h : ExactPoint x K c n g M A E u q) (hr : RoundedPoint u q p) (hT : 0 ≤ p.2.2) :
    NearExact x K c n g M A E (0.0005 * u) 0.00005 p := by
  obtain ⟨hq, hqT, a, ha, ha1, he, hb⟩ := h
  obtain ⟨⟨b, ⟨-, r1⟩, rfl'⟩, ⟨-, r2⟩, ⟨-, r3⟩⟩ := hr
  replace r1 : |p.1 - q.1 * u| ≤ 0.0005 * u := by
    rw [rfl', ← sub_mul, abs_mul, abs_of_nonneg hu0]
    exact mul_le_mul_of_nonneg_right r1 hu0
  have ha0 : 0 < a := lt_of_lt_of_le (by positivity) ha
  have hL : (0.9 : ℝ) ≤ Real.log 10 := by
    refine le_trans ?_ (Real.one_sub_inv_le_log_of_pos (by norm_num))
    norm_num
  have hlog : |Real.log a| ≤ 14 * Real.log 10 := by
    rw [abs_of_nonpos (Real.log_nonpos ha0.le ha1)]
    have := Real.log_le_log (by positivity) ha
    rw [Real.log_rpow (by norm_num)] at this
    linarith
  refine ⟨q.1 * u, nernst E p.2.2 a, mul_nonneg hq hu0, r1, ?_, ?_⟩
  · have e : p.2.1 - nernst E p.2.2 a
        = (p.2.1 - q.2.1) + 8.3144621 / 96.4853365 * ((q.2.2 - p.2.2) * Real.log a) := by
      rw [he]; unfold nernst; ring
    rw [e]
    refine (abs_add_le _ _).trans ?_
    rw [abs_mul, abs_mul, abs_of_pos (by norm_num : (0 : ℝ) < 8.3144621 / 96.4853365)]
    have m1 : |q.2.2 - p.2.2| * |Real.log a| ≤ 0.0005 * (14 * Real.log 10) := by
      rw [abs_sub_comm]
      exact mul_le_mul r3 hlog (abs_nonneg _) (by norm_num)
    have m2 : (8.3144621 : ℝ) / 96.4853365 * (|q.2.2 - p.2.2| * |Real.log a|)
        ≤ 8.3144621 / 96.4853365 * (0.0005 * (14 * Real.log 10)) :=
      mul_le_mul_of_nonneg_left m1 (by norm_num)
    have m3 : (0.00005 : ℝ) * (8.3144621 * (0 + 273.15) / 96.4853365 * Real.log 10)
        ≤ 0.00005 * (8.3144621 * (p.2.2 + 273.15) / 96.4853365 * Real.log 10) := by gcongr
    refine le_trans ?_ m3
    refine (add_le_add r2 m2).trans ?_
    norm_num
    norm_num at hL
    linarith
  · rw [read_nernst _ (by linarith) ha0]
    exact hb

/-- **C123**: an exact titration written to a new file by `write_dat` with default formats and solved
from there in EMF mode gives alkalinity and EMF0 up to the bound of C120 for errors of 0.0005 units of
titrant and 0.00005 in pH. -/
theorem C123_written (w : World) (fs : FS) (pd : Pandas) (f : String) (S : Flt) (kw : Dict Val)
    (x K : String → ℝ) (A E c n g M u : ℝ) (data : List (ℝ × ℝ × ℝ))
    (hnew : fs f = none) (hlen : 2 ≤ data.length)
    (hw : w.readDat = readDatFrom ((write_dat f (data.map fun q => fin q.1) (data.map fun q => fin q.2.1)
      (data.map fun q => fin q.2.2) : PyS FS Unit) fs).2 pd)
    (hset : NoReadSettings kw) (hu : UnitFactor kw u) (hu0 : 0 ≤ u)
    (hov : kw.get? "temperature_override" = none)
    (hmass : kw.get? "analyte_mass" = some (.num (fin M))) (hload : ∃ out, load w f S kw = .ok out)
    (hrun : EmfArgs w kw x K c n g M) (hc : 0 ≤ c) (hg : 0 ≤ g) (hgn : g ≤ n)
    (hdata : ∀ q ∈ data, ExactPoint x K c n g M A E u q) (hmin : LsGlobalMin w.ls)
    (sr : SolveEmf) (T : List Flt) (hr : files_solve w f (fin c) S kw = .ok (.emf sr T)) (A' E' : ℝ)
    (hx : sr.opt_result.x = (fin A', fin E')) :
    ∃ pts, List.Forall₂ (RoundedPoint u) data pts ∧
      ∀ lo hi η, (∀ p ∈ mask sr.used pts, lo ≤ readPH E p ∧ readPH E p ≤ hi) →
        (∀ p ∈ mask sr.used pts, errorAt x K c n g lo hi M (0.0005 * u) 0.00005 p.1 ≤ η * (p.1 + M)) →
      ∀ p ∈ mask sr.used pts, ∀ q ∈ mask sr.used pts, p.2.2 = q.2.2 →
      ∀ least ε, 0 < least → least ≤ readAcidity E p → least ≤ readAcidity E' p →
        ε = (1 + Real.sqrt (mask sr.used pts).length) * η → 0 < acidExcess x K c g M E least p q →
      sr.alkalinity = fin (1e6 * A') ∧ sr.emf0 = fin E' ∧
      |A' - A| * M ≤ (p.1 + M) * (ε + (1 + (mixture x K p.1 M c g).buffering least) * readAcidity E p
        * acidityOff x K c g M E least ε p q) ∧
      (acidityOff x K c g M E least ε p q < 1 →
        |E' - E| ≤ 8.3144621 * (p.2.2 + 273.15) / 96.4853365 *
          (acidityOff x K c g M E least ε p q / (1 - acidityOff x K c g M E least ε p q))) := by
  obtain ⟨pts, h1, h2, h3⟩ := C123_points w fs pd f S kw x K c n g M u data hnew hlen hw hset hu hu0 hov
    hmass hload hrun (fun q hq => (hdata q hq).1) (fun q hq => (hdata q hq).2.1)
  refine ⟨pts, h2, fun lo hi η hwin hη p hp q hq hTT least ε hl hl1 hl2 hε hmore => ?_⟩
  have hnear : ∀ p ∈ pts, NearExact x K c n g M A E (0.0005 * u) 0.00005 p := by
    intro p hp
    obtain ⟨q, hq, hqp⟩ := forall₂_mem h2.flip hp
    exact C123_near hu0 (hdata q hq) hqp (h3 p hp)
  exact C120_errors w f S kw x K c n g M pts h1 hc hg hgn hmin sr T hr A E A' E' lo hi (0.0005 * u) 0.00005 η
    hx hwin (fun p hp => hnear p (mask_subset _ _ hp)) hη p q hp hq hTT least ε hl hl1 hl2 hε hmore

end Calk
