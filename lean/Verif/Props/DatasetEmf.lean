import Verif.Props.EmfCalibrate
import Verif.Props.DatasetTrue

/-!
# Property C132: data sets of EMF titrations

The analogue of C118 for the default mode: with references that are exact EMF titrations with hydrochloric
or sulfuric acid, calibrated to zero residual, every row gets the true molinity, alkalinity and EMF0.
-/

namespace Calk
open Flt Spec

theorem AgreeKw.emfRun {w : World} (hw : ByName w) {kw kw' : Dict Val} (h : AgreeKw kw kw')
    (hn : kw'.keys.Nodup) {f : String} {S : Flt} {x K : String → ℝ} {c n g M : ℝ} {pts : List (ℝ × ℝ × ℝ)}
    (hr : EmfRun w f S kw x K c n g M pts) {c' : ℝ} (hc' : 0 ≤ c' * g) : EmfRun w f S kw' x K c' n g M pts where
  loads := by rw [← h.load hw]; exact hr.loads
  keepsTotals := hr.keepsTotals
  keepsKs := hr.keepsKs
  sound := hr.sound
  nodup := hn
  mode := by rw [← h _ (by decide) (by decide)]; exact hr.mode
  sample := by
    have h1 : ∀ k ∈ "dic" :: (optionalContents ++ saltContents), k ∈ keys_solve ∧ k ≠ "gran_logic" := by
      decide
    have h2 : ∀ k ∈ allConstants, k ∈ keys_solve ∧ k ≠ "gran_logic" := by decide
    refine ⟨fun k hk => ?_, fun k hk => ?_, ?_⟩
    · rw [← h k (h1 k hk).1 (h1 k hk).2]; exact hr.sample.contents k hk
    · rw [← h k (h2 k hk).1 (h2 k hk).2]; exact hr.sample.constants k hk
    · rw [← onTotalScale_congr (h _ (by decide) (by decide))]
      exact hr.sample.scale
  sulfate := h.numOr (by decide) (by decide) hr.sulfate
  no_phosphate := by rw [← h _ (by decide) (by decide)]; exact hr.no_phosphate
  no_fluoride := by rw [← h _ (by decide) (by decide)]; exact hr.no_fluoride
  normality := h.numOr (by decide) (by decide) hr.normality
  mass := hr.mass
  masses := hr.masses
  temps := hr.temps
  acid := hc'

/-- **Specification**: the row is an exact EMF titration with hydrochloric (`g = 0`) or sulfuric (`g = 1`) acid.  Its file,
read with the row's settings, is in EMF mode with all contents and constants given (`EmfRun`), the points `pts` at the
temperature `t`; the acid has molinity `c`, the electrode the EMF0 `E`, the sample the alkalinity `A`:
the mixture of `M` kg of it with the acid added satisfies the charge balance at every point. -/
structure Spec.ExactEmf (w : World) (kw : Dict Val) (cols : List String) (r : Row) (A c E : ℝ) (f : String)
    (S : Flt) (x K : String → ℝ) (n g M t : ℝ) (pts : List (ℝ × ℝ × ℝ)) : Prop where
  file : HasFile cols r f S
  run : ∃ st, SettingsOf keys_solve w kw cols r st ∧ EmfRun w f S st x K c n g M pts
  positive : 0 < c
  balance : ∀ p ∈ pts, p.2.2 = t ∧
    (mixture x K p.1 M c g).alk 3 (readAcidity E p) * (p.1 + M) = A * M - p.1 * c * n

/-- **Specification**: a solve with molinity `k c` used points of acidity `least` and more, and two of them,
`p` and `q`, tell alkalinity and EMF0 apart: the second has clearly more acid -/
structure Spec.ToldApart (x K : String → ℝ) (c g E M : ℝ) (pts : List (ℝ × ℝ × ℝ)) (sr : SolveEmf)
    (k least : ℝ) (p q : ℝ × ℝ × ℝ) : Prop where
  least_pos : 0 < least
  acid : ∀ y ∈ mask sr.used pts, least ≤ readAcidity E y ∧ least ≤ k * readAcidity E y
  first : p ∈ mask sr.used pts
  second : q ∈ mask sr.used pts
  found : ∃ A' E' : ℝ, sr.opt_result.x = (fin A', fin E') ∧ least ≤ readAcidity E' p
  more : 0 < acidExcess x K (k * c) g M E least p q

/-- **Specification**: the row can be solved, and two of the points used tell alkalinity and EMF0 apart -/
def Spec.SolvableEmf (w : World) (kw : Dict Val) (cols : List String) (r : Row) (c E : ℝ) (f : String)
    (S : Flt) (x K : String → ℝ) (g M : ℝ) (pts : List (ℝ × ℝ × ℝ)) : Prop :=
  ∀ st, SettingsOf keys_solve w kw cols r st → ∃ sr T least p q,
    files_solve w f (fin c) S st = .ok (.emf sr T) ∧ ToldApart x K c g E M pts sr 1 least p q

/-- **Specification**: what a calibration of the row needs: the true value, numbers where numbers are
expected, an optimiser that ends at a positive molinity with zero residual, and points where little is left of
other bases (the condition of C130) -/
structure Spec.CalibratableEmf (w : World) (kw : Dict Val) (cols : List String) (r : Row) (A c E : ℝ)
    (f : String) (S : Flt) (x K : String → ℝ) (g M : ℝ) (pts : List (ℝ × ℝ × ℝ)) : Prop where
  certified : r "alkalinity_certified" = .num (fin (1e6 * A))
  typed : ∃ st, SettingsOf keys_calibrate w kw cols r st ∧
    (∃ c0, argNum st "titrant_molinity_init" (fin 0.1) = .ok c0) ∧ (∃ o, emf_opts st = .ok o)
  zero : ∀ st, SettingsOf keys_calibrate w kw cols r st → ∀ res,
    files_calibrate w f (fin (1e6 * A)) S st = .ok res →
    res.fun_ = [fin 0] ∧ ∃ c', res.x = fin c' ∧ 0 < c' ∧
      ∀ sr T, files_solve w f (fin c') S st = .ok (.emf sr T) →
        ∃ least B p q, ToldApart x K c g E M pts sr (c' / c) least p q ∧
          (∀ y ∈ mask sr.used pts, leftover x K c g M E (c' / c) y ≤ B) ∧
          (p.1 + M) * ((1 + Real.sqrt (mask sr.used pts).length) * B)
            * (1 + (1 + (mixture x K p.1 M c' g).buffering least) * readAcidity E p
              * (((p.1 + M) + (q.1 + M)) / acidExcess x K c' g M E least p q)) < A * M

/-- an exact EMF titration, two of whose points tell alkalinity and EMF0 apart, is solved exactly -/
theorem exact_told {w : World} {f : String} {S : Flt} {st : Dict Val} {x K : String → ℝ} {c n g M : ℝ}
    {pts : List (ℝ × ℝ × ℝ)} (hrun : EmfRun w f S st x K c n g M pts) (hmin : LsGlobalMin w.ls) {A E t : ℝ}
    (hbal : ∀ p ∈ pts, p.2.2 = t ∧
      (mixture x K p.1 M c g).alk 3 (readAcidity E p) * (p.1 + M) = A * M - p.1 * c * n)
    {sr : SolveEmf} {T : List Flt} {least : ℝ} {p q : ℝ × ℝ × ℝ}
    (hr : files_solve w f (fin c) S st = .ok (.emf sr T)) (ht : ToldApart x K c g E M pts sr 1 least p q) :
    sr.alkalinity = fin (1e6 * A) ∧ sr.emf0 = fin E := by
  obtain ⟨A', E', hx, hl'⟩ := ht.found
  have hM := hrun.mass
  have e1 : shiftedEmf0 E t 1 = E := by rw [shiftedEmf0, Real.log_one, mul_zero, sub_zero]
  have hr' : files_solve w f (fin (1 * c)) S st = .ok (.emf sr T) := by rw [one_mul]; exact hr
  obtain ⟨r1, r2, r3, r4⟩ := C124_general w f S st x K c 1 n g M pts (by rw [one_mul]; exact hrun) one_pos hmin sr T
    hr' A E A' E' t least 0 hx ht.least_pos
    (fun y hy => ⟨(hbal y (mask_subset _ _ hy)).1, (ht.acid y hy).1, (ht.acid y hy).2,
      (hbal y (mask_subset _ _ hy)).2⟩)
    (fun y hy => by simp) p q ht.first ht.second hl' _ _ _ rfl rfl
    (by rw [e1]; exact ht.more) rfl
  have hoff : acidityOff x K (1 * c) g M (shiftedEmf0 E t 1) least
      ((1 + Real.sqrt (mask sr.used pts).length) * 0) p q = 0 := by
    unfold acidityOff
    rw [mul_zero, mul_zero, zero_div]
  rw [hoff, mul_zero, mul_zero, add_zero, mul_zero] at r3
  rw [hoff, e1] at r4
  have hA : A' = A := by
    have h0 : |A' - 1 * A| = 0 := le_antisymm (by
      by_contra hlt
      push Not at hlt
      have := mul_pos hlt hM
      linarith) (abs_nonneg _)
    have := abs_eq_zero.mp h0
    linarith
  have hE : E' = E := by
    have h0 := r4 one_pos
    rw [zero_div, mul_zero] at h0
    have := abs_nonpos_iff.mp h0
    linarith
  subst hA hE
  exact ⟨r1, r2⟩

theorem exactEmf_solve {w : World} (hw : ByName w) (hmin : LsGlobalMin w.ls) {kw : Dict Val} {cols : List String}
    {r : Row} {A c E : ℝ} {f : String} {S : Flt} {x K : String → ℝ} {n g M t : ℝ} {pts : List (ℝ × ℝ × ℝ)}
    (h : ExactEmf w kw cols r A c E f S x K n g M t pts) (hs : SolvableEmf w kw cols r c E f S x K g M pts)
    {st : Dict Val} (hst : SettingsOf keys_solve w kw cols r st) :
    ∃ sr T, files_solve w f (fin c) S st = .ok (.emf sr T) ∧ sr.alkalinity = fin (1e6 * A) ∧ sr.emf0 = fin E := by
  obtain ⟨-, ⟨st0, hst0, hrun⟩, hc, hbal⟩ := h
  have hrun' := (hst0.agree hst (fun _ h _ => h) (fun _ h _ => h)).emfRun hw hst.1 hrun hrun.acid
  obtain ⟨sr, T, least, p, q, hr, ht⟩ := hs st hst
  obtain ⟨h1, h2⟩ := exact_told hrun' hmin hbal hr ht
  exact ⟨sr, T, hr, h1, h2⟩

theorem emfRun_regular {w : World} (ho : ReportsEvaluated w.opt) (ho' : FiniteTrials w.opt) {f : String}
    {S : Flt} {kw : Dict Val} {x K : String → ℝ} {c n g M : ℝ} {pts : List (ℝ × ℝ × ℝ)}
    (h : EmfRun w f S kw x K c n g M pts)
    (hc0 : ∃ c0, argNum kw "titrant_molinity_init" (fin 0.1) = .ok c0) (hopts : ∃ o, emf_opts kw = .ok o) :
    Regular w f S kw := by
  obtain ⟨cv, totals, ks, hl, htm, hM, hm, hT⟩ := h.loads
  obtain ⟨c0, hc0⟩ := hc0
  obtain ⟨tts, ht, -⟩ := titrant_totals_sulfate h.nodup h.sulfate h.no_phosphate h.no_fluoride
  refine ⟨ho, cv, totals, ks, "emf", c0, tts, hl, ⟨?_, hc0, ht, hopts⟩, by decide, by rw [hm, hT]; simp,
    .inr ⟨ho', pts.map (·.1), M, by rw [htm, List.map_map]; rfl, hM, fun m hm => ?_⟩⟩
  · unfold solve_mode argVal
    rcases h.mode with hs | ⟨s, hs, hs'⟩
    · rw [hs]; rfl
    · rw [hs, ← hs']; rfl
  · obtain ⟨p, hp, rfl⟩ := List.mem_map.mp hm
    have := h.masses p hp
    have := h.mass
    positivity

theorem exactEmf_reference {w : World} (hw : ByName w) (hmin : LsGlobalMin w.ls) (ho : ReportsEvaluated w.opt)
    (ho' : FiniteTrials w.opt) {kw : Dict Val} {cols : List String} {r : Row} {A c E : ℝ} {f : String} {S : Flt}
    {x K : String → ℝ} {n g M t : ℝ} {pts : List (ℝ × ℝ × ℝ)}
    (h : ExactEmf w kw cols r A c E f S x K n g M t pts)
    (hc : CalibratableEmf w kw cols r A c E f S x K g M pts) : TrueReference w kw cols r A c := by
  obtain ⟨hf, ⟨st, hst, hrun⟩, hpos, hbal⟩ := h
  refine ⟨f, S, hf, ?_, hc.certified, fun st' hst' res hres => ?_⟩
  · obtain ⟨-, kwb, hb, -⟩ := hst
    exact ⟨kwb, hb⟩
  obtain ⟨sc, hsc, hc0, hopts⟩ := hc.typed
  obtain ⟨hz, c', hx, hc', hside⟩ := hc.zero st' hst' res hres
  have hrun' := (hst.agree hst' (fun _ h _ => h) calibrate_keys).emfRun hw hst'.1 hrun (c' := c')
    (mul_nonneg hc'.le (nonneg_of_mul_nonneg_right hrun.acid hpos))
  have hsame := hsc.same hst'
  have hreg : Regular w f S st' := emfRun_regular ho ho' hrun' (by rw [← hsame.argNum]; exact hc0)
    (by rw [← emf_opts_congr hsame]; exact hopts)
  have hgl : st'.get? "gran_logic" = none := by
    obtain ⟨-, kwb, -, hget⟩ := hst'
    rw [hget, if_neg (by decide)]
  obtain ⟨sr, hsr, -⟩ := C44_file w f _ S st' res hreg hgl hres hz
  rw [hx] at hsr
  obtain ⟨s, rfl, -⟩ := C112_estimates w f S st' x K c' n g M pts hrun' _ hsr
  obtain ⟨least, B, p, q, ht, hB, hsmall⟩ := hside s _ hsr
  obtain ⟨A', E', hx', hl'⟩ := ht.found
  have hmore := ht.more
  rw [div_mul_cancel₀ _ hpos.ne'] at hmore
  rw [hx, (C130_recovers w f S st' x K c c' n g M pts hrun' hpos hc' hmin A E t least B hreg hgl res hres hz hx
    s _ hsr A' E' hx' ht.least_pos (fun y hy => ⟨(hbal y (mask_subset _ _ hy)).1, (ht.acid y hy).1,
      (ht.acid y hy).2, (hbal y (mask_subset _ _ hy)).2⟩) hB p q ht.first ht.second hl' hmore hsmall).1]

/-- **C132**: a data set of exact EMF titrations.  If the references used are exact titrations with the
(hydrochloric or sulfuric) acid of their batch, have true certified values and were calibrated to zero residual, at points where
little is left of other bases, then every row of a batch that has one gets the true molinity, and every row that
is an exact titration its true alkalinity and EMF0. -/
theorem C132_emf (w : World) (hw : ByName w) (hmin : LsGlobalMin w.ls) (ho : ReportsEvaluated w.opt)
    (ho' : FiniteTrials w.opt) (kw : Dict Val) (df df' : DF) (hkw : kw.keys.Nodup)
    (h : dataset_calibrate w kw df = (.ok (), df'))
    (hl : ∀ r ∈ df'.rows, Label (r "analysis_batch")) (c : Val → ℝ)
    (href : List.Forall₂ (fun r r' => IsReference r' → ∃ A E f S x K n g M t pts,
      ExactEmf w kw df.cols r A (c (r' "analysis_batch")) E f S x K n g M t pts ∧
      CalibratableEmf w kw df.cols r A (c (r' "analysis_batch")) E f S x K g M pts) df.rows df'.rows) :
    List.Forall₂ (fun r r' =>
      (∃ q ∈ df'.rows, IsReference q ∧ q "analysis_batch" = r' "analysis_batch") →
      r' "titrant_molinity" = .num (fin (c (r' "analysis_batch"))) ∧
      ∀ A E f S x K n g M t pts, ExactEmf w kw df.cols r A (c (r' "analysis_batch")) E f S x K n g M t pts →
        SolvableEmf w kw df.cols r (c (r' "analysis_batch")) E f S x K g M pts →
        r' "alkalinity" = .num (fin (1e6 * A)) ∧ r' "emf0" = .num (fin E) ∧
        (r "alkalinity_certified" = .num (fin (1e6 * A)) → r' "alkalinity_offset" = .num (fin 0)))
      df.rows df'.rows := by
  have hset := C118_dataset w kw df df' hkw h hl c (href.imp fun r r' hr hi => by
    obtain ⟨A, E, f, S, x, K, n, g, M, t, pts, h1, h2⟩ := hr hi
    exact ⟨A, exactEmf_reference hw hmin ho ho' h1 h2⟩)
  refine (forall₂_both hset (C97_solve w kw df df' h)).imp ?_
  rintro r r' ⟨hr, hs⟩ hq
  obtain ⟨hc, htrue⟩ := hr hq
  refine ⟨hc, fun A E f S x K n g M t pts hx hsol => ?_⟩
  obtain ⟨st0, hst0, -⟩ := hx.run
  obtain ⟨-, kwb, hb, -⟩ := hst0
  have hf := hx.file
  obtain ⟨ha, hoff⟩ := htrue A ⟨f, S, hf, ⟨kwb, hb⟩, fun st hst => by
    obtain ⟨sr, T, h1, h2, -⟩ := exactEmf_solve hw hmin hx hsol hst
    exact ⟨_, h1, h2⟩⟩
  refine ⟨ha, ?_, hoff⟩
  obtain ⟨st, hst, hget, hok, -⟩ := hs f _ S kwb hf.column hf.name hc (by simp) hf.salinity hf.good hb
  obtain ⟨sr, T, h1, -, h3⟩ := exactEmf_solve hw hmin hx hsol ⟨hst hkw, kwb, hb, hget⟩
  obtain ⟨⟨-, he, -⟩, -⟩ := hok _ h1
  rw [he, h3]

/-! ### A case: a reference and a sample, the titration of C112 -/

def deNames : List String :=
  [ "analyte_mass", "titrant_amount_unit", "emf0_init", "alkalinity_init" ] ++
  ("dic" :: (optionalContents ++ saltContents)) ++ allConstants

theorem de_keys : (qArgs 400).keys = deNames := rfl

noncomputable def deArgs : Dict Val := qArgs 400 ++ [("opt_total_borate", .num (fin 1))]

noncomputable def deRow (cert : Flt) : Row := cellRow (qArgs 400) cert

def deCols : List String := ["file_name", "salinity", "alkalinity_certified"] ++ deNames

theorem de_not_null : ∀ kv ∈ qArgs 400, kv.2.isNull = false := by
  intro kv hkv
  simp only [qArgs, List.mem_append, List.mem_cons, List.not_mem_nil, or_false, List.mem_map] at hkv
  rcases hkv with ((rfl | rfl | rfl | rfl) | ⟨k, -, rfl⟩) | ⟨k, -, rfl⟩ <;> rfl

theorem de_solve_settings (w : World) (cert : Flt) : SettingsOf keys_solve w [] deCols (deRow cert) deArgs :=
  cell_settings w cert (qArgs 400) ec_run.nodup de_not_null (by rw [de_keys]; decide)
    (by rw [de_keys]; decide) (by rw [de_keys]; decide) (by rw [de_keys]; decide) keys_solve (by decide)
    (by decide)

theorem de_cal_settings (w : World) (cert : Flt) : SettingsOf keys_calibrate w [] deCols (deRow cert) deArgs :=
  cell_settings w cert (qArgs 400) ec_run.nodup de_not_null (by rw [de_keys]; decide)
    (by rw [de_keys]; decide) (by rw [de_keys]; decide) (by rw [de_keys]; decide) keys_calibrate (by decide)
    (by decide)

theorem de_load : load ecWorld "a.dat" (fin 35) deArgs = load ecWorld "a.dat" (fin 35) (qArgs 400) := by
  with_unfolding_all rfl

theorem de_same (c : Flt) : files_solve ecWorld "a.dat" c (fin 35) deArgs
    = files_solve ecWorld "a.dat" c (fin 35) (qArgs 400) := by
  unfold files_solve
  rw [de_load]
  rfl

theorem de_byName : ByName ecWorld := fun _ _ _ _ => rfl

theorem de_run : EmfRun ecWorld "a.dat" (fin 35) deArgs pContents qConstants qAcid 1 0 0.1 (qPts 400) :=
  let h := ec_run
  have hget : ∀ k ∈ deNames, deArgs.get? k = (qArgs 400).get? k := by
    intro k hk
    unfold deArgs
    rw [Dict.get?_append]
    cases h : (qArgs 400).get? k with
    | some v => rfl
    | none => exact absurd hk ((Dict.get?_eq_none_iff _ _).mp h)
  { loads := by rw [de_load]; exact h.loads
    keepsTotals := h.keepsTotals, keepsKs := h.keepsKs, sound := h.sound
    nodup := (de_solve_settings ecWorld nan).1
    mode := h.mode
    sample :=
      { contents := fun k hk => by
          rw [hget k (List.mem_append_left _ (List.mem_append_right _ hk))]; exact h.sample.contents k hk
        constants := fun k hk => by
          rw [hget k (List.mem_append_right _ hk)]; exact h.sample.constants k hk
        scale := h.sample.scale }
    sulfate := h.sulfate, no_phosphate := rfl, no_fluoride := rfl, normality := h.normality
    mass := h.mass, masses := h.masses, temps := h.temps, acid := h.acid }

theorem de_acid : 0 < qAcid := by have := wm_acids.1; linarith

/-- solving the file with the true molinity, whatever the order of its settings -/
theorem de_solved {st : Dict Val} (hn : st.keys.Nodup) (hs : SameGet deArgs st) :
    ∃ sr T, files_solve ecWorld "a.dat" (fin qAcid) (fin 35) st = .ok (.emf sr T) ∧
      sr.opt_result.x = (fin qTrue, fin 400) ∧ sr.used = [true, true] ∧ sr.alkalinity = fin (1e6 * qTrue) := by
  obtain ⟨sr, h, hx, hu⟩ := q_solve 400
  have h' : files_solve ecWorld "a.dat" (fin qAcid) (fin 35) (qArgs 400) = _ := h
  obtain ⟨sr', he, hrep⟩ := C112_estimates ecWorld "a.dat" (fin 35) (qArgs 400) pContents qConstants qAcid 1 0 0.1
    (qPts 400) ec_run _ h'
  cases he
  refine ⟨sr, _, files_solve_alike de_byName (de_solve_settings ecWorld nan).1 hn
    ⟨fun k _ _ => hs k, fun k _ _ => argNotNull_of_get (hs k)⟩ ((de_same _).trans h'), hx, hu,
    (hrep _ _ hx (by rw [hu]; simp)).1⟩

noncomputable def dePoint1 : ℝ × ℝ × ℝ := (0.001, nernst 400 25 2e-4, 25)

noncomputable def dePoint2 : ℝ × ℝ × ℝ := (0.002, nernst 400 25 9e-4, 25)

theorem de_read1 : readAcidity 400 dePoint1 = 2e-4 := read_nernst _ (by norm_num) (by norm_num)

theorem de_read2 : readAcidity 400 dePoint2 = 9e-4 := read_nernst _ (by norm_num) (by norm_num)

theorem de_buffer : (mixture pContents qConstants 0.001 0.1 qAcid 0).buffering 2e-4 ≤ 0.26 := by
  norm_num [Sol.buffering, mono, mixture, mixContent, pContents, qConstants]

theorem de_excess : 6.5e-5 ≤ acidExcess pContents qConstants qAcid 0 0.1 400 2e-4 dePoint1 dePoint2 := by
  unfold acidExcess
  rw [de_read1, de_read2]
  show _ ≤ (0.002 + 0.1) * 9e-4
    - (1 + (mixture pContents qConstants 0.001 0.1 qAcid 0).buffering 2e-4) * ((0.001 + 0.1) * 2e-4)
  have := de_buffer
  nlinarith

theorem de_apart {sr : SolveEmf} (hx : sr.opt_result.x = (fin qTrue, fin 400)) (hu : sr.used = [true, true]) :
    ToldApart pContents qConstants qAcid 0 400 0.1 (qPts 400) sr 1 2e-4 dePoint1 dePoint2 := by
  have hm : mask sr.used (qPts 400) = [dePoint1, dePoint2] := by rw [hu]; rfl
  have := de_excess
  refine ⟨by norm_num, ?_, by rw [hm]; simp, by rw [hm]; simp, ⟨_, _, hx, de_read1.ge⟩, by rw [one_mul]; linarith⟩
  intro y hy
  rw [hm] at hy
  simp only [List.mem_cons, List.not_mem_nil, or_false] at hy
  rw [one_mul]
  rcases hy with rfl | rfl
  · exact ⟨de_read1.ge, de_read1.ge⟩
  · rw [de_read2]; norm_num

theorem de_exact (cert : Flt) : ExactEmf ecWorld [] deCols (deRow cert) qTrue qAcid 400 "a.dat" (fin 35)
    pContents qConstants 1 0 0.1 25 (qPts 400) where
  file := cell_file (qArgs 400) cert (by rw [de_keys]; decide)
  run := ⟨deArgs, de_solve_settings _ cert, de_run⟩
  positive := de_acid
  balance p hp := by
    have h3 := (q_exact 400 p hp).2.2
    have hp' : p ∈ [dePoint1, dePoint2] := hp
    simp only [List.mem_cons, List.not_mem_nil, or_false] at hp'
    rcases hp' with rfl | rfl
    · exact ⟨rfl, h3⟩
    · exact ⟨rfl, h3⟩

theorem de_solvable (cert : Flt) : SolvableEmf ecWorld [] deCols (deRow cert) qAcid 400 "a.dat" (fin 35)
    pContents qConstants 0 0.1 (qPts 400) := by
  intro st hst
  obtain ⟨sr, T, h, hx, hu, -⟩ := de_solved hst.1 ((de_solve_settings ecWorld cert).same hst)
  exact ⟨sr, T, 2e-4, dePoint1, dePoint2, h, de_apart hx hu⟩

theorem de_calibrate (cert : Flt) {st : Dict Val}
    (hst : SettingsOf keys_calibrate ecWorld [] deCols (deRow cert) st) :
    files_calibrate ecWorld "a.dat" (fin (1e6 * qTrue)) (fin 35) st = .ok ⟨fin qAcid, [fin 0]⟩ := by
  have hsame := (de_cal_settings ecWorld cert).same hst
  have hag := (de_cal_settings ecWorld cert).agree hst calibrate_keys calibrate_keys
  obtain ⟨sr, T, h, hx, hu, ha⟩ := de_solved hst.1 hsame
  obtain ⟨totals, ks, hl⟩ := q_load 400
  have hl' : load ecWorld "a.dat" (fin 35) st = .ok (qCv 400, totals, ks) := by
    rw [← hag.load de_byName, de_load]; exact hl
  have htt : titrant_totals st = .ok [] := by
    have : st.filter (fun kv => keys_titrant_totals.contains kv.1) = [] := by
      rw [List.filter_eq_nil_iff]
      intro kv hkv hc
      have hg := Dict.mem_get? hst.1 hkv
      rw [← hsame] at hg
      have : kv.1 ∈ keys_titrant_totals := by simpa using hc
      simp only [keys_titrant_totals, List.mem_cons, List.not_mem_nil, or_false] at this
      rcases this with e | e | e <;> (rw [e] at hg; cases hg)
    unfold titrant_totals
    rw [this]; rfl
  have htyped : Typed st "emf" (fin 0.1) (ttArgs []) := by
    refine ⟨?_, ?_, htt, ?_⟩
    · unfold solve_mode argVal
      rw [← hsame "solve_mode"]
      exact ec_typed.mode
    · rw [← hsame.argNum]; rfl
    · rw [← emf_opts_congr hsame]; exact ⟨_, rfl⟩
  have hgl : st.get? "gran_logic" = none := by rw [← hsame]; rfl
  have hc := C32_same_solver ecWorld "a.dat" "emf" (fin (1e6 * qTrue)) (fin 35) (fin 0.1) st
    (qCv 400) totals ks hl' htyped hgl (by decide) rfl
  have hs : solveRes ecWorld "a.dat" (fin 35) (fin (1e6 * qTrue)) st (fin qAcid) () = (.ok [fin 0], ()) := by
    simp only [solveRes, h, bind_ok, pure_ok, SolveRes.alkalinity, ha, sub_fin, PyS.lift, sub_self]
  rw [hc]
  show ((lsqAt qAcid).run (solveRes ecWorld "a.dat" (fin 35) (fin (1e6 * qTrue)) st) (fin 0.1) ()).1 = _
  simp [Lsq.run, Lsq.loop, lsqAt, allFinite, PyS.bind_apply, hs]

theorem de_calibratable : CalibratableEmf ecWorld [] deCols (deRow (fin (1e6 * qTrue))) qTrue qAcid 400 "a.dat"
    (fin 35) pContents qConstants 0 0.1 (qPts 400) where
  certified := rfl
  typed := ⟨deArgs, de_cal_settings _ _, ⟨_, rfl⟩, ⟨_, rfl⟩⟩
  zero st hst res hres := by
    rw [de_calibrate _ hst] at hres
    rw [← Except.ok.inj hres]
    refine ⟨rfl, qAcid, rfl, de_acid, fun sr T h => ?_⟩
    obtain ⟨sr', T', h', hx, hu, -⟩ := de_solved hst.1 ((de_cal_settings ecWorld _).same hst)
    rw [h'] at h
    cases h
    have hm : mask sr.used (qPts 400) = qPts 400 := by rw [hu]; rfl
    rw [div_self de_acid.ne']
    refine ⟨2e-4, 1.2e-4, dePoint1, dePoint2, de_apart hx hu, by rw [hm]; exact ec_leftover, ?_⟩
    rw [hm, de_read1]
    refine lt_of_le_of_lt ?_ (lt_of_lt_of_le (by norm_num : (5.3e-5 : ℝ) < 5.4e-5) ec_true)
    have hlen : ((qPts 400).length : ℝ) = 2 := by
      show (([dePoint1, dePoint2] : List _).length : ℝ) = 2
      norm_num
    have hs2 : Real.sqrt 2 ≤ 1.4143 := by
      rw [Real.sqrt_le_left (by norm_num)]; norm_num
    have hb := de_buffer
    have hex := de_excess
    have b0 := (q_buffer (m := 0.001) (lo := 2e-4) (.inl rfl) (by norm_num)).1
    rw [hlen]
    show (0.001 + 0.1) * ((1 + Real.sqrt 2) * 1.2e-4)
      * (1 + (1 + (mixture pContents qConstants 0.001 0.1 qAcid 0).buffering 2e-4) * 2e-4
        * (((0.001 + 0.1) + (0.002 + 0.1)) / acidExcess pContents qConstants qAcid 0 0.1 400 2e-4 dePoint1 dePoint2))
      ≤ 5.3e-5
    calc _ ≤ ((0.001 : ℝ) + 0.1) * ((1 + 1.4143) * 1.2e-4) * (1 + (1 + 0.26) * 2e-4 * (((0.001 + 0.1) + (0.002 + 0.1))
          / 6.5e-5)) := by gcongr
      _ ≤ (5.3e-5 : ℝ) := by norm_num

/-- every hypothesis of `C132_emf` is met: the sample, which has no certified value, gets the molinity
found with the reference and its true alkalinity and EMF0 -/
example : ∃ (df' : DF) (r1 r2 : Row),
    dataset_calibrate ecWorld [] ⟨deCols, [deRow (fin (1e6 * qTrue)), deRow nan]⟩ = (.ok (), df') ∧
    df'.rows = [r1, r2] ∧ r2 "titrant_molinity" = .num (fin qAcid) ∧
    r2 "alkalinity" = .num (fin (1e6 * qTrue)) ∧ r2 "emf0" = .num (fin 400) ∧
    r1 "alkalinity_offset" = .num (fin 0) := by
  obtain ⟨df', r1, r2, h, hr, hb, h1, h2⟩ := cell_frame ecWorld (qArgs 400) qTrue qAcid
    (by rw [de_keys]; decide) (by rw [de_keys]; decide) (by rw [de_keys]; decide)
    (by rw [de_keys]; decide) (by rw [de_keys]; decide)
    (fun st hst => de_calibrate _ hst)
  have hmain := C132_emf ecWorld de_byName lsExact_contracts.2 (lsqAt_reports _) (lsqAt_finite _) [] _ df'
    (by decide) h (fun r hr => by rw [hb r hr]; exact .inr ⟨_, rfl, by simp⟩) (fun _ => qAcid)
  rw [hr] at hmain hb
  simp only [List.forall₂_cons, List.Forall₂.nil, and_true] at hmain
  obtain ⟨g1, g2⟩ := hmain
    ⟨fun _ => ⟨qTrue, 400, "a.dat", fin 35, pContents, qConstants, 1, 0, 0.1, 25, qPts 400, de_exact _, de_calibratable⟩,
      fun hi => absurd hi h2⟩
  have hq : ∀ r ∈ [r1, r2], ∃ q ∈ [r1, r2], IsReference q ∧ q "analysis_batch" = r "analysis_batch" :=
    fun r hr => ⟨r1, by simp, h1, by rw [hb r1 (by simp), hb r hr]⟩
  have g1 := (g1 (hq r1 (by simp))).2 _ _ _ _ _ _ _ _ _ _ _ (de_exact _) (de_solvable _)
  have g2 := g2 (hq r2 (by simp))
  have g3 := g2.2 _ _ _ _ _ _ _ _ _ _ _ (de_exact _) (de_solvable _)
  exact ⟨df', r1, r2, h, hr, g2.1, g3.1, g3.2.1, g1.2.2 rfl⟩

end Calk
