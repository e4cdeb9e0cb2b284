import Verif.Props.DatasetInputs
import Verif.Props.FileGran

/-!
# Property C118: a data set of exact titrations, calibrated on some of them
-/

namespace Calk
open Flt

/-! ## Specification -/

/-- the settings of a row, in whatever order they are handed on: those of `keys`, each found as in
C96 -/
def Spec.SettingsOf (keys : List String) (w : World) (kw : Dict Val) (cols : List String) (r : Row)
    (st : Dict Val) : Prop :=
  st.keys.Nodup ∧ ∃ kwb, backcompat kw (rowDict cols r) = .ok kwb ∧
    ∀ k, st.get? k = if k ∈ keys then setting w kwb cols r k else none

/-- the row has a file that is not marked as bad, and a salinity -/
structure Spec.HasFile (cols : List String) (r : Row) (f : String) (S : Flt) : Prop where
  column : "file_name" ∈ cols
  name : r "file_name" = .str f
  salinity : r "salinity" = .num S
  good : "file_good" ∈ cols → Spec.Counts (r "file_good")

/-- the row is a titration, with acid of molinity `c`, of a sample of alkalinity `A`: solved with that
molinity, the file gives that alkalinity -/
def Spec.TrueRow (w : World) (kw : Dict Val) (cols : List String) (r : Row) (A c : ℝ) : Prop :=
  ∃ f S, Spec.HasFile cols r f S ∧ (∃ kwb, backcompat kw (rowDict cols r) = .ok kwb) ∧
    ∀ st, Spec.SettingsOf keys_solve w kw cols r st →
      ∃ sr, files_solve w f (fin c) S st = .ok sr ∧ sr.alkalinity = fin (1e6 * A)

/-- the row is a reference titrated with acid of molinity `c`: its certified value is the alkalinity
`A`, and a calibration of the file with that value, if it returns, finds the molinity -/
def Spec.TrueReference (w : World) (kw : Dict Val) (cols : List String) (r : Row) (A c : ℝ) : Prop :=
  ∃ f S, Spec.HasFile cols r f S ∧ (∃ kwb, backcompat kw (rowDict cols r) = .ok kwb) ∧
    r "alkalinity_certified" = .num (fin (1e6 * A)) ∧
    ∀ st, Spec.SettingsOf keys_calibrate w kw cols r st →
      ∀ res, files_calibrate w f (fin (1e6 * A)) S st = .ok res → res.x = fin c

/-- a row of the result that was used to calibrate its batch: flagged good, and calibrated -/
def Spec.IsReference (r' : Row) : Prop :=
  r' "reference_good" = .bool true ∧ (r' "titrant_molinity_here").isNull = false

open Spec

theorem forall₂_both {α β : Type} {R S : α → β → Prop} {l : List α} {l' : List β}
    (h : List.Forall₂ R l l') (h' : List.Forall₂ S l l') :
    List.Forall₂ (fun a b => R a b ∧ S a b) l l' := by
  induction h with
  | nil => exact .nil
  | cons hr _ ih =>
    cases h' with
    | cons hs hs' => exact .cons ⟨hr, hs⟩ (ih hs')

theorem forall₂_mem_right {α β : Type} {R : α → β → Prop} {l : List α} {l' : List β}
    (h : List.Forall₂ R l l') {y : β} (hy : y ∈ l') : ∃ x ∈ l, R x y := by
  induction h with
  | nil => simp at hy
  | cons hr _ ih =>
    rcases List.mem_cons.mp hy with rfl | hy
    · exact ⟨_, by simp, hr⟩
    · obtain ⟨m, h1, h2⟩ := ih hy; exact ⟨m, by simp [h1], h2⟩

theorem forall₂_with_mem {α β : Type} {R : α → β → Prop} {l : List α} {l' : List β}
    (h : List.Forall₂ R l l') : List.Forall₂ (fun a b => R a b ∧ b ∈ l') l l' := by
  induction h with
  | nil => exact .nil
  | cons hr _ ih =>
    exact .cons ⟨hr, by simp⟩ (ih.imp fun _ _ h => ⟨h.1, List.mem_cons_of_mem _ h.2⟩)

theorem mean_same {xs : List Flt} {c : ℝ} (h : ∀ y ∈ xs, y = fin c) (hne : xs ≠ []) :
    npMean xs = fin c := by
  obtain ⟨n, hn⟩ : ∃ n, xs = (List.replicate n c).map fin :=
    ⟨xs.length, by rw [List.map_replicate]; exact List.eq_replicate_iff.mpr ⟨rfl, h⟩⟩
  have hn0 : n ≠ 0 := by rintro rfl; exact hne (by simpa using hn)
  have hn' : (n : ℝ) ≠ 0 := by exact_mod_cast hn0
  rw [hn, npMean_map_fin _ (by simpa using hn0), rmean, List.sum_replicate, List.length_replicate, nsmul_eq_mul]
  congr 1
  field_simp

theorem true_here {w : World} {kw : Dict Val} {df df' : DF} (hkw : kw.keys.Nodup)
    (h : dataset_calibrate w kw df = (.ok (), df')) {c : Val → ℝ}
    (href : List.Forall₂ (fun r r' => IsReference r' →
      ∃ A, TrueReference w kw df.cols r A (c (r' "analysis_batch"))) df.rows df'.rows) :
    ∀ q ∈ df'.rows, IsReference q → q "titrant_molinity_here" = .num (fin (c (q "analysis_batch"))) := by
  intro q hq hisr
  obtain ⟨r, -, h1, h2⟩ := forall₂_mem_right (forall₂_both (C97_calibrate w kw df df' h) href) hq
  obtain ⟨A, f, S, hf, ⟨kwb, hb⟩, hcert, hx⟩ := h2 hisr
  obtain ⟨st, hst, hget, hok, herr⟩ :=
    h1 f _ S kwb hf.column hf.name hcert (by simp) hf.salinity hf.good hb
  cases hres : files_calibrate w f (fin (1e6 * A)) S st with
  | ok res => rw [hok res hres, hx st ⟨hst hkw, kwb, hb, hget⟩ res hres]
  | error e =>
    have := hisr.2
    rw [herr e hres] at this
    simp [Val.isNull, Flt.isNaN] at this

/-- **C118**: if every reference that was used is a titration with the acid of its batch and a true
certified value, then every row of a batch that has one gets the molinity of the acid, and if it is a
titration with that acid of a sample of alkalinity `A`, that alkalinity (offset zero, for a certified
value that is true). -/
theorem C118_dataset (w : World) (kw : Dict Val) (df df' : DF) (hkw : kw.keys.Nodup)
    (h : dataset_calibrate w kw df = (.ok (), df'))
    (hl : ∀ r ∈ df'.rows, Label (r "analysis_batch")) (c : Val → ℝ)
    (href : List.Forall₂ (fun r r' => IsReference r' →
      ∃ A, TrueReference w kw df.cols r A (c (r' "analysis_batch"))) df.rows df'.rows) :
    List.Forall₂ (fun r r' =>
      (∃ q ∈ df'.rows, IsReference q ∧ q "analysis_batch" = r' "analysis_batch") →
      r' "titrant_molinity" = .num (fin (c (r' "analysis_batch"))) ∧
      ∀ A, TrueRow w kw df.cols r A (c (r' "analysis_batch")) →
        r' "alkalinity" = .num (fin (1e6 * A)) ∧
        (r "alkalinity_certified" = .num (fin (1e6 * A)) → r' "alkalinity_offset" = .num (fin 0)))
      df.rows df'.rows := by
  have hhere := true_here hkw h href
  have hmean : ∀ b, (∃ q ∈ df'.rows, IsReference q ∧ q "analysis_batch" = b) →
      npMean (goodHere df'.rows b) = fin (c b) := by
    rintro b ⟨q, hq, hisr, rfl⟩
    refine mean_same ?_ (List.ne_nil_of_mem (a := fin (c (q "analysis_batch"))) ?_)
    · intro y hy
      unfold goodHere at hy
      obtain ⟨p, hp, hpy⟩ := List.mem_filterMap.mp hy
      cases hc : p "titrant_molinity_here" with
      | num x =>
        rw [hc] at hpy
        simp only [Option.ite_none_right_eq_some, Option.some.injEq] at hpy
        obtain ⟨⟨h1, h2, h3⟩, rfl⟩ := hpy
        have := hhere p hp ⟨h2, by
          rw [hc]; cases x <;> first | rfl | exact absurd rfl h3⟩
        rw [hc, h1] at this
        exact Val.num.inj this
      | _ => rw [hc] at hpy; cases hpy
    · unfold goodHere
      refine List.mem_filterMap.mpr ⟨q, hq, ?_⟩
      rw [hhere q hq hisr]
      simp only
      rw [if_pos ⟨rfl, hisr.1, by simp⟩]
  refine (forall₂_with_mem (C97_solve w kw df df' h)).imp ?_
  rintro r r' ⟨hs, hr'⟩ hq
  have hc : r' "titrant_molinity" = .num (fin (c (r' "analysis_batch"))) := by
    rw [C43_batch_mean w kw df df' h hl r' hr', hmean _ hq]
  refine ⟨hc, ?_⟩
  rintro A ⟨f, S, hf, ⟨kwb, hb⟩, hsol⟩
  obtain ⟨st, hst, hget, hok, -⟩ := hs f _ S kwb hf.column hf.name hc (by simp) hf.salinity hf.good hb
  obtain ⟨sr, hsr, ha⟩ := hsol st ⟨hst hkw, kwb, hb, hget⟩
  obtain ⟨hrep, hoff⟩ := hok sr hsr
  constructor
  · have : r' "alkalinity" = .num sr.alkalinity := by cases sr <;> exact hrep.1
    rw [this, ha]
  · intro hcert
    rw [hoff _ hcert, ha, sub_fin, sub_self]

/-! ## pH mode -/

/-- keyword arguments that agree, but for `gran_logic` and the start of a calibration -/
def AgreeKw (kw kw' : Dict Val) : Prop :=
  ∀ k ∈ keys_solve, k ≠ "gran_logic" → kw.get? k = kw'.get? k

theorem AgreeKw.load {w : World} (hw : ByName w) {kw kw' : Dict Val} (h : AgreeKw kw kw') (f : String)
    (S : Flt) : load w f S kw = load w f S kw' := by
  have h1 : ∀ k ∈ keys_read_dat, k ∈ keys_solve ∧ k ≠ "gran_logic" := by decide
  have h2 : ∀ k ∈ keys_cau, k ∈ keys_solve ∧ k ≠ "gran_logic" := by decide
  have h3 : ∀ k ∈ keys_totals_ks, k ∈ keys_solve ∧ k ≠ "gran_logic" := by decide
  have e : ∀ fn, w.readDat fn (get_kwargs_for keys_read_dat kw none)
      = w.readDat fn (get_kwargs_for keys_read_dat kw' none) := fun fn =>
    hw fn _ _ (SameGet.kwargs fun k hk => h k (h1 k hk).1 (h1 k hk).2)
  simp only [Calk.load, full_name, h "file_path" (by decide) (by decide), e,
    amount_units_congr (SameGet.kwargs fun k hk => h k (h2 k hk).1 (h2 k hk).2),
    totals_ks_congr (SameGet.kwargs fun k hk => h k (h3 k hk).1 (h3 k hk).2)]

theorem AgreeKw.numOr {kw kw' : Dict Val} (h : AgreeKw kw kw') {k : String} {d r : ℝ}
    (hk : k ∈ keys_solve) (hk' : k ≠ "gran_logic") (hn : NumOr kw k d r) : NumOr kw' k d r := by
  unfold NumOr at *
  rwa [← h k hk hk']

theorem AgreeKw.phRun {w : World} (hw : ByName w) {kw kw' : Dict Val} (h : AgreeKw kw kw')
    (hn : kw'.keys.Nodup) {f : String} {S : Flt} {x K : String → ℝ} {c n g lo hi M : ℝ} {tm pH : List ℝ}
    (hr : PHRun w f S kw x K c n g lo hi M tm pH) : PHRun w f S kw' x K c n g lo hi M tm pH where
  loads := by rw [← h.load hw]; exact hr.loads
  keepsTotals := hr.keepsTotals
  keepsKs := hr.keepsKs
  nodup := hn
  mode := by rw [← h _ (by decide) (by decide)]; exact hr.mode
  sample := by
    have h1 : ∀ k ∈ "dic" :: (optionalContents ++ saltContents), k ∈ keys_solve ∧ k ≠ "gran_logic" := by
      decide
    have h2 : ∀ k ∈ allConstants, k ∈ keys_solve ∧ k ≠ "gran_logic" := by decide
    refine ⟨fun k hk => ?_, fun k hk => ?_, ?_⟩
    · rw [← h k (h1 k hk).1 (h1 k hk).2]; exact hr.sample.contents k hk
    · rw [← h k (h2 k hk).1 (h2 k hk).2]; exact hr.sample.constants k hk
    · rw [← onTotalScale_congr (h _ (by decide) (by decide))]
      exact hr.sample.scale
  sulfate := h.numOr (by decide) (by decide) hr.sulfate
  no_phosphate := by rw [← h _ (by decide) (by decide)]; exact hr.no_phosphate
  no_fluoride := by rw [← h _ (by decide) (by decide)]; exact hr.no_fluoride
  normality := h.numOr (by decide) (by decide) hr.normality
  pH_min := h.numOr (by decide) (by decide) hr.pH_min
  pH_max := h.numOr (by decide) (by decide) hr.pH_max
  window := hr.window
  lengths := hr.lengths
  mass := hr.mass
  masses := hr.masses
  acid := hr.acid

theorem Spec.SettingsOf.agree {w : World} {kw : Dict Val} {cols : List String} {r : Row} {st st' : Dict Val}
    {keys keys' : List String} (h : SettingsOf keys w kw cols r st) (h' : SettingsOf keys' w kw cols r st')
    (hk : ∀ k ∈ keys_solve, k ≠ "gran_logic" → k ∈ keys) (hk' : ∀ k ∈ keys_solve, k ≠ "gran_logic" → k ∈ keys') :
    AgreeKw st st' := by
  obtain ⟨-, kwb, hb, h⟩ := h
  obtain ⟨-, kwb', hb', h'⟩ := h'
  obtain rfl := Except.ok.inj (hb.symm.trans hb')
  intro k hks hg
  rw [h, h', if_pos (hk k hks hg), if_pos (hk' k hks hg)]

theorem Spec.SettingsOf.same {w : World} {kw : Dict Val} {cols : List String} {r : Row} {st st' : Dict Val}
    {keys : List String} (h : SettingsOf keys w kw cols r st) (h' : SettingsOf keys w kw cols r st') :
    SameGet st st' := by
  obtain ⟨-, kwb, hb, h⟩ := h
  obtain ⟨-, kwb', hb', h'⟩ := h'
  obtain rfl := Except.ok.inj (hb.symm.trans hb')
  intro k
  rw [h, h']

/-- **Specification**: the row is an exact pH titration.  Its file, read with the row's settings, is
in pH mode with all contents and constants given (`PHRun`); acid with `n` protons and `g` sulfates has
molinity `c`; the sample has alkalinity `A`, i.e. the mixture of `M` kg of it with `m` kg of acid
satisfies the charge balance at every point; some point of the window has acid in it. -/
structure Spec.ExactPH (w : World) (kw : Dict Val) (cols : List String) (r : Row) (A c : ℝ) (f : String)
    (S : Flt) (g : ℝ) : Prop where
  file : HasFile cols r f S
  run : ∃ (st : Dict Val) (x K : String → ℝ) (n lo hi M : ℝ) (tm pH : List ℝ),
    SettingsOf keys_solve w kw cols r st ∧ PHRun w f S st x K c n g lo hi M tm pH ∧ g < n ∧
    (∀ i, (hp : i < pH.length) → (ht : i < tm.length) →
      (mixture x K tm[i] M c g).alk 3 ((10 : ℝ) ^ (-pH[i])) * (tm[i] + M) = A * M - tm[i] * c * n) ∧
    ∃ i, ∃ (hp : i < pH.length) (ht : i < tm.length), lo ≤ pH[i] ∧ pH[i] ≤ hi ∧ 0 < tm[i]
  acid : 0 ≤ g

/-- **Specification**: what a calibration of the row needs: numbers where numbers are expected, a
temperature for every point, and an optimiser that ends with zero residual -/
structure Spec.Calibratable (w : World) (kw : Dict Val) (cols : List String) (r : Row) (A : ℝ)
    (f : String) (S : Flt) (g : ℝ) : Prop where
  certified : r "alkalinity_certified" = .num (fin (1e6 * A))
  typed : ∃ st, SettingsOf keys_calibrate w kw cols r st ∧
    (∃ c0, argNum st "titrant_molinity_init" (fin 0.1) = .ok c0) ∧ (∃ o, emf_opts st = .ok o) ∧
    ∀ cv totals ks, load w f S st = .ok (cv, totals, ks) → cv.measurement.length = cv.temperature.length
  zero : ∀ st, SettingsOf keys_calibrate w kw cols r st → ∀ res,
    files_calibrate w f (fin (1e6 * A)) S st = .ok res →
    res.fun_ = [fin 0] ∧ ∃ c', res.x = fin c' ∧ 0 ≤ c' * g

theorem exactPH_row {w : World} (hw : ByName w) {kw : Dict Val} {cols : List String} {r : Row} {A c : ℝ}
    {f : String} {S : Flt} {g : ℝ} (h : ExactPH w kw cols r A c f S g) : TrueRow w kw cols r A c := by
  obtain ⟨hf, ⟨st, x, K, n, lo, hi, M, tm, pH, hst, hrun, -, hbal, i, hp, ht, h1, h2, -⟩, -⟩ := h
  refine ⟨f, S, hf, ?_, fun st' hst' => ?_⟩
  · obtain ⟨-, kwb, hb, -⟩ := hst
    exact ⟨kwb, hb⟩
  have hrun' := (hst.agree hst' (fun _ h _ => h) (fun _ h _ => h)).phRun hw hst'.1 hrun
  obtain ⟨sr, T, hs, ha, -⟩ := C109_exact w f S st' x K A c n g lo hi M tm pH hrun' hbal
    ⟨pH[i], List.getElem_mem hp, h1, h2⟩
  exact ⟨_, hs, ha⟩

theorem calibrate_keys : ∀ k ∈ keys_solve, k ≠ "gran_logic" → k ∈ keys_calibrate := by decide

theorem phRun_regular {w : World} (ho : ReportsEvaluated w.opt) (ho' : FiniteTrials w.opt) {f : String}
    {S : Flt} {kw : Dict Val} {x K : String → ℝ} {c n g lo hi M : ℝ} {tm pH : List ℝ}
    (h : PHRun w f S kw x K c n g lo hi M tm pH)
    (hc0 : ∃ c0, argNum kw "titrant_molinity_init" (fin 0.1) = .ok c0) (hopts : ∃ o, emf_opts kw = .ok o)
    (hT : ∀ cv totals ks, load w f S kw = .ok (cv, totals, ks) →
      cv.measurement.length = cv.temperature.length) : Regular w f S kw := by
  obtain ⟨cv, totals, ks, hl, htm, hM, -⟩ := h.loads
  obtain ⟨c0, hc0⟩ := hc0
  obtain ⟨tts, ht, -⟩ := titrant_totals_sulfate h.nodup h.sulfate h.no_phosphate h.no_fluoride
  refine ⟨ho, cv, totals, ks, "ph", c0, tts, hl, ⟨?_, hc0, ht, hopts⟩, by decide, hT _ _ _ hl,
    .inr ⟨ho', tm, M, htm, hM, fun m hm => ?_⟩⟩
  · obtain ⟨s, hs, hs'⟩ := h.mode
    unfold solve_mode argVal
    rw [hs, ← hs']; rfl
  · have := h.masses m hm
    have := h.mass
    positivity

theorem exactPH_reference {w : World} (hw : ByName w) (ho : ReportsEvaluated w.opt)
    (ho' : FiniteTrials w.opt) {kw : Dict Val} {cols : List String} {r : Row} {A c : ℝ}
    {f : String} {S : Flt} {g : ℝ} (h : ExactPH w kw cols r A c f S g)
    (hc : Calibratable w kw cols r A f S g) : TrueReference w kw cols r A c := by
  obtain ⟨hf, ⟨st, x, K, n, lo, hi, M, tm, pH, hst, hrun, hgn, hbal, hin⟩, hg⟩ := h
  refine ⟨f, S, hf, ?_, hc.certified, fun st' hst' res hres => ?_⟩
  · obtain ⟨-, kwb, hb, -⟩ := hst
    exact ⟨kwb, hb⟩
  obtain ⟨sc, hsc, hc0, hopts, hT⟩ := hc.typed
  obtain ⟨hz, c', hx, hc'⟩ := hc.zero st' hst' res hres
  have hrun' := (hst.agree hst' (fun _ h _ => h) calibrate_keys).phRun hw hst'.1 hrun
  have hsame := hsc.same hst'
  have hreg : Regular w f S st' := phRun_regular ho ho' hrun' (by rw [← hsame.argNum]; exact hc0)
    (by rw [← emf_opts_congr hsame]; exact hopts)
    (by rw [← (hsc.agree hst' calibrate_keys calibrate_keys).load hw]; exact hT)
  have hgl : st'.get? "gran_logic" = none := by
    obtain ⟨-, kwb, -, hget⟩ := hst'
    rw [hget, if_neg (by decide)]
  rw [hx, C111_recovers w f S st' x K A c c' n g lo hi M tm pH hrun' hbal hg hgn hin hreg hgl res hres hz
    hx hc']

/-- **C118**, pH mode: a data set of exact pH titrations.  If the references used are exact titrations
with the acid of their batch, have true certified values and were calibrated to zero residual, then
every row of a batch that has one gets the true molinity, and every row that is an exact titration its
true alkalinity. -/
theorem C118_pH (w : World) (hw : ByName w) (ho : ReportsEvaluated w.opt) (ho' : FiniteTrials w.opt)
    (kw : Dict Val) (df df' : DF) (hkw : kw.keys.Nodup)
    (h : dataset_calibrate w kw df = (.ok (), df'))
    (hl : ∀ r ∈ df'.rows, Label (r "analysis_batch")) (c : Val → ℝ)
    (href : List.Forall₂ (fun r r' => IsReference r' → ∃ A f S g,
      ExactPH w kw df.cols r A (c (r' "analysis_batch")) f S g ∧
      Calibratable w kw df.cols r A f S g) df.rows df'.rows) :
    List.Forall₂ (fun r r' =>
      (∃ q ∈ df'.rows, IsReference q ∧ q "analysis_batch" = r' "analysis_batch") →
      r' "titrant_molinity" = .num (fin (c (r' "analysis_batch"))) ∧
      ∀ A f S g, ExactPH w kw df.cols r A (c (r' "analysis_batch")) f S g →
        r' "alkalinity" = .num (fin (1e6 * A)) ∧
        (r "alkalinity_certified" = .num (fin (1e6 * A)) → r' "alkalinity_offset" = .num (fin 0)))
      df.rows df'.rows := by
  have := C118_dataset w kw df df' hkw h hl c (href.imp fun r r' hr hi => by
    obtain ⟨A, f, S, g, h1, h2⟩ := hr hi
    exact ⟨A, exactPH_reference hw ho ho' h1 h2⟩)
  refine this.imp fun r r' hr hq => ⟨(hr hq).1, fun A f S g hx => (hr hq).2 A (exactPH_row hw hx)⟩

/-! ## Gran mode -/

theorem AgreeKw.granRun {w : World} (hw : ByName w) {kw kw' : Dict Val} (h : AgreeKw kw kw') {f : String}
    {S : Flt} {n lo hi M : ℝ} {pts : List (ℝ × ℝ)} (hr : GranRun w f S kw n lo hi M pts) :
    GranRun w f S kw' n lo hi M pts where
  loads := by rw [← h.load hw]; exact hr.loads
  mode := by rw [← h _ (by decide) (by decide)]; exact hr.mode
  normality := h.numOr (by decide) (by decide) hr.normality
  pH_min := h.numOr (by decide) (by decide) hr.pH_min
  pH_max := h.numOr (by decide) (by decide) hr.pH_max
  window := hr.window
  mass := hr.mass

/-- **Specification**: the row is an ideal strong-acid titration, solved in `ph_gran` mode: at every
point of the window the acidity is the excess of acid over alkalinity; two of them differ -/
structure Spec.IdealGran (w : World) (kw : Dict Val) (cols : List String) (r : Row) (A c : ℝ) (f : String)
    (S : Flt) : Prop where
  file : HasFile cols r f S
  run : ∃ (st : Dict Val) (n lo hi M : ℝ) (pts : List (ℝ × ℝ)),
    SettingsOf keys_solve w kw cols r st ∧ GranRun w f S st n lo hi M pts ∧ c * n ≠ 0 ∧
    (∀ k ∈ keys_titrant_totals, st.get? k = none) ∧
    (∃ p ∈ granPlot M lo hi pts, ∃ q ∈ granPlot M lo hi pts, p.1 ≠ q.1) ∧
    ∀ p ∈ pts, lo ≤ p.2 → p.2 ≤ hi → (p.1 + M) * (10 : ℝ) ^ (-p.2) = p.1 * c * n - A * M

theorem idealGran_row {w : World} (hw : ByName w) {kw : Dict Val} {cols : List String} {r : Row} {A c : ℝ}
    {f : String} {S : Flt} (h : IdealGran w kw cols r A c f S) : TrueRow w kw cols r A c := by
  obtain ⟨hf, st, n, lo, hi, M, pts, hst, hrun, hcn, htt, h2, hid⟩ := h
  refine ⟨f, S, hf, ?_, fun st' hst' => ?_⟩
  · obtain ⟨-, kwb, hb, -⟩ := hst
    exact ⟨kwb, hb⟩
  have hag := hst.agree hst' (fun _ h _ => h) (fun _ h _ => h)
  have htt' : ∀ k ∈ keys_titrant_totals, st'.get? k = none := fun k hk => by
    have : ∀ k ∈ keys_titrant_totals, k ∈ keys_solve ∧ k ≠ "gran_logic" := by decide
    rw [← hag k (this k hk).1 (this k hk).2, htt k hk]
  have hrun' := hag.granRun hw hrun
  obtain ⟨sr, hs⟩ := C116_succeeds w f S (fin c) st' n lo hi M pts hrun' h2 (htt' _ (by decide))
    (htt' _ (by decide)) (htt' _ (by decide))
  exact ⟨sr, hs, C116_exact w f S st' A c n lo hi M pts hrun' hcn h2 hid sr hs⟩

theorem granRun_regular {w : World} (ho : ReportsEvaluated w.opt) {f : String}
    {S : Flt} {kw : Dict Val} {n lo hi M : ℝ} {pts : List (ℝ × ℝ)} (h : GranRun w f S kw n lo hi M pts)
    (hn : kw.keys.Nodup) (htt : ∀ k ∈ keys_titrant_totals, kw.get? k = none)
    (hc0 : ∃ c0, argNum kw "titrant_molinity_init" (fin 0.1) = .ok c0) (hopts : ∃ o, emf_opts kw = .ok o)
    (hT : ∀ cv totals ks, load w f S kw = .ok (cv, totals, ks) →
      cv.measurement.length = cv.temperature.length) : Regular w f S kw := by
  obtain ⟨cv, totals, ks, hl, -⟩ := h.loads
  obtain ⟨c0, hc0⟩ := hc0
  have ht : titrant_totals kw = .ok (ttArgs []) := by
    have : (kw.filter fun kv => keys_titrant_totals.contains kv.1) = [] := by
      rw [List.filter_eq_nil_iff]
      intro kv hkv hc
      have := htt kv.1 (by simpa using hc)
      rw [Dict.get?_eq_none_iff] at this
      exact this (List.mem_map_of_mem hkv)
    unfold titrant_totals
    rw [this]; rfl
  exact ⟨ho, cv, totals, ks, "ph_gran", c0, [], hl, ⟨h.mode_ok, hc0, ht, hopts⟩, by decide, hT _ _ _ hl,
    .inl rfl⟩

theorem idealGran_reference {w : World} (hw : ByName w) (ho : ReportsEvaluated w.opt) {kw : Dict Val}
    {cols : List String} {r : Row} {A c : ℝ} (hA : A ≠ 0) {f : String} {S : Flt}
    (h : IdealGran w kw cols r A c f S) (hc : Calibratable w kw cols r A f S 0) :
    TrueReference w kw cols r A c := by
  obtain ⟨hf, st, n, lo, hi, M, pts, hst, hrun, hcn, htt, h2, hid⟩ := h
  refine ⟨f, S, hf, ?_, hc.certified, fun st' hst' res hres => ?_⟩
  · obtain ⟨-, kwb, hb, -⟩ := hst
    exact ⟨kwb, hb⟩
  obtain ⟨sc, hsc, hc0, hopts, hT⟩ := hc.typed
  obtain ⟨hz, c', hx, -⟩ := hc.zero st' hst' res hres
  have hag := hst.agree hst' (fun _ h _ => h) calibrate_keys
  have htt' : ∀ k ∈ keys_titrant_totals, st'.get? k = none := fun k hk => by
    have : ∀ k ∈ keys_titrant_totals, k ∈ keys_solve ∧ k ≠ "gran_logic" := by decide
    rw [← hag k (this k hk).1 (this k hk).2, htt k hk]
  have hrun' := hag.granRun hw hrun
  have hsame := hsc.same hst'
  have hreg : Regular w f S st' := granRun_regular ho hrun' hst'.1 htt' (by rw [← hsame.argNum]; exact hc0)
    (by rw [← emf_opts_congr hsame]; exact hopts)
    (by rw [← (hsc.agree hst' calibrate_keys calibrate_keys).load hw]; exact hT)
  have hgl : st'.get? "gran_logic" = none := by
    obtain ⟨-, kwb, -, hget⟩ := hst'
    rw [hget, if_neg (by decide)]
  rw [hx, C116_recovers w f S st' A c c' n lo hi M pts hrun' hcn hA h2 hid hreg hgl res hres hz hx]

/-- **C118**, Gran mode: the same for ideal strong-acid titrations solved in `ph_gran` mode. -/
theorem C118_gran (w : World) (hw : ByName w) (ho : ReportsEvaluated w.opt)
    (kw : Dict Val) (df df' : DF) (hkw : kw.keys.Nodup)
    (h : dataset_calibrate w kw df = (.ok (), df'))
    (hl : ∀ r ∈ df'.rows, Label (r "analysis_batch")) (c : Val → ℝ)
    (href : List.Forall₂ (fun r r' => IsReference r' → ∃ A f S, A ≠ 0 ∧
      IdealGran w kw df.cols r A (c (r' "analysis_batch")) f S ∧
      Calibratable w kw df.cols r A f S 0) df.rows df'.rows) :
    List.Forall₂ (fun r r' =>
      (∃ q ∈ df'.rows, IsReference q ∧ q "analysis_batch" = r' "analysis_batch") →
      r' "titrant_molinity" = .num (fin (c (r' "analysis_batch"))) ∧
      ∀ A f S, IdealGran w kw df.cols r A (c (r' "analysis_batch")) f S →
        r' "alkalinity" = .num (fin (1e6 * A)) ∧
        (r "alkalinity_certified" = .num (fin (1e6 * A)) → r' "alkalinity_offset" = .num (fin 0)))
      df.rows df'.rows := by
  have := C118_dataset w kw df df' hkw h hl c (href.imp fun r r' hr hi => by
    obtain ⟨A, f, S, hA, h1, h2⟩ := hr hi
    exact ⟨A, idealGran_reference hw ho hA h1 h2⟩)
  refine this.imp fun r r' hr hq => ⟨(hr hq).1, fun A f S hx => (hr hq).2 A (idealGran_row hw hx)⟩

/-! ### A case: a reference and a sample, titrated with 0.1 mol/kg sulfuric acid -/

/-- a row with the given settings in its cells -/
noncomputable def cellRow (args : Dict Val) (cert : Flt) : Row := fun k =>
  if k = "file_name" then .str "a.dat" else if k = "salinity" then .num (fin 35)
  else if k = "alkalinity_certified" then .num cert else (args.get? k).getD (.num nan)

def cellCols (args : Dict Val) : List String :=
  ["file_name", "salinity", "alkalinity_certified"] ++ args.keys

theorem cell_backcompat (args : Dict Val) (cert : Flt) (h : "read_dat_method" ∉ args.keys) :
    backcompat [] (rowDict (cellCols args) (cellRow args cert)) = .ok [] := by
  have : (rowDict (cellCols args) (cellRow args cert)).get? "read_dat_method" = none := by
    rw [rowDict_get?, if_neg]
    simpa [cellCols] using h
  simp only [backcompat, backcompat_dicts, backcompat_range, Dict.get?, bind_ok, setFileType, this,
    pure_ok]

theorem cell_settings (w : World) (cert : Flt) (args : Dict Val) (hn : args.keys.Nodup)
    (hnull : ∀ kv ∈ args, kv.2.isNull = false) (hb : "read_dat_method" ∉ args.keys)
    (ho : "opt_total_borate" ∉ args.keys)
    (hf : ∀ k ∈ ["titrant_amount_unit", "total_sulfate", "total_borate", "total_fluoride"], k ∈ args.keys)
    (hs : ∀ k ∈ ["file_name", "salinity", "alkalinity_certified"], k ∉ args.keys)
    (keys : List String) (hk : "opt_total_borate" ∈ keys)
    (hno : ∀ k ∈ ["file_name", "salinity", "alkalinity_certified"], k ∉ keys) :
    SettingsOf keys w [] (cellCols args) (cellRow args cert)
      ((args.filter fun kv => keys.contains kv.1) ++ [("opt_total_borate", .num (fin 1))]) := by
  have hget : ∀ k, Dict.get? ((args.filter fun kv => keys.contains kv.1) ++
      [("opt_total_borate", .num (fin 1))]) k = (if k ∈ keys then args.get? k else none).or
        (if k = "opt_total_borate" then some (.num (fin 1)) else none) := by
    intro k
    rw [Dict.get?_append]
    congr 1
    · rw [Dict.get?_filter (fun k => keys.contains k) args k]
      by_cases h : k ∈ keys <;> simp [h]
    · by_cases h : k = "opt_total_borate"
      · subst h; rfl
      · rw [if_neg h, Dict.get?_cons, if_neg (Ne.symm h)]; rfl
  refine ⟨?_, [], cell_backcompat args cert hb, fun k => ?_⟩
  · have h1 := Dict.filter_keys_nodup hn (fun k => keys.contains k)
    have : Dict.keys ((args.filter fun kv => keys.contains kv.1) ++ [("opt_total_borate", .num (fin 1))])
        = Dict.keys (args.filter fun kv => keys.contains kv.1) ++ ["opt_total_borate"] := by
      simp [Dict.keys]
    rw [this]
    refine h1.append (by simp) ?_
    intro k hk1 hk2
    rw [List.mem_singleton.mp hk2] at hk1
    obtain ⟨kv, hkv, he⟩ := List.mem_map.mp hk1
    exact ho (he ▸ List.mem_map_of_mem (List.mem_of_mem_filter hkv))
  rw [hget]
  by_cases h2 : k ∈ keys
  swap
  · rw [if_neg h2, if_neg h2, if_neg (by rintro rfl; exact h2 hk)]; rfl
  rw [if_pos h2, if_pos h2]
  cases hv : args.get? k with
  | some v =>
    have hm := Dict.mem_of_get? hv
    have h1 : k ∈ args.keys := List.mem_map_of_mem hm
    have e : ∀ k' ∈ ["file_name", "salinity", "alkalinity_certified"], k ≠ k' := by
      rintro k' hk' rfl; exact hs k hk' h1
    have hr : cellRow args cert k = v := by
      unfold cellRow
      rw [if_neg (e _ (by decide)), if_neg (e _ (by decide)), if_neg (e _ (by decide)), hv]; rfl
    have ho : ownCell (cellCols args) (cellRow args cert) k = some v := by
      unfold ownCell
      rw [if_pos ⟨List.mem_append_right _ h1, by rw [hr]; exact hnull _ hm⟩, hr]
    rw [setting, ho]; rfl
  | none =>
    have h1 : k ∉ args.keys := (Dict.get?_eq_none_iff _ _).mp hv
    have ho : ownCell (cellCols args) (cellRow args cert) k = none := by
      unfold ownCell
      rw [if_neg]
      rintro ⟨h3, -⟩
      rcases List.mem_append.mp h3 with h3 | h3
      · exact hno k h3 h2
      · exact h1 h3
    rw [setting, ho]
    have e1 : k ≠ "titrant_amount_unit" := by rintro rfl; exact h1 (hf _ (by decide))
    have e2 : k ∉ ["total_sulfate", "total_borate", "total_fluoride"] := fun h =>
      h1 (hf k (List.mem_cons_of_mem _ h))
    unfold supplied
    rw [if_neg e1, if_neg e2]
    by_cases h : k = "opt_total_borate"
    · rw [if_pos h]; rfl
    · rw [if_neg h]; rfl

theorem cell_file (args : Dict Val) (cert : Flt) (h : "file_good" ∉ args.keys) :
    HasFile (cellCols args) (cellRow args cert) "a.dat" (fin 35) :=
  ⟨by simp [cellCols], rfl, rfl, fun h' => absurd h' (by simpa [cellCols] using h)⟩

/-- a reference and a sample with the same settings: the first calibrates the batch -/
theorem cell_frame (w : World) (args : Dict Val) (A c : ℝ) {l : List Flt} (hb : "read_dat_method" ∉ args.keys)
    (hg : "file_good" ∉ args.keys) (hm : "analyte_mass" ∈ args.keys)
    (hbatch : "analysis_batch" ∉ args.keys) (hrg : "reference_good" ∉ args.keys)
    (hcal : ∀ st, SettingsOf keys_calibrate w [] (cellCols args) (cellRow args (fin (1e6 * A))) st →
      files_calibrate w "a.dat" (fin (1e6 * A)) (fin 35) st = .ok ⟨fin c, l⟩) :
    ∃ (df' : DF) (r1 r2 : Row), dataset_calibrate w []
        ⟨cellCols args, [cellRow args (fin (1e6 * A)), cellRow args nan]⟩ = (.ok (), df') ∧
      df'.rows = [r1, r2] ∧ (∀ r ∈ df'.rows, r "analysis_batch" = .num (fin 0)) ∧
      IsReference r1 ∧ ¬ IsReference r2 := by
  have hnot : ∀ k, k ∉ ["file_name", "salinity", "alkalinity_certified"] → k ∉ args.keys →
      k ∉ cellCols args := fun k h1 h2 h => (List.mem_append.mp h).elim h1 h2
  have hbatch' := hnot _ (by decide) hbatch
  have hrg' := hnot _ (by decide) hrg
  obtain ⟨df', h⟩ := c41_calibrate_finishes w []
    ⟨cellCols args, [cellRow args (fin (1e6 * A)), cellRow args nan]⟩ g_ignored
    (by simp [cellCols]) (.inl (List.mem_append_right _ hm)) (by simp [cellCols]) (by simp [cellCols])
    (by
      intro r hr
      rcases List.mem_cons.mp hr with rfl | hr
      · exact .inr ⟨fin (1e6 * A), rfl⟩
      · rw [List.mem_singleton.mp hr]; exact .inl rfl)
    (fun h => absurd h hbatch') (fun h => absurd h hrg')
  have hcal' := C97_calibrate w [] _ df' h
  have hdef := C97_defaults w [] _ df' h
  have hrows := calibrate_rows h
  obtain ⟨r1, r2, hr⟩ : ∃ r1 r2, df'.rows = [r1, r2] := by
    have := hrows.length_eq
    match hd : df'.rows, this with
    | [r1, r2], _ => exact ⟨r1, r2, rfl⟩
  rw [hr] at hcal' hdef hrows
  simp only [List.forall₂_cons, List.Forall₂.nil, and_true] at hcal' hdef hrows
  have hhere1 : r1 "titrant_molinity_here" = .num (fin c) := by
    have hf := cell_file args (fin (1e6 * A)) hg
    obtain ⟨st, hn, hget, hok, -⟩ := hcal'.1 "a.dat" (fin (1e6 * A)) (fin 35) []
      hf.column hf.name rfl (by simp) hf.salinity hf.good (cell_backcompat _ _ hb)
    exact hok _ (hcal st ⟨hn (by decide), [], cell_backcompat _ _ hb, hget⟩)
  have hhere2 : r2 "titrant_molinity_here" = .num nan := by
    obtain ⟨x, s, hcr⟩ := hrows.2
    have hx := hcr.here
    have e : prepRow w (cellCols args) (cellRow args nan) "alkalinity_certified" = .num nan :=
      prepRow_other (by decide)
    unfold calibrate_row at hx
    rw [if_neg (by rw [e]; simp [Val.isNull, Flt.isNaN])] at hx
    rw [hcr.here']
    exact (Except.ok.inj hx).symm
  refine ⟨df', r1, r2, h, hr, ?_, ?_, ?_⟩
  · intro r hr'
    rw [hr] at hr'
    simp only [List.mem_cons, List.not_mem_nil, or_false] at hr'
    rcases hr' with rfl | rfl
    · exact hdef.1.1.trans (if_neg hbatch')
    · exact hdef.2.1.trans (if_neg hbatch')
  · exact ⟨(hdef.1.2.trans (if_neg hrg')).trans (by rw [hhere1]; rfl), by rw [hhere1]; rfl⟩
  · intro hi
    have := hi.2
    rw [hhere2] at this
    simp [Val.isNull, Flt.isNaN] at this

def dtNames : List String :=
  [ "solve_mode", "analyte_mass", "titrant_amount_unit", "titrant_normality", "titrant_total_sulfate" ] ++
  ("dic" :: (optionalContents ++ saltContents)) ++ allConstants

theorem dt_keys : pArgs.keys = dtNames := rfl

noncomputable def dtArgs : Dict Val := pArgs ++ [("opt_total_borate", .num (fin 1))]

def dtCols : List String := ["file_name", "salinity", "alkalinity_certified"] ++ dtNames

noncomputable def dtRow (cert : Flt) : Row := cellRow pArgs cert

theorem dt_not_null : ∀ kv ∈ pArgs, kv.2.isNull = false := by
  intro kv hkv
  simp only [pArgs, List.mem_append, List.mem_cons, List.not_mem_nil, or_false, List.mem_map] at hkv
  rcases hkv with ((rfl | rfl | rfl | rfl | rfl) | ⟨k, -, rfl⟩) | ⟨k, -, rfl⟩ <;> rfl

theorem dt_get (k : String) (hk : k ∈ dtNames) : dtArgs.get? k = pArgs.get? k := by
  unfold dtArgs
  rw [Dict.get?_append]
  cases h : pArgs.get? k with
  | some v => rfl
  | none => exact absurd hk ((Dict.get?_eq_none_iff _ _).mp h)

theorem dt_solve_settings (w : World) (cert : Flt) :
    SettingsOf keys_solve w [] dtCols (dtRow cert) dtArgs :=
  cell_settings w cert pArgs (cal_run 0 0).nodup dt_not_null (by rw [dt_keys]; decide)
    (by rw [dt_keys]; decide) (by rw [dt_keys]; decide) (by rw [dt_keys]; decide) keys_solve (by decide)
    (by decide)

theorem dt_cal_settings (w : World) (cert : Flt) :
    SettingsOf keys_calibrate w [] dtCols (dtRow cert) dtArgs :=
  cell_settings w cert pArgs (cal_run 0 0).nodup dt_not_null (by rw [dt_keys]; decide)
    (by rw [dt_keys]; decide) (by rw [dt_keys]; decide) (by rw [dt_keys]; decide) keys_calibrate
    (by decide) (by decide)

theorem dt_load (p q : ℝ) : load (calWorld p q) "a.dat" (fin 35) dtArgs
    = load (calWorld p q) "a.dat" (fin 35) pArgs := by
  with_unfolding_all rfl

theorem dt_run (p q : ℝ) : PHRun (calWorld p q) "a.dat" (fin 35) dtArgs pContents pConstants 0.1 2 1 3 4
    0.1 [0.001, 0.002] [p, q] :=
  let h := cal_run p q
  { loads := by rw [dt_load]; exact h.loads
    keepsTotals := h.keepsTotals, keepsKs := h.keepsKs
    nodup := (dt_solve_settings (calWorld p q) nan).1
    mode := h.mode
    sample :=
      { contents := fun k hk => by
          rw [dt_get k (List.mem_append_left _ (List.mem_append_right _ hk))]; exact h.sample.contents k hk
        constants := fun k hk => by
          rw [dt_get k (List.mem_append_right _ hk)]; exact h.sample.constants k hk
        scale := h.sample.scale }
    sulfate := h.sulfate, no_phosphate := rfl, no_fluoride := rfl, normality := h.normality
    pH_min := .inr ⟨rfl, rfl⟩, pH_max := .inr ⟨rfl, rfl⟩, window := h.window, lengths := h.lengths
    mass := h.mass, masses := h.masses, acid := h.acid }

theorem dt_byName (p q : ℝ) : ByName (calWorld p q) := fun _ _ _ _ => rfl

theorem dt_file (cert : Flt) : HasFile dtCols (dtRow cert) "a.dat" (fin 35) :=
  cell_file pArgs cert (by rw [dt_keys]; decide)

/-- the points are exact for a sample of alkalinity `A` -/
def dtBalance (p q A : ℝ) : Prop :=
  ∀ i, (hp : i < [p, q].length) → (ht : i < [(0.001 : ℝ), 0.002].length) →
    (mixture pContents pConstants [(0.001 : ℝ), 0.002][i] 0.1 0.1 1).alk 3 ((10 : ℝ) ^ (-[p, q][i]))
      * ([(0.001 : ℝ), 0.002][i] + 0.1) = A * 0.1 - [(0.001 : ℝ), 0.002][i] * 0.1 * 2

theorem dt_exact {p q A : ℝ} (hp : 3 ≤ p ∧ p ≤ 4) (h : dtBalance p q A) (cert : Flt) :
    ExactPH (calWorld p q) [] dtCols (dtRow cert) A 0.1 "a.dat" (fin 35) 1 where
  file := dt_file cert
  run := ⟨dtArgs, pContents, pConstants, 2, 3, 4, 0.1, _, _, dt_solve_settings _ cert, dt_run p q,
    by norm_num, h, 0, by simp, by simp, hp.1, hp.2, by norm_num⟩
  acid := by norm_num

theorem dt_temps (p q : ℝ) : ∀ cv totals ks, load (calWorld p q) "a.dat" (fin 35) dtArgs
    = .ok (cv, totals, ks) → cv.measurement.length = cv.temperature.length := by
  intro cv totals ks h
  obtain ⟨cv', totals', ks', hl, -, -, h3, h4⟩ := p_loads p q
  have hl' : load (calWorld p q) "a.dat" (fin 35) pArgs = .ok (cv', totals', ks') := hl
  rw [dt_load, hl'] at h
  obtain ⟨rfl, -⟩ := Prod.mk.inj (Except.ok.inj h)
  rw [h3, h4]; rfl

/-- whatever the order of its settings, the calibration of the file ends at 0.1 with the
residual that is to be expected -/
theorem dt_calibrate_to {p q A : ℝ} (B : ℝ) (hp : 3 ≤ p ∧ p ≤ 4) (h : dtBalance p q A) (cert : Flt) {st : Dict Val}
    (hst : SettingsOf keys_calibrate (calWorld p q) [] dtCols (dtRow cert) st) :
    files_calibrate (calWorld p q) "a.dat" (fin (1e6 * B)) (fin 35) st
      = .ok ⟨fin 0.1, [fin (1e6 * A - 1e6 * B)]⟩ := by
  have hag := (dt_cal_settings (calWorld p q) cert).agree hst calibrate_keys calibrate_keys
  have hsame := (dt_cal_settings (calWorld p q) cert).same hst
  have hrun := hag.phRun (dt_byName p q) hst.1 (dt_run p q)
  obtain ⟨r, T, h1, h2, -⟩ := C109_exact (calWorld p q) "a.dat" (fin 35) st
    pContents pConstants A 0.1 2 1 3 4 0.1 [0.001, 0.002] [p, q] hrun h ⟨p, by simp, hp.1, hp.2⟩
  obtain ⟨cv, totals, ks, hl, htm, hM, h3, h4⟩ := p_loads p q
  have hl' : load (calWorld p q) "a.dat" (fin 35) st = .ok (cv, totals, ks) := by
    rw [← hag.load (dt_byName p q), dt_load]; exact hl
  obtain ⟨tts, ht, -⟩ := titrant_totals_sulfate hst.1 hrun.sulfate hrun.no_phosphate hrun.no_fluoride
  have htyped : Typed st "ph" (fin 0.1) (ttArgs tts) := by
    refine ⟨?_, ?_, ht, ?_⟩
    · unfold solve_mode argVal
      rw [← hsame "solve_mode"]
      exact cal_typed.mode
    · rw [← hsame.argNum]; rfl
    · rw [← emf_opts_congr hsame]; exact ⟨_, rfl⟩
  have hgl : st.get? "gran_logic" = none := by rw [← hsame]; rfl
  have hc := C32_same_solver_titrant (calWorld p q) "a.dat" "ph" (fin (1e6 * B)) (fin 35) (fin 0.1) st
    cv totals ks _ _ _ lsqOnce_finite hl' htyped htm hM (by
      intro m hm
      simp only [List.mem_cons, List.not_mem_nil, or_false] at hm
      rcases hm with rfl | rfl <;> norm_num) hgl (by decide) (by rw [h3, h4]; rfl)
  have hs : solveRes (calWorld p q) "a.dat" (fin 35) (fin (1e6 * B)) st (fin 0.1) ()
      = (.ok [fin (1e6 * A - 1e6 * B)], ()) := by
    simp only [solveRes, h1, bind_ok, pure_ok, SolveRes.alkalinity, h2, sub_fin, PyS.lift]
  rw [hc]
  show (lsqOnce.run (solveRes (calWorld p q) "a.dat" (fin 35) (fin (1e6 * B)) st) (fin 0.1) ()).1 = _
  simp [Lsq.run, Lsq.loop, lsqOnce, allFinite, PyS.bind_apply, hs]

theorem dt_calibrate {p q A : ℝ} (hp : 3 ≤ p ∧ p ≤ 4) (h : dtBalance p q A) (cert : Flt) {st : Dict Val}
    (hst : SettingsOf keys_calibrate (calWorld p q) [] dtCols (dtRow cert) st) :
    files_calibrate (calWorld p q) "a.dat" (fin (1e6 * A)) (fin 35) st = .ok ⟨fin 0.1, [fin 0]⟩ := by
  rw [dt_calibrate_to A hp h cert hst, sub_self]

theorem dt_calibratable {p q A : ℝ} (hp : 3 ≤ p ∧ p ≤ 4) (h : dtBalance p q A) :
    Calibratable (calWorld p q) [] dtCols (dtRow (fin (1e6 * A))) A "a.dat" (fin 35) 1 where
  certified := rfl
  typed := ⟨dtArgs, dt_cal_settings _ _, ⟨_, rfl⟩, ⟨_, rfl⟩, dt_temps p q⟩
  zero st hst res hres := by
    rw [dt_calibrate hp h _ hst] at hres
    rw [← Except.ok.inj hres]
    exact ⟨rfl, 0.1, rfl, by norm_num⟩

/-- every hypothesis of `C118_pH` is met: the sample, which has no certified value, gets the molinity
found with the reference and its true alkalinity -/
theorem dt_calibrates (p : ℝ) (hp : 3 ≤ p ∧ p ≤ 4) : ∃ (q A : ℝ) (df' : DF) (r1 r2 : Row), dtBalance p q A ∧
    dataset_calibrate (calWorld p q) [] ⟨dtCols, [dtRow (fin (1e6 * A)), dtRow nan]⟩ = (.ok (), df') ∧
    df'.rows = [r1, r2] ∧ r2 "titrant_molinity" = .num (fin 0.1) ∧
    r2 "alkalinity" = .num (fin (1e6 * A)) ∧ r1 "alkalinity_offset" = .num (fin 0) := by
  obtain ⟨q, A, hbal⟩ := p_exact p
  obtain ⟨df', r1, r2, h, hr, hb, h1, h2⟩ := cell_frame (calWorld p q) pArgs A 0.1
    (by rw [dt_keys]; decide) (by rw [dt_keys]; decide) (by rw [dt_keys]; decide)
    (by rw [dt_keys]; decide) (by rw [dt_keys]; decide)
    (fun st hst => dt_calibrate hp hbal _ hst)
  have hmain := C118_pH (calWorld p q) (dt_byName p q) lsqOnce_reports lsqOnce_finite [] _ df'
    (by decide) h (fun r hr => by rw [hb r hr]; exact .inr ⟨_, rfl, by simp⟩) (fun _ => 0.1)
  rw [hr] at hmain hb
  simp only [List.forall₂_cons, List.Forall₂.nil, and_true] at hmain
  obtain ⟨g1, g2⟩ := hmain
    ⟨fun _ => ⟨A, "a.dat", fin 35, 1, dt_exact hp hbal _, dt_calibratable hp hbal⟩,
      fun hi => absurd hi h2⟩
  have hq : ∀ r ∈ [r1, r2], ∃ q ∈ [r1, r2], IsReference q ∧ q "analysis_batch" = r "analysis_batch" :=
    fun r hr => ⟨r1, by simp, h1, by rw [hb r1 (by simp), hb r hr]⟩
  have g1 := g1 (hq r1 (by simp))
  have g2 := g2 (hq r2 (by simp))
  exact ⟨q, A, df', r1, r2, hbal, h, hr, g2.1, (g2.2 A _ _ _ (dt_exact hp hbal _)).1,
    (g1.2 A _ _ _ (dt_exact hp hbal _)).2 rfl⟩

/-! ### A case in Gran mode: 0.05 mol/kg of acid, alkalinity 200 µmol/kg -/

def dgNames : List String :=
  [ "solve_mode", "analyte_mass", "titrant_amount_unit", "titrant_molinity_init" ] ++
  ("dic" :: (optionalContents ++ saltContents)) ++ allConstants

theorem dg_keys : fgArgs.keys = dgNames := rfl

noncomputable def dgCal : Dict Val := fgArgs ++ [("opt_total_borate", .num (fin 1))]

noncomputable def dgSolve : Dict Val :=
  [ ("solve_mode", .str "pH_Gran"), ("analyte_mass", .num (fin 0.1)), ("titrant_amount_unit", .str "kg") ] ++
  (("dic" :: (optionalContents ++ saltContents)).map fun k => (k, Val.num (fin (pContents k)))) ++
  (allConstants.map fun k => (k, Val.num (fin (pConstants k)))) ++ [("opt_total_borate", .num (fin 1))]

theorem dg_not_null : ∀ kv ∈ fgArgs, kv.2.isNull = false := by
  intro kv hkv
  simp only [fgArgs, List.mem_append, List.mem_cons, List.not_mem_nil, or_false, List.mem_map] at hkv
  rcases hkv with ((rfl | rfl | rfl | rfl) | ⟨k, -, rfl⟩) | ⟨k, -, rfl⟩ <;> rfl

theorem dg_solve_settings (w : World) (cert : Flt) :
    SettingsOf keys_solve w [] (cellCols fgArgs) (cellRow fgArgs cert) dgSolve :=
  cell_settings w cert fgArgs (by rw [dg_keys]; decide) dg_not_null (by rw [dg_keys]; decide)
    (by rw [dg_keys]; decide) (by rw [dg_keys]; decide) (by rw [dg_keys]; decide) keys_solve (by decide)
    (by decide)

theorem dg_cal_settings (w : World) (cert : Flt) :
    SettingsOf keys_calibrate w [] (cellCols fgArgs) (cellRow fgArgs cert) dgCal :=
  cell_settings w cert fgArgs (by rw [dg_keys]; decide) dg_not_null (by rw [dg_keys]; decide)
    (by rw [dg_keys]; decide) (by rw [dg_keys]; decide) (by rw [dg_keys]; decide) keys_calibrate
    (by decide) (by decide)

theorem dg_load (p q : ℝ) : load (calWorld p q) "a.dat" (fin 35) dgSolve
    = load (calWorld p q) "a.dat" (fin 35) pArgs := by
  with_unfolding_all rfl

theorem dg_run : GranRun (calWorld fgP fgQ) "a.dat" (fin 35) dgSolve 1 3 4 0.1
    [(0.001, fgP), (0.002, fgQ)] where
  loads := by rw [dg_load, ← fg_load]; exact fg_run.loads
  mode := fg_run.mode
  normality := .inr ⟨rfl, rfl⟩
  pH_min := .inr ⟨rfl, rfl⟩
  pH_max := .inr ⟨rfl, rfl⟩
  window := fg_run.window
  mass := fg_run.mass

theorem dg_ideal (cert : Flt) : IdealGran (calWorld fgP fgQ) [] (cellCols fgArgs) (cellRow fgArgs cert) 2e-4
    0.05 "a.dat" (fin 35) where
  file := cell_file fgArgs cert (by rw [dg_keys]; decide)
  run := by
    refine ⟨dgSolve, 1, 3, 4, 0.1, _, dg_solve_settings _ cert, dg_run, by norm_num, ?_, fg_two, fg_ideal⟩
    intro k hk
    simp only [keys_titrant_totals, List.mem_cons, List.not_mem_nil, or_false] at hk
    rcases hk with rfl | rfl | rfl <;> rfl

theorem dg_calibrate (cert : Flt) {st : Dict Val}
    (hst : SettingsOf keys_calibrate (calWorld fgP fgQ) [] (cellCols fgArgs) (cellRow fgArgs cert) st) :
    files_calibrate (calWorld fgP fgQ) "a.dat" (fin (1e6 * 2e-4)) (fin 35) st
      = .ok ⟨fin 0.05, [fin 0]⟩ := by
  have hag := (dg_solve_settings (calWorld fgP fgQ) cert).agree hst (fun _ h _ => h) calibrate_keys
  have hsame := (dg_cal_settings (calWorld fgP fgQ) cert).same hst
  have hrun := hag.granRun (dt_byName fgP fgQ) dg_run
  have htt : ∀ k ∈ keys_titrant_totals, st.get? k = none := by
    intro k hk
    rw [← hsame]
    simp only [keys_titrant_totals, List.mem_cons, List.not_mem_nil, or_false] at hk
    rcases hk with rfl | rfl | rfl <;> rfl
  obtain ⟨sr, hs⟩ := C116_succeeds (calWorld fgP fgQ) "a.dat" (fin 35) (fin 0.05) st 1 3 4 0.1 _ hrun
    fg_two (htt _ (by decide)) (htt _ (by decide)) (htt _ (by decide))
  have ha := C116_exact _ _ _ _ 2e-4 0.05 1 3 4 0.1 _ hrun (by norm_num) fg_two fg_ideal sr hs
  obtain ⟨cv, totals, ks, hl, h1, h2, h3, h4⟩ := p_loads fgP fgQ
  have hl' : load (calWorld fgP fgQ) "a.dat" (fin 35) st = .ok (cv, totals, ks) := by
    rw [← hag.load (dt_byName fgP fgQ), dg_load]; exact hl
  have hnil : (st.filter fun kv => keys_titrant_totals.contains kv.1) = [] := by
    rw [List.filter_eq_nil_iff]
    intro kv hkv hc
    exact ((Dict.get?_eq_none_iff _ _).mp (htt kv.1 (by simpa using hc))) (List.mem_map_of_mem hkv)
  have htyped : Typed st "ph_gran" (fin 0.05) (ttArgs []) := by
    refine ⟨hrun.mode_ok, ?_, ?_, ?_⟩
    · rw [← hsame.argNum]; rfl
    · unfold titrant_totals
      rw [hnil]; rfl
    · rw [← emf_opts_congr hsame]; exact ⟨_, rfl⟩
  have hc := C32_same_solver (calWorld fgP fgQ) "a.dat" "ph_gran" (fin (1e6 * 2e-4)) (fin 35) (fin 0.05)
    st cv totals ks hl' htyped (by rw [← hsame]; rfl) (by decide) (by rw [h3, h4]; rfl)
  have hs' : solveRes (calWorld fgP fgQ) "a.dat" (fin 35) (fin (1e6 * 2e-4)) st (fin 0.05) ()
      = (.ok [fin 0], ()) := by
    simp only [solveRes, hs, bind_ok, pure_ok, ha, sub_fin, sub_self, PyS.lift]
  rw [hc]
  show (lsqOnce.run (solveRes (calWorld fgP fgQ) "a.dat" (fin 35) (fin (1e6 * 2e-4)) st) (fin 0.05) ()).1 = _
  simp [Lsq.run, Lsq.loop, lsqOnce, allFinite, PyS.bind_apply, hs']

theorem dg_calibratable : Calibratable (calWorld fgP fgQ) [] (cellCols fgArgs)
    (cellRow fgArgs (fin (1e6 * 2e-4))) 2e-4 "a.dat" (fin 35) 0 where
  certified := rfl
  typed := by
    refine ⟨dgCal, dg_cal_settings _ _, ⟨_, rfl⟩, ⟨_, rfl⟩, ?_⟩
    rw [← ((dg_solve_settings (calWorld fgP fgQ) nan).agree (dg_cal_settings _ nan) (fun _ h _ => h)
      calibrate_keys).load (dt_byName fgP fgQ), dg_load, ← dt_load]
    exact dt_temps fgP fgQ
  zero st hst res hres := by
    rw [dg_calibrate _ hst] at hres
    rw [← Except.ok.inj hres]
    exact ⟨rfl, 0.05, rfl, by norm_num⟩

/-- every hypothesis of `C118_gran` is met -/
example : ∃ (df' : DF) (r1 r2 : Row), dataset_calibrate (calWorld fgP fgQ) []
      ⟨cellCols fgArgs, [cellRow fgArgs (fin (1e6 * 2e-4)), cellRow fgArgs nan]⟩ = (.ok (), df') ∧
    df'.rows = [r1, r2] ∧ r2 "titrant_molinity" = .num (fin 0.05) ∧
    r2 "alkalinity" = .num (fin (1e6 * 2e-4)) ∧ r1 "alkalinity_offset" = .num (fin 0) := by
  obtain ⟨df', r1, r2, h, hr, hb, h1, h2⟩ := cell_frame (calWorld fgP fgQ) fgArgs 2e-4 0.05
    (by rw [dg_keys]; decide) (by rw [dg_keys]; decide) (by rw [dg_keys]; decide)
    (by rw [dg_keys]; decide) (by rw [dg_keys]; decide) (fun st hst => dg_calibrate _ hst)
  have hmain := C118_gran (calWorld fgP fgQ) (dt_byName fgP fgQ) lsqOnce_reports [] _ df'
    (by decide) h (fun r hr => by rw [hb r hr]; exact .inr ⟨_, rfl, by simp⟩) (fun _ => 0.05)
  rw [hr] at hmain hb
  simp only [List.forall₂_cons, List.Forall₂.nil, and_true] at hmain
  obtain ⟨g1, g2⟩ := hmain
    ⟨fun _ => ⟨2e-4, "a.dat", fin 35, by norm_num, dg_ideal _, dg_calibratable⟩, fun hi => absurd hi h2⟩
  have hq : ∀ r ∈ [r1, r2], ∃ q ∈ [r1, r2], IsReference q ∧ q "analysis_batch" = r "analysis_batch" :=
    fun r hr => ⟨r1, by simp, h1, by rw [hb r1 (by simp), hb r hr]⟩
  have g1 := g1 (hq r1 (by simp))
  have g2 := g2 (hq r2 (by simp))
  exact ⟨df', r1, r2, h, hr, g2.1, (g2.2 2e-4 _ _ (dg_ideal _)).1, (g1.2 2e-4 _ _ (dg_ideal _)).2 rfl⟩

end Calk
