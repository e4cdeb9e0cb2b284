import Verif.Props.DatasetInputs

/-!
# Property C131: the columns that matter, and that others do not

docs/metadata.md: "Extra columns will be ignored by Calkulate and should not cause any problems."
-/

namespace Calk
open Flt

namespace Spec

/-- the settings of a titration (docs/metadata.md, and those that only the signatures mention) -/
def sharedSettings : List String :=
  [ "analyte_mass", "analyte_volume", "dic", "file_path", "file_type", "solve_mode",
    "total_alpha", "total_ammonia", "total_beta", "total_borate", "total_fluoride", "total_phosphate",
    "total_silicate", "total_sulfate", "total_sulfide",
    "dilute_totals_for_ks", "double", "alkalinity_init", "emf0_init",
    "k_alpha", "k_ammonia", "k_beta", "k_bisulfate", "k_borate", "k_carbonic_1", "k_carbonic_2", "k_fluoride",
    "k_phosphoric_1", "k_phosphoric_2", "k_phosphoric_3", "k_silicate", "k_sulfide", "k_water",
    "molinity_HCl", "molinity_NaCl", "molinity_H2SO4",
    "opt_k_bisulfate", "opt_k_carbonic", "opt_k_fluoride", "opt_pH_scale", "opt_total_borate",
    "pH_min", "pH_max", "temperature_override",
    "titrant", "titrant_amount_unit", "titrant_density", "titrant_normality",
    "titrant_total_sulfate", "titrant_total_phosphate", "titrant_total_fluoride",
    "col_measurement", "col_temperature", "col_titrant_amount", "delimiter", "encoding", "n_cols", "skip_header" ]

/-- the settings that solving uses -/
def solveSettings : List String := "gran_logic" :: sharedSettings

/-- the settings that calibrating uses: not `gran_logic` -/
def calibrateSettings : List String := "titrant_molinity_init" :: sharedSettings

/-- all columns that `solve` looks at -/
def solveColumns : List String :=
  ["file_name", "salinity", "titrant_molinity", "alkalinity_certified", "file_good", "read_dat_method"]
    ++ solveSettings

/-- all columns that `calibrate` looks at; it also solves -/
def calibrateColumns : List String :=
  [ "file_name", "salinity", "alkalinity_certified", "analysis_batch", "reference_good", "file_good",
    "read_dat_method", "titrant_molinity_init" ] ++ solveSettings

/-- the columns that `solve` fills -/
def resultColumns (df : DF) : List String :=
  [ "alkalinity_npts", "alkalinity_std", "alkalinity", "analyte_mass", "emf0", "gran_alkalinity",
    "gran_emf0", "pH_init", "temperature_init" ]
    ++ open Classical in if "alkalinity_certified" ∈ df.cols then ["alkalinity_offset"] else []

/-- two data sets have the same of the named columns, with the same cells in them -/
def SameCells (names : List String) (df df' : DF) : Prop :=
  (∀ c ∈ names, (c ∈ df.cols ↔ c ∈ df'.cols)) ∧
    List.Forall₂ (fun r r' => ∀ c ∈ names, c ∈ df.cols → r c = r' c) df.rows df'.rows

end Spec

open Spec

theorem mem_keys_solve (k : String) : k ∈ keys_solve ↔ k ∈ solveSettings :=
  ⟨(by decide +kernel : ∀ k ∈ keys_solve, k ∈ solveSettings) k,
    (by decide +kernel : ∀ k ∈ solveSettings, k ∈ keys_solve) k⟩

theorem mem_keys_calibrate (k : String) : k ∈ keys_calibrate ↔ k ∈ calibrateSettings :=
  ⟨(by decide +kernel : ∀ k ∈ keys_calibrate, k ∈ calibrateSettings) k,
    (by decide +kernel : ∀ k ∈ calibrateSettings, k ∈ keys_calibrate) k⟩

/-! ## The columns that are used -/

theorem ownCell_some {cols : List String} {r : Row} {k : String} (hk : k ∈ cols) (h1 : r k ≠ .none)
    (h2 : r k ≠ .num nan) : ownCell cols r k = some (r k) := by
  have hn : (r k).isNull = false := by
    cases hv : r k with
    | none => exact absurd hv h1
    | num x => cases x <;> first | rfl | exact absurd hv h2
    | _ => rfl
  exact if_pos ⟨hk, hn⟩

/-- **C131**: each of these columns takes effect. Unless it is blank, the cell is the value of that setting with
which the file of the row is solved, whatever the call says; and no other settings are passed on. -/
theorem C131_used_solve (w : World) (kw : Dict Val) (df df' : DF)
    (h : dataset_solve w kw df = (.ok (), df')) :
    List.Forall₂ (fun r r' => ∀ (f : String) (c S : Flt) (kwb : Dict Val),
      "file_name" ∈ df.cols → r "file_name" = .str f → r "titrant_molinity" = .num c → c ≠ nan →
      r "salinity" = .num S → ("file_good" ∈ df.cols → Spec.Counts (r "file_good")) →
      backcompat kw (rowDict df.cols r) = .ok kwb →
      ∃ st : Dict Val,
        (∀ k ∈ solveSettings, k ∈ df.cols → r k ≠ .none → r k ≠ .num nan → st.get? k = some (r k)) ∧
        (∀ k ∉ solveSettings, st.get? k = none) ∧
        (∀ sr, files_solve w f c S st = .ok sr → Reports r' sr) ∧
        (∀ e, files_solve w f c S st = .error e → Blank r')) df.rows df'.rows := by
  refine (C96_solve w kw df df' h).imp fun r r' hr f c S kwb h1 h2 h3 h4 h5 h6 h7 => ?_
  obtain ⟨st, -, hst, ho, he⟩ := hr f c S kwb h1 h2 h3 h4 h5 h6 h7
  refine ⟨st, fun k hk hc hn hn' => ?_, fun k hk => ?_, ho, he⟩
  · rw [hst, if_pos ((mem_keys_solve k).mpr hk), setting, ownCell_some hc hn hn']; rfl
  · rw [hst, if_neg fun h => hk ((mem_keys_solve k).mp h)]

/-- ... and likewise with which it is calibrated. `gran_logic` is not among these. -/
theorem C131_used_calibrate (w : World) (kw : Dict Val) (df df' : DF)
    (h : dataset_calibrate w kw df = (.ok (), df')) :
    List.Forall₂ (fun r r' => ∀ (f : String) (cert S : Flt) (kwb : Dict Val),
      "file_name" ∈ df.cols → r "file_name" = .str f → r "alkalinity_certified" = .num cert →
      cert ≠ nan → r "salinity" = .num S → ("file_good" ∈ df.cols → Spec.Counts (r "file_good")) →
      backcompat kw (rowDict df.cols r) = .ok kwb →
      ∃ st : Dict Val,
        (∀ k ∈ calibrateSettings, k ∈ df.cols → r k ≠ .none → r k ≠ .num nan → st.get? k = some (r k)) ∧
        (∀ k ∉ calibrateSettings, st.get? k = none) ∧
        (∀ cal, files_calibrate w f cert S st = .ok cal → r' "titrant_molinity_here" = .num cal.x) ∧
        (∀ e, files_calibrate w f cert S st = .error e → r' "titrant_molinity_here" = .num nan))
      df.rows df'.rows := by
  refine (C97_calibrate w kw df df' h).imp fun r r' hr f c S kwb h1 h2 h3 h4 h5 h6 h7 => ?_
  obtain ⟨st, -, hst, ho, he⟩ := hr f c S kwb h1 h2 h3 h4 h5 h6 h7
  refine ⟨st, fun k hk hc hn hn' => ?_, fun k hk => ?_, ho, he⟩
  · rw [hst, if_pos ((mem_keys_calibrate k).mpr hk), setting, ownCell_some hc hn hn']; rfl
  · rw [hst, if_neg fun h => hk ((mem_keys_calibrate k).mp h)]

/-! ## Preparing -/

section
variable {N cols₁ cols₂ : List String} {r₁ r₂ : Row}

theorem prepBorate_agree (h : Agree N cols₁ cols₂ r₁ r₂) (hb : "opt_total_borate" ∈ N) :
    prepBorate cols₁ r₁ = prepBorate cols₂ r₂ := by
  obtain ⟨h1, h2⟩ := h _ hb
  unfold prepBorate
  by_cases hm : "opt_total_borate" ∈ cols₁
  · rw [← h2 hm]; simp only [hm, h1.mp hm]
  · have hm2 : "opt_total_borate" ∉ cols₂ := fun h => hm (h1.mpr h)
    simp only [hm, hm2, false_and, if_false]

theorem prep_agree (w : World) (h : Agree N cols₁ cols₂ r₁ r₂) (hb : "opt_total_borate" ∈ N)
    (hs : "salinity" ∈ N) (hS : "salinity" ∈ cols₁) :
    Agree N (prepCols cols₁) (prepCols cols₂) (prepRow w cols₁ r₁) (prepRow w cols₂ r₂) := by
  intro c hc
  obtain ⟨h1, h2⟩ := h c hc
  refine ⟨by rw [mem_prepCols, mem_prepCols, h1], fun hm => ?_⟩
  have hx : c ∈ cols₁ → c ∈ cols₂ := h1.mp
  unfold prepRow
  by_cases e1 : c = "analyte_mass"
  · rw [if_pos e1, if_pos e1]
    by_cases hc1 : c ∈ cols₁
    · rw [if_pos hc1, if_pos (hx hc1), h2 hc1]
    · rw [if_neg hc1, if_neg (fun h => hc1 (h1.mpr h))]
  rw [if_neg e1, if_neg e1]
  by_cases e2 : c = "titrant_amount_unit"
  · rw [if_pos e2, if_pos e2]
    have hc1 : c ∈ cols₁ := by
      rcases mem_prepCols.mp hm with h | h | h | h | h
      · exact h
      all_goals (subst e2; exact absurd h (by decide))
    rw [h2 hc1]
    simp only [hc1, hx hc1]
  rw [if_neg e2, if_neg e2]
  by_cases e3 : c = "file_good"
  · rw [if_pos e3, if_pos e3]
    by_cases hc1 : c ∈ cols₁
    · rw [if_pos hc1, if_pos (hx hc1), h2 hc1]
    · rw [if_neg hc1, if_neg (fun h => hc1 (h1.mpr h))]
  rw [if_neg e3, if_neg e3]
  unfold saltRow
  by_cases e4 : c = "opt_total_borate"
  · rw [if_pos e4, if_pos e4, prepBorate_agree h hb]
  rw [if_neg e4, if_neg e4]
  by_cases e5 : c ∈ salts
  · rw [if_pos e5, if_pos e5, prepBorate_agree h hb, (h _ hs).2 hS]
    by_cases hc1 : c ∈ cols₁
    · rw [h2 hc1]; simp only [hc1, hx hc1]
    · have hc2 : c ∉ cols₂ := fun h => hc1 (h1.mpr h)
      simp only [hc1, hc2, false_and, if_false]
  rw [if_neg e5, if_neg e5]
  apply h2
  rcases mem_prepCols.mp hm with h | h | h | h | h
  · exact h
  exacts [absurd h e4, absurd h e5, absurd h e1, absurd h e3]

end

theorem solved_agree {w : World} {kw : Dict Val} {N cols₁ cols₂ : List String} {r₁ r₂ r₁' : Row}
    (hN : ∀ c ∈ solveColumns, c ∈ N) (h : Agree N cols₁ cols₂ r₁ r₂) (hS : "salinity" ∈ cols₁)
    (ht : "titrant_molinity" ∈ cols₁) (hr : solvedRow w kw cols₁ r₁ = .ok r₁') :
    ∃ r₂', solvedRow w kw cols₂ r₂ = .ok r₂' ∧ ∀ c, c ∈ N ∨ c ∈ solvedCols ∨
      ("alkalinity_certified" ∈ cols₁ ∧ c = "alkalinity_offset") → c ∈ doneCols cols₁ → r₁' c = r₂' c := by
  have hp := prep_agree w h (hN _ (by decide)) (hN _ (by decide)) hS
  have hin : ∀ c, c ∈ cols₁ → c ∈ prepCols cols₁ := fun c hc => mem_prepCols.mpr (.inl hc)
  rw [solvedRow, bind_ok_iff] at hr
  obtain ⟨m, hm, ho⟩ := hr
  obtain ⟨s, hs, rfl⟩ := mergedRow_inv hm
  have hs2 : solve_row w kw (prepCols cols₂) (prepRow w cols₂ r₂) = .ok s := by
    rw [← hs]
    symm
    apply solve_row_congr
    · intro c hc
      exact hp c (hN c ((by decide +kernel : ∀ c ∈ solveReads, c ∈ solveColumns) c hc))
    · exact (hp _ (hN _ (by decide))).2 (hin _ ht)
    · exact (hp _ (hN _ (by decide))).2 (hin _ hS)
    · exact (hp _ (hN _ (by decide))).2 (mem_prepCols.mpr (by simp))
    · exact (hp _ (hN _ (by decide))).2 (mem_prepCols.mpr (by simp))
  have hm2 : mergedRow w kw cols₂ r₂ = .ok (mergeSolved (prepRow w cols₂ r₂) s) := by
    simp only [mergedRow, hs2, bind_ok, pure_ok]
  have hcert := h "alkalinity_certified" (hN _ (by decide))
  have hmerge : ∀ c, c ∈ N ∨ c ∈ solvedCols → c ∈ prepCols cols₁ ∨ c ∈ solvedCols →
      mergeSolved (prepRow w cols₁ r₁) s c = mergeSolved (prepRow w cols₂ r₂) s c := by
    intro c hc hc'
    unfold mergeSolved
    by_cases hsol : c ∈ solvedCols
    · rw [if_pos hsol, if_pos hsol]
    · rw [if_neg hsol, if_neg hsol]
      exact (hp c (hc.resolve_right hsol)).2 (hc'.resolve_right hsol)
  have hdone : ∀ c, c ∈ doneCols cols₁ → (c ∈ prepCols cols₁ ∨ c ∈ solvedCols) ∨
      ("alkalinity_certified" ∈ cols₁ ∧ c = "alkalinity_offset") := by
    intro c hc
    rw [mem_doneCols] at hc
    rw [mem_prepCols]
    tauto
  by_cases hc : "alkalinity_certified" ∈ cols₁
  · have ea : mergeSolved (prepRow w cols₁ r₁) s "alkalinity" = mergeSolved (prepRow w cols₂ r₂) s "alkalinity" :=
      hmerge _ (.inr (by decide)) (.inr (by decide))
    have ec : mergeSolved (prepRow w cols₁ r₁) s "alkalinity_certified"
        = mergeSolved (prepRow w cols₂ r₂) s "alkalinity_certified" :=
      hmerge _ (.inl (hN _ (by decide))) (.inl (hin _ hc))
    unfold offsetRow at ho
    rw [if_pos hc, ea, ec] at ho
    simp only [bind_ok_iff, pure_ok, Except.ok.injEq] at ho
    obtain ⟨a, ha, b, hb, rfl⟩ := ho
    refine ⟨(mergeSolved (prepRow w cols₂ r₂) s).put "alkalinity_offset" (.num (a - b)), ?_, ?_⟩
    · rw [solvedRow, hm2, bind_ok, offsetRow, if_pos (hcert.1.mp hc)]
      simp only [ha, hb, bind_ok, pure_ok]
    · intro c hcn hcd
      unfold Row.put
      by_cases e : c = "alkalinity_offset"
      · rw [if_pos e, if_pos e]
      · rw [if_neg e, if_neg e]
        refine hmerge c ?_ ?_
        · rcases hcn with h | h | h
          exacts [.inl h, .inr h, absurd h.2 e]
        · exact (hdone c hcd).resolve_right fun h => e h.2
  · unfold offsetRow at ho
    rw [if_neg hc] at ho
    obtain rfl := Except.ok.inj ho
    refine ⟨mergeSolved (prepRow w cols₂ r₂) s, ?_, ?_⟩
    · rw [solvedRow, hm2, bind_ok, offsetRow, if_neg (fun h => hc (hcert.1.mpr h))]
    · intro c hcn hcd
      refine hmerge c ?_ ((hdone c hcd).resolve_right fun h => hc h.1)
      rcases hcn with h | h | h
      exacts [.inl h, .inr h, absurd h.1 hc]

theorem forall₂_exists {α β γ δ : Type} {R : α → β → Prop} {S : α → γ → Prop} {P : β → δ → Prop}
    {Q : γ → δ → Prop} {l : List α} {m : List β} {n : List γ} (h : List.Forall₂ R l m) (h' : List.Forall₂ S l n)
    (step : ∀ a b c, R a b → S a c → ∃ d, P b d ∧ Q c d) :
    ∃ o, List.Forall₂ P m o ∧ List.Forall₂ Q n o := by
  induction h generalizing n with
  | nil => cases h'; exact ⟨[], .nil, .nil⟩
  | cons hx _ ih =>
    cases h' with
    | cons hy hr =>
      obtain ⟨d, h1, h2⟩ := step _ _ _ hx hy
      obtain ⟨o, h3, h4⟩ := ih hr
      exact ⟨d :: o, .cons h1 h3, .cons h2 h4⟩

theorem solve_same {w : World} {kw : Dict Val} {N : List String} {df₁ df₂ df₁' : DF}
    (hN : ∀ c ∈ solveColumns, c ∈ N) (h : dataset_solve w kw df₁ = (.ok (), df₁')) (hs : SameCells N df₁ df₂) :
    ∃ df₂', dataset_solve w kw df₂ = (.ok (), df₂') ∧ SameCells (N ++ resultColumns df₁) df₁' df₂' := by
  obtain ⟨h1, h2, h3, h4, h5, h6⟩ := dataset_solve_ok_iff.mp h
  obtain ⟨hc, hrows⟩ := hs
  have hag : List.Forall₂ (fun r r' => Agree N df₁.cols df₂.cols r r') df₁.rows df₂.rows :=
    hrows.imp fun r r' hr c hcN => ⟨hc c hcN, hr c hcN⟩
  obtain ⟨rows', ha, hb⟩ := forall₂_exists hag h6 (P := fun r r' => solvedRow w kw df₂.cols r = .ok r')
    (Q := fun r r' => ∀ c, c ∈ N ∨ c ∈ solvedCols ∨ ("alkalinity_certified" ∈ df₁.cols ∧ c = "alkalinity_offset") →
      c ∈ doneCols df₁.cols → r c = r' c) (fun a b c hab hac => solved_agree hN hab h2 h4 hac)
  refine ⟨⟨doneCols df₂.cols, rows'⟩, dataset_solve_ok_iff.mpr ⟨h1, (hc _ (hN _ (by decide))).mp h2, ?_,
    (hc _ (hN _ (by decide))).mp h4, rfl, ha⟩, ?_, ?_⟩
  · exact h3.imp (hc _ (hN _ (by decide))).mp (hc _ (hN _ (by decide))).mp
  · have hmem : ∀ c, c ∈ resultColumns df₁ → c ∈ solvedCols ∨
        ("alkalinity_certified" ∈ df₁.cols ∧ c = "alkalinity_offset") := by
      intro c hcr
      unfold resultColumns at hcr
      rcases List.mem_append.mp hcr with h | h
      · exact .inl h
      · split at h
        · exact .inr ⟨by assumption, by simpa using h⟩
        · simp at h
    intro c hcN
    rw [h5, mem_doneCols]
    show _ ↔ c ∈ doneCols df₂.cols
    rw [mem_doneCols, hc "alkalinity_certified" (hN _ (by decide))]
    rcases List.mem_append.mp hcN with h | h
    · rw [hc c h]
    · rcases hmem c h with h | ⟨hcert, rfl⟩
      · simp [h]
      · have := (hc "alkalinity_certified" (hN _ (by decide))).mp hcert
        simp [this]
  · refine hb.imp fun r r' hr c hcN hcd => hr c ?_ (by rwa [h5] at hcd)
    rcases List.mem_append.mp hcN with h | h
    · exact .inl h
    · unfold resultColumns at h
      rcases List.mem_append.mp h with h | h
      · exact .inr (.inl h)
      · split at h
        · exact .inr (.inr ⟨by assumption, by simpa using h⟩)
        · simp at h

/-- **C131** for `solve`: a data set that has the same columns that matter, with the same cells in
them, but any other columns, is solved just when the first one is, with the same results. -/
theorem C131_solve (w : World) (kw : Dict Val) (df₁ df₂ df₁' : DF)
    (h : dataset_solve w kw df₁ = (.ok (), df₁')) (hs : SameCells solveColumns df₁ df₂) :
    ∃ df₂', dataset_solve w kw df₂ = (.ok (), df₂') ∧ SameCells (solveColumns ++ resultColumns df₁) df₁' df₂' :=
  solve_same (fun _ h => h) h hs

/-! ## Calibrating -/

theorem batchMean_same {rows₁ rows₂ : List Row}
    (h : List.Forall₂ (fun r r' => r "analysis_batch" = r' "analysis_batch" ∧
      r "reference_good" = r' "reference_good" ∧ r "titrant_molinity_here" = r' "titrant_molinity_here") rows₁ rows₂)
    (b : Val) : batchMean rows₁ b = batchMean rows₂ b := by
  unfold batchMean
  congr 1
  induction h with
  | nil => rfl
  | cons hx _ ih =>
    obtain ⟨e1, e2, e3⟩ := hx
    simp only [List.filter_cons, isReference, e1, e2, e3] at ih ⊢
    split
    · simp only [List.map_cons, e3]; rw [ih]
    · exact ih

theorem here_same {w : World} {kw : Dict Val} {N : List String} {df₁ df₂ : DF} {rows₁ : List Row}
    (hN : ∀ c ∈ calibrateColumns, c ∈ N) (hs : SameCells N df₁ df₂) (hS : "salinity" ∈ df₁.cols)
    (hC : "alkalinity_certified" ∈ df₁.cols)
    (h : List.Forall₂ (fun r r' => hereRow w kw df₁.cols r = .ok r') df₁.rows rows₁) :
    ∃ rows₂, List.Forall₂ (fun r r' => hereRow w kw df₂.cols r = .ok r') df₂.rows rows₂ ∧
      SameCells ("titrant_molinity_here" :: N) ⟨hereCols df₁.cols, rows₁⟩ ⟨hereCols df₂.cols, rows₂⟩ := by
  obtain ⟨hc, hrows⟩ := hs
  have hag : List.Forall₂ (fun r r' => Agree N df₁.cols df₂.cols r r') df₁.rows df₂.rows :=
    hrows.imp fun r r' hr c hcN => ⟨hc c hcN, hr c hcN⟩
  obtain ⟨rows₂, ha, hb⟩ := forall₂_exists hag h (P := fun r r' => hereRow w kw df₂.cols r = .ok r')
    (Q := fun r r' => ∀ c ∈ "titrant_molinity_here" :: N, c ∈ hereCols df₁.cols → r c = r' c) (by
      intro r r₂ r₁' hr hh
      have hp := prep_agree w hr (hN _ (by decide)) (hN _ (by decide)) hS
      have hin : ∀ c, c ∈ df₁.cols → c ∈ prepCols df₁.cols := fun c hc => mem_prepCols.mpr (.inl hc)
      have e : calibrate_row w kw (prepCols df₁.cols) (prepRow w df₁.cols r)
          = calibrate_row w kw (prepCols df₂.cols) (prepRow w df₂.cols r₂) := by
        apply calibrate_row_congr
        · intro c hc
          exact hp c (hN c ((by decide +kernel : ∀ c ∈ calibrateReads, c ∈ calibrateColumns) c hc))
        · exact (hp _ (hN _ (by decide))).2 (hin _ hC)
        · exact (hp _ (hN _ (by decide))).2 (hin _ hS)
        · exact (hp _ (hN _ (by decide))).2 (mem_prepCols.mpr (by simp))
      unfold hereRow at hh ⊢
      rw [e] at hh
      simp only [bind_ok_iff, pure_ok, Except.ok.injEq] at hh
      obtain ⟨v, hv, rfl⟩ := hh
      refine ⟨(prepRow w df₂.cols r₂).put "titrant_molinity_here" v, by simp only [hv, bind_ok, pure_ok], ?_⟩
      intro c hcN hcd
      unfold Row.put
      by_cases hx : c = "titrant_molinity_here"
      · rw [if_pos hx, if_pos hx]
      · rw [if_neg hx, if_neg hx]
        refine (hp c ((List.mem_cons.mp hcN).resolve_left hx)).2 ?_
        exact (mem_addCol.mp hcd).resolve_right hx)
  refine ⟨rows₂, ha, ?_, hb⟩
  intro c hcN
  show c ∈ addCol _ _ ↔ c ∈ addCol _ _
  rw [mem_addCol, mem_addCol, mem_prepCols, mem_prepCols]
  rcases List.mem_cons.mp hcN with rfl | h
  · simp
  · rw [hc c h]

theorem withDefaults_same {N : List String} {df₁ df₂ : DF} (hb : "analysis_batch" ∈ N) (hg : "reference_good" ∈ N)
    (hh : "titrant_molinity_here" ∈ N) (hh1 : "titrant_molinity_here" ∈ df₁.cols) (hs : SameCells N df₁ df₂) :
    SameCells N (withDefaults df₁) (withDefaults df₂) := by
  obtain ⟨hc, hrows⟩ := hs
  obtain ⟨f, e1, a1, a2, a3, a4, a5⟩ := withDefaults_rows df₁
  obtain ⟨g, e2, b1, b2, b3, b4, b5⟩ := withDefaults_rows df₂
  refine ⟨fun c h => by rw [mem_withDefaults, mem_withDefaults, hc c h], ?_⟩
  rw [e1, e2, List.forall₂_map_left_iff, List.forall₂_map_right_iff]
  refine hrows.imp fun r r' hr c hcN hcd => ?_
  by_cases hx : c = "analysis_batch"
  · subst hx
    by_cases hm : "analysis_batch" ∈ df₁.cols
    · rw [a2 r hm, b2 r' ((hc _ hb).mp hm), hr _ hb hm]
    · rw [a4 r hm, b4 r' (fun h => hm ((hc _ hb).mpr h))]
  by_cases hy : c = "reference_good"
  · subst hy
    by_cases hm : "reference_good" ∈ df₁.cols
    · rw [a3 r hm, b3 r' ((hc _ hg).mp hm), hr _ hg hm]
    · rw [a5 r hm, b5 r' (fun h => hm ((hc _ hg).mpr h)), hr _ hh hh1]
  rw [a1 r c hx hy, b1 r' c hx hy]
  refine hr c hcN ?_
  rcases mem_withDefaults.mp hcd with h | h | h
  exacts [h, absurd h hx, absurd h hy]

theorem withMolinity_same {N : List String} {df₁ df₂ : DF} (hb : "analysis_batch" ∈ N) (hg : "reference_good" ∈ N)
    (hh : "titrant_molinity_here" ∈ N) (hb1 : "analysis_batch" ∈ df₁.cols) (hg1 : "reference_good" ∈ df₁.cols)
    (hh1 : "titrant_molinity_here" ∈ df₁.cols) (hs : SameCells N df₁ df₂) :
    SameCells ("titrant_molinity" :: N) (withMolinity df₁) (withMolinity df₂) := by
  obtain ⟨hc, hrows⟩ := hs
  have hm := batchMean_same (hrows.imp fun r r' hr => ⟨hr _ hb hb1, hr _ hg hg1, hr _ hh hh1⟩)
  constructor
  · intro c hcN
    show c ∈ addCol _ _ ↔ c ∈ addCol _ _
    rw [mem_addCol, mem_addCol]
    rcases List.mem_cons.mp hcN with rfl | h
    · simp
    · rw [hc c h]
  · unfold withMolinity DF.setCol
    rw [List.forall₂_map_left_iff, List.forall₂_map_right_iff]
    refine hrows.imp fun r r' hr c hcN hcd => ?_
    show Row.put _ _ _ _ = Row.put _ _ _ _
    unfold Row.put
    by_cases hx : c = "titrant_molinity"
    · rw [if_pos hx, if_pos hx]; show Val.num _ = Val.num _; rw [hm, hr _ hb hb1]
    · rw [if_neg hx, if_neg hx]
      exact hr c ((List.mem_cons.mp hcN).resolve_left hx) ((mem_addCol.mp hcd).resolve_right hx)

/-- **C131** for `calibrate`: likewise, and the calibrated molinities are the same too. -/
theorem C131_calibrate (w : World) (kw : Dict Val) (df₁ df₂ df₁' : DF)
    (h : dataset_calibrate w kw df₁ = (.ok (), df₁')) (hs : SameCells calibrateColumns df₁ df₂) :
    ∃ df₂', dataset_calibrate w kw df₂ = (.ok (), df₂') ∧
      SameCells (["titrant_molinity", "titrant_molinity_here"] ++ calibrateColumns ++ resultColumns df₁)
        df₁' df₂' := by
  obtain ⟨h1, h2, h3, rows₁, hrows, hok, hsol⟩ := dataset_calibrate_ok_iff.mp h
  have hc := hs.1
  obtain ⟨rows₂, hrows2, hsame⟩ := here_same (fun _ h => h) hs h1 h3 hrows
  have hhere : "titrant_molinity_here" ∈ hereCols df₁.cols := mem_addCol.mpr (.inr rfl)
  have hd := withDefaults_same (by decide) (by decide) (by decide) hhere hsame
  have hb1 : "analysis_batch" ∈ (withDefaults ⟨hereCols df₁.cols, rows₁⟩).cols := mem_withDefaults.mpr (by simp)
  have hg1 : "reference_good" ∈ (withDefaults ⟨hereCols df₁.cols, rows₁⟩).cols := mem_withDefaults.mpr (by simp)
  have hm := withMolinity_same (by decide) (by decide) (by decide) hb1 hg1
    (mem_withDefaults.mpr (.inl hhere)) hd
  obtain ⟨df₂', hsol2, hfin⟩ := solve_same (by decide +kernel) hsol hm
  refine ⟨df₂', dataset_calibrate_ok_iff.mpr ⟨(hc _ (by decide)).mp h1,
    h2.imp (hc _ (by decide)).mp (hc _ (by decide)).mp, (hc _ (by decide)).mp h3, rows₂, hrows2, ?_, hsol2⟩, ?_⟩
  · intro r hr
    obtain ⟨r₁, hr₁, hrr⟩ := forall₂_mem hd.2.flip hr
    have := hok r₁ hr₁
    have e1 := hrr "analysis_batch" (by decide) hb1
    have e2 := hrr "reference_good" (by decide) hg1
    rw [← e1, ← e2]
    exact this
  · have hcert : "alkalinity_certified" ∈ (withMolinity (withDefaults ⟨hereCols df₁.cols, rows₁⟩)).cols :=
      mem_addCol.mpr (.inl (mem_withDefaults.mpr (.inl (mem_addCol.mpr (.inl (mem_prepCols.mpr (.inl h3)))))))
    have er : resultColumns (withMolinity (withDefaults ⟨hereCols df₁.cols, rows₁⟩)) = resultColumns df₁ := by
      unfold resultColumns
      rw [if_pos hcert, if_pos h3]
    rw [er] at hfin
    exact hfin

/-- ... and for `calkulate`. -/
theorem C131_calkulate (w : World) (kw : Dict Val) (df₁ df₂ df₁' : DF)
    (h : dataset_calkulate w kw df₁ = (.ok (), df₁')) (hs : SameCells calibrateColumns df₁ df₂) :
    ∃ df₂', dataset_calkulate w kw df₂ = (.ok (), df₂') ∧
      SameCells (["titrant_molinity", "titrant_molinity_here"] ++ calibrateColumns ++ resultColumns df₁)
        df₁' df₂' := by
  simp only [C45_calkulate] at h ⊢
  exact C131_calibrate w kw df₁ df₂ df₁' h hs

/-! ## A case -/

/-- the data set of `g_calibrated`, with a column of remarks added -/
noncomputable def xFrame : DF := ⟨"remarks" :: gCols, [(gRow true).put "remarks" (.str "bubble in the burette")]⟩

/-- The file is calibrated as without that column. -/
example : ∃ df' r', dataset_calibrate gWorld [] xFrame = (.ok (), df') ∧ df'.rows = [r'] ∧
    r' "titrant_molinity_here" = .num (fin 0.1) ∧ r' "titrant_molinity" = .num (fin 0.1) := by
  obtain ⟨df₁, r₁, h, hr, hx, -⟩ := g_finishes true
  obtain ⟨df₁', r₁', h', hr', hm, -⟩ := g_calibrated
  obtain rfl : df₁ = df₁' := (Prod.mk.inj (h.symm.trans h')).2
  obtain rfl : r₁ = r₁' := by simpa using hr.symm.trans hr'
  have hs : SameCells calibrateColumns (gFrame true) xFrame := by
    refine ⟨fun c hc => ?_, .cons (fun c hc _ => ?_) .nil⟩
    all_goals have hne : c ≠ "remarks" := by rintro rfl; exact absurd hc (by decide +kernel)
    · show c ∈ gCols ↔ c ∈ "remarks" :: gCols
      simp [hne]
    · exact (put_ne _ _ hne).symm
  obtain ⟨df₂, h2, hc2, hr2⟩ := C131_calibrate gWorld [] (gFrame true) xFrame df₁ h hs
  rw [hr] at hr2
  obtain ⟨r₂, l, h3, h4, e⟩ := List.forall₂_cons_left_iff.mp hr2
  obtain rfl : l = [] := by cases h4; rfl
  refine ⟨df₂, r₂, h2, e, ?_, ?_⟩
  · refine (h3 _ (by simp) ?_).symm.trans (hx.trans (by simp))
    exact calibrate_cols h (.inr (by decide))
  · refine (h3 _ (by simp) ?_).symm.trans hm
    exact calibrate_cols h (.inr (by decide))

end Calk
