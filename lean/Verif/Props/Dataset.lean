import Verif.Lemmas.Dataset
import Verif.Props.Files
import Mathlib.Data.List.FinRange

/-! # Properties of the dataset functions: C40–C42, C45, C48, C49, C51, C52 -/

namespace Calk
open Flt

/-! ## C40 -/

/-- the columns that `dataset.solve` may overwrite -/
def resultCols : List String :=
  ["alkalinity_npts", "alkalinity_std", "alkalinity", "emf0", "gran_alkalinity", "gran_emf0",
    "pH_init", "temperature_init", "alkalinity_offset"]

/-- the columns that `dataset.solve` may complete -/
def fillCols : List String :=
  ["opt_total_borate", "total_sulfate", "total_borate", "total_fluoride", "analyte_mass",
    "titrant_amount_unit", "file_good"]

/-- `df'` has the rows and columns of `df`, perhaps with extra columns from `own` or `fill`; only
`own` columns may change, and nulls in `fill` columns may be filled in. -/
structure Touches (own fill : List String) (df df' : DF) : Prop where
  cols : ∃ extra, df'.cols = df.cols ++ extra ∧ ∀ c ∈ extra, c ∈ own ∨ c ∈ fill
  rows : List.Forall₂ (fun r r' => (∀ c, c ∉ own → c ∉ fill → r' c = r c) ∧
    (∀ c ∈ fill, c ∈ df.cols → (r c).isNull = false → r' c = r c)) df.rows df'.rows

theorem Touches.refl (own fill : List String) (df : DF) : Touches own fill df df where
  cols := ⟨[], by simp⟩
  rows := List.forall₂_same.mpr fun _ _ => ⟨fun _ _ _ => rfl, fun _ _ _ _ => rfl⟩

theorem Touches.trans {own fill : List String} {a b c : DF} (h : Touches own fill a b)
    (h' : Touches own fill b c) : Touches own fill a c where
  cols := by
    obtain ⟨e, h1, h2⟩ := h.cols
    obtain ⟨e', h1', h2'⟩ := h'.cols
    refine ⟨e ++ e', by rw [h1', h1, List.append_assoc], ?_⟩
    intro c hc
    rcases List.mem_append.mp hc with hc | hc
    · exact h2 c hc
    · exact h2' c hc
  rows := by
    obtain ⟨e, h1, _⟩ := h.cols
    refine (forall₂_comp h.rows h'.rows).imp ?_
    rintro r r'' ⟨r', ⟨h2, h3⟩, ⟨h4, h5⟩⟩
    refine ⟨fun c h h' => (h4 c h h').trans (h2 c h h'), ?_⟩
    intro c hc hm hn
    have := h3 c hc hm hn
    rw [h5 c hc (by rw [h1]; exact List.mem_append_left _ hm) (by rw [this]; exact hn), this]

/-- whatever the outcome, a step only touches these columns -/
def Keeps (own fill : List String) (m : PyS DF Unit) : Prop :=
  ∀ df, Touches own fill df (m df).2

theorem Keeps.bind {own fill : List String} {α : Type} {x : PyS DF α} {f : α → PyS DF Unit}
    (hx : ∀ df, Touches own fill df (x df).2) (hf : ∀ a, Keeps own fill (f a)) :
    Keeps own fill (x >>= f) := by
  intro df
  rw [PyS.bind_apply]
  have := hx df
  rcases h : x df with ⟨r, d⟩
  rw [h] at this
  cases r with
  | ok a => exact this.trans (hf a d)
  | error e => exact this

theorem Keeps.require {own fill : List String} (c : DF → Bool) :
    Keeps own fill (PyS.require c) := fun df => Touches.refl own fill df
theorem Keeps.lift {own fill : List String} {α : Type} (x : Py α) (df : DF) :
    Touches own fill df ((PyS.lift x : PyS DF α) df).2 := Touches.refl own fill df
theorem Keeps.update {own fill : List String} {f : DF → Py DF}
    (h : ∀ df df', f df = .ok df' → Touches own fill df df') : Keeps own fill (PyS.update f) := by
  intro df
  cases hf : f df with
  | ok d => rw [PyS.update_ok hf]; exact h df d hf
  | error e => rw [PyS.update_error hf]; exact .refl _ _ _

theorem fillCols_eq : fillCols = prepFills := rfl

theorem Touches.salts (own : List String) (w : World) (df : DF) :
    Touches own fillCols df ⟨saltCols df.cols, df.rows.map (saltRow w df.cols)⟩ where
  cols := by
    obtain ⟨e, h1, h2⟩ := foldl_addCol_prefix
      ["opt_total_borate", "total_sulfate", "total_borate", "total_fluoride"] df.cols
    refine ⟨e, by simp only [saltCols]; exact h1, fun c hc => .inr ?_⟩
    exact (by decide : ∀ c ∈ ["opt_total_borate", "total_sulfate", "total_borate",
      "total_fluoride"], c ∈ fillCols) c (h2 c hc)
  rows := by
    rw [List.forall₂_map_right_iff, List.forall₂_same]
    intro r _
    refine ⟨fun c _ hc => saltRow_of_ne ?_ ?_, fun c _ hc hn => saltRow_keep hc hn⟩
    · rintro rfl; exact hc (by decide)
    · intro hs; exact hc ((by decide : ∀ c ∈ Calk.salts, c ∈ fillCols) c hs)

theorem Keeps.prepare (own : List String) (w : World) : Keeps own fillCols (prepare w) := by
  intro df
  rw [prepare_eq]
  split
  · split
    · refine ⟨?_, ?_⟩
      · obtain ⟨e, h1, h2⟩ := foldl_addCol_prefix
          ["opt_total_borate", "total_sulfate", "total_borate", "total_fluoride"] df.cols
        obtain ⟨e', h1', h2'⟩ := foldl_addCol_prefix ["analyte_mass", "file_good"] (saltCols df.cols)
        refine ⟨e ++ e', ?_, ?_⟩
        · show prepCols df.cols = _
          rw [prepCols, h1', saltCols, h1, List.append_assoc]
        · intro c hc
          right
          rcases List.mem_append.mp hc with hc | hc
          · exact (by decide : ∀ c ∈ ["opt_total_borate", "total_sulfate", "total_borate",
              "total_fluoride"], c ∈ fillCols) c (h2 c hc)
          · exact (by decide : ∀ c ∈ ["analyte_mass", "file_good"], c ∈ fillCols) c (h2' c hc)
      · rw [List.forall₂_map_right_iff, List.forall₂_same]
        intro r _
        exact ⟨fun c _ hc => prepRow_other hc, fun c _ hc hn => prepRow_keep hc hn⟩
    · exact Touches.salts own w df
  · exact .refl _ _ _

theorem Keeps.assignSolved (w : World) (kw : Dict Val) :
    Keeps resultCols fillCols (PyS.update (assignSolved w kw)) := by
  refine Keeps.update fun df df' h => ?_
  simp only [Calk.assignSolved, bind_ok_iff, pure_ok, Except.ok.injEq] at h
  obtain ⟨rows, h1, rfl⟩ := h
  refine ⟨?_, ?_⟩
  · obtain ⟨e, h2, h3⟩ := foldl_addCol_prefix solvedCols df.cols
    refine ⟨e, by simp only; exact h2, fun c hc => ?_⟩
    exact (by decide : ∀ c ∈ solvedCols, c ∈ resultCols ∨ c ∈ fillCols) c (h3 c hc)
  · refine (mapPy_ok h1).imp ?_
    intro r r' h
    simp only [bind_ok_iff, Except.ok.injEq] at h
    obtain ⟨s, hs, rfl⟩ := h
    have hm := solve_row_mass hs
    refine ⟨fun c h1 h2 => ?_, fun c h1 _ _ => ?_⟩
    · unfold mergeSolved
      rw [if_neg]
      intro h3
      have := (by decide : ∀ c ∈ solvedCols, c ∈ resultCols ∨ c ∈ fillCols) c h3
      exact this.elim h1 h2
    · unfold mergeSolved
      by_cases h3 : c ∈ solvedCols
      · have := (by decide : ∀ c ∈ solvedCols, c ∈ fillCols → c = "analyte_mass") c h3 h1
        subst this
        rw [if_pos h3, hm]
      · rw [if_neg h3]

theorem Keeps.addOffset : Keeps resultCols fillCols (PyS.update addOffset) := by
  refine Keeps.update fun df df' h => ?_
  rw [addOffset_eq] at h
  simp only [bind_ok_iff, pure_ok, Except.ok.injEq] at h
  obtain ⟨rows, h1, rfl⟩ := h
  refine ⟨?_, ?_⟩
  · show ∃ extra, offsetCols df.cols = _ ∧ _
    unfold offsetCols
    split
    · obtain ⟨e, h2, h3⟩ := addCol_prefix df.cols "alkalinity_offset"
      exact ⟨e, h2, fun c hc => by rw [h3 c hc]; left; decide⟩
    · exact ⟨[], by simp⟩
  · refine (mapPy_ok h1).imp ?_
    intro r r' h
    unfold offsetRow at h
    split at h
    · simp only [bind_ok_iff, pure_ok, Except.ok.injEq] at h
      obtain ⟨a, _, b, _, rfl⟩ := h
      have : ∀ c, c ≠ "alkalinity_offset" →
          (r.put "alkalinity_offset" (.num (a - b))) c = r c := by
        intro c hc; unfold Row.put; rw [if_neg hc]
      exact ⟨fun c h1 _ => this c (by rintro rfl; exact h1 (by decide)),
        fun c h1 _ _ => this c (by rintro rfl; revert h1; decide)⟩
    · simp only [Except.ok.injEq] at h
      subst h
      exact ⟨fun _ _ _ => rfl, fun _ _ _ _ => rfl⟩

/-- **C40**: whatever happens (also if an exception is raised), `dataset.solve` keeps the rows and
their order, overwrites no column but its own results, and never changes a non-null value in the
columns it completes. -/
theorem C40_solve (w : World) (kw : Dict Val) (df : DF) :
    Touches resultCols fillCols df (dataset_solve w kw df).2 := by
  have : Keeps resultCols fillCols (dataset_solve w kw) := by
    unfold dataset_solve
    exact Keeps.bind (Keeps.lift _) fun _ => Keeps.bind (Keeps.prepare _ w) fun _ =>
      Keeps.bind (Keeps.require _) fun _ => Keeps.bind (Keeps.assignSolved w kw) fun _ =>
      Keeps.addOffset
  exact this df

/-- in particular the number of rows stays the same -/
theorem C40_length (w : World) (kw : Dict Val) (df : DF) :
    (dataset_solve w kw df).2.rows.length = df.rows.length :=
  (C40_solve w kw df).rows.length_eq.symm

/-! ## C41 -/

/-- a cell that can stand in the `alkalinity_certified` column -/
def NumOrNull (v : Val) : Prop := v.isNull = true ∨ ∃ x, v = .num x

theorem cellNum_ok {v : Val} (h : NumOrNull v) : ∃ x, cellNum v = .ok x := by
  unfold cellNum
  rcases h with h | ⟨x, rfl⟩
  · exact ⟨nan, by rw [if_pos h]⟩
  · split
    · exact ⟨_, rfl⟩
    · exact ⟨x, rfl⟩

theorem mergedRow_inv {w : World} {kw : Dict Val} {cols : List String} {r m : Row}
    (h : mergedRow w kw cols r = .ok m) : ∃ s, solve_row w kw (prepCols cols) (prepRow w cols r) = .ok s
      ∧ m = mergeSolved (prepRow w cols r) s := by
  simp only [mergedRow, bind_ok_iff, pure_ok, Except.ok.injEq] at h
  obtain ⟨s, hs, rfl⟩ := h
  exact ⟨s, hs, rfl⟩

theorem solvedRow_ok {w : World} {kw : Dict Val} {cols : List String} {r : Row}
    (hf : "file_name" ∈ cols)
    (hc : "alkalinity_certified" ∈ cols → NumOrNull (r "alkalinity_certified")) :
    ∃ r', solvedRow w kw cols r = .ok r' := by
  rcases solve_row_outcome w kw (prepCols cols) (prepRow w cols r) with ⟨s, hs⟩ | ⟨h, _⟩
  swap
  · exact absurd (mem_prepCols.mpr (.inl hf)) h
  have hm : mergedRow w kw cols r = .ok (mergeSolved (prepRow w cols r) s) := by
    simp only [mergedRow, hs, bind_ok, pure_ok]
  rw [solvedRow, hm, bind_ok]
  unfold offsetRow
  by_cases hcert : "alkalinity_certified" ∈ cols
  · rw [if_pos hcert]
    obtain ⟨x, hx⟩ := solve_row_num hs "alkalinity" (by decide) (by decide)
    have e1 : mergeSolved (prepRow w cols r) s "alkalinity" = .num x := by
      unfold mergeSolved; rw [if_pos (by decide), hx]
    have e2 : mergeSolved (prepRow w cols r) s "alkalinity_certified" = r "alkalinity_certified" := by
      unfold mergeSolved; rw [if_neg (by decide), prepRow_other (by decide)]
    obtain ⟨a, ha⟩ := cellNum_ok (v := .num x) (.inr ⟨x, rfl⟩)
    obtain ⟨b, hb⟩ := cellNum_ok (hc hcert)
    rw [e1, e2, ha, hb]
    exact ⟨_, rfl⟩
  · rw [if_neg hcert]; exact ⟨_, rfl⟩

theorem forall₂_of_forall {α β : Type} {R : α → β → Prop} {l : List α}
    (h : ∀ x ∈ l, ∃ y, R x y) : ∃ l', List.Forall₂ R l l' := by
  induction l with
  | nil => exact ⟨[], .nil⟩
  | cons x l ih =>
    obtain ⟨y, hy⟩ := h x (by simp)
    obtain ⟨l', hl'⟩ := ih fun x hx => h x (by simp [hx])
    exact ⟨y :: l', .cons hy hl'⟩

/-- **C41**: whatever the files, PyCO2SYS and the optimiser do — return anything or raise anything —
`dataset.solve` finishes, provided the frame has the columns it needs, certified values are numbers
or null, and the old-style keyword arguments are well formed. -/
theorem C41_finishes (w : World) (kw : Dict Val) (df : DF)
    (hk : ∃ l, dataset_ignored kw = .ok l) (hS : "salinity" ∈ df.cols)
    (hm : "analyte_mass" ∈ df.cols ∨ "analyte_volume" ∈ df.cols)
    (ht : "titrant_molinity" ∈ df.cols) (hf : "file_name" ∈ df.cols)
    (hc : "alkalinity_certified" ∈ df.cols → ∀ r ∈ df.rows, NumOrNull (r "alkalinity_certified")) :
    ∃ df', dataset_solve w kw df = (.ok (), df') := by
  obtain ⟨rows, hr⟩ := forall₂_of_forall (R := fun r r' => solvedRow w kw df.cols r = .ok r')
    (l := df.rows) fun r hr => solvedRow_ok hf fun h => hc h r hr
  exact ⟨⟨doneCols df.cols, rows⟩, dataset_solve_ok_iff.mpr ⟨hk, hS, hm, ht, rfl, hr⟩⟩

/-- Every row gets what it would get in a dataset of its own. -/
theorem C41_isolated (w : World) (kw : Dict Val) (df df' : DF)
    (h : dataset_solve w kw df = (.ok (), df')) :
    List.Forall₂ (fun r r' => dataset_solve w kw ⟨df.cols, [r]⟩ = (.ok (), ⟨df'.cols, [r']⟩))
      df.rows df'.rows := by
  obtain ⟨h1, h2, h3, h4, h5, h6⟩ := dataset_solve_ok_iff.mp h
  refine h6.imp fun r r' hr => ?_
  rw [dataset_solve_ok_iff]
  exact ⟨h1, h2, h3, h4, h5, .cons hr .nil⟩

/-- The converse: rows that can be solved one by one can be solved together. -/
theorem C41_together (w : World) (kw : Dict Val) (cols cols' : List String) (rows rows' : List Row)
    (hne : rows ≠ [])
    (h : List.Forall₂ (fun r r' => dataset_solve w kw ⟨cols, [r]⟩ = (.ok (), ⟨cols', [r']⟩))
      rows rows') : dataset_solve w kw ⟨cols, rows⟩ = (.ok (), ⟨cols', rows'⟩) := by
  have h' : ∀ r r', dataset_solve w kw ⟨cols, [r]⟩ = (.ok (), ⟨cols', [r']⟩) →
      solvedRow w kw cols r = .ok r' := by
    intro r r' h
    obtain ⟨_, _, _, _, _, h6⟩ := dataset_solve_ok_iff.mp h
    cases h6 with | cons hr _ => exact hr
  obtain ⟨r, r', hr⟩ : ∃ r r', dataset_solve w kw ⟨cols, [r]⟩ = (.ok (), ⟨cols', [r']⟩) := by
    cases h with
    | nil => exact absurd rfl hne
    | cons hx _ => exact ⟨_, _, hx⟩
  obtain ⟨h1, h2, h3, h4, h5, _⟩ := dataset_solve_ok_iff.mp hr
  exact dataset_solve_ok_iff.mpr ⟨h1, h2, h3, h4, h5, h.imp fun r r' hr => h' r r' hr⟩

/-- blank results: no points, nothing found -/
def Blank (r : Row) : Prop :=
  r "alkalinity_npts" = .num (fin 0) ∧
  ∀ c ∈ ["alkalinity_std", "alkalinity", "emf0", "gran_alkalinity", "gran_emf0", "pH_init",
    "temperature_init"], r c = .num nan

theorem blank_of_merge {p s : Row} {q : Row} (hs : s = blankSolved q) : Blank (mergeSolved p s) := by
  subst hs
  refine ⟨?_, ?_⟩
  · unfold mergeSolved; rw [if_pos (by decide)]; rfl
  · intro c hc
    have h1 : c ∈ solvedCols := by revert c; decide
    have h2 : c ≠ "alkalinity_npts" := by revert c; decide
    have h3 : c ≠ "analyte_mass" := by revert c; decide
    unfold mergeSolved blankSolved
    rw [if_pos h1, if_neg h2, if_neg h3]

theorem offsetRow_keeps {cols : List String} {r r' : Row} (h : offsetRow cols r = .ok r') (c : String)
    (hc : c ≠ "alkalinity_offset") : r' c = r c := by
  unfold offsetRow at h
  split at h
  · simp only [bind_ok_iff, pure_ok, Except.ok.injEq] at h
    obtain ⟨a, _, b, _, rfl⟩ := h
    unfold Row.put; rw [if_neg hc]
  · simp only [Except.ok.injEq] at h; subst h; rfl

theorem blank_offset {cols : List String} {r r' : Row} (h : offsetRow cols r = .ok r')
    (hb : Blank r) : Blank r' := by
  refine ⟨?_, ?_⟩
  · rw [offsetRow_keeps h _ (by decide)]; exact hb.1
  · intro c hc
    rw [offsetRow_keeps h c (by revert c; decide)]
    exact hb.2 c hc

theorem solve_row_blank {w : World} {kw : Dict Val} {cols : List String} {r s : Row}
    (h : solve_row w kw cols r = .ok s) (he : ∃ e, solve_call w kw cols r = .error e) :
    s = blankSolved r := by
  obtain ⟨e, he⟩ := he
  unfold solve_row at h
  split at h
  · have : solve_attempt w kw cols r (blankSolved r) = (.error e, blankSolved r) := by
      unfold solve_attempt; rw [PyS.lift_bind, he]
    rw [this] at h
    simp only [caught] at h
    split at h
    · exact (Except.ok.inj h).symm
    · cases h
  · exact (Except.ok.inj h).symm

/-- A row whose titration cannot be solved (the file cannot be read, the settings are wrong, the
optimiser fails, ...) gets blank results. -/
theorem C41_blank (w : World) (kw : Dict Val) (df df' : DF)
    (h : dataset_solve w kw df = (.ok (), df')) :
    List.Forall₂ (fun r r' => (∀ f c S kw', (r "file_name").toStr = .ok f →
        (r "titrant_molinity").toFlt = .ok c → (r "salinity").toFlt = .ok S →
        ∃ e, files_solve w f c S kw' = .error e) → Blank r')
      df.rows df'.rows := by
  obtain ⟨h1, h2, h3, h4, h5, h6⟩ := dataset_solve_ok_iff.mp h
  refine h6.imp fun r r' hr hbad => ?_
  rw [solvedRow, bind_ok_iff] at hr
  obtain ⟨m, hm, ho⟩ := hr
  obtain ⟨s, hs, rfl⟩ := mergedRow_inv hm
  refine blank_offset ho (blank_of_merge (q := prepRow w df.cols r) ?_)
  by_cases hnull : (prepRow w df.cols r "titrant_molinity").isNull = true
  · unfold solve_row at hs
    rw [hnull] at hs
    exact (Except.ok.inj hs).symm
  apply solve_row_blank hs
  have e1 : prepRow w df.cols r "file_name" = r "file_name" := prepRow_other (by decide)
  have e2 : prepRow w df.cols r "titrant_molinity" = r "titrant_molinity" := prepRow_other (by decide)
  have e3 : prepRow w df.cols r "salinity" = r "salinity" := prepRow_other (by decide)
  cases hcall : solve_call w kw (prepCols df.cols) (prepRow w df.cols r) with
  | error e => exact ⟨e, rfl⟩
  | ok sr =>
    exfalso
    simp only [solve_call, bind_ok_iff] at hcall
    obtain ⟨kw1, _, fv, hfv, f, hf, c, hc, S, hS, hsol⟩ := hcall
    unfold rowAttr at hfv
    split at hfv
    swap
    · cases hfv
    simp only [Except.ok.injEq] at hfv
    subst hfv
    rw [e1] at hf
    rw [e2] at hc
    rw [e3] at hS
    obtain ⟨e, he⟩ := hbad f c S _ hf hc hS
    rw [he] at hsol
    cases hsol

theorem forall₂_mem {α β : Type} {R : α → β → Prop} {l : List α} {l' : List β}
    (h : List.Forall₂ R l l') {x : α} (hx : x ∈ l) : ∃ y ∈ l', R x y := by
  induction h with
  | nil => simp at hx
  | cons hy _ ih =>
    rcases List.mem_cons.mp hx with rfl | hx
    · exact ⟨_, by simp, hy⟩
    · obtain ⟨m, h1, h2⟩ := ih hx; exact ⟨m, by simp [h1], h2⟩

theorem offsetRow_error {cols : List String} {m : Row} {e : PyErr}
    (h : offsetRow cols m = .error e) : e = .TypeError := by
  have hcell : ∀ v e, cellNum v = .error e → e = .TypeError := by
    intro v e h
    unfold cellNum at h
    split at h
    · cases h
    · unfold Val.toFlt at h
      split at h <;> first | exact (Except.error.inj h).symm | cases h
  unfold offsetRow at h
  split at h
  · cases ha : cellNum (m "alkalinity") with
    | error e' => rw [ha] at h; rw [← Except.error.inj h]; exact hcell _ _ ha
    | ok a =>
      rw [ha, bind_ok] at h
      cases hb : cellNum (m "alkalinity_certified") with
      | error e' => rw [hb] at h; rw [← Except.error.inj h]; exact hcell _ _ hb
      | ok b => rw [hb] at h; cases h
  · cases h

/-- With the columns in place, solving is: fill in the results, then the offsets. -/
theorem dataset_solve_reduce {w : World} {kw : Dict Val} {df : DF}
    (hk : ∃ l, dataset_ignored kw = .ok l) (hS : "salinity" ∈ df.cols)
    (hm : "analyte_mass" ∈ df.cols ∨ "analyte_volume" ∈ df.cols)
    (ht : "titrant_molinity" ∈ df.cols) :
    dataset_solve w kw df = (PyS.update (assignSolved w kw) >>= fun _ => PyS.update addOffset)
      ⟨prepCols df.cols, df.rows.map (prepRow w df.cols)⟩ := by
  obtain ⟨l, hl⟩ := hk
  unfold dataset_solve
  rw [PyS.lift_bind, hl]
  show (prepare w >>= _) df = _
  rw [PyS.bind_apply, prepare_eq, if_pos (has_iff.mpr hS), if_pos (by
    simpa only [Bool.or_eq_true, has_iff] using hm)]
  show (PyS.require _ >>= _) _ = _
  rw [PyS.require_bind, if_pos (has_iff.mpr (prep_molinity.mpr ht))]

/-- What C41 needs: a certified value that is not a number makes solving fail for the whole dataset,
after every row has been solved. -/
theorem C41_bad_certified (w : World) (kw : Dict Val) (df : DF)
    (hk : ∃ l, dataset_ignored kw = .ok l) (hS : "salinity" ∈ df.cols)
    (hm : "analyte_mass" ∈ df.cols ∨ "analyte_volume" ∈ df.cols)
    (ht : "titrant_molinity" ∈ df.cols) (hf : "file_name" ∈ df.cols)
    (hc : "alkalinity_certified" ∈ df.cols)
    (hbad : ∃ r ∈ df.rows, ∃ s, r "alkalinity_certified" = .str s) :
    (dataset_solve w kw df).1 = .error .TypeError := by
  have hsol : ∀ r ∈ df.rows, ∃ m, mergedRow w kw df.cols r = .ok m := by
    intro r _
    rcases solve_row_outcome w kw (prepCols df.cols) (prepRow w df.cols r) with ⟨s, hs⟩ | ⟨h, _⟩
    · exact ⟨mergeSolved (prepRow w df.cols r) s, by simp only [mergedRow, hs, bind_ok, pure_ok]⟩
    · exact absurd (mem_prepCols.mpr (.inl hf)) h
  obtain ⟨rows, hrows⟩ := forall₂_of_forall hsol
  rw [dataset_solve_reduce hk hS hm ht, PyS.update_bind, assignSolved_eq, mapPy_of_forall₂ hrows]
  simp only [bind_ok, pure_ok]
  have hcert : "alkalinity_certified" ∈ solvedCols.foldl addCol (prepCols df.cols) :=
    assign_certified.mpr (prep_certified.mpr hc)
  obtain ⟨r, hr, sv, hsv⟩ := hbad
  obtain ⟨m, hm', hme⟩ := forall₂_mem hrows hr
  obtain ⟨s, hs, rfl⟩ := mergedRow_inv hme
  have hcell : mergeSolved (prepRow w df.cols r) s "alkalinity_certified" = .str sv := by
    unfold mergeSolved; rw [if_neg (by decide), prepRow_other (by decide), hsv]
  have herr : ∃ e, offsetRow (solvedCols.foldl addCol (prepCols df.cols))
      (mergeSolved (prepRow w df.cols r) s) = .error e := by
    unfold offsetRow
    rw [if_pos hcert, hcell]
    cases cellNum (mergeSolved (prepRow w df.cols r) s "alkalinity") with
    | error e => exact ⟨e, rfl⟩
    | ok a => exact ⟨.TypeError, rfl⟩
  obtain ⟨e, he⟩ := herr
  obtain ⟨e', he'⟩ := mapPy_error_of hm' he
  obtain ⟨x, _, hx⟩ := mapPy_error he'
  have := offsetRow_error hx
  subst this
  rw [PyS.update_error]
  rw [addOffset_eq]
  simp only
  rw [he', bind_error]

theorem c41_no_file_name (w : World) (kw : Dict Val) (df : DF)
    (hk : ∃ l, dataset_ignored kw = .ok l) (hS : "salinity" ∈ df.cols)
    (hm : "analyte_mass" ∈ df.cols ∨ "analyte_volume" ∈ df.cols)
    (ht : "titrant_molinity" ∈ df.cols) (hf : "file_name" ∉ df.cols)
    (hact : ∃ r ∈ df.rows, (r "titrant_molinity").isNull = false ∧
      ("file_good" ∈ df.cols → Spec.Counts (r "file_good"))) :
    (dataset_solve w kw df).1 = .error (.AttributeError "file_name") := by
  have hf' : "file_name" ∉ prepCols df.cols := by
    rw [mem_prepCols]
    rintro (h | h | h | h | h)
    · exact hf h
    all_goals exact absurd h (by decide)
  obtain ⟨r, hr, hn, hg⟩ := hact
  have hcall : ∃ e, solve_call w kw (prepCols df.cols) (prepRow w df.cols r) = .error e := by
    unfold solve_call
    cases backcompat kw (rowDict (prepCols df.cols) (prepRow w df.cols r)) with
    | error e => exact ⟨e, rfl⟩
    | ok kw' =>
      refine ⟨.AttributeError "file_name", ?_⟩
      rw [bind_ok]
      unfold rowAttr
      rw [if_neg (by simpa using hf'), bind_error]
  obtain ⟨e, he⟩ := hcall
  have hgood : (prepRow w df.cols r "file_good").truthy = true := by
    unfold prepRow
    rw [if_neg (by decide), if_neg (by decide), if_pos rfl]
    by_cases h : "file_good" ∈ df.cols
    · rw [if_pos h]; exact truthy_iff.mpr (hg h)
    · rw [if_neg h]; rfl
  have hmol : (prepRow w df.cols r "titrant_molinity").isNull = false := by
    rw [prepRow_other (by decide)]; exact hn
  have herr : mergedRow w kw df.cols r = .error (.AttributeError "file_name") := by
    unfold mergedRow solve_row
    rw [hmol, hgood]
    have : solve_attempt w kw (prepCols df.cols) (prepRow w df.cols r)
        (blankSolved (prepRow w df.cols r)) = (.error e, blankSolved (prepRow w df.cols r)) := by
      unfold solve_attempt; rw [PyS.lift_bind, he]
    rw [this]
    simp only [caught, Bool.not_false, Bool.and_self, if_true]
    rw [if_neg (by simpa using hf'), bind_error]
  obtain ⟨e', he'⟩ := mapPy_error_of hr herr
  obtain ⟨x, _, hx⟩ := mapPy_error he'
  have : e' = .AttributeError "file_name" := by
    unfold mergedRow at hx
    rcases solve_row_outcome w kw (prepCols df.cols) (prepRow w df.cols x) with ⟨s, hs⟩ | ⟨_, h⟩
    · rw [hs] at hx; cases hx
    · rw [h] at hx; exact (Except.error.inj hx).symm
  subst this
  rw [dataset_solve_reduce hk hS hm ht, PyS.update_bind, assignSolved_eq, he', bind_error]

/-- Without a `file_name` column the row handler itself fails, and `dataset.solve` stops. -/
theorem C41_no_file_name (w : World) (kw : Dict Val) (df : DF)
    (hk : ∃ l, dataset_ignored kw = .ok l) (hS : "salinity" ∈ df.cols)
    (hm : "analyte_mass" ∈ df.cols ∨ "analyte_volume" ∈ df.cols)
    (ht : "titrant_molinity" ∈ df.cols) (hf : "file_name" ∉ df.cols)
    (hact : ∃ r ∈ df.rows, ¬ Spec.Null (r "titrant_molinity") ∧
      ("file_good" ∈ df.cols → Spec.Counts (r "file_good"))) :
    (dataset_solve w kw df).1 = .error (.AttributeError "file_name") := by
  simp only [← isNull_iff, Bool.not_eq_true] at *
  exact c41_no_file_name w kw df hk hS hm ht hf hact

/-- a two-row dataset meeting the hypotheses of `C41_finishes`, with a missing certified value -/
noncomputable def exFrame : DF where
  cols := ["file_name", "salinity", "analyte_mass", "titrant_molinity", "alkalinity_certified",
    "analysis_batch"]
  rows :=
    [ fun c => if c = "file_name" then .str "a.dat" else if c = "salinity" then .num (fin 35)
        else if c = "analyte_mass" then .num (fin 0.1) else if c = "titrant_molinity" then .num (fin 0.1)
        else if c = "alkalinity_certified" then .num (fin 2200) else .num (fin 0),
      fun c => if c = "file_name" then .str "b.dat" else if c = "salinity" then .num (fin 34)
        else if c = "analyte_mass" then .num (fin 0.1) else if c = "titrant_molinity" then .num (fin 0.1)
        else if c = "alkalinity_certified" then .none else .num (fin 0) ]

example : (∃ l, dataset_ignored [] = .ok l) ∧ "salinity" ∈ exFrame.cols ∧
    "titrant_molinity" ∈ exFrame.cols ∧ "file_name" ∈ exFrame.cols ∧
    (∀ r ∈ exFrame.rows, NumOrNull (r "alkalinity_certified")) := by
  refine ⟨⟨[], rfl⟩, by simp [exFrame], by simp [exFrame], by simp [exFrame], ?_⟩
  intro r hr
  simp only [exFrame, List.mem_cons, List.not_mem_nil, or_false] at hr
  rcases hr with rfl | rfl
  · exact .inr ⟨fin 2200, by simp⟩
  · exact .inl (by simp [Val.isNull])

/-! ## C42 -/

/-- Permuting the rows permutes the outcome and changes nothing else (same exception or success,
same columns). -/
def Equivariant (m : PyS DF Unit) : Prop :=
  ∀ (n : ℕ) (cols : List String) (rows : Fin n → Row) (σ : Equiv.Perm (Fin n)),
    ∃ (res : Py Unit) (cols' : List String) (rows' : Fin n → Row),
      m ⟨cols, List.ofFn rows⟩ = (res, ⟨cols', List.ofFn rows'⟩) ∧
      m ⟨cols, List.ofFn (rows ∘ σ)⟩ = (res, ⟨cols', List.ofFn (rows' ∘ σ)⟩)

theorem Equivariant.bind {x : PyS DF Unit} {f : Unit → PyS DF Unit} (hx : Equivariant x)
    (hf : Equivariant (f ())) : Equivariant (x >>= f) := by
  intro n cols rows σ
  obtain ⟨res, cols', rows', h1, h2⟩ := hx n cols rows σ
  cases res with
  | error e => exact ⟨.error e, cols', rows', PyS.bind_of_error h1, PyS.bind_of_error h2⟩
  | ok u =>
    obtain ⟨res, cols'', rows'', h3, h4⟩ := hf n cols' rows' σ
    exact ⟨res, cols'', rows'', (PyS.bind_of_ok h1).trans h3, (PyS.bind_of_ok h2).trans h4⟩

theorem Equivariant.lift_bind {α : Type} {x : Py α} {f : α → PyS DF Unit}
    (hf : ∀ a, Equivariant (f a)) : Equivariant (PyS.lift x >>= f) := by
  intro n cols rows σ
  cases x with
  | error e => exact ⟨.error e, cols, rows, rfl, rfl⟩
  | ok a => exact hf a n cols rows σ

theorem Equivariant.require (c : String) : Equivariant (PyS.require (·.has c)) :=
  fun _ cols rows _ => ⟨_, cols, rows, rfl, rfl⟩

/-- a step that works row by row -/
theorem Equivariant.rowwise {m : PyS DF Unit} (res : List String → Py Unit)
    (c : List String → List String) (f : List String → Row → Row)
    (h : ∀ df, m df = (res df.cols, ⟨c df.cols, df.rows.map (f df.cols)⟩)) : Equivariant m := by
  intro n cols rows σ
  refine ⟨res cols, c cols, f cols ∘ rows, ?_, ?_⟩
  · rw [h]; simp only [List.map_ofFn]
  · rw [h]; simp only [List.map_ofFn]; rfl

theorem mapPy_ofFn {n : ℕ} {f : Row → Py Row} {e₀ : PyErr} (he : ∀ x e, f x = .error e → e = e₀)
    (rows : Fin n → Row) (σ : Equiv.Perm (Fin n)) :
    (∃ ys : Fin n → Row, mapPy f (List.ofFn rows) = .ok (List.ofFn ys) ∧
      mapPy f (List.ofFn (rows ∘ σ)) = .ok (List.ofFn (ys ∘ σ))) ∨
    (mapPy f (List.ofFn rows) = .error e₀ ∧ mapPy f (List.ofFn (rows ∘ σ)) = .error e₀) := by
  by_cases h : ∀ i, ∃ y, f (rows i) = .ok y
  · choose ys hys using h
    left
    have key : ∀ τ : Fin n → Fin n, mapPy f (List.ofFn (rows ∘ τ)) = .ok (List.ofFn (ys ∘ τ)) := by
      intro τ
      refine mapPy_of_forall₂ ?_
      rw [List.forall₂_iff_get]
      refine ⟨by simp, ?_⟩
      intro i h1 h2
      simp only [List.get_eq_getElem, List.getElem_ofFn, Function.comp]
      exact hys _
    exact ⟨ys, key id, key σ⟩
  · right
    push Not at h
    obtain ⟨i, hi⟩ := h
    have key : ∀ l : List Row, rows i ∈ l → mapPy f l = .error e₀ := by
      intro l hl
      cases hf : f (rows i) with
      | ok y => exact absurd hf (hi y)
      | error e =>
        obtain ⟨e', he'⟩ := mapPy_error_of hl hf
        obtain ⟨x, _, hx⟩ := mapPy_error he'
        rw [he', he x e' hx]
    refine ⟨key _ (List.mem_ofFn.mpr ⟨i, rfl⟩), key _ (List.mem_ofFn.mpr ⟨σ.symm i, ?_⟩)⟩
    simp

/-- a step that works row by row and may raise one kind of exception -/
theorem Equivariant.rowwiseM (g : DF → Py DF) (c : List String → List String)
    (f : List String → Row → Py Row) (e₀ : PyErr)
    (he : ∀ cols x e, f cols x = .error e → e = e₀)
    (h : ∀ df, g df = (do let rows ← mapPy (f df.cols) df.rows; return ⟨c df.cols, rows⟩)) :
    Equivariant (PyS.update g) := by
  intro n cols rows σ
  rcases mapPy_ofFn (he cols) rows σ with ⟨ys, h1, h2⟩ | ⟨h1, h2⟩
  · refine ⟨.ok (), c cols, ys, PyS.update_ok ?_, PyS.update_ok ?_⟩
    · rw [h]; simp only; rw [h1]; rfl
    · rw [h]; simp only; rw [h2]; rfl
  · refine ⟨.error e₀, cols, rows, PyS.update_error ?_, PyS.update_error ?_⟩
    · rw [h]; simp only; rw [h1]; rfl
    · rw [h]; simp only; rw [h2]; rfl

theorem Equivariant.prepare (w : World) : Equivariant (prepare w) := by
  refine Equivariant.rowwise
    (fun cols => if "salinity" ∈ cols then
      if "analyte_mass" ∈ cols ∨ "analyte_volume" ∈ cols then .ok () else .error .AssertionError
      else .error .AssertionError)
    (fun cols => if "salinity" ∈ cols then
      if "analyte_mass" ∈ cols ∨ "analyte_volume" ∈ cols then prepCols cols else saltCols cols
      else cols)
    (fun cols r => if "salinity" ∈ cols then
      if "analyte_mass" ∈ cols ∨ "analyte_volume" ∈ cols then prepRow w cols r else saltRow w cols r
      else r) ?_
  intro df
  rw [prepare_eq]
  by_cases hS : "salinity" ∈ df.cols
  · simp only [if_pos hS, has_iff.mpr hS, if_true]
    by_cases hm : "analyte_mass" ∈ df.cols ∨ "analyte_volume" ∈ df.cols
    · have hm' : (df.has "analyte_mass" || df.has "analyte_volume") = true := by
        simpa only [Bool.or_eq_true, has_iff] using hm
      simp only [if_pos hm, hm', if_true]
    · have hm' : ¬ (df.has "analyte_mass" || df.has "analyte_volume") = true := by
        simpa only [Bool.or_eq_true, has_iff] using hm
      simp only [if_neg hm, if_neg hm']
  · have hS' : ¬ df.has "salinity" = true := fun h => hS (has_iff.mp h)
    simp only [if_neg hS, if_neg hS', List.map_id']

theorem Equivariant.assignSolved (w : World) (kw : Dict Val) :
    Equivariant (PyS.update (assignSolved w kw)) := by
  refine Equivariant.rowwiseM _ (fun cols => solvedCols.foldl addCol cols)
    (fun cols r => do let s ← solve_row w kw cols r; return mergeSolved r s)
    (.AttributeError "file_name") ?_ fun df => rfl
  intro cols x e h
  rcases solve_row_outcome w kw cols x with ⟨s, hs⟩ | ⟨_, hs⟩
  · rw [hs] at h; cases h
  · rw [hs] at h; exact (Except.error.inj h).symm

theorem Equivariant.addOffset : Equivariant (PyS.update addOffset) :=
  Equivariant.rowwiseM _ offsetCols offsetRow .TypeError (fun _ _ _ h => offsetRow_error h)
    addOffset_eq

theorem Equivariant.solve (w : World) (kw : Dict Val) : Equivariant (dataset_solve w kw) := by
  unfold dataset_solve
  exact Equivariant.lift_bind fun _ => (Equivariant.prepare w).bind
    ((Equivariant.require _).bind ((Equivariant.assignSolved w kw).bind Equivariant.addOffset))

theorem any_ofFn_perm {n : ℕ} (p : Row → Bool) (rows : Fin n → Row) (σ : Equiv.Perm (Fin n)) :
    (List.ofFn (rows ∘ σ)).any p = (List.ofFn rows).any p := by
  rw [Bool.eq_iff_iff, List.any_eq_true, List.any_eq_true]
  have := (σ.ofFn_comp_perm rows)
  exact ⟨fun ⟨x, hx, hp⟩ => ⟨x, this.mem_iff.mp hx, hp⟩, fun ⟨x, hx, hp⟩ => ⟨x, this.mem_iff.mpr hx, hp⟩⟩

theorem batchMean_perm {l l' : List Row} (h : l.Perm l') (b : Val) : batchMean l b = batchMean l' b :=
  npMean_perm ((h.filter _).map _)

theorem Equivariant.assignMolinity : Equivariant (PyS.update assignMolinity) := by
  intro n cols rows σ
  have hp := σ.ofFn_comp_perm rows
  by_cases h1 : (List.ofFn rows).any (fun r => !(r "analysis_batch").isNull &&
      (refFlag (r "reference_good")).isNone) = true
  · refine ⟨.error .TypeError, cols, rows, PyS.update_error ?_, PyS.update_error ?_⟩
    · unfold Calk.assignMolinity; rw [if_pos h1]
    · unfold Calk.assignMolinity; rw [if_pos (by rw [any_ofFn_perm]; exact h1)]
  by_cases h2 : (List.ofFn rows).any (fun r => (r "analysis_batch").isNull) = true
  · refine ⟨.error (.KeyError "nan"), cols, rows, PyS.update_error ?_, PyS.update_error ?_⟩
    · unfold Calk.assignMolinity; rw [if_neg h1, if_pos h2]
    · unfold Calk.assignMolinity
      rw [if_neg (by rw [any_ofFn_perm]; exact h1), if_pos (by rw [any_ofFn_perm]; exact h2)]
  · refine ⟨.ok (), addCol cols "titrant_molinity", fun i => (rows i).put "titrant_molinity"
      (.num (batchMean (List.ofFn rows) (rows i "analysis_batch"))), PyS.update_ok ?_,
      PyS.update_ok ?_⟩
    · unfold Calk.assignMolinity; rw [if_neg h1, if_neg h2]
      simp only [DF.setCol, List.map_ofFn]; rfl
    · unfold Calk.assignMolinity
      rw [if_neg (by rw [any_ofFn_perm]; exact h1), if_neg (by rw [any_ofFn_perm]; exact h2)]
      simp only [DF.setCol, List.map_ofFn, batchMean_perm hp]; rfl

theorem Equivariant.calibrateHere (w : World) (kw : Dict Val) :
    Equivariant (PyS.update fun df =>
      df.setColM "titrant_molinity_here" (calibrate_row w kw df.cols)) := by
  refine Equivariant.rowwiseM _ (fun cols => addCol cols "titrant_molinity_here")
    (fun cols r => do let v ← calibrate_row w kw cols r; return r.put "titrant_molinity_here" v)
    (.AttributeError "file_name") ?_ fun df => rfl
  intro cols x e h
  rcases calibrate_row_outcome w kw cols x with ⟨s, hs⟩ | ⟨_, hs⟩
  · rw [hs] at h; cases h
  · rw [hs] at h; exact (Except.error.inj h).symm

theorem Equivariant.defaultBatch : Equivariant (PyS.modify defaultBatch) := by
  refine Equivariant.rowwise (fun _ => .ok ())
    (fun cols => if cols.contains "analysis_batch" then cols else addCol cols "analysis_batch")
    (fun cols r => if cols.contains "analysis_batch" then r
      else r.put "analysis_batch" (.num (fin 0))) ?_
  intro df
  rw [PyS.modify_apply]
  unfold Calk.defaultBatch DF.has
  split <;> simp [*, DF.setCol]

theorem Equivariant.defaultReferenceGood : Equivariant (PyS.modify defaultReferenceGood) := by
  refine Equivariant.rowwise (fun _ => .ok ())
    (fun cols => if cols.contains "reference_good" then cols else addCol cols "reference_good")
    (fun cols r => if cols.contains "reference_good" then r
      else r.put "reference_good" (.bool !(r "titrant_molinity_here").isNull)) ?_
  intro df
  rw [PyS.modify_apply]
  unfold Calk.defaultReferenceGood DF.has
  split <;> simp [*, DF.setCol]

theorem Equivariant.calibrate (w : World) (kw : Dict Val) : Equivariant (dataset_calibrate w kw) := by
  unfold dataset_calibrate
  exact (Equivariant.prepare w).bind ((Equivariant.require _).bind
    ((Equivariant.calibrateHere w kw).bind (Equivariant.defaultBatch.bind
    (Equivariant.defaultReferenceGood.bind (Equivariant.assignMolinity.bind
    (Equivariant.solve w kw))))))

/-- **C42** for `dataset.solve` -/
theorem C42_solve (w : World) (kw : Dict Val) : Equivariant (dataset_solve w kw) := .solve w kw

/-- **C42** for `dataset.calibrate`: batch means do not depend on the order of the rows either. -/
theorem C42_calibrate (w : World) (kw : Dict Val) : Equivariant (dataset_calibrate w kw) :=
  .calibrate w kw

/-- **C42** for `dataset.calkulate` -/
theorem C42_calkulate (w : World) (kw : Dict Val) : Equivariant (dataset_calkulate w kw) :=
  (Equivariant.calibrate w kw).bind (Equivariant.solve w kw)

end Calk
