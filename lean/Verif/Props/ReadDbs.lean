import Verif.Props.Metadata

/-! # `read_dbs` (C80) -/

namespace Calk
open Flt

/-- the columns that the import adds to a table -/
def dbsAdded : List String := ["dbs_fname", "analysis_datetime", "analysis_datenum", "file_name",
  "file_good", "alkalinity_certified", "analyte_volume", "analyte_mass", "file_path", "run_type"]

/-- What the import makes of one row `r` of the file. -/
structure DbsRow (lib : DbsLib) (cols : List String) (fmt : List Piece) (fname : String)
    (analyte_volume : Flt) (analyte_mass : Option Flt) (file_path : Val) (r r' : Row) : Prop where
  fname : r' "dbs_fname" = .str fname
  /-- the time of the analysis, null if the date is not a text -/
  time : ∃ t, r' "analysis_datetime" = .num t ∧ r' "analysis_datenum" = .num t ∧
    dbs_datetime lib cols r = .ok t
  /-- the kind of run is what the file says -/
  run : r' "run_type" = r "run type"
  bottle : runOf (r "run type") = .bottle → ∃ id, RowIs lib r id ∧ Named r' (formatName fmt id)
  crm : runOf (r "run type") = .crm → Named r'
    ("CRM".toList ++ lib.str (r "batch") ++ lib.str (r "bottle") ++ ".dat".toList)
  good : r' "file_good" = .bool (runOf (r "run type") != .other)
  certified : runOf (r "run type") = .crm → r' "alkalinity_certified" = r "cert. CRM AT"
  volume : analyte_mass = none → r' "analyte_volume" = .num analyte_volume
  mass : ∀ m, analyte_mass = some m → r' "analyte_mass" = .num m
  path : ∀ p, file_path = .str p → r' "file_path" = .str p
  /-- everything in the file is kept -/
  rest : ∀ c, c ∉ dbsAdded → r' c = r c

theorem setFilePath_ok {v : Val} {df df' : DF} (h : setFilePath v df = .ok df') :
    (v = .none ∧ df' = df) ∨ ∃ p, v = .str p ∧ df' = df.setCol "file_path" fun _ => .str p := by
  unfold setFilePath at h
  split at h
  · exact .inl ⟨rfl, (Except.ok.inj h).symm⟩
  · exact .inr ⟨_, rfl, (Except.ok.inj h).symm⟩
  · cases h

theorem renameRunType_has (df : DF) {c : String} (h : c ≠ "run type") (h2 : c ≠ "run_type") :
    (renameRunType df).has c = df.has c := by
  have : (renameRunType df).has c = true ↔ df.has c = true := by
    rw [has_iff, has_iff]
    show c ∈ df.cols.map _ ↔ _
    rw [List.mem_map]
    constructor
    · rintro ⟨k, hk, e⟩
      by_cases hk2 : k = "run type"
      · rw [if_pos hk2] at e; exact absurd e.symm h2
      · rw [if_neg hk2] at e; exact e ▸ hk
    · intro hc
      exact ⟨c, hc, if_neg h⟩
  exact Bool.eq_iff_iff.mpr this

theorem rowItem_congr {cols cols' : List String} {r r' : Row} {c : String}
    (hc : cols.contains c = cols'.contains c) (hr : r c = r' c) :
    rowItem cols r c = rowItem cols' r' c := by
  unfold rowItem; rw [hc, hr]

theorem dbs_datetime_congr {lib : DbsLib} {cols cols' : List String} {r r' : Row}
    (hc : cols.contains "date" = cols'.contains "date") (hr : r "date" = r' "date")
    (hc2 : cols.contains "time" = cols'.contains "time") (hr2 : r "time" = r' "time") :
    dbs_datetime lib cols r = dbs_datetime lib cols' r' := by
  unfold dbs_datetime
  rw [rowItem_congr hc hr, rowItem_congr hc2 hr2]

theorem vindta_cols {lib : DbsLib} {fmt : List Piece} {df df' : DF} {u : Unit}
    (h : get_VINDTA_filenames lib fmt df = (.ok u, df')) {c : String}
    (hc : c ∉ ["file_name", "file_good", "alkalinity_certified"]) : df'.has c = df.has c := by
  unfold get_VINDTA_filenames at h
  rcases hl : vindtaLoop lib fmt (vindtaInit df).cols (certifiedCol (vindtaInit df)).rows with ⟨x, rows⟩
  simp only [hl] at h
  obtain ⟨e1, e2⟩ := Prod.mk.inj h
  subst e1 e2
  simp only [List.mem_cons, List.not_mem_nil, or_false, not_or] at hc
  have h1 : (certifiedCol (vindtaInit df)).has c = (vindtaInit df).has c := by
    unfold certifiedCol
    split
    · show (addCol (vindtaInit df).cols _).contains c = _
      rw [contains_addCol]; simp [hc.2.2, DF.has]
    · rfl
  show (certifiedCol (vindtaInit df)).has c = _
  rw [h1]
  unfold vindtaInit defaultFileGood
  split
  · show (addCol df.cols "file_name").contains _ = df.cols.contains _
    rw [contains_addCol]; simp [hc.1]
  · show (addCol (addCol df.cols "file_name") "file_good").contains _ = df.cols.contains _
    rw [contains_addCol, contains_addCol]
    have e1 : (c == "file_name") = false := by simpa using hc.1
    have e2 : (c == "file_good") = false := by simpa using hc.2.1
    rw [e1, e2, Bool.or_false, Bool.or_false]

theorem setCol_has (df : DF) (c k : String) (f : Row → Val) :
    (df.setCol c f).has k = (df.has k || (k == c)) := by
  show (addCol df.cols c).contains k = _
  rw [contains_addCol]; rfl

theorem add_func_cols_ok {names : List String} {func : List String → Row → Py Row} {df df' : DF}
    (h : add_func_cols names func df = .ok df') :
    ∃ rows, mapPy (fun r => do
        let s ← func df.cols r
        return names.foldl (fun r' c => r'.put c (s c)) r) df.rows = .ok rows ∧
      (∀ c ∈ names, df.has c = false) ∧ df' = { cols := names.foldl addCol df.cols, rows } := by
  unfold add_func_cols at h
  rw [bind_ok_iff] at h
  obtain ⟨rows, hm, h⟩ := h
  split at h
  · cases h
  · rename_i hc
    refine ⟨rows, hm, ?_, (Except.ok.inj h).symm⟩
    simpa using hc

/-- **C80**: every row of the file comes back, in order, with everything that was in the file. -/
theorem C80_rows {lib : DbsLib} {table df' : DF} {fname : String} {analyte_volume : Flt}
    {analyte_mass : Option Flt} {file_path : Val} {fmt : List Piece}
    (hfresh : ∀ c ∈ ["run_type", "file_good"], table.has c = false) (hrun : table.has "run type" = true)
    (h : read_dbs lib table fname analyte_volume analyte_mass file_path fmt = .ok df') :
    List.Forall₂ (DbsRow lib table.cols fmt fname analyte_volume analyte_mass file_path)
      table.rows df'.rows := by
  unfold read_dbs at h
  rw [bind_ok_iff] at h
  obtain ⟨df2, h2, h⟩ := h
  obtain ⟨rows2, hm, hclash, rfl⟩ := add_func_cols_ok h2
  have hm := mapPy_ok hm
  rcases hv : get_VINDTA_filenames lib fmt
    (DF.setCol ⟨["analysis_datetime"].foldl addCol
      ((renameRunType table).setCol "dbs_fname" fun _ => .str fname).cols, rows2⟩ "analysis_datenum" fun r => r "analysis_datetime") with ⟨x, df3⟩
  simp only [hv] at h
  cases x with
  | error e => cases h
  | ok u =>
    have h3 := C60_rows hv
    have hgood : (DF.setCol ⟨["analysis_datetime"].foldl addCol
      ((renameRunType table).setCol "dbs_fname" fun _ => .str fname).cols, rows2⟩ "analysis_datenum" fun r => r "analysis_datetime").has "file_good"
        = false := by
      rw [setCol_has]
      show ((addCol _ _).contains "file_good" || _) = _
      rw [contains_addCol]
      show (((DF.setCol _ _ _).has "file_good" || _) || _) = _
      rw [setCol_has, renameRunType_has _ (by decide) (by decide), hfresh _ (by decide)]
      decide
    -- the rows before the file names
    have hm2 := forall₂_map_left' (forall₂_map_left' hm)
    have h32 := forall₂_map_left' h3
    -- the last two steps
    have hlast : ∃ g : Row → Row, df'.rows = df3.rows.map g ∧
        (∀ r c, c ∉ ["analyte_volume", "analyte_mass", "file_path"] → g r c = r c) ∧
        (analyte_mass = none → ∀ r, g r "analyte_volume" = .num analyte_volume) ∧
        (∀ m, analyte_mass = some m → ∀ r, g r "analyte_mass" = .num m) ∧
        (∀ p, file_path = .str p → ∀ r, g r "file_path" = .str p) := by
      have ha : ∃ g1 : Row → Row, (setAnalyte analyte_volume analyte_mass df3).rows = df3.rows.map g1 ∧
          (∀ r c, c ∉ ["analyte_volume", "analyte_mass"] → g1 r c = r c) ∧
          (analyte_mass = none → ∀ r, g1 r "analyte_volume" = .num analyte_volume) ∧
          (∀ m, analyte_mass = some m → ∀ r, g1 r "analyte_mass" = .num m) := by
        cases analyte_mass with
        | none =>
          refine ⟨fun r => r.put "analyte_volume" (.num analyte_volume), rfl, ?_, ?_, ?_⟩
          · intro r c hc
            simp only [List.mem_cons, not_or] at hc
            exact if_neg hc.1
          · intro _ r; exact if_pos rfl
          · intro m hm; cases hm
        | some m =>
          refine ⟨fun r => r.put "analyte_mass" (.num m), rfl, ?_, ?_, ?_⟩
          · intro r c hc
            simp only [List.mem_cons, not_or] at hc
            exact if_neg hc.2.1
          · intro hm; cases hm
          · intro m' hm r
            rw [← Option.some.inj hm]
            exact if_pos rfl
      obtain ⟨g1, e1, r1, v1, m1⟩ := ha
      rcases setFilePath_ok h with ⟨hp, rfl⟩ | ⟨p, hp, rfl⟩
      · refine ⟨g1, e1, ?_, v1, m1, ?_⟩
        · intro r c hc
          simp only [List.mem_cons, List.not_mem_nil, or_false, not_or] at hc
          exact r1 r c (by simp [hc])
        · intro p hp2; rw [hp] at hp2; cases hp2
      · refine ⟨fun r => (g1 r).put "file_path" (.str p), ?_, ?_, ?_, ?_, ?_⟩
        · show (setAnalyte analyte_volume analyte_mass df3).rows.map _ = _
          rw [e1, List.map_map]; rfl
        · intro r c hc
          simp only [List.mem_cons, List.not_mem_nil, or_false, not_or] at hc
          exact (if_neg hc.2.2).trans (r1 r c (by simp [hc]))
        · intro hn r; exact (if_neg (by decide)).trans (v1 hn r)
        · intro m hm r; exact (if_neg (by decide)).trans (m1 m hm r)
        · intro p' hp' r
          rw [hp] at hp'
          rw [← Val.str.inj hp']
          exact if_pos rfl
    obtain ⟨g, eg, gr, gv, gm, gp⟩ := hlast
    rw [eg]
    rw [List.forall₂_iff_get] at hm2 h32 ⊢
    simp only [List.length_map] at hm2 h32 ⊢
    refine ⟨hm2.1.trans h32.1, ?_⟩
    intro i hi1 hi2
    have hi3 : i < rows2.length := hm2.1 ▸ hi1
    have hi4 : i < df3.rows.length := h32.1 ▸ hi3
    have a := hm2.2 i hi1 hi3
    have b := h32.2 i hi3 hi4
    simp only [List.get_eq_getElem, List.getElem_map] at a b ⊢
    generalize table.rows[i] = r at a ⊢
    generalize rows2[i] = r2 at a b
    generalize df3.rows[i] = r3 at b ⊢
    simp only [bind_ok_iff] at a
    obtain ⟨v, ⟨t, ht, hv'⟩, a⟩ := a
    obtain rfl := Except.ok.inj hv'
    obtain rfl := Except.ok.inj a
    -- what the row looks like before the names are given
    set q : Row := fun c => if c = "run_type" ∧ table.has "run type" = true then r "run type" else r c
      with hq
    set p : Row := ((q.put "dbs_fname" (.str fname)).put "analysis_datetime" (.num t)).put
      "analysis_datenum" (((q.put "dbs_fname" (.str fname)).put "analysis_datetime" (.num t))
        "analysis_datetime") with hpdef
    have pr : ∀ c, c ∉ dbsAdded → p c = r c := by
      intro c hc
      simp only [dbsAdded, List.mem_cons, List.not_mem_nil, or_false, not_or] at hc
      obtain ⟨c1, c2, c3, -, -, -, -, -, -, c10⟩ := hc
      refine (if_neg c3).trans ((if_neg c2).trans ((if_neg c1).trans ?_))
      rw [hq]
      exact if_neg fun h => c10 h.1
    have prun : p "run_type" = r "run type" := by
      refine (if_neg (by decide)).trans ((if_neg (by decide)).trans ((if_neg (by decide)).trans ?_))
      rw [hq]
      exact if_pos ⟨rfl, hrun⟩
    have b : ImportedRow lib fmt _ p r3 := b
    have hnone : ∀ c, c ∈ ["date", "time"] → q c = r c := by
      intro c hc
      rw [hq]
      refine if_neg fun h => ?_
      rw [h.1] at hc
      exact absurd hc (by decide)
    have g3 : ∀ c, c ∉ ["analyte_volume", "analyte_mass", "file_path"] → g r3 c = r3 c := gr r3
    constructor
    · rw [g3 _ (by decide), b.rest _ (by decide)]
      exact (if_neg (by decide)).trans ((if_neg (by decide)).trans (if_pos rfl))
    · refine ⟨t, ?_, ?_, ?_⟩
      · rw [g3 _ (by decide), b.rest _ (by decide)]
        exact (if_neg (by decide)).trans (if_pos rfl)
      · rw [g3 _ (by decide), b.rest _ (by decide)]
        exact (if_pos rfl).trans (if_pos rfl)
      · rw [← ht]
        refine dbs_datetime_congr ?_ ?_ ?_ ?_
        · show _ = (DF.setCol _ _ _).has "date"
          rw [setCol_has, renameRunType_has _ (by decide) (by decide)]; simp [DF.has]
        · exact ((if_neg (by decide)).trans (hnone _ (by decide))).symm
        · show _ = (DF.setCol _ _ _).has "time"
          rw [setCol_has, renameRunType_has _ (by decide) (by decide)]; simp [DF.has]
        · exact ((if_neg (by decide)).trans (hnone _ (by decide))).symm
    · rw [g3 _ (by decide), b.rest _ (by decide), prun]
    · intro hk
      obtain ⟨id, hid, hn⟩ := b.bottle (by rw [prun]; exact hk)
      refine ⟨id, ⟨?_, ?_, ?_, ?_, ?_⟩, ?_⟩
      · rw [← pr _ (by decide)]; exact hid.station
      · rw [← pr _ (by decide)]; exact hid.cast
      · rw [← pr _ (by decide)]; exact hid.niskin
      · rw [← pr _ (by decide)]; exact hid.depth
      · rw [← pr _ (by decide)]; exact hid.bottle
      · unfold Named at hn ⊢
        rw [g3 _ (by decide), hn]
    · intro hk
      have hn := b.crm (by rw [prun]; exact hk)
      rw [pr _ (by decide), pr _ (by decide)] at hn
      unfold Named at hn ⊢
      rw [g3 _ (by decide), hn]
    · rw [g3 _ (by decide), b.good, prun, hgood]
      cases runOf (r "run type") <;> rfl
    · intro hk
      rw [g3 _ (by decide), b.certified (by rw [prun]; exact hk), pr _ (by decide)]
    · intro hn; exact gv hn r3
    · intro m hm; exact gm m hm r3
    · intro p hp; exact gp p hp r3
    · intro c hc
      have hc' := hc
      simp only [dbsAdded, List.mem_cons, List.not_mem_nil, or_false, not_or] at hc'
      rw [g3 c (by simp [hc']), b.rest c (by simp [hc']), pr c hc]

/-- **C80**: exactly one of analyte volume and analyte mass is there: the volume unless a mass is
given.  There is a path exactly if one was given. -/
theorem C80_columns {lib : DbsLib} {table df' : DF} {fname : String} {analyte_volume : Flt}
    {analyte_mass : Option Flt} {file_path : Val} {fmt : List Piece}
    (hfresh : ∀ c ∈ dbsAdded, table.has c = false)
    (h : read_dbs lib table fname analyte_volume analyte_mass file_path fmt = .ok df') :
    (df'.has "analyte_volume" = true ↔ analyte_mass = none) ∧
    (df'.has "analyte_mass" = true ↔ analyte_mass ≠ none) ∧
    (df'.has "file_path" = true ↔ file_path ≠ .none) ∧
    (file_path = .none ∨ ∃ p, file_path = .str p) := by
  unfold read_dbs at h
  rw [bind_ok_iff] at h
  obtain ⟨df2, h2, h⟩ := h
  obtain ⟨rows2, hm, hclash, rfl⟩ := add_func_cols_ok h2
  rcases hv : get_VINDTA_filenames lib fmt
    (DF.setCol ⟨["analysis_datetime"].foldl addCol
      ((renameRunType table).setCol "dbs_fname" fun _ => .str fname).cols, rows2⟩ "analysis_datenum" fun r => r "analysis_datetime") with ⟨x, df3⟩
  simp only [hv] at h
  cases x with
  | error e => cases h
  | ok u =>
    have h3 : ∀ c ∈ ["analyte_volume", "analyte_mass", "file_path"], df3.has c = false := by
      intro c hc
      have hc2 : c ∈ dbsAdded ∧ c ∉ ["file_name", "file_good", "alkalinity_certified"] ∧
          c ≠ "analysis_datenum" ∧ c ≠ "analysis_datetime" ∧ c ≠ "dbs_fname" ∧ c ≠ "run type" ∧
          c ≠ "run_type" := by
        revert c; decide
      obtain ⟨m1, m2, n1, n2, n3, n4, n5⟩ := hc2
      rw [vindta_cols hv m2, setCol_has]
      show ((addCol _ _).contains c || _) = _
      rw [contains_addCol]
      show (((DF.setCol _ _ _).has c || _) || _) = _
      rw [setCol_has, renameRunType_has _ n4 n5, hfresh c m1]
      simp [n1, n2, n3]
    have hv3 := h3 "analyte_volume" (by decide)
    have hm3 := h3 "analyte_mass" (by decide)
    have hp3 := h3 "file_path" (by decide)
    have ha : ((setAnalyte analyte_volume analyte_mass df3).has "analyte_volume" = true ↔
        analyte_mass = none) ∧
        ((setAnalyte analyte_volume analyte_mass df3).has "analyte_mass" = true ↔ analyte_mass ≠ none) ∧
        (setAnalyte analyte_volume analyte_mass df3).has "file_path" = false := by
      cases analyte_mass with
      | none =>
        unfold setAnalyte
        simp [setCol_has, hv3, hm3, hp3]
      | some m =>
        unfold setAnalyte
        simp [setCol_has, hv3, hm3, hp3]
    obtain ⟨a1, a2, a3⟩ := ha
    rcases setFilePath_ok h with ⟨rfl, rfl⟩ | ⟨p, rfl, rfl⟩
    · exact ⟨a1, a2, by simp [a3], .inl rfl⟩
    · refine ⟨?_, ?_, ?_, .inr ⟨p, rfl⟩⟩
      · rw [setCol_has]; simpa using a1
      · rw [setCol_has]; simpa using a2
      · rw [setCol_has]; simp

theorem foldl_put {s : Row} {names : List String} {r : Row} (c : String) :
    (names.foldl (fun r' c => r'.put c (s c)) r) c = if c ∈ names then s c else r c := by
  induction names generalizing r with
  | nil => rfl
  | cons n names ih =>
    rw [List.foldl_cons, ih]
    by_cases h : c ∈ names
    · rw [if_pos h, if_pos (List.mem_cons_of_mem _ h)]
    · rw [if_neg h]
      by_cases hn : c = n
      · subst hn
        rw [if_pos List.mem_cons_self]
        exact if_pos rfl
      · rw [if_neg (by simp [hn, h])]
        exact if_neg hn

theorem has_foldl_addCol {names cols : List String} {c : String} :
    c ∈ names.foldl addCol cols ↔ c ∈ cols ∨ c ∈ names := by
  induction names generalizing cols with
  | nil => simp
  | cons n names ih =>
    rw [List.foldl_cons, ih, List.mem_cons, ← or_assoc]
    refine or_congr_left ?_
    unfold addCol
    split
    · rename_i h
      exact ⟨.inl, fun h' => h'.elim id fun e => e ▸ List.contains_iff_mem.mp h⟩
    · simp

/-- **C80**: `add_func_cols` keeps all rows, columns and values, and adds the columns that the function
returns, with what it returns for each row. -/
theorem C80_func_cols {names : List String} {func : List String → Row → Py Row} {df df' : DF}
    (h : add_func_cols names func df = .ok df') :
    (∀ c, df'.has c = true ↔ df.has c = true ∨ c ∈ names) ∧
    List.Forall₂ (fun r r' : Row => (∀ c, df.has c = true → r' c = r c) ∧
      ∃ s, func df.cols r = .ok s ∧ ∀ c ∈ names, r' c = s c) df.rows df'.rows := by
  obtain ⟨rows, hm, hn, rfl⟩ := add_func_cols_ok h
  refine ⟨fun c => ?_, ?_⟩
  · rw [has_iff, has_iff]; exact has_foldl_addCol
  · refine (mapPy_ok hm).imp fun r r' hr => ?_
    rw [bind_ok_iff] at hr
    obtain ⟨s, hs, hr⟩ := hr
    obtain rfl := Except.ok.inj hr
    refine ⟨fun c hc => ?_, s, hs, fun c hc => ?_⟩
    · rw [foldl_put, if_neg]
      intro hcn
      rw [hn c hcn] at hc
      cases hc
    · rw [foldl_put, if_pos hc]

/-- **C80**: `add_func_cols` never replaces a column: if one of the names is taken it raises. -/
theorem C80_no_replacing {names : List String} {func : List String → Row → Py Row} {df : DF}
    {c : String} (hc : c ∈ names) (hd : df.has c = true) :
    ∃ e, add_func_cols names func df = .error e ∧
      ((∀ r ∈ df.rows, ∃ s, func df.cols r = .ok s) → e = .ValueError) := by
  unfold add_func_cols
  have hany : names.any df.has = true := List.any_eq_true.mpr ⟨c, hc, hd⟩
  cases hm : mapPy (fun r => do
      let s ← func df.cols r
      return names.foldl (fun r' c => r'.put c (s c)) r) df.rows with
  | error e =>
    refine ⟨e, rfl, fun hall => ?_⟩
    obtain ⟨r, hr, he⟩ := mapPy_error hm
    obtain ⟨s, hs⟩ := hall r hr
    rw [hs] at he
    cases he
  | ok rows =>
    refine ⟨.ValueError, ?_, fun _ => rfl⟩
    show (if names.any df.has then _ else _) = _
    rw [if_pos hany]

/-- **C80**: a file that has a column `analysis_datetime` already cannot be imported. -/
theorem C80_taken (lib : DbsLib) {table : DF} (fname : String) (analyte_volume : Flt)
    (analyte_mass : Option Flt) (file_path : Val) (fmt : List Piece)
    (ht : table.has "analysis_datetime" = true) :
    ∃ e, read_dbs lib table fname analyte_volume analyte_mass file_path fmt = .error e := by
  have hd : ((renameRunType table).setCol "dbs_fname" fun _ => .str fname).has "analysis_datetime"
      = true := by
    rw [setCol_has, renameRunType_has _ (by decide) (by decide), ht]; rfl
  obtain ⟨e, he, -⟩ := C80_no_replacing (names := ["analysis_datetime"])
    (func := fun cols r => do let t ← dbs_datetime lib cols r; return fun _ => .num t)
    List.mem_cons_self hd
  refine ⟨e, ?_⟩
  unfold read_dbs
  show (add_func_cols _ _ _ >>= _) = _
  rw [he]
  rfl

/-- what pandas reads from a file of two CRM runs -/
def dbsTable : DF where
  cols := ["run type", "batch", "bottle", "cert. CRM AT", "date", "time"]
  rows := [
    fun c => if c = "run type" then .str "CRM" else if c = "date" then .str "03/21/18"
      else if c = "time" then .str "16:11" else if c = "cert. CRM AT" then .num (fin 2212)
      else .str "1",
    fun c => if c = "run type" then .str "junk" else .num nan]

/-- the hypotheses of `C80_rows` and `C80_columns` -/
example : (∀ c ∈ dbsAdded, dbsTable.has c = false) ∧ dbsTable.has "run type" = true ∧
    ∃ df', read_dbs plainLib dbsTable "x.dbs" (fin 100) none (.str "data") defaultFormat = .ok df' ∧
      df'.rows.map (fun r => r "analysis_datetime") = [.num (fin 738000), .num nan] := by
  refine ⟨by decide, by decide, _, by with_unfolding_all rfl, ?_⟩
  with_unfolding_all rfl

/-- the hypotheses of `C80_func_cols` and `C80_no_replacing` -/
example : (∃ df', add_func_cols ["a"] (fun _ _ => .ok fun _ => .num (fin 1)) dbsTable = .ok df' ∧
    df'.cols = ["run type", "batch", "bottle", "cert. CRM AT", "date", "time", "a"]) ∧
    add_func_cols ["time"] (fun _ _ => .ok fun _ => .num (fin 1)) dbsTable = .error .ValueError := by
  refine ⟨⟨_, by with_unfolding_all rfl, by with_unfolding_all rfl⟩, by with_unfolding_all rfl⟩

/-- the hypothesis of `C80_taken`: the table of an import cannot be imported again -/
example : ∃ df', read_dbs plainLib dbsTable "x.dbs" (fin 100) none .none defaultFormat = .ok df' ∧
    df'.has "analysis_datetime" = true := by
  refine ⟨_, by with_unfolding_all rfl, by with_unfolding_all rfl⟩

end Calk
