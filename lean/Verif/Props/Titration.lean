import Verif.Lemmas.Classes
import Verif.Props.Files
import Verif.Props.Backcompat

/-! # Properties C64, C65, C81: making and printing a `Titration` -/

namespace Calk
open Flt

/-! ## Specification: the settings of a Titration -/

/-- the entries of an old-style `read_dat_kwargs` -/
def nestedArgs (kw : Dict Val) : Dict Val :=
  match kw.get? "read_dat_kwargs" with
  | some (.dict d) => d
  | _ => []

/-- the keyword argument `k`: in `read_dat_kwargs`, else given directly -/
def directArg (kw : Dict Val) (k : String) : Option Val := ((nestedArgs kw).get? k).or (kw.get? k)

/-- the two ends of an old-style `pH_range` -/
def rangeArg (kw : Dict Val) : Option (Val × Val) :=
  (directArg kw "pH_range").bind fun v => v.unpack2.toOption

/-- keyword argument `k`, old style first -/
def titrationArg (kw : Dict Val) (k : String) : Option Val :=
  if k = "pH_min" then ((rangeArg kw).map Prod.fst).or (directArg kw k)
  else if k = "pH_max" then ((rangeArg kw).map Prod.snd).or (directArg kw k)
  else if k = "file_type" then (directArg kw "read_dat_method").or (directArg kw k)
  else directArg kw k

/-- the setting `k` of a Titration made from a row and keyword arguments: the keyword arguments come
first, but a `read_dat_method` of the row comes before every `file_type`. -/
def titrationSetting (kw row : Dict Val) (k : String) : Option Val :=
  if k = "file_type" ∧ (row.get? "read_dat_method").isSome then row.get? "read_dat_method"
  else (titrationArg kw k).or (row.get? k)

/-! ## C64 -/

theorem backcompat_args {kw row kw' : Dict Val} (hn : (nestedArgs kw).keys.Nodup)
    (h : backcompat kw row = .ok kw') (k : String) :
    kw'.get? k = if k = "file_type" then (row.get? "read_dat_method").or (titrationArg kw k)
      else titrationArg kw k := by
  unfold backcompat at h
  simp only [bind_ok_iff] at h
  obtain ⟨d1, h1, d2, h2, h⟩ := h
  have e1 : ∀ k, d1.get? k = directArg kw k := by
    intro k
    unfold backcompat_dicts at h1
    unfold directArg nestedArgs at *
    split at h1
    · rename_i h0
      rw [← Except.ok.inj h1, h0]; rfl
    · rename_i d h0
      rw [h0] at hn ⊢
      rw [← Except.ok.inj h1, foldl_set_get? _ _ hn]
    · cases h1
  have e2 : ∀ k, d2.get? k = if k = "pH_min" then ((rangeArg kw).map Prod.fst).or (directArg kw k)
      else if k = "pH_max" then ((rangeArg kw).map Prod.snd).or (directArg kw k)
      else directArg kw k := by
    intro k
    unfold backcompat_range at h2
    unfold rangeArg
    rw [← e1 "pH_range"]
    split at h2
    · rename_i h0
      rw [← Except.ok.inj h2, h0, e1]
      by_cases a : k = "pH_min"
      · simp [a]
      · by_cases b : k = "pH_max" <;> simp [b]
    · rename_i v h0
      simp only [bind_ok_iff] at h2
      obtain ⟨⟨a, b⟩, hv, h2⟩ := h2
      rw [← Except.ok.inj h2, h0]
      simp only [Option.bind_some, hv, Except.toOption, Option.map_some, Option.some_or,
        Dict.get?_set, e1]
      by_cases c : k = "pH_min"
      · subst c; simp
      · by_cases d : k = "pH_max" <;> simp [c, d]
  have e3 : d2.get? "read_dat_method" = directArg kw "read_dat_method" := by
    rw [e2, if_neg (by decide), if_neg (by decide)]
  have e4 : d2.get? "file_type" = directArg kw "file_type" := by
    rw [e2, if_neg (by decide), if_neg (by decide)]
  have h := Except.ok.inj h
  subst h
  by_cases hk : k = "file_type"
  · subst hk
    have ha : titrationArg kw "file_type"
        = (directArg kw "read_dat_method").or (directArg kw "file_type") := by
      unfold titrationArg
      rw [if_neg (by decide), if_neg (by decide), if_pos rfl]
    rw [if_pos rfl, ha, e3]
    cases row.get? "read_dat_method" with
    | some v => simp [setFileType, Dict.get?_set_self]
    | none =>
      simp only [setFileType]
      cases directArg kw "read_dat_method" with
      | some v => simp [setFileType, Dict.get?_set_self]
      | none => simp [setFileType, e4]
  · have hs : ∀ (d : Dict Val) o, (setFileType d o).get? k = d.get? k := by
      intro d o
      cases o with
      | none => rfl
      | some v => exact Dict.get?_set_ne _ _ _ _ hk
    rw [hs, hs, e2, if_neg hk]
    unfold titrationArg
    rw [if_neg hk]

theorem titrationSetting_ne (kw row : Dict Val) {k : String} (hk : k ≠ "file_type") :
    titrationSetting kw row k = (titrationArg kw k).or (row.get? k) := by
  unfold titrationSetting
  rw [if_neg (fun h => hk h.1)]

theorem backcompat_get? {kw row kw' : Dict Val} (hn : (nestedArgs kw).keys.Nodup)
    (h : backcompat kw row = .ok kw') (k : String) :
    (kw'.get? k).or (row.get? k) = titrationSetting kw row k := by
  rw [backcompat_args hn h]
  by_cases hk : k = "file_type"
  · subst hk
    rw [if_pos rfl]
    unfold titrationSetting
    cases row.get? "read_dat_method" <;> simp
  · rw [if_neg hk, titrationSetting_ne _ _ hk]

theorem titrationArg_plain (kw : Dict Val) {k : String} (h1 : k ≠ "pH_min") (h2 : k ≠ "pH_max")
    (h3 : k ≠ "file_type") : titrationArg kw k = directArg kw k := by
  unfold titrationArg
  rw [if_neg h1, if_neg h2, if_neg h3]

/-- **C64**: every setting of the row that a Titration is solved with is the one specified: keyword
arguments (old style first) replace the row's values, except for the row's `read_dat_method`. -/
theorem C64_settings (row row' : Series) (kw : Dict Val) (hk : kw.keys.Nodup)
    (hn : (nestedArgs kw).keys.Nodup) (h : titrationRow row kw = .ok row') (k : String) :
    row'.dict.get? k = titrationSetting kw row.dict k := by
  obtain ⟨kw', h1, h2⟩ := titrationRow_ok hk h
  rw [h2, backcompat_get? hn h1]

theorem Titration_ok {w : World} {sys : SysIn → Py SysOut} {row : Series} {kw : Dict Val}
    {tt : Titration} (h : Titration_init w sys row kw = .ok tt) :
    ∃ row' t0 t1, titrationRow row kw = .ok row' ∧ titration_solve w row' = .ok tt.sr ∧
      resultRow row' tt.sr.sr = .ok tt.row ∧ makeTable tt.sr = .ok t0 ∧
      get_alkalinity_from_acid tt.row t0 = .ok t1 ∧ do_CO2SYS sys tt.row t1 = .ok tt.t := by
  unfold Titration_init at h
  simp only [bind_ok_iff] at h
  obtain ⟨row', h1, sr, h2, r, h3, t0, h4, t1, h5, t, h6, h⟩ := h
  have h := Except.ok.inj h
  subst h
  exact ⟨row', t0, t1, h1, h2, h3, h4, h5, h6⟩

theorem titration_solve_ok {w : World} {row : Series} {o : SolveOut}
    (h : titration_solve w row = .ok o) :
    ∃ f c S, row.dict.get? "file_name" = some (.str f) ∧
      (∃ v, row.dict.get? "titrant_molinity" = some v ∧ v.toFlt = .ok c) ∧
      (∃ v, row.dict.get? "salinity" = some v ∧ v.toFlt = .ok S) ∧
      files_solve_all w f c S (row.dict.filter fun kv => !solveParams.contains kv.1) = .ok o := by
  unfold titration_solve required at h
  simp only [bind_ok_iff] at h
  obtain ⟨fv, h1, cv, h2, sv, h3, f, h4, c, h5, S, h6, h⟩ := h
  have key : ∀ {k : String} {v : Val}, (match row.dict.get? k with
      | some v => Except.ok v
      | none => .error PyErr.TypeError) = Except.ok v → row.dict.get? k = some v := by
    intro k v hk
    cases hg : row.dict.get? k with
    | none => rw [hg] at hk; cases hk
    | some u => rw [hg] at hk; cases hk; rfl
  have hf : fv = .str f := by
    cases fv <;> simp only [Val.toStr, Except.ok.injEq, reduceCtorEq] at h4
    rw [h4]
  refine ⟨f, c, S, ?_, ⟨cv, key h2, h5⟩, ⟨sv, key h3, h6⟩, h⟩
  rw [key h1, hf]

/-- **C64**: the constructor runs `files.solve` on the file, molinity and salinity so specified, with
exactly the other settings as keyword arguments. -/
theorem C64_call (w : World) (sys : SysIn → Py SysOut) (row : Series) (kw : Dict Val)
    (tt : Titration) (hk : kw.keys.Nodup) (hn : (nestedArgs kw).keys.Nodup)
    (h : Titration_init w sys row kw = .ok tt) :
    ∃ f c S kws, files_solve_all w f c S kws = .ok tt.sr ∧ files_solve w f c S kws = .ok tt.sr.sr ∧
      titrationSetting kw row.dict "file_name" = some (.str f) ∧
      (∃ v, titrationSetting kw row.dict "titrant_molinity" = some v ∧ v.toFlt = .ok c) ∧
      (∃ v, titrationSetting kw row.dict "salinity" = some v ∧ v.toFlt = .ok S) ∧
      ∀ k, kws.get? k = if k ∈ ["file_name", "titrant_molinity", "salinity"] then none
        else titrationSetting kw row.dict k := by
  obtain ⟨row', t0, t1, h1, h2, -⟩ := Titration_ok h
  obtain ⟨f, c, S, hf, hc, hS, hs⟩ := titration_solve_ok h2
  have hset := C64_settings row row' kw hk hn h1
  simp only [hset] at hf hc hS
  refine ⟨f, c, S, _, hs, ?_, hf, hc, hS, fun k => ?_⟩
  · rw [files_solve_all_sr, hs]; rfl
  · have := Dict.get?_filter (fun k => !solveParams.contains k) row'.dict k
    rw [this, hset]
    by_cases hm : k ∈ solveParams
    · have hm' : k ∈ ["file_name", "titrant_molinity", "salinity"] := hm
      rw [if_pos hm']; simp [hm]
    · have hm' : k ∉ ["file_name", "titrant_molinity", "salinity"] := hm
      rw [if_neg hm']; simp [hm]

theorem c64_opposite (kw : Dict Val) (row : Series) (row' : Series) (k : String) (u v : Val)
    (hk : kw.keys.Nodup) (h1 : kw.get? "read_dat_kwargs" = none) (h2 : kw.get? "pH_range" = none)
    (hk1 : k ∈ keys_solve) (hk2 : k ≠ "file_type")
    (hu : kw.get? k = some u) (hv : row.dict.get? k = some v) (hvn : v.isNull = false)
    (h : titrationRow row kw = .ok row') :
    row'.dict.get? k = some u ∧ ∃ kwb, backcompat kw row.dict = .ok kwb ∧
      (get_kwargs_for keys_solve kwb (some row.dict)).get? k = some v := by
  have hn : nestedArgs kw = [] := by simp [nestedArgs, h1]
  have hd : ∀ k, directArg kw k = kw.get? k := by intro k; simp [directArg, hn]
  have hr : rangeArg kw = none := by simp [rangeArg, hd, h2]
  constructor
  · rw [C64_settings row row' kw hk (by rw [hn]; exact List.nodup_nil) h]
    rw [titrationSetting_ne _ _ hk2]
    unfold titrationArg
    rw [if_neg hk2, hd, hr, hu]
    by_cases a : k = "pH_min"
    · simp [a]
    · by_cases b : k = "pH_max" <;> simp [b]
  · obtain ⟨kwb, hb, -⟩ := titrationRow_ok hk h
    refine ⟨kwb, hb, ?_⟩
    rw [C31_value, if_pos hk1]
    simp [chosen, hv, hvn]

/-- **C64**: for a setting given both ways, a Titration takes the keyword argument and
`dataset.solve` (which collects its settings with `_get_kwargs_for`) the row's non-null value. -/
theorem C64_opposite (kw : Dict Val) (row : Series) (row' : Series) (k : String) (u v : Val)
    (hk : kw.keys.Nodup) (h1 : kw.get? "read_dat_kwargs" = none) (h2 : kw.get? "pH_range" = none)
    (hk1 : k ∈ keys_solve) (hk2 : k ≠ "file_type")
    (hu : kw.get? k = some u) (hv : row.dict.get? k = some v) (hvn : ¬ Spec.Null v)
    (h : titrationRow row kw = .ok row') :
    row'.dict.get? k = some u ∧ ∃ kwb, backcompat kw row.dict = .ok kwb ∧
      (get_kwargs_for keys_solve kwb (some row.dict)).get? k = some v := by
  simp only [← isNull_iff, Bool.not_eq_true] at *
  exact c64_opposite kw row row' k u v hk h1 h2 hk1 hk2 hu hv hvn h

theorem c64_null (w : World) (sys : SysIn → Py SysOut) (row : Series) (kw : Dict Val) (v : Val)
    (hk : kw.keys.Nodup) (hn : (nestedArgs kw).keys.Nodup)
    (hkw : directArg kw "solve_mode" = none)
    (hv : row.dict.get? "solve_mode" = some v) (hvn : v.isNull = true) :
    (∀ tt, Titration_init w sys row kw ≠ .ok tt) ∧
    ∀ kwb, backcompat kw row.dict = .ok kwb →
      (get_kwargs_for keys_solve kwb (some row.dict)).get? "solve_mode" = none := by
  have harg : titrationArg kw "solve_mode" = none := by
    rw [titrationArg_plain _ (by decide) (by decide) (by decide), hkw]
  have hset : titrationSetting kw row.dict "solve_mode" = some v := by
    rw [titrationSetting_ne _ _ (by decide), harg, hv]; rfl
  constructor
  · intro tt h
    obtain ⟨f, c, S, kws, hs, -, -, -, -, hkws⟩ := C64_call w sys row kw tt hk hn h
    obtain ⟨-, -, mode, -, -, -, hm, -⟩ := files_solve_all_ok hs
    have := hkws "solve_mode"
    rw [if_neg (by decide), hset] at this
    unfold solve_mode argVal at hm
    rw [this] at hm
    cases v <;> simp [Val.isNull, Val.lower] at hm hvn
  · intro kwb hb
    rw [C31_value, if_pos (by decide)]
    unfold chosen
    rw [hv]
    simp only [hvn, if_true]
    rw [backcompat_args hn hb, if_neg (by decide), harg]

/-- **C64**: null values of the row are passed on: a row whose `solve_mode` is null cannot be made
into a Titration unless a keyword argument replaces it, whereas `dataset.solve` leaves the null
value out. -/
theorem C64_null (w : World) (sys : SysIn → Py SysOut) (row : Series) (kw : Dict Val) (v : Val)
    (hk : kw.keys.Nodup) (hn : (nestedArgs kw).keys.Nodup)
    (hkw : directArg kw "solve_mode" = none)
    (hv : row.dict.get? "solve_mode" = some v) (hvn : Spec.Null v) :
    (∀ tt, Titration_init w sys row kw ≠ .ok tt) ∧
    ∀ kwb, backcompat kw row.dict = .ok kwb →
      (get_kwargs_for keys_solve kwb (some row.dict)).get? "solve_mode" = none := by
  simp only [← isNull_iff, Bool.not_eq_true] at *
  exact c64_null w sys row kw v hk hn hkw hv hvn

/-! ## C65 -/

theorem putFirst_ok {c : String} {xs : List Flt} {s s' : Row} {u : Unit}
    (h : putFirst c xs s = (.ok u, s')) : ∃ x, xs.head? = some x ∧ s' = s.put c (.num x) := by
  cases xs with
  | nil => simp [putFirst, PyS.raise] at h
  | cons x xs =>
    rw [putFirst, putNum_apply] at h
    exact ⟨x, rfl, (Prod.mk.inj h).2.symm⟩

theorem add_solve_results_ok {sr : SolveRes} {s s' : Row} {u : Unit}
    (h : add_solve_results sr s = (.ok u, s')) :
    (∀ k ∉ resultLabels sr, s' k = s k) ∧ s' "alkalinity" = .num sr.alkalinity := by
  have hne : ∀ (s : Row) {c k : String} (v : Val), k ≠ c → s.put c v k = s k := by
    intro s c k v h; unfold Row.put; rw [if_neg h]
  have heq : ∀ (s : Row) (c : String) (v : Val), s.put c v c = v := by
    intro s c v; unfold Row.put; rw [if_pos rfl]
  cases sr with
  | emf sr T =>
    simp only [add_solve_results, PyS.bind_apply, putNum_apply] at h
    split at h
    · rename_i hx
      obtain ⟨x, -, rfl⟩ := putFirst_ok hx
      obtain ⟨y, -, rfl⟩ := putFirst_ok h
      constructor
      · intro k hk
        simp only [resultLabels, List.mem_cons, List.not_mem_nil, or_false, not_or] at hk
        obtain ⟨a1, a2, a3, a4, a5, a6, a7, a8⟩ := hk
        rw [hne _ _ a8, hne _ _ a7, hne _ _ a6, hne _ _ a5, hne _ _ a4, hne _ _ a3, hne _ _ a2,
          hne _ _ a1]
      · rw [hne _ _ (by decide), hne _ _ (by decide), hne _ _ (by decide), hne _ _ (by decide),
          hne _ _ (by decide), heq]
        rfl
    · simp at h
  | pH sr p T =>
    simp only [add_solve_results, PyS.bind_apply, putNum_apply] at h
    split at h
    · rename_i hx
      obtain ⟨x, -, rfl⟩ := putFirst_ok hx
      obtain ⟨y, -, rfl⟩ := putFirst_ok h
      constructor
      · intro k hk
        simp only [resultLabels, List.mem_cons, List.not_mem_nil, or_false, not_or] at hk
        obtain ⟨a1, a2, a3, a7, a8⟩ := hk
        rw [hne _ _ a8, hne _ _ a7, hne _ _ a3, hne _ _ a2, hne _ _ a1]
      · rw [hne _ _ (by decide), hne _ _ (by decide), heq]
        rfl
    · simp at h
  | pH_gran sr p T =>
    simp only [add_solve_results, PyS.bind_apply, putNum_apply] at h
    split at h
    · rename_i hx
      obtain ⟨x, -, rfl⟩ := putFirst_ok hx
      obtain ⟨y, -, rfl⟩ := putFirst_ok h
      constructor
      · intro k hk
        simp only [resultLabels, List.mem_cons, List.not_mem_nil, or_false, not_or] at hk
        obtain ⟨a1, a3, a7, a8⟩ := hk
        rw [hne _ _ a8, hne _ _ a7, hne _ _ a3, hne _ _ a1]
      · rw [hne _ _ (by decide), hne _ _ (by decide), heq]
        rfl
    · simp at h

theorem resultRow_ok {row row' : Series} {sr : SolveRes} (h : resultRow row sr = .ok row') :
    (∀ k ∉ resultLabels sr, row'.dict.get? k = row.dict.get? k) ∧
      row'.dict.get? "alkalinity" = some (.num sr.alkalinity) := by
  unfold resultRow at h
  rcases hx : add_solve_results sr row.val with ⟨r, val⟩
  rw [hx] at h
  cases r with
  | error e => cases h
  | ok u =>
    have h := Except.ok.inj h
    subst h
    obtain ⟨h1, h2⟩ := add_solve_results_ok hx
    constructor
    · intro k hk
      rw [Series.dict_get?, Series.dict_get?]
      simp only [mem_foldl_addCol, hk, or_false, h1 k hk]
    · rw [Series.dict_get?]
      simp only [mem_foldl_addCol, h2]
      rw [if_pos (.inr (by cases sr <;> simp [resultLabels]))]

/-- the labels that results can take -/
def resultNames : List String :=
  ["alkalinity_npts", "alkalinity_std", "alkalinity", "emf0", "gran_alkalinity", "gran_emf0",
    "pH_init", "temperature_init"]

theorem resultLabels_sub (sr : SolveRes) : ∀ k ∈ resultLabels sr, k ∈ resultNames := by
  cases sr <;> simp only [resultLabels] <;> decide

/-- **C64**: solving changes nothing in the row of a Titration but its results. -/
theorem C64_row (w : World) (sys : SysIn → Py SysOut) (row : Series) (kw : Dict Val)
    (tt : Titration) (hk : kw.keys.Nodup) (hn : (nestedArgs kw).keys.Nodup)
    (h : Titration_init w sys row kw = .ok tt) :
    (∀ k ∉ resultNames, tt.row.dict.get? k = titrationSetting kw row.dict k) ∧
      tt.row.dict.get? "alkalinity" = some (.num tt.sr.sr.alkalinity) := by
  obtain ⟨row', t0, t1, h1, -, h3, -⟩ := Titration_ok h
  obtain ⟨h4, h5⟩ := resultRow_ok h3
  refine ⟨fun k hk' => ?_, h5⟩
  rw [h4 k fun hc => hk' (resultLabels_sub _ _ hc), C64_settings row row' kw hk hn h1]

theorem Series.has_iff (s : Series) (k : String) : s.has k = (s.dict.get? k).isSome := by
  rw [Series.dict_get?]
  unfold Series.has
  by_cases h : k ∈ s.labels <;> simp [h]

/-- **C65**: `str` and `repr` raise AttributeError for every row without `file_path`. -/
theorem C65_no_path (row : Series) (h : row.dict.get? "file_path" = none) :
    ∃ a, titration_str row = .error (.AttributeError a) := by
  have h1 : row.has "file_path" = false := by rw [Series.has_iff, h]; rfl
  unfold titration_str titration_file
  simp only [h1, Bool.false_eq_true, if_false]
  unfold Series.getattr
  cases row.dict.get? "ro" with
  | none => exact ⟨"ro", rfl⟩
  | some v => exact ⟨"file_name", rfl⟩

/-- **C65**: so every Titration made without `file_path` cannot be printed, although it was solved. -/
theorem C65_titration (w : World) (sys : SysIn → Py SysOut) (row : Series) (kw : Dict Val)
    (tt : Titration) (hk : kw.keys.Nodup) (hn : (nestedArgs kw).keys.Nodup)
    (h : Titration_init w sys row kw = .ok tt)
    (hp : titrationSetting kw row.dict "file_path" = none) :
    ∃ a, titration_str tt.row = .error (.AttributeError a) :=
  C65_no_path _ (((C64_row w sys row kw tt hk hn h).1 _ (by decide)).trans hp)

theorem load_one_file {w : World} {rd : String → Dict Val → Py DatData} {f g : String} {S : Flt}
    {kw : Dict Val} (hg : full_name f kw = .ok g) (h : ∀ a, rd g a = w.readDat g a) :
    load { w with readDat := rd } f S kw = load w f S kw := by
  unfold load
  simp only [hg, bind_ok, h]
  rfl

theorem files_solve_all_one_file {w : World} {rd : String → Dict Val → Py DatData} {f g : String}
    {c S : Flt} {kw : Dict Val} (hg : full_name f kw = .ok g) (h : ∀ a, rd g a = w.readDat g a) :
    files_solve_all { w with readDat := rd } f c S kw = files_solve_all w f c S kw := by
  unfold files_solve_all
  rw [load_one_file hg h]
  rfl

/-- **C65**: every Titration made with `file_path` is printed with the name of the one file that was
read: what other files contain does not matter. -/
theorem C65_with_path (w : World) (sys : SysIn → Py SysOut) (row : Series) (kw : Dict Val)
    (tt : Titration) (hk : kw.keys.Nodup) (hn : (nestedArgs kw).keys.Nodup)
    (h : Titration_init w sys row kw = .ok tt)
    (hp : titrationSetting kw row.dict "file_path" ≠ none) :
    ∃ p n, titrationSetting kw row.dict "file_path" = some (.str p) ∧
      titrationSetting kw row.dict "file_name" = some (.str n) ∧
      titration_str tt.row = .ok ("calkulate.Titration for file \"" ++ pathJoin p n ++ "\"") ∧
      ∀ rd : String → Dict Val → Py DatData,
        (∀ a, rd (pathJoin p n) a = w.readDat (pathJoin p n) a) →
        Titration_init { w with readDat := rd } sys row kw = .ok tt := by
  obtain ⟨f, c, S, kws, hs, -, hf, hc, hS, hkws⟩ := C64_call w sys row kw tt hk hn h
  obtain ⟨hrow, -⟩ := C64_row w sys row kw tt hk hn h
  obtain ⟨totals, tts, mode, hl, -⟩ := files_solve_all_ok hs
  have hfp := hkws "file_path"
  rw [if_neg (by decide)] at hfp
  obtain ⟨v, hv⟩ := Option.ne_none_iff_exists'.mp hp
  rw [hv] at hfp
  have hfull : ∃ p, v = .str p := by
    unfold load at hl
    simp only [bind_ok_iff] at hl
    obtain ⟨g, hg, -⟩ := hl
    unfold full_name at hg
    rw [hfp] at hg
    cases v <;> first | exact ⟨_, rfl⟩ | cases hg
  obtain ⟨p, rfl⟩ := hfull
  refine ⟨p, f, hv, hf, ?_, ?_⟩
  · have h1 : tt.row.dict.get? "file_path" = some (.str p) := (hrow _ (by decide)).trans hv
    have h2 : tt.row.dict.get? "file_name" = some (.str f) := (hrow _ (by decide)).trans hf
    have h3 : tt.row.has "file_path" = true := by rw [Series.has_iff, h1]; rfl
    unfold titration_str titration_file Series.getattr
    simp only [h3, if_true, h1, h2, bind_ok]
    rfl
  · intro rd hrd
    obtain ⟨row', t0, t1, h1, h2, h3, h4, h5, h6⟩ := Titration_ok h
    have h2' : titration_solve { w with readDat := rd } row' = .ok tt.sr := by
      rw [← h2]
      unfold titration_solve
      have hset := C64_settings row row' kw hk hn h1
      have e1 : required row'.dict "file_name" = .ok (.str f) := by
        unfold required; rw [hset, hf]
      rw [e1]
      have e2 : (Val.str f).toStr = .ok f := rfl
      simp only [bind_ok, e2]
      have hfull : full_name f (row'.dict.filter fun kv => !solveParams.contains kv.1)
          = .ok (pathJoin p f) := by
        have hg := Dict.get?_filter (fun k => !solveParams.contains k) row'.dict "file_path"
        unfold full_name
        rw [hg, hset, hv]
        rfl
      simp only [files_solve_all_one_file hfull hrd]
    unfold Titration_init
    rw [h1]
    simp only [bind_ok, h2', h3, h4, h5, h6]
    rfl

end Calk
