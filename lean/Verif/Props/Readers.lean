import Verif.Props.ReadTypes
import Verif.Props.Calibrate
import Verif.Props.DatasetInputs

/-!
# Property C119: reading a file depends on that file and the settings only
-/

namespace Calk
open Flt

namespace Spec

/-- Two states of the disk in which the file `f` is the same. -/
structure SameFile (f : String) (fs fs' : FS) (pd pd' : Pandas) : Prop where
  text : fs f = fs' f
  csv : ∀ n, pd.readCsv f n = pd'.readCsv f n
  ints : ∀ n, pd.csvInts f n = pd'.csvInts f n
  excel : pd.readExcel f = pd'.readExcel f

/-- pandas returns tables: the columns are as long as each other. -/
def Rectangular (pd : Pandas) : Prop :=
  ∀ f n d, pd.readCsv f n = .ok d → ∀ a ∈ d, ∀ b ∈ d, a.2.length = b.2.length

/-- the name of the row's file: in the directory of the row or else of the call, if either is given -/
def FileOf (kw : Dict Val) (cols : List String) (r : Row) (f : String) : Prop :=
  ∃ n kwb, (r "file_name").toStr = .ok n ∧ backcompat kw (rowDict cols r) = .ok kwb ∧
    (((ownCell cols r "file_path").or (kwb.get? "file_path") = none ∧ f = n) ∨
      ∃ p, (ownCell cols r "file_path").or (kwb.get? "file_path") = some (.str p) ∧ f = pathJoin p n)

/-- the row's file is called `f`, and is not marked as bad -/
def Uses (kw : Dict Val) (cols : List String) (r : Row) (f : String) : Prop :=
  ("file_good" ∈ cols → Counts (r "file_good")) ∧ FileOf kw cols r f

end Spec

/-! ## One file -/

/-- **C119**: what is read from a file depends on nothing but that file and the settings. -/
theorem C119_local (fs fs' : FS) (pd pd' : Pandas) (f : String) (kw : Dict Val)
    (h : Spec.SameFile f fs fs' pd pd') : read_dat fs pd f kw = read_dat fs' pd' f kw := by
  obtain ⟨h1, h2, h2', h3⟩ := h
  have ht : readText fs f = readText fs' f := by unfold readText; rw [h1]
  unfold read_dat
  congr 1
  funext x
  obtain ⟨reader, _⟩ := x
  cases reader <;>
    simp only [callReader, read_dat_genfromtxt, read_dat_pclims, read_dat_orgalk_excel, read_tiamo_de,
      read_tiamo_de_df, ht, h2, h2', h3]

theorem readDatFrom_local {fs fs' : FS} {pd pd' : Pandas} {f : String}
    (h : Spec.SameFile f fs fs' pd pd') (kw : Dict Val) :
    readDatFrom fs pd f kw = readDatFrom fs' pd' f kw := by
  unfold readDatFrom; rw [C119_local fs fs' pd pd' f kw h]

theorem acceptOnly_same {keys : List String} {a b : Dict Val} (h : SameGet a b) :
    acceptOnly keys a = acceptOnly keys b := by
  have key : ∀ {a b : Dict Val}, SameGet a b →
      (a.all fun kv => keys.contains kv.1) = true → (b.all fun kv => keys.contains kv.1) = true := by
    intro a b h ha
    rw [List.all_eq_true] at ha ⊢
    intro kv hkv
    have h1 : b.get? kv.1 ≠ none := fun hn =>
      ((Dict.get?_eq_none_iff _ _).mp hn) (List.mem_map_of_mem hkv)
    rw [← h kv.1] at h1
    cases h2 : a.get? kv.1 with
    | none => exact absurd h2 h1
    | some v => exact ha (kv.1, v) (Dict.mem_of_get? h2)
  unfold acceptOnly
  have : (a.all fun kv => keys.contains kv.1) = (b.all fun kv => keys.contains kv.1) := by
    rw [Bool.eq_iff_iff]
    exact ⟨key h, key fun k => (h k).symm⟩
  rw [this]

theorem SameGet.argInt {a b : Dict Val} (h : SameGet a b) (k : String) (d : ℤ) :
    Calk.argInt a k d = Calk.argInt b k d := by
  unfold Calk.argInt; rw [h k]

/-- **C119**: the settings of a reader are found by name. -/
theorem C119_settings (fs : FS) (pd : Pandas) (f : String) (kw kw' : Dict Val)
    (h : ∀ k, kw.get? k = kw'.get? k) : read_dat fs pd f kw = read_dat fs pd f kw' := by
  have hf : SameGet (kw.filter fun kv => kv.1 ≠ "file_type") (kw'.filter fun kv => kv.1 ≠ "file_type") := by
    intro k
    rw [Dict.get?_filter (fun k => decide (k ≠ "file_type")) kw k,
      Dict.get?_filter (fun k => decide (k ≠ "file_type")) kw' k, h k]
  have hd : argDelimiter (kw.filter fun kv => kv.1 ≠ "file_type")
      = argDelimiter (kw'.filter fun kv => kv.1 ≠ "file_type") := by
    unfold argDelimiter; rw [hf]
  unfold read_dat
  have h0 : argVal kw "file_type" (.str "genfromtxt") = argVal kw' "file_type" (.str "genfromtxt") := by
    unfold argVal; rw [h]
  rw [h0]
  congr 1
  funext x
  obtain ⟨reader, _⟩ := x
  simp only
  generalize (kw.filter fun kv => kv.1 ≠ "file_type") = a at hf hd ⊢
  generalize (kw'.filter fun kv => kv.1 ≠ "file_type") = b at hf hd ⊢
  cases reader <;> simp only [callReader, acceptOnly_same hf, hf.argInt, hd]

/-- The modelled readers keep to what is assumed of reading in C98 and C118. -/
theorem readDatFrom_byName (w : World) (fs : FS) (pd : Pandas) (hw : w.readDat = readDatFrom fs pd) :
    ByName w := by
  intro f a b h
  rw [hw]
  unfold readDatFrom
  rw [C119_settings fs pd f a b h]

/-! ## Columns -/

theorem colAt_length {rows : List (List Flt)} {c : ℤ} {xs : List Flt} (h : colAt rows c = .ok xs) :
    xs.length = rows.length := by
  unfold colAt at h
  simp only at h
  split at h
  · rw [← Except.ok.inj h]; simp
  · split at h
    · rw [← Except.ok.inj h]; simp
    · cases h

theorem colAtSqueezed_length {rows : List (List Flt)} {c : ℤ} {xs : List Flt}
    (h : colAtSqueezed rows c = .ok xs) : xs.length = rows.length ∧ 2 ≤ rows.length := by
  unfold colAtSqueezed at h
  split at h
  · cases h
  · next hn => exact ⟨colAt_length h, by omega⟩

theorem pclimsColumn_length {rows : List (List Flt)} {c : ℤ} {xs : List Flt}
    (h : pclimsColumn rows c = .ok xs) : xs.length = rows.length ∧ 1 ≤ rows.length := by
  unfold pclimsColumn at h
  split at h
  · cases h
  · next hn =>
    refine ⟨colAt_length h, ?_⟩
    cases rows with
    | nil => simp at hn
    | cons _ _ => simp

theorem genfromtxt_columns {fs : FS} {f : String} {a b c : ℤ} {del : Char} {n : ℕ} {d : DatData}
    (h : read_dat_genfromtxt fs f a b c del n = .ok d) :
    d.measurement.length = d.titrant_amount.length ∧ d.temperature.length = d.titrant_amount.length ∧
      2 ≤ d.titrant_amount.length := by
  unfold read_dat_genfromtxt at h
  obtain ⟨text, -, h⟩ := bind_ok_iff.mp h
  obtain ⟨data, -, h⟩ := bind_ok_iff.mp h
  obtain ⟨x, hx, h⟩ := bind_ok_iff.mp h
  obtain ⟨y, hy, h⟩ := bind_ok_iff.mp h
  obtain ⟨z, hz, h⟩ := bind_ok_iff.mp h
  rw [← Except.ok.inj h]
  have h1 := colAtSqueezed_length hx
  have h2 := colAtSqueezed_length hy
  have h3 := colAtSqueezed_length hz
  exact ⟨h2.1.trans h1.1.symm, h3.1.trans h1.1.symm, by simp only; omega⟩

theorem pclims_columns {fs : FS} {f : String} {a b c n : ℤ} {d : DatData}
    (h : read_dat_pclims fs f a b c n = .ok d) :
    d.measurement.length = d.titrant_amount.length ∧ d.temperature.length = d.titrant_amount.length ∧
      1 ≤ d.titrant_amount.length := by
  unfold read_dat_pclims at h
  obtain ⟨text, -, h⟩ := bind_ok_iff.mp h
  simp only at h
  obtain ⟨data, -, h⟩ := bind_ok_iff.mp h
  obtain ⟨x, hx, h⟩ := bind_ok_iff.mp h
  obtain ⟨y, hy, h⟩ := bind_ok_iff.mp h
  obtain ⟨z, hz, h⟩ := bind_ok_iff.mp h
  rw [← Except.ok.inj h]
  have h1 := pclimsColumn_length hx
  have h2 := pclimsColumn_length hy
  have h3 := pclimsColumn_length hz
  exact ⟨h2.1.trans h1.1.symm, h3.1.trans h1.1.symm, by simp only; omega⟩

theorem colAttr_mem {d : Dict (List Flt)} {c : String} {xs : List Flt} (h : colAttr d c = .ok xs) :
    (c, xs) ∈ d := by
  unfold colAttr at h
  cases hg : d.get? c with
  | none => rw [hg] at h; cases h
  | some v => rw [hg] at h; cases h; exact Dict.mem_of_get? hg

theorem mem_set_or {α : Type} {d : Dict α} {k : String} {v : α} {kv : String × α}
    (h : kv ∈ d.set k v) : kv ∈ d ∨ kv.2 = v := by
  induction d with
  | nil => simp only [Dict.set, List.mem_singleton] at h; right; rw [h]
  | cons e d ih =>
    obtain ⟨a, b⟩ := e
    simp only [Dict.set] at h
    split at h
    · rcases List.mem_cons.mp h with h | h
      · right; rw [h]
      · left; exact List.mem_cons_of_mem _ h
    · rcases List.mem_cons.mp h with h | h
      · left; rw [h]; exact List.mem_cons_self ..
      · rcases ih h with h | h
        · left; exact List.mem_cons_of_mem _ h
        · right; exact h

theorem tiamo_columns {fs : FS} {pd : Pandas} (hpd : Spec.Rectangular pd) {f : String} {d : DatData}
    (h : read_tiamo_de fs pd f = .ok d) :
    d.measurement.length = d.titrant_amount.length ∧ d.temperature.length = d.titrant_amount.length := by
  unfold read_tiamo_de at h
  obtain ⟨data, hdata, h⟩ := bind_ok_iff.mp h
  obtain ⟨x, hx, h⟩ := bind_ok_iff.mp h
  obtain ⟨y, hy, h⟩ := bind_ok_iff.mp h
  obtain ⟨z, hz, h⟩ := bind_ok_iff.mp h
  rw [← Except.ok.inj h]
  simp only
  unfold read_tiamo_de_df at hdata
  simp only [bind_ok_iff] at hdata
  obtain ⟨text, -, gl, -, line, -, field, -, vs, -, table, ht, vol, hv, hdata⟩ := hdata
  have e := Except.ok.inj hdata
  subst e
  have hr := hpd _ _ _ ht
  have hvol : ∃ k, (k, vol) ∈ table := by
    have := Dict.mem_of_get? (Dict.get_ok_iff.mp hv)
    obtain ⟨kv, hkv, e⟩ := List.mem_map.mp this
    obtain ⟨a, b⟩ := kv
    simp only [Prod.mk.injEq] at e
    exact ⟨a, e.2 ▸ hkv⟩
  obtain ⟨k, hk⟩ := hvol
  have hall : ∀ c xs, (c, xs) ∈ Dict.set (table.map fun kv => (tiamoRename kv.1, kv.2)) "volume"
      (vol.map (· + vs)) → xs.length = vol.length := by
    intro c xs hm
    rcases mem_set_or hm with hm | hm
    · obtain ⟨kv, hkv, e⟩ := List.mem_map.mp hm
      have := hr kv hkv _ hk
      simp only [Prod.mk.injEq] at e
      rw [← e.2]; exact this
    · simp only at hm
      rw [hm, List.length_map]
  have h1 := hall _ _ (colAttr_mem hx)
  have h2 := hall _ _ (colAttr_mem hy)
  have h3 := hall _ _ (colAttr_mem hz)
  exact ⟨h2.trans h1.symm, h3.trans h1.symm⟩

/-- **C119**: every titration that is read has as many measurements and temperatures as titrant
amounts; except from a Tiamo file, there is at least one point. -/
theorem C119_columns (fs : FS) (pd : Pandas) (hpd : Spec.Rectangular pd) (f : String) (kw : Dict Val)
    (d : DatData) (h : read_dat fs pd f kw = .ok (.dat d)) :
    d.measurement.length = d.titrant_amount.length ∧ d.temperature.length = d.titrant_amount.length ∧
      (kw.get? "file_type" ≠ some (.str "tiamo_de") → d.titrant_amount ≠ []) := by
  unfold read_dat at h
  obtain ⟨⟨reader, wn⟩, hc, h⟩ := bind_ok_iff.mp h
  simp only at h
  have hne : ∀ {l : List Flt}, 1 ≤ l.length → l ≠ [] := by
    intro l hl e; rw [e] at hl; simp at hl
  cases reader with
  | genfromtxt =>
    simp only [callReader, bind_ok_iff, pure_ok, Except.ok.injEq, ReadResult.dat.injEq] at h
    obtain ⟨_, -, _, -, _, -, _, -, _, -, _, -, d', hd, rfl⟩ := h
    obtain ⟨h1, h2, h3⟩ := genfromtxt_columns hd
    exact ⟨h1, h2, fun _ => hne (by omega)⟩
  | pclims =>
    simp only [callReader, bind_ok_iff, pure_ok, Except.ok.injEq, ReadResult.dat.injEq] at h
    obtain ⟨_, -, _, -, _, -, _, -, _, -, d', hd, rfl⟩ := h
    obtain ⟨h1, h2, h3⟩ := pclims_columns hd
    exact ⟨h1, h2, fun _ => hne h3⟩
  | orgalk_excel =>
    simp only [callReader, bind_ok_iff, pure_ok, Except.ok.injEq, reduceCtorEq, and_false,
      exists_false] at h
  | tiamo_de =>
    simp only [callReader, bind_ok_iff, pure_ok, Except.ok.injEq, ReadResult.dat.injEq] at h
    obtain ⟨_, -, d', hd, rfl⟩ := h
    obtain ⟨h1, h2⟩ := tiamo_columns hpd hd
    refine ⟨h1, h2, fun hn => ?_⟩
    exfalso
    unfold argVal at hc
    cases hk : kw.get? "file_type" with
    | none => rw [hk] at hc; simp [chooseReader, file_types, Dict.get?] at hc
    | some v =>
      rw [hk] at hc
      cases v with
      | str s =>
        have hs : s ≠ "tiamo_de" := fun e => hn (by rw [hk, e])
        simp only [Option.getD_some, chooseReader, file_types, Dict.get?_cons] at hc
        by_cases e1 : "genfromtxt" = s
        · simp [e1] at hc
        by_cases e2 : "vindta" = s
        · simp [e1, e2] at hc
        by_cases e3 : "orgalk_excel" = s
        · simp [e1, e2, e3] at hc
        by_cases e4 : "pclims" = s
        · simp [e1, e2, e3, e4] at hc
        have e5 : ¬ "tiamo_de" = s := fun e => hs e.symm
        simp [e1, e2, e3, e4, e5, Dict.get?] at hc
      | _ => simp [chooseReader] at hc

/-! ## Data sets -/

/-- two ways of reading the file `f` agree -/
def ReadsAs (rd rd' : String → Dict Val → Py DatData) (f : String) : Prop := ∀ a, rd f a = rd' f a

theorem load_at {w : World} {rd : String → Dict Val → Py DatData} {n : String} {S : Flt} {kw : Dict Val}
    (h : ∀ f, full_name n kw = .ok f → ReadsAs w.readDat rd f) :
    load { w with readDat := rd } n S kw = load w n S kw := by
  unfold load
  cases hf : full_name n kw with
  | error e => rfl
  | ok f =>
    have h' : ∀ a, w.readDat f a = rd f a := h f hf
    simp only [bind_ok, h']; rfl

theorem file_setting {keys : List String} (hk : "file_path" ∈ keys) (kwb : Dict Val) (cols : List String)
    (r : Row) : (get_kwargs_for keys kwb (some (rowDict cols r))).get? "file_path"
      = (ownCell cols r "file_path").or (kwb.get? "file_path") := by
  rw [C31_value, if_pos hk]
  unfold chosen ownCell
  rw [rowDict_get?]
  by_cases hc : "file_path" ∈ cols
  · cases hn : (r "file_path").isNull <;> simp [hc, hn]
  · simp [hc]

theorem fileOf_full {keys : List String} (hk : "file_path" ∈ keys) {kw kwb : Dict Val} {cols : List String}
    {r : Row} {n f : String} (hb : backcompat kw (rowDict cols r) = .ok kwb)
    (hn : (r "file_name").toStr = .ok n)
    (hf : full_name n (get_kwargs_for keys kwb (some (rowDict cols r))) = .ok f) :
    Spec.FileOf kw cols r f := by
  unfold full_name at hf
  rw [file_setting hk] at hf
  refine ⟨n, kwb, hn, hb, ?_⟩
  cases ho : (ownCell cols r "file_path").or (kwb.get? "file_path") with
  | none => rw [ho] at hf; exact .inl ⟨rfl, (Except.ok.inj hf).symm⟩
  | some v =>
    rw [ho] at hf
    cases v <;> first | (cases hf; done) | exact .inr ⟨_, rfl, (Except.ok.inj hf).symm⟩

theorem solve_row_at {w : World} {rd : String → Dict Val → Py DatData} {kw : Dict Val}
    {cols : List String} {r : Row}
    (h : Spec.Counts (r "file_good") → ∀ f, Spec.FileOf kw cols r f → ReadsAs w.readDat rd f) :
    solve_row { w with readDat := rd } kw cols r = solve_row w kw cols r := by
  by_cases hact : (!(r "titrant_molinity").isNull && (r "file_good").truthy) = true
  · have hact' := hact
    simp only [Bool.and_eq_true, Bool.not_eq_true'] at hact'
    have hcall : solve_call { w with readDat := rd } kw cols r = solve_call w kw cols r := by
      unfold solve_call
      cases hb : backcompat kw (rowDict cols r) with
      | error e => rfl
      | ok kwb =>
        simp only [bind_ok, rowAttr]
        split
        · simp only [bind_ok]
          cases hn : (r "file_name").toStr with
          | error e => rfl
          | ok n =>
            have hs : ∀ c S, files_solve { w with readDat := rd } n c S
                (get_kwargs_for keys_solve kwb (some (rowDict cols r)))
                = files_solve w n c S (get_kwargs_for keys_solve kwb (some (rowDict cols r))) := by
              intro c S
              unfold files_solve
              rw [load_at fun f hf => h (truthy_iff.mp hact'.2) f (fileOf_full (by decide +kernel) hb hn hf)]
              rfl
            simp only [bind_ok, hs]
        · rfl
    simp only [solve_row, solve_attempt, hcall]
  · simp only [solve_row, if_neg hact]

theorem calibrate_row_at {w : World} {rd : String → Dict Val → Py DatData} {kw : Dict Val}
    {cols : List String} {r : Row}
    (h : Spec.Counts (r "file_good") → ∀ f, Spec.FileOf kw cols r f → ReadsAs w.readDat rd f) :
    calibrate_row { w with readDat := rd } kw cols r = calibrate_row w kw cols r := by
  by_cases hact : (!(r "alkalinity_certified").isNull && (r "file_good").truthy) = true
  · have hact' := hact
    simp only [Bool.and_eq_true, Bool.not_eq_true'] at hact'
    have hcall : calibrate_attempt { w with readDat := rd } kw cols r = calibrate_attempt w kw cols r := by
      unfold calibrate_attempt
      cases hb : backcompat kw (rowDict cols r) with
      | error e => rfl
      | ok kwb =>
        simp only [bind_ok, rowAttr]
        split
        · simp only [bind_ok]
          cases hn : (r "file_name").toStr with
          | error e => rfl
          | ok n =>
            have hs : ∀ c S, files_calibrate { w with readDat := rd } n c S
                (get_kwargs_for keys_calibrate kwb (some (rowDict cols r)))
                = files_calibrate w n c S (get_kwargs_for keys_calibrate kwb (some (rowDict cols r))) := by
              intro c S
              unfold files_calibrate
              rw [load_at fun f hf => h (truthy_iff.mp hact'.2) f (fileOf_full (by decide +kernel) hb hn hf)]
              rfl
            simp only [bind_ok, hs]
        · rfl
    simp only [calibrate_row, hcall]
  · simp only [calibrate_row, if_neg hact]

/-- the cells that say which file is read -/
def fileCells : List String := ["file_name", "file_path", "read_dat_method"]

/-- a row made from another one without touching these cells, nor making a bad file good -/
structure FromRow (cols : List String) (r : Row) (cols' : List String) (r' : Row) : Prop where
  cells : ∀ c ∈ fileCells, (c ∈ cols' ↔ c ∈ cols) ∧ r' c = r c
  good : Spec.Counts (r' "file_good") → "file_good" ∈ cols → Spec.Counts (r "file_good")
  column : "file_good" ∈ cols'

theorem FromRow.file {kw : Dict Val} {cols cols' : List String} {r r' : Row}
    (h : FromRow cols r cols' r') {f : String} (hf : Spec.FileOf kw cols' r' f) :
    Spec.FileOf kw cols r f := by
  obtain ⟨n, kwb, hn, hb, hor⟩ := hf
  have h1 := h.cells "file_name" (by decide)
  have h2 := h.cells "file_path" (by decide)
  have h3 := h.cells "read_dat_method" (by decide)
  have hown : ownCell cols' r' "file_path" = ownCell cols r "file_path" := by
    unfold ownCell; rw [h2.2]; simp only [h2.1]
  have hbc : backcompat kw (rowDict cols' r') = backcompat kw (rowDict cols r) := by
    unfold backcompat
    rw [rowDict_get?, rowDict_get?, h3.2]
    simp only [h3.1]
  rw [hown] at hor
  exact ⟨n, kwb, by rw [← h1.2]; exact hn, by rw [← hbc]; exact hb, hor⟩

theorem FromRow.uses {kw : Dict Val} {cols cols' : List String} {r r' : Row}
    (h : FromRow cols r cols' r') {f : String} (hg : Spec.Counts (r' "file_good"))
    (hf : Spec.FileOf kw cols' r' f) : Spec.Uses kw cols r f :=
  ⟨h.good hg, h.file hf⟩

theorem FromRow.trans {cols cols' cols'' : List String} {r r' r'' : Row}
    (h : FromRow cols r cols' r') (h' : FromRow cols' r' cols'' r'') : FromRow cols r cols'' r'' where
  cells c hc := ⟨(h'.cells c hc).1.trans (h.cells c hc).1, (h'.cells c hc).2.trans (h.cells c hc).2⟩
  good hg hc := h.good (h'.good hg h.column) hc
  column := h'.column

theorem FromRow.prep (w : World) (cols : List String) (r : Row) :
    FromRow cols r (prepCols cols) (prepRow w cols r) where
  cells c hc := by
    simp only [fileCells, List.mem_cons, List.not_mem_nil, or_false] at hc
    rcases hc with rfl | rfl | rfl <;>
      refine ⟨?_, prepRow_other (by decide)⟩ <;> rw [mem_prepCols] <;> simp [salts]
  good hg hc := by rwa [prep_good hc] at hg
  column := mem_prepCols.mpr (by simp)

theorem FromRow.put {cols cols' : List String} {r r' : Row} (h : FromRow cols r cols' r') (c : String)
    (v : Val) (hc : c ∉ fileCells) (hg : c ≠ "file_good") :
    FromRow cols r (addCol cols' c) (r'.put c v) where
  cells k hk := by
    have hne : k ≠ c := fun e => hc (e ▸ hk)
    refine ⟨?_, ?_⟩
    · rw [mem_addCol]; simp [hne, (h.cells k hk).1]
    · unfold Row.put; rw [if_neg hne]; exact (h.cells k hk).2
  good hg' hcol := by
    refine h.good ?_ hcol
    unfold Row.put at hg'
    rwa [if_neg (Ne.symm hg)] at hg'
  column := mem_addCol.mpr (.inl h.column)

/-- every row of `df'` is made from one of `df` -/
def FromRows (df df' : DF) : Prop :=
  ∀ r' ∈ df'.rows, ∃ r ∈ df.rows, FromRow df.cols r df'.cols r'

theorem FromRows.setCol {df df' : DF} (h : FromRows df df') (c : String) (g : Row → Val)
    (hc : c ∉ fileCells) (hg : c ≠ "file_good") : FromRows df (df'.setCol c g) := by
  intro x hx
  obtain ⟨r', hr', rfl⟩ := List.mem_map.mp hx
  obtain ⟨r, hr, hrr⟩ := h r' hr'
  exact ⟨r, hr, hrr.put c _ hc hg⟩

theorem dataset_solve_at {w : World} {rd : String → Dict Val → Py DatData} {kw : Dict Val} {df : DF}
    (h : ∀ r ∈ df.rows, ∀ f, Spec.Uses kw df.cols r f → ReadsAs w.readDat rd f) :
    dataset_solve { w with readDat := rd } kw df = dataset_solve w kw df := by
  unfold dataset_solve
  rw [PyS.lift_bind, PyS.lift_bind]
  cases dataset_ignored kw with
  | error e => rfl
  | ok l =>
    show (prepare _ >>= _) df = (prepare w >>= _) df
    rw [PyS.bind_apply, PyS.bind_apply]
    have hp : prepare { w with readDat := rd } df = prepare w df := by
      rw [prepare_eq, prepare_eq]; rfl
    rw [hp, prepare_eq]
    by_cases hS : df.has "salinity" = true
    swap
    · rw [if_neg hS]
    rw [if_pos hS]
    by_cases hmv : (df.has "analyte_mass" || df.has "analyte_volume") = true
    swap
    · rw [if_neg hmv]
    rw [if_pos hmv]
    show (PyS.require _ >>= _) _ = (PyS.require _ >>= _) _
    rw [PyS.require_bind, PyS.require_bind]
    split
    swap
    · rfl
    rw [PyS.update_bind, PyS.update_bind]
    have : assignSolved { w with readDat := rd } kw
        ⟨prepCols df.cols, df.rows.map (prepRow w df.cols)⟩
        = assignSolved w kw ⟨prepCols df.cols, df.rows.map (prepRow w df.cols)⟩ := by
      unfold assignSolved
      simp only
      rw [mapPy_congr]
      intro x hx
      obtain ⟨r, hr, rfl⟩ := List.mem_map.mp hx
      rw [solve_row_at]
      intro hg f hf
      exact h r hr f ((FromRow.prep w df.cols r).uses hg hf)
    rw [this]

theorem dataset_calibrate_at {w : World} {rd : String → Dict Val → Py DatData} {kw : Dict Val} {df : DF}
    (h : ∀ r ∈ df.rows, ∀ f, Spec.Uses kw df.cols r f → ReadsAs w.readDat rd f) :
    dataset_calibrate { w with readDat := rd } kw df = dataset_calibrate w kw df := by
  have hsolve : ∀ df', FromRows df df' →
      dataset_solve { w with readDat := rd } kw df' = dataset_solve w kw df' := by
    intro df' hdf
    refine dataset_solve_at fun r' hr' f hf => ?_
    obtain ⟨r, hr, hrr⟩ := hdf r' hr'
    exact h r hr f (hrr.uses (hf.1 hrr.column) hf.2)
  unfold dataset_calibrate
  rw [PyS.bind_apply, PyS.bind_apply]
  have hp : prepare { w with readDat := rd } df = prepare w df := by
    rw [prepare_eq, prepare_eq]; rfl
  rw [hp, prepare_eq]
  by_cases hS : df.has "salinity" = true
  swap
  · rw [if_neg hS]
  rw [if_pos hS]
  by_cases hmv : (df.has "analyte_mass" || df.has "analyte_volume") = true
  swap
  · rw [if_neg hmv]
  rw [if_pos hmv]
  show (PyS.require _ >>= _) _ = (PyS.require _ >>= _) _
  rw [PyS.require_bind, PyS.require_bind]
  split
  swap
  · rfl
  rw [PyS.update_bind, PyS.update_bind]
  have hcal : DF.setColM ⟨prepCols df.cols, df.rows.map (prepRow w df.cols)⟩ "titrant_molinity_here"
        (calibrate_row { w with readDat := rd } kw (prepCols df.cols))
      = DF.setColM ⟨prepCols df.cols, df.rows.map (prepRow w df.cols)⟩ "titrant_molinity_here"
        (calibrate_row w kw (prepCols df.cols)) := by
    unfold DF.setColM
    simp only
    rw [mapPy_congr]
    intro x hx
    obtain ⟨r, hr, rfl⟩ := List.mem_map.mp hx
    rw [calibrate_row_at]
    intro hg f hf
    exact h r hr f ((FromRow.prep w df.cols r).uses hg hf)
  simp only
  rw [hcal]
  cases h1 : DF.setColM ⟨prepCols df.cols, df.rows.map (prepRow w df.cols)⟩ "titrant_molinity_here"
      (calibrate_row w kw (prepCols df.cols)) with
  | error e => rfl
  | ok df1 =>
    have hf1 : FromRows df df1 := by
      unfold DF.setColM at h1
      obtain ⟨rows, hrows, h1⟩ := bind_ok_iff.mp h1
      have e := Except.ok.inj h1
      subst e
      intro x hx
      obtain ⟨y, hy, hxy⟩ := forall₂_mem (mapPy_ok hrows).flip hx
      obtain ⟨r, hr, rfl⟩ := List.mem_map.mp hy
      obtain ⟨v, -, hxy⟩ := bind_ok_iff.mp hxy
      have e := Except.ok.inj hxy
      subst e
      exact ⟨r, hr, (FromRow.prep w df.cols r).put _ _ (by decide) (by decide)⟩
    simp only
    rw [PyS.modify_bind, PyS.modify_bind, PyS.modify_bind, PyS.modify_bind, PyS.update_bind,
      PyS.update_bind]
    have hf2 : FromRows df (defaultBatch df1) := by
      unfold defaultBatch; split
      · exact hf1
      · exact hf1.setCol _ _ (by decide) (by decide)
    have hf3 : FromRows df (defaultReferenceGood (defaultBatch df1)) := by
      unfold defaultReferenceGood; split
      · exact hf2
      · exact hf2.setCol _ _ (by decide) (by decide)
    cases h4 : assignMolinity (defaultReferenceGood (defaultBatch df1)) with
    | error e => rfl
    | ok df4 =>
      simp only
      apply hsolve
      unfold assignMolinity at h4
      split at h4
      · cases h4
      split at h4
      · cases h4
      rw [← Except.ok.inj h4]
      exact hf3.setCol _ _ (by decide) (by decide)

/-- **C119**: solving and calibrating a data set depend on no other files than those of its rows that
are not marked as bad, each in its directory. -/
theorem C119_dataset (w : World) (fs fs' : FS) (pd pd' : Pandas) (kw : Dict Val) (df : DF)
    (hw : w.readDat = readDatFrom fs pd)
    (h : ∀ r ∈ df.rows, ∀ f, Spec.Uses kw df.cols r f → Spec.SameFile f fs fs' pd pd') :
    dataset_solve { w with readDat := readDatFrom fs' pd' } kw df = dataset_solve w kw df ∧
    dataset_calibrate { w with readDat := readDatFrom fs' pd' } kw df = dataset_calibrate w kw df ∧
    dataset_calkulate { w with readDat := readDatFrom fs' pd' } kw df = dataset_calkulate w kw df := by
  have h' : ∀ r ∈ df.rows, ∀ f, Spec.Uses kw df.cols r f → ReadsAs w.readDat (readDatFrom fs' pd') f := by
    intro r hr f hf a
    rw [hw]
    exact readDatFrom_local (h r hr f hf) a
  refine ⟨dataset_solve_at h', dataset_calibrate_at h', ?_⟩
  rw [C45_calkulate, C45_calkulate]
  exact dataset_calibrate_at h'

/-- **C119**: writing a titration to a file that no row uses changes no result of a data set. -/
theorem C119_written (w : World) (fs fs' : FS) (pd pd' : Pandas) (kw : Dict Val) (df : DF) (path : String)
    (a m t : List Flt) (line0 line1 mode : String) (k0 k1 k2 : ℕ)
    (hw : w.readDat = readDatFrom fs pd)
    (hpd : ∀ f, f ≠ path → (∀ n, pd.readCsv f n = pd'.readCsv f n) ∧ (∀ n, pd.csvInts f n = pd'.csvInts f n) ∧
      pd.readExcel f = pd'.readExcel f)
    (h : ∀ r ∈ df.rows, ¬ Spec.Uses kw df.cols r path)
    (hfs : fs' = (write_dat path a m t line0 line1 mode k0 k1 k2 fs).2) :
    dataset_calkulate { w with readDat := readDatFrom fs' pd' } kw df = dataset_calkulate w kw df := by
  subst hfs
  refine (C119_dataset w fs _ pd pd' kw df hw fun r hr f hf => ?_).2.2
  have hne : f ≠ path := fun e => h r hr (e ▸ hf)
  refine ⟨?_, (hpd f hne).1, (hpd f hne).2.1, (hpd f hne).2.2⟩
  unfold write_dat
  split
  · rfl
  · simp only [if_neg hne]

/-! ## Cases -/

/-- no tables -/
noncomputable def noPandas : Pandas := ⟨fun _ _ => .error .ValueError, fun _ _ => [], fun _ => .error .ValueError⟩

theorem exSkip_uses (f : String) (r : Row) (hr : r ∈ exSkip.rows) (h : Spec.Uses [] exSkip.cols r f) :
    f = "a.dat" := by
  obtain ⟨hg, n, kwb, hn, hb, hor⟩ := h
  have hm : "read_dat_method" ∉ exSkip.cols := by simp [exSkip]
  have hp : "file_path" ∉ exSkip.cols := by simp [exSkip]
  have hkwb : kwb = [] := by
    have : backcompat [] (rowDict exSkip.cols r) = .ok [] := by
      unfold backcompat
      rw [rowDict_get?, if_neg hm]
      rfl
    exact Except.ok.inj (hb.symm.trans this)
  have ho : ownCell exSkip.cols r "file_path" = none := by
    unfold ownCell; rw [if_neg]; exact fun h => hp h.1
  subst hkwb
  rw [ho] at hor
  have hn' : f = n := by
    rcases hor with h | ⟨p, h, -⟩
    · exact h.2
    · cases h
  subst hn'
  simp only [exSkip, List.mem_cons, List.not_mem_nil, or_false] at hr
  rcases hr with rfl | rfl
  · simpa [Val.toStr] using hn.symm
  · have := hg (by simp [exSkip])
    simp [Spec.Counts] at this

/-- two disks that differ in the file that is marked as bad: every result is the same -/
example (w : World) (a b b' : List Char)
    (hw : w.readDat = readDatFrom (fun f => if f = "a.dat" then some a else if f = "b.dat" then some b
      else none) noPandas) :
    dataset_calkulate { w with readDat := readDatFrom (fun f => if f = "a.dat" then some a
      else if f = "b.dat" then some b' else none) noPandas } [] exSkip
      = dataset_calkulate w [] exSkip :=
  (C119_dataset w _ _ noPandas noPandas [] exSkip hw fun r hr f hf => by
    obtain rfl := exSkip_uses f r hr hf
    exact ⟨by simp, fun _ => rfl, fun _ => rfl, rfl⟩).2.2

/-- and writing a further titration does nothing to it -/
example (w : World) (fs fs' : FS) (hw : w.readDat = readDatFrom fs noPandas)
    (h : fs' = ((write_dat "c.dat" [fin 0, fin 1] [fin 400, fin 500] [fin 25, fin 25] : PyS FS Unit) fs).2) :
    dataset_calkulate { w with readDat := readDatFrom fs' noPandas } [] exSkip
      = dataset_calkulate w [] exSkip :=
  C119_written w fs fs' noPandas noPandas [] exSkip "c.dat" _ _ _ _ _ _ _ _ _ hw
    (fun _ _ => ⟨fun _ => rfl, fun _ => rfl, rfl⟩)
    (fun r hr hu => absurd (exSkip_uses _ r hr hu) (by decide)) h

/-- a file with three points -/
example : ∃ (fs : FS) (d : DatData), read_dat fs noPandas "a.dat" [] = .ok (.dat d) ∧
    Spec.Rectangular noPandas ∧ d.titrant_amount ≠ [] ∧
    d.temperature.length = d.titrant_amount.length := by
  have hr : Spec.Rectangular noPandas := fun _ _ _ h => by cases h
  obtain ⟨fs', d, h1, h2, -⟩ := C53_round_trip (fun _ => none) noPandas "a.dat"
    [fin 0, fin 0.0005, fin 0.0015] [fin 400.12345, nan, fin 1] [fin 25, fin 25, fin (-3)]
    "Titration data exported by Calkulate" "titrant_amount\tmeasurement\ttemperature" 3 3 3
    (by unfold OneLine; decide) (by unfold OneLine; decide) rfl (by decide)
  obtain ⟨-, e, hne⟩ := C119_columns fs' noPandas hr "a.dat" [] d h2
  exact ⟨fs', d, h2, hr, hne (by simp), e⟩

/-- the same settings in another order -/
example (fs : FS) : read_dat fs noPandas "a.txt"
      [("file_type", .str "pclims"), ("n_cols", .num (fin 4)), ("col_temperature", .num (fin 3))]
    = read_dat fs noPandas "a.txt"
      [("col_temperature", .num (fin 3)), ("file_type", .str "pclims"), ("n_cols", .num (fin 4))] :=
  C119_settings fs noPandas _ _ _ fun k => by
    simp only [Dict.get?_cons]
    by_cases h1 : "file_type" = k
    · subst h1; simp
    · by_cases h2 : "n_cols" = k
      · subst h2; simp
      · simp [h1, h2]

end Calk
