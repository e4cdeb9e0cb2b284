import Verif.Props.Readers
import Verif.Props.DatasetTrue

/-!
# Property C129: the settings that reach the file reader

`files.solve` and `files.calibrate` pass exactly eight of their settings on to `read_dat`; a data set
passes on those of its row, else those of the call.
-/

namespace Calk
open Flt

namespace Spec

/-- the settings of `read_dat` -/
def readingOptions : List String :=
  ["file_type", "delimiter", "skip_header", "col_titrant_amount", "col_measurement", "col_temperature",
    "n_cols", "encoding"]

/-- what the reader is to be given of the settings of a call -/
def readerGets (kw : Dict Val) : Dict Val := kw.filter fun kv => readingOptions.contains kv.1

/-- the file of a call: in the directory `file_path` if that is given -/
def IsFile (n : String) (kw : Dict Val) (g : String) : Prop :=
  (kw.get? "file_path" = none ∧ g = n) ∨ ∃ p, kw.get? "file_path" = some (.str p) ∧ g = pathJoin p n

end Spec

theorem reader_keys (k : String) : keys_read_dat.contains k = Spec.readingOptions.contains k := by
  have h : ∀ a b : List String, (∀ k ∈ a, k ∈ b) → (∀ k ∈ b, k ∈ a) → ∀ k, a.contains k = b.contains k := by
    intro a b h1 h2 k
    rw [Bool.eq_iff_iff, List.contains_iff_mem, List.contains_iff_mem]
    exact ⟨h1 k, h2 k⟩
  exact h _ _ (by decide) (by decide) k

theorem readerGets_eq (kw : Dict Val) : get_kwargs_for keys_read_dat kw none = Spec.readerGets kw := by
  unfold Spec.readerGets get_kwargs_for
  simp only [reader_keys]

theorem load_reads (w : World) {n g : String} (S : Flt) {kw : Dict Val} (hg : Spec.IsFile n kw g) :
    load { w with readDat := fun _ _ => w.readDat g (Spec.readerGets kw) } n S kw = load w n S kw := by
  have hf : full_name n kw = .ok g := by
    unfold full_name
    rcases hg with ⟨h1, rfl⟩ | ⟨p, h1, rfl⟩ <;> rw [h1]
  unfold load
  rw [hf]
  simp only [bind_ok, readerGets_eq]
  rfl

/-- **C129**: `files.solve` and `files.calibrate` use of the file reader exactly what it returns for the
file (in the directory `file_path`, if given) with the reading options among the settings of the call:
all of those, and no others.  If the reader fails, so do they, with the same exception. -/
theorem C129_file (w : World) (n g : String) (c cert S : Flt) (kw : Dict Val) (hg : Spec.IsFile n kw g) :
    files_solve w n c S kw
      = files_solve { w with readDat := fun _ _ => w.readDat g (Spec.readerGets kw) } n c S kw ∧
    files_calibrate w n cert S kw
      = files_calibrate { w with readDat := fun _ _ => w.readDat g (Spec.readerGets kw) } n cert S kw ∧
    ∀ e, w.readDat g (Spec.readerGets kw) = .error e →
      files_solve w n c S kw = .error e ∧ files_calibrate w n cert S kw = .error e := by
  have hl := load_reads w S hg
  refine ⟨?_, ?_, fun e he => ?_⟩
  · unfold files_solve; rw [hl]; rfl
  · unfold files_calibrate; rw [hl]; rfl
  · have : load w n S kw = .error e := by
      rw [← hl]
      unfold load
      have hf : full_name n kw = .ok g := by
        unfold full_name
        rcases hg with ⟨h1, rfl⟩ | ⟨p, h1, rfl⟩ <;> rw [h1]
      simp only [hf, bind_ok, he]
      rfl
    unfold files_solve files_calibrate
    rw [this]
    exact ⟨rfl, rfl⟩

/-- the directory and file of a row, and the reading options it is read with: those in its own cells,
else those of the call -/
structure Spec.RowReads (kwb : Dict Val) (cols : List String) (r : Row) (f g : String) (opts : Dict Val) :
    Prop where
  file : ((ownCell cols r "file_path").or (kwb.get? "file_path") = none ∧ g = f) ∨
    ∃ p, (ownCell cols r "file_path").or (kwb.get? "file_path") = some (.str p) ∧ g = pathJoin p f
  options : ∀ k, opts.get? k
    = if k ∈ Spec.readingOptions then (ownCell cols r k).or (kwb.get? k) else none

theorem setting_plain (w : World) (kwb : Dict Val) (cols : List String) (r : Row) {k : String}
    (hk : k ∈ "file_path" :: Spec.readingOptions) :
    setting w kwb cols r k = (ownCell cols r k).or (kwb.get? k) := by
  have h := (by decide : ∀ k ∈ "file_path" :: Spec.readingOptions, k ≠ "titrant_amount_unit" ∧
    k ≠ "opt_total_borate" ∧ k ∉ ["total_sulfate", "total_borate", "total_fluoride"]) k hk
  unfold setting supplied
  rw [if_neg h.1, if_neg h.2.1, if_neg h.2.2, Option.or_none]

theorem rowReads {w : World} (hw : ByName w) {keys : List String}
    (hkeys : ∀ k ∈ "file_path" :: Spec.readingOptions, k ∈ keys)
    {kwb st opts : Dict Val} {cols : List String} {r : Row} {f g : String}
    (hst : ∀ k, st.get? k = if k ∈ keys then setting w kwb cols r k else none)
    (h : Spec.RowReads kwb cols r f g opts) :
    Spec.IsFile f st g ∧ w.readDat g (Spec.readerGets st) = w.readDat g opts := by
  constructor
  · unfold Spec.IsFile
    rw [hst, if_pos (hkeys _ (by simp)), setting_plain w kwb cols r (by simp)]
    exact h.file
  · refine hw _ _ _ fun k => ?_
    have e : (Spec.readerGets st).get? k = if Spec.readingOptions.contains k then st.get? k else none :=
      Dict.get?_filter (fun k => Spec.readingOptions.contains k) st k
    rw [e, h.options, hst]
    by_cases hk : k ∈ Spec.readingOptions
    · rw [if_pos (by simpa using hk), if_pos (hkeys k (by simp [hk])), if_pos hk,
        setting_plain w kwb cols r (by simp [hk])]
    · rw [if_neg (by simpa using hk), if_neg hk]

/-- **C129**: each row of a data set is solved from what the reader returns for the row's file with the
reading options of the row and, where it has none, those of the call; the row is blank if the reader
fails. -/
theorem C129_row (w : World) (hw : ByName w) (kw : Dict Val) (df df' : DF)
    (h : dataset_solve w kw df = (.ok (), df')) :
    List.Forall₂ (fun r r' => ∀ (f g : String) (c S : Flt) (kwb opts : Dict Val),
      "file_name" ∈ df.cols → r "file_name" = .str f → r "titrant_molinity" = .num c → c ≠ nan →
      r "salinity" = .num S → ("file_good" ∈ df.cols → Spec.Counts (r "file_good")) →
      backcompat kw (rowDict df.cols r) = .ok kwb → Spec.RowReads kwb df.cols r f g opts →
      ∃ st : Dict Val,
        (∀ k, st.get? k = if k ∈ keys_solve then setting w kwb df.cols r k else none) ∧
        (∀ sr, files_solve { w with readDat := fun _ _ => w.readDat g opts } f c S st = .ok sr → Reports r' sr) ∧
        (∀ e, files_solve { w with readDat := fun _ _ => w.readDat g opts } f c S st = .error e → Blank r') ∧
        (∀ e, w.readDat g opts = .error e → Blank r')) df.rows df'.rows := by
  refine (C96_solve w kw df df' h).imp fun r r' hr f g c S kwb opts h1 h2 h3 h4 h5 h6 h7 h8 => ?_
  obtain ⟨st, -, hst, hok, herr⟩ := hr f c S kwb h1 h2 h3 h4 h5 h6 h7
  obtain ⟨hg, hread⟩ := rowReads hw (by decide +kernel) hst h8
  obtain ⟨e1, -, e3⟩ := C129_file w f g c c S st hg
  rw [hread] at e1 e3
  exact ⟨st, hst, fun sr hs => hok sr (e1.trans hs), fun e he => herr e (e1.trans he),
    fun e he => herr e (e3 e he).1⟩

/-- **C129**: the same for calibrating each row. -/
theorem C129_calibrate (w : World) (hw : ByName w) (kw : Dict Val) (df df' : DF)
    (h : dataset_calibrate w kw df = (.ok (), df')) :
    List.Forall₂ (fun r r' => ∀ (f g : String) (cert S : Flt) (kwb opts : Dict Val),
      "file_name" ∈ df.cols → r "file_name" = .str f → r "alkalinity_certified" = .num cert → cert ≠ nan →
      r "salinity" = .num S → ("file_good" ∈ df.cols → Spec.Counts (r "file_good")) →
      backcompat kw (rowDict df.cols r) = .ok kwb → Spec.RowReads kwb df.cols r f g opts →
      ∃ st : Dict Val,
        (∀ k, st.get? k = if k ∈ keys_calibrate then setting w kwb df.cols r k else none) ∧
        (∀ cal, files_calibrate { w with readDat := fun _ _ => w.readDat g opts } f cert S st = .ok cal →
          r' "titrant_molinity_here" = .num cal.x) ∧
        (∀ e, w.readDat g opts = .error e → r' "titrant_molinity_here" = .num nan)) df.rows df'.rows := by
  refine (C97_calibrate w kw df df' h).imp fun r r' hr f g cert S kwb opts h1 h2 h3 h4 h5 h6 h7 h8 => ?_
  obtain ⟨st, -, hst, hok, herr⟩ := hr f cert S kwb h1 h2 h3 h4 h5 h6 h7
  obtain ⟨hg, hread⟩ := rowReads hw (by decide +kernel) hst h8
  obtain ⟨-, e2, e3⟩ := C129_file w f g cert cert S st hg
  rw [hread] at e2 e3
  exact ⟨st, hst, fun cal hs => hok cal (e2.trans hs), fun e he => herr e (e3 e he).2⟩

/-! ## Cases -/

/-- A file in a directory, with its own delimiter and a pH window: the reader gets the delimiter but not
the window, and if it cannot read the file, solving it fails. -/
example (w : World) (c S : Flt)
    (h : w.readDat "data/a.csv" [("delimiter", .str ";"), ("skip_header", .num (fin 1))] = .error .ValueError) :
    files_solve w "a.csv" c S [("file_path", .str "data"), ("pH_min", .num (fin 3)), ("delimiter", .str ";"),
      ("skip_header", .num (fin 1))] = .error .ValueError := by
  have hg : Spec.IsFile "a.csv" [("file_path", .str "data"), ("pH_min", .num (fin 3)), ("delimiter", .str ";"),
      ("skip_header", .num (fin 1))] "data/a.csv" := .inr ⟨"data", rfl, by decide⟩
  exact ((C129_file w _ _ c c S _ hg).2.2 _ h).1

/-- The row of C97: calibrated from its file, read without options. -/
example : ∃ df' r', dataset_calibrate gWorld [] (gFrame true) = (.ok (), df') ∧ df'.rows = [r'] ∧
    ∃ st : Dict Val, ∀ cal, files_calibrate { gWorld with readDat := fun _ _ => gWorld.readDat "a.dat" [] }
      "a.dat" (fin gAlk) (fin 35) st = .ok cal → r' "titrant_molinity_here" = .num cal.x := by
  obtain ⟨df', r', h, hr, hm, -⟩ := g_calibrated
  refine ⟨df', r', h, hr, ?_⟩
  have hall := C129_calibrate gWorld (fun f a b _ => rfl) [] (gFrame true) df' h
  rw [hr] at hall
  rcases hall with _ | ⟨h0, -⟩
  have hn : ∀ k ∈ "file_path" :: Spec.readingOptions, k ∉ gCols := by decide
  have ho : ∀ k ∈ "file_path" :: Spec.readingOptions, ownCell gCols (gRow true) k = none := by
    intro k hk
    unfold ownCell
    rw [if_neg fun h => hn k hk h.1]
  obtain ⟨st, -, hok, -⟩ := h0 "a.dat" "a.dat" (fin gAlk) (fin 35) [] []
    (show "file_name" ∈ gCols by decide) rfl rfl (by simp) rfl (fun _ => truthy_iff.mp rfl)
    (by with_unfolding_all rfl)
    ⟨.inl ⟨by
        show (ownCell gCols (gRow true) "file_path").or _ = none
        rw [ho _ (by simp)]; rfl, rfl⟩, fun k => by
      show none = _
      split_ifs with hk
      · show none = (ownCell gCols (gRow true) k).or _
        rw [ho k (by simp [hk])]; rfl
      · rfl⟩
  exact ⟨st, hok⟩

end Calk
