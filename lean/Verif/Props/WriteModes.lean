import Verif.Props.Read

/-!
# Property C126: writing over a file and adding to it
-/

namespace Calk
open Flt

/-- **C126**, mode "w": whatever was in the file before, what is read from it afterwards is the
titration written, each value rounded; no other file changes. -/
theorem C126_overwrite (fs : FS) (pd : Pandas) (path : String) (a m t : List Flt) (line0 line1 : String)
    (k0 k1 k2 : ℕ) (h0 : OneLine line0) (h1 : OneLine line1)
    (hn : 2 ≤ min a.length (min m.length t.length)) :
    ∃ fs' d, write_dat path a m t line0 line1 "w" k0 k1 k2 fs = (.ok (), fs') ∧
      (∀ f, f ≠ path → fs' f = fs f) ∧ read_dat fs' pd path [] = .ok (.dat d) ∧
      ColumnRounded k0 (min a.length (min m.length t.length)) a d.titrant_amount ∧
      ColumnRounded k1 (min a.length (min m.length t.length)) m d.measurement ∧
      ColumnRounded k2 (min a.length (min m.length t.length)) t d.temperature := by
  have hc := columns_rounded k0 k1 k2 a m t
  refine ⟨fun f => if f = path then some (datText line0.toList line1.toList k0 k1 k2
      (a.zip (m.zip t))) else fs f, _, ?_, ?_, read_points (k0 := k0) (k1 := k1) (k2 := k2)
      (ps := a.zip (m.zip t)) h0 h1 (by rw [zip3_length]; exact hn) (by simp), hc⟩
  · unfold write_dat openWrite
    rw [if_neg (by decide), if_pos rfl]
    rfl
  · intro f hf
    simp [hf]

/-- **C126**, mode "a": the contents that the file had, if any, are kept, and followed by exactly what
mode "x" writes to a new file; no other file changes. -/
theorem C126_append (fs fs0 : FS) (path path0 : String) (a m t : List Flt) (line0 line1 : String)
    (k0 k1 k2 : ℕ) (hnew : fs0 path0 = none) :
    ∃ fs' fs0' text, write_dat path a m t line0 line1 "a" k0 k1 k2 fs = (.ok (), fs') ∧
      write_dat path0 a m t line0 line1 "x" k0 k1 k2 fs0 = (.ok (), fs0') ∧ fs0' path0 = some text ∧
      fs' path = some ((fs path).getD [] ++ text) ∧ ∀ f, f ≠ path → fs' f = fs f := by
  refine ⟨fun f => if f = path then some ((fs path).getD [] ++ datText line0.toList line1.toList k0 k1 k2
      (a.zip (m.zip t))) else fs f,
    fun f => if f = path0 then some (datText line0.toList line1.toList k0 k1 k2 (a.zip (m.zip t)))
      else fs0 f, datText line0.toList line1.toList k0 k1 k2 (a.zip (m.zip t)), ?_, ?_, ?_, ?_, ?_⟩
  · unfold write_dat openWrite
    rw [if_neg (by decide), if_neg (by decide), if_pos rfl]
  · unfold write_dat openWrite
    rw [if_pos rfl, hnew]
    rfl
  · simp
  · simp
  · intro f hf
    simp [hf]

theorem lines_append (l0 l1 l0' l1' : String) (k0 k1 k2 k0' k1' k2' : ℕ) (ps ps' : List (Flt × Flt × Flt))
    (h0 : OneLine l0) (h1 : OneLine l1) (h0' : OneLine l0') (h1' : OneLine l1') :
    fileLines (universal (datText l0.toList l1.toList k0 k1 k2 ps ++
      datText l0'.toList l1'.toList k0' k1' k2' ps'))
      = (l0.toList :: l1.toList :: ps.map (pointLine k0 k1 k2)) ++
        (l0'.toList :: l1'.toList :: ps'.map (pointLine k0' k1' k2')) := by
  rw [universal_id, datText_lines, datText_lines, ← List.flatten_append, ← List.map_append,
    fileLines_lines]
  · intro l hl
    have key : ∀ (a b : String) (i j k : ℕ) (qs : List (Flt × Flt × Flt)), OneLine a → OneLine b →
        l ∈ a.toList :: b.toList :: qs.map (pointLine i j k) → '\n' ∉ l := by
      intro a b i j k qs ha hb h
      rcases List.mem_cons.mp h with rfl | h
      · exact ha.1
      rcases List.mem_cons.mp h with rfl | h
      · exact hb.1
      obtain ⟨p, _, rfl⟩ := List.mem_map.mp h
      exact pointLine_not (by decide) (by decide)
    rcases List.mem_append.mp hl with h | h
    · exact key _ _ _ _ _ _ h0 h1 h
    · exact key _ _ _ _ _ _ h0' h1' h
  · rw [List.mem_append, not_or]
    exact ⟨datText_no_cr h0 h1, datText_no_cr h0' h1'⟩

/-- reading rows of unequal lengths fails -/
theorem genRows_unequal {text : List Char} {n : ℕ} {a b : List Char} (ha : a ∈ (fileLines text).drop n)
    (hb : b ∈ (fileLines text).drop n) (h1 : splitLine '\t' a ≠ []) (h2 : splitLine '\t' b ≠ [])
    (h : (splitLine '\t' a).length ≠ (splitLine '\t' b).length) :
    genRows '\t' n text = .error .ValueError := by
  unfold genRows
  have hmem : ∀ l ∈ (fileLines text).drop n, splitLine '\t' l ≠ [] →
      splitLine '\t' l ∈ ((((fileLines text).drop n).map (splitLine '\t')).filter fun vs => !vs.isEmpty) := by
    intro l hl hne
    rw [List.mem_filter]
    refine ⟨List.mem_map_of_mem hl, ?_⟩
    cases hs : splitLine '\t' l with
    | nil => exact absurd hs hne
    | cons => rfl
  have ma := hmem a ha h1
  have mb := hmem b hb h2
  generalize ((((fileLines text).drop n).map (splitLine '\t')).filter fun vs => !vs.isEmpty) = rows at ma mb
  cases rows with
  | nil => simp at ma
  | cons first rest =>
    simp only
    rw [if_neg]
    intro hall
    rw [List.all_eq_true] at hall
    have e1 := hall _ ma
    have e2 := hall _ mb
    simp only [beq_iff_eq] at e1 e2
    exact h (e1.trans e2.symm)

/-- **C126**: a second titration added with its default header lines to a file that `write_dat` wrote
makes the file unreadable: `read_dat` raises `ValueError`, whatever the points. -/
theorem C126_added (fs fs1 fs2 : FS) (pd : Pandas) (path : String) (a m t a' m' t' : List Flt)
    (line0 line1 : String) (k0 k1 k2 : ℕ) (h0 : OneLine line0) (h1 : OneLine line1)
    (hx : write_dat path a m t line0 line1 "x" k0 k1 k2 fs = (.ok (), fs1))
    (ha : (write_dat path a' m' t' (mode := "a") : PyS FS Unit) fs1 = (.ok (), fs2)) :
    read_dat fs2 pd path [] = .error .ValueError := by
  have e1 : fs1 path = some (datText line0.toList line1.toList k0 k1 k2 (a.zip (m.zip t))) := by
    unfold write_dat openWrite at hx
    rw [if_pos rfl] at hx
    cases hf : fs path with
    | some x => rw [hf] at hx; cases hx
    | none =>
      rw [hf] at hx
      simp only [List.nil_append, Prod.mk.injEq, true_and] at hx
      rw [← hx]
      simp
  have e2 : fs2 path = some (datText line0.toList line1.toList k0 k1 k2 (a.zip (m.zip t)) ++
      datText "Titration data exported by Calkulate".toList
        "titrant_amount\tmeasurement\ttemperature".toList 3 3 3 (a'.zip (m'.zip t'))) := by
    unfold write_dat openWrite at ha
    rw [if_neg (by decide), if_neg (by decide), if_pos rfl] at ha
    simp only [Prod.mk.injEq, true_and] at ha
    rw [← ha]
    simp [e1]
  have hd0 : OneLine "Titration data exported by Calkulate" := by constructor <;> decide
  have hd1 : OneLine "titrant_amount\tmeasurement\ttemperature" := by constructor <;> decide
  have hlines := lines_append line0 line1 _ _ k0 k1 k2 3 3 3 (a.zip (m.zip t)) (a'.zip (m'.zip t')) h0 h1
    hd0 hd1
  have hrows : genRows '\t' 2 (universal (datText line0.toList line1.toList k0 k1 k2 (a.zip (m.zip t)) ++
      datText "Titration data exported by Calkulate".toList
        "titrant_amount\tmeasurement\ttemperature".toList 3 3 3 (a'.zip (m'.zip t'))))
      = .error .ValueError := by
    refine genRows_unequal (a := "Titration data exported by Calkulate".toList)
      (b := "titrant_amount\tmeasurement\ttemperature".toList) ?_ ?_ (by decide) (by decide) (by decide)
    · rw [hlines]; simp
    · rw [hlines]; simp
  have hg : read_dat_genfromtxt fs2 path 0 1 2 '\t' 2 = .error .ValueError := by
    unfold read_dat_genfromtxt readText
    rw [e2]
    simp only [bind_ok, hrows]
    rfl
  have hc : chooseReader (argVal [] "file_type" (.str "genfromtxt")) = .ok (.genfromtxt, none) := rfl
  unfold read_dat
  rw [hc]
  simp only [bind_ok, List.filter_nil]
  unfold callReader
  have ha : acceptOnly ["col_titrant_amount", "col_measurement", "col_temperature", "delimiter",
      "skip_header", "encoding"] [] = .ok () := rfl
  have hi : ∀ k d, argInt [] k d = .ok d := fun k d => rfl
  have hdl : argDelimiter [] = .ok '\t' := rfl
  simp only [ha, hi, hdl, bind_ok]
  rw [show (2 : ℤ).toNat = 2 from rfl, hg]
  rfl

/-- write a titration, write another one over it, add a third -/
example (pd : Pandas) : ∃ fs1 fs2 fs3 d,
    (write_dat "a.dat" [fin 0, fin 1] [fin 400, fin 410] [fin 25, fin 25] : PyS FS Unit) (fun _ => none) = (.ok (), fs1) ∧
    (write_dat "a.dat" [fin 0, fin 1, fin 2] [fin 400, fin 410, fin 420] [fin 20, fin 20, fin 20]
      (mode := "w") : PyS FS Unit) fs1 = (.ok (), fs2) ∧
    read_dat fs2 pd "a.dat" [] = .ok (.dat d) ∧ d.titrant_amount.length = 3 ∧
    (write_dat "a.dat" [fin 5] [fin 400] [fin 25] (mode := "a") : PyS FS Unit) fs1 = (.ok (), fs3) ∧
    read_dat fs3 pd "a.dat" [] = .error .ValueError := by
  obtain ⟨fs1, -, -, h1, -⟩ := C54_contents (fun _ => none) "a.dat" [fin 0, fin 1] [fin 400, fin 410]
    [fin 25, fin 25] "Titration data exported by Calkulate" "titrant_amount\tmeasurement\ttemperature" 3 3 3
    (by constructor <;> decide) (by constructor <;> decide) rfl
  obtain ⟨fs2, d, h2, -, h3, h4, -⟩ := C126_overwrite fs1 pd "a.dat" [fin 0, fin 1, fin 2]
    [fin 400, fin 410, fin 420] [fin 20, fin 20, fin 20] "Titration data exported by Calkulate"
    "titrant_amount\tmeasurement\ttemperature" 3 3 3
    (by constructor <;> decide) (by constructor <;> decide) (by decide)
  obtain ⟨fs3, -, -, h5, -⟩ := C126_append fs1 (fun _ => none) "a.dat" "b.dat" [fin 5] [fin 400] [fin 25]
    "Titration data exported by Calkulate" "titrant_amount\tmeasurement\ttemperature" 3 3 3 rfl
  exact ⟨fs1, fs2, fs3, d, h1, h2, h3, h4.1, h5, C126_added _ fs1 fs3 pd _ _ _ _ _ _ _ _ _ 3 3 3
    (by constructor <;> decide) (by constructor <;> decide) h1 h5⟩

end Calk
