import Verif.Lemmas.Text
import Verif.Lemmas.Dataset
import Verif.Model.Read

/-! # Reading and writing titration files (C53–C58, C73, C74) -/

namespace Calk
open Flt

/-! ## Writing (C54) -/

/-- a header without line breaks -/
def OneLine (s : String) : Prop := '\n' ∉ s.toList ∧ '\r' ∉ s.toList

/-- the line of a point, without its end -/
noncomputable def pointLine (k0 k1 k2 : ℕ) (p : Flt × Flt × Flt) : List Char :=
  fmtF k0 p.1 ++ '\t' :: (fmtF k1 p.2.1 ++ '\t' :: fmtF k2 p.2.2)

theorem datLine_point (k0 k1 k2 : ℕ) (p : Flt × Flt × Flt) :
    datLine k0 k1 k2 p = pointLine k0 k1 k2 p ++ ['\n'] := by
  simp [datLine, pointLine]

theorem pointLine_chars (k0 k1 k2 : ℕ) (p : Flt × Flt × Flt) :
    ∀ c ∈ pointLine k0 k1 k2 p, numChar c = true ∨ c = '\t' := by
  intro c hc
  simp only [pointLine, List.mem_append, List.mem_cons] at hc
  rcases hc with hc | rfl | hc | rfl | hc
  · exact .inl (fmtF_chars _ _ c hc)
  · exact .inr rfl
  · exact .inl (fmtF_chars _ _ c hc)
  · exact .inr rfl
  · exact .inl (fmtF_chars _ _ c hc)

theorem pointLine_not {k0 k1 k2 : ℕ} {p : Flt × Flt × Flt} {d : Char}
    (hd : d.toNat < 45 ∧ d.toNat ≠ 0) (ht : d ≠ '\t') : d ∉ pointLine k0 k1 k2 p := by
  intro h
  rcases pointLine_chars k0 k1 k2 p d h with h | h
  · exact numChar_ne h hd rfl
  · exact ht h

theorem datText_lines (line0 line1 : List Char) (k0 k1 k2 : ℕ) (ps : List (Flt × Flt × Flt)) :
    datText line0 line1 k0 k1 k2 ps
      = ((line0 :: line1 :: ps.map (pointLine k0 k1 k2)).map (· ++ ['\n'])).flatten := by
  unfold datText
  simp only [List.map_cons, List.flatten_cons, List.map_map, List.append_assoc]
  have : (fun x => x ++ ['\n']) ∘ pointLine k0 k1 k2 = datLine k0 k1 k2 :=
    funext fun p => (datLine_point k0 k1 k2 p).symm
  rw [this]

theorem datText_no_cr {line0 line1 : String} {k0 k1 k2 : ℕ} {ps : List (Flt × Flt × Flt)}
    (h0 : OneLine line0) (h1 : OneLine line1) :
    '\r' ∉ datText line0.toList line1.toList k0 k1 k2 ps := by
  rw [datText_lines]
  intro h
  obtain ⟨l, hl, hr⟩ := List.mem_flatten.mp h
  obtain ⟨l', hl', rfl⟩ := List.mem_map.mp hl
  rcases List.mem_append.mp hr with hr | hr
  · rcases List.mem_cons.mp hl' with rfl | hl'
    · exact h0.2 hr
    rcases List.mem_cons.mp hl' with rfl | hl'
    · exact h1.2 hr
    obtain ⟨p, _, rfl⟩ := List.mem_map.mp hl'
    exact pointLine_not (by decide) (by decide) hr
  · exact absurd (List.mem_singleton.mp hr) (by decide)

theorem datText_fileLines {line0 line1 : String} {k0 k1 k2 : ℕ} {ps : List (Flt × Flt × Flt)}
    (h0 : OneLine line0) (h1 : OneLine line1) :
    fileLines (universal (datText line0.toList line1.toList k0 k1 k2 ps))
      = line0.toList :: line1.toList :: ps.map (pointLine k0 k1 k2) := by
  rw [universal_id (datText_no_cr h0 h1), datText_lines, fileLines_lines]
  intro l hl
  rcases List.mem_cons.mp hl with rfl | hl
  · exact h0.1
  rcases List.mem_cons.mp hl with rfl | hl
  · exact h1.1
  obtain ⟨p, _, rfl⟩ := List.mem_map.mp hl
  exact pointLine_not (by decide) (by decide)

/-- **C54**: a new file gets the two header lines and one line per complete point; no other file
changes. -/
theorem C54_contents (fs : FS) (path : String) (a m t : List Flt) (line0 line1 : String)
    (k0 k1 k2 : ℕ) (h0 : OneLine line0) (h1 : OneLine line1) (hnew : fs path = none) :
    ∃ fs' text lines, write_dat path a m t line0 line1 "x" k0 k1 k2 fs = (.ok (), fs') ∧
      fs' path = some text ∧ (∀ f, f ≠ path → fs' f = fs f) ∧
      fileLines (universal text) = line0.toList :: line1.toList :: lines ∧
      lines.length = min a.length (min m.length t.length) := by
  refine ⟨fun f => if f = path then some (datText line0.toList line1.toList k0 k1 k2
      (a.zip (m.zip t))) else fs f, datText line0.toList line1.toList k0 k1 k2 (a.zip (m.zip t)),
    (a.zip (m.zip t)).map (pointLine k0 k1 k2), ?_, ?_, ?_, datText_fileLines h0 h1, ?_⟩
  · unfold write_dat openWrite
    rw [if_pos rfl, hnew]
    rfl
  · simp
  · intro f hf
    simp [hf]
  · simp

/-- **C54**: with the default mode an existing file is left alone. -/
theorem C54_exists (fs : FS) (path : String) (a m t : List Flt) (line0 line1 : String)
    (k0 k1 k2 : ℕ) (text : List Char) (h : fs path = some text) :
    write_dat path a m t line0 line1 "x" k0 k1 k2 fs = (.error .FileExistsError, fs) := by
  unfold write_dat openWrite
  rw [if_pos rfl, h]

/-! ## Reading back (C53) -/

/-- `y` is `x` rounded to `k` decimals, what is exactly between two such numbers to the one with an even
last digit; NaN and infinities are kept -/
def Rounded (k : ℕ) : Flt → Flt → Prop
  | .fin x, .fin y => (∃ z : ℤ, y = z / 10 ^ k ∧ (|x - y| = (1 / 2) / 10 ^ k → Even z)) ∧
      |x - y| ≤ (1 / 2) / 10 ^ k
  | .nan, .nan => True
  | .pinf, .pinf => True
  | .ninf, .ninf => True
  | _, _ => False

theorem rounded_roundedTo (k : ℕ) (x : Flt) : Rounded k x (roundedTo k x) := by
  cases x with
  | nan => trivial
  | pinf => trivial
  | ninf => trivial
  | fin x =>
    have hk : (0 : ℝ) < 10 ^ k := by positivity
    have hc := roundHalfEven_close (x := |x| * 10 ^ k) (by positivity)
    have he := roundHalfEven_even (x := |x| * 10 ^ k) (by positivity)
    generalize hq : roundHalfEven (|x| * 10 ^ k) = q at hc he
    simp only [roundedTo, Rounded, hq]
    have e : |x| - q / 10 ^ k = (|x| * 10 ^ k - q) / 10 ^ k := by field_simp
    have hc' : |(|x| - q / 10 ^ k)| ≤ (1 / 2) / 10 ^ k := by
      rw [e, abs_div, abs_of_pos hk]
      gcongr
    have he' : |(|x| - q / 10 ^ k)| = (1 / 2) / 10 ^ k → Even (q : ℤ) := by
      rw [e, abs_div, abs_of_pos hk, div_left_inj' hk.ne']
      exact fun h => (Int.even_coe_nat q).mpr (he h)
    by_cases hx : x < 0
    · have ex : |x - -1 * (q / 10 ^ k)| = |(|x| - q / 10 ^ k)| := by
        rw [abs_of_neg hx, ← abs_neg]
        congr 1
        ring
      rw [if_pos hx, ex]
      exact ⟨⟨-(q : ℤ), by push_cast; ring, fun h => (he' h).neg⟩, hc'⟩
    · have ex : |x - 1 * (q / 10 ^ k)| = |(|x| - q / 10 ^ k)| := by
        rw [abs_of_nonneg (not_lt.mp hx), one_mul]
      rw [if_neg hx, ex]
      exact ⟨⟨(q : ℤ), by push_cast; ring, he'⟩, hc'⟩

theorem takeWhile_id {p : Char → Bool} {s : List Char} (h : ∀ c ∈ s, p c = true) :
    s.takeWhile p = s := by
  induction s with
  | nil => rfl
  | cons c s ih => rw [List.takeWhile_cons, h c (by simp), if_pos rfl, ih fun c hc => h c (by simp [hc])]

theorem splitLine_point (k0 k1 k2 : ℕ) (p : Flt × Flt × Flt) :
    splitLine '\t' (pointLine k0 k1 k2 p) = [fmtF k0 p.1, fmtF k1 p.2.1, fmtF k2 p.2.2] := by
  have h1 : (pointLine k0 k1 k2 p).takeWhile (· ≠ '#') = pointLine k0 k1 k2 p := by
    refine takeWhile_id fun c hc => ?_
    simp only [ne_eq, decide_not, Bool.not_eq_eq_eq_not, Bool.not_true, decide_eq_false_iff_not]
    rintro rfl
    exact pointLine_not (by decide) (by decide) hc
  have h2 : stripEnds (pointLine k0 k1 k2 p) = pointLine k0 k1 k2 p := stripBy_id fun c hc => by
    simp only [Bool.or_eq_false_iff, beq_eq_false_iff_ne]
    refine ⟨⟨?_, ?_⟩, ?_⟩ <;> rintro rfl <;> exact pointLine_not (by decide) (by decide) hc
  have h3 : (pointLine k0 k1 k2 p).isEmpty = false := by
    rw [List.isEmpty_eq_false_iff]
    simp [pointLine]
  have hn : ∀ k x, '\t' ∉ fmtF k x := fun k x h => numChar_ne (fmtF_chars k x _ h) (by decide) rfl
  unfold splitLine
  simp only [h1, h2, h3, Bool.false_eq_true, if_false]
  unfold pointLine
  rw [splitC_append (hn _ _), splitC_append (hn _ _), splitC_none (hn _ _)]

theorem genRows_points {line0 line1 : String} {k0 k1 k2 : ℕ} {ps : List (Flt × Flt × Flt)}
    (h0 : OneLine line0) (h1 : OneLine line1) :
    genRows '\t' 2 (universal (datText line0.toList line1.toList k0 k1 k2 ps))
      = .ok (ps.map fun p => [roundedTo k0 p.1, roundedTo k1 p.2.1, roundedTo k2 p.2.2]) := by
  unfold genRows
  rw [datText_fileLines h0 h1]
  have hr : ((((line0.toList :: line1.toList :: ps.map (pointLine k0 k1 k2)).drop 2).map
      (splitLine '\t')).filter fun vs => !vs.isEmpty)
      = ps.map fun p => [fmtF k0 p.1, fmtF k1 p.2.1, fmtF k2 p.2.2] := by
    simp only [List.drop_succ_cons, List.drop_zero, List.map_map]
    have : (splitLine '\t' ∘ pointLine k0 k1 k2)
        = fun p => [fmtF k0 p.1, fmtF k1 p.2.1, fmtF k2 p.2.2] :=
      funext fun p => splitLine_point k0 k1 k2 p
    rw [this, List.filter_eq_self]
    intro vs hvs
    obtain ⟨p, _, rfl⟩ := List.mem_map.mp hvs
    rfl
  simp only [hr]
  cases ps with
  | nil => rfl
  | cons p ps =>
    simp only [List.map_cons]
    rw [if_pos]
    · simp [looseFloat, parse_fmtF]
    · simp

/-- the columns of a table of points -/
theorem colAt_points (f g h : Flt → Flt) (ps : List (Flt × Flt × Flt)) (hn : 2 ≤ ps.length) :
    colAtSqueezed (ps.map fun p => [f p.1, g p.2.1, h p.2.2]) 0 = .ok (ps.map fun p => f p.1) ∧
    colAtSqueezed (ps.map fun p => [f p.1, g p.2.1, h p.2.2]) 1 = .ok (ps.map fun p => g p.2.1) ∧
    colAtSqueezed (ps.map fun p => [f p.1, g p.2.1, h p.2.2]) 2 = .ok (ps.map fun p => h p.2.2) := by
  have hd : ((ps.map fun p => [f p.1, g p.2.1, h p.2.2]).headD []).length = 3 := by
    cases ps with
    | nil => simp at hn
    | cons p ps => rfl
  unfold colAtSqueezed
  rw [hd, List.length_map, if_neg (by omega), if_neg (by omega), if_neg (by omega)]
  unfold colAt
  simp only [hd]
  refine ⟨?_, ?_, ?_⟩
  · simp [Function.comp_def]
  · simp [Function.comp_def]
  · simp [Function.comp_def]

/-- the three columns of what was written -/
theorem read_points {fs : FS} {pd : Pandas} {path : String} {line0 line1 : String} {k0 k1 k2 : ℕ}
    {ps : List (Flt × Flt × Flt)} (h0 : OneLine line0) (h1 : OneLine line1) (hn : 2 ≤ ps.length)
    (hfs : fs path = some (datText line0.toList line1.toList k0 k1 k2 ps)) :
    read_dat fs pd path [] = .ok (.dat
      { titrant_amount := ps.map fun p => roundedTo k0 p.1
        measurement := ps.map fun p => roundedTo k1 p.2.1
        temperature := ps.map fun p => roundedTo k2 p.2.2 }) := by
  have hc : chooseReader (argVal [] "file_type" (.str "genfromtxt")) = .ok (.genfromtxt, none) := rfl
  obtain ⟨e0, e1, e2⟩ := colAt_points (roundedTo k0) (roundedTo k1) (roundedTo k2) ps hn
  have hg : read_dat_genfromtxt fs path 0 1 2 '\t' 2 = .ok
      { titrant_amount := ps.map fun p => roundedTo k0 p.1
        measurement := ps.map fun p => roundedTo k1 p.2.1
        temperature := ps.map fun p => roundedTo k2 p.2.2 } := by
    unfold read_dat_genfromtxt readText
    rw [hfs]
    simp only [bind_ok, genRows_points h0 h1, e0, e1, e2, pure_ok]
  unfold read_dat
  rw [hc]
  simp only [bind_ok, List.filter_nil]
  unfold callReader
  have ha : acceptOnly ["col_titrant_amount", "col_measurement", "col_temperature", "delimiter",
      "skip_header", "encoding"] [] = .ok () := rfl
  have hi : ∀ k d, argInt [] k d = .ok d := fun k d => rfl
  have hdl : argDelimiter [] = .ok '\t' := rfl
  simp only [ha, hi, hdl, bind_ok]
  rw [show (2 : ℤ).toNat = 2 from rfl, hg]
  rfl

/-- columns agree point by point, up to rounding -/
def ColumnRounded (k n : ℕ) (xs ys : List Flt) : Prop :=
  ys.length = n ∧ ∀ i x, i < n → xs[i]? = some x → ∃ y, ys[i]? = some y ∧ Rounded k x y

theorem zip3_length (a m t : List Flt) :
    (a.zip (m.zip t)).length = min a.length (min m.length t.length) := by simp

theorem columns_rounded (k0 k1 k2 : ℕ) (a m t : List Flt) :
    let n := min a.length (min m.length t.length)
    ColumnRounded k0 n a ((a.zip (m.zip t)).map fun p => roundedTo k0 p.1) ∧
    ColumnRounded k1 n m ((a.zip (m.zip t)).map fun p => roundedTo k1 p.2.1) ∧
    ColumnRounded k2 n t ((a.zip (m.zip t)).map fun p => roundedTo k2 p.2.2) := by
  intro n
  have get : ∀ i, i < n → ∃ x y z, a[i]? = some x ∧ m[i]? = some y ∧ t[i]? = some z ∧
      (a.zip (m.zip t))[i]? = some (x, y, z) := by
    intro i hi
    have h1 : i < a.length := by omega
    have h2 : i < m.length := by omega
    have h3 : i < t.length := by omega
    exact ⟨a[i], m[i], t[i], List.getElem?_eq_getElem h1, List.getElem?_eq_getElem h2,
      List.getElem?_eq_getElem h3, by
        rw [List.getElem?_zip_eq_some]
        refine ⟨List.getElem?_eq_getElem h1, ?_⟩
        rw [List.getElem?_zip_eq_some]
        exact ⟨List.getElem?_eq_getElem h2, List.getElem?_eq_getElem h3⟩⟩
  refine ⟨⟨by simp [n], ?_⟩, ⟨by simp [n], ?_⟩, ⟨by simp [n], ?_⟩⟩ <;>
  · intro i v hi hv
    obtain ⟨x, y, z, ha, hm, ht, hz⟩ := get i hi
    refine ⟨_, by rw [List.getElem?_map, hz]; rfl, ?_⟩
    first
      | (rw [ha] at hv; cases hv; exact rounded_roundedTo _ _)
      | (rw [hm] at hv; cases hv; exact rounded_roundedTo _ _)
      | (rw [ht] at hv; cases hv; exact rounded_roundedTo _ _)

/-- **C53**: what `write_dat` writes to a new file, `read_dat` reads back: every complete point, in
order, each value rounded to the number of decimals written. -/
theorem C53_round_trip (fs : FS) (pd : Pandas) (path : String) (a m t : List Flt)
    (line0 line1 : String) (k0 k1 k2 : ℕ) (h0 : OneLine line0) (h1 : OneLine line1)
    (hnew : fs path = none) (hn : 2 ≤ min a.length (min m.length t.length)) :
    ∃ fs' d, write_dat path a m t line0 line1 "x" k0 k1 k2 fs = (.ok (), fs') ∧
      read_dat fs' pd path [] = .ok (.dat d) ∧
      ColumnRounded k0 (min a.length (min m.length t.length)) a d.titrant_amount ∧
      ColumnRounded k1 (min a.length (min m.length t.length)) m d.measurement ∧
      ColumnRounded k2 (min a.length (min m.length t.length)) t d.temperature := by
  have hc := columns_rounded k0 k1 k2 a m t
  refine ⟨fun f => if f = path then some (datText line0.toList line1.toList k0 k1 k2
      (a.zip (m.zip t))) else fs f, _, ?_, read_points (k0 := k0) (k1 := k1) (k2 := k2)
      (ps := a.zip (m.zip t)) h0 h1 (by rw [zip3_length]; exact hn) (by simp), hc⟩
  unfold write_dat openWrite
  rw [if_pos rfl, hnew]
  rfl

/-- **C53**, with the default settings: no value is off by more than 0.0005. -/
theorem C53_default (fs : FS) (pd : Pandas) (path : String) (a m t : List Flt)
    (hnew : fs path = none) (hm : m.length = a.length) (ht : t.length = a.length)
    (hn : 2 ≤ a.length) (ha : ∀ x ∈ a, ∃ r, x = fin r) (hmf : ∀ x ∈ m, ∃ r, x = fin r)
    (htf : ∀ x ∈ t, ∃ r, x = fin r) :
    ∃ fs' d, (write_dat path a m t : PyS FS Unit) fs = (.ok (), fs') ∧
      read_dat fs' pd path [] = .ok (.dat d) ∧
      List.Forall₂ (fun x y => ∃ r s, x = fin r ∧ y = fin s ∧ |r - s| ≤ 0.0005) a d.titrant_amount ∧
      List.Forall₂ (fun x y => ∃ r s, x = fin r ∧ y = fin s ∧ |r - s| ≤ 0.0005) m d.measurement ∧
      List.Forall₂ (fun x y => ∃ r s, x = fin r ∧ y = fin s ∧ |r - s| ≤ 0.0005) t d.temperature := by
  have hmin : min a.length (min m.length t.length) = a.length := by omega
  obtain ⟨fs', d, h1, h2, ca, cm, ct⟩ := C53_round_trip fs pd path a m t
    "Titration data exported by Calkulate" "titrant_amount\tmeasurement\ttemperature" 3 3 3
    (by constructor <;> decide) (by constructor <;> decide) hnew (by omega)
  rw [hmin] at ca cm ct
  have key : ∀ xs ys : List Flt, xs.length = a.length → (∀ x ∈ xs, ∃ r, x = fin r) →
      ColumnRounded 3 a.length xs ys →
      List.Forall₂ (fun x y => ∃ r s, x = fin r ∧ y = fin s ∧ |r - s| ≤ 0.0005) xs ys := by
    intro xs ys hl hx hc
    rw [List.forall₂_iff_get]
    refine ⟨by rw [hl, hc.1], fun i h1 h2 => ?_⟩
    obtain ⟨y, hy, hr⟩ := hc.2 i xs[i] (by omega) (List.getElem?_eq_getElem h1)
    obtain ⟨r, hr'⟩ := hx xs[i] (List.getElem_mem h1)
    rw [List.getElem?_eq_getElem h2, Option.some.injEq] at hy
    rw [hr'] at hr
    cases y with
    | fin s =>
      refine ⟨r, s, hr', hy, hr.2.trans ?_⟩
      norm_num
    | nan => exact absurd hr id
    | pinf => exact absurd hr id
    | ninf => exact absurd hr id
  exact ⟨fs', d, h1, h2, key a _ rfl ha ca, key m _ hm hmf cm, key t _ ht htf ct⟩

theorem roundedTo_again (k : ℕ) (x : Flt) : roundedTo k (roundedTo k x) = roundedTo k x := by
  cases x with
  | nan => rfl
  | pinf => rfl
  | ninf => rfl
  | fin x =>
    have hk : (0 : ℝ) < 10 ^ k := by positivity
    simp only [roundedTo]
    generalize roundHalfEven (|x| * 10 ^ k) = q
    have e : ∀ s : ℝ, |s| = 1 → |s * (q / 10 ^ k)| * 10 ^ k = q := by
      intro s hs
      rw [abs_mul, hs, one_mul, abs_of_nonneg (by positivity), div_mul_cancel₀ _ hk.ne']
    have e' : |(if x < 0 then -1 else (1 : ℝ)) * (q / 10 ^ k)| * 10 ^ k = q := by
      apply e
      split <;> simp
    rw [e', roundHalfEven_nat]
    congr 1
    by_cases hq : q = 0
    · simp [hq]
    have hq' : (0 : ℝ) < q / 10 ^ k := by positivity
    by_cases hx : x < 0
    · rw [if_pos hx, if_pos (by linarith)]
    · rw [if_neg hx, if_neg (by linarith)]

/-- **C53**: nothing more is lost the second time: data that have been written and read once come
back exactly. -/
theorem C53_stable (fs fs' : FS) (pd : Pandas) (path path' : String) (d : DatData)
    (line0 line1 : String) (h0 : OneLine line0) (h1 : OneLine line1) (hnew : fs path = none)
    (hnew' : fs' path' = none) (a m t : List Flt)
    (hn : 2 ≤ min a.length (min m.length t.length))
    (hr : read_dat (write_dat path a m t line0 line1 "x" 3 3 3 fs).2 pd path [] = .ok (.dat d)) :
    read_dat (write_dat path' d.titrant_amount d.measurement d.temperature line0 line1 "x" 3 3 3
      fs').2 pd path' [] = .ok (.dat d) := by
  have hfs0 : (write_dat path a m t line0 line1 "x" 3 3 3 fs).2 path
      = some (datText line0.toList line1.toList 3 3 3 (a.zip (m.zip t))) := by
    unfold write_dat openWrite
    rw [if_pos rfl, hnew]
    simp
  have hn0 : 2 ≤ (a.zip (m.zip t)).length := by rw [zip3_length]; exact hn
  rw [read_points h0 h1 hn0 hfs0] at hr
  cases hr
  generalize a.zip (m.zip t) = ps at *
  have hz : (ps.map fun p => roundedTo 3 p.1).zip ((ps.map fun p => roundedTo 3 p.2.1).zip
      (ps.map fun p => roundedTo 3 p.2.2))
      = ps.map fun p => (roundedTo 3 p.1, roundedTo 3 p.2.1, roundedTo 3 p.2.2) := by
    rw [List.zip_map', List.zip_map']
  have hw : (write_dat path' (ps.map fun p => roundedTo 3 p.1) (ps.map fun p => roundedTo 3 p.2.1)
      (ps.map fun p => roundedTo 3 p.2.2) line0 line1 "x" 3 3 3 fs').2 path'
      = some (datText line0.toList line1.toList 3 3 3
        (ps.map fun p => (roundedTo 3 p.1, roundedTo 3 p.2.1, roundedTo 3 p.2.2))) := by
    unfold write_dat openWrite
    rw [if_pos rfl, hnew', ← hz]
    simp
  rw [read_points h0 h1 (by simpa using hn0) hw]
  simp [Function.comp_def, roundedTo_again]

example : ∃ fs' d, write_dat "a.dat" [fin 0, fin 0.0005, fin 0.0015] [fin 400.12345, nan, fin 1]
      [fin 25, fin 25, fin (-3)] "Titration data exported by Calkulate"
      "titrant_amount\tmeasurement\ttemperature" "x" 3 3 3 (fun _ => none) = (.ok (), fs') ∧
    read_dat fs' ⟨fun _ _ => .error .ValueError, fun _ _ => [], fun _ => .error .ValueError⟩ "a.dat" []
      = .ok (.dat d) ∧ ColumnRounded 3 3 [fin 400.12345, nan, fin 1] d.measurement := by
  obtain ⟨fs', d, h1, h2, _, h3, _⟩ := C53_round_trip (fun _ => none)
    ⟨fun _ _ => .error .ValueError, fun _ _ => [], fun _ => .error .ValueError⟩ "a.dat"
    [fin 0, fin 0.0005, fin 0.0015] [fin 400.12345, nan, fin 1] [fin 25, fin 25, fin (-3)]
    "Titration data exported by Calkulate" "titrant_amount\tmeasurement\ttemperature" 3 3 3
    (by constructor <;> decide) (by constructor <;> decide) rfl (by decide)
  exact ⟨fs', d, h1, h2, h3⟩

/-! ## Reading tables (C55, C73) -/

/-- a line that holds data: something other than blanks before any `#` -/
def DataLine (l : List Char) : Prop :=
  ∃ c ∈ l.takeWhile (· ≠ '#'), c ≠ ' ' ∧ c ≠ '\r' ∧ c ≠ '\n'

theorem dropWhile_nil_iff (p : Char → Bool) (s : List Char) :
    s.dropWhile p = [] ↔ ∀ c ∈ s, p c = true := by
  induction s with
  | nil => simp
  | cons c s ih =>
    rw [List.dropWhile_cons]
    by_cases hc : p c = true
    · simp [hc, ih]
    · simp [hc]

theorem stripBy_nil_iff (p : Char → Bool) (s : List Char) :
    stripBy p s = [] ↔ ∀ c ∈ s, p c = true := by
  unfold stripBy
  rw [List.reverse_eq_nil_iff, dropWhile_nil_iff]
  constructor
  · intro h
    by_cases hs : s.dropWhile p = []
    · exact (dropWhile_nil_iff p s).mp hs
    · exfalso
      obtain ⟨c, t, hct⟩ := List.exists_cons_of_ne_nil hs
      have := h c (by rw [hct]; simp)
      have hnot := List.head_dropWhile_not p (l := s) hs
      simp only [hct, List.head_cons] at hnot
      rw [this] at hnot
      cases hnot
  · intro h c hc
    rw [(dropWhile_nil_iff p s).mpr h] at hc
    cases hc

theorem splitLine_nil_iff (d : Char) (l : List Char) : splitLine d l = [] ↔ ¬DataLine l := by
  unfold splitLine
  simp only
  constructor
  · intro h
    split at h
    · rename_i he
      rw [List.isEmpty_iff] at he
      rintro ⟨c, hc, h1, h2, h3⟩
      have := (stripBy_nil_iff _ _).mp he c hc
      simp [h1, h2, h3] at this
    · exact absurd h (splitC_ne_nil _ _)
  · intro h
    rw [if_pos]
    rw [List.isEmpty_iff]
    refine (stripBy_nil_iff _ _).mpr fun c hc => ?_
    by_contra hcon
    refine h ⟨c, hc, ?_⟩
    simpa [not_or, and_assoc] using hcon

open Classical in
/-- the data lines of a text -/
noncomputable def dataLines (skip : ℕ) (text : List Char) : List (List Char) :=
  ((fileLines (universal text)).drop skip).filter fun l => decide (DataLine l)

theorem rows_eq (d : Char) (skip : ℕ) (text : List Char) :
    (((fileLines (universal text)).drop skip).map (splitLine d)).filter (fun vs => !vs.isEmpty)
      = (dataLines skip text).map (splitLine d) := by
  classical
  unfold dataLines
  rw [List.filter_map]
  congr 1
  apply List.filter_congr
  intro l _
  rw [Bool.eq_iff_iff]
  simp [Function.comp_def, splitLine_nil_iff, List.isEmpty_iff]

theorem call_default (fs : FS) (pd : Pandas) (file : String) :
    read_dat fs pd file [] = (do
      let d ← read_dat_genfromtxt fs file 0 1 2 '\t' 2
      return .dat d) := by
  have hc : chooseReader (argVal [] "file_type" (.str "genfromtxt")) = .ok (.genfromtxt, none) := rfl
  unfold read_dat
  rw [hc]
  simp only [bind_ok, List.filter_nil]
  unfold callReader
  have ha : acceptOnly ["col_titrant_amount", "col_measurement", "col_temperature", "delimiter",
      "skip_header", "encoding"] [] = .ok () := rfl
  have hi : ∀ k d, argInt [] k d = .ok d := fun k d => rfl
  have hdl : argDelimiter [] = .ok '\t' := rfl
  simp only [ha, hi, hdl, bind_ok]
  rfl

/-- **C55**: a file with fewer than two data lines cannot be read. -/
theorem C55_single (fs : FS) (pd : Pandas) (file : String) (text : List Char)
    (h : fs file = some text) (hl : (dataLines 2 text).length ≤ 1) :
    read_dat fs pd file [] = .error .IndexError := by
  have hg : ∃ rows, genRows '\t' 2 (universal text) = .ok rows ∧ rows.length ≤ 1 := by
    unfold genRows
    simp only
    rw [rows_eq]
    generalize dataLines 2 text = ls at *
    match ls with
    | [] => exact ⟨[], rfl, by simp⟩
    | [l] => exact ⟨[(splitLine '\t' l).map looseFloat], by simp, by simp⟩
    | _ :: _ :: _ => simp at hl
  obtain ⟨rows, hr, hlen⟩ := hg
  rw [call_default]
  unfold read_dat_genfromtxt readText
  rw [h]
  simp only [bind_ok, hr]
  have : ∀ c, colAtSqueezed rows c = .error .IndexError := by
    intro c
    unfold colAtSqueezed
    rw [if_pos (.inl (by omega))]
  simp only [this, bind_error]

/-- **C55**: nor can a file that does not exist. -/
theorem C55_missing (fs : FS) (pd : Pandas) (file : String) (h : fs file = none) :
    read_dat fs pd file [] = .error .FileNotFoundError := by
  rw [call_default]
  unfold read_dat_genfromtxt readText
  rw [h]
  rfl

example : read_dat (fun _ => some "x\ny\n1\t2\t3\n# 4\t5\t6\n\n".toList)
    ⟨fun _ _ => .error .ValueError, fun _ _ => [], fun _ => .error .ValueError⟩ "f" [] = .error .IndexError := by
  classical
  refine C55_single _ _ _ _ rfl ?_
  have hf : fileLines (universal "x\ny\n1\t2\t3\n# 4\t5\t6\n\n".toList)
      = ["x".toList, "y".toList, "1\t2\t3".toList, "# 4\t5\t6".toList, []] := by decide
  unfold dataLines
  rw [hf]
  have h1 : ¬DataLine "# 4\t5\t6".toList := by
    rintro ⟨c, hc, _⟩
    simp at hc
  have h2 : ¬DataLine [] := by rintro ⟨c, hc, _⟩; cases hc
  simp only [List.drop_succ_cons, List.drop_zero, List.filter_cons, h1, h2, decide_false,
    List.filter_nil]
  split <;> simp

end Calk
