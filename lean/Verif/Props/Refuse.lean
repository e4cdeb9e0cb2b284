import Verif.Props.DatasetResults
import Verif.Props.Calibrate
import Verif.Props.SolveEmf
import Verif.Props.FileGran
import Verif.Props.DatasetTrue
import Verif.Props.Plot
import Verif.Props.FileEmf
import Verif.Props.FileErrors

/-!
# Property C125: how many points a result rests on
-/

namespace Calk
open Flt

namespace Spec

/-- not a finite number -/
def NotFinite (y : Flt) : Prop := ∀ x : ℝ, y ≠ fin x

/-- What `scipy.optimize.least_squares` (default method `trf`; settings.py:1 passes no options) refuses
with a `ValueError`: residuals that are not finite at the start, and start values that are no numbers.
It does not refuse to fit two unknowns to fewer than two residuals. -/
structure LsRefuses (ls : LsFun (Flt × Flt)) : Prop where
  bad : ∀ f x0 r, f x0 = .ok r → (∃ y ∈ r, NotFinite y) → ls f x0 = .error .ValueError
  start : ∀ f x0, x0.1 = nan ∨ x0.2 = nan → ls f x0 = .error .ValueError

/-- What it does when there is nothing to fit: the gradient is zero, and it stays where it starts. -/
def LsIdle (ls : LsFun (Flt × Flt)) : Prop :=
  ∀ f x0, x0.1 ≠ nan → x0.2 ≠ nan → (∀ x, f x = .ok []) → ls f x0 = .ok ⟨x0, []⟩

/-- The same for the one unknown of a calibration: the first evaluation is at the start value, and if
the residual there is not finite there are no others. -/
structure LsqRefuses (opt : Lsq Flt) : Prop where
  evaluates : 0 < opt.maxEval
  first : ∀ c : ℝ, opt.next (fin c) [] = some (fin c)
  bad : ∀ x0 r, (∃ y ∈ r, NotFinite y) →
    opt.next x0 [(x0, r)] = none ∧ opt.finish x0 [(x0, r)] = .error .ValueError

/-- the number of points that a result was found with -/
def pointsUsed : SolveRes → ℕ
  | .emf sr _ => sr.used.count true
  | .pH sr _ _ => sr.used.count true
  | .pH_gran sr _ _ => sr.used.count true

/-- how many it takes: two for a Gran line, one for the mean of pH mode, none for EMFs -/
def pointsNeeded : SolveRes → ℕ
  | .emf _ _ => 0
  | .pH _ _ _ => 1
  | .pH_gran _ _ _ => 2

end Spec

open Spec

/-! ## One titration -/

/-- what the optimiser's refusals leave of an EMF-mode result: a finite residual at the start for each
point in use -/
theorem emf_points {ls : LsFun (Flt × Flt)} (hls : LsRefuses ls) {c M : Flt} {tm emf T : List Flt}
    {totals ks : Dict NpVal} {o : EmfOpts} {double : Bool} {sr : SolveEmf}
    (h : solve_emf ls c tm emf T M totals ks o double = .ok sr) :
    sr.used.length = tm.length ∧
      ∃ n x0 al, al.length = tm.length ∧
        ∀ y ∈ mask sr.used (List.zipWith (resid c n M x0) al tm), ∃ x, y = fin x := by
  obtain ⟨o', -, -, -, h⟩ := solve_emf_last h
  obtain ⟨g, opt, hg, -, -, ht, hk, hopt, rfl⟩ := solve_emf_false_iff.mp h
  obtain ⟨h1, h2, -⟩ := gran_guesses_ok hg
  have hul := emfStart_used_length (o := o') hg
  have hf : emfProblem c o'.titrant_normality M tm emf T totals ks
      (emfStart o' g emf T).used ((emfStart o' g emf T).alk, (emfStart o' g emf T).emf0)
      = .ok (mask (emfStart o' g emf T).used (emfRes c o'.titrant_normality M tm emf T totals ks
      ((emfStart o' g emf T).alk, (emfStart o' g emf T).emf0))) := rfl
  refine ⟨hul.trans h1.symm, o'.titrant_normality, (emfStart o' g emf T).alk,
    alkList totals ks 3 (emf_to_pH_arr emf (emfStart o' g emf T).emf0 T), ?_, ?_⟩
  · simp [alkList_length, emf_to_pH_arr_length h2, h1]
  · by_contra hbad
    push Not at hbad
    have := hls.bad _ _ _ hf hbad
    rw [this] at hopt
    cases hopt

theorem resid_nan_c (n M A a m : Flt) : resid nan n M A a m = nan := by
  simp [resid, show m * nan = nan by cases m <;> rfl]

theorem resid_nan_M (c n A a m : Flt) : resid c n nan A a m = nan := by
  have h : m + nan = nan := by cases m <;> rfl
  have h' : ∀ y : Flt, y / nan = nan := by intro y; cases y <;> rfl
  simp [resid, h, h']

theorem resid_nan_m (c n M A a : Flt) : resid c n M A a nan = nan := by
  simp [resid]

theorem mask_zip_right {f : Flt → Flt → Flt} {u : List Bool} {al tm : List Flt}
    (hl : al.length = tm.length) {m : Flt} (hm : m ∈ mask u tm) :
    ∃ a, f a m ∈ mask u (List.zipWith f al tm) := by
  induction u generalizing al tm with
  | nil => simp at hm
  | cons b u ih =>
    cases tm with
    | nil => cases b <;> simp [mask] at hm
    | cons t tm =>
      cases al with
      | nil => simp at hl
      | cons a al =>
        have hl' : al.length = tm.length := by simpa using hl
        cases b with
        | false =>
          obtain ⟨a', h⟩ := ih hl' (by simpa using hm)
          exact ⟨a', by simpa using h⟩
        | true =>
          rcases (by simpa using hm : m = t ∨ m ∈ mask u tm) with rfl | h
          · exact ⟨a, by simp⟩
          · obtain ⟨a', h⟩ := ih hl' h
            exact ⟨a', by simpa using Or.inr h⟩

/-- none of the numbers behind an EMF-mode result is NaN -/
theorem emf_numbers {ls : LsFun (Flt × Flt)} (hls : LsRefuses ls) {c M : Flt} {tm emf T : List Flt}
    {totals ks : Dict NpVal} {o : EmfOpts} {double : Bool} {sr : SolveEmf}
    (h : solve_emf ls c tm emf T M totals ks o double = .ok sr) (h2 : 1 ≤ sr.used.count true) :
    c ≠ nan ∧ M ≠ nan ∧ nan ∉ mask sr.used tm := by
  obtain ⟨hl, n, x0, al, hal, hfin⟩ := emf_points hls h
  have key : ∀ m ∈ mask sr.used tm, ∃ a x, resid c n M x0 a m = fin x := by
    intro m hm
    obtain ⟨a, ha⟩ := mask_zip_right (f := resid c n M x0) hal hm
    exact ⟨a, hfin _ ha⟩
  obtain ⟨m, hm⟩ : ∃ m, m ∈ mask sr.used tm := by
    apply List.exists_mem_of_length_pos
    rw [mask_count _ _ hl.symm]
    omega
  obtain ⟨a, x, hx⟩ := key m hm
  refine ⟨?_, ?_, ?_⟩
  · rintro rfl; rw [resid_nan_c] at hx; cases hx
  · rintro rfl; rw [resid_nan_M] at hx; cases hx
  · intro hm
    obtain ⟨a, x, hx⟩ := key _ hm
    rw [resid_nan_m] at hx; cases hx

theorem mask_unused {α : Type} (u : List Bool) (xs : List α) (h : u.count true = 0) : mask u xs = [] := by
  induction u generalizing xs with
  | nil => cases xs <;> rfl
  | cons b u ih =>
    cases b with
    | true => simp at h
    | false =>
      cases xs with
      | nil => rfl
      | cons x xs => simpa using ih xs (by simpa using h)

theorem pH_points {c M : Flt} {tm pH : List Flt} {totals ks : Dict NpVal} {o : PHOpts} {sr : SolvePH}
    (h : solve_pH c tm pH M totals ks o = .ok sr) (ha : sr.alkalinity ≠ nan) :
    1 ≤ sr.used.count true := by
  simp only [solve_pH, bind_ok_iff, pure_ok, Except.ok.injEq] at h
  obtain ⟨_, -, a, hA, _, -, rfl⟩ := h
  by_contra hlt
  apply ha
  simp only
  have h0 : (pH_used pH o.pH_min o.pH_max).count true = 0 := by
    simp only at hlt; omega
  rw [mask_unused _ _ h0, npMean_nil]

theorem sub_self_cases (a : Flt) : a - a = fin 0 ∨ a - a = nan := by
  cases a with
  | fin x => left; simp
  | _ => right; rfl

theorem linregress_points {x y : List Flt} {lr : LinRegress} (h : linregress x y = .ok lr)
    (hs : lr.slope ≠ nan) : 2 ≤ x.length := by
  unfold linregress at h
  by_cases hl : x.length ≠ y.length
  · rw [if_pos hl] at h; cases h
  rw [if_neg hl] at h
  by_contra hlt
  rcases x with _ | ⟨a, _ | ⟨b, x⟩⟩
  · cases h
  · apply hs
    simp only [npMax, npMin, bind_ok, List.length_singleton, lt_self_iff_false, decide_false,
      Bool.and_false, Bool.false_eq_true, if_false, pure_ok, Except.ok.injEq] at h
    subst h
    rcases y with _ | ⟨b, _ | ⟨c, y⟩⟩
    · simp at hl
    · simp only [List.map_cons, List.map_nil, npMean_one, List.zipWith_cons_cons, List.zipWith_nil_left,
        Flt.sq]
      rcases sub_self_cases a with hz | hz <;> rcases sub_self_cases b with hw | hw <;>
        simp [hz, hw, show (fin 0 : Flt) / fin 0 = nan by show Flt.div _ _ = _; simp [Flt.div]]
    · simp at hl
  · simp at hlt

theorem gran_points {c M : Flt} {tm pH : List Flt} {o : PHOpts} {sr : SolvePHGran}
    (h : solve_pH_gran c tm pH M o = .ok sr) (ha : sr.alkalinity ≠ nan) :
    2 ≤ sr.used.count true := by
  simp only [solve_pH_gran, bind_ok_iff, pure_ok, Except.ok.injEq] at h
  obtain ⟨_, -, _, hl, lr, hlr, rfl⟩ := h
  have hs : lr.slope ≠ nan := by
    intro hn
    apply ha
    have h' : ∀ y : Flt, y / nan = nan := by intro y; cases y <;> rfl
    have h'' : ∀ y : Flt, y * nan = nan := by intro y; cases y <;> rfl
    simp [hn, h', h'']
  have := linregress_points hlr hs
  rwa [mask_count] at this
  have hlen : tm.length = pH.length := by
    unfold sameShape2 at hl
    by_contra hc
    rw [if_neg hc] at hl
    cases hl
  simp [pH_used, hlen]

theorem mask_sublist {α : Type} (u : List Bool) (xs : List α) : (mask u xs).Sublist xs := by
  induction u generalizing xs with
  | nil => cases xs <;> simp [mask]
  | cons b u ih =>
    cases xs with
    | nil => cases b <;> simp [mask]
    | cons x xs =>
      cases b with
      | false => simpa using (ih xs).cons x
      | true => simpa using (ih xs).cons₂ x

/-- without points a fit ends where it started -/
theorem emf_idle {ls : LsFun (Flt × Flt)} (hls : LsRefuses ls) (hidle : LsIdle ls) {c M : Flt}
    {tm emf T : List Flt} {totals ks : Dict NpVal} {o : EmfOpts} {sr : SolveEmf} {g : GranGuesses}
    (h : solve_emf ls c tm emf T M totals ks o false = .ok sr)
    (hg : gran_guesses tm emf T M c o.titrant_normality o.gran_logic = .ok g)
    (h0 : (emfStart o g emf T).used.count true = 0) :
    (emfStart o g emf T).alk ≠ nan ∧ (emfStart o g emf T).emf0 ≠ nan ∧
    sr.alkalinity = (emfStart o g emf T).alk * fin 1e6 ∧ sr.emf0 = (emfStart o g emf T).emf0 ∧
    sr.used = (emfStart o g emf T).used ∧ sr.alkalinity_std = nan := by
  obtain ⟨g', opt, hg', -, -, -, -, hopt, rfl⟩ := solve_emf_false_iff.mp h
  rw [hg] at hg'
  cases hg'
  have ha : (emfStart o g emf T).alk ≠ nan := by
    intro hn
    rw [hls.start _ _ (.inl hn)] at hopt
    cases hopt
  have he : (emfStart o g emf T).emf0 ≠ nan := by
    intro hn
    rw [hls.start _ _ (.inr hn)] at hopt
    cases hopt
  rw [hidle _ _ ha he fun x => by rw [emfProblem, mask_unused _ _ h0]] at hopt
  cases hopt
  exact ⟨ha, he, rfl, rfl, rfl, by simp [emfResult]⟩

theorem emf_idle_emf0 {ls : LsFun (Flt × Flt)} (hls : LsRefuses ls) (hidle : LsIdle ls) {c M : Flt}
    {tm emf T : List Flt} {totals ks : Dict NpVal} {o : EmfOpts} {d : Bool} {sr : SolveEmf}
    (h : solve_emf ls c tm emf T M totals ks o d = .ok sr) (h0 : sr.used.count true = 0) :
    sr.emf0 ≠ nan := by
  obtain ⟨o', -, -, -, h⟩ := solve_emf_last h
  obtain ⟨g, opt, hg, -, -, -, -, -, rfl⟩ := solve_emf_false_iff.mp h
  obtain ⟨-, h1, -, h2, -⟩ := emf_idle hls hidle h hg h0
  rw [h2]
  exact h1

theorem emf_opts_init {kw : Dict Val} {o : EmfOpts} {d : Bool} (h : emf_opts kw = .ok (o, d))
    (hk : kw.get? "alkalinity_init" = none) : o.alkalinity_init = none := by
  simp only [emf_opts, bind_ok_iff, pure_ok, Except.ok.injEq, Prod.mk.injEq] at h
  obtain ⟨a, ha, b, -, lo, -, hi, -, m, hm, rfl, -⟩ := h
  simp only [argOpt, argVal, hk] at ha
  exact (Except.ok.inj ha).symm

/-- a fit that starts from the Gran estimate needs two points for that -/
theorem emf_file_points {ls : LsFun (Flt × Flt)} (hls : LsRefuses ls) {c M : Flt} {tm emf T : List Flt}
    {totals ks : Dict NpVal} {o : EmfOpts} {double : Bool} {sr : SolveEmf}
    (h : solve_emf ls c tm emf T M totals ks o double = .ok sr) (ho : o.alkalinity_init = none) :
    2 ≤ tm.length := by
  obtain ⟨sr1, h⟩ : ∃ sr1, solve_emf ls c tm emf T M totals ks o false = .ok sr1 := by
    cases double with
    | false => exact ⟨sr, h⟩
    | true =>
      rw [solve_emf_true_eq, bind_ok_iff] at h
      obtain ⟨sr1, h1, -⟩ := h
      exact ⟨sr1, h1⟩
  obtain ⟨g, opt, hg, -, -, -, -, hopt, -⟩ := solve_emf_false_iff.mp h
  have hA : g.ga.alkalinity ≠ nan := by
    intro hn
    rw [hls.start _ _ (.inl (by simp only [emfStart, ho]; exact hn))] at hopt
    cases hopt
  simp only [gran_guesses, gran_alkalinity, bind_ok_iff, pure_ok, Except.ok.injEq] at hg
  obtain ⟨ga, ⟨_, hs, used, hu, lr, hlr, rfl⟩, rfl⟩ := hg
  have hsl : lr.slope ≠ nan := by
    intro hn
    apply hA
    have h' : ∀ y : Flt, y / nan = nan := by intro y; cases y <;> rfl
    simp [hn, h']
  have h2 := linregress_points hlr hsl
  exact h2.trans (mask_sublist _ _).length_le

theorem dispatch_points {w : World} {mode : String} {cv : Converted} {c : Flt}
    {totals ks : Dict NpVal} {kw : Dict Val} {sr : SolveRes}
    (h : solve_dispatch w mode cv c totals ks kw = .ok sr) :
    (sr.alkalinity ≠ nan → pointsNeeded sr ≤ pointsUsed sr) ∧
    (LsRefuses w.ls → ∀ e T, sr = .emf e T → (1 ≤ e.used.count true → c ≠ nan ∧ cv.analyte_mass ≠ nan ∧
      nan ∉ mask e.used cv.titrant_mass) ∧
      (kw.get? "alkalinity_init" = none → 2 ≤ cv.titrant_mass.length)) := by
  have hinit : kw.get? "alkalinity_init" = none →
      (get_kwargs_for keys_solve_emf kw none).get? "alkalinity_init" = none := by
    intro hk
    rw [show get_kwargs_for keys_solve_emf kw none
        = kw.filter fun kv => keys_solve_emf.contains kv.1 from rfl,
      Dict.get?_filter (fun k => keys_solve_emf.contains k), if_pos (by decide), hk]
  unfold solve_dispatch at h
  split at h
  · simp only [bind_ok_iff, pure_ok, Except.ok.injEq] at h
    obtain ⟨⟨o, d⟩, ho, e, he, rfl⟩ := h
    refine ⟨fun _ => Nat.zero_le _, fun hls e' T hs => ?_⟩
    cases hs
    exact ⟨fun h1 => emf_numbers hls he h1, fun hk => emf_file_points hls he (emf_opts_init ho (hinit hk))⟩
  · split at h
    · simp only [bind_ok_iff, pure_ok, Except.ok.injEq] at h
      obtain ⟨⟨o, d⟩, ho, emf, -, e, he, rfl⟩ := h
      refine ⟨fun _ => Nat.zero_le _, fun hls e' T hs => ?_⟩
      cases hs
      refine ⟨fun h1 => emf_numbers hls he h1, fun hk => emf_file_points hls he (emf_opts_init ho ?_)⟩
      rw [Dict.get?_set, if_neg (by decide)]
      exact hinit hk
    · split at h
      · simp only [bind_ok_iff, pure_ok, Except.ok.injEq] at h
        obtain ⟨o, -, e, he, rfl⟩ := h
        exact ⟨fun ha => pH_points he ha, fun _ e' T hs => by cases hs⟩
      · split at h
        · simp only [bind_ok_iff, pure_ok, Except.ok.injEq] at h
          obtain ⟨o, -, e, he, rfl⟩ := h
          exact ⟨fun ha => gran_points he ha, fun _ e' T hs => by cases hs⟩
        · cases h

theorem dispatch_idle {w : World} (hls : LsRefuses w.ls) (hidle : LsIdle w.ls) {mode : String}
    {cv : Converted} {c : Flt} {totals ks : Dict NpVal} {kw : Dict Val} {e : SolveEmf} {T : List Flt}
    (h : solve_dispatch w mode cv c totals ks kw = .ok (.emf e T)) (h0 : e.used.count true = 0) :
    e.emf0 ≠ nan := by
  unfold solve_dispatch at h
  split at h
  · simp only [bind_ok_iff, pure_ok, Except.ok.injEq] at h
    obtain ⟨⟨o, d⟩, -, e', he, hs⟩ := h
    cases hs
    exact emf_idle_emf0 hls hidle he h0
  · split at h
    · simp only [bind_ok_iff, pure_ok, Except.ok.injEq] at h
      obtain ⟨⟨o, d⟩, -, emf, -, e', he, hs⟩ := h
      cases hs
      exact emf_idle_emf0 hls hidle he h0
    · split at h
      · simp only [bind_ok_iff, pure_ok, Except.ok.injEq] at h
        obtain ⟨o, -, e', -, hs⟩ := h
        cases hs
      · split at h
        · simp only [bind_ok_iff, pure_ok, Except.ok.injEq] at h
          obtain ⟨o, -, e', -, hs⟩ := h
          cases hs
        · cases h

theorem solve_parts {w : World} {f : String} {c S : Flt} {kw : Dict Val} {sr : SolveRes}
    (h : files_solve w f c S kw = .ok sr) :
    ∃ cv totals ks mode totals', load w f S kw = .ok (cv, totals, ks) ∧
      solve_dispatch w mode cv c totals' ks kw = .ok sr := by
  simp only [files_solve, bind_ok_iff] at h
  obtain ⟨⟨cv, totals, ks⟩, hl, tts, -, h⟩ := h
  rcases ha : add_titrant_totals cv.titrant_mass cv.analyte_mass c (fin 0) tts totals with ⟨r, totals'⟩
  simp only [ha, bind_ok_iff] at h
  obtain ⟨_, -, mode, -, h⟩ := h
  exact ⟨cv, totals, ks, mode, totals', hl, h⟩

/-- **C125**: what the result of solving a file rests on. In pH mode an alkalinity that is not NaN was
found with at least one point, in Gran mode with at least two. -/
theorem C125_points (w : World) (f : String) (c S : Flt) (kw : Dict Val)
    (sr : SolveRes) (h : files_solve w f c S kw = .ok sr) (ha : sr.alkalinity ≠ nan) :
    pointsNeeded sr ≤ pointsUsed sr := by
  obtain ⟨cv, totals, ks, mode, totals', -, hd⟩ := solve_parts h
  exact (dispatch_points hd).1 ha

/-- **C125**, EMF and pH-adjust modes: if a result is returned at all and a point was in use, then
neither the molinity, nor the analyte mass, nor a titrant mass of the points in use was NaN; and if no
alkalinity was given to start from then the file has at least two points. -/
theorem C125_numbers (w : World) (hls : LsRefuses w.ls) (f : String) (c S : Flt) (kw : Dict Val)
    (sr : SolveEmf) (T : List Flt) (h : files_solve w f c S kw = .ok (.emf sr T))
    (cv : Converted) (totals ks : Dict NpVal) (hl : load w f S kw = .ok (cv, totals, ks)) :
    (1 ≤ sr.used.count true → c ≠ nan ∧ cv.analyte_mass ≠ nan ∧
      ∀ m ∈ mask sr.used cv.titrant_mass, m ≠ nan) ∧
    (kw.get? "alkalinity_init" = none → 2 ≤ cv.titrant_mass.length) := by
  obtain ⟨cv', totals', ks', mode, totals'', hl', hd⟩ := solve_parts h
  rw [hl] at hl'
  cases hl'
  obtain ⟨h1, h2⟩ := (dispatch_points hd).2 hls _ _ rfl
  exact ⟨fun h0 => ⟨(h1 h0).1, (h1 h0).2.1, fun m hm hn => (h1 h0).2.2 (hn ▸ hm)⟩, h2⟩

theorem outside_unused {pH : List Flt} {lo hi : ℝ}
    (h : ∀ p ∈ pH, ∀ y : ℝ, p = fin y → y < lo ∨ hi < y) :
    (pH_used pH (fin lo) (fin hi)).count true = 0 := by
  rw [List.count_eq_zero]
  intro hm
  obtain ⟨p, hp, hw⟩ := List.mem_map.mp hm
  cases p with
  | fin y =>
    simp only [Flt.le, Bool.and_eq_true, decide_eq_true_eq] at hw
    rcases h _ hp y rfl with h | h
    · linarith [hw.1]
    · linarith [hw.2]
  | _ => simp [Flt.le] at hw

/-- the solver: a fit from `A` and `E` without a point in the window for that EMF0 returns these -/
theorem emf_returns_start {ls : LsFun (Flt × Flt)} (hls : LsRefuses ls) (hidle : LsIdle ls) {c M : Flt}
    {tm emf T : List Flt} {totals ks : Dict NpVal} {o : EmfOpts} {d : Bool} {sr : SolveEmf}
    {g : GranGuesses} (h : solve_emf ls c tm emf T M totals ks o d = .ok sr)
    (hg : gran_guesses tm emf T M c o.titrant_normality o.gran_logic = .ok g) (A E lo hi : ℝ)
    (hlo : o.pH_min = fin lo) (hhi : o.pH_max = fin hi)
    (hA : (emfStart o g emf T).alk = fin A) (hE : (emfStart o g emf T).emf0 = fin E)
    (hnone : ∀ p ∈ emf_to_pH_arr emf (fin E) T, ∀ y : ℝ, p = fin y → y < lo ∨ hi < y) :
    sr.alkalinity = fin (1e6 * A) ∧ sr.emf0 = fin E ∧ sr.used.count true = 0 ∧
      sr.alkalinity_std = nan := by
  have hu : (emfStart o g emf T).used = pH_used (emf_to_pH_arr emf (fin E) T) (fin lo) (fin hi) := by
    obtain ⟨-, -, hp⟩ := gran_guesses_ok hg
    simp only [emfStart, hlo, hhi] at hE ⊢
    cases he : o.emf0_init with
    | none => simp only [he] at hE ⊢; rw [hp, hE]
    | some e => simp only [he] at hE ⊢; rw [hE]
  have h0 := outside_unused hnone
  have one : ∀ {sr1}, solve_emf ls c tm emf T M totals ks o false = .ok sr1 →
      sr1.alkalinity = fin (1e6 * A) ∧ sr1.emf0 = fin E ∧ sr1.used.count true = 0 ∧
      sr1.alkalinity_std = nan := by
    intro sr1 h1
    obtain ⟨-, -, e1, e2, e3, e4⟩ := emf_idle hls hidle h1 hg (by rw [hu]; exact h0)
    refine ⟨by rw [e1, hA, mul_fin, mul_comm], by rw [e2, hE], by rw [e3, hu]; exact h0, e4⟩
  cases d with
  | false => exact one h
  | true =>
    rw [solve_emf_true_eq, bind_ok_iff] at h
    obtain ⟨sr1, h1, h2⟩ := h
    obtain ⟨a1, a2, -, -⟩ := one h1
    have h2' := h2
    obtain ⟨g2, -, hg2, -⟩ := solve_emf_false_iff.mp h2'
    obtain ⟨-, -, e1, e2, e3, e4⟩ := emf_idle hls hidle h2 hg2 (by
      simp only [emfStart, a2, hlo, hhi]
      exact h0)
    refine ⟨?_, ?_, ?_, e4⟩
    · rw [e1]
      simp only [emfStart, a1, mul_fin, fin_inj]
      ring
    · rw [e2]
      simp only [emfStart, a2]
    · rw [e3]
      simp only [emfStart, a2, hlo, hhi]
      exact h0

/-- **C125**, EMF mode without a point in the window: what is reported as the result is the start of
the fit, that is `alkalinity_init` and `emf0_init` if they are given and the Gran estimates if not. -/
theorem C125_no_points (w : World) (hls : LsRefuses w.ls) (hidle : LsIdle w.ls) (f : String) (c S : Flt)
    (kw : Dict Val) (sr : SolveEmf) (T : List Flt) (h : files_solve w f c S kw = .ok (.emf sr T))
    (hmode : kw.get? "solve_mode" = none ∨ ∃ s, kw.get? "solve_mode" = some (.str s) ∧ lowerS s = "emf")
    (cv : Converted) (totals ks : Dict NpVal) (hl : load w f S kw = .ok (cv, totals, ks))
    (n lo hi : ℝ) (hn : NumOr kw "titrant_normality" 1 n) (hlo : NumOr kw "pH_min" 3 lo)
    (hhi : NumOr kw "pH_max" 4 hi) (logic : String)
    (hlogic : kw.get? "gran_logic" = some (.str logic) ∨
      kw.get? "gran_logic" = none ∧ logic = "v23.7+") (g : GranGuesses)
    (hg : gran_guesses cv.titrant_mass cv.measurement cv.temperature cv.analyte_mass c (fin n) logic
      = .ok g) (A E : ℝ)
    (hA : kw.get? "alkalinity_init" = some (.num (fin (1e6 * A))) ∨
      kw.get? "alkalinity_init" = none ∧ g.ga.alkalinity = fin A)
    (hE : kw.get? "emf0_init" = some (.num (fin E)) ∨ kw.get? "emf0_init" = none ∧ g.emf0 = fin E)
    (hnone : ∀ p ∈ emf_to_pH_arr cv.measurement (fin E) cv.temperature,
      ∀ y : ℝ, p = fin y → y < lo ∨ hi < y) :
    sr.alkalinity = fin (1e6 * A) ∧ sr.emf0 = fin E ∧ sr.used.count true = 0 ∧
      sr.alkalinity_std = nan := by
  have hm : solve_mode kw = .ok "emf" := by
    unfold solve_mode argVal
    rcases hmode with hs | ⟨s, hs, hs'⟩
    · rw [hs]
      have : lowerS "emf" = "emf" := by decide
      exact congrArg Except.ok this
    · rw [hs, ← hs']; rfl
  simp only [files_solve, bind_ok_iff, hl, bind_ok] at h
  obtain ⟨tts, -, h⟩ := h
  rcases ha : add_titrant_totals cv.titrant_mass cv.analyte_mass c (fin 0) tts totals with ⟨r, totals'⟩
  simp only [ha, bind_ok_iff, hm] at h
  obtain ⟨_, -, _, hm', h⟩ := h
  cases hm'
  simp only [solve_dispatch, if_true, bind_ok_iff, pure_ok, Except.ok.injEq] at h
  obtain ⟨⟨o, d⟩, ho, e, he, hs⟩ := h
  cases hs
  have e1 : ∀ k ∈ keys_solve_emf,
      Dict.get? (get_kwargs_for keys_solve_emf kw none) k = kw.get? k := by
    intro k hk
    rw [show get_kwargs_for keys_solve_emf kw none
        = kw.filter fun kv => keys_solve_emf.contains kv.1 from rfl,
      Dict.get?_filter (fun k => keys_solve_emf.contains k), if_pos (by simpa using hk)]
  simp only [emf_opts, argOpt, argNum, argVal, e1 "alkalinity_init" (by decide),
    e1 "emf0_init" (by decide), e1 "pH_min" (by decide), e1 "pH_max" (by decide),
    e1 "titrant_normality" (by decide), e1 "gran_logic" (by decide), e1 "double" (by decide),
    bind_ok_iff, pure_ok, Except.ok.injEq, Prod.mk.injEq] at ho
  obtain ⟨a, h1, b, h2, l', h3, h', h4, n', h5, rfl, -⟩ := ho
  have num : ∀ {k : String} {d r : ℝ} {y : Flt}, NumOr kw k d r →
      argNum kw k (fin d) = .ok y → y = fin r := by
    intro k d r y hk hy
    unfold argNum at hy
    rcases hk with hk | ⟨hk, rfl⟩ <;> rw [hk] at hy <;> exact (Except.ok.inj hy).symm
  have h3 := num hlo h3
  have h4 := num hhi h4
  have h5 := num hn h5
  subst h3 h4 h5
  refine emf_returns_start hls hidle he (g := g) ?_ A E lo hi rfl rfl ?_ ?_ hnone
  · rcases hlogic with hk | ⟨hk, rfl⟩ <;> simp only [hk, Option.getD_some, Option.getD_none] <;> exact hg
  · rcases hA with hk | ⟨hk, hv⟩
    · rw [hk] at h1
      simp only [Option.getD_some, Val.toFlt, bind_ok, pure_ok, Except.ok.injEq] at h1
      subst h1
      simp only [emfStart, mul_fin, fin_inj]
      ring
    · rw [hk] at h1
      simp only [Option.getD_none, Except.ok.injEq] at h1
      subst h1
      exact hv
  · rcases hE with hk | ⟨hk, hv⟩
    · rw [hk] at h2
      simp only [Option.getD_some, Val.toFlt, bind_ok, pure_ok, Except.ok.injEq] at h2
      subst h2
      rfl
    · rw [hk] at h2
      simp only [Option.getD_none, Except.ok.injEq] at h2
      subst h2
      exact hv

/-- **C125**, EMF mode with one point: it does not determine the result. Every EMF0 has an alkalinity
with which the point is fitted exactly, and different EMF0s have different ones. -/
theorem C125_one_point (w : World) (f : String) (S : Flt) (kw : Dict Val) (x K : String → ℝ)
    (c n g M : ℝ) (pts : List (ℝ × ℝ × ℝ)) (h : EmfRun w f S kw x K c n g M pts) (sr : SolveEmf)
    (T : List Flt) (hr : files_solve w f (fin c) S kw = .ok (.emf sr T))
    (h1 : sr.used.count true = 1) :
    ∃ A : ℝ → ℝ, (∀ E, (mask sr.used pts).map (pointMisfit x K c n g M (A E) E) = [0]) ∧
      ∀ E E', E < E' → A E < A E' := by
  obtain ⟨totals, ks, o, double, sr', he, -, hsr, -⟩ := h.solver hr
  cases he
  obtain ⟨o', -, -, -, hlast⟩ := solve_emf_last hsr
  obtain ⟨gg, opt, hg, -, -, -, -, -, hres⟩ := solve_emf_false_iff.mp hlast
  have hul : sr.used.length = pts.length := by
    rw [hres]
    show (emfStart o' gg _ _).used.length = _
    simpa using emfStart_used_length (o := o') hg
  obtain ⟨p, hp⟩ : ∃ p, mask sr.used pts = [p] :=
    List.length_eq_one_iff.mp (by rw [mask_count _ _ hul.symm, h1])
  have hpm : p ∈ pts := mask_subset sr.used pts (by rw [hp]; simp)
  have hpos : 0 < p.1 + M := add_pos_of_nonneg_of_pos (h.masses p hpm) h.mass
  have hM := h.mass
  have hv : (mixture x K p.1 M c g).Valid := mixture_valid hM (h.masses p hpm) h.acid
    (fun k hk => (h.sample.contents k hk).2) (fun k hk => (h.sample.constants k hk).2)
  refine ⟨fun E => ((mixture x K p.1 M c g).alk 3 (readAcidity E p) * (p.1 + M) + p.1 * c * n) / M,
    fun E => ?_, fun E E' hE => ?_⟩
  · rw [hp]
    simp only [List.map_cons, List.map_nil, pointMisfit, List.cons.injEq, and_true]
    field_simp
    ring
  · have hT : 0 < p.2.2 + 273.15 := by linarith [h.temps p hpm]
    have hacid : readAcidity E' p < readAcidity E p := by
      unfold readAcidity
      rw [Real.exp_lt_exp]
      apply div_lt_div_of_pos_right _ (by positivity)
      linarith
    have hr0 : 0 < readAcidity E' p := Real.exp_pos _
    have := Sol.alk_strictAnti hv 3 hr0 hacid
    apply div_lt_div_of_pos_right _ hM
    have := mul_lt_mul_of_pos_right this hpos
    linarith

/-! ## Data sets -/

theorem solve_row_cases {w : World} {kw : Dict Val} {cols : List String} {r s : Row}
    (h : solve_row w kw cols r = .ok s) :
    s = blankSolved r ∨ ∃ f c S st sr, files_solve w f c S st = .ok sr ∧ Reports s sr := by
  rcases hcall : solve_call w kw cols r with e | sr
  · exact .inl (solve_row_blank h ⟨e, hcall⟩)
  · by_cases hc : (!(r "titrant_molinity").isNull && (r "file_good").truthy) = true
    · right
      have hs : s = (add_solve_results sr (blankSolved r)).2 := by
        unfold solve_row at h
        rw [if_pos hc] at h
        have : solve_attempt w kw cols r (blankSolved r) = add_solve_results sr (blankSolved r) := by
          unfold solve_attempt
          rw [PyS.lift_bind, hcall]
        rw [this] at h
        rcases hx : add_solve_results sr (blankSolved r) with ⟨_ | _, s'⟩
        · rw [hx] at h
          simp only [caught] at h
          split at h
          · exact (Except.ok.inj h).symm
          · cases h
        · rw [hx] at h
          exact (Except.ok.inj h).symm
      simp only [solve_call, bind_ok_iff] at hcall
      obtain ⟨_, -, _, -, _, -, _, -, _, -, hcall⟩ := hcall
      exact ⟨_, _, _, _, sr, hcall, hs ▸ add_solve_results_reports sr r⟩
    · left
      unfold solve_row at h
      rw [if_neg hc] at h
      exact (Except.ok.inj h).symm

theorem rows_solved {w : World} {kw : Dict Val} {df df' : DF}
    (h : dataset_solve w kw df = (.ok (), df') ∨ dataset_calibrate w kw df = (.ok (), df') ∨
      dataset_calkulate w kw df = (.ok (), df')) : ∃ df1, dataset_solve w kw df1 = (.ok (), df') := by
  rcases h with h | h | h
  · exact ⟨_, h⟩
  · obtain ⟨-, -, -, rows, -, -, h⟩ := dataset_calibrate_ok_iff.mp h
    exact ⟨_, h⟩
  · unfold dataset_calkulate at h
    rw [PyS.bind_apply] at h
    rcases hc : dataset_calibrate w kw df with ⟨e | u, df1⟩
    · rw [hc] at h; cases h
    · rw [hc] at h; exact ⟨_, h⟩

theorem c125_rows (w : World) (hls : LsRefuses w.ls) (hidle : LsIdle w.ls) (kw : Dict Val) (df df' : DF)
    (h : dataset_solve w kw df = (.ok (), df') ∨ dataset_calibrate w kw df = (.ok (), df') ∨
      dataset_calkulate w kw df = (.ok (), df')) (r' : Row) (hr' : r' ∈ df'.rows)
    (ha : (r' "alkalinity").isNull = false) :
    ∃ n : ℕ, r' "alkalinity_npts" = .num (fin n) ∧ ((r' "emf0").isNull = true → 1 ≤ n) ∧
      (n = 0 → r' "alkalinity_std" = .num nan) := by
  obtain ⟨df1, h⟩ := rows_solved h
  obtain ⟨s, hs, hrs⟩ := solved_self h hr'
  rcases solve_row_cases hs with rfl | ⟨f, c, S, st, sr, hsr, hrep⟩
  · rw [hrs _ (by decide)] at ha
    simp [blankSolved, Val.isNull] at ha
  · have hrep := hrep.congr hrs
    have hnan : sr.alkalinity ≠ nan := by
      intro hn
      cases sr <;> unfold Reports at hrep <;> rw [hrep.1] at ha <;>
        simp only [SolveRes.alkalinity] at hn <;> rw [hn] at ha <;> simp [Val.isNull] at ha
    have hp := C125_points w f c S st sr hsr hnan
    cases sr with
    | emf e T =>
      unfold Reports at hrep
      refine ⟨_, hrep.2.2.1, fun he => ?_, fun h0 => ?_⟩
      · by_contra hn
        obtain ⟨cv, totals, ks, mode, totals', -, hd⟩ := solve_parts hsr
        refine dispatch_idle hls hidle hd (by omega) ?_
        rw [hrep.2.1] at he
        generalize e.emf0 = y at he
        cases y <;> simp [Val.isNull, Flt.isNaN] at he ⊢
      · rw [hrep.2.2.2.1, mask_unused _ _ h0, npStd_nil]
    | pH e p T =>
      unfold Reports at hrep
      simp only [pointsNeeded, pointsUsed] at hp
      exact ⟨_, hrep.2.2.1, fun _ => hp, fun h0 => absurd hp (by omega)⟩
    | pH_gran e p T =>
      unfold Reports at hrep
      simp only [pointsNeeded, pointsUsed] at hp
      exact ⟨_, hrep.2.2.1, fun _ => by omega, fun h0 => absurd hp (by omega)⟩

/-- **C125** in a data set: in every row that solving left with an alkalinity, `alkalinity_npts` is a
number, at least 1 unless the row has an `emf0`, and if it is 0 then there is no `alkalinity_std`. -/
theorem C125_rows (w : World) (hls : LsRefuses w.ls) (hidle : LsIdle w.ls) (kw : Dict Val) (df df' : DF)
    (h : dataset_solve w kw df = (.ok (), df') ∨ dataset_calibrate w kw df = (.ok (), df') ∨
      dataset_calkulate w kw df = (.ok (), df')) (r' : Row) (hr' : r' ∈ df'.rows)
    (ha : ¬ Spec.Null (r' "alkalinity")) :
    ∃ n : ℕ, r' "alkalinity_npts" = .num (fin n) ∧ (Spec.Null (r' "emf0") → 1 ≤ n) ∧
      (n = 0 → r' "alkalinity_std" = .num nan) := by
  simp only [← isNull_iff, Bool.not_eq_true] at *
  exact c125_rows w hls hidle kw df df' h r' hr' ha

/-! ## Calibrating -/

/-- **C125** for calibrations: one that returns started from a solve that worked. The file, solved
with `titrant_molinity_init` (0.1 by default) in place of the molinity, gives a finite alkalinity found
with enough points, and the certified value is a finite number. -/
theorem C125_calibrated (w : World) (hopt : LsqRefuses w.opt) (f : String)
    (cert S : Flt) (kw : Dict Val) (res : LsqResult Flt) (c0 : ℝ)
    (hc0 : kw.get? "titrant_molinity_init" = some (.num (fin c0)) ∨
      kw.get? "titrant_molinity_init" = none ∧ c0 = 0.1)
    (hreg : Regular w f S kw) (hg : kw.get? "gran_logic" = none)
    (h : files_calibrate w f cert S kw = .ok res) :
    (∃ y, cert = fin y) ∧ ∃ sr a, files_solve w f (fin c0) S kw = .ok sr ∧ sr.alkalinity = fin a ∧
      pointsNeeded sr ≤ pointsUsed sr := by
  obtain ⟨hr, cv, totals, ks, mode, c0', tts, hl, ht, hm, hlen, hor⟩ := hreg
  have hc : c0' = fin c0 := by
    have := ht.c0
    rcases hc0 with hc0 | ⟨hc0, rfl⟩ <;>
      simp only [argNum, argVal, hc0, Option.getD_some, Option.getD_none, Val.toFlt, Except.ok.injEq] at this <;>
      exact this.symm
  subst hc
  have hrun : files_calibrate w f cert S kw = (w.opt.run (solveRes w f S cert kw) (fin c0) ()).1 := by
    rcases hor with rfl | ⟨hfin, tm, M, htm, hM, hmm⟩
    · exact C32_same_solver w f mode cert S _ kw cv totals ks hl ht hg hm hlen
    · exact C32_same_solver_titrant w f mode cert S _ kw cv totals ks tts tm M hfin hl ht htm hM hmm
        hg hm hlen
  rw [h] at hrun
  obtain ⟨n, hn⟩ : ∃ n, w.opt.maxEval = n + 1 := ⟨_, (Nat.succ_pred_eq_of_pos hopt.evaluates).symm⟩
  simp only [Lsq.run, hn, Lsq.loop, hopt.first, solveRes, PyS.lift_apply] at hrun
  rcases hs : files_solve w f (fin c0) S kw with e | sr
  · simp only [hs] at hrun
    cases hrun
  · simp only [hs, bind_ok, pure_ok, List.nil_append] at hrun
    obtain ⟨x, hx⟩ : ∃ x, sr.alkalinity - cert = fin x := by
      by_contra hbad
      push Not at hbad
      obtain ⟨h1, h2⟩ := hopt.bad (fin c0) [sr.alkalinity - cert] ⟨_, by simp, hbad⟩
      cases n with
      | zero => simp only [Lsq.loop, h2] at hrun; cases hrun
      | succ n => simp only [Lsq.loop, h1, h2] at hrun; cases hrun
    obtain ⟨a, y, ha, hy⟩ : ∃ a y, sr.alkalinity = fin a ∧ cert = fin y := by
      rcases hA : sr.alkalinity <;> rcases hC : cert <;> rw [hA, hC] at hx <;>
        first
          | exact ⟨_, _, rfl, rfl⟩
          | cases hx
    exact ⟨⟨y, hy⟩, sr, a, rfl, ha, C125_points w f _ S kw sr hs (by rw [ha]; simp)⟩

/-! ## Satisfiability -/

theorem lsCareful_refuses : LsRefuses lsCareful := by
  refine ⟨fun f x0 r h hr => ?_, fun f x0 h => ?_⟩
  · unfold lsCareful
    split
    · rfl
    · rw [if_pos ⟨r, h, hr⟩]
  · unfold lsCareful
    rw [if_pos h]

theorem lsCareful_sound : LsSound lsCareful := by
  intro f x0 r h
  unfold lsCareful at h
  split at h
  · cases h
  · split at h
    · cases h
    · exact lsStay_sound f x0 r h

theorem lsCareful_stays {f : Flt × Flt → Py (List Flt)} {x0 : Flt × Flt} {r : List ℝ} (h1 : x0.1 ≠ nan)
    (h2 : x0.2 ≠ nan) (h : f x0 = .ok (r.map fin)) : lsCareful f x0 = .ok ⟨x0, r.map fin⟩ := by
  unfold lsCareful
  rw [if_neg (not_or.mpr ⟨h1, h2⟩), if_neg]
  · simp [lsStay, h, bind_ok, pure_ok]
  · rintro ⟨r', hr, y, hy, hbad⟩
    rw [h] at hr
    cases hr
    obtain ⟨z, -, rfl⟩ := List.mem_map.mp hy
    exact hbad _ rfl

theorem lsCareful_idle : LsIdle lsCareful := by
  intro f x0 h1 h2 h
  exact lsCareful_stays (r := []) h1 h2 (h x0)

theorem lsqOnce_refuses : LsqRefuses lsqOnce := by
  refine ⟨by simp [lsqOnce], fun c => rfl, fun x0 r ⟨y, hy, hbad⟩ => ?_⟩
  refine ⟨by cases x0 <;> rfl, ?_⟩
  have : allFinite r = false := by
    unfold allFinite
    rw [List.all_eq_false]
    refine ⟨y, hy, ?_⟩
    cases y with
    | fin x => exact absurd rfl (hbad x)
    | _ => simp
  simp [lsqOnce, this]

/-- the two points of C112, with pH 3.05 and 3.70, and another window -/
noncomputable def rfArgs (lo hi : ℝ) : Dict Val :=
  qArgs 400 ++ [("pH_min", .num (fin lo)), ("pH_max", .num (fin hi))]

noncomputable def rfWorld : World := { qWorld 400 with ls := lsCareful }

theorem rf_load (lo hi : ℝ) : load rfWorld "a.dat" (fin 35) (rfArgs lo hi)
    = load (qWorld 400) "a.dat" (fin 35) (qArgs 400) := by
  with_unfolding_all rfl

theorem rf_run (lo hi : ℝ) :
    EmfRun rfWorld "a.dat" (fin 35) (rfArgs lo hi) pContents qConstants qAcid 1 0 0.1 (qPts 400) := by
  have h := q_run 400
  refine ⟨by rw [rf_load]; exact h.loads, keepWorld_totals, keepWorld_ks, lsCareful_sound, ?_, .inl rfl,
    ⟨?_, ?_, ?_⟩, .inr ⟨rfl, rfl⟩, rfl, rfl, .inr ⟨rfl, rfl⟩, h.mass, h.masses, h.temps, h.acid⟩
  · have : Dict.keys (rfArgs lo hi) = ([ "analyte_mass", "titrant_amount_unit", "emf0_init",
      "alkalinity_init" ] ++ ("dic" :: (optionalContents ++ saltContents)) ++ allConstants)
      ++ ["pH_min", "pH_max"] := rfl
    rw [this]
    decide
  · intro k hk
    obtain ⟨h1, h2⟩ := h.sample.contents k hk
    exact ⟨by rw [rfArgs, Dict.get?_append, h1]; rfl, h2⟩
  · intro k hk
    obtain ⟨h1, h2⟩ := h.sample.constants k hk
    exact ⟨by rw [rfArgs, Dict.get?_append, h1]; rfl, h2⟩
  · exact not_onTotalScale rfl

theorem rf_solve (lo hi : ℝ) (hw : lo < hi) : ∃ sr, files_solve rfWorld "a.dat" (fin qAcid) (fin 35)
    (rfArgs lo hi) = .ok (.emf sr ((qPts 400).map fun p => fin p.2.2)) ∧
    sr.used = pH_used ([-Real.logb 10 2e-4, -Real.logb 10 9e-4].map fin) (fin lo) (fin hi) := by
  obtain ⟨totals, ks, hs, hv, hk, hf, hf', hsol⟩ := (rf_run lo hi).reduces
  obtain ⟨gg, hg⟩ := q_gran 400 qAcid
  set o : EmfOpts := { qOpts 400 with pH_min := fin lo, pH_max := fin hi } with ho
  have hopts : emf_opts (rfArgs lo hi) = .ok (o, true) := by with_unfolding_all rfl
  set u := pH_used ([-Real.logb 10 2e-4, -Real.logb 10 9e-4].map fin) (fin lo) (fin hi) with hu
  have hst : emfStart o gg (((qPts 400).map (·.2.1)).map fin) (((qPts 400).map (·.2.2)).map fin)
      = { alk := fin qTrue, emf0 := fin 400, used := u } := by
    simp only [emfStart, ho, qOpts, (q_used 400).1, mul_fin]
    congr 2
    ring
  have hprob := (rf_run lo hi).problem (by rw [List.length_map]; exact hv) hk hsol u qTrue 400
  have hls := lsCareful_stays (by simp) (by simp) hprob
  have hone : ∃ sr, solve_emf lsCareful (fin qAcid) (((qPts 400).map (·.1)).map fin)
      (((qPts 400).map (·.2.1)).map fin) (((qPts 400).map (·.2.2)).map fin) (fin 0.1) totals ks o false
        = .ok sr ∧ sr.used = u ∧ sr.alkalinity = fin (1e6 * qTrue) ∧ sr.emf0 = fin 400 := by
    refine ⟨_, solve_emf_false_iff.mpr ⟨gg, _, hg, by simpa [o] using hw, hk, by simpa using hf,
      by simpa using hf', by rw [hst]; exact hls, rfl⟩, by rw [hst]; rfl, ?_, ?_⟩
    · simp only [emfResult, mul_fin, mul_comm]
    · simp only [emfResult]
  obtain ⟨sr, h1, h2, h3, h4⟩ := hone
  refine ⟨sr, ?_, h2⟩
  have htwo : solve_emf rfWorld.ls (fin qAcid) (((qPts 400).map (·.1)).map fin)
      (((qPts 400).map (·.2.1)).map fin) (((qPts 400).map (·.2.2)).map fin) (fin 0.1) totals ks o true
        = .ok sr := by
    show solve_emf lsCareful _ _ _ _ _ _ _ _ _ = _
    rw [solve_emf_true_eq, h1, bind_ok, h3, h4]
    exact h1
  rw [hs, hopts]
  simp only [bind_ok, htwo]
  rfl

theorem rf_pH : (3.1 : ℝ) < -Real.logb 10 2e-4 ∧ -Real.logb 10 2e-4 < 4 ∧ 3 < -Real.logb 10 9e-4 ∧
    -Real.logb 10 9e-4 < 3.1 := by
  have key : ∀ h x : ℝ, 0 < h → (h < (10:ℝ) ^ (-x) → x < -Real.logb 10 h) ∧
      ((10:ℝ) ^ (-x) < h → -Real.logb 10 h < x) := by
    intro h x hh
    constructor
    · intro hx
      have := Real.logb_lt_logb (b := 10) (by norm_num) hh hx
      rw [Real.logb_rpow (by norm_num) (by norm_num)] at this
      linarith
    · intro hx
      have := Real.logb_lt_logb (b := 10) (by norm_num) (by positivity) hx
      rw [Real.logb_rpow (by norm_num) (by norm_num)] at this
      linarith
  have h31 : ((10:ℝ) ^ (-(3.1:ℝ))) ^ 10 = 1e-31 := by
    rw [← Real.rpow_natCast, ← Real.rpow_mul (by norm_num)]
    norm_num
  have hpos : (0:ℝ) < (10:ℝ) ^ (-(3.1:ℝ)) := by positivity
  refine ⟨(key _ _ (by norm_num)).1 ?_, (key _ _ (by norm_num)).2 ?_, (key _ _ (by norm_num)).1 ?_,
    (key _ _ (by norm_num)).2 ?_⟩
  · apply lt_of_pow_lt_pow_left₀ 10 hpos.le
    rw [h31]; norm_num
  · rw [show (-4 : ℝ) = ((-4 : ℤ) : ℝ) by norm_num, Real.rpow_intCast]
    norm_num
  · rw [show (-3 : ℝ) = ((-3 : ℤ) : ℝ) by norm_num, Real.rpow_intCast]
    norm_num
  · apply lt_of_pow_lt_pow_left₀ 10 (by norm_num)
    rw [h31]; norm_num

/-- C125 for it: with the default window both points are used, and no number is NaN -/
example : ∃ sr T, files_solve rfWorld "a.dat" (fin qAcid) (fin 35) (rfArgs 3 4) = .ok (.emf sr T) ∧
    sr.used.count true = 2 ∧ fin qAcid ≠ nan := by
  obtain ⟨sr, h, hu⟩ := rf_solve 3 4 (by norm_num)
  obtain ⟨cv, totals, ks, mode, totals', hl, hd⟩ := solve_parts h
  have h2 : sr.used.count true = 2 := by
    rw [hu]
    exact congrArg _ (q_used 400).2
  exact ⟨sr, _, h, h2, ((C125_numbers rfWorld lsCareful_refuses _ _ _ _ _ _ h cv totals ks hl).1 (by omega)).1⟩

/-- with a window that has none of them the alkalinity reported is the one given to start with -/
example : ∃ sr T, files_solve rfWorld "a.dat" (fin qAcid) (fin 35) (rfArgs 5 6) = .ok (.emf sr T) ∧
    sr.alkalinity = fin (1e6 * qTrue) ∧ sr.emf0 = fin 400 ∧ sr.used.count true = 0 ∧
    sr.alkalinity_std = nan := by
  obtain ⟨sr, h, hu⟩ := rf_solve 5 6 (by norm_num)
  obtain ⟨totals, ks, hl⟩ := q_load 400
  rw [← rf_load 5 6] at hl
  obtain ⟨g, hg⟩ := q_gran 400 qAcid
  refine ⟨sr, _, h, C125_no_points rfWorld lsCareful_refuses lsCareful_idle _ _ _ _ sr _ h (.inl rfl)
    _ totals ks hl 1 5 6 (.inr ⟨rfl, rfl⟩) (.inl rfl) (.inl rfl) "v23.7+" (.inr ⟨rfl, rfl⟩) g hg qTrue 400
    (.inl rfl) (.inl rfl) ?_⟩
  intro p hp y hy
  have he : emf_to_pH_arr (qCv 400).measurement (fin 400) (qCv 400).temperature
      = [-Real.logb 10 2e-4, -Real.logb 10 9e-4].map fin := (q_used 400).1
  rw [he] at hp
  obtain ⟨h1, h2, h3, h4⟩ := rf_pH
  simp only [List.map_cons, List.map_nil, List.mem_cons, List.not_mem_nil, or_false] at hp
  rcases hp with rfl | rfl <;> cases hy <;> left <;> linarith

/-- with a window that has one of them, every EMF0 goes with some alkalinity -/
example : ∃ sr T, files_solve rfWorld "a.dat" (fin qAcid) (fin 35) (rfArgs 3.1 4) = .ok (.emf sr T) ∧
    ∃ A : ℝ → ℝ, (∀ E, (mask sr.used (qPts 400)).map
      (pointMisfit pContents qConstants qAcid 1 0 0.1 (A E) E) = [0]) ∧ ∀ E E', E < E' → A E < A E' := by
  obtain ⟨sr, h, hu⟩ := rf_solve 3.1 4 (by norm_num)
  refine ⟨sr, _, h, C125_one_point rfWorld _ _ _ _ _ _ _ _ _ _ (rf_run 3.1 4) sr _ h ?_⟩
  obtain ⟨h1, h2, h3, h4⟩ := rf_pH
  rw [hu, pH_used_fin]
  have e1 : inWin 3.1 4 (-Real.logb 10 2e-4) = true := by
    simp only [inWin, Bool.and_eq_true, decide_eq_true_eq]
    exact ⟨h1.le, h2.le⟩
  have e2 : inWin 3.1 4 (-Real.logb 10 9e-4) = false := by
    simp only [inWin, Bool.and_eq_false_iff, decide_eq_false_iff_not]
    exact .inl (by linarith)
  simp only [List.map_cons, List.map_nil, e1, e2]
  rfl

/-- and for a calibration and a data set -/
example (p : ℝ) (hp : 3 ≤ p ∧ p ≤ 4) : ∃ (q A : ℝ) (res : LsqResult Flt) (sr : SolveRes) (a : ℝ),
    files_calibrate (calWorld p q) "a.dat" (fin (1e6 * A)) (fin 35) pArgs = .ok res ∧
    files_solve (calWorld p q) "a.dat" (fin 0.1) (fin 35) pArgs = .ok sr ∧ sr.alkalinity = fin a ∧
    pointsNeeded sr ≤ pointsUsed sr := by
  obtain ⟨q, A, res, -, h, -, -⟩ := cal_calibrates p hp
  obtain ⟨-, sr, a, h1, h2, h3⟩ := C125_calibrated (calWorld p q) lsqOnce_refuses "a.dat" _ _ _ res 0.1 (.inr ⟨rfl, rfl⟩) (cal_regular p q) rfl h
  exact ⟨q, A, res, sr, a, h, h1, h2, h3⟩

example (p : ℝ) (hp : 3 ≤ p ∧ p ≤ 4) : ∃ (q A : ℝ) (df' : DF) (r : Row) (n : ℕ),
    dataset_calibrate (calWorld p q) [] ⟨dtCols, [dtRow (fin (1e6 * A)), dtRow nan]⟩ = (.ok (), df') ∧
    r ∈ df'.rows ∧ r "alkalinity" = .num (fin (1e6 * A)) ∧ r "alkalinity_npts" = .num (fin n) ∧
    ((r "emf0").isNull = true → 1 ≤ n) := by
  obtain ⟨q, A, df', r1, r2, -, h, hr, -, ha, -⟩ := dt_calibrates p hp
  obtain ⟨n, h1, h2, -⟩ := c125_rows (calWorld p q) lsCareful_refuses
    lsCareful_idle [] _ df' (.inr (.inl h)) r2 (by rw [hr]; simp) (by rw [ha]; rfl)
  exact ⟨q, A, df', r2, n, h, by rw [hr]; simp, ha, h1, h2⟩

end Calk
