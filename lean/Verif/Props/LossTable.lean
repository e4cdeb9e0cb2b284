import Verif.Props.Loss
import Verif.Lemmas.Gran

/-! # The high-resolution DIC-loss table (C75-C77) -/

namespace Calk
open Flt

/-- Assumption on scipy: one interpolated value for each place asked for. -/
def LossLib.Regular (lib : LossLib) : Prop :=
  ∀ xi yi x ys, lib.pchip xi yi x = .ok ys → ys.length = x.length

/-- One row of the table -/
structure LossRow where
  mass : Flt
  dic : Flt
  delta : Flt

/-- DIC balance over one titrant step `s` from row `a` to row `b`: dilution by the titrant, and loss
in proportion to the excess fCO2 at `a`. -/
def StepBalance (k M s : Flt) (a b : LossRow) : Prop :=
  b.dic = a.dic * ((M + a.mass) / (s + (M + a.mass))) - k * a.delta * s

/-- rows of the table -/
def lossRows : List Flt → List Flt → List Flt → List LossRow
  | m :: ms, c :: cs, d :: ds => ⟨m, c, d⟩ :: lossRows ms cs ds
  | _, _, _ => []

/-- the pH falls below the split once and for all: first come points at or above it, then points
below it -/
def CrossesOnce (split : Flt) (pH : List Flt) : Prop :=
  ∃ hi lo, pH = hi ++ lo ∧ (∀ p ∈ hi, split.le p = true) ∧ ∀ p ∈ lo, p.lt split = true

/-! ## Lemmas -/

theorem le_lt_excl (a b : Flt) (h : a.le b = true) : b.lt a = false := by
  cases a <;> cases b <;> simp_all [Flt.le, Flt.lt]

theorem lt_le_excl (a b : Flt) (h : b.lt a = true) : a.le b = false := by
  cases a <;> cases b <;> simp_all [Flt.le, Flt.lt]

theorem le_or_lt (a b : Flt) (ha : a.isNaN = false) (hb : b.isNaN = false) :
    a.le b = true ∨ b.lt a = true := by
  cases a <;> cases b <;> simp_all [Flt.le, Flt.lt, Flt.isNaN, le_or_gt]

theorem mask_append {α : Type} (u v : List Bool) (xs ys : List α) (h : u.length = xs.length) :
    mask (u ++ v) (xs ++ ys) = mask u xs ++ mask v ys := by
  unfold mask
  rw [List.zip_append h, List.filter_append, List.map_append]

theorem mask_all {α : Type} (u : List Bool) (xs : List α) (h : u.length = xs.length)
    (hu : ∀ b ∈ u, b = true) : mask u xs = xs := by
  induction u generalizing xs with
  | nil => simp [List.length_eq_zero_iff.mp h.symm]
  | cons b u ih => cases xs with
    | nil => simp
    | cons x xs =>
      rw [hu b List.mem_cons_self, mask_cons_true, ih xs (by simpa using h) fun b hb =>
        hu b (List.mem_cons_of_mem _ hb)]

theorem mask_none {α : Type} (u : List Bool) (xs : List α) (hu : ∀ b ∈ u, b = false) :
    mask u xs = [] := by
  induction u generalizing xs with
  | nil => simp
  | cons b u ih => cases xs with
    | nil => simp
    | cons x xs =>
      rw [hu b List.mem_cons_self, mask_cons_false, ih xs fun b hb => hu b (List.mem_cons_of_mem _ hb)]

theorem mask_length {α : Type} (u : List Bool) (xs : List α) (h : u.length = xs.length) :
    (mask u xs).length = (u.filter id).length := by
  induction u generalizing xs with
  | nil => simp
  | cons b u ih => cases xs with
    | nil => simp at h
    | cons x xs =>
      have := ih xs (by simpa using h)
      cases b <;> simp [this]

theorem loss_fill_rows {k M s : Flt} : ∀ {dic : Flt} {masses deltas ys : List Flt},
    loss_fill k M s dic masses deltas = .ok ys →
    ys.length = deltas.length ∧ ys.head? = some dic ∧
      (deltas.length = masses.length → List.IsChain (StepBalance k M s) (lossRows masses ys deltas)) := by
  intro dic masses
  induction masses generalizing dic with
  | nil =>
    intro deltas ys h
    match deltas, h with
    | [d], h => obtain rfl := Except.ok.inj h; simp
    | _ :: _ :: _, h => simp [loss_fill] at h
    | [], h => simp [loss_fill] at h
  | cons m masses ih =>
    intro deltas ys h
    match deltas, h with
    | [d], h =>
      simp only [loss_fill] at h
      obtain rfl := Except.ok.inj h
      refine ⟨rfl, rfl, fun hl => ?_⟩
      simp only [List.length_cons, List.length_nil, Nat.add_right_cancel_iff] at hl
      obtain rfl := List.length_eq_zero_iff.mp hl.symm
      exact List.isChain_singleton _
    | d :: d' :: ds, h =>
      simp only [loss_fill] at h
      obtain ⟨rest, hrest, h⟩ := bind_ok_iff.mp h
      obtain rfl := Except.ok.inj h
      obtain ⟨h1, h2, h3⟩ := ih hrest
      refine ⟨by simpa using h1, rfl, fun hl => ?_⟩
      have h3 := h3 (by simpa using hl)
      match masses, rest, h1, h2, h3 with
      | [], _, _, _, _ => simp at hl
      | m' :: ms, c :: cs, _, h2, h3 =>
        simp only [List.head?_cons, Option.some.injEq] at h2
        simp only [lossRows] at h3 ⊢
        refine List.isChain_cons_cons.mpr ⟨?_, h3⟩
        simp only [StepBalance, h2, loss_step, get_dilution_factor]
    | [], h => simp [loss_fill] at h

theorem forecast_fill_rows (k M s air : Flt) : ∀ (dic delta : Flt) (masses : List Flt)
    (points : List LossPoint), masses ≠ [] → points.length = masses.length →
    (forecast_fill k M s air dic delta masses points).length = masses.length ∧
      (forecast_fill k M s air dic delta masses points).head? = some (dic, delta) ∧
      List.IsChain (StepBalance k M s) (lossRows masses
        ((forecast_fill k M s air dic delta masses points).map Prod.fst)
        ((forecast_fill k M s air dic delta masses points).map Prod.snd)) := by
  intro dic delta masses
  induction masses generalizing dic delta with
  | nil => intro _ h; exact absurd rfl h
  | cons m masses ih =>
    intro points _ hl
    match masses, points, hl with
    | [], [p], _ => simp [forecast_fill, lossRows]
    | m' :: masses, p :: p' :: points, hl =>
      obtain ⟨h1, h2, h3⟩ := ih (loss_step k M s dic m delta)
        (delta_fCO2 air (loss_step k M s dic m delta) p') (p' :: points) (by simp) (by simpa using hl)
      simp only [forecast_fill]
      refine ⟨by simpa using h1, rfl, ?_⟩
      generalize forecast_fill k M s air (loss_step k M s dic m delta)
        (delta_fCO2 air (loss_step k M s dic m delta) p') (m' :: masses) (p' :: points) = r at *
      match r, h2 with
      | x :: r, h2 =>
        simp only [List.head?_cons, Option.some.injEq] at h2
        simp only [List.map_cons, lossRows] at h3 ⊢
        refine List.isChain_cons_cons.mpr ⟨?_, h3⟩
        simp only [StepBalance, h2, loss_step, get_dilution_factor]

theorem lossRows_append : ∀ {a b c : List Flt}, a.length = b.length → b.length = c.length →
    ∀ (a' b' c' : List Flt),
    lossRows (a ++ a') (b ++ b') (c ++ c') = lossRows a b c ++ lossRows a' b' c' := by
  intro a
  induction a with
  | nil =>
    intro b c h1 h2 a' b' c'
    obtain rfl := List.length_eq_zero_iff.mp h1.symm
    obtain rfl := List.length_eq_zero_iff.mp h2.symm
    rfl
  | cons x a ih =>
    intro b c h1 h2 a' b' c'
    match b, c, h1, h2 with
    | y :: b, z :: c, h1, h2 => simp [lossRows, ih (by simpa using h1) (by simpa using h2)]

theorem lossRows_getLast? : ∀ {a b c : List Flt}, a.length = b.length → b.length = c.length →
    ∀ {x y z : Flt}, a.getLast? = some x → b.getLast? = some y → c.getLast? = some z →
    (lossRows a b c).getLast? = some ⟨x, y, z⟩ := by
  intro a
  induction a with
  | nil => intro b c _ _ x y z h; simp at h
  | cons u a ih =>
    intro b c h1 h2 x y z ha hb hc
    match b, c, h1, h2 with
    | v :: b, w :: c, h1, h2 =>
      match a, b, c with
      | [], [], [] => simp_all [lossRows]
      | u' :: a, v' :: b, w' :: c =>
        rw [List.getLast?_cons_cons] at ha hb hc
        have := ih (by simpa using h1) (by simpa using h2) ha hb hc
        rw [lossRows, lossRows, List.getLast?_cons_cons, ← lossRows]
        exact this

/-- what a successful run did -/
structure HiresRun (lib : LossLib) (inp : LossIn) (hi : LossHires) where
  i_delta : List Flt
  i_dic : List Flt
  f : List LossPoint
  start : LossPoint
  last : Flt
  delta_start : Flt
  dic_start : Flt
  fs : List (Flt × Flt)
  masses : loss_masses inp = .ok hi.titrant_mass
  pH : lib.pchip inp.titrant_mass inp.pH hi.titrant_mass = .ok hi.pH
  delta : ∃ d, lib.pchip inp.titrant_mass d
    (mask (hi.pH.map fun p => inp.split_pH.le p) hi.titrant_mass) = .ok i_delta
  points : loss_points lib inp (mask (hi.pH.map fun p => p.lt inp.split_pH) hi.titrant_mass) = .ok f
  hlast : pyLast (mask (hi.pH.map fun p => inp.split_pH.le p) hi.titrant_mass) = .ok last
  fitted : dic_loss_model_fitted hi.k_dic_loss
    (mask (hi.pH.map fun p => inp.split_pH.le p) hi.titrant_mass) i_delta inp.dic_start
    inp.analyte_mass (loss_step_tm inp) = .ok i_dic
  hdelta : pyLast i_delta = .ok delta_start
  hdic : pyLast i_dic = .ok dic_start
  future : dic_loss_model_future hi.k_dic_loss
    (mask (hi.pH.map fun p => p.lt inp.split_pH) hi.titrant_mass) f delta_start dic_start start
    inp.analyte_mass (loss_step_tm inp) inp.fCO2_air = .ok fs
  dic : hi.dic = i_dic ++ fs.map Prod.fst
  deltas : hi.delta_fCO2 = i_delta ++ fs.map Prod.snd

theorem hires_run {lib : LossLib} {inp : LossIn} {hi : LossHires}
    (h : get_dic_loss_hires lib inp = .ok hi) : Nonempty (HiresRun lib inp hi) := by
  unfold get_dic_loss_hires at h
  simp only [bind_ok_iff] at h
  obtain ⟨ds, _, ms, hms, pH, hpH, y, _, idl, hidl, f, hf, last, hlast, start, _, k, _, idic, hidic,
    d0, hd0, c0, hc0, fs, hfs, h⟩ := h
  obtain rfl := Except.ok.inj h
  exact ⟨⟨idl, idic, f, start, last, d0, c0, fs, hms, hpH, ⟨_, hidl⟩, hf, hlast, hidic, hd0, hc0, hfs,
    rfl, rfl⟩⟩

theorem pyLast_iff {xs : List Flt} {x : Flt} : pyLast xs = .ok x ↔ xs.getLast? = some x := by
  unfold pyLast
  cases xs.getLast? <;> simp

theorem loss_points_length {lib : LossLib} (hr : lib.Regular) {inp : LossIn} {xs : List Flt}
    {f : List LossPoint} (h : loss_points lib inp xs = .ok f) : f.length = xs.length := by
  unfold loss_points at h
  simp only [bind_ok_iff] at h
  obtain ⟨a, ha, b, hb, c, hc, d, hd, h⟩ := h
  obtain rfl := Except.ok.inj h
  simp [lossPoints, hr _ _ _ _ ha, hr _ _ _ _ hb, hr _ _ _ _ hc, hr _ _ _ _ hd]

/-! ## C76 -/

/-- **C76**: the loss can only be modelled if the interpolated pH has points on both sides of the
split; otherwise the call raises. -/
theorem C76_crossing {lib : LossLib} {inp : LossIn} {r}
    (h : get_dic_loss lib inp = .ok r) :
    ∃ masses pH, loss_masses inp = .ok masses ∧
      lib.pchip inp.titrant_mass inp.pH masses = .ok pH ∧
      (∃ p ∈ pH, inp.split_pH.le p = true) ∧ ∃ p ∈ pH, p.lt inp.split_pH = true := by
  unfold get_dic_loss at h
  obtain ⟨hi, hhi, h⟩ := bind_ok_iff.mp h
  obtain ⟨run⟩ := hires_run hhi
  refine ⟨hi.titrant_mass, hi.pH, run.masses, run.pH, ?_, ?_⟩
  · by_contra hc
    push Not at hc
    have : mask (hi.pH.map fun p => inp.split_pH.le p) hi.titrant_mass = [] := by
      refine mask_none _ _ fun b hb => ?_
      obtain ⟨p, hp, rfl⟩ := List.mem_map.mp hb
      simpa using hc p hp
    have hl := run.hlast
    rw [this] at hl
    cases hl
  · by_contra hc
    push Not at hc
    have : mask (hi.pH.map fun p => p.lt inp.split_pH) hi.titrant_mass = [] := by
      refine mask_none _ _ fun b hb => ?_
      obtain ⟨p, hp, rfl⟩ := List.mem_map.mp hb
      simpa using hc p hp
    have hl := run.future
    rw [this] at hl
    cases hl

/-- Assumption on scipy: interpolation does not raise, and the optimiser finds a rate for residuals
that can be evaluated. -/
structure LossLib.Total (lib : LossLib) : Prop where
  pchip : ∀ xi yi x, ∃ ys, lib.pchip xi yi x = .ok ys
  lsq : ∀ f x, (∀ k, ∃ ys, f k = .ok ys) → ∃ k, lib.lsq f x = .ok k

theorem delta_fCO2_loss_ok {inp : LossIn} (hne : inp.fCO2_loss ≠ []) :
    ∃ ds, delta_fCO2_loss inp = .ok ds := by
  have : ∃ t, npNanMax inp.fCO2_loss = .ok t := by
    unfold npNanMax
    split
    · rw [if_neg (by simpa using hne)]; exact ⟨_, rfl⟩
    · exact ⟨_, rfl⟩
  obtain ⟨t, ht⟩ := this
  unfold delta_fCO2_loss
  rw [ht, bind_ok]
  exact ⟨_, rfl⟩

theorem loss_points_ok {lib : LossLib} (ht : lib.Total) (inp : LossIn) (xs : List Flt) :
    ∃ f, loss_points lib inp xs = .ok f := by
  obtain ⟨a, ha⟩ := ht.pchip inp.titrant_mass inp.pH xs
  obtain ⟨b, hb⟩ := ht.pchip inp.titrant_mass inp.k_CO2 xs
  obtain ⟨c, hc⟩ := ht.pchip inp.titrant_mass inp.k_carbonic_1 xs
  obtain ⟨d, hd⟩ := ht.pchip inp.titrant_mass inp.k_carbonic_2 xs
  unfold loss_points
  simp only [ha, hb, hc, hd, bind_ok]
  exact ⟨_, rfl⟩

theorem loss_start_ok {lib : LossLib} (ht : lib.Total) (inp : LossIn) (x : Flt) :
    ∃ f, loss_start lib inp x = .ok f := by
  obtain ⟨a, ha⟩ := ht.pchip inp.titrant_mass inp.pH [x]
  obtain ⟨b, hb⟩ := ht.pchip inp.titrant_mass inp.k_CO2 [x]
  obtain ⟨c, hc⟩ := ht.pchip inp.titrant_mass inp.k_carbonic_1 [x]
  obtain ⟨d, hd⟩ := ht.pchip inp.titrant_mass inp.k_carbonic_2 [x]
  unfold loss_start LossLib.pchip1
  simp only [ha, hb, hc, hd, bind_ok, pure_ok]
  exact ⟨_, rfl⟩

theorem loss_fill_ok (k M s : Flt) : ∀ (im d : List Flt) (c : Flt), im ≠ [] → d.length = im.length →
    ∃ ys, loss_fill k M s c im d = .ok ys := by
  intro im
  induction im with
  | nil => intro d c h; exact absurd rfl h
  | cons m im ih =>
    intro d c _ hdl
    match d, hdl with
    | [x], _ => exact ⟨_, by simp only [loss_fill]; rfl⟩
    | x :: x' :: d, hdl =>
      have him1 : im ≠ [] := by rintro rfl; simp at hdl
      obtain ⟨ys, hys⟩ := ih (x' :: d) (loss_step k M s c m x) him1 (by simpa using hdl)
      simp only [loss_fill, hys, bind_ok, pure_ok]
      exact ⟨_, rfl⟩

/-- with cooperative libraries, what the call comes to -/
theorem hires_cases {lib : LossLib} (hr : lib.Regular) (ht : lib.Total) {inp : LossIn}
    {masses pH : List Flt} (hne : inp.fCO2_loss ≠ []) (hms : loss_masses inp = .ok masses)
    (hpH : lib.pchip inp.titrant_mass inp.pH masses = .ok pH) :
    (mask (pH.map fun p => inp.split_pH.le p) masses = [] ∨
        mask (pH.map fun p => p.lt inp.split_pH) masses = []) ∧
      get_dic_loss_hires lib inp = .error .IndexError ∨
    (mask (pH.map fun p => inp.split_pH.le p) masses ≠ [] ∧
        mask (pH.map fun p => p.lt inp.split_pH) masses ≠ []) ∧
      ∃ hi, get_dic_loss_hires lib inp = .ok hi ∧ hi.titrant_mass = masses ∧ hi.pH = pH := by
  obtain ⟨ds, hds⟩ := delta_fCO2_loss_ok hne
  unfold get_dic_loss_hires
  rw [hds, bind_ok, hms, bind_ok, hpH, bind_ok]
  generalize him : mask (pH.map fun p => inp.split_pH.le p) masses = im
  generalize hfm : mask (pH.map fun p => p.lt inp.split_pH) masses = fm
  obtain ⟨y, hy⟩ := ht.pchip inp.titrant_mass (zeroNaN inp.dic_loss) im
  obtain ⟨d, hd⟩ := ht.pchip inp.titrant_mass ds im
  obtain ⟨f, hf⟩ := loss_points_ok ht inp fm
  dsimp only
  rw [hy, bind_ok, hd, bind_ok, hf, bind_ok]
  cases him2 : im.getLast? with
  | none =>
    left
    have : pyLast im = .error .IndexError := by unfold pyLast; rw [him2]
    rw [this]
    exact ⟨.inl (List.getLast?_eq_none_iff.mp him2), rfl⟩
  | some last =>
    rw [pyLast_iff.mpr him2, bind_ok]
    obtain ⟨start, hst⟩ := loss_start_ok ht inp last
    rw [hst, bind_ok]
    have hdl := hr _ _ _ _ hd
    have hyl := hr _ _ _ _ hy
    have him0 : im ≠ [] := by rintro rfl; simp at him2
    have hfit : ∀ k, ∃ ys, dic_loss_model_fitted k im d inp.dic_start inp.analyte_mass
        (loss_step_tm inp) = .ok ys ∧ ys.length = d.length := by
      intro k
      obtain ⟨ys, hys⟩ := loss_fill_ok k inp.analyte_mass (loss_step_tm inp) im d
        (inp.dic_start * fin 1e6) him0 hdl
      exact ⟨ys, hys, (loss_fill_rows hys).1⟩
    obtain ⟨k, hk⟩ := ht.lsq (fun k => lsqfun_dic_loss_model k im d inp.dic_start inp.analyte_mass
      (loss_step_tm inp) y) (fin 1) (fun k => by
        obtain ⟨ys, hys, hl⟩ := hfit k
        unfold lsqfun_dic_loss_model
        rw [hys, bind_ok, sub_arrays, if_pos (by omega)]
        exact ⟨_, rfl⟩)
    rw [hk, bind_ok]
    obtain ⟨ys, hys, hl⟩ := hfit k
    rw [hys, bind_ok]
    have hd0 : d ≠ [] := by
      rintro rfl; exact him0 (List.length_eq_zero_iff.mp (by simpa using hdl.symm))
    have hy0 : ys ≠ [] := by
      rintro rfl; exact hd0 (List.length_eq_zero_iff.mp (by simpa using hl.symm))
    rw [pyLast_iff.mpr (List.getLast?_eq_some_getLast hd0), bind_ok,
      pyLast_iff.mpr (List.getLast?_eq_some_getLast hy0), bind_ok]
    cases fm with
    | nil => exact .inl ⟨.inr rfl, rfl⟩
    | cons m fm => exact .inr ⟨⟨him0, by simp⟩, _, rfl, rfl, rfl⟩

theorem mask_map_nil_iff {p : Flt → Bool} {pH masses : List Flt} (hl : pH.length = masses.length) :
    mask (pH.map p) masses = [] ↔ ∀ x ∈ pH, p x = false := by
  rw [← List.length_eq_zero_iff, mask_length _ _ (by simpa using hl)]
  induction pH generalizing masses with
  | nil => simp
  | cons x pH ih =>
    match masses, hl with
    | m :: masses, hl =>
      have := ih (masses := masses) (by simpa using hl)
      cases hx : p x <;> simp [hx] <;> simpa using this

/-- **C76**: if the libraries do their part, the loss model raises `IndexError` exactly when no
interpolated pH is at or above the split, or none is below it. -/
theorem C76_error {lib : LossLib} (hr : lib.Regular) (ht : lib.Total) {inp : LossIn}
    {masses pH : List Flt} (hne : inp.fCO2_loss ≠ []) (hms : loss_masses inp = .ok masses)
    (hpH : lib.pchip inp.titrant_mass inp.pH masses = .ok pH) :
    (((∀ p ∈ pH, inp.split_pH.le p = false) ∨ ∀ p ∈ pH, p.lt inp.split_pH = false) ↔
      get_dic_loss lib inp = .error .IndexError) ∧
    (((∃ p ∈ pH, inp.split_pH.le p = true) ∧ ∃ p ∈ pH, p.lt inp.split_pH = true) ↔
      ∃ r, get_dic_loss lib inp = .ok r) := by
  have hl := hr _ _ _ _ hpH
  have e1 := mask_map_nil_iff (p := fun p => inp.split_pH.le p) hl
  have e2 := mask_map_nil_iff (p := fun p => p.lt inp.split_pH) hl
  have hneg : ((∃ p ∈ pH, inp.split_pH.le p = true) ∧ ∃ p ∈ pH, p.lt inp.split_pH = true) ↔
      ¬ ((∀ p ∈ pH, inp.split_pH.le p = false) ∨ ∀ p ∈ pH, p.lt inp.split_pH = false) := by
    push Not
    simp
  rw [hneg, ← e1, ← e2]
  rcases hires_cases hr ht hne hms hpH with ⟨h, he⟩ | ⟨h, hi, hhi, _⟩
  · have : get_dic_loss lib inp = .error .IndexError := by unfold get_dic_loss; rw [he]; rfl
    rw [this]
    exact ⟨⟨fun _ => rfl, fun _ => h⟩, fun hn => absurd h hn, fun ⟨_, hr⟩ => by cases hr⟩
  · obtain ⟨a, ha⟩ := ht.pchip hi.titrant_mass hi.dic inp.titrant_mass
    obtain ⟨b, hb⟩ := ht.pchip hi.titrant_mass hi.delta_fCO2 inp.titrant_mass
    have : ∃ r, get_dic_loss lib inp = .ok r := by
      unfold get_dic_loss
      rw [hhi, bind_ok, ha, bind_ok, hb, bind_ok]
      exact ⟨_, rfl⟩
    obtain ⟨r, hr⟩ := this
    rw [hr]
    exact ⟨⟨fun hn => absurd hn (not_or.mpr h), fun hh => by cases hh⟩, fun _ => ⟨r, rfl⟩,
      fun _ => not_or.mpr h⟩

/-! ## C75 -/

/-- **C75**: the DIC column has one row for each place at which the pH is a number (with NaNs among
the interpolated pH it is shorter than the table's other columns). -/
theorem C75_length {lib : LossLib} (hr : lib.Regular) {inp : LossIn} {hi : LossHires}
    (hs : inp.split_pH.isNaN = false) (h : get_dic_loss_hires lib inp = .ok hi) :
    hi.pH.length = hi.titrant_mass.length ∧ hi.delta_fCO2.length = hi.dic.length ∧
      hi.dic.length = (hi.pH.filter fun p => !p.isNaN).length := by
  obtain ⟨run⟩ := hires_run h
  have hpl := hr _ _ _ _ run.pH
  obtain ⟨d, hd⟩ := run.delta
  have hdl := hr _ _ _ _ hd
  have hfl := loss_points_length hr run.points
  have hil := (loss_fill_rows run.fitted).1
  have hfs : run.fs.length = (mask (hi.pH.map fun p => p.lt inp.split_pH) hi.titrant_mass).length := by
    have hf := run.future
    unfold dic_loss_model_future at hf
    split at hf
    · cases hf
    · rename_i m ms hm
      obtain hf := Except.ok.inj hf
      rw [← hf]
      exact (forecast_fill_rows _ _ _ _ _ _ _ _ (by rw [hm]; simp) hfl).1
  refine ⟨hpl, ?_, ?_⟩
  · rw [run.dic, run.deltas, List.length_append, List.length_append, hil, List.length_map,
      List.length_map]
  · rw [run.dic, List.length_append, List.length_map, hil, hdl, hfs, mask_length _ _ (by simpa using hpl),
      mask_length _ _ (by simpa using hpl)]
    generalize hi.pH = pH
    clear hpl
    induction pH with
    | nil => rfl
    | cons p pH ih =>
      cases hp : p.isNaN with
      | true =>
        rw [isNaN_iff] at hp
        subst hp
        simpa using ih
      | false =>
        rcases le_or_lt _ _ hs hp with h | h
        · have := le_lt_excl _ _ h
          simp only [List.map_cons, h, this, List.filter_cons, id, if_true, hp, Bool.not_false,
            List.length_cons]
          simp at ih ⊢; omega
        · have := lt_le_excl _ _ h
          simp only [List.map_cons, h, this, List.filter_cons, id, if_true, hp, Bool.not_false,
            List.length_cons]
          simp at ih ⊢; omega

theorem add_sub_step (a : Flt) (x s : ℝ) : a + fin x - fin s = a + fin (x - s) := by
  cases a with
  | fin a => rw [add_fin, sub_fin, add_fin, add_sub_assoc]
  | nan => rfl
  | ninf => rfl
  | pinf => rfl

theorem evenMasses_map_split {n : ℕ} {s : ℝ} {a b : List Flt} {x y : Flt}
    (h : ((List.range n).map fun i : ℕ => fin (i * s)) = a ++ b) (hx : a.getLast? = some x)
    (hy : b.head? = some y) : ∃ j : ℝ, y = fin j ∧ x = fin (j - s) := by
  obtain ⟨a', rfl⟩ : ∃ a', a = a' ++ [x] := by
    obtain ⟨l, hl⟩ := List.getLast?_eq_some_iff.mp hx
    exact ⟨l, hl⟩
  obtain ⟨b', rfl⟩ : ∃ b', b = y :: b' := by
    cases b with
    | nil => simp at hy
    | cons z b => simp only [List.head?_cons, Option.some.injEq] at hy; exact ⟨b, by rw [hy]⟩
  have hn : n = a'.length + 1 + (b'.length + 1) := by
    have := congrArg List.length h
    simp at this; omega
  have h1 := congrArg (fun l => l[a'.length]?) h
  have h2 := congrArg (fun l => l[a'.length + 1]?) h
  simp only [List.getElem?_map] at h1 h2
  rw [List.getElem?_range (by omega)] at h1 h2
  simp only [List.append_assoc, List.cons_append, List.nil_append, Option.map_some] at h1 h2
  rw [List.getElem?_append_right le_rfl, Nat.sub_self] at h1
  rw [List.getElem?_append_right (by omega), Nat.add_sub_cancel_left] at h2
  simp only [List.getElem?_cons_zero, List.getElem?_cons_succ, Option.some.injEq] at h1 h2
  refine ⟨_, h2.symm, h1.symm.trans ?_⟩
  congr 1
  push_cast; ring

/-- **C75**: if the interpolated pH crosses the split once, the table has a row for every titrant
mass, its first DIC is the starting DIC, and the DIC balance holds from every row to the next, across
the boundary between fit and forecast too. -/
theorem C75_balance {lib : LossLib} (hr : lib.Regular) {inp : LossIn} {hi : LossHires}
    (h : get_dic_loss_hires lib inp = .ok hi) (hone : CrossesOnce inp.split_pH hi.pH) :
    hi.dic.length = hi.titrant_mass.length ∧ hi.delta_fCO2.length = hi.titrant_mass.length ∧
      hi.dic.head? = some (inp.dic_start * fin 1e6) ∧
      List.IsChain (StepBalance hi.k_dic_loss inp.analyte_mass (loss_step_tm inp))
        (lossRows hi.titrant_mass hi.dic hi.delta_fCO2) := by
  obtain ⟨run⟩ := hires_run h
  have hpl := hr _ _ _ _ run.pH
  obtain ⟨d, hd⟩ := run.delta
  have hdl := hr _ _ _ _ hd
  have hfl := loss_points_length hr run.points
  obtain ⟨hil, hhead, hchain⟩ := loss_fill_rows run.fitted
  obtain ⟨top, bot, hpH, htop, hbot⟩ := hone
  obtain ⟨im, fm, hm, hml⟩ : ∃ im fm, hi.titrant_mass = im ++ fm ∧ im.length = top.length :=
    ⟨hi.titrant_mass.take top.length, hi.titrant_mass.drop top.length,
      (List.take_append_drop _ _).symm, by
        rw [List.length_take, ← hpl, hpH, List.length_append]; omega⟩
  have hml' : fm.length = bot.length := by
    have := congrArg List.length hm
    rw [← hpl, hpH, List.length_append, List.length_append] at this; omega
  have himask : mask (hi.pH.map fun p => inp.split_pH.le p) hi.titrant_mass = im := by
    rw [hpH, hm, List.map_append, mask_append _ _ _ _ (by simp [hml]),
      mask_all _ _ (by simp [hml]) (by
        intro b hb; obtain ⟨p, hp, rfl⟩ := List.mem_map.mp hb; exact htop p hp),
      mask_none _ _ (by
        intro b hb; obtain ⟨p, hp, rfl⟩ := List.mem_map.mp hb; exact lt_le_excl _ _ (hbot p hp)),
      List.append_nil]
  have hfmask : mask (hi.pH.map fun p => p.lt inp.split_pH) hi.titrant_mass = fm := by
    rw [hpH, hm, List.map_append, mask_append _ _ _ _ (by simp [hml]),
      mask_all _ fm (by simp [hml']) (by
        intro b hb; obtain ⟨p, hp, rfl⟩ := List.mem_map.mp hb; exact hbot p hp),
      mask_none _ _ (by
        intro b hb; obtain ⟨p, hp, rfl⟩ := List.mem_map.mp hb; exact le_lt_excl _ _ (htop p hp)),
      List.nil_append]
  rw [himask] at hdl hchain
  rw [hfmask] at hfl
  have hchain := hchain hdl
  have hlast := run.hlast
  rw [himask, pyLast_iff] at hlast
  have hfut := run.future
  rw [hfmask] at hfut
  unfold dic_loss_model_future at hfut
  split at hfut
  · cases hfut
  rename_i m ms
  obtain hfut := Except.ok.inj hfut
  obtain ⟨g1, g2, g3⟩ := forecast_fill_rows hi.k_dic_loss inp.analyte_mass (loss_step_tm inp)
    inp.fCO2_air (run.dic_start * get_dilution_factor (loss_step_tm inp)
      (inp.analyte_mass + m - loss_step_tm inp) - hi.k_dic_loss * run.delta_start * loss_step_tm inp)
    (delta_fCO2 inp.fCO2_air (run.dic_start * get_dilution_factor (loss_step_tm inp)
      (inp.analyte_mass + m - loss_step_tm inp) - hi.k_dic_loss * run.delta_start * loss_step_tm inp)
      run.start) (m :: ms) run.f (by simp) hfl
  rw [hfut] at g1 g2 g3
  -- the splice
  have hsplice : inp.analyte_mass + m - loss_step_tm inp = inp.analyte_mass + run.last := by
    have hmass := run.masses
    unfold loss_masses at hmass
    obtain ⟨topm, htopm, hmass⟩ := bind_ok_iff.mp hmass
    unfold npArange0 at hmass
    split at hmass
    · rename_i b s hs
      rw [hs]
      split at hmass
      · cases hmass
      · obtain hmass := Except.ok.inj hmass
        rw [hm] at hmass
        obtain ⟨j, hj, hl⟩ := evenMasses_map_split hmass hlast rfl
        rw [hj, hl, add_sub_step]
    · cases hmass
  rw [hsplice] at g2
  refine ⟨?_, ?_, ?_, ?_⟩
  · rw [run.dic, hm, List.length_append, List.length_append, List.length_map, hil, hdl, g1]
  · rw [run.deltas, hm, List.length_append, List.length_append, List.length_map, hdl, g1]
  · rw [run.dic]
    cases hx : run.i_dic with
    | nil => rw [hx] at hhead; cases hhead
    | cons x xs => rw [hx] at hhead; simpa using hhead
  · rw [run.dic, run.deltas, hm, lossRows_append (by omega) hil]
    rw [List.isChain_append]
    refine ⟨hchain, g3, fun x hx y hy => ?_⟩
    rw [lossRows_getLast? (by omega) hil hlast (pyLast_iff.mp run.hdic) (pyLast_iff.mp run.hdelta)] at hx
    obtain rfl := Option.some.inj hx
    match hfs : run.fs, g2 with
    | z :: zs, g2 =>
      simp only [List.head?_cons, Option.some.injEq] at g2
      rw [hfs, g2] at hy
      simp only [List.map_cons, lossRows, List.head?_cons, Option.mem_def, Option.some.injEq] at hy
      rw [← hy]
      rfl

/-! ## C77 -/

/-- **C77**: the table's masses are the multiples of a tenth of the median titrant step, from zero,
below the largest titrant mass; so the last point of the titration always lies beyond the table. -/
theorem C77_masses {lib : LossLib} {inp : LossIn} {hi : LossHires}
    (h : get_dic_loss_hires lib inp = .ok hi) :
    ∃ top step : ℝ, npMax inp.titrant_mass = .ok (fin top) ∧
      npMedian (npDiff inp.titrant_mass) / fin 10 = fin step ∧ step ≠ 0 ∧
      (0 < step → ∀ m, m ∈ hi.titrant_mass ↔ ∃ i : ℕ, m = fin (i * step) ∧ i * step < top) := by
  obtain ⟨run⟩ := hires_run h
  have hmass := run.masses
  unfold loss_masses at hmass
  obtain ⟨topm, htopm, hmass⟩ := bind_ok_iff.mp hmass
  unfold npArange0 at hmass
  split at hmass
  · rename_i b s hs
    split at hmass
    · cases hmass
    · rename_i hs0
      obtain hmass := Except.ok.inj hmass
      refine ⟨b, s, htopm, hs, hs0, fun hpos m => ?_⟩
      rw [← hmass, List.mem_map]
      constructor
      · rintro ⟨i, hi, rfl⟩
        refine ⟨i, rfl, ?_⟩
        rw [List.mem_range, Nat.lt_ceil, lt_div_iff₀ hpos] at hi
        exact hi
      · rintro ⟨i, rfl, hi⟩
        refine ⟨i, ?_, rfl⟩
        rw [List.mem_range, Nat.lt_ceil, lt_div_iff₀ hpos]
        exact hi
  · cases hmass

/-- the increments of a list of masses -/
def Spec.increments (tm : List ℝ) : List ℝ := List.zipWith (fun a b => b - a) tm tm.tail

/-- `m` is the median of `xs`: the middle one of the sorted values, or the mean of the two in the middle -/
def Spec.Median (xs : List ℝ) (m : ℝ) : Prop :=
  ∃ ys : List ℝ, ys.Perm xs ∧ ys.Pairwise (· ≤ ·) ∧ ∃ a b : ℝ, ys[(ys.length - 1) / 2]? = some a ∧
    ys[ys.length / 2]? = some b ∧ m = (a + b) / 2

theorem npDiff_fin : ∀ tm : List ℝ, npDiff (tm.map fin) = (Spec.increments tm).map fin
  | [] => rfl
  | [_] => rfl
  | a :: b :: tm => by
    have := npDiff_fin (b :: tm)
    simp only [List.map_cons] at this
    simp only [List.map_cons, npDiff, this, sub_fin]
    simp [Spec.increments]

theorem npMedian_fin {xs : List ℝ} {m : ℝ} (h : npMedian (xs.map fin) = fin m) : Spec.Median xs m := by
  have hs : (xs.map fin).mergeSort Flt.le = (xs.mergeSort fun a b => decide (a ≤ b)).map fin :=
    (List.map_mergeSort (fun a _ b _ => by simp)).symm
  have hp := List.mergeSort_perm xs fun a b => decide (a ≤ b)
  have hl := hp.length_eq
  refine ⟨_, hp, ?_, ?_⟩
  · have := List.pairwise_mergeSort (le := fun a b : ℝ => decide (a ≤ b)) (by
      intro a b c; simp only [decide_eq_true_eq]; exact le_trans) (by
      intro a b; simp only [Bool.or_eq_true, decide_eq_true_eq]; exact le_total a b) xs
    simpa using this
  · generalize xs.mergeSort (fun a b => decide (a ≤ b)) = ys at hs hl
    unfold npMedian at h
    rw [hs] at h
    have hnan : (xs.map fin).any Flt.isNaN = false := by simp [Flt.isNaN]
    simp only [hnan, Bool.false_eq_true, if_false, List.length_map] at h
    rw [← hl] at h
    have get : ∀ i, (ys.map fin).getD i nan = (ys[i]?.map fin).getD nan := by
      intro i; rw [List.getD_eq_getElem?_getD, List.getElem?_map]
    simp only [get] at h
    split at h
    · rename_i ho
      have e : (ys.length - 1) / 2 = ys.length / 2 := by omega
      rw [e]
      cases hy : ys[ys.length / 2]? with
      | none => rw [hy] at h; simp at h
      | some b =>
        rw [hy] at h
        simp only [Option.map_some, Option.getD_some, fin_inj] at h
        exact ⟨b, b, rfl, rfl, by linarith⟩
    · rename_i he
      have e : (ys.length - 1) / 2 = ys.length / 2 - 1 := by omega
      rw [e]
      cases hy : ys[ys.length / 2 - 1]? with
      | none => rw [hy] at h; simp at h
      | some a =>
        cases hz : ys[ys.length / 2]? with
        | none => rw [hy, hz] at h; simp at h
        | some b =>
          rw [hy, hz] at h
          simp only [Option.map_some, Option.getD_some, add_fin] at h
          rw [div_fin _ _ (by norm_num), fin_inj] at h
          exact ⟨a, b, rfl, rfl, h.symm⟩

/-- **C77**: in particular, for a titration with finite masses: the table's masses are the multiples of a tenth of
the median of the increments of the titrant mass, below the largest titrant mass. -/
theorem C77_step {lib : LossLib} {inp : LossIn} {hi : LossHires} {tm : List ℝ} (ht : inp.titrant_mass = tm.map fin)
    (h : get_dic_loss_hires lib inp = .ok hi) :
    ∃ top median : ℝ, top ∈ tm ∧ (∀ m ∈ tm, m ≤ top) ∧ Spec.Median (Spec.increments tm) median ∧ median ≠ 0 ∧
      (0 < median → ∀ m, m ∈ hi.titrant_mass ↔ ∃ i : ℕ, m = fin (i * (median / 10)) ∧ i * (median / 10) < top) := by
  obtain ⟨top, step, h1, h2, h3, h4⟩ := C77_masses h
  rw [ht, npDiff_fin] at h2
  have hne : tm ≠ [] := by rintro rfl; rw [ht] at h1; simp [npMax] at h1
  obtain ⟨t, ht1, ht2, ht3⟩ := npMax_fin hne
  rw [ht, ht3] at h1
  cases Except.ok.inj h1
  cases hm : npMedian ((Spec.increments tm).map fin) with
  | fin m =>
    rw [hm, div_fin _ _ (by norm_num), fin_inj] at h2
    subst h2
    exact ⟨top, m, ht1, ht2, npMedian_fin hm, fun hc => h3 (by rw [hc]; norm_num), fun hpos => h4 (by positivity)⟩
  | nan => rw [hm] at h2; exact absurd h2 (by show Flt.div _ _ ≠ _; simp [Flt.div])
  | pinf => rw [hm] at h2; exact absurd h2 (by show Flt.div _ _ ≠ _; norm_num [Flt.div, infMul]; exact fun h => nomatch h)
  | ninf => rw [hm] at h2; exact absurd h2 (by show Flt.div _ _ ≠ _; norm_num [Flt.div, infMul]; exact fun h => nomatch h)

/-- uneven steps from a first mass that is not zero: 2, 7 and 3, with the median 3 -/
example : Spec.Median (Spec.increments [1, 3, 10, 13]) 3 :=
  ⟨[2, 3, 7], by
    have : Spec.increments [1, 3, 10, 13] = [2, 7, 3] := by norm_num [Spec.increments]
    rw [this]; exact .cons _ (.swap _ _ _), by norm_num, 3, 3, rfl, rfl, by norm_num⟩

/-! ## C78 -/

/-- the excess fCO2 that belongs to a DIC at the pH and with the constants of a point -/
noncomputable def ownDelta (air : Flt) (row : Flt × Flt) (p : LossPoint) : Prop :=
  row.2 = get_fCO2_from_dic_pH row.1 p.pH p.k0 p.k1 p.k2 - air

theorem forecast_fill_own (k M s air : Flt) : ∀ (dic delta : Flt) (p : LossPoint) (masses : List Flt)
    (points : List LossPoint), masses ≠ [] → points.length = masses.length →
    ownDelta air (dic, delta) p →
    List.Forall₂ (ownDelta air) (forecast_fill k M s air dic delta masses points)
      (p :: points.tail) := by
  intro dic delta p masses
  induction masses generalizing dic delta p with
  | nil => intro _ h; exact absurd rfl h
  | cons m masses ih =>
    intro points _ hl hp
    match masses, points, hl with
    | [], [q], _ => exact .cons hp .nil
    | m' :: masses, q :: q' :: points, hl =>
      simp only [forecast_fill]
      exact .cons hp (ih _ _ q' (q' :: points) (by simp) (by simpa using hl) rfl)

/-- **C78**: in the forecast the excess fCO2 of every row belongs to the row's DIC and its own pH and
constants, except that the first row is evaluated with the pH and constants of the last fitted point. -/
theorem C78_forecast {k M s air d0 c0 : Flt} {masses : List Flt} {p : LossPoint}
    {points : List LossPoint} {start : LossPoint} {rows : List (Flt × Flt)}
    (hl : (p :: points).length = masses.length)
    (h : dic_loss_model_future k masses (p :: points) d0 c0 start M s air = .ok rows) :
    List.Forall₂ (ownDelta air) rows (start :: points) := by
  match masses, hl, h with
  | m :: ms, hl, h =>
    obtain rfl := Except.ok.inj h
    exact forecast_fill_own k M s air _ _ start (m :: ms) (p :: points) (by simp) hl rfl

/-- **C78**: so in a titration towards lower pH the first forecast row understates the fCO2 that
belongs to its own pH (same constants, positive DIC). -/
theorem C78_understates {k M s d0 c0 : Flt} {dic δ air' : ℝ} {masses : List Flt}
    {pH pH0 k0 k1 k2 : ℝ} {points : List LossPoint} {rows : List (Flt × Flt)}
    (hl : points.length + 1 = masses.length)
    (h : dic_loss_model_future k masses (⟨fin pH, fin k0, fin k1, fin k2⟩ :: points) d0 c0
      ⟨fin pH0, fin k0, fin k1, fin k2⟩ M s (fin air') = .ok ((fin dic, fin δ) :: rows))
    (hp : pH < pH0) (hd : 0 < dic) (h0 : 0 < k0) (h1 : 0 < k1) (h2 : 0 < k2) :
    ∃ f, get_fCO2_from_dic_pH (fin dic) (fin pH) (fin k0) (fin k1) (fin k2) = fin f ∧
      δ < f - air' := by
  have := C78_forecast (by simpa using hl) h
  cases this with
  | cons hrow _ =>
    unfold ownDelta at hrow
    have hlt := C68_decreasing hd h0 h1 h2 hp
    simp only [fCO2_eq h0 h1 h2] at hrow hlt ⊢
    rw [sub_fin, fin_inj] at hrow
    rw [lt_fin, decide_eq_true_iff] at hlt
    exact ⟨_, rfl, by linarith⟩

/-- a forecast of one point: no loss, 3000 µmol/kg diluted by a third, pH falling from 5.6 to 5.4 -/
example : ∃ δ : ℝ, dic_loss_model_future (fin 0) [fin 1]
    [⟨fin 5.4, fin 0.03, fin 1.4e-6, fin 1.1e-9⟩] (fin 700) (fin 3000)
    ⟨fin 5.6, fin 0.03, fin 1.4e-6, fin 1.1e-9⟩ (fin 2) (fin 1) (fin 450) =
      .ok [(fin 2000, fin δ)] := by
  have h : fin 3000 * get_dilution_factor (fin 1) (fin 2 + fin 1 - fin 1) - fin 0 * fin 700 * fin 1
      = fin 2000 := by
    simp only [get_dilution_factor, add_fin, sub_fin, mul_fin]
    rw [div_fin _ _ (by norm_num), mul_fin, sub_fin]
    congr 1; norm_num
  refine ⟨Spec.fCO2 2000 ((10:ℝ) ^ (-5.6 : ℝ)) 0.03 1.4e-6 1.1e-9 - 450, ?_⟩
  simp only [dic_loss_model_future, forecast_fill, h, delta_fCO2]
  rw [fCO2_eq (by norm_num) (by norm_num) (by norm_num), sub_fin]

/-! ## A concrete case -/

/-- stand-in interpolation: a straight line of slope -1 through the first value -/
def exampleLib : LossLib where
  pchip := fun _ yi xs => .ok (xs.map fun x => yi.getD 0 nan - x)
  lsq := fun _ _ => .ok (fin 1)

def exampleIn : LossIn where
  titrant_mass := [fin 0, fin 20]
  pH := [fin 8, fin 3]
  dic_loss := [fin 2000, nan]
  fCO2_loss := [fin 500, nan]
  k_CO2 := [fin 0.03, fin 0.03]
  k_carbonic_1 := [fin 1.4e-6, fin 1.4e-6]
  k_carbonic_2 := [fin 1.1e-9, fin 1.1e-9]
  analyte_mass := fin 100
  dic_start := fin 0.002

theorem exampleLib_regular : exampleLib.Regular := by
  intro xi yi x ys h
  obtain rfl := Except.ok.inj h
  simp

theorem exampleLib_total : exampleLib.Total := ⟨fun _ _ _ => ⟨_, rfl⟩, fun _ _ _ => ⟨_, rfl⟩⟩

theorem exampleIn_masses :
    loss_masses exampleIn = .ok ((List.range 10).map fun i : ℕ => fin (i * 2)) := by
  have h1 : npMax exampleIn.titrant_mass = .ok (fin 20) := by
    simp [npMax, exampleIn, fmax2]
  have h2 : loss_step_tm exampleIn = fin 2 := by
    have : npMedian (npDiff exampleIn.titrant_mass) = fin 20 := by
      simp [npDiff, exampleIn, npMedian]
    unfold loss_step_tm
    rw [this, div_fin _ _ (by norm_num)]
    congr 1; norm_num
  have h3 : ⌈(20:ℝ) / 2⌉₊ = 10 := by
    rw [show (20:ℝ) / 2 = (10:ℕ) by norm_num, Nat.ceil_natCast]
  unfold loss_masses
  rw [h1, bind_ok, h2, npArange0, if_neg (by norm_num), h3]

theorem exampleIn_pH : exampleLib.pchip exampleIn.titrant_mass exampleIn.pH
    ((List.range 10).map fun i : ℕ => fin (i * 2)) =
      .ok (((List.range 2).map fun i : ℕ => fin (8 - i * 2)) ++
        (List.range 8).map fun i : ℕ => fin (4 - i * 2)) := by
  simp only [exampleLib, exampleIn, List.range, List.range.loop, List.map]
  simp
  norm_num

/-- the pH falls from 8 to -10, through 5.5 -/
example : ∃ hi, get_dic_loss_hires exampleLib exampleIn = .ok hi ∧
    CrossesOnce exampleIn.split_pH hi.pH := by
  have hne : exampleIn.fCO2_loss ≠ [] := by simp [exampleIn]
  have hsplit : exampleIn.split_pH = fin 5.5 := rfl
  have hhi : ∀ p ∈ (List.range 2).map fun i : ℕ => fin (8 - (i:ℝ) * 2),
      exampleIn.split_pH.le p = true := by
    simp only [hsplit, List.mem_map, List.mem_range]
    rintro _ ⟨i, hi, rfl⟩
    have : (i:ℝ) ≤ 1 := by exact_mod_cast Nat.lt_succ_iff.mp hi
    simp only [le_fin, decide_eq_true_iff]; linarith
  have hlo : ∀ p ∈ (List.range 8).map fun i : ℕ => fin (4 - (i:ℝ) * 2),
      p.lt exampleIn.split_pH = true := by
    simp only [hsplit, List.mem_map, List.mem_range]
    rintro _ ⟨i, hi, rfl⟩
    have : (0:ℝ) ≤ i := Nat.cast_nonneg i
    simp only [lt_fin, decide_eq_true_iff]; linarith
  rcases hires_cases exampleLib_regular exampleLib_total hne exampleIn_masses exampleIn_pH with
    ⟨h, _⟩ | ⟨_, hi, hhi', _, hpH⟩
  · exfalso
    rw [mask_map_nil_iff (by simp), mask_map_nil_iff (by simp)] at h
    rcases h with h | h
    · have := h (fin (8 - ((0:ℕ):ℝ) * 2)) (List.mem_append_left _ (List.mem_map.mpr ⟨0, by simp, rfl⟩))
      rw [hhi _ (List.mem_map.mpr ⟨0, by simp, rfl⟩)] at this; cases this
    · have := h (fin (4 - ((0:ℕ):ℝ) * 2)) (List.mem_append_right _ (List.mem_map.mpr ⟨0, by simp, rfl⟩))
      rw [hlo _ (List.mem_map.mpr ⟨0, by simp, rfl⟩)] at this; cases this
  · exact ⟨hi, hhi', _, _, hpH, hhi, hlo⟩

end Calk
