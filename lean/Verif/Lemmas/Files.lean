import Verif.SpecVal
import Verif.Model.Files
import Verif.Lemmas.Totals

/-! Helper lemmas about keyword arguments, `load` and the file-level solver and calibrator. -/

namespace Calk
open Flt

/-! ## Dicts and key filters -/

theorem Dict.get?_filter {α : Type} (p : String → Bool) (d : Dict α) (k : String) :
    Dict.get? (d.filter fun kv => p kv.1) k = if p k then d.get? k else none := by
  induction d with
  | nil => simp
  | cons kv d ih =>
    obtain ⟨k', v⟩ := kv
    by_cases hp : p k' = true
    · rw [List.filter_cons_of_pos (by simpa using hp)]
      by_cases h : k' = k
      · subst h; simp [Dict.get?_cons, hp]
      · simp only [Dict.get?_cons, if_neg h]; exact ih
    · rw [List.filter_cons_of_neg (by simpa using hp), ih]
      by_cases h : k' = k
      · subst h; simp [hp]
      · simp only [Dict.get?_cons, if_neg h]

theorem Dict.filter_set {α : Type} (p : String → Bool) (d : Dict α) {k : String} (v : α)
    (h : p k = false) :
    ((d.set k v).filter fun kv => p kv.1) = d.filter fun kv => p kv.1 := by
  induction d with
  | nil => simp [Dict.set, h]
  | cons kv d ih =>
    obtain ⟨k', v'⟩ := kv
    by_cases hk : k' = k
    · subst hk; simp [Dict.set, h]
    · simp only [Dict.set, if_neg hk, List.filter_cons, ih]

theorem mem_setUnion {a b : List String} {k : String} : k ∈ setUnion a b ↔ k ∈ a ∨ k ∈ b := by
  by_cases h : k ∈ a <;> simp [setUnion, h]

theorem get_kwargs_none (keys : List String) (kw : Dict Val) :
    get_kwargs_for keys kw none = kw.filter fun kv => keys.contains kv.1 := rfl

theorem get_kwargs_set {keys : List String} {kw : Dict Val} {k : String} (v : Val) (h : k ∉ keys) :
    get_kwargs_for keys (kw.set k v) none = get_kwargs_for keys kw none :=
  Dict.filter_set (fun k => keys.contains k) kw v (by simpa using h)

theorem get?_kwargs {keys : List String} {kw : Dict Val} {k : String} (h : k ∈ keys) :
    (get_kwargs_for keys kw none).get? k = kw.get? k := by
  have := Dict.get?_filter (fun k => keys.contains k) kw k
  rw [get_kwargs_none, this]; simp [h]

theorem Dict.set_keys_nodup {α : Type} {d : Dict α} (h : d.keys.Nodup) (k : String) (v : α) :
    (d.set k v).keys.Nodup := by
  have hmem : ∀ (d : Dict α) x, x ∈ (d.set k v).keys → x = k ∨ x ∈ d.keys := by
    intro d
    induction d with
    | nil => intro x hx; simpa [Dict.set, Dict.keys] using hx
    | cons kv d ih =>
      obtain ⟨k', v'⟩ := kv
      intro x hx
      by_cases hk : k' = k
      · simp only [Dict.set, if_pos hk] at hx; exact .inr hx
      · simp only [Dict.set, if_neg hk, Dict.keys, List.map_cons, List.mem_cons] at hx
        rcases hx with rfl | hx
        · exact .inr (by simp [Dict.keys])
        · rcases ih x hx with h | h
          · exact .inl h
          · exact .inr (List.mem_cons_of_mem _ h)
  induction d with
  | nil => simp [Dict.set, Dict.keys]
  | cons kv d ih =>
    obtain ⟨k', v'⟩ := kv
    by_cases hk : k' = k
    · simp only [Dict.set, if_pos hk]; exact h
    · simp only [Dict.set, if_neg hk, Dict.keys, List.map_cons, List.nodup_cons] at h ⊢
      refine ⟨?_, ih h.2⟩
      intro hx
      rcases hmem d k' hx with h' | h'
      · exact hk h'
      · exact h.1 h'

/-! ## Arguments -/

theorem argNum_kwargs {keys : List String} {kw : Dict Val} {k : String} {x : Flt} (h : k ∈ keys) :
    argNum (get_kwargs_for keys kw none) k x = argNum kw k x := by
  simp only [argNum, get?_kwargs h]
theorem argOpt_kwargs {keys : List String} {kw : Dict Val} {k : String} (h : k ∈ keys) :
    argOpt (get_kwargs_for keys kw none) k = argOpt kw k := by
  simp only [argOpt, get?_kwargs h]
theorem argVal_kwargs {keys : List String} {kw : Dict Val} {k : String} {x : Val} (h : k ∈ keys) :
    argVal (get_kwargs_for keys kw none) k x = argVal kw k x := by
  simp only [argVal, get?_kwargs h]

theorem emf_opts_solve (kw : Dict Val) :
    emf_opts (get_kwargs_for keys_solve_emf kw none) = emf_opts kw := by
  have h : ∀ k ∈ keys_solve_emf, (get_kwargs_for keys_solve_emf kw none).get? k = kw.get? k :=
    fun k hk => get?_kwargs hk
  simp only [emf_opts]
  rw [argOpt_kwargs (by decide), argOpt_kwargs (by decide), argNum_kwargs (by decide),
    argNum_kwargs (by decide), argNum_kwargs (by decide), argVal_kwargs (by decide),
    argVal_kwargs (by decide)]

/-- calibration drops `gran_logic` -/
theorem emf_opts_calibrate (kw : Dict Val) (hg : kw.get? "gran_logic" = none) :
    emf_opts (get_kwargs_for keys_calibrate_emf kw none) = emf_opts kw := by
  simp only [emf_opts]
  rw [argOpt_kwargs (by decide), argOpt_kwargs (by decide), argNum_kwargs (by decide),
    argNum_kwargs (by decide), argNum_kwargs (by decide),
    argVal_kwargs (k := "double") (by decide)]
  have h1 : (get_kwargs_for keys_calibrate_emf kw none).get? "gran_logic" = none := by
    have := Dict.get?_filter (fun k => keys_calibrate_emf.contains k) kw "gran_logic"
    rw [get_kwargs_none, this, if_neg (by decide)]
  simp only [argVal, h1, hg]

theorem ph_opts_kwargs {keys : List String} (kw : Dict Val) (h1 : "pH_min" ∈ keys)
    (h2 : "pH_max" ∈ keys) (h3 : "titrant_normality" ∈ keys) :
    ph_opts (get_kwargs_for keys kw none) = ph_opts kw := by
  simp only [ph_opts, argNum_kwargs h1, argNum_kwargs h2, argNum_kwargs h3]

theorem titrant_totals_kwargs {keys : List String} (kw : Dict Val)
    (h : ∀ k ∈ keys_titrant_totals, k ∈ keys) :
    titrant_totals (get_kwargs_for keys kw none) = titrant_totals kw := by
  simp only [titrant_totals, get_kwargs_none, List.filter_filter]
  congr 1
  apply List.filter_congr
  intro kv _
  by_cases hk : keys_titrant_totals.contains kv.1 = true
  · have := h kv.1 (by simpa using hk)
    simp [this]
  · simp at hk; simp [hk]

/-! ## Loading -/

theorem copyIfPos_nodup {t tp t' : Dict NpVal} {x : Flt} {k pk : String}
    (h : copyIfPos t tp x k pk = .ok t') (hn : t.keys.Nodup) : t'.keys.Nodup := by
  simp only [copyIfPos] at h
  split at h
  · simp only [bind_ok_iff, pure_ok, Except.ok.injEq] at h
    obtain ⟨v, -, rfl⟩ := h
    exact Dict.set_keys_nodup hn _ _
  · simp only [pure_ok, Except.ok.injEq] at h
    subst h; exact hn

theorem setIfPos_nodup {t : Dict NpVal} (hn : t.keys.Nodup) (k : String) (x : Flt) :
    (setIfPos t k x).keys.Nodup := by
  simp only [setIfPos]
  split
  · exact Dict.set_keys_nodup hn _ _
  · exact hn

theorem get_totals_nodup {w : World} {S : Flt} {kw : Dict Val} {t tp : Dict NpVal}
    (h : get_totals w S kw = .ok (t, tp)) : t.keys.Nodup := by
  simp only [get_totals, bind_ok_iff, pure_ok, Except.ok.injEq, Prod.mk.injEq] at h
  obtain ⟨dic, -, alpha, -, beta, -, amm, -, phos, -, sil, -, sulf, -, b, -, f, -, s, -, tp', -,
    t1, h1, t2, h2, t3, h3, t4, h4, tb, -, tf, -, ts, -, rfl, -⟩ := h
  have h0 : (Dict.keys [("dic", NpVal.scalar (dic * fin 1e-6))]).Nodup := by simp [Dict.keys]
  exact Dict.set_keys_nodup (Dict.set_keys_nodup (Dict.set_keys_nodup
    (copyIfPos_nodup h4 (copyIfPos_nodup h3 (copyIfPos_nodup h2 (copyIfPos_nodup h1
      (setIfPos_nodup (setIfPos_nodup h0 _ _) _ _))))) _ _) _ _) _ _

theorem load_totals {w : World} {f : String} {S : Flt} {kw : Dict Val} {cv : Converted}
    {totals ks : Dict NpVal} (h : load w f S kw = .ok (cv, totals, ks)) :
    totals.keys.Nodup ∧ ∀ k v, totals.get? k = some v →
      ∃ xs, v = .arr xs ∧ xs.length = cv.titrant_mass.length := by
  simp only [load, bind_ok_iff, pure_ok, Except.ok.injEq, Prod.mk.injEq, totals_ks] at h
  obtain ⟨fn, -, dd, -, cv', -, ⟨t, k⟩, ⟨⟨t0, tp⟩, h0, t1, h1, _, -, _, -, h2⟩, h3⟩ := h
  simp only [Prod.mk.injEq] at h2 h3
  obtain ⟨rfl, rfl, rfl⟩ := h3
  obtain ⟨rfl, -⟩ := h2
  constructor
  · rw [mapValsM_keys _ _ _ h1]; exact get_totals_nodup h0
  · intro k v hv
    rcases mapValsM_get? _ _ _ h1 k with ⟨-, h4⟩ | ⟨v0, w0, -, h5, h4⟩
    · rw [h4] at hv; simp at hv
    · rw [h4] at hv
      simp only [Option.some.injEq] at hv; subst hv
      simp only [NpVal.zipW] at h5
      split at h5
      · simp only [Except.ok.injEq] at h5
        exact ⟨_, h5.symm, by simp [bcast_length]⟩
      · simp at h5

/-! ## The calibrator in terms of the solver -/

/-- the settings have the right types -/
structure Typed (kw : Dict Val) (mode : String) (c0 : Flt) (tts : List (String × Flt)) : Prop where
  mode : solve_mode kw = .ok mode
  c0 : argNum kw "titrant_molinity_init" (fin 0.1) = .ok c0
  tts : titrant_totals kw = .ok tts
  opts : ∃ o, emf_opts kw = .ok o

theorem emf_opts_gran {kw : Dict Val} {o : EmfOpts} {d : Bool} (h : emf_opts kw = .ok (o, d))
    (hg : kw.get? "gran_logic" = none) :
    o = { alkalinity_init := o.alkalinity_init, emf0_init := o.emf0_init, pH_min := o.pH_min,
          pH_max := o.pH_max, titrant_normality := o.titrant_normality } := by
  simp only [emf_opts, bind_ok_iff, pure_ok, Except.ok.injEq, Prod.mk.injEq, argVal, hg,
    Option.getD_none] at h
  obtain ⟨_, -, _, -, _, -, _, -, _, -, h, -⟩ := h
  subst h; rfl

theorem ph_opts_of_emf {kw : Dict Val} {o : EmfOpts} {d : Bool} (h : emf_opts kw = .ok (o, d)) :
    ph_opts kw = .ok { pH_min := o.pH_min, pH_max := o.pH_max,
                       titrant_normality := o.titrant_normality } := by
  simp only [emf_opts, bind_ok_iff, pure_ok, Except.ok.injEq, Prod.mk.injEq] at h
  obtain ⟨_, -, _, -, lo, h1, hi, h2, n, h3, h, -⟩ := h
  subst h
  simp [ph_opts, h1, h2, h3, bind_ok, pure_ok]

/-- `emf_opts` after `kwargs["emf0_init"] = 0` -/
theorem emf_opts_set {kw : Dict Val} :
    emf_opts (kw.set "emf0_init" (.num (fin 0))) = (do
      let alkalinity_init ← argOpt kw "alkalinity_init"
      let pH_min ← argNum kw "pH_min" (fin 3)
      let pH_max ← argNum kw "pH_max" (fin 4)
      let titrant_normality ← argNum kw "titrant_normality" (fin 1)
      let gran_logic := match argVal kw "gran_logic" (.str "v23.7+") with
        | .str s => s
        | _ => ""
      return ({ alkalinity_init, emf0_init := some (fin 0), gran_logic, pH_min, pH_max,
                titrant_normality }, (argVal kw "double" (.bool true)).truthy)) := by
  have h : ∀ k, k ≠ "emf0_init" → (kw.set "emf0_init" (.num (fin 0))).get? k = kw.get? k :=
    fun k hk => Dict.get?_set_ne _ _ _ _ hk
  have hn : ∀ k x, k ≠ "emf0_init" →
      argNum (kw.set "emf0_init" (.num (fin 0))) k x = argNum kw k x := by
    intro k x hk; simp only [argNum, h k hk]
  have hv : ∀ k x, k ≠ "emf0_init" →
      argVal (kw.set "emf0_init" (.num (fin 0))) k x = argVal kw k x := by
    intro k x hk; simp only [argVal, h k hk]
  have ho : argOpt (kw.set "emf0_init" (.num (fin 0))) "alkalinity_init"
      = argOpt kw "alkalinity_init" := by
    simp only [argOpt, h _ (show "alkalinity_init" ≠ "emf0_init" by decide)]
  have he : argOpt (kw.set "emf0_init" (.num (fin 0))) "emf0_init" = .ok (some (fin 0)) := by
    simp only [argOpt, Dict.get?_set_self]; rfl
  simp only [emf_opts, ho, he, hn _ _ (show "pH_min" ≠ "emf0_init" by decide),
    hn _ _ (show "pH_max" ≠ "emf0_init" by decide),
    hn _ _ (show "titrant_normality" ≠ "emf0_init" by decide),
    hv _ _ (show "gran_logic" ≠ "emf0_init" by decide),
    hv _ _ (show "double" ≠ "emf0_init" by decide), bind_ok]
  rfl

theorem emf_opts_set_ok {kw : Dict Val} {o : EmfOpts} {d : Bool} (h : emf_opts kw = .ok (o, d)) :
    emf_opts (kw.set "emf0_init" (.num (fin 0))) = .ok ({ o with emf0_init := some (fin 0) }, d) := by
  rw [emf_opts_set]
  simp only [emf_opts, bind_ok_iff, pure_ok, Except.ok.injEq, Prod.mk.injEq] at h
  obtain ⟨a, h1, e, -, lo, h2, hi, h3, n, h4, rfl, rfl⟩ := h
  simp only [h1, h2, h3, h4, bind_ok, pure_ok]
  rfl

theorem titrant_totals_set (kw : Dict Val) {k : String} (v : Val) (h : k ∉ keys_titrant_totals) :
    titrant_totals (kw.set k v) = titrant_totals kw := by
  simp only [titrant_totals]
  rw [Dict.filter_set (fun k => keys_titrant_totals.contains k) kw v (by simpa using h)]

theorem argNum_set (kw : Dict Val) {k k' : String} (v : Val) (x : Flt) (h : k' ≠ k) :
    argNum (kw.set k v) k' x = argNum kw k' x := by
  simp only [argNum, Dict.get?_set_ne _ _ _ _ h]

/-- the alkalinity that the solver returns for a molinity and given totals -/
noncomputable def solvedAlk (w : World) (mode : String) (cv : Converted) (ks : Dict NpVal)
    (kw : Dict Val) (c : Flt) (totals : Dict NpVal) : Py Flt := do
  let r ← solve_dispatch w mode cv c totals ks kw
  return r.alkalinity

def modes : List String := ["emf", "ph_adjust", "ph", "ph_gran"]

theorem calibrate_dispatch_eq {w : World} {mode : String} {cv : Converted} {cert : Flt}
    {ks : Dict NpVal} {kw : Dict Val} {c0 : Flt} {tts : List (String × Flt)}
    (ht : Typed kw mode c0 tts) (hg : kw.get? "gran_logic" = none) (hm : mode ∈ modes)
    (hlen : cv.measurement.length = cv.temperature.length) :
    calibrate_dispatch w mode cv cert ks kw
      = w.opt.run (lsqfun_calibrate (solvedAlk w mode cv ks kw) cert cv.titrant_mass
          cv.analyte_mass tts) c0 := by
  obtain ⟨⟨o, d⟩, ho⟩ := ht.opts
  simp only [modes, List.mem_cons, List.not_mem_nil, or_false] at hm
  funext s
  rcases hm with rfl | rfl | rfl | rfl
  · have h1 := emf_opts_calibrate kw hg
    have h2 := emf_opts_solve kw
    have h3 := titrant_totals_kwargs (keys := keys_calibrate_emf) kw (by decide)
    have h4 := argNum_kwargs (keys := keys_calibrate_emf) (kw := kw)
      (k := "titrant_molinity_init") (x := fin 0.1) (by decide)
    rw [ho] at h1 h2; rw [ht.tts] at h3; rw [ht.c0] at h4
    simp only [calibrate_dispatch, if_true, h1, h3, h4, PyS.bind_apply, PyS.lift_apply,
      calibrate_emf]
    congr 3
    funext c t
    simp only [solvedAlk, solve_dispatch, if_true, h2, bind_ok, bind_assoc, pure_bind]
    rw [emf_opts_gran ho hg]
    rfl
  · have h1 := emf_opts_calibrate kw hg
    have h2 := emf_opts_solve kw
    have h3 := titrant_totals_kwargs (keys := keys_calibrate_emf) kw (by decide)
    have h4 := argNum_kwargs (keys := keys_calibrate_emf) (kw := kw)
      (k := "titrant_molinity_init") (x := fin 0.1) (by decide)
    rw [ho] at h1 h2; rw [ht.tts] at h3; rw [ht.c0] at h4
    have h1' := emf_opts_set_ok h1
    have h2' := emf_opts_set_ok h2
    rw [← titrant_totals_set _ (.num (fin 0)) (show "emf0_init" ∉ keys_titrant_totals by decide)]
      at h3
    rw [← argNum_set _ (.num (fin 0)) _ (show "titrant_molinity_init" ≠ "emf0_init" by decide)]
      at h4
    have he : pH_to_emf_arr cv.measurement cv.temperature = .ok
        (List.zipWith (fun p t => pH_to_emf p (fin 0) t) cv.measurement cv.temperature) := by
      simp [pH_to_emf_arr, sameShape2, hlen, bind_ok, pure_ok]
    simp only [calibrate_dispatch, if_neg (show "ph_adjust" ≠ "emf" by decide), if_true, h1', h3, h4,
      PyS.bind_apply, PyS.lift_apply, calibrate_emf, he]
    congr 3
    funext c t
    simp only [solvedAlk, solve_dispatch, if_neg (show "ph_adjust" ≠ "emf" by decide), if_true, h2',
      he, bind_ok, bind_assoc, pure_bind]
    rw [emf_opts_gran ho hg]
    rfl
  · have h1 := ph_opts_kwargs (keys := keys_calibrate_pH) kw (by decide) (by decide) (by decide)
    have h2 := ph_opts_kwargs (keys := keys_solve_pH) kw (by decide) (by decide) (by decide)
    have h3 := titrant_totals_kwargs (keys := keys_calibrate_pH) kw (by decide)
    have h4 := argNum_kwargs (keys := keys_calibrate_pH) (kw := kw)
      (k := "titrant_molinity_init") (x := fin 0.1) (by decide)
    rw [ph_opts_of_emf ho] at h1 h2; rw [ht.tts] at h3; rw [ht.c0] at h4
    simp only [calibrate_dispatch, if_neg (show "ph" ≠ "emf" by decide),
      if_neg (show "ph" ≠ "ph_adjust" by decide), if_true, h1, h3, h4, PyS.bind_apply,
      PyS.lift_apply, calibrate_pH]
    congr 3
    funext c t
    simp only [solvedAlk, solve_dispatch, if_neg (show "ph" ≠ "emf" by decide),
      if_neg (show "ph" ≠ "ph_adjust" by decide), if_true, h2, bind_ok, bind_assoc, pure_bind]
    rfl
  · have h1 := ph_opts_kwargs (keys := keys_calibrate_pH_gran) kw (by decide) (by decide) (by decide)
    have h2 := ph_opts_kwargs (keys := keys_solve_pH_gran) kw (by decide) (by decide) (by decide)
    have h3 := titrant_totals_kwargs (keys := keys_calibrate_pH_gran) kw (by decide)
    have h4 := argNum_kwargs (keys := keys_calibrate_pH_gran) (kw := kw)
      (k := "titrant_molinity_init") (x := fin 0.1) (by decide)
    rw [ph_opts_of_emf ho] at h1 h2; rw [ht.tts] at h3; rw [ht.c0] at h4
    simp only [calibrate_dispatch, if_neg (show "ph_gran" ≠ "emf" by decide),
      if_neg (show "ph_gran" ≠ "ph_adjust" by decide), if_neg (show "ph_gran" ≠ "ph" by decide),
      if_true, h1, h3, h4, PyS.bind_apply, PyS.lift_apply, calibrate_pH_gran]
    congr 3
    funext c t
    simp only [solvedAlk, solve_dispatch, if_neg (show "ph_gran" ≠ "emf" by decide),
      if_neg (show "ph_gran" ≠ "ph_adjust" by decide), if_neg (show "ph_gran" ≠ "ph" by decide),
      if_true, h2, bind_ok, bind_assoc, pure_bind]
    rfl

/-- one residual evaluation of the calibrator and of the solver agree -/
theorem files_solve_eq {w : World} {f mode : String} {S c : Flt} {kw : Dict Val} {cv : Converted}
    {totals ks : Dict NpVal} {c0 : Flt} {tts : List (String × Flt)}
    (hl : load w f S kw = .ok (cv, totals, ks)) (ht : Typed kw mode c0 tts) :
    files_solve w f c S kw = (do
      (add_titrant_totals cv.titrant_mass cv.analyte_mass c (fin 0) tts totals).1
      solve_dispatch w mode cv c
        (add_titrant_totals cv.titrant_mass cv.analyte_mass c (fin 0) tts totals).2 ks kw) := by
  simp only [files_solve, hl, bind_ok, ht.tts, ht.mode]

/-- the residual of `files_solve`, as seen by the optimiser -/
noncomputable def solveRes (w : World) (f : String) (S cert : Flt) (kw : Dict Val) (c : Flt) :
    PyS Unit (List Flt) := PyS.lift (do
  let r ← files_solve w f c S kw
  return [r.alkalinity - cert])

/-- two residual functions that agree on every trial, started from states `s` and `()`, give the
same result -/
theorem loop_congr {σ : Type} (opt : Lsq Flt) (f : Flt → PyS σ (List Flt))
    (g : Flt → PyS Unit (List Flt)) (x0 : Flt) (n : ℕ) (hist : List (Flt × List Flt)) (s : σ)
    (ok : σ → Prop) (hs : ok s)
    (h : ∀ x hist, opt.next x0 hist = some x → ∀ s, ok s →
      (f x s).1 = (g x ()).1 ∧ ∀ r, (f x s).1 = .ok r → ok (f x s).2) :
    (opt.loop f x0 n hist s).1 = (opt.loop g x0 n hist ()).1 := by
  induction n generalizing hist s with
  | zero => rfl
  | succ n ih =>
    simp only [Lsq.loop]
    cases hn : opt.next x0 hist with
    | none => rfl
    | some x =>
      obtain ⟨h1, h2⟩ := h x hist hn s hs
      rcases hf : f x s with ⟨r, s'⟩
      rcases hg : g x () with ⟨r', u⟩
      rw [hf, hg] at h1
      simp only at h1
      subst h1
      simp only [hf, hg]
      cases r with
      | error e => rfl
      | ok r => exact ih _ s' (by rw [hf] at h2; exact h2 r rfl)

theorem titrant_name {t : String} (h : titrantPrefix.toList.isPrefixOf t.toList = true) :
    t = "titrant_" ++ dropTitrant t ∧ "total_".toList.isPrefixOf (dropTitrant t).toList = true := by
  obtain ⟨r, hr⟩ := List.isPrefixOf_iff_prefix.mp h
  have h1 : t.toList.drop 8 = "total_".toList ++ r := by
    rw [← hr]; rfl
  have h2 : t.toList = "titrant_".toList ++ ("total_".toList ++ r) := by
    rw [← hr]; rfl
  have h3 : (dropTitrant t).toList = "total_".toList ++ r := by
    unfold dropTitrant
    rw [h1]
    exact String.toList_ofList
  constructor
  · apply String.toList_inj.mp
    rw [String.toList_append, h3, h2]
  · rw [h3]
    exact List.isPrefixOf_iff_prefix.mpr ⟨r, rfl⟩

/-- adding the titrant succeeds only if every named total is there -/
theorem good_of_add {n : ℕ} {tm : List Flt} {M c p : Flt} (hn : tm.length = n)
    (tts : List (String × ℝ)) (d : Dict NpVal)
    (ha : ∀ k v, d.get? k = some v → ∃ xs, v = .arr xs ∧ xs.length = n)
    (h : (add_titrant_totals tm M c p (ttArgs tts) d).1 = .ok ()) : GoodTT n tts d := by
  induction tts generalizing d with
  | nil => intro q hq; simp at hq
  | cons q tts ih =>
    obtain ⟨t, f⟩ := q
    rw [show ttArgs ((t, f) :: tts) = (t, fin f) :: ttArgs tts from rfl] at h
    unfold add_titrant_totals at h
    simp only [PyS.bind_apply, PyS.lift_apply] at h
    cases hp : titrantPrefix.toList.isPrefixOf t.toList with
    | false => rw [hp] at h; simp [pyAssert] at h
    | true =>
      rw [hp] at h
      simp only [pyAssert, if_true, PyS.get_apply] at h
      obtain ⟨hname, hpre⟩ := titrant_name hp
      cases hg : d.get? (dropTitrant t) with
      | none => simp [Dict.get, hg] at h
      | some v =>
        obtain ⟨xs, rfl, hx⟩ := ha _ _ hg
        have hlen : xs.length = (titrant_contribution tm M c p (fin f)).length := by
          rw [hx, ← hn]; simp [titrant_contribution]
        have hia : NpVal.iadd (.arr xs) (titrant_contribution tm M c p (fin f)) = .ok
            (.arr (List.zipWith (· + ·) xs (titrant_contribution tm M c p (fin f)))) := by
          simp only [NpVal.iadd]; rw [if_pos hlen]
        simp only [Dict.get, hg, hia, PyS.set_apply] at h
        have := ih (d.set (dropTitrant t)
          (.arr (List.zipWith (· + ·) xs (titrant_contribution tm M c p (fin f))))) (by
            intro k v hv
            rw [Dict.get?_set] at hv
            split at hv
            · simp only [Option.some.injEq] at hv
              exact ⟨_, hv.symm, by simp [← hlen, hx]⟩
            · exact ha k v hv) h
        intro q hq
        rcases List.mem_cons.mp hq with rfl | hq
        · exact ⟨dropTitrant t, .arr xs, hname, hpre, hg, hx⟩
        · obtain ⟨k, v, h1, h2, h3, h4⟩ := this q hq
          rw [Dict.get?_set] at h3
          split at h3
          · next hk => exact ⟨k, .arr xs, h1, h2, by rw [hk]; exact hg, hx⟩
          · exact ⟨k, v, h1, h2, h3, h4⟩

end Calk
