import Verif.Model.Classes
import Verif.Lemmas.Kwargs
import Verif.Lemmas.Dataset
import Verif.Lemmas.SolveEmf
import Verif.Props.Interface
import Verif.Props.DatasetRows

/-! Helper lemmas about rows, columns and the table of a `Titration`. -/

namespace Calk
open Flt

/-! ## Dicts -/

theorem foldl_set_get? {α : Type} (d e : Dict α) (he : e.keys.Nodup) (k : String) :
    (e.foldl (fun d kv => d.set kv.1 kv.2) d).get? k = (e.get? k).or (d.get? k) := by
  induction e generalizing d with
  | nil => rfl
  | cons kv e ih =>
    have he' : kv.1 ∉ Dict.keys e ∧ (Dict.keys e).Nodup := List.nodup_cons.mp he
    rw [List.foldl_cons, ih _ he'.2, Dict.get?_set, Dict.get?_cons]
    by_cases hk : k = kv.1
    · subst hk
      rw [(Dict.get?_eq_none_iff e kv.1).mpr he'.1]
      simp
    · simp [hk, Ne.symm hk]

theorem foldl_set_nodup {α : Type} (d e : Dict α) (hd : d.keys.Nodup) :
    (e.foldl (fun d kv => d.set kv.1 kv.2) d).keys.Nodup := by
  induction e generalizing d with
  | nil => exact hd
  | cons kv e ih => exact ih _ (Dict.set_keys_nodup hd _ _)

theorem Dict.keys_set_of_mem {α : Type} (d : Dict α) (k : String) (v : α) (h : k ∈ d.keys) :
    (d.set k v).keys = d.keys := by
  induction d with
  | nil => cases h
  | cons kv d ih =>
    obtain ⟨k', v'⟩ := kv
    by_cases hk : k' = k
    · simp only [Dict.set, if_pos hk]; rfl
    · simp only [Dict.set, if_neg hk]
      have h' : k ∈ Dict.keys d := by
        rcases List.mem_cons.mp h with h | h
        · exact absurd h.symm hk
        · exact h
      exact congrArg (k' :: ·) (ih h')

/-! ## Series -/

theorem Series.dict_get? (s : Series) (k : String) :
    s.dict.get? k = if k ∈ s.labels then some (s.val k) else none := rowDict_get? _ _ _

theorem Series.get?_set (s : Series) (k k' : String) (v : Val) :
    (s.set k v).dict.get? k' = if k' = k then some v else s.dict.get? k' := by
  rw [Series.dict_get?, Series.dict_get?]
  simp only [Series.set]
  by_cases h : k' = k
  · subst h; simp [mem_addCol, Row.put]
  · simp [mem_addCol, h, Row.put]

theorem Series.foldl_get? (e : Dict Val) (he : e.keys.Nodup) (s : Series) (k : String) :
    (e.foldl (fun s kv => s.set kv.1 kv.2) s).dict.get? k = (e.get? k).or (s.dict.get? k) := by
  induction e generalizing s with
  | nil => rfl
  | cons kv e ih =>
    have he' : kv.1 ∉ Dict.keys e ∧ (Dict.keys e).Nodup := List.nodup_cons.mp he
    rw [List.foldl_cons, ih he'.2, Series.get?_set, Dict.get?_cons]
    by_cases hk : k = kv.1
    · subst hk
      rw [(Dict.get?_eq_none_iff e kv.1).mpr he'.1]
      simp
    · simp [hk, Ne.symm hk]

theorem backcompat_nodup {kw row kw' : Dict Val} (hk : kw.keys.Nodup)
    (h : backcompat kw row = .ok kw') : kw'.keys.Nodup := by
  unfold backcompat at h
  simp only [bind_ok_iff] at h
  obtain ⟨d1, h1, d2, h2, h⟩ := h
  have n1 : d1.keys.Nodup := by
    unfold backcompat_dicts at h1
    split at h1
    · rw [← Except.ok.inj h1]; exact hk
    · rw [← Except.ok.inj h1]; exact foldl_set_nodup _ _ hk
    · cases h1
  have n2 : d2.keys.Nodup := by
    unfold backcompat_range at h2
    split at h2
    · rw [← Except.ok.inj h2]; exact n1
    · simp only [bind_ok_iff] at h2
      obtain ⟨ab, -, h2⟩ := h2
      rw [← Except.ok.inj h2]
      exact Dict.set_keys_nodup (Dict.set_keys_nodup n1 _ _) _ _
  have n3 : ∀ (d : Dict Val) o, d.keys.Nodup → (setFileType d o).keys.Nodup := by
    intro d o hd
    cases o with
    | none => exact hd
    | some v => exact Dict.set_keys_nodup hd _ _
  rw [← Except.ok.inj h]
  exact n3 _ _ (n3 _ _ n2)

theorem titrationRow_ok {row row' : Series} {kw : Dict Val} (hk : kw.keys.Nodup)
    (h : titrationRow row kw = .ok row') :
    ∃ kw', backcompat kw row.dict = .ok kw' ∧
      ∀ k, row'.dict.get? k = (kw'.get? k).or (row.dict.get? k) := by
  unfold titrationRow at h
  simp only [bind_ok_iff] at h
  obtain ⟨kw', h1, h⟩ := h
  refine ⟨kw', h1, fun k => ?_⟩
  rw [← Except.ok.inj h, Series.foldl_get? _ (backcompat_nodup hk h1)]

/-! ## `files.solve` -/

theorem files_solve_all_sr (w : World) (f : String) (c S : Flt) (kw : Dict Val) :
    files_solve w f c S kw = (do let o ← files_solve_all w f c S kw; return o.sr) := by
  unfold files_solve files_solve_all
  cases load w f S kw with
  | error e => rfl
  | ok x =>
    obtain ⟨cv, totals, ks⟩ := x
    simp only [bind_ok]
    cases titrant_totals kw with
    | error e => rfl
    | ok tts =>
      simp only [bind_ok]
      rcases add_titrant_totals cv.titrant_mass cv.analyte_mass c (fin 0) tts totals with ⟨r, t⟩
      cases r with
      | error e => rfl
      | ok u =>
        simp only [bind_ok]
        cases solve_mode kw with
        | error e => rfl
        | ok m =>
          simp only [bind_ok]
          cases solve_dispatch w m cv c t ks kw <;> rfl

theorem files_solve_all_ok {w : World} {f : String} {c S : Flt} {kw : Dict Val} {o : SolveOut}
    (h : files_solve_all w f c S kw = .ok o) :
    ∃ totals tts mode, load w f S kw = .ok (o.cv, totals, o.ks) ∧ titrant_totals kw = .ok tts ∧
      add_titrant_totals o.cv.titrant_mass o.cv.analyte_mass c (fin 0) tts totals
        = (.ok (), o.totals) ∧
      solve_mode kw = .ok mode ∧ solve_dispatch w mode o.cv c o.totals o.ks kw = .ok o.sr ∧
      o.emf = echoed_emf mode o.cv := by
  unfold files_solve_all at h
  simp only [bind_ok_iff] at h
  obtain ⟨⟨cv, totals, ks⟩, h1, tts, h2, h⟩ := h
  rcases ha : add_titrant_totals cv.titrant_mass cv.analyte_mass c (fin 0) tts totals with ⟨r, t⟩
  rw [ha] at h
  simp only [bind_ok_iff] at h
  obtain ⟨u, rfl, mode, h3, sr, h4, h⟩ := h
  have h := Except.ok.inj h
  subst h
  exact ⟨totals, tts, mode, h1, h2, ha, h3, h4, rfl⟩

/-! ## Which totals and constants there are -/

theorem add_titrant_keys {tm : List Flt} {M c p : Flt} {tts : List (String × Flt)}
    {d d' : Dict NpVal} {r : Py Unit} (h : add_titrant_totals tm M c p tts d = (r, d')) :
    d'.keys = d.keys := by
  induction tts generalizing d with
  | nil =>
    simp only [add_titrant_totals, PyS.pure_apply, Prod.mk.injEq] at h
    rw [h.2]
  | cons kv tts ih =>
    obtain ⟨k, x⟩ := kv
    simp only [add_titrant_totals, PyS.bind_apply, PyS.lift_apply, PyS.get_apply] at h
    cases h1 : pyAssert (titrantPrefix.toList.isPrefixOf k.toList) with
    | error e => rw [h1] at h; simp only [Prod.mk.injEq] at h; rw [h.2]
    | ok u =>
      rw [h1] at h
      simp only at h
      cases h2 : d.get (dropTitrant k) with
      | error e => rw [h2] at h; simp only [Prod.mk.injEq] at h; rw [h.2]
      | ok old =>
        rw [h2] at h
        simp only at h
        cases h3 : old.iadd (titrant_contribution tm M c p x) with
        | error e => rw [h3] at h; simp only [Prod.mk.injEq] at h; rw [h.2]
        | ok new =>
          rw [h3] at h
          simp only [PyS.set_apply] at h
          rw [ih h]
          have hm : dropTitrant k ∈ d.keys := by
            rw [Dict.get_ok_iff] at h2
            by_contra hc
            rw [(Dict.get?_eq_none_iff _ _).mpr hc] at h2
            cases h2
          exact Dict.keys_set_of_mem _ _ _ hm

/-- the names of the totals -/
def totalNames : List String :=
  ["dic", "total_alpha", "total_beta", "total_ammonia", "total_silicate",
    "total_phosphate", "total_sulfide", "total_borate", "total_fluoride", "total_sulfate"]

theorem load_names {w : World} {f : String} {S : Flt} {kw : Dict Val} {cv : Converted}
    {totals ks : Dict NpVal} (h : load w f S kw = .ok (cv, totals, ks)) :
    (∀ k ∈ totals.keys, k ∈ totalNames) ∧ "dic" ∈ totals.keys ∧
    (∀ k ∈ ks.keys, k ∈ calk_to_pyco2_ks.map Prod.fst) ∧ ks.keys.Nodup := by
  simp only [load, bind_ok_iff, pure_ok, Except.ok.injEq, Prod.mk.injEq, totals_ks] at h
  obtain ⟨fn, -, dd, -, cv', -, ⟨t, k⟩, ⟨⟨t0, tp⟩, h0, t1, h1, tp', -, ks', hk, h2⟩, h3⟩ := h
  simp only [Prod.mk.injEq] at h2 h3
  obtain ⟨rfl, rfl, rfl⟩ := h3
  obtain ⟨rfl, rfl⟩ := h2
  refine ⟨?_, ?_, ?_⟩
  · rw [mapValsM_keys _ _ _ h1]
    intro k hk
    by_contra hc
    exact (Dict.get?_eq_none_iff _ _).mp (C69_no_other _ _ _ _ _ h0 k hc) hk
  · rw [mapValsM_keys _ _ _ h1]
    obtain ⟨dic, alpha, beta, ammonia, phosphate, silicate, sulfide, borate, fluoride, sulfate, tb,
      tf, ts, -, -, -, -, -, -, -, -, -, -, -, -, -, -, ht⟩ := get_totals_ok h0
    by_contra hc
    have := (Dict.get?_eq_none_iff _ _).mpr hc
    rw [ht] at this
    simp at this
  · have hf : ∀ kp : Dict NpVal, (∀ k ∈ Dict.keys (calk_to_pyco2_ks.filterMap fun kv =>
        (kp.get? kv.2).map fun v => (kv.1, v)), k ∈ calk_to_pyco2_ks.map Prod.fst) ∧
        (Dict.keys (calk_to_pyco2_ks.filterMap fun kv =>
        (kp.get? kv.2).map fun v => (kv.1, v))).Nodup := by
      intro kp
      have hsub : (Dict.keys (calk_to_pyco2_ks.filterMap fun kv =>
        (kp.get? kv.2).map fun v => (kv.1, v))).Sublist (calk_to_pyco2_ks.map Prod.fst) := by
        generalize calk_to_pyco2_ks = T
        induction T with
        | nil => exact .slnil
        | cons e T ih =>
          rw [List.filterMap_cons]
          cases kp.get? e.2 with
          | none => exact ih.cons _
          | some v => exact ih.cons₂ _
      exact ⟨fun k hk => hsub.subset hk, hsub.nodup (by decide)⟩
    unfold get_k_constants at hk
    simp only [bind_ok_iff] at hk
    obtain ⟨kp0, -, kp, -, hk⟩ := hk
    obtain ⟨f1, f2⟩ := hf kp
    split at hk
    · simp only [bind_ok_iff] at hk
      obtain ⟨tso4, -, kso4, -, ratio, -, kf, hkf, kf', -, hk⟩ := hk
      rw [← Except.ok.inj hk]
      refine ⟨fun k hk => ?_, Dict.set_keys_nodup f2 _ _⟩
      rcases (mem_keys_set _ _ _ _).mp hk with h | h
      · exact f1 k h
      · rw [h]; decide
    · rw [← Except.ok.inj hk]
      exact ⟨f1, f2⟩

end Calk
