import Verif.Props.Order
import Verif.Lemmas.Files

/-! Helper lemmas: reordering the points of a titration file. -/

namespace Calk
open Flt

theorem reindex_arr {idx : List ℕ} {xs : List Flt} (h : 2 ≤ xs.length) :
    (NpVal.arr xs).reindex idx = .arr (pick nan idx xs) := by
  simp only [NpVal.reindex]
  rw [if_neg (by omega)]
  rfl

theorem bcast_reindex {idx : List ℕ} {n : ℕ} {v : NpVal} (hv : v.fits n = true) (hi : ∀ i ∈ idx, i < n) :
    (v.reindex idx).bcast idx.length = pick nan idx (v.bcast n) := by
  apply List.ext_getElem
  · simp [NpVal.bcast, pick]
  · intro j h1 h2
    simp only [NpVal.bcast, List.length_map, List.length_range] at h1
    simp only [NpVal.bcast, List.getElem_map, List.getElem_range, pick]
    rw [reindex_at hv h1 hi]
    have := hi idx[j] (List.getElem_mem h1)
    simp [List.getD_eq_getElem?_getD, this]

theorem zipW_pick {idx : List ℕ} {f : Flt → Flt → Flt} {v u : NpVal} {xs : List Flt}
    (hp : idx.Perm (List.range xs.length)) (hn : 2 ≤ xs.length) (h : v.zipW f xs = .ok u) :
    (v.reindex idx).zipW f (pick nan idx xs) = .ok (u.reindex idx) ∧ u.fits xs.length = true := by
  have hil : idx.length = xs.length := by simpa using hp.length_eq
  unfold NpVal.zipW at h ⊢
  by_cases hv : v.fits xs.length = true
  · rw [if_pos hv] at h
    cases Except.ok.inj h
    have hlen : (List.zipWith f (v.bcast xs.length) xs).length = xs.length := by
      simp [NpVal.bcast]
    refine ⟨?_, by simp only [NpVal.fits, hlen, BEq.rfl, Bool.true_or]⟩
    have hf := reindex_fits hv (idx := idx) (by omega)
    rw [pick_length, if_pos hf, reindex_arr (by rw [hlen]; exact hn), bcast_reindex hv (idx_lt hp),
      pick_zipWith nan nan nan f idx _ xs (by simpa [NpVal.bcast] using idx_lt hp) (idx_lt hp)]
  · rw [if_neg hv] at h; cases h

theorem mapValsM_pick {idx : List ℕ} {g g' : String → NpVal → Py NpVal} {n : ℕ}
    (hg : ∀ k v u, g k v = .ok u → v.fits n = true → g' k (v.reindex idx) = .ok (u.reindex idx) ∧ u.fits n = true)
    {d m : Dict NpVal} (hd : dictFits n d = true) (h : Dict.mapValsM g d = .ok m) :
    Dict.mapValsM g' (reindexD idx d) = .ok (reindexD idx m) ∧ dictFits n m = true := by
  induction d generalizing m with
  | nil =>
    simp only [Dict.mapValsM, Except.ok.injEq] at h
    subst h
    exact ⟨rfl, rfl⟩
  | cons kv d ih =>
    rcases kv with ⟨k, v⟩
    simp only [dictFits, List.all_cons, Bool.and_eq_true] at hd
    simp only [Dict.mapValsM, bind_ok_iff, pure_ok, Except.ok.injEq] at h
    obtain ⟨u, hu, d', hd', rfl⟩ := h
    obtain ⟨h1, h2⟩ := hg k v u hu hd.1
    obtain ⟨h3, h4⟩ := ih hd.2 hd'
    refine ⟨?_, ?_⟩
    · show Dict.mapValsM g' ((k, v.reindex idx) :: reindexD idx d) = _
      simp only [Dict.mapValsM, h1, h3, bind_ok, pure_ok]
      rfl
    · simp only [dictFits, List.all_cons, Bool.and_eq_true]
      exact ⟨h2, h4⟩

theorem bin_one (f : Flt → Flt → Flt) {xs : List Flt} (y : Flt) (h : 2 ≤ xs.length) :
    NpVal.bin f (.arr xs) (.arr [y]) = .ok (.arr (xs.map fun x => f x y)) := by
  match xs, h with
  | a :: b :: l, _ => simp [NpVal.bin]

theorem bin_pick {idx : List ℕ} {n : ℕ} {f : Flt → Flt → Flt} {v w u : NpVal}
    (hp : idx.Perm (List.range n)) (hn : 2 ≤ n) (hv : v.fits n = true) (hw : w.fits n = true)
    (h : v.bin f w = .ok u) :
    (v.reindex idx).bin f (w.reindex idx) = .ok (u.reindex idx) ∧ u.fits n = true := by
  have hil : idx.length = n := by simpa using hp.length_eq
  have hi := idx_lt hp
  have single : ∀ ys : List Flt, (ys.length = n ∨ ys.length = 1) → ∀ g : Flt → Flt,
      (NpVal.arr (ys.map g)).reindex idx = .arr
        ((match (NpVal.arr ys).reindex idx with | .arr zs => zs | .scalar _ => []).map g) := by
    intro ys hys g
    rcases hys with h | h
    · rw [reindex_arr (by rw [List.length_map]; omega), reindex_arr (by omega)]
      simp only
      rw [pick_map nan nan g idx ys (by rw [h]; exact hi)]
    · simp only [NpVal.reindex, List.length_map, h, le_refl, if_true]
  cases v with
  | scalar x =>
    cases w with
    | scalar y =>
      simp only [NpVal.bin, Except.ok.injEq] at h
      subst h
      exact ⟨rfl, rfl⟩
    | arr ys =>
      simp only [NpVal.bin, Except.ok.injEq] at h
      subst h
      simp only [NpVal.fits, Bool.or_eq_true, beq_iff_eq] at hw
      refine ⟨?_, by simpa [NpVal.fits] using hw⟩
      rw [single ys hw]
      rcases hw with hw | hw
      · rw [reindex_arr (by omega)]; rfl
      · simp only [NpVal.reindex, hw, le_refl, if_true]; rfl
  | arr xs =>
    simp only [NpVal.fits, Bool.or_eq_true, beq_iff_eq] at hv
    cases w with
    | scalar y =>
      simp only [NpVal.bin, Except.ok.injEq] at h
      subst h
      refine ⟨?_, by simpa [NpVal.fits] using hv⟩
      rw [single xs hv (fun x => f x y)]
      rcases hv with hv | hv
      · rw [reindex_arr (by omega)]; rfl
      · simp only [NpVal.reindex, hv, le_refl, if_true]; rfl
    | arr ys =>
      simp only [NpVal.fits, Bool.or_eq_true, beq_iff_eq] at hw
      rcases hv with hv | hv <;> rcases hw with hw | hw
      · simp only [NpVal.bin] at h
        rw [if_pos (by omega)] at h
        cases Except.ok.inj h
        have hl : (List.zipWith f xs ys).length = n := by simp [hv, hw]
        refine ⟨?_, by simp [NpVal.fits, hl]⟩
        rw [reindex_arr (by omega), reindex_arr (by omega), reindex_arr (by omega)]
        simp only [NpVal.bin]
        rw [if_pos (by simp [pick_length]), pick_zipWith nan nan nan f idx xs ys (by rw [hv]; exact hi)
          (by rw [hw]; exact hi)]
      · obtain ⟨y, rfl⟩ := List.length_eq_one_iff.mp hw
        rw [bin_one f y (by omega)] at h
        cases Except.ok.inj h
        refine ⟨?_, by simp [NpVal.fits, hv]⟩
        rw [single xs (.inl hv) (fun x => f x y), reindex_arr (by omega)]
        have : (NpVal.arr [y]).reindex idx = .arr [y] := by simp [NpVal.reindex]
        rw [this, bin_one f y (by rw [pick_length]; omega)]
      · obtain ⟨x, rfl⟩ := List.length_eq_one_iff.mp hv
        have hxs : [x].length ≠ ys.length := by rw [hv, hw]; omega
        have e : NpVal.bin f (.arr [x]) (.arr ys) = .ok (.arr (ys.map fun y => f x y)) := by
          simp only [NpVal.bin]
          rw [if_neg hxs]
        rw [e] at h
        cases Except.ok.inj h
        refine ⟨?_, by simp [NpVal.fits, hw]⟩
        rw [single ys (.inl hw), reindex_arr (xs := ys) (by omega)]
        have : (NpVal.arr [x]).reindex idx = .arr [x] := by simp [NpVal.reindex]
        rw [this]
        simp only [NpVal.bin]
        rw [if_neg (by rw [pick_length]; simp; omega)]
      · obtain ⟨x, rfl⟩ := List.length_eq_one_iff.mp hv
        obtain ⟨y, rfl⟩ := List.length_eq_one_iff.mp hw
        simp only [NpVal.bin, List.length_cons, List.length_nil, if_true, Except.ok.injEq] at h
        subst h
        exact ⟨by simp [NpVal.reindex, NpVal.bin], by simp [NpVal.fits]⟩


/-! ## Totals and constants -/

/-- all values are single numbers -/
def ScalarD (d : Dict NpVal) : Prop := ∀ kv ∈ d, ∃ x, kv.2 = NpVal.scalar x

theorem ScalarD.reindex {d : Dict NpVal} (h : ScalarD d) (idx : List ℕ) : reindexD idx d = d := by
  unfold reindexD Dict.mapKV
  conv_rhs => rw [← List.map_id d]
  refine List.map_congr_left fun kv hkv => ?_
  obtain ⟨x, hx⟩ := h kv hkv
  rcases kv with ⟨k, v⟩
  simp only at hx
  subst hx
  rfl

theorem ScalarD.fits {d : Dict NpVal} (h : ScalarD d) (n : ℕ) : dictFits n d = true := by
  simp only [dictFits, List.all_eq_true]
  intro kv hkv
  obtain ⟨x, hx⟩ := h kv hkv
  rw [hx]; rfl

theorem ScalarD.set {d : Dict NpVal} (h : ScalarD d) (k : String) {v : NpVal} (hv : ∃ x, v = .scalar x) :
    ScalarD (d.set k v) := by
  induction d with
  | nil => intro kv hkv; simp only [Dict.set, List.mem_singleton] at hkv; subst hkv; exact hv
  | cons kv d ih =>
    rcases kv with ⟨k', v'⟩
    have h0 : ∃ x, v' = NpVal.scalar x := h (k', v') (List.mem_cons_self ..)
    have ih' := ih fun kv hkv => h kv (List.mem_cons_of_mem _ hkv)
    simp only [Dict.set]
    split
    · intro kv hkv
      rcases List.mem_cons.mp hkv with rfl | hkv
      · exact hv
      · exact h kv (List.mem_cons_of_mem _ hkv)
    · intro kv hkv
      rcases List.mem_cons.mp hkv with rfl | hkv
      · exact h0
      · exact ih' kv hkv

theorem mem_of_get?' {α : Type} {d : Dict α} {k : String} {v : α} (h : d.get? k = some v) : (k, v) ∈ d := by
  induction d with
  | nil => simp [Dict.get?] at h
  | cons kv d ih =>
    rcases kv with ⟨k', v'⟩
    simp only [Dict.get?] at h
    split at h
    · rename_i e; cases h; rw [e]; exact List.mem_cons_self ..
    · exact List.mem_cons_of_mem _ (ih h)

theorem mem_of_get {α : Type} {d : Dict α} {k : String} {v : α} (h : d.get k = .ok v) : (k, v) ∈ d := by
  unfold Dict.get at h
  cases hh : d.get? k with
  | none => rw [hh] at h; cases h
  | some w => rw [hh] at h; cases Except.ok.inj h; exact mem_of_get?' hh

theorem ScalarD.copyIfPos {t tp t' : Dict NpVal} (h : ScalarD t) (hp : ScalarD tp) {x : Flt} {k pk : String}
    (hc : copyIfPos t tp x k pk = .ok t') : ScalarD t' := by
  unfold Calk.copyIfPos at hc
  split at hc
  · rw [bind_ok_iff] at hc
    obtain ⟨v, hv, hc⟩ := hc
    cases Except.ok.inj hc
    exact h.set k (hp _ (mem_of_get hv))
  · cases Except.ok.inj hc; exact h

theorem ScalarD.setIfPos {d : Dict NpVal} (h : ScalarD d) (k : String) (x : Flt) : ScalarD (setIfPos d k x) := by
  unfold Calk.setIfPos
  split
  · exact h.set k ⟨_, rfl⟩
  · exact h

/-- What is assumed of PyCO2SYS: for single numbers it returns single totals, and constants that are single numbers or
arrays with an entry for each point; reordering the temperatures and totals reorders the constants. -/
structure Spec.PointByPoint (w : World) : Prop where
  salts : ∀ S a b c d o p t r, (∀ kv ∈ t, ∃ x, kv.2 = NpVal.scalar x) →
    w.saltsAssemble S a b c d o p t = .ok r → ∀ kv ∈ r, ∃ x, kv.2 = NpVal.scalar x
  shape : ∀ T t a b c d k r, dictFits T.length t = true → (∀ kv ∈ k, ∃ x, kv.2 = NpVal.scalar x) →
    w.equilibriaAssemble T t a b c d k = .ok r → dictFits T.length r = true
  order : ∀ (idx : List ℕ) T t a b c d k r, idx.Perm (List.range T.length) → dictFits T.length t = true →
    (∀ kv ∈ k, ∃ x, kv.2 = NpVal.scalar x) → w.equilibriaAssemble T t a b c d k = .ok r →
    w.equilibriaAssemble (pick nan idx T) (reindexD idx t) a b c d k = .ok (reindexD idx r)

theorem ScalarD.setIf {d : Dict NpVal} (h : ScalarD d) (k : String) (v : Option Flt) (s : Flt) :
    ScalarD (setIf d k v s) := by
  cases v with
  | none => exact h
  | some x => exact h.set k ⟨_, rfl⟩

theorem totals_for_pyco2_scalar (a b : Flt) (x y z : Option Flt) : ScalarD (totals_for_pyco2 a b x y z) := by
  have h0 : ScalarD [] := fun kv hkv => by simp at hkv
  exact ((((h0.setIfPos _ _).setIfPos _ _).setIf _ _ _).setIf _ _ _).setIf _ _ _

theorem ks_for_pyco2_scalar {kw : Dict Val} {l : List (String × String)} {d r : Dict NpVal} (hd : ScalarD d)
    (h : ks_for_pyco2 kw l d = .ok r) : ScalarD r := by
  induction l generalizing d with
  | nil => cases Except.ok.inj h; exact hd
  | cons kv l ih =>
    rcases kv with ⟨k, pk⟩
    simp only [ks_for_pyco2, bind_ok_iff] at h
    obtain ⟨v, -, h⟩ := h
    exact ih (hd.setIf _ _ _) h

theorem get_totals_scalar {w : World} {S : Flt} {kw : Dict Val} {t tp : Dict NpVal}
    (hw : Spec.PointByPoint w)
    (h : get_totals w S kw = .ok (t, tp)) : ScalarD t ∧ ScalarD tp := by
  simp only [get_totals, bind_ok_iff] at h
  obtain ⟨_, -, _, -, _, -, _, -, _, -, _, -, _, -, _, -, _, -, _, -, tp', hs, t1, h1, t2, h2, t3, h3, t4, h4,
    tb, hb, tf, hf, ts, hts, h⟩ := h
  have hp : ScalarD tp' := hw.salts _ _ _ _ _ _ _ _ _ (totals_for_pyco2_scalar _ _ _ _ _) hs
  simp only [pure_ok, Except.ok.injEq, Prod.mk.injEq] at h
  obtain ⟨rfl, rfl⟩ := h
  refine ⟨?_, hp⟩
  have h0 : ∀ x, ScalarD [("dic", NpVal.scalar x)] := by
    intro x kv hkv
    simp only [List.mem_singleton] at hkv
    subst hkv
    exact ⟨_, rfl⟩
  have := (((((h0 _).setIfPos _ _).setIfPos _ _).copyIfPos hp h1).copyIfPos hp h2).copyIfPos hp h3
  have := this.copyIfPos hp h4
  exact ((this.set _ (hp _ (mem_of_get hb))).set _ (hp _ (mem_of_get hf))).set _ (hp _ (mem_of_get hts))

theorem reindexD_get {idx : List ℕ} {d : Dict NpVal} {k : String} {v : NpVal} (h : d.get k = .ok v) :
    (reindexD idx d).get k = .ok (v.reindex idx) := by
  unfold Dict.get at h ⊢
  unfold reindexD
  rw [Dict.get?_mapKV]
  cases hh : d.get? k with
  | none => rw [hh] at h; cases h
  | some w => rw [hh] at h; cases Except.ok.inj h; rfl

theorem fits_of_mem {n : ℕ} {d : Dict NpVal} (h : dictFits n d = true) {kv : String × NpVal} (hk : kv ∈ d) :
    kv.2.fits n = true := by
  simp only [dictFits, List.all_eq_true] at h
  exact h kv hk

theorem filterMap_reindex (idx : List ℕ) (kp : Dict NpVal) (l : List (String × String)) :
    (l.filterMap fun kv => ((reindexD idx kp).get? kv.2).map fun v => (kv.1, v))
      = reindexD idx (l.filterMap fun kv => (kp.get? kv.2).map fun v => (kv.1, v)) := by
  induction l with
  | nil => rfl
  | cons kv l ih =>
    rw [List.filterMap_cons, List.filterMap_cons]
    have : (reindexD idx kp).get? kv.2 = (kp.get? kv.2).map fun v => v.reindex idx := by
      unfold reindexD; rw [Dict.get?_mapKV]
    rw [this]
    cases kp.get? kv.2 with
    | none => simpa using ih
    | some v =>
      simp only [Option.map_some]
      rw [ih]
      rfl

theorem dictFits_filterMap {n : ℕ} {kp : Dict NpVal} (h : dictFits n kp = true) (l : List (String × String)) :
    dictFits n (l.filterMap fun kv => (kp.get? kv.2).map fun v => (kv.1, v)) = true := by
  simp only [dictFits, List.all_eq_true, List.mem_filterMap, Option.map_eq_some_iff]
  rintro kv ⟨kk, -, v, hv, rfl⟩
  exact fits_of_mem (kv := (kk.2, v)) h (mem_of_get?' hv)

theorem dictFits_set {n : ℕ} {d : Dict NpVal} (h : dictFits n d = true) (k : String) {v : NpVal}
    (hv : v.fits n = true) : dictFits n (d.set k v) = true := by
  induction d with
  | nil => simp [dictFits, Dict.set, hv]
  | cons kv d ih =>
    rcases kv with ⟨k', v'⟩
    simp only [dictFits, List.all_cons, Bool.and_eq_true] at h
    simp only [Dict.set]
    split
    · simp only [dictFits, List.all_cons, Bool.and_eq_true]; exact ⟨hv, h.2⟩
    · simp only [dictFits, List.all_cons, Bool.and_eq_true]; exact ⟨h.1, ih h.2⟩

theorem get_k_constants_pick {w : World} (hw : Spec.PointByPoint w) {idx : List ℕ} {tp : Dict NpVal}
    {T : List Flt} {kw : Dict Val} {ks : Dict NpVal} (hp : idx.Perm (List.range T.length)) (hn : 2 ≤ T.length)
    (hf : dictFits T.length tp = true) (h : get_k_constants w tp T kw = .ok ks) :
    get_k_constants w (reindexD idx tp) (pick nan idx T) kw = .ok (reindexD idx ks) ∧
      dictFits T.length ks = true := by
  simp only [get_k_constants, bind_ok_iff] at h
  obtain ⟨k0, hk0, kp, hkp, h⟩ := h
  have hk : ScalarD k0 := ks_for_pyco2_scalar (by
    intro kv hkv
    simp only [List.mem_singleton] at hkv
    subst hkv
    exact ⟨_, rfl⟩) hk0
  have hsh := hw.shape _ _ _ _ _ _ _ _ hf hk hkp
  have hkp' := hw.order idx _ _ _ _ _ _ _ _ hp hf hk hkp
  have hfm := dictFits_filterMap hsh calk_to_pyco2_ks
  simp only [get_k_constants, hk0, bind_ok, hkp', filterMap_reindex, reindexD_has]
  split at h
  · rename_i hc
    rw [if_pos hc]
    simp only [bind_ok_iff] at h
    obtain ⟨tso4, h1, kso4, h2, ratio, h3, kf, h4, kf', h5, h⟩ := h
    cases Except.ok.inj h
    obtain ⟨e3, f3⟩ := bin_pick hp hn (fits_of_mem hf (mem_of_get h1)) (fits_of_mem hfm (mem_of_get h2)) h3
    obtain ⟨e5, f5⟩ := bin_pick hp hn (fits_of_mem hfm (mem_of_get h4)) f3 h5
    refine ⟨?_, dictFits_set hfm _ f5⟩
    rw [reindexD_get h1, bind_ok, reindexD_get h2, bind_ok, e3, bind_ok, reindexD_get h4, bind_ok, e5, bind_ok,
      pure_ok, set_reindexD]
  · rename_i hc
    rw [if_neg hc]
    cases Except.ok.inj h
    exact ⟨rfl, hfm⟩

/-- the same data with the points in the order `idx` -/
def Converted.reorder (idx : List ℕ) (cv : Converted) : Converted :=
  ⟨pick nan idx cv.titrant_mass, pick nan idx cv.measurement, pick nan idx cv.temperature, cv.analyte_mass,
    cv.salinity⟩

theorem totals_ks_pick {w : World} (hw : Spec.PointByPoint w) {idx : List ℕ} {cv : Converted} {kw : Dict Val}
    {totals ks : Dict NpVal} (hp : idx.Perm (List.range cv.temperature.length)) (hn : 2 ≤ cv.temperature.length)
    (hl : cv.titrant_mass.length = cv.temperature.length) (h : totals_ks w cv kw = .ok (totals, ks)) :
    totals_ks w (cv.reorder idx) kw = .ok (reindexD idx totals, reindexD idx ks) ∧
      dictFits cv.temperature.length totals = true ∧ dictFits cv.temperature.length ks = true := by
  simp only [totals_ks, bind_ok_iff] at h
  obtain ⟨⟨t, tp⟩, h1, tot, h2, tpp, h3, ks', h4, h⟩ := h
  simp only [pure_ok, Except.ok.injEq, Prod.mk.injEq] at h
  obtain ⟨rfl, rfl⟩ := h
  dsimp only at h2 h3
  obtain ⟨st, stp⟩ := get_totals_scalar hw h1
  have hdf : dilution_factors (pick nan idx cv.titrant_mass) cv.analyte_mass
      = pick nan idx (dilution_factors cv.titrant_mass cv.analyte_mass) :=
    (pick_map nan nan _ idx _ (by rw [hl]; exact idx_lt hp)).symm
  have hdl : (dilution_factors cv.titrant_mass cv.analyte_mass).length = cv.temperature.length := by
    simp [dilution_factors, hl]
  have hz : ∀ v u : NpVal, v.zipW (fun x y => x * y) (dilution_factors cv.titrant_mass cv.analyte_mass) = .ok u →
      (v.reindex idx).zipW (fun x y => x * y) (dilution_factors (pick nan idx cv.titrant_mass) cv.analyte_mass)
        = .ok (u.reindex idx) ∧ u.fits cv.temperature.length = true := by
    intro v u hv
    rw [hdf, ← hdl]
    exact zipW_pick (by rw [hdl]; exact hp) (by rw [hdl]; exact hn) hv
  have a2 : dilute_totals t (pick nan idx cv.titrant_mass) cv.analyte_mass = .ok (reindexD idx tot) ∧
      dictFits cv.temperature.length tot = true := by
    unfold dilute_totals at h2 ⊢
    conv_lhs => rw [← st.reindex idx]
    exact mapValsM_pick (fun k v u hv _ => hz v u hv) (st.fits _) h2
  have a3 : totals_for_ks (cv.reorder idx) tp kw
        = .ok (reindexD idx tpp) ∧ dictFits cv.temperature.length tpp = true := by
    unfold totals_for_ks at h3 ⊢
    split at h3
    · rename_i hc
      rw [if_pos hc]
      unfold dilute_totals_pyco2 at h3 ⊢
      conv_lhs => rw [← stp.reindex idx]
      refine mapValsM_pick (fun k v u hv hfv => ?_) (stp.fits _) h3
      split at hv
      · rename_i hk; rw [if_pos hk]; exact hz v u hv
      · rename_i hk; rw [if_neg hk]; cases Except.ok.inj hv; exact ⟨rfl, hfv⟩
    · rename_i hc
      rw [if_neg hc]
      cases Except.ok.inj h3
      exact ⟨by rw [stp.reindex], stp.fits _⟩
  obtain ⟨a4, f4⟩ := get_k_constants_pick hw hp hn a3.2 h4
  refine ⟨?_, a2.2, f4⟩
  have e1 : (cv.reorder idx).salinity = cv.salinity := rfl
  have e2 : (cv.reorder idx).titrant_mass = pick nan idx cv.titrant_mass := rfl
  have e3 : (cv.reorder idx).analyte_mass = cv.analyte_mass := rfl
  have e4 : (cv.reorder idx).temperature = pick nan idx cv.temperature := rfl
  simp only [totals_ks, e1, e2, e3, e4, h1, bind_ok, a2.1, a3.1, a4, pure_ok]

/-! ## Loading -/

/-- the same file with its lines in the order `idx` -/
def DatData.reorder (idx : List ℕ) (dd : DatData) : DatData :=
  ⟨pick nan idx dd.titrant_amount, pick nan idx dd.measurement, pick nan idx dd.temperature, dd.temperature_int⟩

theorem titrant_masses_pick {idx : List ℕ} {dd : DatData} {kw : Dict Val} {tm : List Flt}
    (hi : ∀ i ∈ idx, i < dd.titrant_amount.length) (h : titrant_masses dd kw = .ok tm) :
    titrant_masses (dd.reorder idx) kw = .ok (pick nan idx tm) ∧ tm.length = dd.titrant_amount.length := by
  have hm : ∀ f : Flt → Flt, (dd.reorder idx).titrant_amount.map f = pick nan idx (dd.titrant_amount.map f) :=
    fun f => (pick_map nan nan f idx _ hi).symm
  unfold titrant_masses at h ⊢
  simp only [bind_ok_iff] at h
  obtain ⟨u, h1, x2, h2, h⟩ := h
  rw [h1, bind_ok, h2, bind_ok]
  split at h
  · rename_i hu
    rw [if_pos hu]
    simp only [bind_ok_iff] at h
    obtain ⟨d, h3, h⟩ := h
    rw [h3, bind_ok]
    cases d with
    | some d => simp only at h ⊢; cases Except.ok.inj h; rw [hm]; exact ⟨rfl, by simp⟩
    | none =>
      simp only [bind_ok_iff] at h ⊢
      obtain ⟨t, h4, x5, h5, h⟩ := h
      split at h
      · rename_i ht
        simp only [bind_ok_iff] at h
        obtain ⟨m, h6, h⟩ := h
        cases Except.ok.inj h
        exact ⟨⟨t, h4, x5, h5, by rw [if_pos ht, h6, bind_ok, hm]; rfl⟩, by simp⟩
      · rename_i ht
        simp only [bind_ok_iff] at h
        obtain ⟨m, h6, m', h7, h⟩ := h
        cases Except.ok.inj h
        exact ⟨⟨t, h4, x5, h5, by rw [if_neg ht, h6, bind_ok, h7, bind_ok, hm]; rfl⟩, by simp⟩
  · rename_i hu
    rw [if_neg hu]
    split at h
    · rename_i hg
      rw [if_pos hg]
      cases Except.ok.inj h
      rw [hm]; exact ⟨rfl, by simp⟩
    · rename_i hg
      rw [if_neg hg]
      cases Except.ok.inj h
      exact ⟨rfl, rfl⟩

theorem override_pick {idx : List ℕ} {dd : DatData} {kw : Dict Val} {T : List Flt}
    (hi : ∀ i ∈ idx, i < dd.temperature.length) (h : override_temperature dd kw = .ok T) :
    override_temperature (dd.reorder idx) kw = .ok (pick nan idx T) ∧ T.length = dd.temperature.length := by
  unfold override_temperature at h ⊢
  simp only [bind_ok_iff] at h
  obtain ⟨o, h1, h⟩ := h
  rw [h1, bind_ok]
  cases o with
  | none => cases Except.ok.inj h; exact ⟨rfl, rfl⟩
  | some t =>
    cases Except.ok.inj h
    refine ⟨?_, by simp⟩
    show Except.ok ((pick nan idx dd.temperature).map _) = _
    rw [pick_map nan nan _ idx _ hi]
    rfl

/-- nothing that decides the analyte mass depends on the order: the mass is given, or one temperature for the whole
titration, or the two orders begin with the same temperature -/
def Spec.SameMass (kw : Dict Val) (dd dd' : DatData) : Prop :=
  (∃ v, kw.get? "analyte_mass" = some v ∧ ¬ Spec.Null v) ∨
  (∃ v, kw.get? "temperature_override" = some v ∧ v ≠ .none) ∨
  dd.temperature.head? = dd'.temperature.head?

theorem get_analyte_mass_head {T T' : List Flt} {S : Flt} {kw : Dict Val}
    (h : (∃ v, kw.get? "analyte_mass" = some v ∧ ¬ Spec.Null v) ∨ T.head? = T'.head?) :
    get_analyte_mass T' S kw = get_analyte_mass T S kw := by
  unfold get_analyte_mass
  rcases h with ⟨v, hv, hn⟩ | h
  · have : argNotNull kw "analyte_mass" = v.toFlt >>= fun x => .ok (some x) := by
      unfold argNotNull
      rw [hv]
      simp only
      rw [if_neg (by rw [isNull_iff]; exact hn)]
      rfl
    rw [this]
    cases v.toFlt with
    | error e => rfl
    | ok x => rfl
  · cases T with
    | nil =>
      cases T' with
      | nil => rfl
      | cons b l' => simp at h
    | cons a l =>
      cases T' with
      | nil => simp at h
      | cons b l' =>
        simp only [List.head?_cons, Option.some.injEq] at h
        subst h
        cases argNotNull kw "analyte_volume" with
        | error e => rfl
        | ok v => cases v <;> rfl

theorem head_const {x : Flt} {l l' : List Flt} (h : l.length = l'.length) :
    (l.map fun _ => x).head? = (l'.map fun _ => x).head? := by
  cases l with
  | nil => cases l' with
    | nil => rfl
    | cons b l' => simp at h
  | cons a l => cases l' with
    | nil => simp at h
    | cons b l' => rfl

theorem amount_units_pick {idx : List ℕ} {dd : DatData} {S : Flt} {kw : Dict Val} {cv : Converted}
    (hp : idx.Perm (List.range dd.measurement.length)) (h1 : dd.titrant_amount.length = dd.measurement.length)
    (h2 : dd.temperature.length = dd.measurement.length)
    (hm : Spec.SameMass kw dd (dd.reorder idx)) (h : amount_units dd S kw = .ok cv) :
    amount_units (dd.reorder idx) S kw = .ok (cv.reorder idx) ∧
      cv.titrant_mass.length = dd.measurement.length ∧ cv.measurement = dd.measurement ∧
      cv.temperature.length = dd.measurement.length := by
  have hi := idx_lt hp
  have hil : idx.length = dd.measurement.length := by simpa using hp.length_eq
  simp only [amount_units, bind_ok_iff] at h
  obtain ⟨T, hT, tm, htm, M, hM, h⟩ := h
  cases Except.ok.inj h
  obtain ⟨e1, l1⟩ := override_pick (by rw [h2]; exact hi) hT
  obtain ⟨e2, l2⟩ := titrant_masses_pick (by rw [h1]; exact hi) htm
  have e3 : get_analyte_mass (pick nan idx T) S kw = .ok M := by
    rw [← hM]
    apply get_analyte_mass_head
    rcases hm with hm | ⟨v, hv, hn⟩ | hm
    · exact .inl hm
    · right
      unfold override_temperature at hT e1
      rcases ho : argOpt kw "temperature_override" with e | o
      · rw [ho] at hT; cases hT
      · rw [ho, bind_ok] at hT e1
        cases o with
        | none =>
          unfold argOpt at ho
          rw [hv] at ho
          cases v with
          | none => exact absurd rfl hn
          | _ =>
            simp only [bind_ok_iff] at ho
            obtain ⟨x, -, ho⟩ := ho
            cases Except.ok.inj ho
        | some t =>
          rw [← Except.ok.inj e1, ← Except.ok.inj hT]
          exact head_const (by simp [DatData.reorder, pick, hil, h2])
    · unfold override_temperature at hT e1
      rcases ho : argOpt kw "temperature_override" with e | o
      · rw [ho] at hT; cases hT
      · rw [ho, bind_ok] at hT e1
        right
        cases o with
        | none => rw [← Except.ok.inj e1, ← Except.ok.inj hT]; exact hm
        | some t =>
          rw [← Except.ok.inj e1, ← Except.ok.inj hT]
          exact head_const (by simp [DatData.reorder, pick, hil, h2])
  refine ⟨?_, by rw [l2, h1], rfl, by rw [l1, h2]⟩
  simp only [amount_units, e1, e2, e3, bind_ok]
  rfl

theorem SameMass_kwargs {kw : Dict Val} {dd dd' : DatData} (h : Spec.SameMass kw dd dd') :
    Spec.SameMass (get_kwargs_for keys_cau kw none) dd dd' := by
  unfold Spec.SameMass at *
  rwa [get?_kwargs (by decide), get?_kwargs (by decide)]

end Calk
