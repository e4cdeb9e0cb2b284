import Verif.Props.SettingScope
import Verif.Props.Interface
import Verif.Props.Totals

/-!
# Properties C108 and C109: from the arguments of `files.solve` to the alkalinity

Which file is read; which contents and constants the solver works with; and, in pH mode, the
alkalinity as a textbook expression of the arguments and the data.
-/

namespace Calk
open Flt Spec

/-! ## C108: the file that is read -/

theorem toList_head_slash {n : String} : n.toList.head? = some '/' ↔ ∃ s, n = "/" ++ s := by
  constructor
  · intro h
    refine ⟨String.ofList n.toList.tail, ?_⟩
    apply String.toList_inj.mp
    rw [String.toList_append]
    cases hl : n.toList with
    | nil => rw [hl] at h; cases h
    | cons a l =>
      rw [hl] at h
      obtain rfl : a = '/' := Option.some.inj h
      have : (String.ofList ('/' :: l).tail).toList = l := String.toList_ofList
      rw [this]
      rfl
  · rintro ⟨s, rfl⟩
    rw [String.toList_append]
    rfl

theorem toList_last_slash {p : String} : p.toList.getLast? = some '/' ↔ ∃ s, p = s ++ "/" := by
  constructor
  · intro h
    refine ⟨String.ofList p.toList.dropLast, ?_⟩
    apply String.toList_inj.mp
    rw [String.toList_append, String.toList_ofList]
    exact (List.dropLast_append_getLast? '/' h).symm
  · rintro ⟨s, rfl⟩
    rw [String.toList_append]
    exact List.getLast?_concat

/-- the file at `name`, as seen from the directory `path` -/
def Located (path name full : String) : Prop :=
  ((∃ s, name = "/" ++ s) → full = name) ∧
  ((¬ ∃ s, name = "/" ++ s) → (path = "" ∨ ∃ s, path = s ++ "/") → full = path ++ name) ∧
  ((¬ ∃ s, name = "/" ++ s) → path ≠ "" → (¬ ∃ s, path = s ++ "/") → full = path ++ "/" ++ name)

theorem Located.eq {p n g : String} (h : Located p n g) : pathJoin p n = g := by
  unfold pathJoin
  by_cases h1 : n.toList.head? = some '/'
  · rw [if_pos h1, h.1 (toList_head_slash.mp h1)]
  · have h1' := fun hc => h1 (toList_head_slash.mpr hc)
    rw [if_neg h1]
    by_cases h2 : p = "" ∨ p.toList.getLast? = some '/'
    · rw [if_pos h2, h.2.1 h1' (h2.imp_right toList_last_slash.mp)]
    · rw [if_neg h2]
      simp only [not_or] at h2
      exact (h.2.2 h1' h2.1 fun hc => h2.2 (toList_last_slash.mpr hc)).symm

/-- **C108**: giving `file_path` is giving the name of the file in that directory: a name starting
with "/" stands for itself, a path that ends in "/" (or is empty) is put in front, any other path
with a "/" between. -/
theorem C108_file (w : World) (p n g : String) (x S : Flt) (kw : Dict Val)
    (hg : Located p n g) (hkw : kw.get? "file_path" = none) :
    files_solve w n x S (kw.set "file_path" (.str p)) = files_solve w g x S kw ∧
    files_calibrate w n x S (kw.set "file_path" (.str p)) = files_calibrate w g x S kw := by
  have hload : load w n S (kw.set "file_path" (.str p)) = load w g S kw := by
    have h1 : full_name n (kw.set "file_path" (.str p)) = .ok g := by
      unfold full_name
      rw [Dict.get?_set, if_pos rfl]
      exact congrArg Except.ok hg.eq
    have h2 : full_name g kw = .ok g := by
      unfold full_name; rw [hkw]
    unfold load
    rw [h1, h2, kwargs_set_off (by decide), kwargs_set_off (by decide), kwargs_set_off (by decide)]
  have hmode : solve_mode (kw.set "file_path" (.str p)) = solve_mode kw := by
    unfold solve_mode argVal
    rw [get?_ne_set (by decide)]
  constructor
  · unfold files_solve
    rw [hload, titrant_totals_set _ _ (by decide), hmode]
    unfold solve_dispatch
    rw [kwargs_set_off (by decide), kwargs_set_off (by decide), kwargs_set_off (by decide)]
  · unfold files_calibrate
    rw [hload, hmode]
    unfold calibrate_dispatch
    rw [kwargs_set_off (by decide), kwargs_set_off (by decide), kwargs_set_off (by decide)]

/-- the three cases of C108 -/
example : Located "data" "a.dat" "data/a.dat" ∧ Located "data/" "a.dat" "data/a.dat" ∧
    Located "data" "/tmp/a.dat" "/tmp/a.dat" ∧ Located "" "a.dat" "a.dat" := by
  simp only [Located, ← toList_head_slash, ← toList_last_slash]
  refine ⟨⟨?_, ?_, ?_⟩, ⟨?_, ?_, ?_⟩, ⟨?_, ?_, ?_⟩, ⟨?_, ?_, ?_⟩⟩ <;> decide

/-! ## C108: the contents and constants that the solver works with -/

/-- contents that are there only if positive (DIC: always) -/
def optionalContents : List String :=
  ["total_alpha", "total_beta", "total_ammonia", "total_silicate", "total_phosphate",
    "total_sulfide"]

/-- contents that PyCO2SYS estimates from salinity if they are not given -/
def saltContents : List String := ["total_borate", "total_fluoride", "total_sulfate"]

/-- the constants -/
def allConstants : List String :=
  ["k_alpha", "k_ammonia", "k_beta", "k_bisulfate", "k_borate", "k_carbonic_1", "k_carbonic_2",
    "k_fluoride", "k_phosphoric_1", "k_phosphoric_2", "k_phosphoric_3", "k_silicate", "k_sulfide",
    "k_water"]

/-- at every point, the content `x` (µmol/kg) of the sample diluted by the titrant, in mol/kg -/
def DilutedContent (cv : Converted) (x : Flt) (v : NpVal) : Prop :=
  ∀ i, (hi : i < cv.titrant_mass.length) →
    v.at_ i = x * fin 1e-6 * (cv.analyte_mass / (cv.titrant_mass[i] + cv.analyte_mass))

theorem get?_twice {a b : List String} {kw : Dict Val} {k : String} (ha : a.contains k = true)
    (hb : b.contains k = true) :
    Dict.get? ((get_kwargs_for a kw none).filter fun kv => b.contains kv.1) k = kw.get? k := by
  rw [Dict.get?_filter (fun k => b.contains k), if_pos hb]
  rw [show get_kwargs_for a kw none = kw.filter fun kv => a.contains kv.1 from rfl,
    Dict.get?_filter (fun k => a.contains k), if_pos ha]

theorem diluted_get? {t totals : Dict NpVal} {tm : List Flt} {M : Flt}
    (h : dilute_totals t tm M = .ok totals) (k : String) :
    (t.get? k = none ∧ totals.get? k = none) ∨ ∃ v v', t.get? k = some v ∧ totals.get? k = some v' ∧
      ∀ i, (hi : i < tm.length) → v'.at_ i = v.at_ i * (M / (tm[i] + M)) := by
  rcases mapValsM_get? _ _ _ h k with h' | ⟨v, v', h1, h2, h3⟩
  · exact .inl h'
  · refine .inr ⟨v, v', h1, h3, ?_⟩
    intro i hi
    rw [zipW_at h2 (by simpa [dilution_factors] using hi)]
    simp only [dilution_factors, List.getElem_map]
    rfl

/-- **C108**: the contents that the solver works with are those given, diluted by the titrant at
every point; those that can be absent are there if positive, and DIC always. -/
theorem C108_contents (w : World) (hw : KeepsTotals w) (f : String) (S : Flt) (kw : Dict Val)
    (cv : Converted) (totals ks : Dict NpVal) (h : load w f S kw = .ok (cv, totals, ks))
    (x : String → Flt)
    (hx : ∀ k ∈ "dic" :: optionalContents,
      kw.get? k = some (.num (x k)) ∨ (kw.get? k = none ∧ x k = fin 0)) :
    (∃ v, totals.get? "dic" = some v ∧ DilutedContent cv (x "dic") v) ∧
    (∀ k ∈ optionalContents,
      ((fin 0).lt (x k) = true → ∃ v, totals.get? k = some v ∧ DilutedContent cv (x k) v) ∧
      ((fin 0).lt (x k) = false → totals.get? k = none)) ∧
    (∀ k ∈ saltContents, ∀ y, y ≠ nan → kw.get? k = some (.num y) →
      ∃ v, totals.get? k = some v ∧ DilutedContent cv y v) ∧
    (∀ k, k ∉ "dic" :: (optionalContents ++ saltContents) → totals.get? k = none) := by
  obtain ⟨-, -, -, -, h3, h4⟩ := load_parts h
  obtain ⟨t, tp, tp', h1, h2, -, -⟩ := totals_ks_parts h4
  have hS : ∀ k x, t.get? k = some (.scalar x) → ∃ v, totals.get? k = some v ∧
      ∀ i, (hi : i < cv.titrant_mass.length) →
        v.at_ i = x * (cv.analyte_mass / (cv.titrant_mass[i] + cv.analyte_mass)) := by
    intro k x hx
    rcases diluted_get? h2 k with ⟨h5, -⟩ | ⟨v, v', h5, h6, h7⟩
    · rw [h5] at hx; cases hx
    · rw [h5] at hx
      obtain rfl := Option.some.inj hx
      exact ⟨v', h6, h7⟩
  have hN : ∀ k, t.get? k = none → totals.get? k = none := by
    intro k hk
    rcases diluted_get? h2 k with ⟨-, h6⟩ | ⟨v, v', h5, -⟩
    · exact h6
    · rw [h5] at hk; cases hk
  have hget : ∀ k ∈ "dic" :: (optionalContents ++ saltContents),
      Dict.get? ((get_kwargs_for keys_totals_ks kw none).filter
        fun kv => keys_get_totals.contains kv.1) k = kw.get? k := by
    intro k hk
    have hkeys := (by decide : ∀ k ∈ "dic" :: (optionalContents ++ saltContents),
      keys_totals_ks.contains k = true ∧ keys_get_totals.contains k = true) k hk
    exact get?_twice hkeys.1 hkeys.2
  have hsub : ∀ k, k ∈ "dic" :: optionalContents →
      k ∈ "dic" :: (optionalContents ++ saltContents) := by
    intro k hk
    rcases List.mem_cons.mp hk with rfl | hk
    · exact List.mem_cons_self
    · exact List.mem_cons_of_mem _ (List.mem_append_left _ hk)
  obtain ⟨o1, o2⟩ := C69_optional w hw _ _ t tp h1 x
    (fun k hk => by rw [hget k (hsub k hk)]; exact hx k hk)
  refine ⟨hS _ _ o1, ?_, ?_, ?_⟩
  · intro k hk
    have := o2 k hk
    refine ⟨fun hp => ?_, fun hn => ?_⟩
    · rw [if_pos hp] at this
      exact hS _ _ this
    · rw [if_neg (by rw [hn]; decide)] at this
      exact hN _ this
  · intro k hk y hy hkw
    exact hS _ _ (C69_salts w hw _ _ t tp h1 k hk y hy
      ((hget k (List.mem_cons_of_mem _ (List.mem_append_right _ hk))).trans hkw))
  · intro k hk
    exact hN _ (C69_no_other w _ _ t tp h1 k hk)

/-- **C108**: a constant given is the one that the solver works with, at every point and whatever the
dilution and the options (on the Total scale, `k_fluoride` is rescaled). -/
theorem C108_constants (w : World) (hw : KeepsKs w) (f : String) (S : Flt) (kw : Dict Val)
    (cv : Converted) (totals ks : Dict NpVal) (h : load w f S kw = .ok (cv, totals, ks))
    (k : String) (hk : k ∈ allConstants) (x : Flt) (hx : x ≠ nan)
    (hkw : kw.get? k = some (.num x))
    (hkf : k ≠ "k_fluoride" ∨ ¬ OnTotalScale kw) :
    ks.get? k = some (.scalar x) := by
  obtain ⟨-, -, -, -, -, h4⟩ := load_parts h
  obtain ⟨t, tp, tp', -, -, -, h⟩ := totals_ks_parts h4
  have hkeys := (by decide : ∀ k ∈ allConstants, keys_totals_ks.contains k = true ∧
    keys_get_k_constants.contains k = true) k hk
  refine C69_constants w hw tp' _ _ _ h k hk x hx ((get?_twice hkeys.1 hkeys.2).trans hkw) ?_
  rcases hkf with h' | h'
  · exact .inl h'
  · refine .inr (.inl ?_)
    rwa [onTotalScale_congr (get?_twice (by decide) (by decide))]

/-! ## C109: the alkalinity in pH mode, from the arguments and the data -/

/-- a sample whose contents (µmol/kg) and constants are all given -/
structure GivenSample (kw : Dict Val) (x K : String → ℝ) : Prop where
  contents : ∀ k ∈ "dic" :: (optionalContents ++ saltContents),
    kw.get? k = some (.num (fin (x k))) ∧ 0 ≤ x k
  constants : ∀ k ∈ allConstants, kw.get? k = some (.num (fin (K k))) ∧ 0 < K k
  scale : ¬ OnTotalScale kw

/-- a number given, or its default -/
def NumOr (kw : Dict Val) (k : String) (d r : ℝ) : Prop :=
  kw.get? k = some (.num (fin r)) ∨ (kw.get? k = none ∧ r = d)

/-- content (mol/kg) of the mixture of `M` kg of sample and `m` kg of titrant, the latter bringing
`g` mol of sulfate per mol of acid -/
noncomputable def mixContent (x : String → ℝ) (m M c g : ℝ) (k : String) : ℝ :=
  (x k * 1e-6 * M + if k = "total_sulfate" then m * c * g else 0) / (m + M)

/-- the mixture -/
noncomputable def mixture (x K : String → ℝ) (m M c g : ℝ) : Sol where
  kw := K "k_water"
  dic := mixContent x m M c g "dic"
  k1 := K "k_carbonic_1"
  k2 := K "k_carbonic_2"
  tb := mixContent x m M c g "total_borate"
  kb := K "k_borate"
  tp := mixContent x m M c g "total_phosphate"
  kp1 := K "k_phosphoric_1"
  kp2 := K "k_phosphoric_2"
  kp3 := K "k_phosphoric_3"
  tsi := mixContent x m M c g "total_silicate"
  ksi := K "k_silicate"
  tnh3 := mixContent x m M c g "total_ammonia"
  knh3 := K "k_ammonia"
  th2s := mixContent x m M c g "total_sulfide"
  kh2s := K "k_sulfide"
  ta := mixContent x m M c g "total_alpha"
  ka := K "k_alpha"
  tbeta := mixContent x m M c g "total_beta"
  kbeta := K "k_beta"
  tf := mixContent x m M c g "total_fluoride"
  kf := K "k_fluoride"
  ts := mixContent x m M c g "total_sulfate"
  ks := K "k_bisulfate"

theorem NumOr.arg {kw : Dict Val} {k : String} {d r : ℝ} (h : NumOr kw k d r) :
    argNum kw k (fin d) = .ok (fin r) := by
  unfold argNum
  rcases h with h | ⟨h, rfl⟩ <;> rw [h]
  rfl

theorem sulfate_name : "titrant_total_sulfate" = "titrant_" ++ "total_sulfate" := by decide

/-- the titrant totals of an acid that brings sulfate only -/
theorem titrant_totals_sulfate {kw : Dict Val} {g : ℝ} (hn : kw.keys.Nodup)
    (hg : NumOr kw "titrant_total_sulfate" 0 g)
    (h1 : kw.get? "titrant_total_phosphate" = none) (h2 : kw.get? "titrant_total_fluoride" = none) :
    ∃ tts : List (String × ℝ), titrant_totals kw = .ok (ttArgs tts) ∧
      ((tts = [] ∧ g = 0) ∨ tts = [("titrant_total_sulfate", g)]) := by
  have hp : ∀ (d : Dict Val), d.keys.Nodup → ∀ v,
      (∀ kv ∈ d, keys_titrant_totals.contains kv.1 = true → kv.1 = "titrant_total_sulfate") →
      ((d.get? "titrant_total_sulfate" = none →
          (d.filter fun kv => keys_titrant_totals.contains kv.1) = []) ∧
        (d.get? "titrant_total_sulfate" = some v →
          (d.filter fun kv => keys_titrant_totals.contains kv.1)
            = [("titrant_total_sulfate", v)])) := by
    intro d hd v
    induction d with
    | nil => intro _; exact ⟨fun _ => rfl, fun h => by cases h⟩
    | cons e d ih =>
      intro hk
      obtain ⟨k, u⟩ := e
      have hd' : k ∉ Dict.keys d ∧ (Dict.keys d).Nodup := List.nodup_cons.mp hd
      obtain ⟨i1, i2⟩ := ih hd'.2 fun kv hkv => hk kv (List.mem_cons_of_mem _ hkv)
      by_cases hc : keys_titrant_totals.contains k = true
      · obtain rfl : k = "titrant_total_sulfate" := hk (k, u) List.mem_cons_self hc
        have hnone := (Dict.get?_eq_none_iff d "titrant_total_sulfate").mpr hd'.1
        rw [List.filter_cons_of_pos (by exact hc), i1 hnone, Dict.get?_cons, if_pos rfl]
        exact ⟨fun h => (by cases h), fun h => (by rw [Option.some.inj h])⟩
      · have hne : k ≠ "titrant_total_sulfate" := by
          rintro rfl; exact hc (by decide)
        rw [List.filter_cons_of_neg (by exact hc), Dict.get?_cons, if_neg hne]
        exact ⟨i1, i2⟩
  have honly : ∀ kv ∈ kw, keys_titrant_totals.contains kv.1 = true →
      kv.1 = "titrant_total_sulfate" := by
    intro kv hkv hc
    have hs := Dict.mem_get? hn hkv
    have hm : kv.1 ∈ keys_titrant_totals := by simpa using hc
    simp only [keys_titrant_totals, List.mem_cons, List.not_mem_nil, or_false] at hm
    rcases hm with e | e | e
    · exact e
    · rw [e, h1] at hs; cases hs
    · rw [e, h2] at hs; cases hs
  unfold titrant_totals
  rcases hg with hg | ⟨hg, rfl⟩
  · refine ⟨[("titrant_total_sulfate", g)], ?_, .inr rfl⟩
    rw [(hp kw hn _ honly).2 hg]
    rfl
  · refine ⟨[], ?_, .inl ⟨rfl, rfl⟩⟩
    rw [(hp kw hn (.num nan) honly).1 hg]
    rfl

/-- contents at the points, after the titrant's sulfate is added -/
theorem solver_totals {w : World} (hw : KeepsTotals w) {f : String} {S : Flt} {kw : Dict Val}
    {cv : Converted} {totals ks : Dict NpVal} (h : load w f S kw = .ok (cv, totals, ks))
    {x K : String → ℝ} (hs : GivenSample kw x K) {tm : List ℝ} {M c g : ℝ}
    (htm : cv.titrant_mass = tm.map fin) (hM : cv.analyte_mass = fin M) (hM0 : 0 < M)
    (hm : ∀ m ∈ tm, 0 ≤ m) {tts : List (String × ℝ)}
    (htts : (tts = [] ∧ g = 0) ∨ tts = [("titrant_total_sulfate", g)]) :
    ∃ totals', add_titrant_totals (tm.map fin) (fin M) (fin c) (fin 0) (ttArgs tts) totals
        = (.ok (), totals') ∧ dictFits tm.length totals' = true ∧
      (∀ k, k ∉ "dic" :: (optionalContents ++ saltContents) → totals'.get? k = none) ∧
      ∀ k ∈ "dic" :: (optionalContents ++ saltContents),
        (totals'.get? k = none ∧ ∀ m, mixContent x m M c g k = 0) ∨
        ∃ v, totals'.get? k = some v ∧ ∀ i, (hi : i < tm.length) →
          v.at_ i = fin (mixContent x tm[i] M c g k) := by
  have hpos : ∀ m ∈ tm, m + M ≠ 0 := fun m h => by have := hm m h; positivity
  obtain ⟨hnd, harr⟩ := load_totals h
  obtain ⟨c1, c2, c3, c4⟩ := C108_contents w hw f S kw cv totals ks h (fun k => fin (x k)) (by
    intro k hk
    refine .inl (hs.contents k ?_).1
    rcases List.mem_cons.mp hk with rfl | hk
    · exact List.mem_cons_self
    · exact List.mem_cons_of_mem _ (List.mem_append_left _ hk))
  have hlen : cv.titrant_mass.length = tm.length := by rw [htm, List.length_map]
  have hdil : ∀ r v, DilutedContent cv (fin r) v → ∀ i, (hi : i < tm.length) →
      v.at_ i = fin (r * 1e-6 * M / (tm[i] + M)) := by
    intro r v hv i hi
    have := hv i (by rw [hlen]; exact hi)
    simp only [htm, hM, List.getElem_map, add_fin, mul_fin,
      div_fin _ _ (hpos _ (List.getElem_mem hi))] at this
    rw [this, mul_div_assoc]
  have hgood : GoodTT tm.length tts totals := by
    intro p hp
    rcases htts with ⟨rfl, -⟩ | rfl
    · cases hp
    · obtain rfl : p = ("titrant_total_sulfate", g) := by simpa using hp
      obtain ⟨v, hv, -⟩ := c3 "total_sulfate" (by decide) _ (by exact fun h => by cases h)
        (hs.contents "total_sulfate" (by decide)).1
      refine ⟨"total_sulfate", v, sulfate_name, by decide, hv, ?_⟩
      obtain ⟨xs, rfl, hxs⟩ := harr _ _ hv
      exact hxs.trans hlen
  obtain ⟨totals', ha, hkeys, hadd⟩ := C30_adds tm M c 0 tts totals hpos hnd hgood
  have hnone : ∀ k, totals.get? k = none → totals'.get? k = none := by
    intro k hk
    rw [Dict.get?_eq_none_iff] at hk ⊢
    rwa [hkeys]
  have hsome : ∀ k v', totals'.get? k = some v' → ∃ v, totals.get? k = some v := by
    intro k v' hv
    have := Dict.has_of_get? hv
    rw [hkeys] at this
    cases ho : totals.get? k with
    | some v => exact ⟨v, rfl⟩
    | none => exact absurd this ((Dict.get?_eq_none_iff _ _).mp ho)
  have hfit : ∀ k v v', totals.get? k = some v → totals'.get? k = some v' →
      v'.fits tm.length = true := by
    intro k v v' hv hv'
    obtain ⟨v'', h1, h2, h3⟩ := hadd k v hv
    rw [hv'] at h1
    obtain rfl := Option.some.inj h1
    by_cases hc : ∃ p ∈ tts, p.1 = "titrant_" ++ k
    · obtain ⟨xs, rfl, hl, -⟩ := h3 hc
      simp [NpVal.fits, hl]
    · rw [h2 fun p hp he => hc ⟨p, hp, he⟩]
      obtain ⟨xs, rfl, hxs⟩ := harr _ _ hv
      simp [NpVal.fits, hxs, hlen]
  have hval : ∀ k r v, totals.get? k = some v → DilutedContent cv (fin r) v → r = x k →
      ∃ v', totals'.get? k = some v' ∧ ∀ i, (hi : i < tm.length) →
        v'.at_ i = fin (mixContent x tm[i] M c g k) := by
    intro k r v hv hd hr
    obtain ⟨v', h1, h2, h3⟩ := hadd k v hv
    refine ⟨v', h1, ?_⟩
    intro i hi
    have hat := hdil r v hd i hi
    subst hr
    by_cases hc : ∃ p ∈ tts, p.1 = "titrant_" ++ k
    · obtain ⟨xs, rfl, hl, hx⟩ := h3 hc
      rw [at_arr (by rw [hl]; exact hi), hx i hi, hat, add_fin]
      rcases htts with ⟨rfl, -⟩ | rfl
      · obtain ⟨p, hp, -⟩ := hc; cases hp
      · obtain ⟨p, hp, he⟩ := hc
        obtain rfl : p = ("titrant_total_sulfate", g) := by simpa using hp
        obtain rfl : "total_sulfate" = k :=
          eq_titrant_iff.mp (sulfate_name.symm.trans he)
        have hf : (([("titrant_total_sulfate", g)] : List (String × ℝ)).filter
            fun p => p.1 = "titrant_" ++ "total_sulfate") = [("titrant_total_sulfate", g)] := by
          rw [List.filter_cons_of_pos (by exact decide_eq_true sulfate_name)]; rfl
        rw [hf]
        simp only [mixContent, if_true, List.map_cons, List.map_nil, List.sum_cons, List.sum_nil]
        congr 1
        ring
    · rw [h2 fun p hp he => hc ⟨p, hp, he⟩, hat]
      congr 1
      unfold mixContent
      by_cases hk : k = "total_sulfate"
      · rw [if_pos hk]
        rcases htts with ⟨-, rfl⟩ | rfl
        · ring
        · exact absurd ⟨_, List.mem_cons_self, by rw [hk]; exact sulfate_name⟩ hc
      · rw [if_neg hk, add_zero]
  refine ⟨totals', ha, ?_, fun k hk => hnone k (c4 k hk), ?_⟩
  · unfold dictFits
    rw [List.all_eq_true]
    intro kv hkv
    have hv := Dict.mem_get? (by rw [hkeys]; exact hnd) hkv
    obtain ⟨v, hv0⟩ := hsome _ _ hv
    exact hfit _ _ _ hv0 hv
  · intro k hk
    have hx := hs.contents k hk
    rcases List.mem_cons.mp hk with rfl | hk
    · obtain ⟨v, hv, hd⟩ := c1
      exact .inr (hval _ _ v hv hd rfl)
    rcases List.mem_append.mp hk with ho | ho
    · by_cases hp : (fin 0).lt (fin (x k)) = true
      · obtain ⟨v, hv, hd⟩ := (c2 k ho).1 hp
        exact .inr (hval _ _ v hv hd rfl)
      · refine .inl ⟨hnone k ((c2 k ho).2 (by simpa using hp)), ?_⟩
        have h0 : x k = 0 := le_antisymm (by simpa using hp) hx.2
        have hne : k ≠ "total_sulfate" := by
          rintro rfl; exact absurd ho (by decide)
        intro m
        unfold mixContent
        rw [h0, if_neg hne]; simp
    · obtain ⟨v, hv, hd⟩ := c3 k ho _ (by exact fun h => by cases h) hx.1
      exact .inr (hval _ _ v hv hd rfl)

/-- the constants, all given -/
theorem solver_ks {w : World} (hw : KeepsKs w) {f : String} {S : Flt} {kw : Dict Val}
    {cv : Converted} {totals ks : Dict NpVal} (h : load w f S kw = .ok (cv, totals, ks))
    {x K : String → ℝ} (hs : GivenSample kw x K) (n : ℕ) :
    dictFits n ks = true ∧ (∀ k ∈ allConstants, ks.get? k = some (.scalar (fin (K k)))) ∧
      ∀ k, k ∉ allConstants → ks.get? k = none := by
  have hget : ∀ k ∈ allConstants, ks.get? k = some (.scalar (fin (K k))) := fun k hk =>
    C108_constants w hw f S kw cv totals ks h k hk _ (by exact fun h => by cases h)
      (hs.constants k hk).1 (.inr hs.scale)
  obtain ⟨-, -, -, -, -, h4⟩ := load_parts h
  obtain ⟨t, tp, tp', -, -, -, h5⟩ := totals_ks_parts h4
  simp only [get_k_constants, bind_ok_iff] at h5
  obtain ⟨d, -, kp, -, h5⟩ := h5
  have hsc : (argVal ((get_kwargs_for keys_totals_ks kw none).filter
      fun kv => keys_get_k_constants.contains kv.1) "opt_pH_scale" (.num (fin 3))).eqNum 1
        = false := by
    rw [not_onTotalScale_iff, onTotalScale_congr (get?_twice (by decide) (by decide))]
    exact hs.scale
  rw [hsc] at h5
  simp only [Bool.false_and, Bool.false_eq_true, if_false, pure_ok, Except.ok.injEq] at h5
  have hmem : ∀ e ∈ ks, e.1 ∈ allConstants ∧ ks.get? e.1 = some e.2 := by
    intro e he
    rw [← h5, List.mem_filterMap] at he
    obtain ⟨⟨a, b⟩, hab, he⟩ := he
    obtain ⟨v, hv, rfl⟩ := Option.map_eq_some_iff.mp he
    refine ⟨(by decide : ∀ e ∈ calk_to_pyco2_ks, e.1 ∈ allConstants) _ hab, ?_⟩
    rw [← h5, rename_get? (by decide) hab]
    exact hv
  refine ⟨?_, hget, ?_⟩
  · unfold dictFits
    rw [List.all_eq_true]
    intro e he
    obtain ⟨h1, h2⟩ := hmem e he
    rw [hget _ h1] at h2
    rw [← Option.some.inj h2]
    rfl
  · intro k hk
    rw [Dict.get?_eq_none_iff]
    intro hc
    obtain ⟨e, he, rfl⟩ := List.mem_map.mp hc
    exact hk (hmem e he).1

/-- contents, constants and acid, all given: what the solver works with at the points -/
theorem given_solver {w : World} (hw : KeepsTotals w) (hw' : KeepsKs w) {f : String} {S : Flt}
    {kw : Dict Val} {cv : Converted} {totals ks : Dict NpVal}
    (hl : load w f S kw = .ok (cv, totals, ks)) (hn : kw.keys.Nodup)
    {x K : String → ℝ} (hsample : GivenSample kw x K) {g : ℝ}
    (hg : NumOr kw "titrant_total_sulfate" 0 g)
    (h1 : kw.get? "titrant_total_phosphate" = none) (h2 : kw.get? "titrant_total_fluoride" = none)
    {tm : List ℝ} {M : ℝ} (htm : cv.titrant_mass = tm.map fin) (hM : cv.analyte_mass = fin M)
    (hM0 : 0 < M) (hm : ∀ m ∈ tm, 0 ≤ m) {c : ℝ} (hac : 0 ≤ c * g) :
    ∃ (tts : List (String × Flt)) (totals' : Dict NpVal), titrant_totals kw = .ok tts ∧
      add_titrant_totals cv.titrant_mass cv.analyte_mass (fin c) (fin 0) tts totals
        = (.ok (), totals') ∧
      ValidRows totals' ks tm.length ∧ HasKsN totals' ks 3 ∧ dictFits tm.length totals' = true ∧
      dictFits tm.length ks = true ∧ ∀ i, (hi : i < tm.length) →
        Sol.of (rowAt totals' i) (rowAt ks i) = mixture x K tm[i] M c g := by
  obtain ⟨tts, ht, htts⟩ := titrant_totals_sulfate hn hg h1 h2
  obtain ⟨totals', ha, hfit, hno, hval⟩ :=
    solver_totals hw hl hsample htm hM hM0 hm htts (c := c)
  obtain ⟨hfit', hks, hnoks⟩ := solver_ks hw' hl hsample tm.length
  have hr : ∀ i, (hi : i < tm.length) → ∀ k ∈ "dic" :: (optionalContents ++ saltContents),
      rval (rowAt totals' i) 0 k = mixContent x tm[i] M c g k := by
    intro i hi k hk
    unfold rval
    rw [rowAt_get?]
    rcases hval k hk with ⟨h1, h2⟩ | ⟨v, h1, h2⟩
    · rw [h1, h2]; rfl
    · rw [h1, Option.map_some, h2 i hi]
  have hrk : ∀ i d, ∀ k ∈ allConstants, rval (rowAt ks i) d k = K k := by
    intro i d k hk
    unfold rval
    rw [rowAt_get?, hks k hk]
    rfl
  refine ⟨ttArgs tts, totals', ht, by rw [htm, hM]; exact ha, ?_, ?_, hfit, hfit', ?_⟩
  · intro i hi
    have hi' := hi
    refine ⟨?_, ?_⟩
    · intro k v hv
      rw [rowAt_get?] at hv
      obtain ⟨u, hu, rfl⟩ := Option.map_eq_some_iff.mp hv
      by_cases hk : k ∈ "dic" :: (optionalContents ++ saltContents)
      · rcases hval k hk with ⟨h1, -⟩ | ⟨v, h1, h2⟩
        · rw [h1] at hu; cases hu
        · rw [h1] at hu
          obtain rfl := Option.some.inj hu
          refine ⟨_, ?_, h2 i hi'⟩
          have := hm _ (List.getElem_mem hi')
          have hx := (hsample.contents k hk).2
          have h3 : 0 ≤ tm[i] * c * g := by rw [mul_assoc]; positivity
          unfold mixContent
          apply div_nonneg
          · split_ifs
            · positivity
            · positivity
          · positivity
      · rw [hno k hk] at hu; cases hu
    · intro k v hv
      rw [rowAt_get?] at hv
      obtain ⟨u, hu, rfl⟩ := Option.map_eq_some_iff.mp hv
      by_cases hk : k ∈ allConstants
      · rw [hks k hk] at hu
        obtain rfl := Option.some.inj hu
        exact ⟨_, (hsample.constants k hk).2, rfl⟩
      · rw [hnoks k hk] at hu; cases hu
  · intro tk htk _
    have : tk.2 ∈ allConstants :=
      (by decide : ∀ tk ∈ requiredKs 3, tk.2 ∈ allConstants) tk htk
    unfold Dict.has
    rw [hks _ this]; rfl
  · intro i hi
    unfold Sol.of mixture
    simp only [hr i hi _ (by decide : "dic" ∈ _), hr i hi _ (by decide : "total_borate" ∈ _),
      hr i hi _ (by decide : "total_phosphate" ∈ _), hr i hi _ (by decide : "total_silicate" ∈ _),
      hr i hi _ (by decide : "total_ammonia" ∈ _), hr i hi _ (by decide : "total_sulfide" ∈ _),
      hr i hi _ (by decide : "total_alpha" ∈ _), hr i hi _ (by decide : "total_beta" ∈ _),
      hr i hi _ (by decide : "total_fluoride" ∈ _), hr i hi _ (by decide : "total_sulfate" ∈ _),
      hrk i _ _ (by decide : "k_water" ∈ _), hrk i _ _ (by decide : "k_carbonic_1" ∈ _),
      hrk i _ _ (by decide : "k_carbonic_2" ∈ _), hrk i _ _ (by decide : "k_borate" ∈ _),
      hrk i _ _ (by decide : "k_phosphoric_1" ∈ _), hrk i _ _ (by decide : "k_phosphoric_2" ∈ _),
      hrk i _ _ (by decide : "k_phosphoric_3" ∈ _), hrk i _ _ (by decide : "k_silicate" ∈ _),
      hrk i _ _ (by decide : "k_ammonia" ∈ _), hrk i _ _ (by decide : "k_sulfide" ∈ _),
      hrk i _ _ (by decide : "k_alpha" ∈ _), hrk i _ _ (by decide : "k_beta" ∈ _),
      hrk i _ _ (by decide : "k_fluoride" ∈ _), hrk i _ _ (by decide : "k_bisulfate" ∈ _)]

/-- the arguments and the data of a pH-mode solve with everything given: contents `x`, constants `K`,
acid `c` mol/kg with `n` protons and `g` sulfates per mole, window `lo` to `hi`; the file holds
titrant masses `tm` (converted to kg) and pH values `pH`, the sample has mass `M` -/
structure PHRun (w : World) (f : String) (S : Flt) (kw : Dict Val) (x K : String → ℝ)
    (c n g lo hi M : ℝ) (tm pH : List ℝ) : Prop where
  loads : ∃ cv totals ks, load w f S kw = .ok (cv, totals, ks) ∧ cv.titrant_mass = tm.map fin ∧
    cv.analyte_mass = fin M ∧ cv.measurement = pH.map fin
  keepsTotals : KeepsTotals w
  keepsKs : KeepsKs w
  nodup : kw.keys.Nodup
  mode : ∃ s, kw.get? "solve_mode" = some (.str s) ∧ lowerS s = "ph"
  sample : GivenSample kw x K
  sulfate : NumOr kw "titrant_total_sulfate" 0 g
  no_phosphate : kw.get? "titrant_total_phosphate" = none
  no_fluoride : kw.get? "titrant_total_fluoride" = none
  normality : NumOr kw "titrant_normality" 1 n
  pH_min : NumOr kw "pH_min" 3 lo
  pH_max : NumOr kw "pH_max" 4 hi
  window : lo < hi
  lengths : tm.length = pH.length
  mass : 0 < M
  masses : ∀ m ∈ tm, 0 ≤ m
  acid : 0 ≤ c * g

theorem PHRun.reduces {w : World} {f : String} {S : Flt} {kw : Dict Val} {x K : String → ℝ}
    {c n g lo hi M : ℝ} {tm pH : List ℝ} (h : PHRun w f S kw x K c n g lo hi M tm pH) :
    ∃ (totals ks : Dict NpVal) (T : List Flt),
      files_solve w f (fin c) S kw = (do
        let sr ← solve_pH (fin c) (tm.map fin) (pH.map fin) (fin M) totals ks
          { pH_min := fin lo, pH_max := fin hi, titrant_normality := fin n }
        return .pH sr (pH.map fin) T) ∧
      ValidRows totals ks pH.length ∧ HasKsN totals ks 3 ∧ dictFits pH.length totals = true ∧
      dictFits pH.length ks = true ∧ ∀ i, (hi : i < tm.length) → ∀ p,
        specAlk totals ks i p = (mixture x K tm[i] M c g).alk 3 ((10 : ℝ) ^ (-p)) := by
  obtain ⟨cv, totals, ks, hl, htm, hM, hpH⟩ := h.loads
  obtain ⟨tts, totals', ht, ha, hv, hk, hf, hf', halk⟩ := given_solver h.keepsTotals h.keepsKs hl h.nodup
    h.sample h.sulfate h.no_phosphate h.no_fluoride htm hM h.mass h.masses h.acid
  rw [h.lengths] at hv hf hf'
  refine ⟨totals', ks, cv.temperature, ?_, hv, hk, hf, hf', ?_⟩
  · obtain ⟨s, hs, hs'⟩ := h.mode
    have hmode : solve_mode kw = .ok "ph" := by
      unfold solve_mode argVal
      rw [hs, ← hs']; rfl
    have hopts : ph_opts (get_kwargs_for keys_solve_pH kw none)
        = .ok { pH_min := fin lo, pH_max := fin hi, titrant_normality := fin n } := by
      rw [ph_opts_kwargs kw (by decide) (by decide) (by decide)]
      unfold ph_opts
      rw [h.pH_min.arg, h.pH_max.arg, h.normality.arg]
      rfl
    unfold files_solve
    rw [hl]
    simp only [bind_ok, ht, ha, hmode]
    unfold solve_dispatch
    rw [if_neg (by decide), if_neg (by decide), if_pos rfl, hopts]
    simp only [bind_ok, htm, hM, hpH]
  · intro i hi p
    unfold specAlk
    rw [halk i hi]

/-- **C109**: in pH mode with contents and constants given, `files.solve` reports the mean, over the
points in the window, of 1e6 (Alk (m + M) + m c n) / M, where Alk is the textbook alkalinity of the
mixture of sample and titrant at the measured pH. -/
theorem C109_estimates (w : World) (f : String) (S : Flt) (kw : Dict Val) (x K : String → ℝ)
    (c n g lo hi M : ℝ) (tm pH : List ℝ) (h : PHRun w f S kw x K c n g lo hi M tm pH)
    (hin : ∃ p ∈ pH, lo ≤ p ∧ p ≤ hi) :
    ∃ (r : SolvePH) (T : List Flt) (est : List ℝ),
      files_solve w f (fin c) S kw = .ok (.pH r (pH.map fin) T) ∧ est.length = pH.length ∧
      (∀ i, (hp : i < pH.length) → (ht : i < tm.length) → (he : i < est.length) →
        est[i] = 1e6 * ((mixture x K tm[i] M c g).alk 3 ((10 : ℝ) ^ (-pH[i])) * (tm[i] + M)
          + tm[i] * c * n) / M) ∧
      r.alkalinity_all = est.map fin ∧
      r.alkalinity = fin ((mask (pH.map fun p => decide (lo ≤ p) && decide (p ≤ hi)) est).sum /
        (pH.filter fun p => decide (lo ≤ p) && decide (p ≤ hi)).length) := by
  obtain ⟨totals, ks, T, hs, hv, hk, hf, hf', halk⟩ := h.reduces
  obtain ⟨r, est, h1, h2, h3, h4, h5⟩ := C14_mean c n M lo hi tm pH totals ks h.lengths h.window
    h.mass (fun m hm => add_pos_of_nonneg_of_pos (h.masses m hm) h.mass) hv hk hf hf' hin
  refine ⟨r, T, est, ?_, h2, ?_, h4, h5⟩
  · rw [hs, h1]; rfl
  · intro i hp ht he
    rw [h3 i hp he, halk i ht]

/-- **C109**: if the data are exact for a sample of alkalinity `A` mol/kg (charge balance of the
mixture at every point), the alkalinity reported is that, with zero spread. -/
theorem C109_exact (w : World) (f : String) (S : Flt) (kw : Dict Val) (x K : String → ℝ)
    (A c n g lo hi M : ℝ) (tm pH : List ℝ) (h : PHRun w f S kw x K c n g lo hi M tm pH)
    (hbal : ∀ i, (hp : i < pH.length) → (ht : i < tm.length) →
      (mixture x K tm[i] M c g).alk 3 ((10 : ℝ) ^ (-pH[i])) * (tm[i] + M) = A * M - tm[i] * c * n)
    (hin : ∃ p ∈ pH, lo ≤ p ∧ p ≤ hi) :
    ∃ (r : SolvePH) (T : List Flt), files_solve w f (fin c) S kw = .ok (.pH r (pH.map fin) T) ∧
      r.alkalinity = fin (1e6 * A) ∧ r.alkalinity_std = fin 0 ∧
      r.alkalinity_all = List.replicate pH.length (fin (1e6 * A)) := by
  obtain ⟨totals, ks, T, hs, hv, hk, hf, hf', halk⟩ := h.reduces
  obtain ⟨r, h1, h2⟩ := C13_exact A c n M lo hi tm pH totals ks h.lengths h.window
    h.mass (fun m hm => add_pos_of_nonneg_of_pos (h.masses m hm) h.mass) hv hk hf hf'
    (fun i hp => by
      have ht : i < tm.length := by rw [h.lengths]; exact hp
      rw [halk i ht]; exact hbal i hp ht) hin
  exact ⟨r, T, by rw [hs, h1]; rfl, h2⟩

/-! ### A case -/

/-- sulfuric acid (0.1 mol/kg, two protons, one sulfate per mole) into 0.1 kg of a sample with some of
everything; the file holds two points, in kg -/
noncomputable def pData (p q : ℝ) : DatData where
  titrant_amount := [fin 0.001, fin 0.002]
  measurement := [fin p, fin q]
  temperature := [fin 25, fin 25]

noncomputable def pWorld (p q : ℝ) : World := { keepWorld with readDat := fun _ _ => .ok (pData p q) }

noncomputable def pContents (_ : String) : ℝ := 10

noncomputable def pConstants (_ : String) : ℝ := 1e-6

noncomputable def pArgs : Dict Val :=
  [ ("solve_mode", .str "pH"), ("analyte_mass", .num (fin 0.1)), ("titrant_amount_unit", .str "kg"),
    ("titrant_normality", .num (fin 2)), ("titrant_total_sulfate", .num (fin 1)) ] ++
  (("dic" :: (optionalContents ++ saltContents)).map fun k => (k, Val.num (fin (pContents k)))) ++
  allConstants.map fun k => (k, Val.num (fin (pConstants k)))

theorem p_totals (p q : ℝ) : ∃ t tp, get_totals (pWorld p q) (fin 35)
      ((get_kwargs_for keys_totals_ks pArgs none).filter fun kv => keys_get_totals.contains kv.1)
        = .ok (t, tp) ∧ ∀ kv ∈ t, kv.2.fits 2 = true := by
  have hkw : ((get_kwargs_for keys_totals_ks pArgs none).filter
      fun kv => keys_get_totals.contains kv.1)
        = ("dic" :: (optionalContents ++ saltContents)).map fun k => (k, Val.num (fin 10)) := rfl
  rw [hkw]
  simp [get_totals, pWorld, keepWorld, argNum, argNotNull, Dict.get?, Val.toFlt, bind_ok, pure_ok,
    copyIfPos, Val.isNull, Dict.get, Dict.get?_append, totals_for_pyco2, setIf_get?,
    optionalContents, saltContents, setIfPos, Dict.set, NpVal.fits]
  intro a b h
  rcases h with h | h | h | h | h | h | h | h | h | h <;> rw [h.2]

theorem p_ks (p q : ℝ) : ∃ ks, ∀ tp, get_k_constants (pWorld p q) tp [fin 25, fin 25]
      ((get_kwargs_for keys_totals_ks pArgs none).filter
        fun kv => keys_get_k_constants.contains kv.1) = .ok ks := by
  have hkw : ((get_kwargs_for keys_totals_ks pArgs none).filter
      fun kv => keys_get_k_constants.contains kv.1)
        = allConstants.map fun k => (k, Val.num (fin 1e-6)) := rfl
  rw [hkw]
  simp [get_k_constants, pWorld, keepWorld, ks_for_pyco2, argNotNull, Dict.get?, Val.toFlt, bind_ok,
    pure_ok, Val.isNull, calk_to_pyco2_ks, setIf, Dict.set, argVal, Val.eqNum, feq, allConstants]

theorem p_loads (p q : ℝ) : ∃ cv totals ks, load (pWorld p q) "a.dat" (fin 35) pArgs = .ok (cv, totals, ks) ∧
    cv.titrant_mass = [0.001, 0.002].map fin ∧ cv.analyte_mass = fin 0.1 ∧
    cv.measurement = [p, q].map fin ∧ cv.temperature = [fin 25, fin 25] := by
  obtain ⟨t, tp, h1, hfit⟩ := p_totals p q
  obtain ⟨ks, h2⟩ := p_ks p q
  obtain ⟨totals, h3, -⟩ := C05_dilute_totals t [fin 0.001, fin 0.002] (fin 0.1) hfit
  refine ⟨⟨[fin 0.001, fin 0.002], [fin p, fin q], [fin 25, fin 25], fin 0.1, fin 35⟩, totals,
    ks, ?_, rfl, rfl, rfl, rfl⟩
  unfold load
  have e1 : full_name "a.dat" pArgs = .ok "a.dat" := rfl
  have e2 : (pWorld p q).readDat "a.dat" (get_kwargs_for keys_read_dat pArgs none) = .ok (pData p q) := rfl
  have e3 : amount_units (pData p q) (fin 35) (get_kwargs_for keys_cau pArgs none)
      = .ok ⟨[fin 0.001, fin 0.002], [fin p, fin q], [fin 25, fin 25], fin 0.1, fin 35⟩ := by
    have hkw : get_kwargs_for keys_cau pArgs none
      = [("analyte_mass", .num (fin 0.1)), ("titrant_amount_unit", .str "kg")] := rfl
    rw [hkw]
    simp [amount_units, override_temperature, titrant_masses, get_analyte_mass, argOpt, argVal,
      argNotNull, Dict.get?, Val.toFlt, Val.isNull, Val.lower, bind_ok, pure_ok, pyAssert, pData,
      show lowerS "kg" = "kg" by decide]
  have e4 : totals_for_ks ⟨[fin 0.001, fin 0.002], [fin p, fin q], [fin 25, fin 25], fin 0.1,
      fin 35⟩ tp (get_kwargs_for keys_totals_ks pArgs none) = .ok tp := rfl
  rw [e1, bind_ok, e2, bind_ok, e3, bind_ok]
  unfold totals_ks
  simp only [h1, bind_ok, h3, e4, h2]
  rfl

theorem p_load (p q : ℝ) : ∃ cv totals ks, load (pWorld p q) "a.dat" (fin 35) pArgs = .ok (cv, totals, ks) ∧
    cv.titrant_mass = [0.001, 0.002].map fin ∧ cv.analyte_mass = fin 0.1 ∧
    cv.measurement = [p, q].map fin := by
  obtain ⟨cv, totals, ks, h, h1, h2, h3, -⟩ := p_loads p q
  exact ⟨cv, totals, ks, h, h1, h2, h3⟩

theorem p_run (p q : ℝ) : PHRun (pWorld p q) "a.dat" (fin 35) pArgs pContents pConstants 0.1 2 1 3 4 0.1
    [0.001, 0.002] [p, q] := by
  refine ⟨?_, keepWorld_totals, keepWorld_ks, ?_, ⟨"pH", rfl, by decide⟩, ⟨?_, ?_, ?_⟩, .inl rfl, rfl,
    rfl, .inl rfl, .inr ⟨rfl, rfl⟩, .inr ⟨rfl, rfl⟩, by norm_num, rfl, by norm_num, ?_, by norm_num⟩
  · exact p_load p q
  · have : Dict.keys pArgs = [ "solve_mode", "analyte_mass", "titrant_amount_unit",
      "titrant_normality", "titrant_total_sulfate" ] ++
      ("dic" :: (optionalContents ++ saltContents)) ++ allConstants := rfl
    rw [this]
    decide
  · intro k hk
    refine ⟨?_, by norm_num [pContents]⟩
    simp only [optionalContents, saltContents, List.cons_append, List.nil_append, List.mem_cons,
      List.not_mem_nil, or_false] at hk
    rcases hk with rfl | rfl | rfl | rfl | rfl | rfl | rfl | rfl | rfl | rfl <;> rfl
  · intro k hk
    refine ⟨?_, by norm_num [pConstants]⟩
    simp only [allConstants, List.mem_cons, List.not_mem_nil, or_false] at hk
    rcases hk with rfl | rfl | rfl | rfl | rfl | rfl | rfl | rfl | rfl | rfl | rfl | rfl | rfl | rfl
      <;> rfl
  · exact not_onTotalScale rfl
  · intro m hm
    simp only [List.mem_cons, List.not_mem_nil, or_false] at hm
    rcases hm with rfl | rfl <;> norm_num

/-- C109_estimates on it -/
example : ∃ (r : SolvePH) (T : List Flt) (a : ℝ),
    files_solve (pWorld 3.8 3.2) "a.dat" (fin 0.1) (fin 35) pArgs
        = .ok (.pH r [fin 3.8, fin 3.2] T) ∧ r.alkalinity = fin a := by
  obtain ⟨r, T, est, h, -, -, -, h'⟩ := C109_estimates (pWorld 3.8 3.2) "a.dat" (fin 35) pArgs
    pContents pConstants 0.1 2 1 3 4 0.1 [0.001, 0.002] [3.8, 3.2] (p_run 3.8 3.2)
    ⟨3.2, by simp, by norm_num⟩
  exact ⟨r, T, _, h, h'⟩

theorem p_exact (p : ℝ) : ∃ q A : ℝ, ∀ i, (hp : i < [p, q].length) → (ht : i < [(0.001 : ℝ), 0.002].length) →
    (mixture pContents pConstants [(0.001 : ℝ), 0.002][i] 0.1 0.1 1).alk 3 ((10 : ℝ) ^ (-[p, q][i]))
      * ([(0.001 : ℝ), 0.002][i] + 0.1) = A * 0.1 - [(0.001 : ℝ), 0.002][i] * 0.1 * 2 := by
  have hv : (mixture pContents pConstants 0.002 0.1 0.1 1).Valid := by
    constructor <;> norm_num [mixture, mixContent, pContents, pConstants] <;>
      split_ifs <;> norm_num
  let A : ℝ := ((mixture pContents pConstants 0.001 0.1 0.1 1).alk 3 ((10 : ℝ) ^ (-p)) * (0.001 + 0.1)
    + 0.001 * 0.1 * 2) / 0.1
  obtain ⟨h, hh, ha⟩ := Sol.alk_exists hv (by norm_num [mixture, pConstants]) 3
    ((A * 0.1 - 0.002 * 0.1 * 2) / (0.002 + 0.1))
  refine ⟨-Real.logb 10 h, A, ?_⟩
  intro i hp ht
  match i, ht with
  | 0, _ =>
    simp only [List.getElem_cons_zero, A]
    ring
  | 1, _ =>
    simp only [List.getElem_cons_succ, List.getElem_cons_zero, neg_neg,
      Real.rpow_logb (by norm_num : (0 : ℝ) < 10) (by norm_num) hh, ha]
    ring

/-- C109_exact on it: for every pH of the first point there is one of the second with which the data
are exact -/
example (p : ℝ) (hp : 3 ≤ p ∧ p ≤ 4) : ∃ (q A : ℝ) (r : SolvePH) (T : List Flt),
    files_solve (pWorld p q) "a.dat" (fin 0.1) (fin 35) pArgs = .ok (.pH r [fin p, fin q] T) ∧
      r.alkalinity = fin (1e6 * A) ∧ r.alkalinity_std = fin 0 := by
  obtain ⟨q, A, h⟩ := p_exact p
  obtain ⟨r, T, h1, h2, h3, -⟩ := C109_exact (pWorld p q) "a.dat" (fin 35) pArgs
    pContents pConstants A 0.1 2 1 3 4 0.1 [0.001, 0.002] [p, q] (p_run p q) h ⟨p, by simp, hp.1, hp.2⟩
  exact ⟨q, A, r, T, h1, h2, h3⟩

end Calk
