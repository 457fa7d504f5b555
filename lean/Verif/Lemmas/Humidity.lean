import Verif.Model.Humidity
import Verif.Lemmas.Frame
import Verif.Lemmas.Phys
import Verif.Lemmas.Master
import Verif.Lemmas.Wind

/-!
# Helper lemmas for humidity
-/

set_option linter.unusedSectionVars false

namespace Melodist
open Spec

section
variable {K : Type}

theorem py_bind_inv {α β : Type} {x : Py α} {f : α → Py β} {b : β} (h : (x >>= f) = .ok b) : ∃ a, x = .ok a ∧ f a = .ok b := by
  cases x with
  | error e => cases h
  | ok a => exact ⟨a, rfl, h⟩

theorem hourlyS_index_congr {V W : Type} (d0 : Int) (n : Nat) (f : Nat → Nat → V) (g : Nat → Nat → W) :
    Series.index (hourlyS d0 n f) = Series.index (hourlyS d0 n g) := by
  rw [hourlyS_index, hourlyS_index]

theorem dailyS_index_congr {V W : Type} (d0 : Int) (n : Nat) (f : Nat → V) (g : Nat → W) :
    Series.index (dailyS d0 n f) = Series.index (dailyS d0 n g) := by
  rw [dailyS_index, dailyS_index]

theorem align_hourly (f : XF K → XF K → XF K) (d0 : Int) (n : Nat) (a b : Nat → Nat → XF K) :
    Series.align f (hourlyS d0 n a) (hourlyS d0 n b) = .ok (hourlyS d0 n fun i h => f (a i h) (b i h)) := by
  unfold Series.align
  rw [if_pos (hourlyS_index_congr d0 n a b)]
  congr 1
  unfold hourlyS
  rw [List.zipWith_map, List.zipWith_self]

theorem align_daily (f : XF K → XF K → XF K) (d0 : Int) (n : Nat) (a b : Nat → XF K) :
    Series.align f (dailyS d0 n a) (dailyS d0 n b) = .ok (dailyS d0 n fun i => f (a i) (b i)) := by
  unfold Series.align
  rw [if_pos (dailyS_index_congr d0 n a b)]
  congr 1
  unfold dailyS
  rw [List.zipWith_map, List.zipWith_self]

theorem alignLeft_hourly (f : XF K → XF K → XF K) (d0 : Int) (n : Nat) (a b : Nat → Nat → XF K) :
    Series.alignLeft f (hourlyS d0 n a) (hourlyS d0 n b) = .ok (hourlyS d0 n fun i h => f (a i h) (b i h)) := by
  unfold Series.alignLeft
  rw [align_hourly, py_ok_bind, if_pos (hourlyS_index_congr d0 n a b)]

theorem dailyS_eq_of_index {W : Type} {s : Series (XF K)} {d0 : Int} {n : Nat} {f : Nat → W}
    (h : s.index = Series.index (dailyS d0 n f)) : ∃ g, s = dailyS d0 n g := by
  have hlen : s.length = n := by
    have := congrArg List.length h
    simpa [Series.index] using this
  refine ⟨fun i => (s.values[i]?).getD .nan, ?_⟩
  have hs : s = (Series.index (dailyS d0 n f)).zip s.values := by rw [← h, index_zip_values]
  conv_lhs => rw [hs]
  apply List.ext_getElem
  · simp [Series.index, Series.values, hlen]
  · intro k hk1 hk2
    simp only [List.getElem_zip, dailyS_index, List.getElem_map, List.getElem_range]
    rw [dailyS_getElem]
    congr 1
    rw [List.getElem?_eq_getElem, Option.getD_some]

theorem attr_ok {f : Frame K} {name : String} {s : Series (XF K)} (h : f.col? name = some s) : f.attr name = .ok s := by
  unfold Frame.attr; rw [h]

theorem attr_missing {f : Frame K} {name : String} (h : f.col? name = none) : f.attr name = .error .attributeError := by
  unfold Frame.attr; rw [h]

theorem has_of_col? {f : Frame K} {name : String} {s : Series (XF K)} (h : f.col? name = some s) : f.has name = true := by
  unfold Frame.col? at h
  unfold Frame.has
  cases hf : f.cols.find? (fun c => c.1 == name) with
  | none => simp [hf] at h
  | some c => exact List.any_eq_true.2 ⟨c, List.mem_of_find?_eq_some hf, by simpa using List.find?_some hf⟩

theorem col?_of_has {f : Frame K} {name : String} (h : f.has name = true) : ∃ s, f.col? name = some s := by
  unfold Frame.has at h
  unfold Frame.col?
  obtain ⟨c, hc, hn⟩ := List.any_eq_true.1 h
  have : (f.cols.find? (fun c => c.1 == name)).isSome := by
    rw [List.find?_isSome]; exact ⟨c, hc, hn⟩
  obtain ⟨c', hc'⟩ := Option.isSome_iff_exists.1 this
  exact ⟨_, by rw [hc']; rfl⟩

end

/-! ### normal forms of the methods -/

theorem make_hourly_range {V W : Type} (d0 : Int) (n : Nat) (f : Nat → Nat → V) (g : Nat → Nat → W) :
    Series.make (Series.index (hourlyS d0 n f)) ((List.range (24 * n)).map fun k : Nat => g (k / 24) (k % 24)) = .ok (hourlyS d0 n g) := by
  unfold Series.make
  rw [hourlyS_index, if_pos (by simp)]
  congr 1
  apply List.ext_getElem
  · simp
  · intro k h1 h2
    rw [hourlyS_getElem]
    simp

theorem vaporScalar_hourly (d0 : Int) (n : Nat) (f : Nat → Nat → XF ℝ) (x : XF ℝ) :
    vaporPressureScalar (Series.values (hourlyS d0 n f)) x =
      .ok ((List.range (24 * n)).map fun k : Nat => vaporPressureCell (f (k / 24) (k % 24)) x) := by
  unfold vaporPressureScalar vaporPressure
  rw [if_pos (by simp), hourlyS_values, List.map_map, List.zipWith_map, List.zipWith_self]
  rfl

/-- the dew point of day `i`, hour `h` in 'linear_dewpoint_variation' -/
noncomputable def linTdew (kr : ℝ) (n : Nat) (td : Nat → XF ℝ) (i h : Nat) : XF ℝ :=
  td i + (.fin ((h : ℝ) / 24) * ((if i + 1 < n then td (i + 1) else td i) - td i) + tdewDelta kr h)

theorem linearDewpoint_hourly (kr : ℝ) (d0 : Int) (n : Nat) (td : Nat → XF ℝ) (T : Nat → Nat → XF ℝ) :
    linearDewpoint kr (hourlyS d0 n fun i _ => td i) (hourlyS d0 n T) = .ok (hourlyS d0 n (linTdew kr n td)) := by
  unfold linearDewpoint
  rw [if_pos (by simp)]
  dsimp only
  congr 1
  apply List.ext_getElem
  · simp
  · intro k h1 h2
    simp only [hourlyS_length] at h2
    simp only [List.getElem_map, List.getElem_zip, List.getElem_zipIdx, hourlyS_getElem, hourlyS_length, hourlyS_values, Nat.zero_add]
    have hh : hourOf (d0 * DAY + (k : Int) * HOUR) = ((k % 24 : Nat) : Int) := by
      unfold hourOf; omega
    rw [hh]
    unfold linTdew
    congr 4
    congr 1
    by_cases hc : k / 24 + 1 < n
    · rw [if_neg (by omega), if_pos hc, List.getElem?_map, List.getElem?_range (by omega)]
      simp only [Option.map_some, Option.getD_some]
      congr 1; omega
    · rw [if_pos (by omega), if_neg hc]

/-- the correction of day `i` for uncorrected values `g` and observed mean `v` -/
noncomputable def humBias (g : Nat → XF ℝ) (v : XF ℝ) : XF ℝ :=
  if (meanSkip (day24 g) - v).isNan then .fin 0 else meanSkip (day24 g) - v

theorem preserve_hourly (api : PandasApi) (daily : Frame ℝ) (d0 : Int) (n : Nat) (hn : 0 < n) (v : Nat → XF ℝ)
    (hcol : daily.col? "hum" = some (dailyS d0 n v)) (g : Nat → Nat → XF ℝ) :
    preserveDailyMean api daily (hourlyS d0 n g) = .ok (hourlyS d0 n fun i h => g i h - humBias (g i) (v i)) := by
  unfold preserveDailyMean
  rw [attr_ok hcol, py_ok_bind, resampleD_hourlyS, align_daily, py_ok_bind, distributeEqually_daily api d0 hn, py_ok_bind]
  dsimp only
  rw [hourlyS_map d0 n _ fun x : XF ℝ => if x.isNan then .fin 0 else x, alignLeft_hourly]
  rfl

/-- the result for uncorrected values in normal form -/
theorem hum_finish {api : PandasApi} {daily : Frame ℝ} {method : String} {temp : Option (Series (XF ℝ))} {a0 a1 kr : Option ℝ}
    {table : Option (CatMeans ℝ)} {d0 : Int} {n : Nat} {g : Nat → Nat → XF ℝ}
    (h : humidityRaw api daily method temp a0 a1 kr table = .ok (hourlyS d0 n g)) :
    disaggregateHumidity api daily method temp a0 a1 kr table false = .ok (hourlyS d0 n fun i h => (g i h).clip 0 100) ∧
    (0 < n → ∀ v, daily.col? "hum" = some (dailyS d0 n v) →
      disaggregateHumidity api daily method temp a0 a1 kr table true =
        .ok (hourlyS d0 n fun i h => (g i h - humBias (g i) (v i)).clip 0 100)) := by
  constructor
  · unfold disaggregateHumidity
    rw [h, py_ok_bind]
    show Except.ok _ = _
    rw [hourlyS_map d0 n _ fun x : XF ℝ => x.clip 0 100]
  · intro hn v hv
    unfold disaggregateHumidity
    rw [h, py_ok_bind, if_pos rfl, preserve_hourly api daily d0 n hn v hv, py_ok_bind]
    show Except.ok _ = _
    rw [hourlyS_map d0 n _ fun x : XF ℝ => x.clip 0 100]

theorem raw_equal (api : PandasApi) (daily : Frame ℝ) (temp : Option (Series (XF ℝ))) (a0 a1 kr : Option ℝ)
    (table : Option (CatMeans ℝ)) (d0 : Int) (n : Nat) (hn : 0 < n) (v : Nat → XF ℝ) (hv : daily.col? "hum" = some (dailyS d0 n v)) :
    humidityRaw api daily "equal" temp a0 a1 kr table = .ok (hourlyS d0 n fun i _ => v i) := by
  unfold humidityRaw
  simp only [true_or, not_true, if_false, if_true]
  rw [attr_ok hv]
  exact distributeEqually_daily api d0 hn v

/-- relative humidity (unclipped) for dew point `td` and temperature `t` -/
noncomputable def rhCell (td t : XF ℝ) : XF ℝ := .fin 100 * vaporPressureCell td (.fin 100) / vaporPressureCell t (.fin 100)

theorem dewpoint_tail (d0 : Int) (n : Nat) (td T : Nat → Nat → XF ℝ) :
    (do
      let es ← vaporPressureScalar (Series.values (hourlyS d0 n td)) (.fin 100)
      let e ← vaporPressureScalar (Series.values (hourlyS d0 n T)) (.fin 100)
      if es.length ≠ e.length then .error .valueError
      else Series.make (Series.index (hourlyS d0 n T)) (List.zipWith (fun x y => .fin 100 * x / y) es e) : Py (Series (XF ℝ))) =
    .ok (hourlyS d0 n fun i h => rhCell (td i h) (T i h)) := by
  rw [vaporScalar_hourly, py_ok_bind, vaporScalar_hourly, py_ok_bind, if_neg (by simp), List.zipWith_map, List.zipWith_self]
  exact make_hourly_range d0 n T fun i h => rhCell (td i h) (T i h)

theorem raw_minimal (api : PandasApi) (daily : Frame ℝ) (a0 a1 kr : Option ℝ)
    (table : Option (CatMeans ℝ)) (d0 : Int) (n : Nat) (hn : 0 < n) (v : Nat → XF ℝ) (T : Nat → Nat → XF ℝ)
    (hv : daily.col? "tmin" = some (dailyS d0 n v)) :
    humidityRaw api daily "minimal" (some (hourlyS d0 n T)) a0 a1 kr table =
      .ok (hourlyS d0 n fun i h => rhCell (.fin 0 + .fin 1 * v i) (T i h)) := by
  unfold humidityRaw humidityDewpoint
  simp only [true_or, or_true, not_true, if_false, if_true, reduceCtorEq, String.reduceEq]
  rw [attr_ok hv, py_ok_bind, dailyS_map d0 n v fun x => .fin 0 + .fin 1 * x, distributeEqually_daily api d0 hn, py_ok_bind, py_ok_bind, py_ok_bind]
  exact dewpoint_tail d0 n _ T

theorem raw_regression (api : PandasApi) (daily : Frame ℝ) (a0 a1 : ℝ) (kr : Option ℝ)
    (table : Option (CatMeans ℝ)) (d0 : Int) (n : Nat) (hn : 0 < n) (v : Nat → XF ℝ) (T : Nat → Nat → XF ℝ)
    (hv : daily.col? "tmin" = some (dailyS d0 n v)) :
    humidityRaw api daily "dewpoint_regression" (some (hourlyS d0 n T)) (some a0) (some a1) kr table =
      .ok (hourlyS d0 n fun i h => rhCell (.fin a0 + .fin a1 * v i) (T i h)) := by
  unfold humidityRaw humidityDewpoint
  simp only [true_or, or_true, not_true, if_false, if_true, reduceCtorEq, String.reduceEq]
  rw [attr_ok hv, py_ok_bind, dailyS_map d0 n v fun x => .fin a0 + .fin a1 * x, distributeEqually_daily api d0 hn, py_ok_bind, py_ok_bind, py_ok_bind]
  exact dewpoint_tail d0 n _ T

theorem raw_linear (api : PandasApi) (daily : Frame ℝ) (a0 a1 kr : ℝ) (hkr : kr = 6 ∨ kr = 12)
    (table : Option (CatMeans ℝ)) (d0 : Int) (n : Nat) (hn : 0 < n) (v : Nat → XF ℝ) (T : Nat → Nat → XF ℝ)
    (hv : daily.col? "tmin" = some (dailyS d0 n v)) :
    humidityRaw api daily "linear_dewpoint_variation" (some (hourlyS d0 n T)) (some a0) (some a1) (some kr) table =
      .ok (hourlyS d0 n fun i h => rhCell (linTdew kr n (fun i => .fin a0 + .fin a1 * v i) i h) (T i h)) := by
  unfold humidityRaw humidityDewpoint
  simp only [true_or, or_true, not_true, if_false, if_true, reduceCtorEq, String.reduceEq]
  rw [attr_ok hv, py_ok_bind, dailyS_map d0 n v fun x => .fin a0 + .fin a1 * x, distributeEqually_daily api d0 hn, py_ok_bind, if_pos hkr,
    py_ok_bind, linearDewpoint_hourly, py_ok_bind]
  exact dewpoint_tail d0 n _ T

theorem raw_minmax (api : PandasApi) (daily : Frame ℝ) (a0 a1 kr : Option ℝ)
    (table : Option (CatMeans ℝ)) (d0 : Int) (n : Nat) (hn : 0 < n) (hmin hmax tmin tmax : Nat → XF ℝ) (T : Nat → Nat → XF ℝ)
    (h1 : daily.col? "hum_min" = some (dailyS d0 n hmin)) (h2 : daily.col? "hum_max" = some (dailyS d0 n hmax))
    (h3 : daily.col? "tmin" = some (dailyS d0 n tmin)) (h4 : daily.col? "tmax" = some (dailyS d0 n tmax)) :
    humidityRaw api daily "min_max" (some (hourlyS d0 n T)) a0 a1 kr table =
      .ok (hourlyS d0 n fun i h => hmax i + (T i h - tmin i) / (tmax i - tmin i) * (hmin i - hmax i)) := by
  unfold humidityRaw humidityMinMax
  simp only [true_or, or_true, not_true, if_false, if_true, reduceCtorEq, String.reduceEq, has_of_col? h1, has_of_col? h2, Bool.and_self,
    Bool.not_true, Bool.false_eq_true, or_self]
  rw [attr_ok h1, attr_ok h2, attr_ok h3, attr_ok h4]
  simp only [py_ok_bind, distributeEqually_daily api d0 hn, align_hourly]

theorem mapM_ok {α β : Type} {f : α → Py β} {g : α → β} {l : List α} (h : ∀ x ∈ l, f x = .ok (g x)) : l.mapM f = .ok (l.map g) := by
  induction l with
  | nil => rfl
  | cons x l ih =>
    rw [List.mapM_cons, h x (by simp), py_ok_bind, ih fun y hy => h y (by simp [hy]), py_ok_bind]
    rfl

theorem mapM_error {α β : Type} {f : α → Py β} {e : PyErr} {l : List α} (h : ∀ x ∈ l, f x = .error e ∨ ∃ y, f x = .ok y)
    (hx : ∃ x ∈ l, f x = .error e) : l.mapM f = .error e := by
  induction l with
  | nil => obtain ⟨x, hx, _⟩ := hx; simp at hx
  | cons x l ih =>
    rw [List.mapM_cons]
    rcases h x (by simp) with hf | ⟨y, hf⟩
    · rw [hf]; rfl
    · rw [hf, py_ok_bind, ih fun y hy => h y (by simp [hy])]
      · rfl
      · obtain ⟨z, hz, he⟩ := hx
        rcases List.mem_cons.1 hz with rfl | hz
        · rw [hf] at he; cases he
        · exact ⟨z, hz, he⟩

theorem mapM_length {α β : Type} {f : α → Py β} : ∀ {l : List α} {r : List β}, l.mapM f = .ok r → r.length = l.length := by
  intro l
  induction l with
  | nil => intro r h; cases h; rfl
  | cons x l ih =>
    intro r h
    rw [List.mapM_cons] at h
    obtain ⟨y, _, h⟩ := py_bind_inv h
    obtain ⟨ys, hy, h⟩ := py_bind_inv h
    cases h
    simp [ih hy]

/-- the category of hour `h` of day `i` -/
noncomputable def catKey (d0 : Int) (precip : Nat → XF ℝ) (i h : Nat) : Int × Int × Bool :=
  (monthOf (atHour (d0 + i) h), (h : Int), decide (XF.lt (.fin 0) (precip i)))

theorem catKeys_hourly (d0 : Int) (n : Nat) (precip : Nat → XF ℝ) :
    (hourlyS d0 n fun i _ => precip i).map (fun r => (monthOf r.1, hourOf r.1, decide (XF.lt (.fin 0) r.2))) =
      (List.range (24 * n)).map fun k : Nat => catKey d0 precip (k / 24) (k % 24) := by
  unfold hourlyS
  rw [List.map_map]
  apply List.map_congr_left
  intro k _
  simp only [Function.comp_def, catKey]
  rw [hourOf_atHour _ (Nat.mod_lt _ (by omega))]

theorem raw_cat (api : PandasApi) (daily : Frame ℝ) (temp : Option (Series (XF ℝ))) (a0 a1 kr : Option ℝ)
    (table : CatMeans ℝ) (d0 : Int) (n : Nat) (hn : 0 < n) (precip : Nat → XF ℝ) (hp : daily.col? "precip" = some (dailyS d0 n precip))
    (c : Nat → Nat → XF ℝ)
    (hc : ∀ i < n, ∀ h < 24, ∃ r, table.find? (fun r => r.1 == catKey d0 precip i h) = some r ∧ r.2 = c i h) :
    humidityRaw api daily "month_hour_precip_mean" temp a0 a1 kr (some table) = .ok (hourlyS d0 n c) := by
  unfold humidityRaw humidityCategorical
  simp only [true_or, or_true, not_true, if_false, if_true, reduceCtorEq, String.reduceEq, or_self]
  rw [attr_ok hp, py_ok_bind, distributeEqually_daily api d0 hn, py_ok_bind, catKeys_hourly]
  have : CatMeans.loc table ((List.range (24 * n)).map fun k : Nat => catKey d0 precip (k / 24) (k % 24)) =
      .ok ((List.range (24 * n)).map fun k : Nat => c (k / 24) (k % 24)) := by
    unfold CatMeans.loc
    rw [List.mapM_map]
    apply mapM_ok
    intro k hk
    have hk := List.mem_range.1 hk
    obtain ⟨r, hr, he⟩ := hc (k / 24) (by omega) (k % 24) (by omega)
    simp only [Function.comp_def, hr, he]
  rw [this, py_ok_bind]
  exact make_hourly_range d0 n _ c

theorem raw_cat_missing (api : PandasApi) (daily : Frame ℝ) (temp : Option (Series (XF ℝ))) (a0 a1 kr : Option ℝ)
    (table : CatMeans ℝ) (d0 : Int) (n : Nat) (hn : 0 < n) (precip : Nat → XF ℝ) (hp : daily.col? "precip" = some (dailyS d0 n precip))
    (hc : ∃ i < n, ∃ h < 24, table.find? (fun r => r.1 == catKey d0 precip i h) = none) :
    humidityRaw api daily "month_hour_precip_mean" temp a0 a1 kr (some table) = .error .keyError := by
  unfold humidityRaw humidityCategorical
  simp only [true_or, or_true, not_true, if_false, if_true, reduceCtorEq, String.reduceEq, or_self]
  rw [attr_ok hp, py_ok_bind, distributeEqually_daily api d0 hn, py_ok_bind, catKeys_hourly]
  have : CatMeans.loc table ((List.range (24 * n)).map fun k : Nat => catKey d0 precip (k / 24) (k % 24)) = .error .keyError := by
    unfold CatMeans.loc
    rw [List.mapM_map]
    apply mapM_error
    · intro k hk
      simp only [Function.comp_def]
      split
      · exact .inr ⟨_, rfl⟩
      · exact .inl rfl
    · obtain ⟨i, hi, h, hh, hf⟩ := hc
      refine ⟨24 * i + h, List.mem_range.2 (by omega), ?_⟩
      simp only [Function.comp_def]
      rw [show (24 * i + h) / 24 = i by omega, show (24 * i + h) % 24 = h by omega]
      simp only [hf]
  rw [this]
  rfl

theorem index_zip {V : Type} {idx : List Time} {l : List V} (h : idx.length = l.length) : Series.index (idx.zip l) = idx := by
  unfold Series.index
  exact List.map_fst_zip h.le

theorem dewpoint_tail_index {td temp : List (XF ℝ)} {idx : List Time} {s : Series (XF ℝ)}
    (h : (do
      let es ← vaporPressureScalar td (.fin 100)
      let e ← vaporPressureScalar temp (.fin 100)
      if es.length ≠ e.length then .error .valueError
      else Series.make idx (List.zipWith (fun x y => .fin 100 * x / y) es e) : Py (Series (XF ℝ))) = .ok s) : s.index = idx := by
  obtain ⟨s4, hs4, h⟩ := py_bind_inv h
  obtain ⟨s5, hs5, h⟩ := py_bind_inv h
  split at h
  · cases h
  · unfold Series.make at h
    split at h
    · rename_i hl
      cases h
      exact index_zip hl
    · cases h

/-- whatever the method: for daily data on `n` days and temperature on all their hours the result covers these hours -/
theorem raw_shape {api : PandasApi} {daily : Frame ℝ} {method : String} {temp : Option (Series (XF ℝ))} {a0 a1 kr : Option ℝ}
    {table : Option (CatMeans ℝ)} {d0 : Int} {n : Nat} (hn : 0 < n)
    (hd : ∀ name s, daily.col? name = some s → ∃ v, s = dailyS d0 n v) (ht : ∀ s, temp = some s → ∃ T, s = hourlyS d0 n T)
    {s : Series (XF ℝ)} (h : humidityRaw api daily method temp a0 a1 kr table = .ok s) : ∃ g, s = hourlyS d0 n g := by
  have hcol : ∀ name s, daily.attr name = .ok s → ∃ v, daily.col? name = some (dailyS d0 n v) := by
    intro name s hs
    unfold Frame.attr at hs
    cases hc : daily.col? name with
    | none => rw [hc] at hs; cases hs
    | some s' =>
      obtain ⟨v, rfl⟩ := hd name s' hc
      exact ⟨v, rfl⟩
  by_cases hm1 : method = "equal"
  · subst hm1
    have h' := h
    unfold humidityRaw at h'
    simp only [true_or, not_true, if_false, if_true] at h'
    obtain ⟨s', hs', _⟩ := py_bind_inv h'
    obtain ⟨v, hv⟩ := hcol _ _ hs'
    rw [raw_equal api daily temp a0 a1 kr table d0 n hn v hv] at h
    cases h
    exact ⟨_, rfl⟩
  by_cases hm2 : method = "minimal" ∨ method = "dewpoint_regression" ∨ method = "linear_dewpoint_variation"
  · have h' := h
    unfold humidityRaw at h'
    have hm2' : method = "equal" ∨ method = "minimal" ∨ method = "dewpoint_regression" ∨ method = "min_max" ∨
      method = "linear_dewpoint_variation" ∨ method = "month_hour_precip_mean" := by
      rcases hm2 with h | h | h <;> simp [h]
    rw [if_neg (not_not.2 hm2'), if_neg hm1, if_pos hm2] at h'
    change humidityDewpoint api daily method temp a0 a1 kr = .ok s at h'
    unfold humidityDewpoint at h'
    dsimp only at h'
    split at h'
    · rename_i b0 b1 hb0 hb1
      obtain ⟨s1, hs1, h'⟩ := py_bind_inv h'
      obtain ⟨v, hv⟩ := hcol _ _ hs1
      obtain ⟨s2, hs2, h'⟩ := py_bind_inv h'
      obtain ⟨kr', hk, h'⟩ := py_bind_inv h'
      split at h'
      · cases h'
      · rename_i tmp
        obtain ⟨T, rfl⟩ := ht _ rfl
        apply hourlyS_eq_of_index (f := T)
        split at h'
        · obtain ⟨s3, hs3, h'⟩ := py_bind_inv h'
          exact dewpoint_tail_index h'
        · obtain ⟨s3, hs3, h'⟩ := py_bind_inv h'
          exact dewpoint_tail_index h'
    · cases h'
  by_cases hm3 : method = "min_max"
  · subst hm3
    have h' := h
    unfold humidityRaw humidityMinMax at h'
    simp only [true_or, or_true, not_true, if_false, if_true, reduceCtorEq, String.reduceEq, or_self] at h'
    split at h'
    · cases h'
    · obtain ⟨_, h1, h'⟩ := py_bind_inv h'
      obtain ⟨_, _, h'⟩ := py_bind_inv h'
      obtain ⟨_, h2, h'⟩ := py_bind_inv h'
      obtain ⟨_, _, h'⟩ := py_bind_inv h'
      obtain ⟨_, h3, h'⟩ := py_bind_inv h'
      obtain ⟨_, _, h'⟩ := py_bind_inv h'
      obtain ⟨_, h4, h'⟩ := py_bind_inv h'
      obtain ⟨_, _, h'⟩ := py_bind_inv h'
      obtain ⟨v1, h1⟩ := hcol _ _ h1
      obtain ⟨v2, h2⟩ := hcol _ _ h2
      obtain ⟨v3, h3⟩ := hcol _ _ h3
      obtain ⟨v4, h4⟩ := hcol _ _ h4
      cases temp with
      | none => cases h'
      | some tmp =>
        obtain ⟨T, rfl⟩ := ht _ rfl
        rw [raw_minmax api daily a0 a1 kr table d0 n hn v1 v2 v3 v4 T h1 h2 h3 h4] at h
        cases h
        exact ⟨_, rfl⟩
  by_cases hm4 : method = "month_hour_precip_mean"
  · subst hm4
    unfold humidityRaw humidityCategorical at h
    simp only [true_or, or_true, not_true, if_false, if_true, reduceCtorEq, String.reduceEq, or_self] at h
    cases table with
    | none => cases h
    | some table =>
      obtain ⟨_, h1, h⟩ := py_bind_inv h
      obtain ⟨s1, h2, h⟩ := py_bind_inv h
      obtain ⟨s2, h3, h⟩ := py_bind_inv h
      obtain ⟨v1, h1'⟩ := hcol _ _ h1
      rw [attr_ok h1'] at h1
      cases h1
      rw [distributeEqually_daily api d0 hn] at h2
      cases h2
      unfold Series.make at h
      split at h
      · rename_i hl
        cases h
        apply hourlyS_eq_of_index (f := fun i _ => v1 i)
        exact index_zip hl
      · cases h
  · exfalso
    unfold humidityRaw at h
    rw [if_pos (by rintro (h | h | h | h | h | h) <;> simp_all)] at h
    cases h

end Melodist
