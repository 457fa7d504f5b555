import Verif.Lemmas.Align
import Verif.Props.Humidity

/-!
# C116: the hourly temperature covers other hours than the daily data
-/

set_option linter.unusedSectionVars false

namespace Melodist
open Spec

noncomputable section

/-! ## 'min_max': by label -/

theorem clip_index (s : Series (XF ℝ)) : Series.index (s.map fun r => (r.1, r.2.clip 0 100)) = s.index := by
  unfold Series.index
  rw [List.map_map]
  rfl

/-- **C116 (min_max).**  Daily data for the days `d0, …, d0+n-1` and an hourly temperature with any labels (no label twice).  'min_max' returns a series with the labels
of both, in order of time.  A label that only one of them has gets NaN.  For a label of both the value is the one C39 gives for the day and the temperature of that
label. -/
theorem C116_by_label (api : PandasApi) (daily : Frame ℝ) (a0 a1 kr : Option ℝ) (table : Option (CatMeans ℝ)) (d0 : Int) (n : Nat) (hn : 0 < n)
    (hmin hmax tmin tmax : Nat → XF ℝ) (temp : Series (XF ℝ)) (hT : temp.index.Nodup)
    (c1 : daily.col? "hum_min" = some (dailyS d0 n hmin)) (c2 : daily.col? "hum_max" = some (dailyS d0 n hmax))
    (c3 : daily.col? "tmin" = some (dailyS d0 n tmin)) (c4 : daily.col? "tmax" = some (dailyS d0 n tmax)) :
    ∃ out, disaggregateHumidity api daily "min_max" (some temp) a0 a1 kr table = .ok out ∧ out.index.Pairwise (· < ·) ∧
      (∀ t, t ∈ out.index ↔ t ∈ temp.index ∨ ∃ i < n, ∃ h < 24, t = atHour (d0 + (i : Nat)) h) ∧
      (∀ r ∈ out, (r.1 ∉ temp.index ∨ ¬ ∃ i < n, ∃ h < 24, r.1 = atHour (d0 + (i : Nat)) h) → r.2 = .nan) ∧
      ∀ i < n, ∀ h < 24, ∀ t lo hi t0 t1, (atHour (d0 + (i : Nat)) h, XF.fin t) ∈ temp → hmin i = .fin lo → hmax i = .fin hi → tmin i = .fin t0 →
        tmax i = .fin t1 → t0 ≠ t1 →
        (atHour (d0 + (i : Nat)) h, XF.fin (min (max (hi + (t - t0) / (t1 - t0) * (lo - hi)) 0) 100)) ∈ out := by
  have hs : ∀ f : Nat → Nat → XF ℝ, (Series.index (hourlyS d0 n f)).Pairwise (· < ·) := fun f => hourlyS_index_sorted d0 n f
  obtain ⟨a, ea, sa, ma, ga⟩ := align_get (· - ·) (fun x => XF.nan_sub x) hT (hs fun i _ => tmin i)
  obtain ⟨b, eb, sb, mb, gb⟩ := align_get (· - ·) (fun x => XF.nan_sub x) ((hs fun i _ => tmax i).imp fun h => ne_of_lt h) (hs fun i _ => tmin i)
  obtain ⟨q, eq, sq, mq, gq⟩ := align_get (· / ·) (fun x => XF.nan_div x) (sa.imp fun h => ne_of_lt h) sb
  obtain ⟨c, ec, sc, mc, gc⟩ := align_get (· - ·) (fun x => XF.nan_sub x) ((hs fun i _ => hmin i).imp fun h => ne_of_lt h) (hs fun i _ => hmax i)
  obtain ⟨p, ep, sp, mp, gp⟩ := align_get (· * ·) (fun x => XF.nan_mul x) (sq.imp fun h => ne_of_lt h) sc
  obtain ⟨o, eo, so, mo, go⟩ := align_get (· + ·) (fun x => XF.nan_add x) ((hs fun i _ => hmax i).imp fun h => ne_of_lt h) sp
  have hraw : humidityRaw api daily "min_max" (some temp) a0 a1 kr table = .ok o := by
    unfold humidityRaw humidityMinMax
    simp only [true_or, or_true, not_true, if_false, if_true, reduceCtorEq, String.reduceEq, has_of_col? c1, has_of_col? c2, Bool.and_self,
      Bool.not_true, Bool.false_eq_true, or_self]
    rw [attr_ok c1, attr_ok c2, attr_ok c3, attr_ok c4]
    simp only [py_ok_bind, distributeEqually_daily api d0 hn, ea, eb, eq, ec, ep, eo]
  have hmem : ∀ t, t ∈ o.index ↔ t ∈ temp.index ∨ ∃ i < n, ∃ h < 24, t = atHour (d0 + (i : Nat)) h := by
    intro t
    rw [mo, mp, mq, ma, mb, mc]
    simp only [mem_hourlyS_index]
    have : ∀ P Q : Prop, (P ∨ ((Q ∨ P) ∨ P ∨ P) ∨ P ∨ P) ↔ Q ∨ P := by tauto
    exact this _ _
  have hget : ∀ t, o.get t = Series.get (hourlyS d0 n fun i _ => hmax i) t + (temp.get t - Series.get (hourlyS d0 n fun i _ => tmin i) t) /
      (Series.get (hourlyS d0 n fun i _ => tmax i) t - Series.get (hourlyS d0 n fun i _ => tmin i) t) *
      (Series.get (hourlyS d0 n fun i _ => hmin i) t - Series.get (hourlyS d0 n fun i _ => hmax i) t) := by
    intro t
    rw [go, gp, gq, gc, gb, ga]
  have hon : o.index.Nodup := so.imp fun h => ne_of_lt h
  refine ⟨o.map fun r => (r.1, r.2.clip 0 100), ?_, ?_, ?_, ?_, ?_⟩
  · unfold disaggregateHumidity
    rw [hraw, py_ok_bind]
    rfl
  · rw [clip_index]; exact so
  · intro t
    rw [clip_index]; exact hmem t
  · intro r hr hout
    obtain ⟨q, hq, rfl⟩ := List.mem_map.1 hr
    have hv := get_of_mem hon hq
    rw [hget] at hv
    dsimp only at hout ⊢
    have : q.2 = .nan := by
      rw [← hv]
      rcases hout with h | h
      · rw [get_of_not_mem h, XF.nan_sub, XF.nan_div, XF.nan_mul, XF.add_nan]
      · have : ∀ f : Nat → Nat → XF ℝ, Series.get (hourlyS d0 n f) q.1 = .nan := fun f =>
          get_of_not_mem fun hm => h ((mem_hourlyS_index d0 n f _).1 hm)
        rw [this, this, XF.nan_add]
    rw [this]
    rfl
  · intro i hi h hh t lo hi' t0 t1 hm e1 e2 e3 e4 hne
    have hg : ∀ f : Nat → Nat → XF ℝ, Series.get (hourlyS d0 n f) (atHour (d0 + (i : Nat)) h) = f i h := by
      intro f
      unfold Series.get
      rw [hourlyS_at? d0 f hi hh]
      rfl
    have hTv := get_of_mem hT hm
    have hv := hget (atHour (d0 + (i : Nat)) h)
    rw [hg, hg, hg, hg] at hv
    dsimp only at hTv
    rw [hTv, e1, e2, e3, e4, XF.fin_sub_fin, XF.fin_sub_fin, XF.fin_sub_fin, XF.fin_div_fin_of_ne _ (sub_ne_zero.2 (Ne.symm hne)), XF.fin_mul_fin,
      XF.fin_add_fin] at hv
    have hin : atHour (d0 + (i : Nat)) h ∈ o.index := (hmem _).2 (.inr ⟨i, hi, h, hh, rfl⟩)
    obtain ⟨r, hr, hr1⟩ := List.mem_map.1 hin
    have hv' := get_of_mem hon hr
    rw [hr1, hv] at hv'
    refine List.mem_map.2 ⟨r, hr, ?_⟩
    rw [hr1, ← hv']
    rfl

/-- C116: one day and temperatures at 22:00 and 23:00 of the day and 00:00 of the next -/
example : ∃ out, disaggregateHumidity .modern ⟨[at00 0], [("hum_min", [.fin 40]), ("hum_max", [.fin 80]), ("tmin", [.fin 280]), ("tmax", [.fin 290])]⟩ "min_max"
    (some [(atHour 0 22, .fin 285), (atHour 0 23, .fin 280), (atHour 1 0, .fin 280)]) = .ok out ∧ (atHour 0 22, .fin 60) ∈ out ∧ atHour 0 5 ∈ out.index ∧
      atHour 1 0 ∈ out.index ∧ ∀ r ∈ out, r.1 = atHour 1 0 ∨ r.1 = atHour 0 5 → r.2 = .nan := by
  obtain ⟨out, e, _, hmem, hnan, hval⟩ := C116_by_label .modern
    ⟨[at00 0], [("hum_min", [.fin 40]), ("hum_max", [.fin 80]), ("tmin", [.fin 280]), ("tmax", [.fin 290])]⟩ none none none none 0 1 (by omega)
    (fun _ => .fin 40) (fun _ => .fin 80) (fun _ => .fin 280) (fun _ => .fin 290)
    [(atHour 0 22, .fin 285), (atHour 0 23, .fin 280), (atHour 1 0, .fin 280)] (by decide) rfl rfl rfl rfl
  refine ⟨out, e, ?_, (hmem _).2 (.inr ⟨0, by omega, 5, by omega, rfl⟩), (hmem _).2 (.inl (by decide)), ?_⟩
  · have := hval 0 (by omega) 22 (by omega) 285 40 80 280 290 (by simp) rfl rfl rfl rfl (by norm_num)
    norm_num at this
    exact this
  · intro r hr h
    apply hnan r hr
    rcases h with h | h
    · right
      rw [h]
      rintro ⟨i, hi, k, hk, e⟩
      unfold atHour at e
      omega
    · left
      rw [h]
      decide

/-! ## the dew point methods: by position -/

theorem dewpoint_tail_pos (d0 : Int) (n : Nat) (td : Nat → Nat → XF ℝ) (temp : Series (XF ℝ)) (hl : temp.length = 24 * n) :
    (do
      let es ← vaporPressureScalar (Series.values (hourlyS d0 n td)) (.fin 100)
      let e ← vaporPressureScalar temp.values (.fin 100)
      if es.length ≠ e.length then .error .valueError
      else Series.make temp.index (List.zipWith (fun x y => .fin 100 * x / y) es e) : Py (Series (XF ℝ))) =
    .ok ((List.range (24 * n)).zipWith (fun k r => (r.1, rhCell (td (k / 24) (k % 24)) r.2)) temp) := by
  rw [vaporScalar_hourly, py_ok_bind]
  unfold vaporPressureScalar vaporPressure
  rw [if_pos (by simp), py_ok_bind, if_neg (by simp [Series.values, hl])]
  unfold Series.make
  rw [if_pos (by simp [Series.values, Series.index, hl])]
  congr 1
  apply List.ext_getElem
  · simp [Series.values, Series.index, hl]
  · intro k k1 k2
    simp [Series.values, Series.index, rhCell]

/-- **C116 (dew point methods).**  'dewpoint_regression' ('minimal' for a0 = 0, a1 = 1) takes the temperature by position: if it has as many values as there are hours in
the daily data the result has the labels of the temperature, and value number `k` is that of the `k`-th hour of the daily data, whatever the labels. -/
theorem C116_by_position (api : PandasApi) (daily : Frame ℝ) (a0 a1 : ℝ) (kr : Option ℝ) (table : Option (CatMeans ℝ)) (d0 : Int) (n : Nat) (hn : 0 < n)
    (tmin : Nat → XF ℝ) (temp : Series (XF ℝ)) (hl : temp.length = 24 * n) (htmin : daily.col? "tmin" = some (dailyS d0 n tmin)) :
    ∃ out, disaggregateHumidity api daily "dewpoint_regression" (some temp) (some a0) (some a1) kr table = .ok out ∧ out.index = temp.index ∧
      (a0 = 0 → a1 = 1 → ∀ b0 b1, disaggregateHumidity api daily "minimal" (some temp) b0 b1 kr table = .ok out) ∧
      ∀ k < 24 * n, ∀ m t, tmin (k / 24) = .fin m → temp.values[k]? = some (.fin t) → 0.53 < a0 + a1 * m → 0.53 < t →
        out.values[k]? = some (.fin (relHum (a0 + a1 * m) t)) := by
  have hraw : humidityRaw api daily "dewpoint_regression" (some temp) (some a0) (some a1) kr table =
      .ok ((List.range (24 * n)).zipWith (fun k r => (r.1, rhCell (.fin a0 + .fin a1 * tmin (k / 24)) r.2)) temp) := by
    unfold humidityRaw humidityDewpoint
    simp only [true_or, or_true, not_true, if_false, if_true, reduceCtorEq, String.reduceEq]
    rw [attr_ok htmin, py_ok_bind, dailyS_map d0 n tmin fun x => .fin a0 + .fin a1 * x, distributeEqually_daily api d0 hn, py_ok_bind, py_ok_bind, py_ok_bind]
    exact dewpoint_tail_pos d0 n (fun i _ => .fin a0 + .fin a1 * tmin i) temp hl
  have hrun : disaggregateHumidity api daily "dewpoint_regression" (some temp) (some a0) (some a1) kr table = .ok
      (((List.range (24 * n)).zipWith (fun k r => (r.1, rhCell (.fin a0 + .fin a1 * tmin (k / 24)) r.2)) temp).map fun r => (r.1, r.2.clip 0 100)) := by
    unfold disaggregateHumidity
    rw [hraw, py_ok_bind]
    rfl
  refine ⟨_, hrun, ?_, ?_, ?_⟩
  · rw [clip_index]
    apply List.ext_getElem
    · simp [Series.index, hl]
    · intro k k1 k2
      simp [Series.index]
  · rintro rfl rfl b0 b1
    rw [← hrun]
    exact (C38_regression_minimal api daily (some temp) b0 b1 kr table false).symm
  · intro k hk m t e1 e2 h1 h2
    have hkl : k < temp.length := by omega
    unfold Series.values at e2 ⊢
    rw [List.getElem?_map, List.getElem?_eq_getElem hkl, Option.map_some, Option.some.injEq] at e2
    rw [List.map_map, List.getElem?_map, List.getElem?_zipWith, List.getElem?_range hk, List.getElem?_eq_getElem hkl]
    simp only [Option.map_some, Function.comp_def, e2, e1]
    rw [XF.fin_mul_fin, XF.fin_add_fin, rhCell_fin h1 h2]

/-- C116: the temperatures of the day after; the 14th value is computed with the dew point of the day before -/
example : ∃ out, disaggregateHumidity .modern ⟨[at00 0], [("tmin", [.fin 283])]⟩ "dewpoint_regression" (some (hourlyS 1 1 fun _ _ => .fin 290)) (some 0) (some 1) = .ok out ∧
    out.index = Series.index (hourlyS 1 1 fun _ _ => (XF.fin 290 : XF ℝ)) ∧ out.values[13]? = some (.fin (relHum 283 290)) := by
  obtain ⟨out, e, h1, _, h2⟩ := C116_by_position .modern ⟨[at00 0], [("tmin", [.fin 283])]⟩ 0 1 none none 0 1 (by omega) (fun _ => .fin 283)
    (hourlyS 1 1 fun _ _ => .fin 290) (by simp) rfl
  refine ⟨out, e, h1, ?_⟩
  have := h2 13 (by omega) 283 290 rfl (by rw [hourlyS_values]; rfl) (by norm_num) (by norm_num)
  norm_num at this
  exact this

/-- the dew points of 'linear_dewpoint_variation' for any labels of the temperature -/
theorem linearDewpoint_pos (kr : ℝ) (d0 : Int) (n : Nat) (td : Nat → XF ℝ) (temp : Series (XF ℝ)) (hl : temp.length = 24 * n) :
    linearDewpoint kr (hourlyS d0 n fun i _ => td i) temp = .ok (hourlyS d0 n fun i h =>
      td i + (.fin ((hourOf ((temp.index[24 * i + h]?).getD 0) : ℝ) / 24) * ((if i + 1 < n then td (i + 1) else td i) - td i) +
        tdewDelta kr (hourOf ((temp.index[24 * i + h]?).getD 0)))) := by
  unfold linearDewpoint
  rw [if_pos (by simp [hl])]
  dsimp only
  congr 1
  apply List.ext_getElem
  · simp [hl]
  · intro k h1 h2
    simp only [hourlyS_length] at h2
    simp only [List.getElem_map, List.getElem_zip, List.getElem_zipIdx, hourlyS_getElem, hourlyS_length, hourlyS_values, Nat.zero_add]
    rw [show 24 * (k / 24) + k % 24 = k by omega]
    have hkl : k < temp.length := by omega
    have hidx : (temp.index[k]?).getD 0 = temp[k].1 := by
      unfold Series.index
      rw [List.getElem?_map, List.getElem?_eq_getElem hkl]
      rfl
    rw [hidx]
    congr 4
    congr 1
    by_cases hc : k / 24 + 1 < n
    · rw [if_neg (by omega), if_pos hc, List.getElem?_map, List.getElem?_range (by omega)]
      simp only [Option.map_some, Option.getD_some]
      congr 1; omega
    · rw [if_pos (by omega), if_neg hc]

/-- **C116 (linear dew point).**  'linear_dewpoint_variation' takes the temperature by position as well, but the hour of the day for the variation of the dew point comes
from the label of the temperature. -/
theorem C116_linear_by_position (api : PandasApi) (daily : Frame ℝ) (a0 a1 kr : ℝ) (hkr : kr = 6 ∨ kr = 12) (table : Option (CatMeans ℝ)) (d0 : Int) (n : Nat)
    (hn : 0 < n) (tmin : Nat → ℝ) (temp : Series (XF ℝ)) (hl : temp.length = 24 * n)
    (htmin : daily.col? "tmin" = some (dailyS d0 n fun i => .fin (tmin i))) :
    ∃ out, disaggregateHumidity api daily "linear_dewpoint_variation" (some temp) (some a0) (some a1) (some kr) table = .ok out ∧ out.index = temp.index ∧
      ∀ k < 24 * n, ∀ (d : Int) (h : Nat), h < 24 → temp.index[k]? = some (atHour d h) → ∀ t, temp.values[k]? = some (.fin t) →
        ∀ td D next, D = a0 + a1 * tmin (k / 24) → next = (if k / 24 + 1 < n then a0 + a1 * tmin (k / 24 + 1) else D) →
        td = D + (h : ℝ) / 24 * (next - D) + diurnalTerm kr h → 0.53 < td → 0.53 < t →
        out.values[k]? = some (.fin (relHum td t)) := by
  have hraw := dewpoint_tail_pos d0 n (fun i h => (XF.fin a0 + .fin a1 * .fin (tmin i)) + (.fin ((hourOf ((temp.index[24 * i + h]?).getD 0) : ℝ) / 24) *
    ((if i + 1 < n then .fin a0 + .fin a1 * .fin (tmin (i + 1)) else .fin a0 + .fin a1 * .fin (tmin i)) - (.fin a0 + .fin a1 * .fin (tmin i))) +
        tdewDelta kr (hourOf ((temp.index[24 * i + h]?).getD 0)))) temp hl
  rw [← py_ok_bind (hourlyS d0 n _) (fun td => (do
      let es ← vaporPressureScalar (Series.values td) (.fin 100)
      let e ← vaporPressureScalar temp.values (.fin 100)
      if es.length ≠ e.length then .error .valueError
      else Series.make temp.index (List.zipWith (fun x y => .fin 100 * x / y) es e) : Py (Series (XF ℝ)))),
    ← linearDewpoint_pos kr d0 n (fun i => XF.fin a0 + .fin a1 * .fin (tmin i)) temp hl] at hraw
  have hrun : disaggregateHumidity api daily "linear_dewpoint_variation" (some temp) (some a0) (some a1) (some kr) table = (do
      let h ← (do
        let td ← linearDewpoint kr (hourlyS d0 n fun i _ => XF.fin a0 + .fin a1 * .fin (tmin i)) temp
        let es ← vaporPressureScalar td.values (.fin 100)
        let e ← vaporPressureScalar temp.values (.fin 100)
        if es.length ≠ e.length then .error .valueError
        else Series.make temp.index (List.zipWith (fun x y => .fin 100 * x / y) es e) : Py (Series (XF ℝ)))
      .ok (h.map fun r => (r.1, r.2.clip 0 100)) : Py (Series (XF ℝ))) := by
    unfold disaggregateHumidity humidityRaw humidityDewpoint
    simp only [true_or, or_true, not_true, if_false, if_true, reduceCtorEq, String.reduceEq]
    rw [attr_ok htmin, py_ok_bind, dailyS_map d0 n _ fun x : XF ℝ => .fin a0 + .fin a1 * x, distributeEqually_daily api d0 hn, py_ok_bind, if_pos hkr, py_ok_bind]
    rfl
  rw [hraw, py_ok_bind] at hrun
  refine ⟨_, hrun, ?_, ?_⟩
  · rw [clip_index]
    apply List.ext_getElem
    · simp [Series.index, hl]
    · intro k k1 k2
      simp [Series.index]
  · intro k hk d h hh e1 t e2 td D next hD hnext htd h1 h2
    have hkl : k < temp.length := by omega
    unfold Series.values at e2 ⊢
    rw [List.getElem?_map, List.getElem?_eq_getElem hkl, Option.map_some, Option.some.injEq] at e2
    rw [List.map_map, List.getElem?_map, List.getElem?_zipWith, List.getElem?_range hk, List.getElem?_eq_getElem hkl]
    simp only [Option.map_some, Function.comp_def, e2]
    rw [show 24 * (k / 24) + k % 24 = k by omega, e1, Option.getD_some, hourOf_atHour _ hh]
    have e : (if k / 24 + 1 < n then XF.fin a0 + .fin a1 * .fin (tmin (k / 24 + 1)) else .fin a0 + .fin a1 * .fin (tmin (k / 24))) = XF.fin next := by
      rw [hnext, hD]
      split <;> rfl
    rw [e]
    have e' : (XF.fin a0 + .fin a1 * .fin (tmin (k / 24))) = XF.fin D := by rw [hD]; rfl
    rw [e']
    unfold tdewDelta
    rw [XF.sin_fin, XF.fin_mul_fin, XF.fin_sub_fin, XF.fin_mul_fin, XF.fin_add_fin, XF.fin_add_fin]
    have e3 : D + (((h : Int) : ℝ) / 24 * (next - D) + 0.5 * Real.sin ((((h : Int) : ℝ) + 1) * Real.pi / kr - 3 * Real.pi / 4)) = td := by
      rw [htd]
      unfold diurnalTerm
      push_cast
      norm_num
      ring
    rw [e3, rhCell_fin h1 h2]

/-- C116: 24 temperatures all labelled 08:00 (kr = 12, where the diurnal term of that hour is 0) -/
example : ∃ out, disaggregateHumidity .modern ⟨[at00 0, at00 1], [("tmin", [.fin 280, .fin 282])]⟩ "linear_dewpoint_variation"
    (some ((List.range 48).map fun _ => (atHour 0 8, XF.fin 290))) (some 0) (some 1) (some 12) = .ok out ∧
      out.values[0]? = some (.fin (relHum (280 + 8 / 24 * 2) 290)) := by
  obtain ⟨out, e, _, h⟩ := C116_linear_by_position .modern ⟨[at00 0, at00 1], [("tmin", [.fin 280, .fin 282])]⟩ 0 1 12 (.inr rfl) none 0 2 (by omega)
    (fun i => if i = 0 then 280 else 282) ((List.range 48).map fun _ => (atHour 0 8, XF.fin 290)) (by simp)
    (by simp [Frame.col?, dailyS, List.range_succ, at00])
  refine ⟨out, e, ?_⟩
  have hd : diurnalTerm 12 8 = 0 := by
    unfold diurnalTerm
    rw [show (((8 : Nat) : ℝ) + 1) * Real.pi / 12 - 3 * Real.pi / 4 = 0 by push_cast; ring, Real.sin_zero, mul_zero]
  exact h 0 (by omega) 0 8 (by omega) rfl 290 rfl (280 + 8 / 24 * 2) 280 282 (by norm_num) (by norm_num) (by rw [hd]; norm_num) (by norm_num) (by norm_num)

/-- **C116 (number of values).**  With another number of values the dew point methods raise ValueError. -/
theorem C116_wrong_length (api : PandasApi) (daily : Frame ℝ) (method : String)
    (hm : method = "minimal" ∨ method = "dewpoint_regression" ∨ method = "linear_dewpoint_variation") (a0 a1 kr : ℝ) (hkr : kr = 6 ∨ kr = 12)
    (table : Option (CatMeans ℝ)) (preserve : Bool) (d0 : Int) (n : Nat) (hn : 0 < n) (tmin : Nat → XF ℝ) (temp : Series (XF ℝ)) (hl : temp.length ≠ 24 * n)
    (htmin : daily.col? "tmin" = some (dailyS d0 n tmin)) :
    disaggregateHumidity api daily method (some temp) (some a0) (some a1) (some kr) table preserve = .error .valueError := by
  have tail : ∀ td : Nat → Nat → XF ℝ, (do
      let es ← vaporPressureScalar (Series.values (hourlyS d0 n td)) (.fin 100)
      let e ← vaporPressureScalar temp.values (.fin 100)
      if es.length ≠ e.length then .error .valueError
      else Series.make temp.index (List.zipWith (fun x y => .fin 100 * x / y) es e) : Py (Series (XF ℝ))) = .error .valueError := by
    intro td
    rw [vaporScalar_hourly, py_ok_bind]
    unfold vaporPressureScalar vaporPressure
    rw [if_pos (by simp), py_ok_bind, if_pos (by simp [Series.values]; omega)]
  have hraw : humidityRaw api daily method (some temp) (some a0) (some a1) (some kr) table = .error .valueError := by
    unfold humidityRaw humidityDewpoint
    rcases hm with rfl | rfl | rfl <;> simp only [true_or, or_true, not_true, if_false, if_true, reduceCtorEq, String.reduceEq]
    · rw [attr_ok htmin, py_ok_bind, dailyS_map d0 n _ fun x : XF ℝ => .fin 0 + .fin 1 * x, distributeEqually_daily api d0 hn, py_ok_bind, py_ok_bind, py_ok_bind]
      exact tail _
    · rw [attr_ok htmin, py_ok_bind, dailyS_map d0 n _ fun x : XF ℝ => .fin a0 + .fin a1 * x, distributeEqually_daily api d0 hn, py_ok_bind, py_ok_bind, py_ok_bind]
      exact tail _
    · rw [attr_ok htmin, py_ok_bind, dailyS_map d0 n _ fun x : XF ℝ => .fin a0 + .fin a1 * x, distributeEqually_daily api d0 hn, py_ok_bind, if_pos hkr, py_ok_bind]
      unfold linearDewpoint
      rw [if_neg (by simp [hl])]
      rfl
  unfold disaggregateHumidity
  rw [hraw]
  rfl

/-- C116: two days and one day of temperatures -/
example : disaggregateHumidity .modern ⟨[at00 0, at00 1], [("tmin", [.fin 280, .fin 282])]⟩ "minimal" (some (hourlyS 0 1 fun _ _ => .fin 290)) (some 0) (some 1) (some 6) =
    .error .valueError :=
  C116_wrong_length .modern ⟨[at00 0, at00 1], [("tmin", [.fin 280, .fin 282])]⟩ "minimal" (.inl rfl) 0 1 6 (.inl rfl) none false 0 2 (by omega)
    (fun i => if i = 0 then .fin 280 else .fin 282) _ (by simp) (by simp [Frame.col?, dailyS, List.range_succ, at00])

end

end Melodist
