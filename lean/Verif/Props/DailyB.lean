import Verif.Lemmas.DailyB

/-!
# C92: what daily_from_hourly computes, for any rows
-/

set_option linter.unusedSectionVars false

namespace Melodist
open Spec

variable {K : Type} [Field K] [LinearOrder K] [IsStrictOrderedRing K]

/-- the mean of some numbers; missing if there are none -/
def Spec.meanOf (l : List K) : XF K := if l = [] then .nan else .fin (l.sum / (l.length : K))

/-- the smallest of some numbers; missing if there are none -/
def Spec.minOf (l : List K) : XF K :=
  match l.min? with
  | none => .nan
  | some x => .fin x

/-- the largest of some numbers; missing if there are none -/
def Spec.maxOf (l : List K) : XF K :=
  match l.max? with
  | none => .nan
  | some x => .fin x

/-- the rows of the frame lie on the days `d0, …, d0 + n - 1`, with at least one on the first and one on the last of them -/
def Spec.SpansDays (index : List Time) (d0 : Int) (n : Nat) : Prop :=
  0 < n ∧ (∀ t ∈ index, d0 ≤ t / 86400000000 ∧ t / 86400000000 < d0 + n) ∧ (∃ t ∈ index, t / 86400000000 = d0) ∧ ∃ t ∈ index, t / 86400000000 = d0 + n - 1

theorem daySpan_spans {index : List Time} {d0 : Int} {n : Nat} (h : SpansDays index d0 n) :
    Series.daySpan index = (List.range n).map fun i : Nat => d0 + (i : Int) := by
  obtain ⟨hn, hall, ⟨t1, h1, e1⟩, t2, h2, e2⟩ := h
  have hmin : (index.map dayOf).min? = some d0 := by
    rw [List.min?_eq_some_iff]
    refine ⟨List.mem_map.2 ⟨t1, h1, e1⟩, ?_⟩
    intro b hb
    obtain ⟨t, ht, rfl⟩ := List.mem_map.1 hb
    exact (hall t ht).1
  have hmax : (index.map dayOf).max? = some (d0 + n - 1) := by
    rw [List.max?_eq_some_iff]
    refine ⟨List.mem_map.2 ⟨t2, h2, e2⟩, ?_⟩
    intro b hb
    obtain ⟨t, ht, rfl⟩ := List.mem_map.1 hb
    have := (hall t ht).2
    unfold dayOf
    omega
  unfold Series.daySpan
  rw [hmin, hmax]
  dsimp only
  rw [show (d0 + (n : Int) - 1 - d0 + 1).toNat = n by omega]

theorem resampleD_spans {V W : Type} (agg : List V → W) {s : Series V} {d0 : Int} {n : Nat} (h : SpansDays s.index d0 n) :
    s.resampleD agg = dailyS d0 n fun i => agg (dayCells s (d0 + (i : Nat))) := by
  unfold Series.resampleD dailyS
  rw [daySpan_spans h, List.map_map]
  apply List.map_congr_left
  intro i _
  have : ∀ d, s.onDay d = dayCells s d := by
    intro d
    unfold Series.onDay dayCells
    congr 1
  simp only [Function.comp, this]
  rfl

theorem meanSkip_meanOf {l : List (XF K)} (h : ∀ c ∈ l, c.NanOrFin) : meanSkip l = meanOf (numbers l) := by
  unfold meanOf
  split
  · rename_i e
    unfold meanSkip
    rw [countValid_eq h, e]
    rfl
  · rename_i e
    exact meanSkip_eq h e

theorem numbers_nil_nan {l : List (XF K)} (h : ∀ c ∈ l, c.NanOrFin) (e : numbers l = []) : ∀ c ∈ l, c = .nan := by
  intro c hc
  have := h c hc
  cases c with
  | nan => rfl
  | fin x =>
    have : x ∈ numbers l := by
      unfold numbers
      rw [List.mem_filterMap]
      exact ⟨_, hc, rfl⟩
    rw [e] at this
    simp at this
  | pinf => exact absurd this (by simp)
  | ninf => exact absurd this (by simp)

theorem minSkip_minOf {l : List (XF K)} (h : ∀ c ∈ l, c.NanOrFin) : minSkip l = minOf (numbers l) := by
  unfold minOf
  by_cases e : numbers l = []
  · rw [e, minSkip_nan (numbers_nil_nan h e)]
    rfl
  · obtain ⟨m, hm, hmem, hle⟩ := minSkip_eq h e
    rw [hm, List.min?_eq_some_iff.2 ⟨hmem, hle⟩]

theorem maxSkip_maxOf {l : List (XF K)} (h : ∀ c ∈ l, c.NanOrFin) : maxSkip l = maxOf (numbers l) := by
  unfold maxOf
  by_cases e : numbers l = []
  · rw [e, maxSkip_nan (numbers_nil_nan h e)]
    rfl
  · obtain ⟨m, hm, hmem, hle⟩ := maxSkip_eq h e
    rw [hm, List.max?_eq_some_iff.2 ⟨hmem, hle⟩]

theorem dayCells_nanOrFin {s : Series (XF K)} (h : ∀ r ∈ s, r.2.NanOrFin) (d : Int) : ∀ c ∈ dayCells s d, c.NanOrFin := by
  intro c hc
  obtain ⟨r, hr, rfl⟩ := List.mem_map.1 hc
  exact h r (List.mem_filter.1 hr).1

/-- **C92.**  Let the rows of a frame (in any order, with any gaps, also with repeated timestamps) span the days `d0, …, d0 + n - 1`.  Every
column of `daily_from_hourly` has exactly these `n` days as index, also those without rows.  Temperature, radiation, humidity and wind are the
mean of the day's non-missing values, `tmin`, `tmax`, `hum_min`, `hum_max` the smallest and largest of them (missing if there are none);
precipitation is the sum of the non-missing values and sunshine duration that sum over 60 (0 if there are none). -/
theorem C92_daily_values (df : Frame K) (hwf : df.WF) (d0 : Int) (n : Nat) (h : SpansDays df.index d0 n) (s : Series (XF K)) (hs : ∀ r ∈ s, r.2.NanOrFin) :
    (df.col? "temp" = some s →
      (dailyFromHourly df).col? "temp" = some (dailyS d0 n fun i => meanOf (numbers (dayCells s (d0 + i)))) ∧
      (dailyFromHourly df).col? "tmin" = some (dailyS d0 n fun i => minOf (numbers (dayCells s (d0 + i)))) ∧
      (dailyFromHourly df).col? "tmax" = some (dailyS d0 n fun i => maxOf (numbers (dayCells s (d0 + i))))) ∧
    (df.col? "precip" = some s → (dailyFromHourly df).col? "precip" = some (dailyS d0 n fun i => .fin (numbers (dayCells s (d0 + i))).sum)) ∧
    (df.col? "glob" = some s → (dailyFromHourly df).col? "glob" = some (dailyS d0 n fun i => meanOf (numbers (dayCells s (d0 + i))))) ∧
    (df.col? "hum" = some s →
      (dailyFromHourly df).col? "hum" = some (dailyS d0 n fun i => meanOf (numbers (dayCells s (d0 + i)))) ∧
      (dailyFromHourly df).col? "hum_min" = some (dailyS d0 n fun i => minOf (numbers (dayCells s (d0 + i)))) ∧
      (dailyFromHourly df).col? "hum_max" = some (dailyS d0 n fun i => maxOf (numbers (dayCells s (d0 + i))))) ∧
    (df.col? "wind" = some s → (dailyFromHourly df).col? "wind" = some (dailyS d0 n fun i => meanOf (numbers (dayCells s (d0 + i))))) ∧
    (df.col? "ssd" = some s → (dailyFromHourly df).col? "ssd" = some (dailyS d0 n fun i => .fin ((numbers (dayCells s (d0 + i))).sum / 60))) := by
  have mean : ∀ name, df.col? name = some s → s.resampleD meanSkip = dailyS d0 n fun i => meanOf (numbers (dayCells s (d0 + (i : Nat)))) := by
    intro name hc
    rw [resampleD_spans meanSkip (by rw [col?_index hwf hc]; exact h)]
    exact dailyS_congr _ fun i _ => meanSkip_meanOf (dayCells_nanOrFin hs _)
  have mi : ∀ name, df.col? name = some s → s.resampleD minSkip = dailyS d0 n fun i => minOf (numbers (dayCells s (d0 + (i : Nat)))) := by
    intro name hc
    rw [resampleD_spans minSkip (by rw [col?_index hwf hc]; exact h)]
    exact dailyS_congr _ fun i _ => minSkip_minOf (dayCells_nanOrFin hs _)
  have ma : ∀ name, df.col? name = some s → s.resampleD maxSkip = dailyS d0 n fun i => maxOf (numbers (dayCells s (d0 + (i : Nat)))) := by
    intro name hc
    rw [resampleD_spans maxSkip (by rw [col?_index hwf hc]; exact h)]
    exact dailyS_congr _ fun i _ => maxSkip_maxOf (dayCells_nanOrFin hs _)
  have su : ∀ name, df.col? name = some s → s.resampleD sumSkip = dailyS d0 n fun i => .fin (numbers (dayCells s (d0 + (i : Nat)))).sum := by
    intro name hc
    rw [resampleD_spans sumSkip (by rw [col?_index hwf hc]; exact h)]
    exact dailyS_congr _ fun i _ => sumSkip_eq (dayCells_nanOrFin hs _)
  refine ⟨fun hc => ?_, fun hc => ?_, fun hc => ?_, fun hc => ?_, fun hc => ?_, fun hc => ?_⟩
  · have := dailyFromHourly_col_any df hwf [] _ ⟨"temp", rsTemp⟩ rfl hc (by simp [rsTemp]) (by
      simp [rsTemp, rsHum, csPrecip, csGlob, csWind, csSsd])
    rw [← mean _ hc, ← mi _ hc, ← ma _ hc]
    exact ⟨this ("temp", Series.resampleD meanSkip) (by simp [rsTemp]), this ("tmin", Series.resampleD minSkip) (by simp [rsTemp]),
      this ("tmax", Series.resampleD maxSkip) (by simp [rsTemp])⟩
  · rw [← su _ hc]
    exact dailyFromHourly_col_any df hwf [⟨"temp", rsTemp⟩] _ ⟨"precip", csPrecip⟩ rfl hc (by simp [csPrecip]) (by
      simp [rsHum, csPrecip, csGlob, csWind, csSsd]) ("precip", Series.resampleD sumSkip) (by simp [csPrecip])
  · rw [← mean _ hc]
    exact dailyFromHourly_col_any df hwf [⟨"temp", rsTemp⟩, ⟨"precip", csPrecip⟩] _ ⟨"glob", csGlob⟩ rfl hc (by simp [csGlob]) (by
      simp [rsHum, csGlob, csWind, csSsd]) ("glob", Series.resampleD meanSkip) (by simp [csGlob])
  · have := dailyFromHourly_col_any df hwf [⟨"temp", rsTemp⟩, ⟨"precip", csPrecip⟩, ⟨"glob", csGlob⟩] _ ⟨"hum", rsHum⟩ rfl hc (by simp [rsHum]) (by
      simp [rsHum, csWind, csSsd])
    rw [← mean _ hc, ← mi _ hc, ← ma _ hc]
    exact ⟨this ("hum", Series.resampleD meanSkip) (by simp [rsHum]), this ("hum_min", Series.resampleD minSkip) (by simp [rsHum]),
      this ("hum_max", Series.resampleD maxSkip) (by simp [rsHum])⟩
  · rw [← mean _ hc]
    exact dailyFromHourly_col_any df hwf [⟨"temp", rsTemp⟩, ⟨"precip", csPrecip⟩, ⟨"glob", csGlob⟩, ⟨"hum", rsHum⟩] _ ⟨"wind", csWind⟩ rfl hc
      (by simp [csWind]) (by simp [csWind, csSsd]) ("wind", Series.resampleD meanSkip) (by simp [csWind])
  · have := dailyFromHourly_col_any df hwf [⟨"temp", rsTemp⟩, ⟨"precip", csPrecip⟩, ⟨"glob", csGlob⟩, ⟨"hum", rsHum⟩, ⟨"wind", csWind⟩] _ ⟨"ssd", csSsd⟩ rfl hc
      (by simp [csSsd]) (by simp) ("ssd", fun s => (s.resampleD sumSkip).map fun r => (r.1, r.2 / .fin 60)) (by simp [csSsd])
    rw [this]
    dsimp only
    rw [su _ hc]
    unfold dailyS
    rw [List.map_map]
    congr 1
    apply List.map_congr_left
    intro i _
    simp only [Function.comp]
    rw [XF.fin_div_fin_of_ne _ (by norm_num)]

/-- **C92 (columns).**  `daily_from_hourly` has the columns `temp`, `tmin`, `tmax` exactly if the frame has `temp`; `hum`, `hum_min`, `hum_max`
exactly if it has `hum`; `precip`, `glob`, `wind`, `ssd` exactly if it has the column of that name; and no others. -/
theorem C92_columns (df : Frame K) (hwf : df.WF) (name : String) :
    ((dailyFromHourly df).col? name).isSome ↔ ∃ source, (df.col? source).isSome ∧
      ((source, name) ∈ [("temp", "temp"), ("temp", "tmin"), ("temp", "tmax"), ("precip", "precip"), ("glob", "glob"), ("hum", "hum"), ("hum", "hum_min"),
        ("hum", "hum_max"), ("wind", "wind"), ("ssd", "ssd")]) := by
  constructor
  · intro h
    by_contra hno
    rw [dailyFromHourly_run df hwf, runStages_other] at h
    · exact absurd h (by simp [Frame.col?])
    · intro st hst hsome c hc e
      refine hno ⟨st.source, hsome, ?_⟩
      subst e
      simp only [stages, List.mem_cons, List.not_mem_nil, or_false] at hst
      rcases hst with rfl | rfl | rfl | rfl | rfl | rfl <;>
        simp only [rsTemp, rsHum, csPrecip, csGlob, csWind, csSsd, List.mem_cons, List.not_mem_nil, or_false] at hc
      · rcases hc with rfl | rfl | rfl <;> simp
      · subst hc; simp
      · subst hc; simp
      · rcases hc with rfl | rfl | rfl <;> simp
      · subst hc; simp
      · subst hc; simp
  · rintro ⟨source, hsome, hmem⟩
    obtain ⟨s, hs⟩ := Option.isSome_iff_exists.1 hsome
    simp only [List.mem_cons, Prod.mk.injEq, List.not_mem_nil, or_false] at hmem
    have t := fun hc : df.col? "temp" = some s => dailyFromHourly_col_any df hwf [] _ ⟨"temp", rsTemp⟩ rfl hc (by simp [rsTemp]) (by
      simp [rsTemp, rsHum, csPrecip, csGlob, csWind, csSsd])
    have p := fun hc : df.col? "precip" = some s => dailyFromHourly_col_any df hwf [⟨"temp", rsTemp⟩] _ ⟨"precip", csPrecip⟩ rfl hc (by simp [csPrecip]) (by
      simp [rsHum, csPrecip, csGlob, csWind, csSsd])
    have g := fun hc : df.col? "glob" = some s => dailyFromHourly_col_any df hwf [⟨"temp", rsTemp⟩, ⟨"precip", csPrecip⟩] _ ⟨"glob", csGlob⟩ rfl hc
      (by simp [csGlob]) (by simp [rsHum, csGlob, csWind, csSsd])
    have hu := fun hc : df.col? "hum" = some s => dailyFromHourly_col_any df hwf [⟨"temp", rsTemp⟩, ⟨"precip", csPrecip⟩, ⟨"glob", csGlob⟩] _ ⟨"hum", rsHum⟩ rfl hc
      (by simp [rsHum]) (by simp [rsHum, csWind, csSsd])
    have w := fun hc : df.col? "wind" = some s => dailyFromHourly_col_any df hwf [⟨"temp", rsTemp⟩, ⟨"precip", csPrecip⟩, ⟨"glob", csGlob⟩, ⟨"hum", rsHum⟩] _
      ⟨"wind", csWind⟩ rfl hc (by simp [csWind]) (by simp [csWind, csSsd])
    have sd := fun hc : df.col? "ssd" = some s => dailyFromHourly_col_any df hwf
      [⟨"temp", rsTemp⟩, ⟨"precip", csPrecip⟩, ⟨"glob", csGlob⟩, ⟨"hum", rsHum⟩, ⟨"wind", csWind⟩] _ ⟨"ssd", csSsd⟩ rfl hc (by simp [csSsd]) (by simp)
    rcases hmem with ⟨rfl, rfl⟩ | ⟨rfl, rfl⟩ | ⟨rfl, rfl⟩ | ⟨rfl, rfl⟩ | ⟨rfl, rfl⟩ | ⟨rfl, rfl⟩ | ⟨rfl, rfl⟩ | ⟨rfl, rfl⟩ | ⟨rfl, rfl⟩ | ⟨rfl, rfl⟩
    · rw [t hs ("temp", Series.resampleD meanSkip) (by simp [rsTemp])]; rfl
    · rw [t hs ("tmin", Series.resampleD minSkip) (by simp [rsTemp])]; rfl
    · rw [t hs ("tmax", Series.resampleD maxSkip) (by simp [rsTemp])]; rfl
    · rw [p hs ("precip", Series.resampleD sumSkip) (by simp [csPrecip])]; rfl
    · rw [g hs ("glob", Series.resampleD meanSkip) (by simp [csGlob])]; rfl
    · rw [hu hs ("hum", Series.resampleD meanSkip) (by simp [rsHum])]; rfl
    · rw [hu hs ("hum_min", Series.resampleD minSkip) (by simp [rsHum])]; rfl
    · rw [hu hs ("hum_max", Series.resampleD maxSkip) (by simp [rsHum])]; rfl
    · rw [w hs ("wind", Series.resampleD meanSkip) (by simp [csWind])]; rfl
    · rw [sd hs ("ssd", fun s => (s.resampleD sumSkip).map fun r => (r.1, r.2 / .fin 60)) (by simp [csSsd])]; rfl

/-! ## Examples -/

/-- two rows on day 5 (one missing), none on day 6, one on day 7 -/
def gappyRows : Frame ℚ :=
  ⟨[atHour 7 3, atHour 5 4, atHour 5 9, atHour 5 10], [("temp", [.fin 280, .fin 270, .nan, .fin 272]), ("precip", [.nan, .fin 1, .fin 2, .nan]),
    ("ssd", [.fin 30, .fin 30, .fin 60, .nan])]⟩

example : gappyRows.WF ∧ SpansDays gappyRows.index 5 3 := by
  refine ⟨?_, by decide, by decide +kernel, ⟨atHour 5 4, by decide +kernel, by decide +kernel⟩, ⟨atHour 7 3, by decide +kernel, by decide +kernel⟩⟩
  intro c hc
  simp only [gappyRows, List.mem_cons, List.not_mem_nil, or_false] at hc
  rcases hc with rfl | rfl | rfl <;> rfl

example : (dailyFromHourly gappyRows).col? "temp" = some [(at00 5, .fin 271), (at00 6, .nan), (at00 7, .fin 280)] ∧
    (dailyFromHourly gappyRows).col? "tmin" = some [(at00 5, .fin 270), (at00 6, .nan), (at00 7, .fin 280)] ∧
    (dailyFromHourly gappyRows).col? "precip" = some [(at00 5, .fin 3), (at00 6, .fin 0), (at00 7, .fin 0)] ∧
    (dailyFromHourly gappyRows).col? "ssd" = some [(at00 5, .fin (3 / 2)), (at00 6, .fin 0), (at00 7, .fin (1 / 2))] ∧
    (dailyFromHourly gappyRows).col? "hum" = none := by decide +kernel

end Melodist
