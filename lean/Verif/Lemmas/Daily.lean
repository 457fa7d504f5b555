import Verif.Lemmas.Frame

set_option linter.unusedSectionVars false

namespace Melodist
open Spec

variable {K : Type} [Field K] [LinearOrder K] [IsStrictOrderedRing K]

theorem resample_index {W : Type} (agg : List (XF K) → W) {d0 : Int} {n : Nat} {s : Series (XF K)}
    (h : s.index = Series.index (hourlyS d0 n fun _ _ => ())) :
    Series.index (s.resampleD agg) = Series.index (dailyS d0 n fun _ => ()) ∧
    Series.index (s.groupbyDate agg) = Series.index (dailyS d0 n fun _ => ()) := by
  have h' : s.index = Series.index (hourlyS d0 n fun _ _ => (XF.nan : XF K)) := by
    rw [h, hourlyS_index, hourlyS_index]
  obtain ⟨g, rfl⟩ := hourlyS_eq_of_index h'
  rw [resampleD_hourlyS, groupbyDate_hourlyS, dailyS_index, dailyS_index]
  exact ⟨rfl, rfl⟩

/-- one optional stage of `daily_from_hourly` that sets the columns `cs` -/
def stage (d : Frame K) (o : Option (Series (XF K))) (cs : List (String × (Series (XF K) → Series (XF K)))) : Frame K :=
  match o with
  | some s => cs.foldl (fun d c => d.setCol c.1 (c.2 s)) d
  | none => d

theorem foldl_setCol_other (cs : List (String × (Series (XF K) → Series (XF K)))) (s : Series (XF K)) (d : Frame K)
    (n' : String) (h : ∀ c ∈ cs, c.1 ≠ n') : (cs.foldl (fun d c => d.setCol c.1 (c.2 s)) d).col? n' = d.col? n' := by
  induction cs generalizing d with
  | nil => rfl
  | cons c cs ih =>
    rw [List.foldl_cons, ih _ fun c hc => h c (by simp [hc]), setCol_other _ _ _ (h c (by simp))]

theorem foldl_setCol_idx (cs : List (String × (Series (XF K) → Series (XF K)))) (s : Series (XF K)) (d : Frame K)
    (idx : List Int) (hd : FrameIdx d idx) (h : ∀ c ∈ cs, (c.2 s).index = idx) :
    FrameIdx (cs.foldl (fun d c => d.setCol c.1 (c.2 s)) d) idx := by
  induction cs generalizing d with
  | nil => exact hd
  | cons c cs ih =>
    rw [List.foldl_cons]
    exact ih _ (Or.inr (setCol_idx d idx hd _ _ (h c (by simp)))) fun c hc => h c (by simp [hc])

theorem foldl_setCol_same (cs : List (String × (Series (XF K) → Series (XF K)))) (s : Series (XF K)) (d : Frame K)
    (idx : List Int) (hnd : idx.Nodup) (hd : FrameIdx d idx) (h : ∀ c ∈ cs, (c.2 s).index = idx)
    (hp : cs.Pairwise fun a b => b.1 ≠ a.1) :
    ∀ c ∈ cs, (cs.foldl (fun d c => d.setCol c.1 (c.2 s)) d).col? c.1 = some (c.2 s) := by
  induction cs generalizing d with
  | nil => intro c hc; simp at hc
  | cons c0 cs ih =>
    intro c hc
    rw [List.pairwise_cons] at hp
    rw [List.foldl_cons]
    have hd' : FrameIdx (d.setCol c0.1 (c0.2 s)) idx := Or.inr (setCol_idx d idx hd _ _ (h c0 (by simp)))
    rcases List.mem_cons.1 hc with rfl | hc
    · rw [foldl_setCol_other _ _ _ _ hp.1, setCol_same d idx hd _ _ (h c (by simp)) hnd]
    · exact ih _ hd' (fun c hc => h c (by simp [hc])) hp.2 c hc

theorem stage_idx {d : Frame K} {o cs} {idx : List Int} (hd : FrameIdx d idx)
    (h : ∀ s, o = some s → ∀ c ∈ cs, Series.index (c.2 s) = idx) : FrameIdx (stage d o cs) idx := by
  cases o with
  | none => exact hd
  | some s => exact foldl_setCol_idx cs s d idx hd (h s rfl)

theorem stage_other {d : Frame K} {o cs} (n' : String)
    (h : ∀ c ∈ cs, c.1 ≠ n') : (stage d o cs).col? n' = d.col? n' := by
  cases o with
  | none => rfl
  | some s => exact foldl_setCol_other cs s d n' h

def csTemp : List (String × (Series (XF K) → Series (XF K))) :=
  [("temp", Series.resampleD meanSkip), ("tmin", Series.groupbyDate minSkip), ("tmax", Series.groupbyDate maxSkip)]
def csPrecip : List (String × (Series (XF K) → Series (XF K))) := [("precip", Series.resampleD sumSkip)]
def csGlob : List (String × (Series (XF K) → Series (XF K))) := [("glob", Series.resampleD meanSkip)]
def csHum : List (String × (Series (XF K) → Series (XF K))) :=
  [("hum", Series.resampleD meanSkip), ("hum_min", Series.groupbyDate minSkip), ("hum_max", Series.groupbyDate maxSkip)]
def csWind : List (String × (Series (XF K) → Series (XF K))) := [("wind", Series.resampleD meanSkip)]
def csSsd : List (String × (Series (XF K) → Series (XF K))) :=
  [("ssd", fun s => (s.resampleD sumSkip).map fun r => (r.1, r.2 / .fin 60))]

theorem dailyFromHourly_stages (df : Frame K) :
    dailyFromHourly df = stage (stage (stage (stage (stage (stage ⟨[], []⟩ (df.col? "temp") csTemp) (df.col? "precip") csPrecip)
      (df.col? "glob") csGlob) (df.col? "hum") csHum) (df.col? "wind") csWind) (df.col? "ssd") csSsd := by
  unfold dailyFromHourly stage csTemp csPrecip csGlob csHum csWind csSsd
  rfl

/-- the column of `daily_from_hourly` for each of the aggregated columns -/
theorem dailyFromHourly_col (df : Frame K) (hwf : df.WF) {d0 : Int} {n : Nat}
    (hidx : df.index = Series.index (hourlyS d0 n fun _ _ => ())) :
    (∀ s, df.col? "temp" = some s → ∀ c ∈ csTemp, (dailyFromHourly df).col? c.1 = some (c.2 s)) ∧
    (∀ s, df.col? "precip" = some s → ∀ c ∈ csPrecip, (dailyFromHourly df).col? c.1 = some (c.2 s)) ∧
    (∀ s, df.col? "glob" = some s → ∀ c ∈ csGlob, (dailyFromHourly df).col? c.1 = some (c.2 s)) ∧
    (∀ s, df.col? "hum" = some s → ∀ c ∈ csHum, (dailyFromHourly df).col? c.1 = some (c.2 s)) ∧
    (∀ s, df.col? "wind" = some s → ∀ c ∈ csWind, (dailyFromHourly df).col? c.1 = some (c.2 s)) ∧
    (∀ s, df.col? "ssd" = some s → ∀ c ∈ csSsd, (dailyFromHourly df).col? c.1 = some (c.2 s)) := by
  have hnd : (Series.index (dailyS d0 n fun _ => ())).Nodup := nodup_of_sorted (dailyS_index_sorted _ _ _)
  have hsi : ∀ name s, df.col? name = some s → s.index = Series.index (hourlyS d0 n fun _ _ => ()) :=
    fun name s h => (col?_index hwf h).trans hidx
  have hT : ∀ s, df.col? "temp" = some s → ∀ c ∈ csTemp, Series.index (c.2 s) = Series.index (dailyS d0 n fun _ => ()) := by
    intro s hs c hc
    have := hsi _ s hs
    simp only [csTemp, List.mem_cons, List.not_mem_nil, or_false] at hc
    rcases hc with rfl | rfl | rfl
    · exact (resample_index _ this).1
    · exact (resample_index _ this).2
    · exact (resample_index _ this).2
  have hH : ∀ s, df.col? "hum" = some s → ∀ c ∈ csHum, Series.index (c.2 s) = Series.index (dailyS d0 n fun _ => ()) := by
    intro s hs c hc
    have := hsi _ s hs
    simp only [csHum, List.mem_cons, List.not_mem_nil, or_false] at hc
    rcases hc with rfl | rfl | rfl
    · exact (resample_index _ this).1
    · exact (resample_index _ this).2
    · exact (resample_index _ this).2
  have hP : ∀ s, df.col? "precip" = some s → ∀ c ∈ csPrecip, Series.index (c.2 s) = Series.index (dailyS d0 n fun _ => ()) := by
    intro s hs c hc
    simp only [csPrecip, List.mem_singleton] at hc
    subst hc
    exact (resample_index _ (hsi _ s hs)).1
  have hG : ∀ s, df.col? "glob" = some s → ∀ c ∈ csGlob, Series.index (c.2 s) = Series.index (dailyS d0 n fun _ => ()) := by
    intro s hs c hc
    simp only [csGlob, List.mem_singleton] at hc
    subst hc
    exact (resample_index _ (hsi _ s hs)).1
  have hW : ∀ s, df.col? "wind" = some s → ∀ c ∈ csWind, Series.index (c.2 s) = Series.index (dailyS d0 n fun _ => ()) := by
    intro s hs c hc
    simp only [csWind, List.mem_singleton] at hc
    subst hc
    exact (resample_index _ (hsi _ s hs)).1
  have hS : ∀ s, df.col? "ssd" = some s → ∀ c ∈ csSsd, Series.index (c.2 s) = Series.index (dailyS d0 n fun _ => ()) := by
    intro s hs c hc
    simp only [csSsd, List.mem_singleton] at hc
    subst hc
    have := (resample_index sumSkip (hsi _ s hs)).1
    rw [← this]
    simp [Series.index, Function.comp_def]
  have i0 : FrameIdx (⟨[], []⟩ : Frame K) (Series.index (dailyS d0 n fun _ => ())) := Or.inl rfl
  have i1 := stage_idx i0 hT
  have i2 := stage_idx i1 hP
  have i3 := stage_idx i2 hG
  have i4 := stage_idx i3 hH
  have i5 := stage_idx i4 hW
  rw [dailyFromHourly_stages]
  refine ⟨?_, ?_, ?_, ?_, ?_, ?_⟩
  · intro s hs c hc
    have hc' : c.1 = "temp" ∨ c.1 = "tmin" ∨ c.1 = "tmax" := by
      simp only [csTemp, List.mem_cons, List.not_mem_nil, or_false] at hc
      rcases hc with rfl | rfl | rfl <;> simp
    rw [stage_other, stage_other, stage_other, stage_other, stage_other]
    · rw [hs]
      exact foldl_setCol_same csTemp s _ _ hnd i0 (hT s hs) (by simp [csTemp]) c hc
    all_goals
      rcases hc' with h | h | h <;> rw [h] <;> simp [csSsd, csWind, csHum, csGlob, csPrecip]
  · intro s hs c hc
    have hc' : c.1 = "precip" := by
      simp only [csPrecip, List.mem_singleton] at hc; subst hc; rfl
    rw [stage_other, stage_other, stage_other, stage_other]
    · rw [hs]
      exact foldl_setCol_same csPrecip s _ _ hnd i1 (hP s hs) (by simp [csPrecip]) c hc
    all_goals rw [hc']; simp [csSsd, csWind, csHum, csGlob]
  · intro s hs c hc
    have hc' : c.1 = "glob" := by
      simp only [csGlob, List.mem_singleton] at hc; subst hc; rfl
    rw [stage_other, stage_other, stage_other]
    · rw [hs]
      exact foldl_setCol_same csGlob s _ _ hnd i2 (hG s hs) (by simp [csGlob]) c hc
    all_goals rw [hc']; simp [csSsd, csWind, csHum]
  · intro s hs c hc
    have hc' : c.1 = "hum" ∨ c.1 = "hum_min" ∨ c.1 = "hum_max" := by
      simp only [csHum, List.mem_cons, List.not_mem_nil, or_false] at hc
      rcases hc with rfl | rfl | rfl <;> simp
    rw [stage_other, stage_other]
    · rw [hs]
      exact foldl_setCol_same csHum s _ _ hnd i3 (hH s hs) (by simp [csHum]) c hc
    all_goals
      rcases hc' with h | h | h <;> rw [h] <;> simp [csSsd, csWind]
  · intro s hs c hc
    have hc' : c.1 = "wind" := by
      simp only [csWind, List.mem_singleton] at hc; subst hc; rfl
    rw [stage_other]
    · rw [hs]
      exact foldl_setCol_same csWind s _ _ hnd i4 (hW s hs) (by simp [csWind]) c hc
    all_goals rw [hc']; simp [csSsd]
  · intro s hs c hc
    rw [hs]
    exact foldl_setCol_same csSsd s _ _ hnd i5 (hS s hs) (by simp [csSsd]) c hc

end Melodist
