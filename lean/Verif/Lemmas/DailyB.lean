import Verif.Lemmas.Daily
import Verif.Props.HumidityStats

/-!
# daily_from_hourly for any frame of rows (gaps, any order)
-/

set_option linter.unusedSectionVars false

namespace Melodist
open Spec

variable {K : Type} [Field K] [LinearOrder K] [IsStrictOrderedRing K]

/-- a further column only depends on the values at the labels of the frame -/
theorem setCol_congr {d : Frame K} (hne : d.cols ≠ []) (name : String) {s s' : Series (XF K)}
    (h : ∀ t ∈ d.index, (s.at? t).getD .nan = (s'.at? t).getD .nan) : d.setCol name s = d.setCol name s' := by
  unfold Frame.setCol
  have : d.cols.isEmpty = false := by simpa using hne
  simp only [this, Bool.false_eq_true, if_false]
  rw [List.map_congr_left h]

theorem setCol_cols_ne (d : Frame K) (name : String) (s : Series (XF K)) : (d.setCol name s).cols ≠ [] := by
  unfold Frame.setCol
  by_cases he : d.cols = []
  · simp [he, Frame.has]
  · have : d.cols.isEmpty = false := by simpa using he
    simp only [this, Bool.false_eq_true, if_false]
    split
    · simpa using he
    · simp

theorem onDay_nil {V : Type} {s : Series V} {d : Int} (h : ¬ ∃ r ∈ s, dayOf r.1 = d) : s.onDay d = [] := by
  unfold Series.onDay
  rw [List.map_eq_nil_iff, List.filter_eq_nil_iff]
  intro r hr e
  exact h ⟨r, hr, by simpa using e⟩

theorem groupbyDate_at?_none {V W : Type} (agg : List V → W) {s : Series V} {d : Int} (h : ¬ ∃ r ∈ s, dayOf r.1 = d) :
    (s.groupbyDate agg).at? (midnight d) = none := by
  unfold Series.groupbyDate Series.at?
  rw [Option.map_eq_none_iff, List.find?_eq_none]
  intro x hx e
  obtain ⟨d', hd', rfl⟩ := List.mem_map.1 hx
  have hd' := (List.mem_filter.1 hd').2
  obtain ⟨r, hr, hr'⟩ := List.any_eq_true.1 hd'
  have e : midnight d' = midnight d := by simpa using e
  have : d' = d := by unfold midnight at e; omega
  subst this
  exact h ⟨r, hr, by simpa using hr'⟩

/-- grouping by date and resampling differ only in days without rows, where an aggregate of nothing is missing -/
theorem groupby_resample {agg : List (XF K) → XF K} (h0 : agg [] = .nan) (s : Series (XF K)) {d : Int} (hd : d ∈ Series.daySpan s.index) :
    ((s.groupbyDate agg).at? (midnight d)).getD .nan = ((s.resampleD agg).at? (midnight d)).getD .nan := by
  rw [resampleD_at? agg s hd]
  by_cases h : ∃ r ∈ s, dayOf r.1 = d
  · obtain ⟨r, hr, e⟩ := h
    rw [groupbyDate_at? agg s hr e]
  · rw [groupbyDate_at?_none agg h, onDay_nil h, h0]
    rfl

/-- the columns, with resampling throughout -/
def rsTemp : List (String × (Series (XF K) → Series (XF K))) :=
  [("temp", Series.resampleD meanSkip), ("tmin", Series.resampleD minSkip), ("tmax", Series.resampleD maxSkip)]
@[inherit_doc rsTemp] def rsHum : List (String × (Series (XF K) → Series (XF K))) :=
  [("hum", Series.resampleD meanSkip), ("hum_min", Series.resampleD minSkip), ("hum_max", Series.resampleD maxSkip)]

theorem resampleD_index {V W : Type} (agg : List V → W) (s : Series V) : Series.index (s.resampleD agg) = (Series.daySpan s.index).map midnight := by
  unfold Series.resampleD Series.index
  rw [List.map_map]
  rfl

theorem stage3_eq {d : Frame K} {idx : List Time} (hd : FrameIdx d ((Series.daySpan idx).map midnight)) (o : Option (Series (XF K)))
    (ho : ∀ s, o = some s → s.index = idx) (a b c : String) :
    stage d o [(a, Series.resampleD meanSkip), (b, Series.groupbyDate minSkip), (c, Series.groupbyDate maxSkip)] =
      stage d o [(a, Series.resampleD meanSkip), (b, Series.resampleD minSkip), (c, Series.resampleD maxSkip)] := by
  cases o with
  | none => rfl
  | some s =>
    have hs := ho s rfl
    unfold stage
    simp only [List.foldl_cons, List.foldl_nil]
    have i1 := setCol_idx d _ hd a (s.resampleD meanSkip) (by rw [resampleD_index, hs])
    have e1 : (d.setCol a (s.resampleD meanSkip)).setCol b (s.groupbyDate minSkip) = (d.setCol a (s.resampleD meanSkip)).setCol b (s.resampleD minSkip) := by
      apply setCol_congr (setCol_cols_ne _ _ _)
      intro t ht
      rw [i1] at ht
      obtain ⟨x, hx, rfl⟩ := List.mem_map.1 ht
      exact groupby_resample rfl s (by rw [hs]; exact hx)
    rw [e1]
    have i2 := setCol_idx (d.setCol a (s.resampleD meanSkip)) _ (.inr i1) b (s.resampleD minSkip) (by rw [resampleD_index, hs])
    apply setCol_congr (setCol_cols_ne _ _ _)
    intro t ht
    rw [i2] at ht
    obtain ⟨x, hx, rfl⟩ := List.mem_map.1 ht
    exact groupby_resample rfl s (by rw [hs]; exact hx)

/-- the stages of `daily_from_hourly` -/
structure Stage (K : Type) where
  source : String
  cs : List (String × (Series (XF K) → Series (XF K)))

/-- one after the other -/
def runStages (df : Frame K) (d : Frame K) (l : List (Stage K)) : Frame K := l.foldl (fun d st => stage d (df.col? st.source) st.cs) d

/-- the six stages -/
def stages : List (Stage K) := [⟨"temp", rsTemp⟩, ⟨"precip", csPrecip⟩, ⟨"glob", csGlob⟩, ⟨"hum", rsHum⟩, ⟨"wind", csWind⟩, ⟨"ssd", csSsd⟩]

theorem stages_idx : ∀ st ∈ (stages : List (Stage K)), ∀ c ∈ st.cs, ∀ s : Series (XF K), Series.index (c.2 s) = (Series.daySpan s.index).map midnight := by
  intro st hst c hc s
  simp only [stages, List.mem_cons, List.not_mem_nil, or_false] at hst
  rcases hst with rfl | rfl | rfl | rfl | rfl | rfl <;>
    simp only [rsTemp, rsHum, csPrecip, csGlob, csWind, List.mem_cons, List.not_mem_nil, or_false] at hc
  · rcases hc with rfl | rfl | rfl <;> exact resampleD_index _ _
  · subst hc; exact resampleD_index _ _
  · subst hc; exact resampleD_index _ _
  · rcases hc with rfl | rfl | rfl <;> exact resampleD_index _ _
  · subst hc; exact resampleD_index _ _
  · simp only [csSsd, List.mem_cons, List.not_mem_nil, or_false] at hc
    subst hc
    rw [← resampleD_index sumSkip s]
    simp [Series.index, Function.comp_def]

theorem runStages_idx {df : Frame K} (hwf : df.WF) {l : List (Stage K)} (hl : ∀ st ∈ l, st ∈ (stages : List (Stage K))) :
    ∀ {d : Frame K}, FrameIdx d ((Series.daySpan df.index).map midnight) → FrameIdx (runStages df d l) ((Series.daySpan df.index).map midnight) := by
  induction l with
  | nil => intro d hd; exact hd
  | cons st l ih =>
    intro d hd
    unfold runStages
    rw [List.foldl_cons]
    refine ih (fun x hx => hl x (List.mem_cons_of_mem _ hx)) (stage_idx hd ?_)
    intro s hs c hc
    rw [stages_idx st (hl st (List.mem_cons_self ..)) c hc s, col?_index hwf hs]

theorem runStages_other {df : Frame K} (name : String) {l : List (Stage K)} :
    ∀ {d : Frame K}, (∀ st ∈ l, (df.col? st.source).isSome → ∀ c ∈ st.cs, c.1 ≠ name) → (runStages df d l).col? name = d.col? name := by
  induction l with
  | nil => intro d _; rfl
  | cons st l ih =>
    intro d h
    unfold runStages
    rw [List.foldl_cons]
    have := ih (d := stage d (df.col? st.source) st.cs) fun x hx => h x (List.mem_cons_of_mem _ hx)
    unfold runStages at this
    rw [this]
    cases e : df.col? st.source with
    | none => rfl
    | some s => exact foldl_setCol_other _ s d name (h st (List.mem_cons_self ..) (by rw [e]; rfl))

theorem dailyFromHourly_run (df : Frame K) (hwf : df.WF) : dailyFromHourly df = runStages df ⟨[], []⟩ stages := by
  rw [dailyFromHourly_stages]
  have hi : ∀ name s, df.col? name = some s → s.index = df.index := fun name s h => col?_index hwf h
  have i0 : FrameIdx (⟨[], []⟩ : Frame K) ((Series.daySpan df.index).map midnight) := .inl rfl
  rw [show (csTemp : List (String × (Series (XF K) → Series (XF K)))) = [("temp", Series.resampleD meanSkip), ("tmin", Series.groupbyDate minSkip),
    ("tmax", Series.groupbyDate maxSkip)] from rfl, stage3_eq i0 _ (fun s h => hi _ s h)]
  rw [show (csHum : List (String × (Series (XF K) → Series (XF K)))) = [("hum", Series.resampleD meanSkip), ("hum_min", Series.groupbyDate minSkip),
    ("hum_max", Series.groupbyDate maxSkip)] from rfl]
  have i3 := runStages_idx hwf (l := [⟨"temp", rsTemp⟩, ⟨"precip", csPrecip⟩, ⟨"glob", csGlob⟩]) (by simp [stages]) i0
  have := stage3_eq i3 (df.col? "hum") (fun s h => hi _ s h) "hum" "hum_min" "hum_max"
  unfold runStages at this
  simp only [List.foldl_cons, List.foldl_nil] at this
  unfold rsTemp at this
  rw [this]
  rfl

/-- the column of every stage -/
theorem dailyFromHourly_col_any (df : Frame K) (hwf : df.WF) (pre post : List (Stage K)) (st : Stage K) (e : stages = pre ++ st :: post) {s : Series (XF K)}
    (hs : df.col? st.source = some s) (hp : st.cs.Pairwise fun a b => b.1 ≠ a.1)
    (ho : ∀ a ∈ st.cs.map Prod.fst, ∀ b ∈ post.flatMap fun st => st.cs.map Prod.fst, b ≠ a) :
    ∀ c ∈ st.cs, (dailyFromHourly df).col? c.1 = some (c.2 s) := by
  intro c hc
  have hst : st ∈ (stages : List (Stage K)) := by rw [e]; simp
  have hpre : ∀ x ∈ pre, x ∈ (stages : List (Stage K)) := by intro x hx; rw [e]; simp [hx]
  have i0 : FrameIdx (⟨[], []⟩ : Frame K) ((Series.daySpan df.index).map midnight) := .inl rfl
  have i1 := runStages_idx hwf hpre i0
  rw [dailyFromHourly_run df hwf, e]
  unfold runStages at i1 ⊢
  rw [List.foldl_append, List.foldl_cons]
  have := runStages_other (df := df) c.1 (l := post) (d := stage (List.foldl (fun d st => stage d (df.col? st.source) st.cs) ⟨[], []⟩ pre) (df.col? st.source) st.cs)
    (fun st' h' _ c' hc' => ho c.1 (List.mem_map_of_mem hc) c'.1 (List.mem_flatMap.2 ⟨st', h', List.mem_map_of_mem hc'⟩))
  unfold runStages at this
  rw [this, hs]
  refine foldl_setCol_same st.cs s _ _ ?_ i1 ?_ hp c hc
  · refine List.Nodup.map ?_ (daySpan_nodup _)
    intro a b h
    unfold midnight at h
    omega
  · intro c' hc'
    rw [stages_idx st hst c' hc' s, col?_index hwf hs]

end Melodist
