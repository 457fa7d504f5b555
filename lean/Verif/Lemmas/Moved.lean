import Verif.Model.Temperature
import Verif.Model.Radiation
import Verif.Model.Precip
import Verif.Lemmas.Series
import Mathlib.Data.List.Sort

/-!
# Moving all timestamps by whole days
-/
set_option linter.unusedSectionVars false

namespace Melodist
variable {V W : Type} {K : Type}

theorem dayOf_moved (t k : Int) : dayOf (t + k * DAY) = dayOf t + k := by unfold dayOf; omega
theorem hourOf_moved (t k : Int) : hourOf (t + k * DAY) = hourOf t := by unfold hourOf; omega
theorem minuteOf_moved (t k : Int) : minuteOf (t + k * DAY) = minuteOf t := by unfold minuteOf; omega
theorem midnight_moved (d k : Int) : midnight (d + k) = midnight d + k * DAY := by unfold midnight; omega

/-- a sequence of steps that each commute with moving -/
theorem bind_moved {A A' B B' : Type} {x : Py A} {x' : Py A'} {f : A → Py B} {f' : A' → Py B'} {s : A → A'} {g : B → B'}
    (hx : x' = x.map s) (hf : ∀ a, x = .ok a → f' (s a) = (f a).map g) : (x' >>= f') = (x >>= f).map g := by
  subst hx
  cases x with
  | error e => rfl
  | ok a => exact hf a rfl

theorem mapM_congr_mem {A B : Type} {f g : A → Py B} : ∀ {l : List A}, (∀ a ∈ l, f a = g a) → l.mapM f = l.mapM g := by
  intro l
  induction l with
  | nil => intro _; rfl
  | cons a l ih =>
    intro h
    rw [List.mapM_cons, List.mapM_cons, h a (by simp), ih fun b hb => h b (by simp [hb])]

theorem mapM_map_eq {A B C : Type} (f : B → Py C) (g : A → B) (l : List A) : (l.map g).mapM f = l.mapM (fun a => f (g a)) := by
  induction l with
  | nil => rfl
  | cons a l ih => rw [List.map_cons, List.mapM_cons, List.mapM_cons, ih]

/-- `mapM` with a map on the results -/
theorem mapM_post {A B C : Type} (f : A → Py B) (g : B → C) (l : List A) : l.mapM (fun a => (f a).map g) = (l.mapM f).map (List.map g) := by
  induction l with
  | nil => rfl
  | cons a l ih =>
    rw [List.mapM_cons, List.mapM_cons, ih]
    cases f a with
    | error e => rfl
    | ok b =>
      cases l.mapM f with
      | error e => rfl
      | ok bs => rfl

theorem map_id_py {A : Type} (x : Py A) : x.map (fun a => a) = x := by cases x <;> rfl

/-! ## series -/

theorem moved_index (s : Series V) (k : Int) : (s.shiftDays k).index = s.index.map (· + k * DAY) := by
  simp [Series.shiftDays, Series.index, Function.comp_def]

theorem moved_values (s : Series V) (k : Int) : (s.shiftDays k).values = s.values := by
  simp [Series.shiftDays, Series.values, Function.comp_def]

theorem moved_at? (s : Series V) (k t : Int) : (s.shiftDays k).at? (t + k * DAY) = s.at? t := by
  induction s with
  | nil => rfl
  | cons r s ih =>
    unfold Series.at? Series.shiftDays at ih ⊢
    simp only [List.map_cons, List.find?_cons]
    have : (r.1 + k * DAY == t + k * DAY) = (r.1 == t) := by
      rw [Bool.eq_iff_iff]; simp
    rw [this]
    cases r.1 == t
    · simpa using ih
    · rfl

theorem moved_asof? (s : Series V) (k t : Int) : (s.shiftDays k).asof? (t + k * DAY) = (s.asof? t).map fun r => (r.1 + k * DAY, r.2) := by
  unfold Series.asof? Series.shiftDays
  rw [List.filter_map]
  have : ((fun r : Time × V => decide (r.1 ≤ t + k * DAY)) ∘ fun r : Time × V => (r.1 + k * DAY, r.2)) = fun r : Time × V => decide (r.1 ≤ t) := by
    funext r; simp only [Function.comp_def]; rw [decide_eq_decide]; omega
  rw [this, List.getLast?_map]

theorem sorted_moved (l : List Time) (k : Int) : (l.map (· + k * DAY)).Pairwise (· < ·) ↔ l.Pairwise (· < ·) := by
  rw [List.pairwise_map]
  constructor <;> intro h <;> refine h.imp ?_ <;> intro a b hab <;> omega

theorem nodup_moved (l : List Time) (k : Int) : (l.map (· + k * DAY)).Nodup ↔ l.Nodup :=
  List.nodup_map_iff fun a b h => by simpa using h

theorem moved_reindex (s : Series (XF K)) (idx : List Time) (k : Int) :
    (s.shiftDays k).reindex (idx.map (· + k * DAY)) = (s.reindex idx).map (Series.shiftDays · k) := by
  unfold Series.reindex
  simp only [moved_index, nodup_moved]
  split
  · simp [Except.map, Series.shiftDays, Function.comp_def]
    intro t _
    have := moved_at? s k t
    unfold Series.shiftDays at this
    rw [this]
  · rfl

theorem moved_inexact (idx : List Time) (src t k : Int) :
    Series.inexactCount (idx.map (· + k * DAY)) (src + k * DAY) (t + k * DAY) = Series.inexactCount idx src t := by
  unfold Series.inexactCount
  rw [List.filter_map, List.length_map]
  congr 1
  apply List.filter_congr
  intro x _
  simp only [Function.comp_def]
  congr 1 <;> rw [decide_eq_decide] <;> omega

theorem moved_reindexFfill (s : Series (XF K)) (idx : List Time) (limit : Option Nat) (k : Int) :
    (s.shiftDays k).reindexFfill (idx.map (· + k * DAY)) limit = (s.reindexFfill idx limit).map (Series.shiftDays · k) := by
  unfold Series.reindexFfill
  simp only [moved_index, sorted_moved]
  split
  · simp only [Except.map, Series.shiftDays, List.map_map]
    congr 1
    apply List.map_congr_left
    intro t _
    simp only [Function.comp_def]
    have h := moved_asof? s k t
    unfold Series.shiftDays at h
    rw [h]
    cases s.asof? t with
    | none => rfl
    | some r =>
      obtain ⟨t0, v⟩ := r
      simp only [Option.map_some]
      cases limit with
      | none => rfl
      | some l => simp only [moved_inexact]
  · simp only [Except.map, List.pairwise_map, gt_iff_lt, add_lt_add_iff_right]

theorem dateRange_moved (a b step k : Int) : dateRange (a + k * DAY) (b + k * DAY) step = (dateRange a b step).map (· + k * DAY) := by
  unfold dateRange
  have : b + k * DAY - (a + k * DAY) = b - a := by omega
  rw [this]
  by_cases h : b < a
  · rw [if_pos h, if_pos (by omega)]; rfl
  · rw [if_neg h, if_neg (by omega), List.map_map]
    apply List.map_congr_left
    intro i _
    simp only [Function.comp_def]; omega

theorem min?_moved (l : List Time) (c : Int) : (l.map (· + c)).min? = l.min?.map (· + c) := by
  cases h : l.min? with
  | none => rw [List.min?_eq_none_iff] at h; subst h; rfl
  | some m =>
    rw [List.min?_eq_some_iff] at h
    simp only [Option.map_some]
    rw [List.min?_eq_some_iff]
    refine ⟨List.mem_map.2 ⟨m, h.1, rfl⟩, ?_⟩
    intro x hx
    obtain ⟨y, hy, rfl⟩ := List.mem_map.1 hx
    have := h.2 y hy
    omega

theorem max?_moved (l : List Time) (c : Int) : (l.map (· + c)).max? = l.max?.map (· + c) := by
  cases h : l.max? with
  | none => rw [List.max?_eq_none_iff] at h; subst h; rfl
  | some m =>
    rw [List.max?_eq_some_iff] at h
    simp only [Option.map_some]
    rw [List.max?_eq_some_iff]
    refine ⟨List.mem_map.2 ⟨m, h.1, rfl⟩, ?_⟩
    intro x hx
    obtain ⟨y, hy, rfl⟩ := List.mem_map.1 hx
    have := h.2 y hy
    omega

theorem contains_moved (l : List Int) (x c : Int) : (l.map (· + c)).contains (x + c) = l.contains x := by
  rw [Bool.eq_iff_iff, List.contains_iff_mem, List.contains_iff_mem, List.mem_map]
  constructor
  · rintro ⟨y, hy, h⟩; have : y = x := by omega
    rw [← this]; exact hy
  · intro h; exact ⟨x, h, rfl⟩

theorem moved_hourlyIndex (api : PandasApi) (idx : List Time) (b : Bool) (k : Int) :
    hourlyIndex api (idx.map (· + k * DAY)) b = (hourlyIndex api idx b).map (List.map (· + k * DAY)) := by
  unfold hourlyIndex
  rw [min?_moved, max?_moved]
  cases idx.min? with
  | none => rfl
  | some lo =>
    cases idx.max? with
    | none => rfl
    | some hi =>
      simp only [Option.map_some]
      have hr : replaceHour (hi + k * DAY) 23 = replaceHour hi 23 + k * DAY := by unfold replaceHour dayOf; omega
      rw [hr, dateRange_moved, List.length_map, List.length_map]
      split
      · unfold needs
        cases api.indexToDatetime
        · rfl
        · cases api.pdDatetime
          · rfl
          · simp only [if_true, bind, Except.bind, Except.map]
            congr 1
            rw [List.filter_map]
            have e : ((fun t => ((idx.map (· + k * DAY)).map dayOf).contains (dayOf t)) ∘ (· + k * DAY)) = fun t => (idx.map dayOf).contains (dayOf t) := by
              funext t
              simp only [Function.comp_def]
              have : (idx.map (· + k * DAY)).map dayOf = (idx.map dayOf).map (· + k) := by
                simp [Function.comp_def, dayOf_moved]
              rw [this, dayOf_moved, contains_moved]
            rw [e, List.map_map, List.map_map]
            apply List.map_congr_left
            intro t _
            simp only [Function.comp_def, dayOf_moved, hourOf_moved]
            unfold stamp; omega
      · rfl

theorem moved_daySpan (idx : List Time) (k : Int) : Series.daySpan (idx.map (· + k * DAY)) = (Series.daySpan idx).map (· + k) := by
  unfold Series.daySpan
  have : (idx.map (· + k * DAY)).map dayOf = (idx.map dayOf).map (· + k) := by simp [Function.comp_def, dayOf_moved]
  rw [this, min?_moved, max?_moved]
  cases (idx.map dayOf).min? with
  | none => rfl
  | some a =>
    cases (idx.map dayOf).max? with
    | none => rfl
    | some b =>
      simp only [Option.map_some, List.map_map]
      have : b + k - (a + k) = b - a := by omega
      rw [this]
      apply List.map_congr_left
      intro i _; simp only [Function.comp_def]; omega

theorem moved_onDay (s : Series V) (k d : Int) : (s.shiftDays k).onDay (d + k) = s.onDay d := by
  unfold Series.onDay Series.shiftDays
  rw [List.filter_map, List.map_map]
  have : ((fun r : Time × V => dayOf r.1 == d + k) ∘ fun r : Time × V => (r.1 + k * DAY, r.2)) = fun r : Time × V => dayOf r.1 == d := by
    funext r; simp only [Function.comp_def, dayOf_moved]; rw [Bool.eq_iff_iff]; simp
  rw [this]
  rfl

theorem moved_resampleD (agg : List V → W) (s : Series V) (k : Int) : (s.shiftDays k).resampleD agg = (s.resampleD agg).shiftDays k := by
  unfold Series.resampleD
  rw [moved_index, moved_daySpan, List.map_map]
  unfold Series.shiftDays
  rw [List.map_map]
  apply List.map_congr_left
  intro d _
  simp only [Function.comp_def]
  rw [midnight_moved]
  have := moved_onDay s k d
  unfold Series.shiftDays at this
  rw [this]

theorem insertionSort_moved (l : List Time) (c : Int) : (l.map (· + c)).insertionSort (· ≤ ·) = (l.insertionSort (· ≤ ·)).map (· + c) := by
  induction l with
  | nil => rfl
  | cons a l ih =>
    rw [List.map_cons, List.insertionSort_cons, List.insertionSort_cons, ih]
    generalize l.insertionSort (· ≤ ·) = m
    induction m with
    | nil => rfl
    | cons b m ihm =>
      rw [List.map_cons, List.orderedInsert, List.orderedInsert]
      by_cases h : a ≤ b
      · rw [if_pos h, if_pos (by omega)]; rfl
      · rw [if_neg h, if_neg (by omega), ihm]; rfl

theorem moved_index_eq (a b : List Time) (k : Int) : (a.map (· + k * DAY) = b.map (· + k * DAY)) ↔ a = b :=
  ⟨fun h => List.map_injective_iff.2 (fun x y hxy => by simpa using hxy) h, fun h => by rw [h]⟩

theorem moved_align (f : XF K → XF K → XF K) (a b : Series (XF K)) (k : Int) :
    Series.align f (a.shiftDays k) (b.shiftDays k) = (Series.align f a b).map (Series.shiftDays · k) := by
  unfold Series.align
  simp only [moved_index, moved_index_eq, nodup_moved]
  split
  · simp only [Except.map, Series.shiftDays]
    congr 1
    rw [List.map_zipWith, List.zipWith_map]
  · split
    · simp only [Except.map]
      congr 1
      rw [← List.map_append, List.dedup_map_of_injective (fun x y h => by simpa using h), insertionSort_moved]
      conv_rhs => unfold Series.shiftDays
      rw [List.map_map, List.map_map]
      apply List.map_congr_left
      intro t _
      simp only [Function.comp_def, moved_at?]
    · rfl

theorem moved_alignLeft (f : XF K → XF K → XF K) (a b : Series (XF K)) (k : Int) :
    Series.alignLeft f (a.shiftDays k) (b.shiftDays k) = (Series.alignLeft f a b).map (Series.shiftDays · k) := by
  unfold Series.alignLeft
  refine bind_moved (moved_align f a b k) ?_
  intro r _
  simp only [moved_index, moved_index_eq]
  split
  · rfl
  · exact moved_reindex r a.index k

theorem moved_make (idx : List Time) (l : List V) (k : Int) : Series.make (idx.map (· + k * DAY)) l = (Series.make idx l).map (Series.shiftDays · k) := by
  unfold Series.make
  rw [List.length_map]
  split
  · simp only [Except.map, Series.shiftDays]
    congr 1
    rw [List.zip_map_left]
    rfl
  · rfl

theorem moved_shiftRows (s : Series (XF K)) (m k : Int) : (s.shiftDays k).shiftRows m = (s.shiftRows m).shiftDays k := by
  unfold Series.shiftRows
  rw [moved_values]
  unfold Series.shiftDays
  rw [List.zipIdx_map, List.map_map, List.map_map]
  rfl

theorem moved_locAll (s : Series V) (idx : List Time) (k : Int) : (s.shiftDays k).locAll (idx.map (· + k * DAY)) = (s.locAll idx).map (Series.shiftDays · k) := by
  unfold Series.locAll Series.shiftDays
  rw [mapM_map_eq, ← mapM_post]
  apply mapM_congr_mem
  intro t _
  have := moved_at? s k t
  unfold Series.shiftDays at this
  rw [this]
  cases s.at? t <;> rfl

/-- the values of the hours of equally distributed daily values do not depend on the dates -/
theorem moved_daily (d0 : Int) (n : Nat) (v : Nat → V) (k : Int) : Series.shiftDays (Spec.dailyS d0 n v) k = Spec.dailyS (d0 + k) n v := by
  unfold Spec.dailyS Series.shiftDays
  rw [List.map_map]
  apply List.map_congr_left
  intro i _
  simp only [Function.comp_def]
  congr 1
  unfold Spec.at00; omega

theorem moved_hourly (d0 : Int) (n : Nat) (f : Nat → Nat → V) (k : Int) : Series.shiftDays (Spec.hourlyS d0 n f) k = Spec.hourlyS (d0 + k) n f := by
  unfold Spec.hourlyS Series.shiftDays
  rw [List.map_map]
  apply List.map_congr_left
  intro i _
  simp only [Function.comp_def]
  congr 1
  unfold Spec.atHour; omega

/-! ## frames -/

/-- the frame with all timestamps moved by `k` days -/
def Frame.moved (f : Frame K) (k : Int) : Frame K := { f with index := f.index.map (· + k * DAY) }

theorem moved_col? (f : Frame K) (name : String) (k : Int) : (f.moved k).col? name = (f.col? name).map (Series.shiftDays · k) := by
  unfold Frame.col? Frame.moved
  cases f.cols.find? fun c => c.1 == name with
  | none => rfl
  | some c =>
    simp only [Option.map_some, Series.shiftDays]
    rw [List.zip_map_left]
    rfl

theorem moved_attr (f : Frame K) (name : String) (k : Int) : (f.moved k).attr name = (f.attr name).map (Series.shiftDays · k) := by
  unfold Frame.attr
  rw [moved_col?]
  cases f.col? name <;> rfl

theorem moved_has (f : Frame K) (name : String) (k : Int) : (f.moved k).has name = f.has name := rfl

end Melodist
