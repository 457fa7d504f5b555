import Verif.Spec.Units
import Verif.Model.Temperature
import Verif.Lemmas.Humidity

/-!
# Lemmas on changes of units (C97)
-/

set_option linter.unusedSectionVars false

namespace Melodist
open Spec

section cells
variable {K : Type} [Field K] [LinearOrder K] [IsStrictOrderedRing K] {s c : K}

@[simp] theorem inUnits_nan : inUnits s c .nan = .nan := rfl
@[simp] theorem inUnits_fin (x : K) : inUnits s c (.fin x) = .fin (s * x + c) := rfl
@[simp] theorem inUnits_pinf : inUnits s c .pinf = .pinf := rfl
@[simp] theorem inUnits_ninf : inUnits s c .ninf = .ninf := rfl

theorem infOfSign_mul (hs : 0 < s) (x : K) : XF.infOfSign (s * x) = XF.infOfSign x := by
  unfold XF.infOfSign
  have h : s * x < 0 ↔ x < 0 := by
    constructor
    · intro h; by_contra hx; exact absurd (mul_nonneg hs.le (not_lt.1 hx)) (not_le.2 h)
    · exact fun h => mul_neg_of_pos_of_neg hs h
  simp only [hs, mul_pos_iff_of_pos_left, h]

theorem infOfSign_units (x : K) : inUnits s 0 (XF.infOfSign x) = XF.infOfSign x := by
  unfold XF.infOfSign
  split
  · rfl
  · split <;> rfl

theorem units_sub (hs : 0 < s) (a b : XF K) : inUnits s c b - inUnits s c a = inUnits s 0 (b - a) := by
  cases a <;> cases b <;> try rfl
  simp; ring

theorem units_add (hs : 0 < s) (a b : XF K) : inUnits s c a + inUnits s 0 b = inUnits s c (a + b) := by
  cases a <;> cases b <;> try rfl
  simp; ring

theorem units_add' (hs : 0 < s) (a b : XF K) : inUnits s 0 b + inUnits s c a = inUnits s c (b + a) := by
  cases a <;> cases b <;> try rfl
  simp; ring

theorem units_mul (hs : 0 < s) (a b : XF K) : inUnits s 0 a * b = inUnits s 0 (a * b) := by
  cases a <;> cases b <;> try rfl
  · exact (infOfSign_units _).symm
  · show XF.infOfSign (-(s * _ + 0)) = inUnits s 0 (XF.infOfSign (-_))
    rw [infOfSign_units, add_zero, ← mul_neg, infOfSign_mul hs]
  · simp; ring
  · show XF.infOfSign (s * _ + 0) = inUnits s 0 (XF.infOfSign _)
    rw [infOfSign_units, add_zero, infOfSign_mul hs]
  · exact (infOfSign_units _).symm

theorem units_mul' (hs : 0 < s) (a b : XF K) : b * inUnits s 0 a = inUnits s 0 (b * a) := by
  have comm : ∀ x y : XF K, x * y = y * x := by
    intro x y
    cases x <;> cases y <;> try rfl
    simp; ring
  rw [comm, units_mul hs, comm]

theorem units_div (hs : 0 < s) (a : XF K) (b : XF K) : inUnits s 0 a / b = inUnits s 0 (a / b) := by
  cases a with
  | nan => cases b <;> rfl
  | fin x =>
    cases b with
    | nan => rfl
    | fin y =>
      by_cases h : y = 0
      · subst h
        show (.fin (s * x + 0) / .fin 0 : XF K) = inUnits s 0 (.fin x / .fin 0)
        rw [XF.fin_div_fin, XF.fin_div_fin, if_pos rfl, if_pos rfl, infOfSign_units, add_zero, infOfSign_mul hs]
      · simp [h]; ring
    | pinf => show (.fin 0 : XF K) = inUnits s 0 (.fin 0); simp
    | ninf => show (.fin 0 : XF K) = inUnits s 0 (.fin 0); simp
  | pinf =>
    cases b with
    | fin y =>
      show (if y < 0 then XF.ninf else XF.pinf) = inUnits s 0 (if y < 0 then XF.ninf else XF.pinf)
      split <;> rfl
    | _ => rfl
  | ninf =>
    cases b with
    | fin y =>
      show (if y < 0 then XF.pinf else XF.ninf) = inUnits s 0 (if y < 0 then XF.pinf else XF.ninf)
      split <;> rfl
    | _ => rfl

end cells

/-! ### series with changed values -/

/-- apply a function to the values of a series -/
def onValues {V W : Type} (φ : V → W) (s : Series V) : Series W := s.map fun r => (r.1, φ r.2)

section maps
variable {V W : Type} (φ : V → W)

theorem onValues_index (s : Series V) : Series.index (onValues φ s) = s.index := by
  simp [onValues, Series.index, Function.comp_def]

theorem onValues_values (s : Series V) : Series.values (onValues φ s) = s.values.map φ := by
  simp [onValues, Series.values, Function.comp_def]

theorem onValues_filter (p : Time → Bool) (s : Series V) :
    (onValues φ s).filter (fun r => p r.1) = onValues φ (s.filter fun r => p r.1) := by
  simp [onValues, List.filter_map, Function.comp_def]

theorem onValues_at? (s : Series V) (t : Time) : Series.at? (onValues φ s) t = (s.at? t).map φ := by
  unfold Series.at? onValues
  rw [List.find?_map]
  simp [Function.comp_def]

theorem onValues_asof? (s : Series V) (t : Time) : Series.asof? (onValues φ s) t = (s.asof? t).map fun r => (r.1, φ r.2) := by
  unfold Series.asof?
  rw [onValues_filter φ (fun u => decide (u ≤ t))]
  simp [onValues]

theorem onValues_shiftDays (s : Series V) (k : Int) : Series.shiftDays (onValues φ s) k = onValues φ (s.shiftDays k) := by
  simp [Series.shiftDays, onValues]

variable {K : Type} (ψ : XF K → XF K) (hψ : ψ .nan = .nan)
include hψ

theorem onValues_getD (s : Series (XF K)) (t : Time) : ((onValues ψ s).at? t).getD .nan = ψ ((s.at? t).getD .nan) := by
  rw [onValues_at?]
  cases s.at? t with
  | none => simp [hψ]
  | some x => simp

theorem onValues_reindexFfill (s : Series (XF K)) (idx : List Time) (limit : Option Nat) :
    Series.reindexFfill (onValues ψ s) idx limit = (Series.reindexFfill s idx limit).map (onValues ψ) := by
  unfold Series.reindexFfill
  rw [onValues_index]
  split
  · simp only [Except.map, onValues, List.map_map]
    congr 1
    apply List.map_congr_left
    intro t _
    rw [show (List.map (fun r : Time × XF K => (r.1, ψ r.2)) s) = onValues ψ s from rfl, onValues_asof?]
    simp only [Function.comp_def]
    cases s.asof? t with
    | none => simp [hψ]
    | some r =>
      simp only [Option.map_some]
      cases limit with
      | none => rfl
      | some l => by_cases hl : Series.inexactCount idx r.1 t ≤ l <;> simp [hl, hψ]
  · rfl

end maps

/-! ### sums, means and extremes -/

section stats
variable {K : Type} [Field K] [LinearOrder K] [IsStrictOrderedRing K] {s c : K}

theorem inUnits_isNan (x : XF K) : (inUnits s c x).isNan = x.isNan := by cases x <;> rfl

theorem filter_units (l : List (XF K)) : (l.map (inUnits s c)).filter (fun x => !x.isNan) = (l.filter fun x => !x.isNan).map (inUnits s c) := by
  rw [List.filter_map]
  congr 1
  apply List.filter_congr
  intro x _
  simp [inUnits_isNan]

theorem countValid_units (l : List (XF K)) : countValid (l.map (inUnits s c)) = countValid l := by
  unfold countValid
  rw [filter_units, List.length_map]

theorem units_add2 (c d : K) (a b : XF K) : inUnits s c a + inUnits s d b = inUnits s (c + d) (a + b) := by
  cases a <;> cases b <;> try rfl
  simp; ring

theorem sumCells_units (l : List (XF K)) : sumCells (l.map (inUnits s c)) = inUnits s ((l.length : K) * c) (sumCells l) := by
  induction l with
  | nil => simp [sumCells]
  | cons x l ih =>
    simp only [List.map_cons, sumCells, ih, units_add2]
    congr 1
    push_cast [List.length_cons]
    ring

theorem sumSkip_units (l : List (XF K)) : sumSkip (l.map (inUnits s 0)) = inUnits s 0 (sumSkip l) := by
  unfold sumSkip
  rw [filter_units, sumCells_units, mul_zero]

theorem meanSkip_units (l : List (XF K)) : meanSkip (l.map (inUnits s c)) = inUnits s c (meanSkip l) := by
  unfold meanSkip
  rw [countValid_units]
  split
  · rfl
  · rename_i h
    have hn : ((countValid l : Nat) : K) ≠ 0 := by exact_mod_cast h
    unfold sumSkip
    rw [filter_units, sumCells_units]
    rw [show (l.filter fun x => !x.isNan).length = countValid l from rfl]
    cases sumCells (l.filter fun x => !x.isNan) with
    | nan => rfl
    | pinf => show (if _ then _ else _) = inUnits s c (if _ then _ else _); split <;> rfl
    | ninf => show (if _ then _ else _) = inUnits s c (if _ then _ else _); split <;> rfl
    | fin x =>
      simp only [inUnits, XF.fin_div_fin_of_ne _ hn]
      congr 1
      field_simp

theorem lt_units (hs : 0 < s) (a b : XF K) : XF.lt (inUnits s c a) (inUnits s c b) ↔ XF.lt a b := by
  cases a <;> cases b <;> try exact Iff.rfl
  simp [inUnits, hs]

theorem feq_units (hs : 0 < s) (a b : XF K) : XF.feq (inUnits s c a) (inUnits s c b) ↔ XF.feq a b := by
  cases a <;> cases b <;> try exact Iff.rfl
  simp [inUnits, hs.ne']

theorem minSkip_units (hs : 0 < s) (l : List (XF K)) : minSkip (l.map (inUnits s c)) = inUnits s c (minSkip l) := by
  induction l with
  | nil => rfl
  | cons x l ih =>
    simp only [List.map_cons, minSkip, ih, inUnits_isNan, lt_units hs]
    split
    · rfl
    · split
      · rfl
      · split <;> rfl

theorem maxSkip_units (hs : 0 < s) (l : List (XF K)) : maxSkip (l.map (inUnits s c)) = inUnits s c (maxSkip l) := by
  induction l with
  | nil => rfl
  | cons x l ih =>
    simp only [List.map_cons, maxSkip, ih, inUnits_isNan, lt_units hs]
    split
    · rfl
    · split
      · rfl
      · split <;> rfl

theorem units_div_div (hs : 0 < s) (a b : XF K) : inUnits s 0 a / inUnits s 0 b = a / b := by
  cases b with
  | nan => simp
  | fin y =>
    have hy : s * y + 0 < 0 ↔ y < 0 := by rw [add_zero]; exact ⟨fun h => by by_contra hn; exact absurd h (not_lt.2 (mul_nonneg hs.le (not_lt.1 hn))), fun h => mul_neg_of_pos_of_neg hs h⟩
    cases a with
    | nan => rfl
    | fin x =>
      simp only [inUnits, add_zero, XF.fin_div_fin, mul_eq_zero, hs.ne', false_or]
      split
      · rw [infOfSign_mul hs]
      · congr 1; field_simp
    | pinf => show (if s * y + 0 < 0 then _ else _) = (if y < 0 then _ else _); simp only [hy]
    | ninf => show (if s * y + 0 < 0 then _ else _) = (if y < 0 then _ else _); simp only [hy]
  | pinf => cases a <;> rfl
  | ninf => cases a <;> rfl

end stats

/-! ### the table of a sine course -/

/-- a row in other units -/
noncomputable def LocRow.units (s c : ℝ) (r : LocRow) : LocRow :=
  { r with
    minBefore := inUnits s c r.minBefore
    minCur := inUnits s c r.minCur
    minNext := inUnits s c r.minNext
    maxBefore := inUnits s c r.maxBefore
    maxCur := inUnits s c r.maxCur
    maxNext := inUnits s c r.maxNext
    meanCur := inUnits s c r.meanCur }

theorem attr_units {s c : ℝ} {f g : Frame ℝ} {name : String} (h : ColumnInUnits s c f g name) :
    g.attr name = (f.attr name).map (onValues (inUnits s c)) := by
  unfold Frame.attr
  rw [h]
  cases f.col? name <;> rfl

theorem locTable_units {s c : ℝ} {f g : Frame ℝ} (hi : g.index = f.index) (h1 : ColumnInUnits s c f g "tmin") (h2 : ColumnInUnits s c f g "tmax")
    (h3 : ColumnInUnits s c f g "temp") (mmt : String) (maxDelta : Option (List (Int × XF ℝ))) (sun : Option (Series SunTimes)) :
    locTable g mmt maxDelta sun = (locTable f mmt maxDelta sun).map (onValues (LocRow.units s c)) := by
  unfold locTable
  rw [hi, attr_units h1, attr_units h2, attr_units h3]
  cases minMaxLoc f.index mmt maxDelta sun with
  | error e => rfl
  | ok locs =>
    simp only [bind, Except.bind]
    cases locs.mapM fun p => p.1.toInt with
    | error e => rfl
    | ok a =>
      simp only
      cases locs.mapM fun p => p.2.toInt with
      | error e => rfl
      | ok b =>
        simp only
        cases f.attr "tmin" with
        | error e => rfl
        | ok tmin =>
          cases f.attr "tmax" with
          | error e => rfl
          | ok tmax =>
            cases f.attr "temp" with
            | error e => rfl
            | ok temp =>
              simp only [Except.map, onValues_shiftDays, onValues_getD (inUnits s c) rfl]
              congr 1
              unfold onValues
              rw [List.map_map]
              apply List.map_congr_left
              intro r _
              simp only [Function.comp_def, LocRow.units]
              congr 2 <;> split <;> rfl

theorem sineCell_units {s c : ℝ} (hs : 0 < s) (mn : Bool) (h : Int) (r : LocRow) :
    sineCell mn h (r.units s c) = inUnits s c (sineCell mn h r) := by
  have e1 : minValAt h (r.units s c) = inUnits s c (minValAt h r) := by unfold minValAt; show (if h < r.maxLoc then _ else _) = _; split <;> rfl
  have e2 : maxValAt h (r.units s c) = inUnits s c (maxValAt h r) := by unfold maxValAt; show (if h < r.minLoc then _ else _) = _; split <;> rfl
  have key : ∀ a b y : XF ℝ, inUnits s c a + (inUnits s c b - inUnits s c a) / .fin 2 + (inUnits s c b - inUnits s c a) / .fin 2 * y =
      inUnits s c (a + (b - a) / .fin 2 + (b - a) / .fin 2 * y) := by
    intro a b y
    rw [units_sub hs, units_div hs, units_mul hs, units_add hs, units_add hs]
  unfold sineCell
  simp only [e1, e2, key]
  cases mn with
  | false => rfl
  | true =>
    simp only [if_true]
    rw [show (r.units s c).maxLoc = r.maxLoc from rfl, show (r.units s c).minLoc = r.minLoc from rfl]
    by_cases g1 : r.maxLoc ≤ h
    · simp only [if_pos g1]
    · simp only [if_neg g1]
      by_cases g2 : r.minLoc < h ∧ h < r.maxLoc
      · simp only [if_pos g2]
      · simp only [if_neg g2]
        by_cases g3 : h ≤ r.minLoc
        · simp only [if_pos g3]
        · simp only [if_neg g3]; rfl

theorem sineMeanCell_units {s c : ℝ} (hs : 0 < s) (h : Int) (r : LocRow) : sineMeanCell h (r.units s c) = inUnits s c (sineMeanCell h r) := by
  unfold sineMeanCell
  simp only [LocRow.units]
  rw [units_sub hs, units_div hs, units_mul hs, units_add hs]

theorem sineTemperature_units {s c : ℝ} (hs : 0 < s) {f g : Frame ℝ} (hi : g.index = f.index) (h1 : ColumnInUnits s c f g "tmin")
    (h2 : ColumnInUnits s c f g "tmax") (h3 : ColumnInUnits s c f g "temp") (api : PandasApi) (idx : List Time) (m mmt : String) (mn : Bool)
    (md : Option (List (Int × XF ℝ))) (sun : Option (Series SunTimes)) :
    sineTemperature api g idx m mmt mn md sun = (sineTemperature api f idx m mmt mn md sun).map (onValues (inUnits s c)) := by
  unfold sineTemperature
  rw [locTable_units hi h1 h2 h3, hi]
  cases locTable f mmt md sun with
  | error e => rfl
  | ok loc =>
    simp only [Except.map, bind, Except.bind, onValues_index]
    by_cases hp : loc.index.Pairwise (· < ·)
    · simp only [hp, not_true, if_false]
      cases sun with
      | none => rfl
      | some sun =>
        simp only
        split
        · unfold polarBranch
          simp only [bind, Except.bind]
          cases hourlyIndex api _ with
          | error e => rfl
          | ok x => simp only; split <;> rfl
        · simp only [onValues, List.map_map]
          congr 1
          apply List.map_congr_left
          intro t _
          rw [show (List.map (fun r : Time × LocRow => (r.1, LocRow.units s c r.2)) loc) = onValues (LocRow.units s c) loc from rfl,
            onValues_asof?]
          simp only [Function.comp_def]
          cases loc.asof? t with
          | none => rfl
          | some r =>
            simp only [Option.map_some]
            split
            · rw [sineMeanCell_units hs]
            · rw [sineCell_units hs]
    · simp only [hp, not_false_eq_true, if_true]

theorem courseMinMax_units {s c : ℝ} (hs : 0 < s) {f g : Frame ℝ} (h1 : ColumnInUnits s c f g "tmin")
    (h2 : ColumnInUnits s c f g "tmax") (idx : List Time) (course : Option (MeanCourse ℝ)) :
    courseMinMax g idx course = (courseMinMax f idx course).map (onValues (inUnits s c)) := by
  unfold courseMinMax
  rw [attr_units h1, attr_units h2]
  cases course with
  | none => rfl
  | some course =>
    simp only [bind, Except.bind]
    cases idx.mapM fun t => course.lookup (monthOf t) (hourOf t) with
    | error e => rfl
    | ok norm =>
      cases f.attr "tmin" with
      | error e => rfl
      | ok tmin =>
        simp only [Except.map, onValues_reindexFfill (inUnits s c) rfl]
        cases tmin.reindexFfill idx (some 23) with
        | error e => rfl
        | ok a =>
          cases f.attr "tmax" with
          | error e => rfl
          | ok tmax =>
            simp only [onValues_reindexFfill (inUnits s c) rfl]
            cases tmax.reindexFfill idx (some 23) with
            | error e => rfl
            | ok b =>
              simp only [Except.map, onValues_values]
              congr 1
              rw [List.zip_map, List.zip_map_right, List.zip_map_right]
              simp only [onValues, List.map_map]
              apply List.map_congr_left
              intro r _
              simp only [Function.comp_def, Prod.map]
              rw [units_sub hs, units_mul' hs, units_add' hs]
              rfl

theorem courseMean_units {s c : ℝ} (hs : 0 < s) {f g : Frame ℝ} (h1 : ColumnInUnits s c f g "tmin")
    (h2 : ColumnInUnits s c f g "tmax") (h3 : ColumnInUnits s c f g "temp") (idx : List Time) (course : Option (MeanCourse ℝ)) :
    courseMean g idx course = (courseMean f idx course).map (onValues (inUnits s c)) := by
  unfold courseMean
  rw [attr_units h1, attr_units h2, attr_units h3]
  simp only [bind, Except.bind]
  cases f.attr "tmax" with
  | error e => rfl
  | ok tmax =>
    simp only [Except.map, onValues_reindexFfill (inUnits s c) rfl]
    cases tmax.reindexFfill idx (some 23) with
    | error e => rfl
    | ok a =>
      cases f.attr "tmin" with
      | error e => rfl
      | ok tmin =>
        simp only [onValues_reindexFfill (inUnits s c) rfl]
        cases tmin.reindexFfill idx (some 23) with
        | error e => rfl
        | ok b =>
          cases course with
          | none => rfl
          | some course =>
            simp only [Except.map]
            cases idx.mapM fun t => course.zeroMean.lookup (monthOf t) (hourOf t) with
            | error e => rfl
            | ok mc =>
              cases f.attr "temp" with
              | error e => rfl
              | ok temp =>
                simp only [onValues_reindexFfill (inUnits s c) rfl]
                cases temp.reindexFfill idx (some 23) with
                | error e => rfl
                | ok d =>
                  simp only [Except.map, onValues_values]
                  congr 1
                  rw [List.zip_map, List.zip_map, List.zip_map_right, List.zip_map_right]
                  simp only [onValues, List.map_map]
                  apply List.map_congr_left
                  intro r _
                  simp only [Function.comp_def, Prod.map]
                  rw [units_sub hs, units_mul hs, units_add hs]
                  rfl

theorem disaggregateTemperature_units {s c : ℝ} (hs : 0 < s) {f g : Frame ℝ} (hi : g.index = f.index) (h1 : ColumnInUnits s c f g "tmin")
    (h2 : ColumnInUnits s c f g "tmax") (h3 : ColumnInUnits s c f g "temp") (api : PandasApi) (m mmt : String) (mn : Bool)
    (md : Option (List (Int × XF ℝ))) (course : Option (MeanCourse ℝ)) (sun : Option (Series SunTimes)) :
    disaggregateTemperature api g m mmt mn md course sun =
      (disaggregateTemperature api f m mmt mn md course sun).map (onValues (inUnits s c)) := by
  unfold disaggregateTemperature
  rw [hi]
  split
  · rfl
  · simp only [bind, Except.bind]
    cases hourlyIndex api f.index with
    | error e => rfl
    | ok idx =>
      simp only
      split
      · exact sineTemperature_units hs hi h1 h2 h3 ..
      · split
        · exact courseMinMax_units hs h1 h2 ..
        · exact courseMean_units hs h1 h2 h3 ..

/-! ### statistics of hourly records -/

section hourly
variable {K : Type} [Field K] [LinearOrder K] [IsStrictOrderedRing K] {s c : K}

theorem rows_units (x : Series (XF K)) (p : Time → Bool) :
    ((seriesInUnits s c x).filter fun r => p r.1).map Prod.snd = ((x.filter fun r => p r.1).map Prod.snd).map (inUnits s c) := by
  rw [show seriesInUnits s c x = onValues (inUnits s c) x from rfl, onValues_filter]
  simp [onValues]

theorem any_units (x : Series (XF K)) (p : Time → Bool) : (seriesInUnits s c x).any (fun r => p r.1) = x.any fun r => p r.1 := by
  simp [seriesInUnits, List.any_map, Function.comp_def]

theorem index_units (x : Series (XF K)) : Series.index (seriesInUnits s c x) = x.index := onValues_index _ x

theorem course_units (x : Series (XF K)) : meanDailyCourseByMonth (seriesInUnits s c x) = courseInUnits s c (meanDailyCourseByMonth x) := by
  unfold meanDailyCourseByMonth courseInUnits
  simp only [Bool.false_eq_true, if_false]
  congr 1
  · exact List.filter_congr fun m _ => any_units x fun t => monthOf t == m
  · exact List.filter_congr fun m _ => any_units x fun t => hourOf t == m
  · funext m h
    rw [rows_units x (fun t => monthOf t == m && hourOf t == h), meanSkip_units]

theorem normalised_units (hs : 0 < s) (x : Series (XF K)) : meanDailyCourseByMonth (seriesInUnits s c x) true = meanDailyCourseByMonth x true := by
  have key := course_units (s := s) (c := c) x
  have e : ∀ y : Series (XF K), meanDailyCourseByMonth y true =
      { meanDailyCourseByMonth y with val := fun m h =>
        ((meanDailyCourseByMonth y).val m h - minSkip ((meanDailyCourseByMonth y).column m)) /
          (maxSkip ((meanDailyCourseByMonth y).column m) - minSkip ((meanDailyCourseByMonth y).column m)) } := fun _ => rfl
  have ec : ∀ (m : MeanCourse K) k, (courseInUnits s c m).column k = (m.column k).map (inUnits s c) := by
    intro m k; simp [MeanCourse.column, courseInUnits, Function.comp_def]
  rw [e, e, key]
  simp only [ec, minSkip_units hs, maxSkip_units hs]
  unfold courseInUnits
  simp only [units_sub hs, units_div_div hs]

theorem resampleD_units {agg : List (XF K) → XF K} (ha : ∀ l : List (XF K), agg (l.map (inUnits s c)) = inUnits s c (agg l)) (x : Series (XF K)) :
    Series.resampleD agg (seriesInUnits s c x) = seriesInUnits s c (x.resampleD agg) := by
  unfold Series.resampleD
  rw [index_units]
  simp only [seriesInUnits, List.map_map]
  apply List.map_congr_left
  intro d _
  simp only [Function.comp_def, ← ha]
  exact congrArg (fun l => (midnight d, agg l)) (rows_units (s := s) (c := c) x fun t => dayOf t == d)

theorem groupbyDate_units {agg : List (XF K) → XF K} (ha : ∀ l : List (XF K), agg (l.map (inUnits s c)) = inUnits s c (agg l)) (x : Series (XF K)) :
    Series.groupbyDate agg (seriesInUnits s c x) = seriesInUnits s c (x.groupbyDate agg) := by
  unfold Series.groupbyDate
  rw [index_units]
  have : ∀ d, (seriesInUnits s c x).any (fun r => dayOf r.1 == d) = x.any fun r => dayOf r.1 == d := fun d => any_units x fun t => dayOf t == d
  simp only [this]
  simp only [seriesInUnits, List.map_map]
  apply List.map_congr_left
  intro d _
  simp only [Function.comp_def, ← ha]
  exact congrArg (fun l => (midnight d, agg l)) (rows_units (s := s) (c := c) x fun t => dayOf t == d)

/-! ### frames -/

theorem frameInUnits_col (u : String → K × K) (f : Frame K) (name : String) :
    (frameInUnits u f).col? name = (f.col? name).map (seriesInUnits (u name).1 (u name).2) := by
  unfold Frame.col? frameInUnits
  simp only [List.find?_map, Function.comp_def, Option.map_map]
  cases h : f.cols.find? fun c => c.1 == name with
  | none => rfl
  | some col =>
    have hn : col.1 = name := by simpa using List.find?_some h
    simp only [Option.map_some, Function.comp_def, hn, Option.some.injEq]
    rw [List.zip_map_right]
    rfl

theorem setCol_units (u : String → K × K) (f : Frame K) (name : String) (x : Series (XF K)) :
    (frameInUnits u f).setCol name (seriesInUnits (u name).1 (u name).2 x) = frameInUnits u (f.setCol name x) := by
  unfold Frame.setCol
  have hc : ∀ t, ((seriesInUnits (u name).1 (u name).2 x).at? t).getD .nan = inUnits (u name).1 (u name).2 ((x.at? t).getD .nan) := fun t =>
    onValues_getD (inUnits (u name).1 (u name).2) rfl x t
  have h0 : (frameInUnits u f).cols.isEmpty = f.cols.isEmpty := by simp [frameInUnits]
  have hh : ∀ g : Frame K, (frameInUnits u g).has name = g.has name := by
    intro g; simp [Frame.has, frameInUnits, List.any_map, Function.comp_def]
  simp only [h0, index_units, hc]
  have hf : (if f.cols.isEmpty = true then { frameInUnits u f with index := x.index } else frameInUnits u f : Frame K) =
      frameInUnits u (if f.cols.isEmpty = true then { f with index := x.index } else f) := by
    split <;> rfl
  simp only [hf, hh]
  generalize (if f.cols.isEmpty = true then ({ f with index := x.index } : Frame K) else f) = g
  split
  · unfold frameInUnits
    simp only [List.map_map]
    congr 1
    apply List.map_congr_left
    intro col _
    simp only [Function.comp_def]
    split <;> simp [Function.comp_def]
  · unfold frameInUnits
    simp [Function.comp_def]

theorem dailyFromHourly_units {u : String → K × K} (hp : ∀ n, 0 < (u n).1) (h1 : u "tmin" = u "temp") (h2 : u "tmax" = u "temp")
    (h3 : u "hum_min" = u "hum") (h4 : u "hum_max" = u "hum") (h5 : (u "precip").2 = 0) (h6 : (u "ssd").2 = 0) (f : Frame K) :
    dailyFromHourly (frameInUnits u f) = frameInUnits u (dailyFromHourly f) := by
  have hmean : ∀ n (x : Series (XF K)), Series.resampleD meanSkip (seriesInUnits (u n).1 (u n).2 x) = seriesInUnits (u n).1 (u n).2 (x.resampleD meanSkip) :=
    fun n x => resampleD_units meanSkip_units x
  have hmin : ∀ n (x : Series (XF K)), Series.groupbyDate minSkip (seriesInUnits (u n).1 (u n).2 x) = seriesInUnits (u n).1 (u n).2 (x.groupbyDate minSkip) :=
    fun n x => groupbyDate_units (minSkip_units (hp n)) x
  have hmax : ∀ n (x : Series (XF K)), Series.groupbyDate maxSkip (seriesInUnits (u n).1 (u n).2 x) = seriesInUnits (u n).1 (u n).2 (x.groupbyDate maxSkip) :=
    fun n x => groupbyDate_units (maxSkip_units (hp n)) x
  have hsum : ∀ n, (u n).2 = 0 → ∀ (x : Series (XF K)), Series.resampleD sumSkip (seriesInUnits (u n).1 (u n).2 x) = seriesInUnits (u n).1 (u n).2 (x.resampleD sumSkip) := by
    intro n h0 x
    rw [h0]
    exact resampleD_units sumSkip_units x
  have hdiv : ∀ x : Series (XF K), (seriesInUnits (u "ssd").1 (u "ssd").2 x).map (fun r => (r.1, r.2 / .fin 60)) =
      seriesInUnits (u "ssd").1 (u "ssd").2 (x.map fun r => (r.1, r.2 / .fin 60)) := by
    intro x
    simp only [seriesInUnits, List.map_map, h6]
    apply List.map_congr_left
    intro r _
    simp only [Function.comp_def, units_div (hp "ssd")]
  have nil : (⟨[], []⟩ : Frame K) = frameInUnits u ⟨[], []⟩ := rfl
  unfold dailyFromHourly
  simp only [frameInUnits_col]
  have t1 := setCol_units u (name := "tmin")
  have t2 := setCol_units u (name := "tmax")
  have t3 := setCol_units u (name := "hum_min")
  have t4 := setCol_units u (name := "hum_max")
  rw [h1] at t1
  rw [h2] at t2
  rw [h3] at t3
  rw [h4] at t4
  conv_lhs => rw [nil]
  cases f.col? "temp" <;> cases f.col? "precip" <;> cases f.col? "glob" <;> cases f.col? "hum" <;> cases f.col? "wind" <;> cases f.col? "ssd" <;>
    simp only [Option.map_none, Option.map_some, t1, t2, t3, t4, hmean, hmin, hmax, hsum _ h5, hsum _ h6, hdiv, setCol_units]

end hourly

theorem getShiftByData_units {s c : ℝ} (hs : 0 < s) (x : Series (XF ℝ)) (lon lat tz : ℝ) :
    getShiftByData (seriesInUnits s c x) lon lat tz = getShiftByData x lon lat tz := by
  have hf : ∀ d, firstMaxHour (seriesInUnits s c x) d = firstMaxHour x d := by
    intro d
    unfold firstMaxHour
    rw [show seriesInUnits s c x = onValues (inUnits s c) x from rfl, onValues_filter _ (fun t => dayOf t == d)]
    simp only [onValues_values, maxSkip_units hs]
    unfold onValues
    rw [List.find?_map]
    simp only [Function.comp_def, feq_units hs, Option.map_map]
  unfold getShiftByData
  simp only [hf, index_units, resampleD_units meanSkip_units]

end Melodist
