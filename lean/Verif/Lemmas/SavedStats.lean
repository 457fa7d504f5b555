import Verif.Props.StatisticsState
import Verif.Props.TemperatureShift
import Verif.Lemmas.RadiationFit
import Verif.Props.Json
import Verif.Props.Sun

/-!
# Lemmas: what the `calc_…` methods leave in a statistics object can be exported
-/

set_option linter.unusedSectionVars false

namespace Melodist
open Spec

namespace StatsObj

/-! ## Tables of parameters -/

theorem setRow_labels (tab : List (Int × XF ℝ)) (m : Int) (x : XF ℝ) :
    (setRow tab m x).map Prod.fst = if m ∈ tab.map Prod.fst then tab.map Prod.fst else tab.map Prod.fst ++ [m] := by
  have hiff : (tab.any fun r => r.1 == m) = true ↔ m ∈ tab.map Prod.fst := by
    rw [List.any_eq_true, List.mem_map]
    constructor
    · rintro ⟨r, hr, e⟩; exact ⟨r, hr, by simpa using e⟩
    · rintro ⟨r, hr, e⟩; exact ⟨r, hr, by simpa using e⟩
  unfold setRow
  by_cases h : m ∈ tab.map Prod.fst
  · rw [if_pos (hiff.2 h), if_pos h, List.map_map]
    apply List.map_congr_left
    intro r _
    by_cases e : r.1 = m
    · simp [e]
    · simp [e]
  · rw [if_neg (fun c => h (hiff.1 c)), if_neg h, List.map_append]
    rfl

/-- the two columns have the same, unique labels -/
def Labelled (t : List (Int × XF ℝ) × List (Int × XF ℝ)) : Prop := t.1.map Prod.fst = t.2.map Prod.fst ∧ (t.1.map Prod.fst).Nodup

theorem setRow_labelled {t : List (Int × XF ℝ) × List (Int × XF ℝ)} (h : Labelled t) (m : Int) (x y : XF ℝ) :
    Labelled (setRow t.1 m x, setRow t.2 m y) := by
  refine ⟨?_, ?_⟩
  · dsimp only
    rw [setRow_labels, setRow_labels, h.1]
  · dsimp only
    rw [setRow_labels]
    split
    · exact h.2
    · rename_i hm
      exact List.nodup_append.2 ⟨h.2, List.nodup_singleton _, fun a ha b hb => by
        rw [List.mem_singleton.1 hb]; rintro rfl; exact hm ha⟩

theorem setRows_labelled (ab : XF ℝ × XF ℝ) : ∀ (months : List Int) {t : List (Int × XF ℝ) × List (Int × XF ℝ)}, Labelled t →
    Labelled (setRows months ab t)
  | [], _, h => h
  | m :: ms, t, h => by
    have e : setRows (m :: ms) ab t = setRows ms ab (setRow t.1 m ab.1, setRow t.2 m ab.2) := rfl
    rw [e]
    exact setRows_labelled ab ms (setRow_labelled h m _ _)

theorem fitLoop_labelled {fit : List FitRow → Py (XF ℝ × XF ℝ)} {rows : List Int → List FitRow} : ∀ (ranges : List (List Int))
    {t : List (Int × XF ℝ) × List (Int × XF ℝ)}, Labelled t → Labelled (fitLoop fit rows ranges t).1
  | [], _, h => h
  | g :: rest, t, h => by
    unfold fitLoop
    cases fit (rows g) with
    | error e => exact h
    | ok ab => exact fitLoop_labelled rest (setRows_labelled ab g h)

theorem fitRadiation_labelled (angFit bcFit : List FitRow → Py (XF ℝ × XF ℝ)) (s : StatsObj) (f : Frame ℝ) (dayLength : Option (Series (XF ℝ)))
    (how : String) (pot obs : Series (XF ℝ)) (h1 : Labelled (s.obj.glob.angA, s.obj.glob.angB)) (h2 : Labelled (s.obj.glob.bcA, s.obj.glob.bcC)) :
    Labelled ((fitRadiation angFit bcFit s f dayLength how pot obs).1.obj.glob.angA, (fitRadiation angFit bcFit s f dayLength how pot obs).1.obj.glob.angB) ∧
    Labelled ((fitRadiation angFit bcFit s f dayLength how pot obs).1.obj.glob.bcA, (fitRadiation angFit bcFit s f dayLength how pot obs).1.obj.glob.bcC) ∧
    (fitRadiation angFit bcFit s f dayLength how pot obs).1.obj.glob.course = s.obj.glob.course := by
  have hb : ∀ (s : StatsObj) left, Labelled (s.obj.glob.angA, s.obj.glob.angB) → Labelled (s.obj.glob.bcA, s.obj.glob.bcC) →
      Labelled ((bcPart bcFit s f left pot obs).1.obj.glob.angA, (bcPart bcFit s f left pot obs).1.obj.glob.angB) ∧
      Labelled ((bcPart bcFit s f left pot obs).1.obj.glob.bcA, (bcPart bcFit s f left pot obs).1.obj.glob.bcC) ∧
      (bcPart bcFit s f left pot obs).1.obj.glob.course = s.obj.glob.course := by
    intro s left h1 h2
    unfold bcPart
    cases f.col? "tmin" with
    | none => exact ⟨h1, h2, rfl⟩
    | some a =>
      cases f.col? "tmax" with
      | none => exact ⟨h1, h2, rfl⟩
      | some b =>
        dsimp only
        refine ⟨h1, ?_, rfl⟩
        exact fitLoop_labelled left h2
  by_cases hs : f.col? "ssd" = none ∨ dayLength = none
  · rw [fitRadiation_nossd hs]
    exact hb _ _ h1 h2
  · rw [not_or] at hs
    obtain ⟨ssd, hssd⟩ := Option.ne_none_iff_exists'.1 hs.1
    obtain ⟨dl, rfl⟩ := Option.ne_none_iff_exists'.1 hs.2
    rw [fitRadiation_ssd hssd]
    have ha : Labelled (angLoop angFit s how (fitFrame ssd dl pot obs)).1 := fitLoop_labelled _ h1
    cases (angLoop angFit s how (fitFrame ssd dl pot obs)).2 with
    | some e => exact ⟨ha, h2, rfl⟩
    | none =>
      dsimp only
      exact hb (withAng s _) _ ha h2

/-! ## Mean courses -/

theorem fullCourse_mean {s : Series (XF ℝ)} (h : ∀ m : Int, 1 ≤ m → m ≤ 12 → ∃ t ∈ s.index, monthOf t = m) (normalize : Bool) :
    FullCourse (meanDailyCourseByMonth s normalize) := by
  have hm : (meanDailyCourseByMonth s normalize).months =
      ((List.range 12).map fun (k : Nat) => (k : Int) + 1).filter fun m => s.any fun r => monthOf r.1 == m := by
    unfold meanDailyCourseByMonth; cases normalize <;> rfl
  have hh : (meanDailyCourseByMonth s normalize).hours =
      ((List.range 24).map fun (k : Nat) => (k : Int)).filter fun h => s.any fun r => hourOf r.1 == h := by
    unfold meanDailyCourseByMonth; cases normalize <;> rfl
  refine ⟨?_, ?_, ?_⟩
  · rw [hm]; exact List.Nodup.filter _ (by decide)
  · rw [hh]; exact List.Nodup.filter _ (by decide)
  · intro m hmem
    have hr : 1 ≤ m ∧ m ≤ 12 := by
      simp only [List.mem_cons, List.not_mem_nil, or_false] at hmem
      omega
    obtain ⟨t, ht, e⟩ := h m hr.1 hr.2
    obtain ⟨r, hr', rfl⟩ := List.mem_map.1 ht
    rw [hm, List.mem_filter]
    exact ⟨List.mem_map.2 ⟨(m - 1).toNat, List.mem_range.2 (by omega), by omega⟩, List.any_eq_true.2 ⟨r, hr', by simpa using e⟩⟩

/-! ## The table of humidity means -/

theorem table_length {f : Frame ℝ} {t : CatMeans ℝ}
    (h : ∀ c s, f.col? c = some s → ∀ m : Int, 1 ≤ m → m ≤ 12 → ∃ t ∈ s.index, monthOf t = m)
    (ht : monthHourPrecipMean f = .ok t) : t.length ≠ 1 := by
  unfold monthHourPrecipMean at ht
  cases hp : f.attr "precip" with
  | error e => rw [hp] at ht; cases ht
  | ok precip =>
    rw [hp, py_ok_bind] at ht
    dsimp only at ht
    cases hh : f.attr "hum" with
    | error e => rw [hh] at ht; cases ht
    | ok hum =>
      rw [hh, py_ok_bind] at ht
      have hi : f.col? "hum" = some hum := by
        unfold Frame.attr at hh
        cases hc : f.col? "hum" with
        | none => rw [hc] at hh; cases hh
        | some c => rw [hc] at hh; exact congrArg some (Except.ok.inj hh)
      have e := Except.ok.inj ht
      intro h1
      rw [← e, List.length_map] at h1
      obtain ⟨k, hk⟩ := List.length_eq_one_iff.1 h1
      have key : ∀ r ∈ hum, monthOf r.1 = k.1 := by
        intro r hr
        have : (monthOf r.1, hourOf r.1, decide (XF.lt (.fin 0) ((((precip.resampleD sumSkip).at? (midnight (dayOf r.1)))).getD .nan))) ∈
            [k] := by
          rw [← hk, List.mem_dedup, List.map_map]
          exact List.mem_map.2 ⟨r, hr, rfl⟩
        rw [← List.mem_singleton.1 this]
      obtain ⟨t1, ht1, e1⟩ := h _ _ hi 1 (by norm_num) (by norm_num)
      obtain ⟨t2, ht2, e2⟩ := h _ _ hi 2 (by norm_num) (by norm_num)
      obtain ⟨r1, hr1, rfl⟩ := List.mem_map.1 ht1
      obtain ⟨r2, hr2, rfl⟩ := List.mem_map.1 ht2
      have := key r1 hr1
      have := key r2 hr2
      omega

/-! ## The shifts -/

theorem hourOf_le (t : Time) : hourOf t ≤ 23 := by
  unfold hourOf
  have : t % DAY < DAY := Int.emod_lt_of_pos _ (by decide)
  have h : DAY = 24 * HOUR := by decide
  have hh : HOUR = 3600000000 := by decide
  rw [h, hh] at *
  omega

theorem mean_le {l : List ℝ} {B : ℝ} (h : ∀ x ∈ l, x ≤ B) (hne : l ≠ []) : l.sum / (l.length : ℝ) ≤ B := by
  have hs : ∀ l : List ℝ, (∀ x ∈ l, x ≤ B) → l.sum ≤ l.length * B := by
    intro l hl
    induction l with
    | nil => simp
    | cons a l ih =>
      have h1 := hl a (List.mem_cons_self ..)
      have h2 := ih fun x hx => hl x (List.mem_cons_of_mem _ hx)
      rw [List.sum_cons, List.length_cons]
      push_cast
      linarith
  have hp : (0 : ℝ) < l.length := by
    have := List.length_pos_of_ne_nil hne
    exact_mod_cast this
  rw [div_le_iff₀ hp, mul_comm]
  exact hs l h

theorem noon_ge (t : Int) {lon lat tz : ℝ} (h : lon / 15 - tz ≤ 40) : ∃ noon : ℝ, (sunTimesDoy (doyOf t) lon lat tz).sunnoon = .fin noon ∧ -30 ≤ noon := by
  obtain ⟨rise, noon, set, D, e, -, -, -, h2, -⟩ := C09_sun_times_consistent t lon lat tz
  refine ⟨noon, ?_, ?_⟩
  · have := congrArg (fun l => l.map fun r : Time × SunTimes => r.2.sunnoon) e
    simpa [getSunTimes] using this
  · have := (abs_le.1 h2).1
    linarith

/-- a cell that is missing or at most `B` -/
def AtMost (B : ℝ) (c : XF ℝ) : Prop := c = .nan ∨ ∃ x : ℝ, c = .fin x ∧ x ≤ B

theorem meanSkip_atMost {B : ℝ} {l : List (XF ℝ)} (h : ∀ c ∈ l, AtMost B c) : AtMost B (meanSkip l) := by
  have hn : ∀ c ∈ l, c.NanOrFin := by
    intro c hc
    rcases h c hc with rfl | ⟨x, rfl, _⟩ <;> exact trivial
  by_cases e : numbers l = []
  · left
    apply meanSkip_nan
    intro c hc
    rcases h c hc with rfl | ⟨x, rfl, _⟩
    · rfl
    · have : x ∈ numbers l := by
        unfold numbers
        exact List.mem_filterMap.2 ⟨_, hc, rfl⟩
      rw [e] at this
      cases this
  · right
    refine ⟨_, meanSkip_eq hn e, mean_le ?_ e⟩
    intro x hx
    unfold numbers at hx
    obtain ⟨c, hc, e⟩ := List.mem_filterMap.1 hx
    rcases h c hc with rfl | ⟨y, rfl, hy⟩
    · cases e
    · cases e; exact hy

theorem shift_atMost (temp : Series (XF ℝ)) {lon lat tz : ℝ} (h : lon / 15 - tz ≤ 40) : ∀ e ∈ getShiftByData temp lon lat tz, AtMost 60 e.2 := by
  intro e he
  unfold getShiftByData at he
  dsimp only at he
  obtain ⟨m, -, rfl⟩ := List.mem_map.1 he
  apply meanSkip_atMost
  intro c hc
  obtain ⟨r, hr, rfl⟩ := List.mem_map.1 hc
  obtain ⟨d, -, rfl⟩ := List.mem_map.1 (List.mem_filter.1 hr).1
  dsimp only
  cases hf : firstMaxHour temp d with
  | none => left; unfold hourCell; dsimp only; rfl
  | some k =>
    have hk : k ≤ 23 := by
      unfold firstMaxHour at hf
      obtain ⟨r, -, e⟩ := Option.map_eq_some_iff.1 hf
      rw [← e]
      exact hourOf_le _
    unfold hourCell
    dsimp only
    cases ha : (getSunTimes (Series.index (temp.resampleD meanSkip)) lon lat tz).at? (midnight d) with
    | none => left; rfl
    | some st =>
      unfold Series.at? at ha
      obtain ⟨q, hq, e⟩ := Option.map_eq_some_iff.1 ha
      have hq := List.mem_of_find?_eq_some hq
      unfold getSunTimes at hq
      obtain ⟨t, -, rfl⟩ := List.mem_map.1 hq
      obtain ⟨noon, e2, hn⟩ := noon_ge t (lat := lat) h
      right
      refine ⟨(k : ℝ) - noon, ?_, ?_⟩
      · rw [← e]
        simp only [Option.map_some, Option.getD_some]
        rw [e2]; rfl
      · have : (k : ℝ) ≤ 23 := by exact_mod_cast hk
        linarith

theorem shift_labels (temp : Series (XF ℝ)) (lon lat tz : ℝ) : ((getShiftByData temp lon lat tz).map Prod.fst).Nodup := by
  unfold getShiftByData
  dsimp only
  rw [List.map_map]
  show (List.map id _).Nodup
  rw [List.map_id]
  exact List.Nodup.filter _ (by decide)

end StatsObj

end Melodist
