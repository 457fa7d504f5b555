import Verif.Lemmas.LocalityB
import Verif.Props.Wind
import Verif.Props.Humidity
import Verif.Props.Radiation
import Verif.Props.RadiationModels
import Verif.Props.Master
import Verif.Lemmas.Calendar
import Verif.Model.Precip

/-!
# C100: what a day's hourly wind, humidity, radiation and precipitation depend on
-/

set_option linter.unusedSectionVars false

namespace Melodist
open Spec

section general
variable {K : Type} [Field K] [LinearOrder K]

theorem covers_series {s : Series (XF K)} {d0 : Int} {n : Nat} (h : Covers s.index d0 n) : ∃ v, s = dailyS d0 n v :=
  dailyS_eq_of_index (f := fun _ => ()) (by rw [dailyS_index]; exact h)

theorem same_at {V : Type} {d0 d0' : Int} {n n' : Nat} {v v' : Nat → V} {i i' : Nat} (hi : i < n) (hi' : i' < n') (e : d0 + (i : Int) = d0' + (i' : Int))
    (h : Series.at? (dailyS d0 n v) (at00 (d0 + i)) = Series.at? (dailyS d0' n' v') (at00 (d0 + i))) : v i = v' i' := by
  rw [dailyS_at? d0 v hi, e, dailyS_at? d0' v' hi'] at h
  exact Option.some.inj h

end general

noncomputable section

/-! ## wind -/

theorem wind_run {api : PandasApi} {draw : Nat → ℝ} {d0 : Int} {n : Nat} (hn : 0 < n) {v : Nat → XF ℝ} {method : String} {a b t : Option ℝ} {r : WindResult}
    (h : disaggregateWind api draw (dailyS d0 n v) method a b t = .ok r) :
    (method = "equal" ∧ r = .series (hourlyS d0 n fun i _ => v i)) ∨
    (method = "cosine" ∧ ∃ a' b' t', a = some a' ∧ b = some b' ∧ t = some t' ∧
      r = .array (Series.values (hourlyS d0 n fun i h => cosineCell a' b' t' (v i) (h : Int)))) ∨
    (method = "random" ∧ r = .series (hourlyS d0 n fun i h => v i * XF.powPos 0.3 (-(XF.log (.fin (draw (24 * i + h))))))) := by
  by_cases h1 : method = "equal"
  · subst h1
    rw [C32_wind_equal api draw d0 n hn] at h
    cases h
    exact .inl ⟨rfl, rfl⟩
  by_cases h2 : method = "cosine"
  · subst h2
    cases a with
    | none => unfold disaggregateWind at h; rw [distributeEqually_daily api d0 hn] at h; cases h
    | some a =>
      cases b with
      | none => unfold disaggregateWind at h; rw [distributeEqually_daily api d0 hn] at h; cases h
      | some b =>
        cases t with
        | none => unfold disaggregateWind at h; rw [distributeEqually_daily api d0 hn] at h; cases h
        | some t =>
          rw [wind_cosine api draw d0 n hn] at h
          cases h
          exact .inr (.inl ⟨rfl, a, b, t, rfl, rfl, rfl, rfl⟩)
  by_cases h3 : method = "random"
  · subst h3
    rw [wind_random api draw d0 n hn] at h
    cases h
    exact .inr (.inr ⟨rfl, rfl⟩)
  · exfalso
    unfold disaggregateWind at h
    rw [if_pos (by tauto)] at h
    cases h

/-- **C100** (wind) Two daily series, possibly of different periods, with the same value on a common day `D`, the same options and, for 'random', the same
random numbers for the 24 hours of `D`: the wind speeds of `D` are the same. -/
theorem C100_wind {s s' : Series (XF ℝ)} {d0 d0' : Int} {n n' : Nat} (cs : Covers s.index d0 n) (cs' : Covers s'.index d0' n') {D : Int}
    (h1 : InPeriod d0 n D) (h2 : InPeriod d0' n' D) {api api' : PandasApi} {draw draw' : Nat → ℝ} {method : String} {a b t : Option ℝ}
    {r r' : WindResult} (hr : disaggregateWind api draw s method a b t = .ok r) (hr' : disaggregateWind api' draw' s' method a b t = .ok r')
    (hD : s.at? (at00 D) = s'.at? (at00 D))
    (hdraw : method = "random" → ∀ h < 24, draw (24 * (D - d0).toNat + h) = draw' (24 * (D - d0').toNat + h)) :
    windDay r d0 D = windDay r' d0' D := by
  obtain ⟨v, rfl⟩ := covers_series cs
  obtain ⟨v', rfl⟩ := covers_series cs'
  obtain ⟨i, hi, rfl⟩ := inPeriod_iff.1 h1
  obtain ⟨i', hi', e⟩ := inPeriod_iff.1 h2
  have hv := same_at hi hi' e hD
  have t1 : (d0 + (i : Int) - d0).toNat = i := by omega
  have t2 : (d0 + (i : Int) - d0').toNat = i' := by omega
  rw [t1, t2] at hdraw
  rcases wind_run (by omega) hr with ⟨rfl, rfl⟩ | ⟨rfl, x, y, z, rfl, rfl, rfl, rfl⟩ | ⟨rfl, rfl⟩
  · rcases wind_run (by omega) hr' with ⟨_, rfl⟩ | ⟨e', _⟩ | ⟨e', _⟩
    · exact (same_hours hi hi' e).2 fun _ _ => hv
    · exact absurd e' (by decide)
    · exact absurd e' (by decide)
  · rcases wind_run (by omega) hr' with ⟨e', _⟩ | ⟨_, x', y', z', e1, e2, e3, rfl⟩ | ⟨e', _⟩
    · exact absurd e' (by decide)
    · cases e1; cases e2; cases e3
      unfold windDay
      dsimp only
      rw [t1, t2, values_day d0 _ hi, values_day d0' _ hi', hv]
    · exact absurd e' (by decide)
  · rcases wind_run (by omega) hr' with ⟨e', _⟩ | ⟨e', _⟩ | ⟨_, rfl⟩
    · exact absurd e' (by decide)
    · exact absurd e' (by decide)
    · refine (same_hours hi hi' e).2 fun h hh => ?_
      rw [hv, hdraw rfl h hh]

/-- C100 (wind): day 1 of a three-day and of a two-day record -/
example (draw : Nat → ℝ) : ∃ r r', disaggregateWind .modern draw (dailyS 0 3 fun i => .fin (i + 1)) "cosine" (some 0.2) (some 1) (some 2) = .ok r ∧
    disaggregateWind .modern draw (dailyS 1 2 fun i => .fin (2 + 7 * i)) "cosine" (some 0.2) (some 1) (some 2) = .ok r' ∧
    windDay r 0 1 = windDay r' 1 1 := by
  refine ⟨_, _, wind_cosine .modern draw 0 3 (by omega) _ _ _ _, wind_cosine .modern draw 1 2 (by omega) _ _ _ _, ?_⟩
  refine C100_wind (s := dailyS 0 3 fun i => .fin (i + 1)) (s' := dailyS 1 2 fun i => .fin (2 + 7 * i)) (dailyS_index 0 3 _) (dailyS_index 1 2 _)
    (by unfold InPeriod; omega) (by unfold InPeriod; omega) (wind_cosine .modern draw 0 3 (by omega) _ _ _ _)
    (wind_cosine .modern draw 1 2 (by omega) _ _ _ _) ?_ (fun h => absurd h (by decide))
  rw [show at00 1 = at00 (0 + ((1 : Nat) : Int)) from rfl, dailyS_at? 0 _ (by omega),
    show at00 (0 + ((1 : Nat) : Int)) = at00 (1 + ((0 : Nat) : Int)) from rfl, dailyS_at? 1 _ (by omega)]
  norm_num

/-! ## humidity -/

theorem hum_run {api : PandasApi} {daily : Frame ℝ} (hw : daily.WF) {d0 : Int} {n : Nat} (hc : Covers daily.index d0 n) (hn : 0 < n) {method : String}
    {temp : Option (Series (XF ℝ))} {a0 a1 kr : Option ℝ} {table : Option (CatMeans ℝ)} {preserve : Bool}
    (ht : ∀ s, temp = some s → ∃ T, s = hourlyS d0 n T) {out : Series (XF ℝ)}
    (h : disaggregateHumidity api daily method temp a0 a1 kr table preserve = .ok out) :
    ∃ g, humidityRaw api daily method temp a0 a1 kr table = .ok (hourlyS d0 n g) ∧
      (preserve = false → out = hourlyS d0 n fun i h => (g i h).clip 0 100) ∧
      (preserve = true → ∃ v, daily.col? "hum" = some (dailyS d0 n v) ∧ out = hourlyS d0 n fun i h => (g i h - humBias (g i) (v i)).clip 0 100) := by
  have h' := h
  unfold disaggregateHumidity at h'
  obtain ⟨s, hs, h'⟩ := py_bind_inv h'
  obtain ⟨g, rfl⟩ := raw_shape hn (fun name s hs => covers_col hw hc hs) ht hs
  obtain ⟨f1, f2⟩ := hum_finish hs
  refine ⟨g, hs, ?_, ?_⟩
  · rintro rfl
    rw [f1] at h
    cases h
    rfl
  · rintro rfl
    rcases covers_col? hw hc "hum" with e | ⟨v, e⟩
    · exfalso
      simp only [if_true] at h'
      unfold preserveDailyMean at h'
      rw [attr_missing e] at h'
      cases h'
    · rw [f2 hn v e] at h
      cases h
      exact ⟨v, e, rfl⟩

/-- **C100** (humidity) Two daily tables, possibly of different periods, hourly temperatures that are the same on a common day `D`, the same options, both
runs successful.  If the tables agree on `D` the relative humidity of `D` is the same; 'linear_dewpoint_variation' needs agreement also
on the following day. -/
theorem C100_humidity {f g : Frame ℝ} (hf : f.WF) (hg : g.WF) {d0 d0' : Int} {n n' : Nat} (cf : Covers f.index d0 n) (cg : Covers g.index d0' n')
    {D : Int} (h1 : InPeriod d0 n D) (h2 : InPeriod d0' n' D) {api api' : PandasApi} {method : String} {T T' : Nat → Nat → XF ℝ}
    {a0 a1 kr : Option ℝ} {table : Option (CatMeans ℝ)} {preserve : Bool} {out out' : Series (XF ℝ)}
    (hT : dayCells (hourlyS d0 n T) D = dayCells (hourlyS d0' n' T') D)
    (ho : disaggregateHumidity api f method (some (hourlyS d0 n T)) a0 a1 kr table preserve = .ok out)
    (ho' : disaggregateHumidity api' g method (some (hourlyS d0' n' T')) a0 a1 kr table preserve = .ok out')
    (hD : SameOn f g D) (hnext : method = "linear_dewpoint_variation" → SameOn f g (D + 1)) : dayCells out D = dayCells out' D := by
  obtain ⟨i, hi, rfl⟩ := inPeriod_iff.1 h1
  obtain ⟨i', hi', e⟩ := inPeriod_iff.1 h2
  have hTT := (same_hours hi hi' e).1 hT
  obtain ⟨r, hr, q1, q2⟩ := hum_run hf cf (by omega) (fun s hs => ⟨T, (Option.some.inj hs).symm⟩) ho
  obtain ⟨r', hr', q1', q2'⟩ := hum_run hg cg (by omega) (fun s hs => ⟨T', (Option.some.inj hs).symm⟩) ho'
  have key : ∀ h < 24, r i h = r' i' h := by
    have inj1 : ∀ {c : Nat → Nat → XF ℝ}, hourlyS d0 n r = hourlyS d0 n c → ∀ h < 24, r i h = c i h := fun hc =>
      (same_hours (n' := n) hi hi rfl).1 (by rw [hc])
    have inj2 : ∀ {c : Nat → Nat → XF ℝ}, hourlyS d0' n' r' = hourlyS d0' n' c → ∀ h < 24, r' i' h = c i' h := fun hc =>
      (same_hours (n' := n') hi' hi' rfl).1 (by rw [hc])
    have injT : ∀ {c : Nat → Nat → XF ℝ}, some (hourlyS d0 n T) = some (hourlyS d0 n c) → ∀ h < 24, T i h = c i h := fun hc =>
      (same_hours (n' := n) hi hi rfl).1 (by rw [Option.some.inj hc])
    have injT' : ∀ {c : Nat → Nat → XF ℝ}, some (hourlyS d0' n' T') = some (hourlyS d0' n' c) → ∀ h < 24, T' i' h = c i' h := fun hc =>
      (same_hours (n' := n') hi' hi' rfl).1 (by rw [Option.some.inj hc])
    intro h hh
    rcases raw_formula hf cf (by omega) (fun s hs => ⟨T, (Option.some.inj hs).symm⟩) hr with
      ⟨m, v, c1, s1⟩ | ⟨m, v, U, a, b, ea, eb, c1, eT, s1⟩ | ⟨m, v, U, a, b, k, ea, eb, ek, c1, eT, s1⟩ |
      ⟨m, w1, w2, w3, w4, U, c1, c2, c3, c4, eT, s1⟩ | ⟨m, p, tab, c, etab, c1, hc, s1⟩ <;>
    rcases raw_formula hg cg (by omega) (fun s hs => ⟨T', (Option.some.inj hs).symm⟩) hr' with
      ⟨m', v', c1', s1'⟩ | ⟨m', v', U', a', b', ea', eb', c1', eT', s1'⟩ | ⟨m', v', U', a', b', k', ea', eb', ek', c1', eT', s1'⟩ |
      ⟨m', w1', w2', w3', w4', U', c1', c2', c3', c4', eT', s1'⟩ | ⟨m', p', tab', c', etab', c1', hc', s1'⟩ <;>
    first
    | (exfalso; rcases m with rfl | rfl <;> simp at m' <;> done)
    | (exfalso; subst m; simp at m'; done)
    | (rw [inj1 s1 h hh, inj2 s1' h hh])
    · exact same_cell c1 c1' hi hi' e (hD _)
    · rw [ea] at ea'; rw [eb] at eb'
      cases ea'; cases eb'
      rw [same_cell c1 c1' hi hi' e (hD _), ← injT eT h hh, ← injT' eT' h hh, hTT h hh]
    · rw [ea] at ea'; rw [eb] at eb'; rw [ek] at ek'
      cases ea'; cases eb'; cases ek'
      have hv := same_cell c1 c1' hi hi' e (hD _)
      have hx := (same_next c1 c1' hi hi' e (hD _) (hnext m _))
      have hx2 : (if i + 1 < n then XF.fin a + XF.fin b * v (i + 1) else XF.fin a + XF.fin b * v i) =
          (if i' + 1 < n' then XF.fin a + XF.fin b * v' (i' + 1) else XF.fin a + XF.fin b * v' i') := by
        obtain ⟨x1, x2⟩ := hx
        unfold nextDay at x2
        by_cases hb : i + 1 < n
        · rw [if_pos hb, if_pos (x1.1 hb)] at x2 ⊢
          rw [x2]
        · rw [if_neg hb, if_neg (fun hc => hb (x1.2 hc)), hv]
      unfold linTdew
      dsimp only
      rw [hx2, hv, ← injT eT h hh, ← injT' eT' h hh, hTT h hh]
    · rw [same_cell c1 c1' hi hi' e (hD _), same_cell c2 c2' hi hi' e (hD _), same_cell c3 c3' hi hi' e (hD _), same_cell c4 c4' hi hi' e (hD _),
        ← injT eT h hh, ← injT' eT' h hh, hTT h hh]
    · rw [etab] at etab'
      cases etab'
      obtain ⟨x, hx, ex⟩ := hc i hi h hh
      obtain ⟨x', hx', ex'⟩ := hc' i' hi' h hh
      have hk : catKey d0 p i h = catKey d0' p' i' h := by
        unfold catKey
        rw [same_cell c1 c1' hi hi' e (hD _), e]
      rw [hk, hx'] at hx
      cases hx
      rw [← ex, ← ex']
  cases preserve with
  | false =>
    rw [q1 rfl, q1' rfl, same_hours hi hi' e]
    intro h hh
    rw [key h hh]
  | true =>
    obtain ⟨v, hv, rfl⟩ := q2 rfl
    obtain ⟨v', hv', rfl⟩ := q2' rfl
    rw [same_hours hi hi' e]
    intro h hh
    have hb : humBias (r i) (v i) = humBias (r' i') (v' i') := by
      unfold humBias
      rw [day24_congr key, same_cell hv hv' hi hi' e (hD _)]
    rw [key h hh, hb]

/-- C100 (humidity): two tables that agree on their first day only -/
example : ∃ out out', disaggregateHumidity .modern ⟨[at00 0, at00 1], [("tmin", [.fin 5, .fin 6])]⟩ "minimal"
      (some (hourlyS 0 2 fun _ h => .fin (10 + h))) none none none none false = .ok out ∧
    disaggregateHumidity .modern ⟨[at00 0, at00 1, at00 2], [("tmin", [.fin 5, .fin 1, .nan])]⟩ "minimal"
      (some (hourlyS 0 3 fun i h => .fin (10 + h + 3 * i))) none none none none false = .ok out' ∧
    dayCells out 0 = dayCells out' 0 := by
  have r1 := raw_minimal .modern (⟨[at00 0, at00 1], [("tmin", [.fin 5, .fin 6])]⟩ : Frame ℝ) none none none none 0 2 (by omega)
    (fun i => if i = 0 then .fin 5 else .fin 6) (fun _ h => .fin (10 + h)) rfl
  have r2 := raw_minimal .modern (⟨[at00 0, at00 1, at00 2], [("tmin", [.fin 5, .fin 1, .nan])]⟩ : Frame ℝ) none none none none 0 3 (by omega)
    (fun i => if i = 0 then .fin 5 else if i = 1 then .fin 1 else .nan) (fun i h => .fin (10 + h + 3 * i)) rfl
  refine ⟨_, _, (hum_finish r1).1, (hum_finish r2).1, ?_⟩
  refine C100_humidity (f := ⟨[at00 0, at00 1], [("tmin", [.fin 5, .fin 6])]⟩) (g := ⟨[at00 0, at00 1, at00 2], [("tmin", [.fin 5, .fin 1, .nan])]⟩)
    (d0 := 0) (d0' := 0) (n := 2) (n' := 3) ?_ ?_ rfl rfl (by unfold InPeriod; omega) (by unfold InPeriod; omega) ?_ (hum_finish r1).1 (hum_finish r2).1 ?_
    (fun h => absurd h (by decide))
  · intro c hc; simp at hc; subst hc; rfl
  · intro c hc; simp at hc; subst hc; rfl
  · refine (same_hours (d0 := 0) (d0' := 0) (i := 0) (i' := 0) (by omega) (by omega) rfl).2 fun h _ => ?_
    norm_num
  · intro name
    unfold cellOn Frame.col?
    by_cases hn : "tmin" = name
    · subst hn; rfl
    · simp [hn]

/-! ## radiation -/

theorem glob_col {api : PandasApi} {f : Frame ℝ} (hf : f.WF) {d0 : Int} {n : Nat} (cf : Covers f.index d0 n) (hn : 0 < n)
    {sun : Option (Series SunTimes)} {pot : Option (Series (XF ℝ))} {method : String} (hm : method = "pot_rad" ∨ method = "mean_course")
    {x y : ParPair ℝ} {course : Option (MeanCourse ℝ)} {out : Series (XF ℝ)} (ho : disaggregateRadiation api f sun pot method x y course = .ok out) :
    ∃ v, f.col? "glob" = some (dailyS d0 n v) := by
  rcases covers_col? hf cf "glob" with hnone | hsome
  · exfalso
    unfold disaggregateRadiation at ho
    rw [if_neg (by rcases hm with rfl | rfl <;> simp), temp_hourly_index api cf hn, py_ok_bind] at ho
    rcases hm with rfl | rfl
    · rw [if_neg (by decide)] at ho
      cases pot with
      | none => cases ho
      | some pot =>
        dsimp only at ho
        rw [if_pos rfl, attr_missing hnone] at ho
        cases ho
    · rw [if_pos rfl] at ho
      cases course with
      | none => cases ho
      | some c =>
        dsimp only at ho
        obtain ⟨_, _, ho⟩ := py_bind_inv ho
        rw [attr_missing hnone] at ho
        cases ho
  · exact hsome

/-- **C100** (radiation, 'pot_rad') A day's values depend on the daily value and the potential radiation of this day. -/
theorem C100_radiation {f g : Frame ℝ} (hf : f.WF) (hg : g.WF) {d0 d0' : Int} {n n' : Nat} (cf : Covers f.index d0 n) (cg : Covers g.index d0' n')
    {D : Int} (h1 : InPeriod d0 n D) (h2 : InPeriod d0' n' D) {api api' : PandasApi} {sun sun' : Option (Series SunTimes)} {p p' : Nat → Nat → XF ℝ}
    {angstr angstr' bc bc' : ParPair ℝ} {course course' : Option (MeanCourse ℝ)} {out out' : Series (XF ℝ)}
    (hp : dayCells (hourlyS d0 n p) D = dayCells (hourlyS d0' n' p') D)
    (ho : disaggregateRadiation api f sun (some (hourlyS d0 n p)) "pot_rad" angstr bc course = .ok out)
    (ho' : disaggregateRadiation api' g sun' (some (hourlyS d0' n' p')) "pot_rad" angstr' bc' course' = .ok out')
    (hD : SameOn f g D) : dayCells out D = dayCells out' D := by
  obtain ⟨i, hi, rfl⟩ := inPeriod_iff.1 h1
  obtain ⟨i', hi', e⟩ := inPeriod_iff.1 h2
  have hpp := (same_hours hi hi' e).1 hp
  obtain ⟨v, hv⟩ := glob_col hf cf (by omega) (.inl rfl) ho
  obtain ⟨v', hv'⟩ := glob_col hg cg (by omega) (.inl rfl) ho'
  have hvv := same_cell hv hv' hi hi' e (hD _)
  rw [potRad_eq api cf (by omega) hv] at ho
  rw [potRad_eq api' cg (by omega) hv'] at ho'
  cases ho; cases ho'
  rw [same_hours hi hi' e]
  intro h hh
  rw [lastValue_self hi, lastValue_self hi', hvv, hpp h hh, day24_congr hpp]

/-- **C100** (radiation, 'mean_course') A day's values depend on the daily value of this day and the course of its month (here: a table of all months and hours). -/
theorem C100_radiation_course {f g : Frame ℝ} (hf : f.WF) (hg : g.WF) {d0 d0' : Int} {n n' : Nat} (cf : Covers f.index d0 n) (cg : Covers g.index d0' n')
    {D : Int} (h1 : InPeriod d0 n D) (h2 : InPeriod d0' n' D) {api api' : PandasApi} {sun sun' : Option (Series SunTimes)}
    {pot pot' : Option (Series (XF ℝ))} {angstr angstr' bc bc' : ParPair ℝ} {c c' : MeanCourse ℝ} {out out' : Series (XF ℝ)}
    (hc : (∀ m : Int, 1 ≤ m → m ≤ 12 → m ∈ c.months) ∧ ∀ h : Nat, h < 24 → (h : Int) ∈ c.hours)
    (hc' : (∀ m : Int, 1 ≤ m → m ≤ 12 → m ∈ c'.months) ∧ ∀ h : Nat, h < 24 → (h : Int) ∈ c'.hours)
    (hcc : ∀ h : Nat, h < 24 → c.val (monthOf (at00 D)) h = c'.val (monthOf (at00 D)) h)
    (ho : disaggregateRadiation api f sun pot "mean_course" angstr bc (some c) = .ok out)
    (ho' : disaggregateRadiation api' g sun' pot' "mean_course" angstr' bc' (some c') = .ok out')
    (hD : SameOn f g D) : dayCells out D = dayCells out' D := by
  obtain ⟨i, hi, rfl⟩ := inPeriod_iff.1 h1
  obtain ⟨i', hi', e⟩ := inPeriod_iff.1 h2
  obtain ⟨v, hv⟩ := glob_col hf cf (by omega) (.inr rfl) ho
  obtain ⟨v', hv'⟩ := glob_col hg cg (by omega) (.inr rfl) ho'
  have hvv := same_cell hv hv' hi hi' e (hD _)
  have hmon : ∀ t : Time, monthOf t ∈ c.months := fun t => hc.1 _ (monthOf_range t).1 (monthOf_range t).2
  have hmon' : ∀ t : Time, monthOf t ∈ c'.months := fun t => hc'.1 _ (monthOf_range t).1 (monthOf_range t).2
  rw [meanCourseRad_eq api cf (by omega) hv sun _ angstr bc (fun _ _ => hmon _) hc.2] at ho
  rw [meanCourseRad_eq api' cg (by omega) hv' sun' _ angstr' bc' (fun _ _ => hmon' _) hc'.2] at ho'
  cases ho; cases ho'
  rw [same_hours hi hi' e]
  intro h hh
  rw [hvv, ← e, hcc h hh, day24_congr (f := fun h : Nat => c.val (monthOf (at00 (d0 + (i : Int)))) (h : Int))
    (g := fun h : Nat => c'.val (monthOf (at00 (d0 + (i : Int)))) (h : Int)) hcc]

/-- C100 (radiation): the first day of a one-day and a two-day record -/
example : ∃ out out', disaggregateRadiation .modern ⟨[at00 0], [("glob", [.fin 100])]⟩ none (some (hourlyS 0 1 fun _ h => .fin h)) = .ok out ∧
    disaggregateRadiation .modern ⟨[at00 0, at00 1], [("glob", [.fin 100, .fin 50])]⟩ none (some (hourlyS 0 2 fun i h => .fin (h + 7 * i))) = .ok out' ∧
    dayCells out 0 = dayCells out' 0 := by
  have r1 := potRad_eq (d0 := 0) (d1 := 0) (n := 1) (m := 1) (daily := ⟨[at00 0], [("glob", [.fin 100])]⟩) .modern rfl (by omega)
    (v := fun _ => .fin 100) rfl none (fun _ h => .fin h) (.scalar (.fin 0.25) (.fin 0.5)) (.scalar (.fin 0.75) (.fin 2.4)) none
  have r2 := potRad_eq (d0 := 0) (d1 := 0) (n := 2) (m := 2) (daily := ⟨[at00 0, at00 1], [("glob", [.fin 100, .fin 50])]⟩) .modern rfl (by omega)
    (v := fun i => if i = 0 then .fin 100 else .fin 50) rfl none (fun i h => .fin (h + 7 * i)) (.scalar (.fin 0.25) (.fin 0.5))
    (.scalar (.fin 0.75) (.fin 2.4)) none
  refine ⟨_, _, r1, r2, ?_⟩
  refine C100_radiation (f := ⟨[at00 0], [("glob", [.fin 100])]⟩) (g := ⟨[at00 0, at00 1], [("glob", [.fin 100, .fin 50])]⟩) (d0 := 0) (d0' := 0)
    (n := 1) (n' := 2) ?_ ?_ rfl rfl (by unfold InPeriod; omega) (by unfold InPeriod; omega) ?_ r1 r2 ?_
  · intro c hc; simp at hc; subst hc; rfl
  · intro c hc; simp at hc; subst hc; rfl
  · refine (same_hours (d0 := 0) (d0' := 0) (i := 0) (i' := 0) (by omega) (by omega) rfl).2 fun h _ => ?_
    norm_num
  · intro name
    unfold cellOn Frame.col?
    by_cases hn : "glob" = name
    · subst hn; rfl
    · simp [hn]

/-- 'pot_rad_via_ssd' as a formula -/
theorem ssdRad_eq (api : PandasApi) {daily : Frame ℝ} {d0 : Int} {n : Nat} (hi : Covers daily.index d0 n) (hn : 0 < n) {s : Nat → XF ℝ}
    (hs : daily.col? "ssd" = some (dailyS d0 n s)) (st : Nat → SunTimes) (p : Nat → Nat → XF ℝ) {par : ParPair ℝ} (bc : ParPair ℝ)
    (course : Option (MeanCourse ℝ)) {a b : Int → XF ℝ} (h : ∀ m : Int, 1 ≤ m → m ≤ 12 → ParAt par m (a m) (b m)) :
    disaggregateRadiation api daily (some (dailyS d0 n st)) (some (hourlyS d0 n p)) "pot_rad_via_ssd" par bc course =
      .ok (hourlyS d0 n fun i h => radCell (p i h) (meanSkip (day24 (p i))) (if XF.lt (.fin 0) (st i).daylength then
        (a (monthOf (at00 (d0 + i))) + b (monthOf (at00 (d0 + i))) * s i / (st i).daylength) * meanSkip (day24 (p i)) else .fin 0)) := by
  unfold disaggregateRadiation
  rw [if_neg (by simp), temp_hourly_index api hi hn, py_ok_bind, if_neg (by decide)]
  dsimp only
  rw [if_neg (by decide), if_pos rfl, resampleD_hourlyS,
    ssdDaily_eq hi hs st _ le_rfl le_rfl (a := a) (b := b) (fun i _ => h _ (monthOf_range _).1 (monthOf_range _).2), py_ok_bind, radiationCore_eq d0 hn]
  congr 1
  apply hourlyS_congr
  intro i hi' h _
  rw [lastValue_self hi', show (d0 + (i : Int) - d0).toNat = i by omega]

/-- **C100** (radiation from sunshine duration) A day's values depend on sunshine duration, day length and potential radiation of this day. -/
theorem C100_radiation_ssd {f g : Frame ℝ} {d0 d0' : Int} {n n' : Nat} (cf : Covers f.index d0 n) (cg : Covers g.index d0' n')
    {D : Int} (h1 : InPeriod d0 n D) (h2 : InPeriod d0' n' D) {api api' : PandasApi} {s s' : Nat → XF ℝ} (hs : f.col? "ssd" = some (dailyS d0 n s))
    (hs' : g.col? "ssd" = some (dailyS d0' n' s')) {st st' : Nat → SunTimes} {p p' : Nat → Nat → XF ℝ} {par bc bc' : ParPair ℝ}
    {course course' : Option (MeanCourse ℝ)} {a b : Int → XF ℝ} (hpar : ∀ m : Int, 1 ≤ m → m ≤ 12 → ParAt par m (a m) (b m))
    (hp : dayCells (hourlyS d0 n p) D = dayCells (hourlyS d0' n' p') D)
    (hsun : Series.at? (dailyS d0 n st) (at00 D) = Series.at? (dailyS d0' n' st') (at00 D)) (hD : cellOn f "ssd" D = cellOn g "ssd" D) :
    ∃ out out', disaggregateRadiation api f (some (dailyS d0 n st)) (some (hourlyS d0 n p)) "pot_rad_via_ssd" par bc course = .ok out ∧
      disaggregateRadiation api' g (some (dailyS d0' n' st')) (some (hourlyS d0' n' p')) "pot_rad_via_ssd" par bc' course' = .ok out' ∧
      dayCells out D = dayCells out' D := by
  obtain ⟨i, hi, rfl⟩ := inPeriod_iff.1 h1
  obtain ⟨i', hi', e⟩ := inPeriod_iff.1 h2
  refine ⟨_, _, ssdRad_eq api cf (by omega) hs st p bc course hpar, ssdRad_eq api' cg (by omega) hs' st' p' bc' course' hpar, ?_⟩
  have hpp := (same_hours hi hi' e).1 hp
  rw [same_hours hi hi' e]
  intro h hh
  rw [hpp h hh, day24_congr hpp, same_cell hs hs' hi hi' e hD, same_at hi hi' e hsun, e]

/-- 'pot_rad_via_bc' as a formula -/
theorem bcRad_eq (api : PandasApi) {daily : Frame ℝ} {d0 : Int} {n : Nat} (hi : Covers daily.index d0 n) (hn : 0 < n) {tmin tmax : Nat → XF ℝ}
    (hmin : daily.col? "tmin" = some (dailyS d0 n tmin)) (hmax : daily.col? "tmax" = some (dailyS d0 n tmax)) (sun : Option (Series SunTimes))
    (p : Nat → Nat → XF ℝ) (angstr : ParPair ℝ) {par : ParPair ℝ}
    (course : Option (MeanCourse ℝ)) {a c : Int → XF ℝ} (h : ∀ m : Int, 1 ≤ m → m ≤ 12 → ParAt par m (a m) (c m)) :
    disaggregateRadiation api daily sun (some (hourlyS d0 n p)) "pot_rad_via_bc" angstr par course =
      .ok (hourlyS d0 n fun i h => radCell (p i h) (meanSkip (day24 (p i))) (a (monthOf (at00 (d0 + i))) *
        (.fin 1 - XF.exp (-(.fin 0.036 * XF.exp (.fin (-0.154) * meanSkip (bcMonthRanges d0 n tmin tmax i))) *
          XF.pow (bcRange n tmin tmax i) (c (monthOf (at00 (d0 + i)))))) * meanSkip (day24 (p i)))) := by
  unfold disaggregateRadiation
  rw [if_neg (by simp), temp_hourly_index api hi hn, py_ok_bind, if_neg (by decide)]
  dsimp only
  rw [if_neg (by decide), if_neg (by decide), attr_ok hmin, py_ok_bind, attr_ok hmax, py_ok_bind, resampleD_hourlyS,
    bc_eq d0 d0 hn tmin tmax _ le_rfl le_rfl (a := a) (c := c) (fun i _ => h _ (monthOf_range _).1 (monthOf_range _).2), py_ok_bind, radiationCore_eq d0 hn]
  congr 1
  apply hourlyS_congr
  intro i hi' h _
  rw [lastValue_self hi', show (d0 + (i : Int) - d0).toNat = i by omega]

/-- **C100** (radiation from the temperature range) A day's values depend on the temperatures of this and the following day, the potential radiation of this
day, and the mean temperature range of all days of its month. -/
theorem C100_radiation_bc {f g : Frame ℝ} {d0 d0' : Int} {n n' : Nat} (cf : Covers f.index d0 n) (cg : Covers g.index d0' n')
    {D : Int} (h1 : InPeriod d0 n D) (h2 : InPeriod d0' n' D) {api api' : PandasApi} {tmin tmax tmin' tmax' : Nat → XF ℝ}
    (hmin : f.col? "tmin" = some (dailyS d0 n tmin)) (hmax : f.col? "tmax" = some (dailyS d0 n tmax))
    (hmin' : g.col? "tmin" = some (dailyS d0' n' tmin')) (hmax' : g.col? "tmax" = some (dailyS d0' n' tmax'))
    {sun sun' : Option (Series SunTimes)} {p p' : Nat → Nat → XF ℝ} {angstr angstr' par : ParPair ℝ}
    {course course' : Option (MeanCourse ℝ)} {a c : Int → XF ℝ} (hpar : ∀ m : Int, 1 ≤ m → m ≤ 12 → ParAt par m (a m) (c m))
    (hp : dayCells (hourlyS d0 n p) D = dayCells (hourlyS d0' n' p') D)
    (hD : SameOn f g D) (hnext : cellOn f "tmin" (D + 1) = cellOn g "tmin" (D + 1))
    (hmonth : meanSkip (bcMonthRanges d0 n tmin tmax (D - d0).toNat) = meanSkip (bcMonthRanges d0' n' tmin' tmax' (D - d0').toNat)) :
    ∃ out out', disaggregateRadiation api f sun (some (hourlyS d0 n p)) "pot_rad_via_bc" angstr par course = .ok out ∧
      disaggregateRadiation api' g sun' (some (hourlyS d0' n' p')) "pot_rad_via_bc" angstr' par course' = .ok out' ∧
      dayCells out D = dayCells out' D := by
  obtain ⟨i, hi, rfl⟩ := inPeriod_iff.1 h1
  obtain ⟨i', hi', e⟩ := inPeriod_iff.1 h2
  refine ⟨_, _, bcRad_eq api cf (by omega) hmin hmax sun p angstr course hpar, bcRad_eq api' cg (by omega) hmin' hmax' sun' p' angstr' course' hpar, ?_⟩
  have hpp := (same_hours hi hi' e).1 hp
  rw [show (d0 + (i : Int) - d0).toNat = i by omega, show (d0 + (i : Int) - d0').toNat = i' by omega] at hmonth
  have c1 := same_cell hmin hmin' hi hi' e (hD _)
  have c2 := same_cell hmax hmax' hi hi' e (hD _)
  obtain ⟨x1, x2⟩ := same_next hmin hmin' hi hi' e (hD _) hnext
  have c3 : nextMin n tmin i = nextMin n' tmin' i' := by
    unfold nextMin
    unfold nextDay at x2
    by_cases hb : i + 1 < n
    · rw [if_pos hb, if_pos (x1.1 hb)] at x2 ⊢
      exact x2
    · rw [if_neg hb, if_neg (fun hc => hb (x1.2 hc)), c1]
  have c4 : bcRange n tmin tmax i = bcRange n' tmin' tmax' i' := by
    unfold bcRange
    rw [c1, c2, c3]
  rw [same_hours hi hi' e]
  intro h hh
  rw [hpp h hh, day24_congr hpp, c4, hmonth, e]

end

/-! ## precipitation -/

section precip
variable {K : Type} [Field K] [LinearOrder K]

/-- **C100** (precipitation, equal parts) -/
theorem C100_equal {s s' : Series (XF K)} {d0 d0' : Int} {n n' : Nat} (cs : Covers s.index d0 n) (cs' : Covers s'.index d0' n') {D : Int}
    (h1 : InPeriod d0 n D) (h2 : InPeriod d0' n' D) {api api' : PandasApi} {divide : Bool} {out out' : Series (XF K)}
    (ho : distributeEqually api s divide = .ok out) (ho' : distributeEqually api' s' divide = .ok out') (hD : s.at? (at00 D) = s'.at? (at00 D)) :
    dayCells out D = dayCells out' D := by
  obtain ⟨v, rfl⟩ := covers_series cs
  obtain ⟨v', rfl⟩ := covers_series cs'
  obtain ⟨i, hi, rfl⟩ := inPeriod_iff.1 h1
  obtain ⟨i', hi', e⟩ := inPeriod_iff.1 h2
  have hv := same_at hi hi' e hD
  cases divide with
  | false =>
    rw [distributeEqually_daily api d0 (by omega)] at ho
    rw [distributeEqually_daily api' d0' (by omega)] at ho'
    cases ho; cases ho'
    exact (same_hours hi hi' e).2 fun _ _ => hv
  | true =>
    rw [distributeEqually_daily_divide api d0 (by omega)] at ho
    rw [distributeEqually_daily_divide api' d0' (by omega)] at ho'
    cases ho; cases ho'
    refine (same_hours hi hi' e).2 fun _ _ => ?_
    rw [hv]

/-- **C100** (precipitation, master station) A day's values depend on the daily value and the rows of the master station of this day. -/
theorem C100_master {s s' : Series (XF K)} {d0 d0' : Int} {n n' : Nat} (cs : Covers s.index d0 n) (cs' : Covers s'.index d0' n') {D : Int}
    (h1 : InPeriod d0 n D) (h2 : InPeriod d0' n' D) {api api' : PandasApi} {zerodiv : String} {m m' out out' : Series (XF K)}
    (ho : precipMasterStation api s m zerodiv = .ok out) (ho' : precipMasterStation api' s' m' zerodiv = .ok out')
    (hD : s.at? (at00 D) = s'.at? (at00 D)) (hm : rowsOn m D = rowsOn m' D) : dayCells out D = dayCells out' D := by
  obtain ⟨v, rfl⟩ := covers_series cs
  obtain ⟨v', rfl⟩ := covers_series cs'
  obtain ⟨i, hi, rfl⟩ := inPeriod_iff.1 h1
  obtain ⟨i', hi', e⟩ := inPeriod_iff.1 h2
  have hv := same_at hi hi' e hD
  rw [master_run (by omega) ho, master_run (by omega) ho', same_hours hi hi' e]
  intro h hh
  unfold rowsOn at hm
  rw [hv, ← e, hm]

end precip

/-- C100 (master station): second day of a two-day record and only day of a one-day record -/
example : okAnd (precipMasterStation .legacy (dailyS 0 2 fun i => .fin (i + 3 : ℚ)) (hourlyS 0 2 fun i h => .fin (i + h : ℚ)) "uniform") (fun o =>
    okAnd (precipMasterStation .legacy (dailyS 1 1 fun _ => .fin (4 : ℚ)) (hourlyS 1 1 fun _ h => .fin (1 + h : ℚ)) "uniform") fun o' =>
      decide (dayCells o 1 = dayCells o' 1 ∧ (dayCells o 1)[2]? = some (.fin (1 / 25)))) = true := by decide +kernel

/-- **C100** (cascade) The cascade is not of this kind: with the same random numbers and statistics, the hourly values of a day with 100 mm change if its
neighbours are wet instead of dry. -/
theorem C100_cascade_depends_on_neighbours :
    ∃ (rnd : Nat → ℚ) (v v' : Nat → XF ℚ) (out out' : CascadeOut ℚ), v 1 = v' 1 ∧
      disaggPrecCascade .modern rnd (dailyS 0 3 v) (.one (CascStats.fillSample .init)) = .ok out ∧
      disaggPrecCascade .modern rnd (dailyS 0 3 v') (.one (CascStats.fillSample .init)) = .ok out' ∧
      dayCells out.series 1 ≠ dayCells out'.series 1 := by
  have h : okAnd (disaggPrecCascade .modern (fun _ => (1 / 2 : ℚ)) (dailyS 0 3 fun i => if i = 1 then .fin 100 else .fin 0)
      (.one (CascStats.fillSample .init))) (fun o => okAnd (disaggPrecCascade .modern (fun _ => (1 / 2 : ℚ))
        (dailyS 0 3 fun i => if i = 1 then .fin 100 else .fin 5) (.one (CascStats.fillSample .init)))
          fun o' => decide (dayCells o.series 1 ≠ dayCells o'.series 1)) = true := by decide +kernel
  obtain ⟨o, ho, h⟩ := okAnd_iff.1 h
  obtain ⟨o', ho', h⟩ := okAnd_iff.1 h
  exact ⟨fun _ => 1 / 2, fun i => if i = 1 then .fin 100 else .fin 0, fun i => if i = 1 then .fin 100 else .fin 5, o, o', rfl, ho, ho',
    of_decide_eq_true h⟩

end Melodist
