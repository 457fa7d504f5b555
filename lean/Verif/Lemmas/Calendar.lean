import Verif.Base.Time

/-!
# The calendar functions are the proleptic Gregorian calendar
-/

namespace Melodist

/-- year of the era and day of the (March based) year: `doe = 36524·f + 1461·q + s`, year `y` of the four-year block -/
theorem era_year (doe : Int) (h0 : 0 ≤ doe) (h1 : doe ≤ 146096) :
    ∃ f q y doy : Int, 0 ≤ f ∧ f ≤ 3 ∧ 0 ≤ q ∧ q ≤ 24 ∧ 0 ≤ y ∧ y ≤ 3 ∧ 0 ≤ doy ∧ doy ≤ 365 ∧
      (doy = 365 → y = 3 ∧ (q < 24 ∨ f = 3)) ∧
      (doe - doe / 1460 + doe / 36524 - doe / 146096) / 365 = 100 * f + 4 * q + y ∧
      doe = 36524 * f + 1461 * q + 365 * y + doy := by
  by_cases hl : doe = 146096
  · subst hl
    exact ⟨3, 24, 3, 365, by omega, by omega, by omega, by omega, by omega, by omega, by omega, by omega, by omega, by decide, by decide⟩
  have hg : doe / 146096 = 0 := by omega
  rw [hg]
  obtain ⟨f, r, hf0, hf1, hr0, hr1, hfr⟩ : ∃ f r : Int, 0 ≤ f ∧ f ≤ 3 ∧ 0 ≤ r ∧ r ≤ 36523 ∧ doe = 36524 * f + r :=
    ⟨doe / 36524, doe % 36524, by omega, by omega, by omega, by omega, by omega⟩
  obtain ⟨q, s, hq0, hq1, hs0, hs1, hqs⟩ : ∃ q s : Int, 0 ≤ q ∧ q ≤ 24 ∧ 0 ≤ s ∧ s ≤ 1460 ∧ r = 1461 * q + s :=
    ⟨r / 1461, r % 1461, by omega, by omega, by omega, by omega, by omega⟩
  have hf : doe / 36524 = f := by omega
  have he : doe / 1460 = 25 * f + q ∨ doe / 1460 = 25 * f + q + 1 := by omega
  have hs24 : q = 24 → s ≤ 1459 := by omega
  by_cases hs : s = 1460
  · refine ⟨f, q, 3, 365, hf0, hf1, hq0, hq1, by omega, by omega, by omega, by omega, by omega, ?_, by omega⟩
    rw [hf]; omega
  · refine ⟨f, q, s / 365, s % 365, hf0, hf1, hq0, hq1, by omega, by omega, by omega, by omega, by omega, ?_, by omega⟩
    rw [hf]
    rcases he with he | he
    · rw [he]; omega
    · have : 24 * f + q + s ≥ 1460 := by omega
      rw [he]; omega

/-- day `doy` of the March based year `yy` as (year, month, day) -/
def marchDate (yy doy : Int) : Int × Int × Int :=
  let mp := (5 * doy + 2) / 153
  let m := if mp < 10 then mp + 3 else mp - 9
  (yy + (if m ≤ 2 then 1 else 0), m, doy - (153 * mp + 2) / 5 + 1)

/-- the number of days of the March based year made of century `f`, four-year block `q`, year `y` -/
def marchYearLast (f q y : Int) : Int := if y = 3 ∧ (q < 24 ∨ f = 3) then 365 else 364

theorem civil_eq (z : Int) : ∃ era f q y doy : Int, 0 ≤ f ∧ f ≤ 3 ∧ 0 ≤ q ∧ q ≤ 24 ∧ 0 ≤ y ∧ y ≤ 3 ∧ 0 ≤ doy ∧ doy ≤ marchYearLast f q y ∧
    z + 719468 = 146097 * era + 36524 * f + 1461 * q + 365 * y + doy ∧ civil z = marchDate (400 * era + 100 * f + 4 * q + y) doy := by
  obtain ⟨f, q, y, doy, hf0, hf1, hq0, hq1, hy0, hy1, hd0, hd1, hlast, hyoe, hdoe⟩ :=
    era_year ((z + 719468) % 146097) (by omega) (by omega)
  have hdoy : (z + 719468) % 146097 - (365 * (100 * f + 4 * q + y) + (100 * f + 4 * q + y) / 4 - (100 * f + 4 * q + y) / 100) = doy := by
    have a1 : (100 * f + 4 * q + y) / 4 = 25 * f + q := by omega
    have a2 : (100 * f + 4 * q + y) / 100 = f := by omega
    rw [hdoe, a1, a2]; clear hyoe hdoe a1 a2; omega
  refine ⟨(z + 719468) / 146097, f, q, y, doy, hf0, hf1, hq0, hq1, hy0, hy1, hd0, ?_, by omega, ?_⟩
  · unfold marchYearLast
    split
    · exact hd1
    · omega
  · unfold civil marchDate
    simp only [hyoe, hdoy]
    congr 1
    omega

/-- the decomposition is unique -/
theorem civil_of {z era f q y doy : Int} (hf0 : 0 ≤ f) (hf1 : f ≤ 3) (hq0 : 0 ≤ q) (hq1 : q ≤ 24) (hy0 : 0 ≤ y) (hy1 : y ≤ 3) (hd0 : 0 ≤ doy)
    (hd1 : doy ≤ marchYearLast f q y) (hz : z + 719468 = 146097 * era + 36524 * f + 1461 * q + 365 * y + doy) :
    civil z = marchDate (400 * era + 100 * f + 4 * q + y) doy := by
  obtain ⟨era', f', q', y', doy', hf0', hf1', hq0', hq1', hy0', hy1', hd0', hd1', hz', hc⟩ := civil_eq z
  unfold marchYearLast at hd1 hd1'
  have h365 : doy ≤ 365 := by split at hd1 <;> omega
  have h365' : doy' ≤ 365 := by split at hd1' <;> omega
  have hl : doy = 365 → y = 3 ∧ (q < 24 ∨ f = 3) := by intro h; split at hd1 <;> omega
  have hl' : doy' = 365 → y' = 3 ∧ (q' < 24 ∨ f' = 3) := by intro h; split at hd1' <;> omega
  have e1 : era = era' := by omega
  have e2 : f = f' := by omega
  have e3 : q = q' := by omega
  have e4 : y = y' := by omega
  have e5 : doy = doy' := by omega
  rw [hc, e1, e2, e3, e4, e5]

/-- Gregorian leap years -/
def isLeap (y : Int) : Bool := decide (y % 4 = 0 ∧ (y % 100 ≠ 0 ∨ y % 400 = 0))

/-- days of a month -/
def monthLength (y m : Int) : Int :=
  if m = 2 then (if isLeap y then 29 else 28) else if m = 4 ∨ m = 6 ∨ m = 9 ∨ m = 11 then 30 else 31

/-- the date after (y, m, d) -/
def nextDate (y m d : Int) : Int × Int × Int :=
  if d < monthLength y m then (y, m, d + 1) else if m < 12 then (y, m + 1, 1) else (y + 1, 1, 1)

/-- days of a month in a leap year or another year -/
def lenOf (leap : Bool) (m : Int) : Int :=
  if m = 2 then (if leap then 29 else 28) else if m = 4 ∨ m = 6 ∨ m = 9 ∨ m = 11 then 30 else 31

/-- one step within a March based year, checked on its 366 days -/
theorem marchDate_step : ∀ n : Nat, n < 366 → ∀ leap : Bool, (n : Int) < (if leap then 365 else 364) →
    let a := marchDate 0 (n : Int)
    marchDate 0 ((n : Int) + 1) =
      if a.2.2 < lenOf leap a.2.1 then (a.1, a.2.1, a.2.2 + 1) else if a.2.1 < 12 then (a.1, a.2.1 + 1, 1) else (a.1 + 1, 1, 1) := by
  decide +kernel

theorem marchDate_shift (yy doy : Int) : marchDate yy doy = (yy + (marchDate 0 doy).1, (marchDate 0 doy).2) := by
  unfold marchDate; simp

theorem marchDate_year (doy : Int) : (marchDate 0 doy).1 = if (marchDate 0 doy).2.1 ≤ 2 then 1 else 0 := by
  unfold marchDate; simp

theorem civil_succ (z : Int) : civil (z + 1) = nextDate (civil z).1 (civil z).2.1 (civil z).2.2 := by
  obtain ⟨era, f, q, y, doy, hf0, hf1, hq0, hq1, hy0, hy1, hd0, hd1, hz, hc⟩ := civil_eq z
  have hleap : isLeap (400 * era + 100 * f + 4 * q + y + 1) = decide (y = 3 ∧ (q < 24 ∨ f = 3)) := by
    unfold isLeap
    congr 1
    apply propext
    constructor
    · rintro ⟨h1, h2⟩; omega
    · rintro ⟨h1, h2⟩; omega
  have hlast : marchYearLast f q y = if isLeap (400 * era + 100 * f + 4 * q + y + 1) then 365 else 364 := by
    rw [hleap]; unfold marchYearLast; simp
  have h365 : doy ≤ 365 := by unfold marchYearLast at hd1; split at hd1 <;> omega
  obtain ⟨n, rfl⟩ : ∃ n : Nat, doy = n := ⟨doy.toNat, by omega⟩
  have hml : ∀ m : Int, m = (marchDate 0 (n : Int)).2.1 → monthLength (400 * era + 100 * f + 4 * q + y + (marchDate 0 (n : Int)).1) m =
      lenOf (isLeap (400 * era + 100 * f + 4 * q + y + 1)) m := by
    intro m hm
    unfold monthLength lenOf
    by_cases h2 : m = 2
    · rw [marchDate_year, ← hm, h2]; simp
    · simp only [h2, if_false]
  rw [hc, marchDate_shift]
  simp only
  unfold nextDate
  rw [hml _ rfl]
  by_cases hlt : (n : Int) < marchYearLast f q y
  · rw [civil_of (z := z + 1) (era := era) (doy := (n : Int) + 1) hf0 hf1 hq0 hq1 hy0 hy1 (by omega) (by omega) (by omega)]
    rw [hlast] at hlt
    have := marchDate_step n (by omega) _ hlt
    simp only at this
    rw [marchDate_shift, this]
    split
    · rfl
    · split
      · rfl
      · simp [Int.add_assoc]
  · have hn : (n : Int) = marchYearLast f q y := by omega
    have hnext : civil (z + 1) = (400 * era + 100 * f + 4 * q + y + 1, 3, 1) := by
      have e0 : ∀ yy : Int, marchDate yy 0 = (yy, 3, 1) := fun yy => by rw [marchDate_shift]; simp [marchDate]
      unfold marchYearLast at hn
      by_cases hy : y < 3
      · rw [civil_of (z := z + 1) (era := era) (f := f) (q := q) (y := y + 1) (doy := 0) hf0 hf1 hq0 hq1 (by omega) (by omega) (by omega)
          (by unfold marchYearLast; split <;> omega) (by rw [if_neg (by omega)] at hn; omega), e0]
        congr 1; omega
      · by_cases hq : q < 24
        · rw [civil_of (z := z + 1) (era := era) (f := f) (q := q + 1) (y := 0) (doy := 0) hf0 hf1 (by omega) (by omega) (by omega) (by omega) (by omega)
            (by unfold marchYearLast; split <;> omega) (by rw [if_pos (by omega)] at hn; omega), e0]
          congr 1; omega
        · by_cases hf : f < 3
          · rw [civil_of (z := z + 1) (era := era) (f := f + 1) (q := 0) (y := 0) (doy := 0) (by omega) (by omega) (by omega) (by omega) (by omega) (by omega)
              (by omega) (by unfold marchYearLast; split <;> omega) (by rw [if_neg (by omega)] at hn; omega), e0]
            congr 1; omega
          · rw [civil_of (z := z + 1) (era := era + 1) (f := 0) (q := 0) (y := 0) (doy := 0) (by omega) (by omega) (by omega) (by omega) (by omega) (by omega)
              (by omega) (by unfold marchYearLast; split <;> omega) (by rw [if_pos (by omega)] at hn; omega), e0]
            congr 1; omega
    rw [hnext]
    rw [hlast] at hn
    by_cases hl : isLeap (400 * era + 100 * f + 4 * q + y + 1) = true
    · rw [if_pos hl] at hn
      have : n = 365 := by omega
      subst this
      simp [marchDate, lenOf, hl]
    · rw [if_neg hl] at hn
      have : n = 364 := by omega
      subst this
      simp [marchDate, lenOf, hl]

theorem civil_zero : civil 0 = (1970, 1, 1) := by decide

theorem marchDate_bounds : ∀ n : Nat, n < 366 → 1 ≤ (marchDate 0 (n : Int)).2.1 ∧ (marchDate 0 (n : Int)).2.1 ≤ 12 ∧ 1 ≤ (marchDate 0 (n : Int)).2.2 ∧
    (marchDate 0 (n : Int)).2.2 ≤ 31 := by decide +kernel

theorem civil_bounds (z : Int) : 1 ≤ (civil z).2.1 ∧ (civil z).2.1 ≤ 12 ∧ 1 ≤ (civil z).2.2 ∧ (civil z).2.2 ≤ 31 := by
  obtain ⟨era, f, q, y, doy, hf0, hf1, hq0, hq1, hy0, hy1, hd0, hd1, hz, hc⟩ := civil_eq z
  have h365 : doy ≤ 365 := by unfold marchYearLast at hd1; split at hd1 <;> omega
  obtain ⟨n, rfl⟩ : ∃ n : Nat, doy = n := ⟨doy.toNat, by omega⟩
  have := marchDate_bounds n (by omega)
  rw [hc, marchDate_shift]
  exact this

theorem monthOf_range (t : Time) : 1 ≤ monthOf t ∧ monthOf t ≤ 12 := ⟨(civil_bounds _).1, (civil_bounds _).2.1⟩

theorem marchDate_inv : ∀ n : Nat, n < 366 → (let a := marchDate 0 (n : Int)
    (153 * (if a.2.1 > 2 then a.2.1 - 3 else a.2.1 + 9) + 2) / 5 + a.2.2 - 1) = (n : Int) := by decide +kernel

theorem daysFromCivil_civil (z : Int) : daysFromCivil (civil z).1 (civil z).2.1 (civil z).2.2 = z := by
  obtain ⟨era, f, q, y, doy, hf0, hf1, hq0, hq1, hy0, hy1, hd0, hd1, hz, hc⟩ := civil_eq z
  have h365 : doy ≤ 365 := by unfold marchYearLast at hd1; split at hd1 <;> omega
  obtain ⟨n, rfl⟩ : ∃ n : Nat, doy = n := ⟨doy.toNat, by omega⟩
  have hinv := marchDate_inv n (by omega)
  rw [hc, marchDate_shift]
  unfold daysFromCivil
  simp only at hinv ⊢
  rw [hinv]
  have hyy : (if (marchDate 0 (n : Int)).2.1 ≤ 2 then 400 * era + 100 * f + 4 * q + y + (marchDate 0 (n : Int)).1 - 1 else
      400 * era + 100 * f + 4 * q + y + (marchDate 0 (n : Int)).1) = 400 * era + 100 * f + 4 * q + y := by
    rw [marchDate_year]; split <;> omega
  rw [hyy]
  have a0 : (400 * era + 100 * f + 4 * q + y) / 400 = era := by omega
  have a1 : (400 * era + 100 * f + 4 * q + y) % 400 = 100 * f + 4 * q + y := by omega
  have a2 : (100 * f + 4 * q + y) / 4 = 25 * f + q := by omega
  have a3 : (100 * f + 4 * q + y) / 100 = f := by omega
  rw [a0, a1, a2, a3]
  omega

end Melodist
