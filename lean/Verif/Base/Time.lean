/-!
# Timestamps and calendar

A pandas `Timestamp` is an integer number of microseconds since an epoch midnight (pandas uses nanoseconds; no code in
/repo needs a finer unit than the microsecond).  Days are numbered by integers, day 0 = 1970-01-01.
-/

namespace Melodist

/-- a timestamp in microseconds (a notation, so that `omega` sees plain integers) -/
macro "Time" : term => `(Int)

/-- one day / hour / minute / second in microseconds -/
notation "DAY" => (86400000000 : Int)
notation "HOUR" => (3600000000 : Int)
notation "MINUTE" => (60000000 : Int)
notation "SECOND" => (1000000 : Int)

/-- `Timestamp.date()` as a day number -/
def dayOf (t : Time) : Int := t / DAY
/-- `Timestamp.hour` -/
def hourOf (t : Time) : Int := t % DAY / HOUR
/-- `Timestamp.minute` -/
def minuteOf (t : Time) : Int := t % HOUR / MINUTE
/-- `Timestamp.second` -/
def secondOf (t : Time) : Int := t % MINUTE / SECOND

/-- midnight of a day -/
def midnight (d : Int) : Time := d * DAY
/-- `h`:00 on day `d` -/
def stamp (d : Int) (h : Int) : Time := d * DAY + h * HOUR

/-- `Timestamp.replace(hour=h)` (minutes and smaller fields are kept) -/
def replaceHour (t : Time) (h : Int) : Time := dayOf t * DAY + h * HOUR + t % HOUR
/-- `Timestamp.replace(hour=h, minute=m, second=s)` (microseconds are kept) -/
def replaceHMS (t : Time) (h m s : Int) : Time :=
  dayOf t * DAY + h * HOUR + m * MINUTE + s * SECOND + t % SECOND

/-- `pd.date_range(start, end, freq=step)`: all `start + k*step ≤ end`, `k = 0,1,…` (empty if `end < start`). -/
def dateRange (start stop step : Time) : List Time :=
  if stop < start then []
  else (List.range ((stop - start) / step + 1).toNat).map fun (k : Nat) => start + (k : Int) * step

/-! ## Proleptic Gregorian calendar (what `Timestamp.month/.day/.dayofyear` compute) -/

/-- (year, month, day of month) of a day number; days-to-civil conversion with 400-year eras -/
def civil (z0 : Int) : Int × Int × Int :=
  let z := z0 + 719468
  let era := z / 146097
  let doe := z % 146097
  let yoe := (doe - doe / 1460 + doe / 36524 - doe / 146096) / 365
  let doy := doe - (365 * yoe + yoe / 4 - yoe / 100)
  let mp := (5 * doy + 2) / 153
  let d := doy - (153 * mp + 2) / 5 + 1
  let m := if mp < 10 then mp + 3 else mp - 9
  let y := yoe + era * 400 + (if m ≤ 2 then 1 else 0)
  (y, m, d)

/-- day number of a calendar date (inverse of `civil` on valid dates) -/
def daysFromCivil (y0 m d : Int) : Int :=
  let y := if m ≤ 2 then y0 - 1 else y0
  let era := y / 400
  let yoe := y % 400
  let mp := if m > 2 then m - 3 else m + 9
  let doy := (153 * mp + 2) / 5 + d - 1
  let doe := yoe * 365 + yoe / 4 - yoe / 100 + doy
  era * 146097 + doe - 719468

/-- `Timestamp.year` -/
def yearOf (t : Time) : Int := (civil (dayOf t)).1
/-- `Timestamp.month` (1..12) -/
def monthOf (t : Time) : Int := (civil (dayOf t)).2.1
/-- `Timestamp.day` (day of month, 1..31) -/
def domOf (t : Time) : Int := (civil (dayOf t)).2.2
/-- `Timestamp.dayofyear`, and `(d - d.replace(day=1, month=1)).days + 1` of util.py:178 -/
def doyOf (t : Time) : Int := dayOf t - daysFromCivil (yearOf t) 1 1 + 1

end Melodist
