import Verif.Model.Station

/-!
# What a statistics object is after export to and import from a JSON file
-/

namespace Melodist.Spec

/-- a table value after the round trip: a number to the nearest multiple of 10⁻¹⁰, everything else is missing -/
def stored {K : Type} [Field K] [LinearOrder K] [IsStrictOrderedRing K] [FloorRing K] : XF K → XF K
  | .fin x => .fin ((round (x * 10 ^ 10) : K) / 10 ^ 10)
  | _ => .nan

section
variable {K : Type} [Field K] [LinearOrder K] [IsStrictOrderedRing K] [FloorRing K]

/-- `r` has the rows of `l`, with stored values, in the order of the labels -/
structure SameRows (l r : List (Int × XF K)) : Prop where
  rows : r.Perm (l.map fun e => (e.1, stored e.2))
  sorted : (r.map Prod.fst).Pairwise (· < ·)

/-- `r` is the mean course `c` with stored values, months in the order 1..12 and hours in order; other columns are dropped -/
structure SameCourse (c r : MeanCourse K) : Prop where
  months : r.months = [1, 2, 3, 4, 5, 6, 7, 8, 9, 10, 11, 12]
  hours : r.hours.Perm c.hours
  sorted : r.hours.Pairwise (· < ·)
  val : ∀ m ∈ r.months, ∀ h, r.lookup m h = (c.lookup m h).map stored

/-- absent stays absent, present is restored -/
def SameOption {α : Type} (P : α → α → Prop) : Option α → Option α → Prop
  | none, none => True
  | some x, some y => P x y
  | _, _ => False

end

/-- a mean course that can be exported and imported: labels are unique, all months are there -/
structure FullCourse (c : MeanCourse ℝ) : Prop where
  months : c.months.Nodup
  hours : c.hours.Nodup
  all : ∀ m ∈ ([1, 2, 3, 4, 5, 6, 7, 8, 9, 10, 11, 12] : List Int), m ∈ c.months

/-- statistics objects for which the round trip works; those filled by the `calc_…` methods from data that cover all months are of this kind -/
structure Exportable (s : StatObj) : Prop where
  /-- unique months; pandas does not take the shifts for timestamps: some value is small, or all are missing -/
  maxDelta : ∀ l, s.temp.maxDelta = some l → (l.map Prod.fst).Nodup ∧
    ((∃ e ∈ l, ∃ x : ℝ, e.2 = .fin x ∧ x ≤ 31536000) ∨ ∀ e ∈ l, ∀ x : ℝ, e.2 ≠ .fin x)
  tempCourse : ∀ c, s.temp.course = some c → FullCourse c
  globCourse : ∀ c, s.glob.course = some c → FullCourse c
  /-- not just one category -/
  table : ∀ t, s.hum.table = some t → t.length ≠ 1
  stats : ∀ l, s.precip.stats = some l → ∀ o ∈ l, (∃ c, o = .one c) ∨ ∃ cs, o = .many cs
  /-- the columns of the two frames have the same, unique labels -/
  ang : s.glob.angA.map Prod.fst = s.glob.angB.map Prod.fst ∧ (s.glob.angA.map Prod.fst).Nodup
  bc : s.glob.bcA.map Prod.fst = s.glob.bcC.map Prod.fst ∧ (s.glob.bcA.map Prod.fst).Nodup

/-- what the round trip preserves: scalars, months and cascade statistics exactly, tables as stored; the object has no position and no time zone -/
structure Restored (s r : StatObj) : Prop where
  position : r.lon = none ∧ r.lat = none ∧ r.tz = none
  wind : r.wind = s.wind
  precip : r.precip = s.precip
  hum : r.hum.a0 = s.hum.a0 ∧ r.hum.a1 = s.hum.a1 ∧ r.hum.kr = s.hum.kr
  table : r.hum.table = s.hum.table.map fun t => t.map fun e => (e.1, stored e.2)
  maxDelta : SameOption SameRows s.temp.maxDelta r.temp.maxDelta
  tempCourse : SameOption SameCourse s.temp.course r.temp.course
  ang : SameRows s.glob.angA r.glob.angA ∧ SameRows s.glob.angB r.glob.angB
  bc : SameRows s.glob.bcA r.glob.bcA ∧ SameRows s.glob.bcC r.glob.bcC
  globCourse : SameOption SameCourse s.glob.course r.glob.course

end Melodist.Spec
