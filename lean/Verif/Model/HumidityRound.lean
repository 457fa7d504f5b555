import Verif.Model.CascadeRound
import Verif.Model.Humidity

/-!
# Humidity disaggregation in rounded arithmetic

The functions of `Model/Humidity.lean` that compute hourly values once more, with every arithmetic operation on numbers and every literal that need not be a
floating-point number followed by a rounding, `np.exp`, `np.sin` and `np.pi` as given by the platform, and the mean of a day (`mean`) as an arbitrary function, because
how pandas adds depends on its version.  (`Props/RoundingE.lean` shows that they are the original functions for exact operations.)  Copies, comparisons, `clip` and
operations on small integers (hours) are exact.
-/

set_option linter.unusedSectionVars false

namespace Melodist

noncomputable section

/-- the arithmetic of the platform: rounding after each operation, `np.exp`, `np.sin` and `np.pi` -/
structure FloatHum where
  fl : ℝ → ℝ
  exp : ℝ → ℝ
  sin : ℝ → ℝ
  pi : ℝ

/-- exact arithmetic -/
def FloatHum.exact : FloatHum := ⟨id, Real.exp, Real.sin, Real.pi⟩

/-- `np.exp` of a cell -/
def FloatHum.expCell (F : FloatHum) : XF ℝ → XF ℝ
  | .nan => .nan
  | .ninf => .fin 0
  | .fin x => .fin (F.exp x)
  | .pinf => .pinf

/-- util.py:88-98: one branch of `vapor_pressure`, with the constants `a` and `b` -/
def magnusR (F : FloatHum) (a b : ℝ) (temp hum : XF ℝ) : XF ℝ :=
  let d := (temp - .fin (F.fl kelvin0)).rnd F.fl
  (((XF.fin (F.fl 6.112) * F.expCell (((.fin (F.fl a) * d).rnd F.fl / (.fin (F.fl b) + d).rnd F.fl).rnd F.fl)).rnd F.fl * hum).rnd F.fl / .fin 100).rnd F.fl

/-- util.py:85-100 `vapor_pressure` for one cell -/
def vaporPressureCellR (F : FloatHum) (temp hum : XF ℝ) : XF ℝ :=
  if XF.le (.fin (F.fl kelvin0)) temp then magnusR F 17.62 243.12 temp hum else magnusR F 22.46 272.62 temp hum

/-- util.py:82-85: a scalar humidity is broadcast -/
def vaporPressureScalarR (F : FloatHum) (temp : List (XF ℝ)) (hum : XF ℝ) : List (XF ℝ) := temp.map fun t => vaporPressureCellR F t hum

/-- humidity.py:76-78: eq. (21) of Debele et al. (2007) at hour `h` -/
def tdewDeltaR (F : FloatHum) (kr : ℝ) (h : Int) : XF ℝ :=
  .fin (F.fl (0.5 * F.sin (F.fl (F.fl (F.fl (((h : ℝ) + 1) * F.pi) / kr) - F.fl (F.fl (3 * F.pi) / 4)))))

/-- humidity.py:73-86: dew point for 'linear_dewpoint_variation' -/
def linearDewpointR (F : FloatHum) (kr : ℝ) (tdew temp : Series (XF ℝ)) : Py (Series (XF ℝ)) :=
  if temp.length = tdew.length then
    let next : Series (XF ℝ) := tdew.zipIdx.map fun (r, k) =>
      (r.1, if tdew.length ≤ k + 24 then r.2 else (tdew.values[k + 24]?).getD .nan)
    .ok ((tdew.zip (next.zip temp)).map fun (r, nx, tp) =>
      (r.1, (r.2 + ((.fin (F.fl ((hourOf tp.1 : ℝ) / 24)) * (nx.2 - r.2).rnd F.fl).rnd F.fl + tdewDeltaR F kr (hourOf tp.1)).rnd F.fl).rnd F.fl))
  else .error .valueError

/-- humidity.py:64-90: the methods 'minimal', 'dewpoint_regression' and 'linear_dewpoint_variation' -/
def humidityDewpointR (F : FloatHum) (api : PandasApi) (daily : Frame ℝ) (method : String) (temp : Option (Series (XF ℝ))) (a0 a1 kr : Option ℝ) :
    Py (Series (XF ℝ)) := do
  let a0 := if method = "minimal" then some 0 else a0
  let a1 := if method = "minimal" then some 1 else a1
  match a0, a1 with
  | some a0, some a1 => do
    let tmin ← daily.attr "tmin"
    let tdewDaily : Series (XF ℝ) := tmin.map fun r => (r.1, (.fin a0 + (.fin a1 * r.2).rnd F.fl).rnd F.fl)
    let tdew ← distributeEqually api tdewDaily
    let kr ← (if method = "linear_dewpoint_variation" then
        match kr with
        | none => throw .assertionError
        | some kr => if kr = 6 ∨ kr = 12 then .ok kr else throw .assertionError
      else .ok 0 : Py ℝ)
    match temp with
    | none => .error .attributeError
    | some temp => do
      let tdew ← if method = "linear_dewpoint_variation" then linearDewpointR F kr tdew temp else .ok tdew
      let es := vaporPressureScalarR F tdew.values (.fin 100)
      let e := vaporPressureScalarR F temp.values (.fin 100)
      if es.length ≠ e.length then .error .valueError
      else Series.make temp.index (List.zipWith (fun x y => ((.fin 100 * x).rnd F.fl / y).rnd F.fl) es e)
  | _, _ => throw .assertionError

/-- humidity.py:91-101: method 'min_max' -/
def humidityMinMaxR (F : FloatHum) (api : PandasApi) (daily : Frame ℝ) (temp : Option (Series (XF ℝ))) : Py (Series (XF ℝ)) := do
  if !(daily.has "hum_min" && daily.has "hum_max") then throw .assertionError
  let hmin ← distributeEqually api (← daily.attr "hum_min")
  let hmax ← distributeEqually api (← daily.attr "hum_max")
  let tmin ← distributeEqually api (← daily.attr "tmin")
  let tmax ← distributeEqually api (← daily.attr "tmax")
  match temp with
  | none => .error .typeError
  | some temp => do
    let a ← Series.align (fun x y => (x - y).rnd F.fl) temp tmin
    let b ← Series.align (fun x y => (x - y).rnd F.fl) tmax tmin
    let q ← Series.align (fun x y => (x / y).rnd F.fl) a b
    let c ← Series.align (fun x y => (x - y).rnd F.fl) hmin hmax
    let p ← Series.align (fun x y => (x * y).rnd F.fl) q c
    Series.align (fun x y => (x + y).rnd F.fl) hmax p

/-- humidity.py:112-118: the correction with the observed daily means -/
def preserveDailyMeanR (F : FloatHum) (mean : List (XF ℝ) → XF ℝ) (api : PandasApi) (daily : Frame ℝ) (hum : Series (XF ℝ)) : Py (Series (XF ℝ)) := do
  let obs ← daily.attr "hum"
  let diff ← Series.align (fun x y => (x - y).rnd F.fl) (hum.resampleD mean) obs
  let bias ← distributeEqually api diff
  let bias : Series (XF ℝ) := bias.map fun r => (r.1, if r.2.isNan then .fin 0 else r.2)
  Series.alignLeft (fun x y => (x - y).rnd F.fl) hum bias

/-- humidity.py:52-110: the values before the correction and the clipping -/
def humidityRawR (F : FloatHum) (api : PandasApi) (daily : Frame ℝ) (method : String) (temp : Option (Series (XF ℝ)))
    (a0 a1 kr : Option ℝ) (table : Option (CatMeans ℝ)) : Py (Series (XF ℝ)) := do
  if ¬ (method = "equal" ∨ method = "minimal" ∨ method = "dewpoint_regression" ∨ method = "min_max" ∨
      method = "linear_dewpoint_variation" ∨ method = "month_hour_precip_mean") then throw .assertionError
  if method = "equal" then do distributeEqually api (← daily.attr "hum")
  else if method = "minimal" ∨ method = "dewpoint_regression" ∨ method = "linear_dewpoint_variation" then
    humidityDewpointR F api daily method temp a0 a1 kr
  else if method = "min_max" then humidityMinMaxR F api daily temp
  else humidityCategorical api daily table

/-- humidity.py:28-120 `disaggregate_humidity` -/
def disaggregateHumidityR (F : FloatHum) (mean : List (XF ℝ) → XF ℝ) (api : PandasApi) (daily : Frame ℝ) (method : String := "equal")
    (temp : Option (Series (XF ℝ)) := none) (a0 a1 kr : Option ℝ := none) (table : Option (CatMeans ℝ) := none) (preserve : Bool := false) :
    Py (Series (XF ℝ)) := do
  let hum ← humidityRawR F api daily method temp a0 a1 kr table
  let hum ← if preserve then preserveDailyMeanR F mean api daily hum else .ok hum
  .ok (hum.map fun r => (r.1, r.2.clip 0 100))

end

end Melodist
