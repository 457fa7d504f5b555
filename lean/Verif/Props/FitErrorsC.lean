import Verif.Props.FitErrorsB
import Verif.Props.ParamErrors

/-!
# C170: from observed radiation to disaggregated radiation
-/

set_option linter.unusedSectionVars false

namespace Melodist
open Spec StatsObj

noncomputable section

/-- a line between two points where it is small -/
theorem between_small {α β r0 r1 r B : ℝ} (h0 : |α + β * r0| ≤ B) (h1 : |α + β * r1| ≤ B) (hr0 : r0 ≤ r) (hr1 : r ≤ r1) : |α + β * r| ≤ B := by
  rw [abs_le] at *
  rcases le_total 0 β with h | h
  · have a1 := mul_le_mul_of_nonneg_left hr0 h
    have a2 := mul_le_mul_of_nonneg_left hr1 h
    constructor <;> linarith [h0.1, h0.2, h1.1, h1.2]
  · have a1 := mul_le_mul_of_nonpos_left hr0 h
    have a2 := mul_le_mul_of_nonpos_left hr1 h
    constructor <;> linarith [h0.1, h0.2, h1.1, h1.2]

/-- an hour of 'pot_rad_via_ssd' -/
theorem ssd_cell {api : PandasApi} {daily : Frame ℝ} {d0 d1 : Int} {n m : Nat} (hi : daily.index = (List.range n).map fun i : Nat => at00 (d0 + i)) (hn : 0 < n)
    (s : Nat → XF ℝ) (hs : daily.col? "ssd" = some (dailyS d0 n s)) (st : Nat → SunTimes) (p : Nat → Nat → XF ℝ) (h1 : d1 ≤ d0) (h2 : d0 + n ≤ d1 + m)
    {par bc : ParPair ℝ} {course : Option (MeanCourse ℝ)} {a b : Int → ℝ}
    (h : ∀ i : Nat, i < n → ParAt par (monthOf (at00 (d0 + i))) (.fin (a (monthOf (at00 (d0 + i))))) (.fin (b (monthOf (at00 (d0 + i)))))) {out : Series (XF ℝ)}
    (ho : disaggregateRadiation api daily (some (dailyS d0 n st)) (some (hourlyS d1 m p)) "pot_rad_via_ssd" par bc course = .ok out)
    {i : Nat} (hi' : i < n) {q : Nat → ℝ} (hq : ∀ h < 24, p (d0 + i - d1).toNat h = .fin (q h))
    {l x : ℝ} (hl : (st i).daylength = .fin l) (hl0 : 0 < l) (hx : s i = .fin x) {k : Nat} (hk : k < 24) :
    (dayCells out (d0 + i))[k]? = some (radCell (.fin (q k)) (.fin ((day24 q).sum / 24))
        (.fin ((a (monthOf (at00 (d0 + i))) + b (monthOf (at00 (d0 + i))) * x / l) * ((day24 q).sum / 24)))) := by
  have e : d0 + (i : Int) = d1 + ((d0 + i - d1).toNat : Int) := by omega
  unfold disaggregateRadiation at ho
  rw [if_neg (by simp), temp_hourly_index api hi hn, py_ok_bind, if_neg (by decide)] at ho
  dsimp only at ho
  rw [if_neg (by decide), if_pos rfl, resampleD_hourlyS,
    ssdDaily_eq hi hs st _ h1 h2 (a := fun m => .fin (a m)) (b := fun m => .fin (b m)) h, py_ok_bind, radiationCore_eq d0 hn] at ho
  cases ho
  rw [e, dayCells_hourlyS d1 _ (by omega), ← e, lastValue_self hi', day24_getElem? _ hk, hq k hk, meanSkip_day24 hq, hl, if_pos (by simpa using hl0), hx, XF.fin_mul_fin,
    XF.fin_div_fin_of_ne _ hl0.ne', XF.fin_add_fin, XF.fin_mul_fin]

/-- hours of a day whose relative sunshine duration lies between those of two days on which the estimates differ by at most `E` -/
theorem ssd_between {ds : List Int} {s l pq : Int → ℝ} {E : ℝ}
    {api : PandasApi} {daily : Frame ℝ} {d0 d1 : Int} {n m : Nat} (hi : daily.index = (List.range n).map fun i : Nat => at00 (d0 + i)) (hn : 0 < n)
    (sd : Nat → XF ℝ) (hs : daily.col? "ssd" = some (dailyS d0 n sd)) (st : Nat → SunTimes) (p : Nat → Nat → XF ℝ) (h1 : d1 ≤ d0) (h2 : d0 + n ≤ d1 + m)
    {par par' bc bc' : ParPair ℝ} {course course' : Option (MeanCourse ℝ)} {a b a' b' : Int → ℝ}
    (h : ∀ i : Nat, i < n → ParAt par (monthOf (at00 (d0 + i))) (.fin (a (monthOf (at00 (d0 + i))))) (.fin (b (monthOf (at00 (d0 + i))))))
    (h' : ∀ i : Nat, i < n → ParAt par' (monthOf (at00 (d0 + i))) (.fin (a' (monthOf (at00 (d0 + i))))) (.fin (b' (monthOf (at00 (d0 + i)))))) {out out' : Series (XF ℝ)}
    (ho : disaggregateRadiation api daily (some (dailyS d0 n st)) (some (hourlyS d1 m p)) "pot_rad_via_ssd" par bc course = .ok out)
    (ho' : disaggregateRadiation api daily (some (dailyS d0 n st)) (some (hourlyS d1 m p)) "pot_rad_via_ssd" par' bc' course' = .ok out')
    {i : Nat} (hi' : i < n)
    (key : ∀ f ∈ ds, |(a (monthOf (at00 (d0 + i))) + b (monthOf (at00 (d0 + i))) * s f / l f) * pq f - (a' (monthOf (at00 (d0 + i))) + b' (monthOf (at00 (d0 + i))) * s f / l f) * pq f| ≤ E)
    {q : Nat → ℝ} (hq : ∀ h < 24, p (d0 + i - d1).toNat h = .fin (q h)) (hq0 : ∀ h < 24, 0 ≤ q h) (hpos : 0 < (day24 q).sum)
    {L x : ℝ} (hL : (st i).daylength = .fin L) (hL0 : 0 < L) (hx : sd i = .fin x)
    {d e : Int} (hd : d ∈ ds) (he : e ∈ ds) {Q : ℝ} (hQ : 0 < Q) (hQd : Q ≤ pq d) (hQe : Q ≤ pq e) (hrd : s d / l d ≤ x / L) (hre : x / L ≤ s e / l e) {k : Nat} (hk : k < 24) :
    ∃ c c', (dayCells out (d0 + i))[k]? = some c ∧ (dayCells out' (d0 + i))[k]? = some c' ∧
      Near (E / Q * q k + 0.01) c c' := by
  have hμ : 0 < (day24 q).sum / 24 := by positivity
  refine ⟨_, _, ssd_cell hi hn sd hs st p h1 h2 h ho hi' hq hL hL0 hx hk, ssd_cell hi hn sd hs st p h1 h2 h' ho' hi' hq hL hL0 hx hk, ?_⟩
  generalize a (monthOf (at00 (d0 + i))) = A at *
  generalize a' (monthOf (at00 (d0 + i))) = A' at *
  generalize b (monthOf (at00 (d0 + i))) = B at *
  generalize b' (monthOf (at00 (d0 + i))) = B' at *
  generalize (day24 q).sum / 24 = μ at *
  have one : ∀ f ∈ ds, Q ≤ pq f → |(A - A') + (B - B') * (s f / l f)| ≤ E / Q := by
    intro f hf hQf
    have := key f hf
    rw [show (A + B * s f / l f) * pq f - (A' + B' * s f / l f) * pq f = ((A - A') + (B - B') * (s f / l f)) * pq f by ring, abs_mul, abs_of_pos (hQ.trans_le hQf)] at this
    rw [le_div_iff₀ hQ]
    exact (mul_le_mul_of_nonneg_left hQf (abs_nonneg _)).trans this
  have hmid := between_small (one d hd hQd) (one e he hQe) hrd hre
  have hc : 0 ≤ q k / μ := div_nonneg (hq0 k hk) hμ.le
  have := radCell_near (ε := |(A + B * x / L) * μ - (A' + B' * x / L) * μ|) (c := q k / μ) (p := .fin (q k)) (mean := .fin μ) (g := .fin ((A + B * x / L) * μ))
    (g' := .fin ((A' + B' * x / L) * μ)) (abs_nonneg _) hc (.inr ⟨_, XF.fin_div_fin_of_ne _ hμ.ne', (abs_of_nonneg hc).le⟩) le_rfl
  refine Near.weaken (add_le_add ?_ le_rfl) this
  rw [← sub_mul, abs_mul, abs_of_pos hμ, show q k / μ * (|A + B * x / L - (A' + B' * x / L)| * μ) = |A + B * x / L - (A' + B' * x / L)| * q k by field_simp]
  refine mul_le_mul_of_nonneg_right ?_ (hq0 k hk)
  rw [show A + B * x / L - (A' + B' * x / L) = (A - A') + (B - B') * (x / L) by ring]
  exact hmid

/-- **C170** (Angstroem, end to end) The Angstroem parameters are fitted twice, to observations `o` and `o'` on the same days `ds` (sunshine durations `s`, day lengths `l`, potential radiation `pq`), and the same
daily data are disaggregated by 'pot_rad_via_ssd' with the two results.  On a day whose relative sunshine duration `x / L` lies between those of two of the days of the fit with potential radiation of at least
`Q > 0`, the values of an hour with the potential `q k` differ by at most `E / Q · q k + 0.01`, where `E` is the root of the sum of the squared differences of the observations. -/
theorem C170_angstroem {curveFit curveFit' : (ℝ → ℝ → List (XF ℝ)) → List (XF ℝ) → ℝ × ℝ → Py (XF ℝ × XF ℝ)} (hfit : LeastSquares curveFit) (hfit' : LeastSquares curveFit')
    {ssd dl pot obs obs' : Series (XF ℝ)} {ds : List Int} {s l pq o o' : Int → ℝ} (S : Sample ssd dl pot obs ds s l pq o) (S' : Sample ssd dl pot obs' ds s l pq o')
    (hl : ∀ d ∈ ds, l d ≠ 0)
    {api : PandasApi} {daily : Frame ℝ} {d0 d1 : Int} {n m : Nat} (hi : daily.index = (List.range n).map fun i : Nat => at00 (d0 + i)) (hn : 0 < n)
    (sd : Nat → XF ℝ) (hs : daily.col? "ssd" = some (dailyS d0 n sd)) (st : Nat → SunTimes) (p : Nat → Nat → XF ℝ) (h1 : d1 ≤ d0) (h2 : d0 + n ≤ d1 + m)
    {par par' bc bc' : ParPair ℝ} {course course' : Option (MeanCourse ℝ)} {a b a' b' : Int → ℝ}
    (h : ∀ i : Nat, i < n → ParAt par (monthOf (at00 (d0 + i))) (.fin (a (monthOf (at00 (d0 + i))))) (.fin (b (monthOf (at00 (d0 + i))))))
    (h' : ∀ i : Nat, i < n → ParAt par' (monthOf (at00 (d0 + i))) (.fin (a' (monthOf (at00 (d0 + i))))) (.fin (b' (monthOf (at00 (d0 + i)))))) {out out' : Series (XF ℝ)}
    (ho : disaggregateRadiation api daily (some (dailyS d0 n st)) (some (hourlyS d1 m p)) "pot_rad_via_ssd" par bc course = .ok out)
    (ho' : disaggregateRadiation api daily (some (dailyS d0 n st)) (some (hourlyS d1 m p)) "pot_rad_via_ssd" par' bc' course' = .ok out')
    {i : Nat} (hi' : i < n)
    (hp : fitAngstroem curveFit ssd dl pot obs = .ok (.fin (a (monthOf (at00 (d0 + i)))), .fin (b (monthOf (at00 (d0 + i))))))
    (hp' : fitAngstroem curveFit' ssd dl pot obs' = .ok (.fin (a' (monthOf (at00 (d0 + i)))), .fin (b' (monthOf (at00 (d0 + i))))))
    {q : Nat → ℝ} (hq : ∀ h < 24, p (d0 + i - d1).toNat h = .fin (q h)) (hq0 : ∀ h < 24, 0 ≤ q h) (hpos : 0 < (day24 q).sum)
    {L x : ℝ} (hL : (st i).daylength = .fin L) (hL0 : 0 < L) (hx : sd i = .fin x)
    {d e : Int} (hd : d ∈ ds) (he : e ∈ ds) {Q : ℝ} (hQ : 0 < Q) (hQd : Q ≤ pq d) (hQe : Q ≤ pq e) (hrd : s d / l d ≤ x / L) (hre : x / L ≤ s e / l e) {k : Nat} (hk : k < 24) :
    ∃ c c', (dayCells out (d0 + i))[k]? = some c ∧ (dayCells out' (d0 + i))[k]? = some c' ∧
      Near (Real.sqrt (ds.map fun d => (o d - o' d) ^ 2).sum / Q * q k + 0.01) c c' := by
  obtain ⟨a1, b1, a1', b1', e1, e2, _, key⟩ := C168_angstroem hfit hfit' S S' hl hp hp'
  rw [← XF.fin.inj (congrArg Prod.fst e1), ← XF.fin.inj (congrArg Prod.snd e1), ← XF.fin.inj (congrArg Prod.fst e2), ← XF.fin.inj (congrArg Prod.snd e2)] at key
  exact ssd_between hi hn sd hs st p h1 h2 h h' ho ho' hi' key hq hq0 hpos hL hL0 hx hd he hQ hQd hQe hrd hre hk

/-- **C170** (true parameters) The Angstroem parameters are fitted to observations `o`, and the same daily data are disaggregated by 'pot_rad_via_ssd' with the result and with any other parameters `a'`, `b'`
("the true ones").  On a day as in C170 the values of an hour differ by at most `E / Q · q k + 0.01`, where `E` is the root of the sum of the squared deviations of the observations from the formula with `a'`,
`b'`. -/
theorem C170_truth {curveFit : (ℝ → ℝ → List (XF ℝ)) → List (XF ℝ) → ℝ × ℝ → Py (XF ℝ × XF ℝ)} (hfit : LeastSquares curveFit)
    {ssd dl pot obs : Series (XF ℝ)} {ds : List Int} {s l pq o : Int → ℝ} (S : Sample ssd dl pot obs ds s l pq o) (hl : ∀ d ∈ ds, l d ≠ 0)
    {api : PandasApi} {daily : Frame ℝ} {d0 d1 : Int} {n m : Nat} (hi : daily.index = (List.range n).map fun i : Nat => at00 (d0 + i)) (hn : 0 < n)
    (sd : Nat → XF ℝ) (hs : daily.col? "ssd" = some (dailyS d0 n sd)) (st : Nat → SunTimes) (p : Nat → Nat → XF ℝ) (h1 : d1 ≤ d0) (h2 : d0 + n ≤ d1 + m)
    {par par' bc bc' : ParPair ℝ} {course course' : Option (MeanCourse ℝ)} {a b a' b' : Int → ℝ}
    (h : ∀ i : Nat, i < n → ParAt par (monthOf (at00 (d0 + i))) (.fin (a (monthOf (at00 (d0 + i))))) (.fin (b (monthOf (at00 (d0 + i))))))
    (h' : ∀ i : Nat, i < n → ParAt par' (monthOf (at00 (d0 + i))) (.fin (a' (monthOf (at00 (d0 + i))))) (.fin (b' (monthOf (at00 (d0 + i)))))) {out out' : Series (XF ℝ)}
    (ho : disaggregateRadiation api daily (some (dailyS d0 n st)) (some (hourlyS d1 m p)) "pot_rad_via_ssd" par bc course = .ok out)
    (ho' : disaggregateRadiation api daily (some (dailyS d0 n st)) (some (hourlyS d1 m p)) "pot_rad_via_ssd" par' bc' course' = .ok out')
    {i : Nat} (hi' : i < n)
    (hp : fitAngstroem curveFit ssd dl pot obs = .ok (.fin (a (monthOf (at00 (d0 + i)))), .fin (b (monthOf (at00 (d0 + i))))))
    {q : Nat → ℝ} (hq : ∀ h < 24, p (d0 + i - d1).toNat h = .fin (q h)) (hq0 : ∀ h < 24, 0 ≤ q h) (hpos : 0 < (day24 q).sum)
    {L x : ℝ} (hL : (st i).daylength = .fin L) (hL0 : 0 < L) (hx : sd i = .fin x)
    {d e : Int} (hd : d ∈ ds) (he : e ∈ ds) {Q : ℝ} (hQ : 0 < Q) (hQd : Q ≤ pq d) (hQe : Q ≤ pq e) (hrd : s d / l d ≤ x / L) (hre : x / L ≤ s e / l e) {k : Nat} (hk : k < 24) :
    ∃ c c', (dayCells out (d0 + i))[k]? = some c ∧ (dayCells out' (d0 + i))[k]? = some c' ∧
      Near (Real.sqrt (ds.map fun d => (o d - (a' (monthOf (at00 (d0 + i))) + b' (monthOf (at00 (d0 + i))) * s d / l d) * pq d) ^ 2).sum / Q * q k + 0.01) c c' := by
  obtain ⟨a1, b1, e1, key⟩ := C168_angstroem_truth hfit S hl (a' (monthOf (at00 (d0 + i)))) (b' (monthOf (at00 (d0 + i)))) hp
  rw [← XF.fin.inj (congrArg Prod.fst e1), ← XF.fin.inj (congrArg Prod.snd e1)] at key
  exact ssd_between hi hn sd hs st p h1 h2 h h' ho ho' hi' (fun f hf => term_le_root (e := fun f => (a (monthOf (at00 (d0 + i))) + b (monthOf (at00 (d0 + i))) * s f / l f) * pq f - (a' (monthOf (at00 (d0 + i))) + b' (monthOf (at00 (d0 + i))) * s f / l f) * pq f) key hf)
    hq hq0 hpos hL hL0 hx hd he hQ hQd hQe hrd hre hk

/-! ## concrete cases -/

/-- C170: observations 25 and 62.5 instead of 30 and 65 (as in C168, errors 5 and 2.5, E < 5.6, potential 100): the values at noon of a day with 6 of 12 hours of sunshine and the potential 239 differ by less than 14 -/
example : ∃ a b a' b', fitAngstroem bestFit (onDays [0, 1] fun d => .fin (6 * d)) (onDays [0, 1] fun _ => .fin 12) (onDays [0, 1] fun _ => .fin 100)
      (onDays [0, 1] fun d => .fin ((1 / 4 + 3 / 4 * (6 * d) / 12) * 100)) = .ok (.fin a, .fin b) ∧
    fitAngstroem bestFit (onDays [0, 1] fun d => .fin (6 * d)) (onDays [0, 1] fun _ => .fin 12) (onDays [0, 1] fun _ => .fin 100)
      (onDays [0, 1] fun d => .fin ((3 / 10 + 7 / 10 * (6 * d) / 12) * 100)) = .ok (.fin a', .fin b') ∧ ∃ out out',
    disaggregateRadiation .modern exRad (some (dailyS 0 2 fun _ => ⟨.fin 6, .fin 12, .fin 18, .fin 12⟩)) (some (hourlyS 0 2 exPot))
      "pot_rad_via_ssd" (.scalar (.fin a) (.fin b)) = .ok out ∧
    disaggregateRadiation .modern exRad (some (dailyS 0 2 fun _ => ⟨.fin 6, .fin 12, .fin 18, .fin 12⟩)) (some (hourlyS 0 2 exPot))
      "pot_rad_via_ssd" (.scalar (.fin a') (.fin b')) = .ok out' ∧
    ∃ c c', (dayCells out (0 + (0 : Nat)))[12]? = some c ∧ (dayCells out' (0 + (0 : Nat)))[12]? = some c' ∧ Near (14 : ℝ) c c' := by
  obtain ⟨S, p, hp⟩ := two_days (1 / 4) (3 / 4)
  obtain ⟨S', p', hp'⟩ := two_days (3 / 10) (7 / 10)
  obtain ⟨a, b, a', b', rfl, rfl, _, _⟩ := C168_angstroem bestFit_leastSquares bestFit_leastSquares S S' (fun _ _ => by norm_num) hp hp'
  refine ⟨a, b, a', b', hp, hp', ?_⟩
  have hs : exRad.col? "ssd" = some (dailyS 0 2 fun i => if i = 0 then .fin 6 else .fin 12) := rfl
  obtain ⟨out, h, -⟩ := C58_disaggregate (m := 2) (d1 := 0) .modern (daily := exRad) (d0 := 0) (n := 2) rfl (by decide) _ hs
    (fun _ => ⟨.fin 6, .fin 12, .fin 18, .fin 12⟩) exPot (by decide) (by decide) (.scalar (.fin a) (.fin b))
    (.scalar (.fin 0.75) (.fin 2.4)) none (fun _ => a) (fun _ => b) (fun _ _ => ⟨rfl, rfl⟩)
  obtain ⟨out', h', -⟩ := C58_disaggregate (m := 2) (d1 := 0) .modern (daily := exRad) (d0 := 0) (n := 2) rfl (by decide) _ hs
    (fun _ => ⟨.fin 6, .fin 12, .fin 18, .fin 12⟩) exPot (by decide) (by decide) (.scalar (.fin a') (.fin b'))
    (.scalar (.fin 0.75) (.fin 2.4)) none (fun _ => a') (fun _ => b') (fun _ _ => ⟨rfl, rfl⟩)
  obtain ⟨c, c', e, e', hb⟩ := C170_angstroem bestFit_leastSquares bestFit_leastSquares S S' (fun _ _ => by norm_num)
    (m := 2) (d1 := 0) (api := .modern) (daily := exRad) (d0 := 0) (n := 2) rfl (by decide) _ hs
    (fun _ => ⟨.fin 6, .fin 12, .fin 18, .fin 12⟩) exPot (by decide) (by decide)
    (par := .scalar (.fin a) (.fin b)) (par' := .scalar (.fin a') (.fin b')) (a := fun _ => a) (b := fun _ => b) (a' := fun _ => a') (b' := fun _ => b')
    (fun _ _ => ⟨rfl, rfl⟩) (fun _ _ => ⟨rfl, rfl⟩) h h' (i := 0) (by decide) hp hp' (q := exPotReal) (exPot_fin 0) exPot_nonneg (by rw [exPot_sum]; norm_num)
    (L := 12) (x := 6) rfl (by norm_num) rfl (d := 0) (e := 1) (by simp) (by simp) (Q := 100) (by norm_num) le_rfl le_rfl (by norm_num) (by norm_num) (k := 12) (by decide)
  refine ⟨out, out', h, h', c, c', e, e', Near.weaken ?_ hb⟩
  have : Real.sqrt ((([0, 1] : List Int).map fun d => ((1 / 4 + 3 / 4 * (6 * (d : ℝ)) / 12) * 100 - (3 / 10 + 7 / 10 * (6 * (d : ℝ)) / 12) * 100) ^ 2).sum) ≤ 5.6 := by
    rw [Real.sqrt_le_left (by norm_num)]
    norm_num
  have h12 : exPotReal 12 = 239 := by norm_num [exPotReal]
  rw [h12]
  have h3 := mul_le_mul_of_nonneg_right (div_le_div_of_nonneg_right this (by norm_num : (0 : ℝ) ≤ 100)) (by norm_num : (0 : ℝ) ≤ 239)
  refine (add_le_add h3 le_rfl).trans ?_
  norm_num

/-- C170: the parameters fitted to the observations 25 and 62.5, and the parameters 0.3 and 0.7, whose formula gives 30 and 65: the values at noon differ by less than 14 -/
example : ∃ a b, fitAngstroem bestFit (onDays [0, 1] fun d => .fin (6 * d)) (onDays [0, 1] fun _ => .fin 12) (onDays [0, 1] fun _ => .fin 100)
      (onDays [0, 1] fun d => .fin ((1 / 4 + 3 / 4 * (6 * d) / 12) * 100)) = .ok (.fin a, .fin b) ∧ ∃ out out',
    disaggregateRadiation .modern exRad (some (dailyS 0 2 fun _ => ⟨.fin 6, .fin 12, .fin 18, .fin 12⟩)) (some (hourlyS 0 2 exPot))
      "pot_rad_via_ssd" (.scalar (.fin a) (.fin b)) = .ok out ∧
    disaggregateRadiation .modern exRad (some (dailyS 0 2 fun _ => ⟨.fin 6, .fin 12, .fin 18, .fin 12⟩)) (some (hourlyS 0 2 exPot))
      "pot_rad_via_ssd" (.scalar (.fin (3 / 10)) (.fin (7 / 10))) = .ok out' ∧
    ∃ c c', (dayCells out (0 + (0 : Nat)))[12]? = some c ∧ (dayCells out' (0 + (0 : Nat)))[12]? = some c' ∧ Near (14 : ℝ) c c' := by
  obtain ⟨S, p, hp⟩ := two_days (1 / 4) (3 / 4)
  obtain ⟨a, b, rfl, _⟩ := C168_angstroem_truth bestFit_leastSquares S (fun _ _ => by norm_num) (3 / 10) (7 / 10) hp
  refine ⟨a, b, hp, ?_⟩
  have hs : exRad.col? "ssd" = some (dailyS 0 2 fun i => if i = 0 then .fin 6 else .fin 12) := rfl
  obtain ⟨out, h, -⟩ := C58_disaggregate (m := 2) (d1 := 0) .modern (daily := exRad) (d0 := 0) (n := 2) rfl (by decide) _ hs
    (fun _ => ⟨.fin 6, .fin 12, .fin 18, .fin 12⟩) exPot (by decide) (by decide) (.scalar (.fin a) (.fin b))
    (.scalar (.fin 0.75) (.fin 2.4)) none (fun _ => a) (fun _ => b) (fun _ _ => ⟨rfl, rfl⟩)
  obtain ⟨out', h', -⟩ := C58_disaggregate (m := 2) (d1 := 0) .modern (daily := exRad) (d0 := 0) (n := 2) rfl (by decide) _ hs
    (fun _ => ⟨.fin 6, .fin 12, .fin 18, .fin 12⟩) exPot (by decide) (by decide) (.scalar (.fin (3 / 10)) (.fin (7 / 10)))
    (.scalar (.fin 0.75) (.fin 2.4)) none (fun _ => 3 / 10) (fun _ => 7 / 10) (fun _ _ => ⟨rfl, rfl⟩)
  obtain ⟨c, c', e, e', hb⟩ := C170_truth bestFit_leastSquares S (fun _ _ => by norm_num)
    (m := 2) (d1 := 0) (api := .modern) (daily := exRad) (d0 := 0) (n := 2) rfl (by decide) _ hs
    (fun _ => ⟨.fin 6, .fin 12, .fin 18, .fin 12⟩) exPot (by decide) (by decide)
    (par := .scalar (.fin a) (.fin b)) (par' := .scalar (.fin (3 / 10)) (.fin (7 / 10))) (a := fun _ => a) (b := fun _ => b) (a' := fun _ => 3 / 10) (b' := fun _ => 7 / 10)
    (fun _ _ => ⟨rfl, rfl⟩) (fun _ _ => ⟨rfl, rfl⟩) h h' (i := 0) (by decide) hp (q := exPotReal) (exPot_fin 0) exPot_nonneg (by rw [exPot_sum]; norm_num)
    (L := 12) (x := 6) rfl (by norm_num) rfl (d := 0) (e := 1) (by simp) (by simp) (Q := 100) (by norm_num) le_rfl le_rfl (by norm_num) (by norm_num) (k := 12) (by decide)
  refine ⟨out, out', h, h', c, c', e, e', Near.weaken ?_ hb⟩
  have : Real.sqrt ((([0, 1] : List Int).map fun d => ((1 / 4 + 3 / 4 * (6 * (d : ℝ)) / 12) * 100 - (3 / 10 + 7 / 10 * (6 * (d : ℝ)) / 12) * 100) ^ 2).sum) ≤ 5.6 := by
    rw [Real.sqrt_le_left (by norm_num)]
    norm_num
  have h12 : exPotReal 12 = 239 := by norm_num [exPotReal]
  rw [h12]
  have h3 := mul_le_mul_of_nonneg_right (div_le_div_of_nonneg_right this (by norm_num : (0 : ℝ) ≤ 100)) (by norm_num : (0 : ℝ) ≤ 239)
  refine (add_le_add h3 le_rfl).trans ?_
  norm_num

end

end Melodist
