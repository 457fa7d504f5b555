import Verif.Lemmas.Station
import Verif.Lemmas.RadiationModels
import Verif.Props.Index
import Verif.Props.StationState

/-!
# C63, C83: assigning daily data to a station
-/

set_option linter.unusedSectionVars false

namespace Melodist
open Spec

/-! ## Lemmas -/

theorem at?_some_mem {V : Type} {s : Series V} {t : Time} {v : V} (h : s.at? t = some v) : (t, v) ∈ s := by
  unfold Series.at? at h
  rw [Option.map_eq_some_iff] at h
  obtain ⟨⟨t', v'⟩, h1, rfl⟩ := h
  have h2 := List.find?_some h1
  obtain rfl : t' = t := by simpa using h2
  exact List.mem_of_find?_eq_some h1

theorem at?_of_row {V : Type} {s : Series V} {t : Time} {v : V} (hn : s.index.Nodup) (h : (t, v) ∈ s) : s.at? t = some v := by
  cases ha : s.at? t with
  | none =>
    unfold Series.at? at ha
    rw [Option.map_eq_none_iff, List.find?_eq_none] at ha
    exact absurd (by simp) (ha _ h)
  | some v' =>
    have h' := at?_some_mem ha
    unfold Series.index at hn
    have := List.inj_on_of_nodup_map hn h h' rfl
    rw [(Prod.mk.inj this).2]

theorem at?_none_of_not_mem {V : Type} {s : Series V} {t : Time} (h : t ∉ s.index) : s.at? t = none := by
  cases ha : s.at? t with
  | none => rfl
  | some v => exact absurd (List.mem_map.2 ⟨_, at?_some_mem ha, rfl⟩) h

theorem at?_exists {V : Type} {s : Series V} {t : Time} (h : t ∈ s.index) : ∃ v, s.at? t = some v := by
  obtain ⟨⟨t', v⟩, hm, rfl⟩ := List.mem_map.1 h
  cases ha : s.at? t' with
  | none =>
    unfold Series.at? at ha
    rw [Option.map_eq_none_iff, List.find?_eq_none] at ha
    exact absurd (by simp) (ha _ hm)
  | some v => exact ⟨v, rfl⟩

theorem zip_index {V : Type} {I : List Time} {c : List V} (h : c.length = I.length) : Series.index (I.zip c) = I := by
  unfold Series.index
  rw [List.map_fst_zip (by omega)]

theorem Frame.col?_index {K : Type} {f : Frame K} (hf : f.WF) {name : String} {s : Series (XF K)} (h : f.col? name = some s) : s.index = f.index := by
  unfold Frame.col? at h
  rw [Option.map_eq_some_iff] at h
  obtain ⟨c, hc, rfl⟩ := h
  exact zip_index (hf c (List.mem_of_find?_eq_some hc))

theorem zip_map_self {V : Type} (idx : List Time) (F : Time → V) : idx.zip (idx.map F) = idx.map fun t => (t, F t) := by
  induction idx with
  | nil => rfl
  | cons t ts ih => simp [ih]

theorem reindex_col? {K : Type} {f g : Frame K} {idx : List Time} (h : f.reindex idx = .ok g) (name : String) :
    g.index = idx ∧ g.cols.map Prod.fst = f.cols.map Prod.fst ∧ g.WF ∧
    g.col? name = (f.col? name).map fun s => idx.map fun t => (t, (s.at? t).getD .nan) := by
  unfold Frame.reindex at h
  by_cases hn : f.index.Nodup
  · rw [if_pos hn] at h
    obtain rfl := Except.ok.inj h
    refine ⟨rfl, ?_, ?_, ?_⟩
    · rw [List.map_map]; rfl
    · intro c hc
      obtain ⟨c', _, rfl⟩ := List.mem_map.1 hc
      simp
    · unfold Frame.col?
      dsimp only
      rw [List.find?_map, Option.map_map, Option.map_map]
      have e : ((fun c : String × List (XF K) => c.1 == name) ∘ fun c : String × List (XF K) => (c.1, idx.map fun t => (Series.at? (f.index.zip c.2) t).getD .nan)) =
          fun c : String × List (XF K) => c.1 == name := rfl
      rw [e]
      congr 1
      funext c
      simp only [Function.comp_apply]
      exact zip_map_self idx _
  · rw [if_neg hn] at h; cases h

/-- the days from `a` to `b` -/
def daysFromTo (a b : Int) : List Time := (List.range (b - a + 1).toNat).map fun i : Nat => at00 (a + i)

theorem mem_daysFromTo {a b : Int} {t : Time} : t ∈ daysFromTo a b ↔ ∃ d, a ≤ d ∧ d ≤ b ∧ t = at00 d := by
  unfold daysFromTo
  simp only [List.mem_map, List.mem_range]
  constructor
  · rintro ⟨i, hi, rfl⟩; exact ⟨a + i, by omega, by omega, rfl⟩
  · rintro ⟨d, h1, h2, rfl⟩; exact ⟨(d - a).toNat, by omega, by congr 1; omega⟩

theorem dateRange_daysFromTo {a b : Int} (h : a ≤ b) : dateRange (at00 a) (at00 b) DAY = daysFromTo a b := by
  obtain ⟨m, rfl⟩ : ∃ m : Nat, b = a + m := ⟨(b - a).toNat, by omega⟩
  have := dateRange_daily a (n := m + 1) (by omega)
  rw [show ((m + 1 - 1 : Nat) : Int) = m by omega] at this
  rw [this]
  unfold daysFromTo
  congr 2
  omega

/-- none of the temperature columns tmin, tmax, tmean has a value below 200 K -/
def KelvinTemps (f : Frame ℝ) : Prop :=
  ∀ name, name = "tmin" ∨ name = "tmax" ∨ name = "tmean" → ∀ s, f.col? name = some s → ∀ t x, (t, XF.fin x) ∈ s → 200 ≤ x

/-- no column has an infinite value -/
def NoInfinite (f : Frame ℝ) : Prop := ∀ name s, f.col? name = some s → ∀ r ∈ s, r.2.NanOrFin

theorem kelvin_plausible {f : Frame ℝ} (hinf : NoInfinite f) : plausibleTemps f ↔ KelvinTemps f := by
  unfold plausibleTemps KelvinTemps
  constructor
  · intro h name hn s hs t x hx
    have := h name (by simpa using hn) s hs _ hx
    rw [XF.lt_fin] at this
    exact not_lt.1 this
  · intro h name hn s hs r hr hlt
    rcases r with ⟨t, v⟩
    cases v with
    | fin x =>
      rw [XF.lt_fin] at hlt
      exact absurd (h name (by simpa using hn) s hs t x hr) (not_le.2 hlt)
    | nan => exact hlt
    | pinf => exact hinf _ _ hs _ hr
    | ninf => exact hinf _ _ hs _ hr

theorem sorted_days {ds : List Int} (h : ds.Pairwise (· < ·)) : (ds.map at00).Pairwise (· ≤ ·) ∧ (ds.map at00).Nodup := by
  constructor
  · rw [List.pairwise_map]; exact h.imp (by intro a b h; unfold at00; omega)
  · rw [List.Nodup, List.pairwise_map]; exact h.imp (by intro a b h; unfold at00; omega)

theorem dayResolution_at00 (ds : List Int) : dayResolution (ds.map at00) = true := by
  unfold dayResolution
  rw [List.all_eq_true]
  intro t ht
  obtain ⟨d, _, rfl⟩ := List.mem_map.1 ht
  unfold at00
  rw [beq_iff_eq]
  omega

theorem head_last_sorted {ds : List Int} (h : ds.Pairwise (· < ·)) {a b : Int} (ha : ds.head? = some a) (hb : ds.getLast? = some b) :
    a ∈ ds ∧ b ∈ ds ∧ ∀ d ∈ ds, a ≤ d ∧ d ≤ b := by
  refine ⟨List.mem_of_mem_head? (by rw [ha]; exact rfl), List.mem_of_mem_getLast? (by rw [hb]; exact rfl), fun d hd => ⟨?_, ?_⟩⟩
  · cases ds with
    | nil => simp at ha
    | cons x xs =>
      obtain rfl : x = a := by simpa using ha
      rcases List.mem_cons.1 hd with rfl | hd
      · exact le_refl _
      · exact (List.rel_of_pairwise_cons h hd).le
  · have hne : ds ≠ [] := by rintro rfl; simp at ha
    obtain ⟨l, x, rfl⟩ : ∃ l x, ds = l ++ [x] := ⟨_, _, (List.dropLast_append_getLast hne).symm⟩
    obtain rfl : x = b := by simpa using hb
    rcases List.mem_append.1 hd with hd | hd
    · exact ((List.pairwise_append.1 h).2.2 d hd x (by simp)).le
    · simp at hd; omega

theorem checkDaily_regular {f : Frame ℝ} (hf : f.WF) {ds : List Int} (hs : ds.Pairwise (· < ·)) (hi : f.index = ds.map at00) {a b : Int}
    (ha : ds.head? = some a) (hb : ds.getLast? = some b) (hinf : NoInfinite f) :
    ∃ g, f.reindex (daysFromTo a b) = .ok g ∧
      checkDaily (.frame f true false) = (open Classical in if KelvinTemps f then .ok g else .error .assertionError) := by
  obtain ⟨s1, s2⟩ := sorted_days hs
  have hg : ∃ g, f.reindex (daysFromTo a b) = .ok g := by unfold Frame.reindex; rw [if_pos (hi ▸ s2)]; exact ⟨_, rfl⟩
  obtain ⟨g, hg⟩ := hg
  obtain ⟨ma, mb, hin⟩ := head_last_sorted hs ha hb
  have hab := (hin a ma).2
  have hga : g.index = daysFromTo a b := (reindex_col? hg "").1
  refine ⟨g, hg, ?_⟩
  have hinfg : NoInfinite g := by
    intro name s hc r hr
    rw [(reindex_col? hg name).2.2.2, Option.map_eq_some_iff] at hc
    obtain ⟨s0, hs0, rfl⟩ := hc
    obtain ⟨t, _, rfl⟩ := List.mem_map.1 hr
    cases h : s0.at? t with
    | none => simp [h, XF.NanOrFin]
    | some v => simp only [h, Option.getD_some]; exact hinf _ _ hs0 _ (at?_some_mem h)
  have hk : plausibleTemps g ↔ KelvinTemps f := by
    rw [kelvin_plausible hinfg]
    unfold KelvinTemps
    constructor
    · intro h name hn s hc t x hx
      refine h name hn _ (by rw [(reindex_col? hg name).2.2.2, hc]; rfl) t x ?_
      have hidx := Frame.col?_index hf hc
      have hat := at?_of_row (by rw [hidx, hi]; exact s2) hx
      have ht : t ∈ ds.map at00 := hi ▸ hidx ▸ List.mem_map.2 ⟨_, hx, rfl⟩
      obtain ⟨d, hd, rfl⟩ := List.mem_map.1 ht
      exact List.mem_map.2 ⟨at00 d, mem_daysFromTo.2 ⟨d, (hin d hd).1, (hin d hd).2, rfl⟩, by rw [hat]; rfl⟩
    · intro h name hn s hc t x hx
      rw [(reindex_col? hg name).2.2.2, Option.map_eq_some_iff] at hc
      obtain ⟨s0, hs0, rfl⟩ := hc
      obtain ⟨t', _, e⟩ := List.mem_map.1 hx
      obtain ⟨rfl, e2⟩ := Prod.mk.inj e
      cases hat : s0.at? t' with
      | none => rw [hat] at e2; cases e2
      | some v =>
        rw [hat] at e2
        obtain rfl : v = .fin x := e2
        exact h name hn _ hs0 _ _ (at?_some_mem hat)
  unfold checkDaily
  dsimp only
  rw [if_neg (by simp), if_neg (by rw [hi, dayResolution_at00]; simp), if_neg (not_not.2 (hi ▸ s1))]
  have hh : f.index.head? = some (at00 a) := by rw [hi, List.head?_map, ha]; rfl
  have hl : f.index.getLast? = some (at00 b) := by rw [hi, List.getLast?_map, hb]; rfl
  rw [if_neg (by simp), hh, hl]
  dsimp only
  rw [dateRange_daysFromTo hab, hg]
  show (open Classical in if plausibleTemps g then Except.ok g else _) = _
  by_cases hp : plausibleTemps g
  · rw [if_pos hp, if_pos (hk.1 hp)]
  · rw [if_neg hp, if_neg (mt hk.2 hp)]

namespace World

/-- `data_disagg` of station `i` is a frame with exactly the 24 hours of each of the days from `a` to `b` and the five columns temp, precip, glob, hum, wind, all
cells missing; nothing else in the heap refers to it -/
def FreshDisagg (w w' : World) (i : Nat) (a b : Int) : Prop :=
  (w'.stations i).disagg = some w.nFrames ∧
  (∀ t, t ∈ (w'.frames w.nFrames).index ↔ ∃ d, a ≤ d ∧ d ≤ b ∧ ∃ h < 24, t = atHour d h) ∧
  (w'.frames w.nFrames).index.Pairwise (· < ·) ∧
  (w'.frames w.nFrames).cols.map Prod.fst = ["temp", "precip", "glob", "hum", "wind"] ∧
  (∀ c ∈ (w'.frames w.nFrames).cols, c.2.length = (w'.frames w.nFrames).index.length ∧ ∀ x ∈ c.2, x = XF.nan)

/-- stations other than `i`, statistics objects and frames that existed before are unchanged, and station `i` keeps coordinates and statistics object -/
def OthersKept (w w' : World) (i : Nat) : Prop :=
  (∀ j, j ≠ i → w'.stations j = w.stations j) ∧ w'.stats = w.stats ∧ (∀ k, k ≠ w.nFrames → w'.frames k = w.frames k) ∧
  w'.nStations = w.nStations ∧ (w'.stations i).lon = (w.stations i).lon ∧ (w'.stations i).lat = (w.stations i).lat ∧
  (w'.stations i).tz = (w.stations i).tz ∧ (w'.stations i).stat = (w.stations i).stat

theorem days_hourlyIndex (api : PandasApi) {a b : Int} (h : a ≤ b) : ∃ idx, hourlyIndex api (daysFromTo a b) = .ok idx ∧
    idx.Pairwise (· < ·) ∧ ∀ t, t ∈ idx ↔ ∃ d, a ≤ d ∧ d ≤ b ∧ ∃ h < 24, t = atHour d h := by
  obtain ⟨idx, h1, _, h3, h4⟩ := C01_hourly_index_gapfree api a (b - a + 1).toNat (by omega) false
  refine ⟨idx, h1, h3, fun t => ?_⟩
  rw [h4]
  constructor
  · rintro ⟨i, hi, h, hh, rfl⟩; exact ⟨a + i, by omega, by omega, h, hh, rfl⟩
  · rintro ⟨d, h1, h2, h, hh, rfl⟩; exact ⟨(d - a).toNat, by omega, h, hh, by congr 1; omega⟩

theorem setDaily_contiguous (api : PandasApi) (w : World) (i : Nat) {arg : DailyArg} {g : Frame ℝ} {a b : Int} (hab : a ≤ b)
    (hc : checkDaily arg = .ok g) (hg : g.index = daysFromTo a b) :
    ((w.setDaily api i arg).1.stations i).daily = some g ∧ FreshDisagg w (w.setDaily api i arg).1 i a b ∧ OthersKept w (w.setDaily api i arg).1 i ∧
    ((w.stations i).tz = none → (w.setDaily api i arg).2 = none ∧ ((w.setDaily api i arg).1.stations i).sun = (w.stations i).sun) ∧
    ((w.stations i).tz ≠ none → (w.stations i).lon ≠ none → (w.stations i).lat ≠ none →
      (w.setDaily api i arg).2 = none ∧ SunCurrent (w.setDaily api i arg).1 i) ∧
    ((w.stations i).tz ≠ none → (w.stations i).lon = none ∨ (w.stations i).lat = none →
      (w.setDaily api i arg).2 = some .typeError ∧ ((w.setDaily api i arg).1.stations i).sun = (w.stations i).sun) := by
  obtain ⟨idx, hidx, hsort, hmem⟩ := days_hourlyIndex api hab
  rcases setDaily_inv api w i arg with ⟨e, he, _⟩ | ⟨e, f, he, hh, _⟩ | ⟨f, idx', he, hh, hs⟩
  · rw [hc] at he; cases he
  · rw [hc] at he; obtain rfl := Except.ok.inj he; rw [hg, hidx] at hh; cases hh
  rw [hc] at he
  obtain rfl := Except.ok.inj he
  rw [hg, hidx] at hh
  obtain rfl := Except.ok.inj hh
  -- what the two possible final heaps have in common
  have hcommon : ∀ w' : World, (∃ sun, w'.stations i = { w.stations i with daily := some g, disagg := some w.nFrames, sun := sun }) →
      (∀ j, j ≠ i → w'.stations j = w.stations j) → w'.stats = w.stats → w'.frames = (w.stored i g idx).frames → w'.nStations = w.nStations →
      (w'.stations i).daily = some g ∧ FreshDisagg w w' i a b ∧ OthersKept w w' i := by
    rintro w' ⟨sun, h1⟩ h2 h3 h4 h5
    have hf : w'.frames w.nFrames = emptyDisagg idx := by rw [h4]; simp [stored]
    refine ⟨by rw [h1], ⟨by rw [h1], ?_, ?_, ?_, ?_⟩, h2, h3, ?_, h5, by rw [h1], by rw [h1], by rw [h1], by rw [h1]⟩
    · rw [hf]; exact hmem
    · rw [hf]; exact hsort
    · rw [hf]; rfl
    · rw [hf]
      intro c hc
      obtain ⟨n, _, rfl⟩ := List.mem_map.1 hc
      refine ⟨by simp [emptyDisagg], fun x hx => ?_⟩
      obtain ⟨_, _, rfl⟩ := List.mem_map.1 hx
      rfl
    · intro k hk; rw [h4]; simp [stored, Function.update_of_ne hk]
  have hst : (w.stored i g idx).stations i = { w.stations i with daily := some g, disagg := some w.nFrames } := by simp [stored]
  have hoth : ∀ j, j ≠ i → (w.stored i g idx).stations j = w.stations j := fun j hj => by simp [stored, Function.update_of_ne hj]
  by_cases ht : (w.stations i).tz.isSome
  · rw [if_pos ht] at hs
    have htz := Option.isSome_iff_ne_none.1 ht
    rcases calcSunTimes_inv (w.stored i g idx) i with ⟨e, hcalc⟩ | ⟨f', lon, lat, tz, g1, g2, g3, g4, hcalc⟩
    · have hlate : (w.stations i).lon = none ∨ (w.stations i).lat = none := by
        by_contra hne
        push Not at hne
        obtain ⟨x, hx⟩ := Option.ne_none_iff_exists'.1 hne.1
        obtain ⟨y, hy⟩ := Option.ne_none_iff_exists'.1 hne.2
        obtain ⟨z, hz⟩ := Option.ne_none_iff_exists'.1 htz
        have := congrArg Prod.snd hcalc
        unfold calcSunTimes at this
        rw [hst] at this
        simp only [hx, hy, hz] at this
        cases this
      have hty : e = .typeError := by
        have := congrArg Prod.snd hcalc
        unfold calcSunTimes at this
        rw [hst] at this
        obtain ⟨z, hz⟩ := Option.ne_none_iff_exists'.1 htz
        rcases hlate with hl | hl
        · simp only [hl] at this; exact (Option.some.inj this).symm
        · cases hlo : (w.stations i).lon <;> simp only [hl, hlo] at this <;> exact (Option.some.inj this).symm
      rw [hcalc] at hs
      rw [hs]
      obtain ⟨c1, c2, c3⟩ := hcommon (w.stored i g idx) ⟨_, by rw [hst]⟩ hoth rfl rfl rfl
      refine ⟨c1, c2, c3, fun h => absurd h htz, fun _ h1 h2 => ?_, fun _ _ => ⟨by rw [hty], by rw [hst]⟩⟩
      rcases hlate with h | h
      · exact absurd h h1
      · exact absurd h h2
    · rw [hcalc] at hs
      rw [hs]
      obtain ⟨c1, c2, c3⟩ := hcommon ((w.stored i g idx).setStation i { (w.stored i g idx).stations i with sun := some (getSunTimes f'.index lon lat tz) })
        ⟨_, by simp [hst]; rfl⟩ (fun j hj => by simp [Function.update_of_ne hj, hoth j hj]) rfl rfl rfl
      refine ⟨c1, c2, c3, fun h => absurd h htz, fun _ _ _ => ⟨rfl, f', lon, lat, tz, ?_, ?_, ?_, ?_, ?_⟩, fun _ h => ?_⟩
      · simpa using g1
      · simpa using g2
      · simpa using g3
      · simpa using g4
      · simp
      · rw [hst] at g2 g3
        dsimp only at g2 g3
        rcases h with h | h
        · rw [h] at g2; cases g2
        · rw [h] at g3; cases g3
  · rw [if_neg ht] at hs
    have htz : (w.stations i).tz = none := by simpa using ht
    rw [hs]
    obtain ⟨c1, c2, c3⟩ := hcommon (w.stored i g idx) ⟨_, by rw [hst]⟩ hoth rfl rfl rfl
    exact ⟨c1, c2, c3, fun _ => ⟨rfl, by rw [hst]⟩, fun h => absurd htz h, fun h => absurd htz h⟩

/-! ## The properties -/

/-- C63.  Let a frame with rows for the days `ds` (in ascending order, any days may be missing in between) be assigned to `station.data_daily`, with the temperature
columns in Kelvin.  Then the station has a daily frame `g` with one row for every day from the first to the last of `ds`, with the same
columns: a given day has the given cells, every other day has only missing cells.  `data_disagg` is a new frame with the 24 hours of each of
these days and the five hourly columns, all missing.  No other object changes. -/
theorem C63_regularised (api : PandasApi) (w : World) (i : Nat) (f : Frame ℝ) (hf : f.WF) (ds : List Int) (hs : ds.Pairwise (· < ·))
    (hi : f.index = ds.map at00) (a b : Int) (ha : ds.head? = some a) (hb : ds.getLast? = some b) (hinf : NoInfinite f) (hk : KelvinTemps f) :
    ∃ g, ((w.setDaily api i (.frame f true false)).1.stations i).daily = some g ∧
      g.index = daysFromTo a b ∧ g.cols.map Prod.fst = f.cols.map Prod.fst ∧
      (∀ name s, f.col? name = some s → ∃ s', g.col? name = some s' ∧
        (∀ d ∈ ds, ∃ v, s.at? (at00 d) = some v ∧ s'.at? (at00 d) = some v) ∧
        (∀ d, a ≤ d → d ≤ b → d ∉ ds → s'.at? (at00 d) = some .nan)) ∧
      FreshDisagg w (w.setDaily api i (.frame f true false)).1 i a b ∧ OthersKept w (w.setDaily api i (.frame f true false)).1 i ∧
      ((w.stations i).tz = none → (w.setDaily api i (.frame f true false)).2 = none) := by
  obtain ⟨g, hg, hc⟩ := checkDaily_regular hf hs hi ha hb hinf
  rw [if_pos hk] at hc
  obtain ⟨ma, mb, hin⟩ := head_last_sorted hs ha hb
  obtain ⟨g1, g2, _, _⟩ := reindex_col? hg ""
  obtain ⟨c1, c2, c3, c4, _⟩ := setDaily_contiguous api w i (hin a ma).2 hc g1
  refine ⟨g, c1, g1, g2, fun name s hcol => ?_, c2, c3, fun h => (c4 h).1⟩
  refine ⟨_, by rw [(reindex_col? hg name).2.2.2, hcol]; rfl, fun d hd => ?_, fun d h1 h2 hd => ?_⟩
  · have hidx := Frame.col?_index hf hcol
    obtain ⟨v, hv⟩ := at?_exists (s := s) (t := at00 d) (by rw [hidx, hi]; exact List.mem_map.2 ⟨d, hd, rfl⟩)
    refine ⟨v, hv, ?_⟩
    rw [mapAt? (fun t => (s.at? t).getD .nan) (mem_daysFromTo.2 ⟨d, (hin d hd).1, (hin d hd).2, rfl⟩), hv]
    rfl
  · have hidx := Frame.col?_index hf hcol
    have hnone : s.at? (at00 d) = none := by
      apply at?_none_of_not_mem
      rw [hidx, hi]
      intro hm
      obtain ⟨d', hd', e⟩ := List.mem_map.1 hm
      have : d' = d := by unfold at00 at e; omega
      exact hd (this ▸ hd')
    rw [mapAt? (fun t => (s.at? t).getD .nan) (mem_daysFromTo.2 ⟨d, h1, h2, rfl⟩), hnone]
    rfl

/-- C63: a frame whose index already carries a daily frequency is stored as it is -/
theorem C63_with_frequency (api : PandasApi) (w : World) (i : Nat) (f : Frame ℝ) (a b : Int) (hab : a ≤ b) (hi : f.index = daysFromTo a b)
    (hinf : NoInfinite f) (hk : KelvinTemps f) :
    ((w.setDaily api i (.frame f true true)).1.stations i).daily = some f ∧
    FreshDisagg w (w.setDaily api i (.frame f true true)).1 i a b ∧ OthersKept w (w.setDaily api i (.frame f true true)).1 i ∧
    ((w.stations i).tz = none → (w.setDaily api i (.frame f true true)).2 = none) := by
  have hds : f.index = ((List.range (b - a + 1).toNat).map fun i : Nat => a + (i : Int)).map at00 := by rw [hi, List.map_map]; rfl
  have hsort : ((List.range (b - a + 1).toNat).map fun i : Nat => a + (i : Int)).Pairwise (· < ·) := by
    rw [List.pairwise_map]
    exact List.pairwise_lt_range.imp (by intro x y h; omega)
  obtain ⟨s1, s2⟩ := sorted_days hsort
  have hc : checkDaily (.frame f true true) = .ok f := by
    unfold checkDaily
    dsimp only
    rw [if_neg (by simp), if_neg (by rw [hds, dayResolution_at00]; simp), if_neg (not_not.2 (hds ▸ s1)), if_pos rfl]
    show (open Classical in if plausibleTemps f then Except.ok f else _) = _
    rw [if_pos ((kelvin_plausible hinf).2 hk)]
  obtain ⟨c1, c2, c3, c4, _⟩ := setDaily_contiguous api w i hab hc hi
  exact ⟨c1, c2, c3, fun h => (c4 h).1⟩

/-- C63: what is refused, and leaves everything unchanged: anything but a frame with a `DatetimeIndex`; rows that are not at 00:00; rows in descending order
somewhere; a temperature below 200 K in one of the columns tmin, tmax, tmean (all AssertionError); and, when the index has no frequency, an
empty frame (IndexError) or two rows with the same date (ValueError). -/
theorem C63_refused (api : PandasApi) (w : World) (i : Nat) (f : Frame ℝ) (hasFreq : Bool) :
    w.setDaily api i .other = (w, some .assertionError) ∧
    w.setDaily api i (.frame f false hasFreq) = (w, some .assertionError) ∧
    ((∃ t ∈ f.index, ∀ d : Int, t ≠ at00 d) → w.setDaily api i (.frame f true hasFreq) = (w, some .assertionError)) ∧
    (¬ f.index.Pairwise (· ≤ ·) → w.setDaily api i (.frame f true hasFreq) = (w, some .assertionError)) ∧
    (f.index = [] → w.setDaily api i (.frame f true false) = (w, some .indexError)) ∧
    ((∀ t ∈ f.index, ∃ d : Int, t = at00 d) → f.index.Pairwise (· ≤ ·) → ¬ f.index.Nodup →
      w.setDaily api i (.frame f true false) = (w, some .valueError)) := by
  have err : ∀ arg e, checkDaily arg = .error e → w.setDaily api i arg = (w, some e) := by
    intro arg e h
    unfold setDaily
    rw [h]
  refine ⟨err _ _ rfl, err _ _ (by unfold checkDaily; dsimp only; rw [if_pos rfl]), fun ⟨t, ht, hd⟩ => err _ _ ?_, fun h => err _ _ ?_, fun h => err _ _ ?_, fun hd hs hn => err _ _ ?_⟩
  · unfold checkDaily
    dsimp only
    rw [if_neg (by simp), if_pos]
    unfold dayResolution
    rw [List.all_eq_false]
    refine ⟨t, ht, ?_⟩
    rw [beq_iff_eq]
    intro e
    exact hd (t / DAY) (by unfold at00; omega)
  · unfold checkDaily
    dsimp only
    rw [if_neg (by simp)]
    by_cases hr : dayResolution f.index = false
    · rw [if_pos hr]
    · rw [if_neg hr, if_pos h]
  · unfold checkDaily
    dsimp only
    rw [if_neg (by simp), h, if_neg (by simp [dayResolution]), if_neg (by simp), if_neg (by simp)]
    rfl
  · unfold checkDaily
    dsimp only
    have hr : dayResolution f.index = true := by
      unfold dayResolution
      rw [List.all_eq_true]
      intro t ht
      obtain ⟨d, rfl⟩ := hd t ht
      unfold at00; rw [beq_iff_eq]; omega
    have hne : f.index ≠ [] := fun e => hn (by rw [e]; exact List.nodup_nil)
    obtain ⟨x, xs, hx⟩ := List.exists_cons_of_ne_nil hne
    have h1 : ∃ x, f.index.head? = some x := ⟨x, by rw [hx]; rfl⟩
    have h2 : ∃ y, f.index.getLast? = some y := by
      cases h : f.index.getLast? with
      | none => rw [List.getLast?_eq_none_iff] at h; exact absurd h hne
      | some y => exact ⟨y, rfl⟩
    obtain ⟨x, h1⟩ := h1
    obtain ⟨y, h2⟩ := h2
    rw [if_neg (by simp), if_neg (by rw [hr]; simp), if_neg (not_not.2 hs), if_neg (by simp), h1, h2]
    dsimp only
    unfold Frame.reindex
    rw [if_neg hn]
    rfl

/-- C63: temperatures that are not in Kelvin -/
theorem C63_celsius_refused (api : PandasApi) (w : World) (i : Nat) (f : Frame ℝ) (hf : f.WF) (ds : List Int) (hs : ds.Pairwise (· < ·)) (hne : ds ≠ [])
    (hi : f.index = ds.map at00) (hinf : NoInfinite f) (hk : ¬ KelvinTemps f) :
    w.setDaily api i (.frame f true false) = (w, some .assertionError) := by
  obtain ⟨x, xs, rfl⟩ := List.exists_cons_of_ne_nil hne
  have hl : ∃ y, (x :: xs).getLast? = some y := by
    cases h : (x :: xs).getLast? with
    | none => rw [List.getLast?_eq_none_iff] at h; cases h
    | some y => exact ⟨y, rfl⟩
  obtain ⟨y, hl⟩ := hl
  obtain ⟨g, _, hc⟩ := checkDaily_regular hf hs hi rfl hl hinf
  rw [if_neg hk] at hc
  unfold setDaily
  rw [hc]

/-- C83: the sun times after assigning daily data.  With a time zone and both coordinates they are computed for the new data; without a time zone the
old ones stay; with a time zone but without longitude or latitude the assignment raises TypeError although the station already has the new
daily data and a new result frame, and the old sun times stay. -/
theorem C83_sun_times_after_assignment (api : PandasApi) (w : World) (i : Nat) (f : Frame ℝ) (hf : f.WF) (ds : List Int) (hs : ds.Pairwise (· < ·))
    (hne : ds ≠ []) (hi : f.index = ds.map at00) (hinf : NoInfinite f) (hk : KelvinTemps f) :
    ((w.stations i).tz = none →
      (w.setDaily api i (.frame f true false)).2 = none ∧ ((w.setDaily api i (.frame f true false)).1.stations i).sun = (w.stations i).sun) ∧
    ((w.stations i).tz ≠ none → (w.stations i).lon ≠ none → (w.stations i).lat ≠ none →
      (w.setDaily api i (.frame f true false)).2 = none ∧ SunCurrent (w.setDaily api i (.frame f true false)).1 i) ∧
    ((w.stations i).tz ≠ none → (w.stations i).lon = none ∨ (w.stations i).lat = none →
      (w.setDaily api i (.frame f true false)).2 = some .typeError ∧
      ((w.setDaily api i (.frame f true false)).1.stations i).sun = (w.stations i).sun ∧
      (∃ g, ((w.setDaily api i (.frame f true false)).1.stations i).daily = some g ∧ g.cols.map Prod.fst = f.cols.map Prod.fst) ∧
      ((w.setDaily api i (.frame f true false)).1.stations i).disagg = some w.nFrames) := by
  obtain ⟨x, xs, rfl⟩ := List.exists_cons_of_ne_nil hne
  have hl : ∃ y, (x :: xs).getLast? = some y := by
    cases h : (x :: xs).getLast? with
    | none => rw [List.getLast?_eq_none_iff] at h; cases h
    | some y => exact ⟨y, rfl⟩
  obtain ⟨y, hl⟩ := hl
  obtain ⟨g, hg, hc⟩ := checkDaily_regular hf hs hi rfl hl hinf
  rw [if_pos hk] at hc
  obtain ⟨g1, g2, _, _⟩ := reindex_col? hg ""
  obtain ⟨ma, mb, hin⟩ := head_last_sorted hs rfl hl
  obtain ⟨c1, c2, c3, c4, c5, c6⟩ := setDaily_contiguous api w i (hin _ ma).2 hc g1
  exact ⟨c4, c5, fun h1 h2 => ⟨(c6 h1 h2).1, (c6 h1 h2).2, ⟨g, c1, g2⟩, c2.1⟩⟩

/-- C83: a frame whose index carries a frequency other than daily (a day between the first and the last is absent) is stored, but on current pandas no result
frame can be made: the assignment raises AttributeError and leaves the new daily data together with the old `data_disagg`. -/
theorem C83_other_frequency (api : PandasApi) (hapi : api.indexToDatetime = false) (w : World) (i : Nat) (f : Frame ℝ) (ds : List Int)
    (hs : ds.Pairwise (· < ·)) (hi : f.index = ds.map at00) (a b g : Int) (ha : a ∈ ds) (hb : b ∈ ds) (hg : a < g ∧ g < b ∧ g ∉ ds)
    (hinf : NoInfinite f) (hk : KelvinTemps f) :
    w.setDaily api i (.frame f true true) = (w.setStation i { w.stations i with daily := some f }, some .attributeError) := by
  obtain ⟨s1, s2⟩ := sorted_days hs
  have hc : checkDaily (.frame f true true) = .ok f := by
    unfold checkDaily
    dsimp only
    rw [if_neg (by simp), if_neg (by rw [hi, dayResolution_at00]; simp), if_neg (not_not.2 (hi ▸ s1)), if_pos rfl]
    show (open Classical in if plausibleTemps f then Except.ok f else _) = _
    rw [if_pos ((kelvin_plausible hinf).2 hk)]
  have hh := C02_hourly_index_gaps_raises api hapi ds (hs.imp fun h => ne_of_lt h) a b g ha hb hg
  unfold setDaily
  rw [hc]
  dsimp only
  rw [hi, hh]

/-- a frame that meets the hypotheses of `C63_regularised`: the days 0 and 3, with tmin and with temp (a column that is not checked) -/
example : ∃ f : Frame ℝ, f.WF ∧ f.index = [0, 3].map at00 ∧ NoInfinite f ∧ KelvinTemps f ∧ f.col? "temp" = some [(0, .fin 20), (3 * DAY, .nan)] := by
  refine ⟨⟨[0, 3 * DAY], [("tmin", [.fin 270, .fin 280]), ("temp", [.fin 20, .nan])]⟩, ?_, ?_, ?_, ?_, ?_⟩
  · intro c hc
    simp only [List.mem_cons, List.not_mem_nil, or_false] at hc
    rcases hc with rfl | rfl <;> rfl
  · simp [at00]
  · intro name s h r hr
    unfold Frame.col? at h
    rw [Option.map_eq_some_iff] at h
    obtain ⟨c, hc, rfl⟩ := h
    have hc := List.mem_of_find?_eq_some hc
    simp only [List.mem_cons, List.not_mem_nil, or_false] at hc
    rcases hc with rfl | rfl <;> simp at hr <;> rcases hr with rfl | rfl <;> trivial
  · intro name hn s h t x hx
    rcases hn with rfl | rfl | rfl
    · obtain rfl : [(0, XF.fin 270), (3 * DAY, XF.fin (280 : ℝ))] = s := by simpa [Frame.col?] using h
      simp at hx
      rcases hx with ⟨_, rfl⟩ | ⟨_, rfl⟩ <;> norm_num
    · simp [Frame.col?] at h
    · simp [Frame.col?] at h
  · simp [Frame.col?]

end World

end Melodist
