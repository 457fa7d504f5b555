import Verif.Lemmas.Interp

/-!
# C13: Station.interpolate / prepare_interpolation_data
-/

set_option linter.unusedSectionVars false

namespace Melodist
open Spec

variable {K : Type} [Field K] [LinearOrder K] [IsStrictOrderedRing K]

/-- `p` is the position of the last observation before `k` -/
def Spec.PrevObs (xs : List (XF K)) (k p : Nat) (a : K) : Prop :=
  p < k ∧ xs[p]? = some (.fin a) ∧ ∀ i, p < i → i < k → xs[i]? = some .nan
/-- `q` is the position of the first observation after `k` -/
def Spec.NextObs (xs : List (XF K)) (k q : Nat) (b : K) : Prop :=
  k < q ∧ xs[q]? = some (.fin b) ∧ ∀ i, k < i → i < q → xs[i]? = some .nan
/-- there is no observation before / after `k` -/
def Spec.NoPrevObs (xs : List (XF K)) (k : Nat) : Prop := ∀ i, i < k → xs[i]? = some .nan
def Spec.NoNextObs (xs : List (XF K)) (k : Nat) : Prop := ∀ i, k < i → i < xs.length → xs[i]? = some .nan

theorem getElem_of_some {α : Type} {xs : List α} {i : Nat} {x : α} (h : xs[i]? = some x) :
    ∃ hi : i < xs.length, xs[i] = x := by
  rw [List.getElem?_eq_some_iff] at h
  exact h

theorem prev_of (xs : List (XF K)) (k p : Nat) (a : K) (hk : k < xs.length) (h : PrevObs xs k p a) :
    nearestValid 0 ((xs.take k).reverse ++ []) = some (.fin a, k - p) := by
  obtain ⟨hp, ha, hn⟩ := h
  obtain ⟨hpl, ha⟩ := getElem_of_some ha
  rw [nearestValid_prev xs k p hk hp (by rw [ha]; rfl), ha]
  intro i h1 h2
  exact (getElem_of_some (hn i h1 h2)).2

theorem next_of (xs : List (XF K)) (k q : Nat) (b : K) (h : NextObs xs k q b) :
    nearestValid 0 (xs.drop (k + 1)) = some (.fin b, q - k) := by
  obtain ⟨hq, hb, hn⟩ := h
  obtain ⟨hql, hb⟩ := getElem_of_some hb
  rw [nearestValid_next xs k q hql hq (by rw [hb]; rfl), hb]
  intro i h1 h2
  exact (getElem_of_some (hn i h1 h2)).2

/-- **C13 (interpolation).** Linear interpolation with a limit changes only missing cells.  A missing cell between two
observations becomes the linear interpolant – hence a value between them – if one of them is at most `limit`
cells away, and stays missing otherwise; before the first / after the last observation the nearest observation is copied, at most `limit`
cells far. -/
theorem C13_interpolation (limit : Nat) (xs : List (XF K)) (k : Nat) (hk : k < xs.length) :
    (xs[k] ≠ .nan → (interpAux limit [] xs)[k]? = some xs[k]) ∧
    (xs[k] = .nan →
      (∀ p a q b, PrevObs xs k p a → NextObs xs k q b →
        ((k - p ≤ limit ∨ q - k ≤ limit) →
          ∃ y, (interpAux limit [] xs)[k]? = some (.fin y) ∧
            y = a + (b - a) * ((k : K) - p) / ((q : K) - p) ∧ min a b ≤ y ∧ y ≤ max a b) ∧
        (limit < k - p → limit < q - k → (interpAux limit [] xs)[k]? = some .nan)) ∧
      (∀ p a, PrevObs xs k p a → NoNextObs xs k →
        (interpAux limit [] xs)[k]? = some (if k - p ≤ limit then .fin a else .nan)) ∧
      (∀ q b, NoPrevObs xs k → NextObs xs k q b →
        (interpAux limit [] xs)[k]? = some (if q - k ≤ limit then .fin b else .nan)) ∧
      (NoPrevObs xs k → NoNextObs xs k → (interpAux limit [] xs)[k]? = some .nan)) := by
  have hlen := interpAux_length limit [] xs
  have hget := interpAux_getElem limit [] xs k hk
  have hsome : (interpAux limit [] xs)[k]? = some ((interpAux limit [] xs)[k]'(by omega)) :=
    List.getElem?_eq_getElem (by omega)
  rw [hsome]
  refine ⟨?_, ?_⟩
  · intro hne
    have : xs[k].isNan = false := by
      cases h : xs[k].isNan
      · rfl
      · exact absurd ((XF.isNan_iff _).1 h) hne
    rw [hget, this]; rfl
  · intro hnan
    have hnan' : xs[k].isNan = true := by rw [hnan]; rfl
    rw [hnan', if_pos rfl] at hget
    refine ⟨?_, ?_, ?_, ?_⟩
    · intro p a q b hp hq
      rw [prev_of xs k p a hk hp, next_of xs k q b hq] at hget
      have hpk := hp.1
      have hkq := hq.1
      have e1 : ((k - p : Nat) : K) = (k : K) - p := by push_cast [Nat.cast_sub hpk.le]; rfl
      have e2 : ((q - k : Nat) : K) = (q : K) - k := by push_cast [Nat.cast_sub hkq.le]; rfl
      have hpos : (0 : K) < (q : K) - p := by
        rw [sub_pos]; exact_mod_cast hpk.trans hkq
      have h1 : (0 : K) ≤ (k : K) - p := by rw [sub_nonneg]; exact_mod_cast hpk.le
      have h2 : (k : K) - p ≤ (q : K) - p := by
        have : (k : K) ≤ q := by exact_mod_cast hkq.le
        linarith
      constructor
      · intro hlim
        refine ⟨a + (b - a) * ((k : K) - p) / ((q : K) - p), ?_, rfl, ?_, ?_⟩
        · rw [hget]
          simp only [interpCell]
          rw [if_pos hlim, e1, e2, show ((k : K) - p + ((q : K) - k)) = (q : K) - p by ring]
          simp only [XF.fin_sub_fin, XF.fin_mul_fin]
          rw [XF.fin_div_fin_of_ne _ hpos.ne']
          rfl
        · set w := ((k : K) - p) / ((q : K) - p) with hw
          have hw0 : 0 ≤ w := div_nonneg h1 hpos.le
          have hw1 : w ≤ 1 := (div_le_one hpos).2 h2
          rw [mul_div_assoc, ← hw]
          rcases le_total a b with h | h
          · rw [min_eq_left h]; nlinarith
          · rw [min_eq_right h]; nlinarith
        · set w := ((k : K) - p) / ((q : K) - p) with hw
          have hw0 : 0 ≤ w := div_nonneg h1 hpos.le
          have hw1 : w ≤ 1 := (div_le_one hpos).2 h2
          rw [mul_div_assoc, ← hw]
          rcases le_total a b with h | h
          · rw [max_eq_right h]; nlinarith
          · rw [max_eq_left h]; nlinarith
      · intro h3 h4
        rw [hget]
        simp only [interpCell]
        rw [if_neg (by omega)]
    · intro p a hp hq
      rw [prev_of xs k p a hk hp, nearestValid_next_none xs k
        (fun i h1 h2 => (getElem_of_some (hq i h1 h2)).2)] at hget
      rw [hget]; rfl
    · intro q b hp hq
      rw [nearestValid_prev_none xs k hk (fun i h => (getElem_of_some (hp i h)).2), next_of xs k q b hq] at hget
      rw [hget]; rfl
    · intro hp hq
      rw [nearestValid_prev_none xs k hk (fun i h => (getElem_of_some (hp i h)).2), nearestValid_next_none xs k
        (fun i h1 h2 => (getElem_of_some (hq i h1 h2)).2)] at hget
      rw [hget]; rfl

/-- non-vacuity: `[1, nan, nan, nan, 9]` with limit 1: the middle cell stays missing, its neighbours are filled -/
example : interpAux 1 [] [XF.fin (1 : ℚ), .nan, .nan, .nan, .fin 9] = [.fin 1, .fin 3, .nan, .fin 7, .fin 9] := by
  decide +kernel


/-! ### anchors -/

theorem dateRange_days (d0 : Int) (n : Nat) (h : Nat) (hh : h < 24) :
    dateRange (replaceHour (at00 d0) h) (replaceHour (at00 (d0 + n)) h) DAY =
      (List.range (n + 1)).map fun i : Nat => atHour (d0 + i) h := by
  have e1 : replaceHour (at00 d0) h = atHour d0 h := by unfold replaceHour dayOf at00 atHour; omega
  have e2 : replaceHour (at00 (d0 + n)) h = atHour (d0 + n) h := by unfold replaceHour dayOf at00 atHour; omega
  rw [e1, e2]
  unfold dateRange
  rw [if_neg (by unfold atHour; omega)]
  rw [show ((atHour (d0 + (n : Int)) h - atHour d0 h) / DAY + 1).toNat = n + 1 by unfold atHour; omega]
  apply List.map_congr_left
  intro i _
  unfold atHour; omega

theorem interpColumn_ok (api : PandasApi) (daily : Frame K) (d0 : Int) (n : Nat) (data data' : Series (XF K))
    (ch : String × Int) (h : interpColumn api daily (at00 d0) (at00 (d0 + n)) data ch = .ok data') :
    0 ≤ ch.2 ∧ ch.2 ≤ 23 ∧ api.seriesAppend = true ∧ ∃ s, daily.col? ch.1 = some s ∧ s.length = n + 1 ∧
      data' = data ++ ((List.range (n + 1)).map fun i : Nat => atHour (d0 + i) ch.2.toNat).zip (Series.values s) := by
  unfold interpColumn at h
  by_cases hb : ch.2 < 0 ∨ 23 < ch.2
  · simp [hb, throw, throwThe, MonadExceptOf.throw, bind, Except.bind] at h
  · have hr : ((ch.2.toNat : Nat) : Int) = ch.2 := by omega
    have hdr := dateRange_days d0 n ch.2.toNat (by omega)
    rw [hr] at hdr
    simp only [hb, if_false, bind, Except.bind, pure, Except.pure, hdr, Frame.item] at h
    cases hc : daily.col? ch.1 with
    | none => simp [hc] at h
    | some s =>
      simp only [hc, Series.make, List.length_map, List.length_range] at h
      by_cases hl : n + 1 = (Series.values s).length
      · cases hf : api.seriesAppend with
        | false => simp [hl, needs, hf] at h
        | true =>
          simp only [hl, if_true, needs, hf] at h
          injection h with h
          refine ⟨by omega, by omega, rfl, s, rfl, ?_, ?_⟩
          · simpa [Series.values] using hl.symm
          · rw [← h, ← hl]
      · simp [hl] at h

theorem foldlM_interp (api : PandasApi) (daily : Frame K) (d0 : Int) (n : Nat) :
    ∀ (chs : List (String × Int)) (data data' : Series (XF K)),
      chs.foldlM (interpColumn api daily (at00 d0) (at00 (d0 + n))) data = .ok data' →
      (∀ r ∈ data, r ∈ data') ∧
      (∀ ch ∈ chs, 0 ≤ ch.2 ∧ ch.2 ≤ 23 ∧ ∃ s, daily.col? ch.1 = some s ∧ s.length = n + 1 ∧
        ∀ i x, (Series.values s)[i]? = some x → (atHour (d0 + (i : Nat)) ch.2.toNat, x) ∈ data') ∧
      (∀ r ∈ data', r ∈ data ∨ ∃ ch ∈ chs, ∃ i : Nat, i ≤ n ∧ r.1 = atHour (d0 + i) ch.2.toNat) := by
  intro chs
  induction chs with
  | nil =>
    intro data data' h
    simp only [List.foldlM_nil, pure, Except.pure] at h
    injection h with h
    subst h
    exact ⟨fun r hr => hr, by simp, fun r hr => Or.inl hr⟩
  | cons ch chs ih =>
    intro data data' h
    simp only [List.foldlM_cons, bind, Except.bind] at h
    cases hc : interpColumn api daily (at00 d0) (at00 (d0 + n)) data ch with
    | error e => simp [hc] at h
    | ok data1 =>
      simp only [hc] at h
      obtain ⟨h1, h2, h3⟩ := ih data1 data' h
      obtain ⟨hlo, hhi, _, s, hs, hl, rfl⟩ := interpColumn_ok api daily d0 n data data1 ch hc
      refine ⟨fun r hr => h1 r (List.mem_append.2 (Or.inl hr)), ?_, ?_⟩
      · intro c hcm
        rcases List.mem_cons.1 hcm with rfl | hcm
        · refine ⟨hlo, hhi, s, hs, hl, ?_⟩
          intro i x hx
          apply h1
          rw [List.mem_append]
          right
          obtain ⟨hi, hx⟩ := getElem_of_some hx
          have hi' : i < n + 1 := by
            have : (Series.values s).length = n + 1 := by simp [Series.values, hl]
            omega
          rw [List.mem_iff_getElem]
          refine ⟨i, by simp [Series.values] at hi ⊢; omega, ?_⟩
          simp [hx]
        · exact h2 c hcm
      · intro r hr
        rcases h3 r hr with hr | ⟨c, hcm, hi⟩
        · rcases List.mem_append.1 hr with hr | hr
          · exact Or.inl hr
          · right
            refine ⟨ch, by simp, ?_⟩
            have := List.of_mem_zip (a := r.1) (b := r.2) hr
            obtain ⟨i, hi, e⟩ := List.mem_map.1 this.1
            have := List.mem_range.1 hi
            exact ⟨i, by omega, e.symm⟩
        · exact Or.inr ⟨c, by simp [hcm], hi⟩

theorem at?_of_mem {s : Series (XF K)} (hnd : s.index.Nodup) {t : Int} {x : XF K} (h : (t, x) ∈ s) :
    Series.at? s t = some x := by
  induction s with
  | nil => simp at h
  | cons r s ih =>
    have hnd' : r.1 ∉ Series.index s ∧ (Series.index s).Nodup := by simpa [Series.index] using hnd
    rcases List.mem_cons.1 h with h | h
    · subst h; simp [Series.at?]
    · have hne : r.1 ≠ t := by
        rintro rfl
        exact hnd'.1 (List.mem_map.2 ⟨_, h, rfl⟩)
      have := ih hnd'.2 h
      simpa [Series.at?, hne] using this

theorem at?_none_of_not_mem {V : Type} {s : Series V} {t : Int} (h : t ∉ s.index) : Series.at? s t = none := by
  unfold Series.at?
  rw [List.find?_eq_none.2]
  · rfl
  · intro r hr hc
    apply h
    have : r.1 = t := by simpa using hc
    exact List.mem_map.2 ⟨r, hr, this⟩

/-- **C13 (anchors, prepare_interpolation_data).** Whenever the call returns for a daily frame of `n` consecutive days, the result has the complete
hourly index; the cell at (day, hour) of each `column_hours` entry is the daily value of that column, and every
other cell is missing. -/
theorem C13_anchors (api : PandasApi) (daily : Frame K) (d0 : Int) (n : Nat) (hn : 0 < n)
    (hidx : daily.index = (List.range n).map fun i : Nat => at00 (d0 + i)) (chs : List (String × Int))
    (out : Series (XF K)) (hret : prepareInterpolationData api daily chs = .ok out) :
    ∃ f : Nat → Nat → XF K, out = hourlyS d0 n f ∧
      (∀ c h, (c, h) ∈ chs → 0 ≤ h ∧ h ≤ 23 ∧ ∃ s, daily.col? c = some s ∧
        ∀ i x, i < n → (s.map Prod.snd)[i]? = some x → f i h.toNat = x) ∧
      (∀ i (h : Nat), i < n → h < 24 → (∀ c ∈ chs, c.2 ≠ h) → f i h = .nan) := by
  obtain ⟨n, rfl⟩ : ∃ m, n = m + 1 := ⟨n - 1, by omega⟩
  unfold prepareInterpolationData at hret
  have hhead : daily.index.head? = some (at00 d0) := by
    rw [hidx, List.range_succ_eq_map]; simp
  have hlast : daily.index.getLast? = some (at00 (d0 + n)) := by
    rw [hidx, List.range_succ, List.map_append]; simp
  rw [hhead, hlast] at hret
  simp only [bind, Except.bind] at hret
  cases hf : chs.foldlM (interpColumn api daily (at00 d0) (at00 (d0 + n))) [] with
  | error e => simp [hf] at hret
  | ok data =>
    simp only [hf] at hret
    have hdi : daily.index = Series.index (dailyS d0 (n + 1) fun _ => ()) := by rw [hidx, dailyS_index]
    rw [hdi, hourlyIndex_daily api d0 hn (fun _ => ()) false (fun _ _ => ())] at hret
    simp only [Series.reindex] at hret
    set sorted := data.insertionSort (fun a b => a.1 ≤ b.1) with hsorted
    by_cases hnd : (Series.index sorted).Nodup
    · rw [if_pos hnd] at hret
      injection hret with hret
      obtain ⟨_, h2, h3⟩ := foldlM_interp api daily d0 n chs [] data hf
      have hmem : ∀ r, r ∈ sorted ↔ r ∈ data := fun r => List.mem_insertionSort _
      refine ⟨fun i h => (Series.at? sorted (atHour (d0 + i) h)).getD .nan, ?_, ?_, ?_⟩
      · rw [← hret]
        unfold Series.index hourlyS
        rw [List.map_map, List.map_map]
        rfl
      · intro c h hc
        obtain ⟨hlo, hhi, s, hs, hl, hv⟩ := h2 (c, h) hc
        refine ⟨hlo, hhi, s, hs, ?_⟩
        intro i x _ hx
        have := at?_of_mem hnd ((hmem _).2 (hv i x hx))
        simp only [this, Option.getD_some]
      · intro i h hi hh hne
        have : atHour (d0 + i) h ∉ Series.index sorted := by
          intro hc
          obtain ⟨r, hr, e⟩ := List.mem_map.1 hc
          rcases h3 r ((hmem r).1 hr) with hr | ⟨c, hcm, j, hj, e'⟩
          · simp at hr
          · obtain ⟨hlo, hhi, _⟩ := h2 c hcm
            rw [e'] at e
            have := (atHour_inj (by omega) hh e).2
            exact hne c hcm (by omega)
        simp only [at?_none_of_not_mem this, Option.getD_none]
    · rw [if_neg hnd] at hret
      simp at hret

/-- **C13 (anchors after interpolation).** `Station.interpolate` keeps every observed (non-missing) anchor value. -/
theorem C13_interpolate_keeps_observations (api : PandasApi) (daily : Frame K) (d0 : Int) (n : Nat) (hn : 0 < n)
    (hidx : daily.index = (List.range n).map fun i : Nat => at00 (d0 + i)) (chs : List (String × Int)) (limit : Nat)
    (out : Series (XF K)) (hret : stationInterpolate api daily chs limit = .ok out) :
    ∃ g : Nat → Nat → XF K, out = hourlyS d0 n g ∧
      ∀ c h, (c, h) ∈ chs → ∃ s, daily.col? c = some s ∧
        ∀ i x, i < n → (s.map Prod.snd)[i]? = some x → x ≠ .nan → g i h.toNat = x := by
  unfold stationInterpolate at hret
  simp only [bind, Except.bind] at hret
  cases hp : prepareInterpolationData api daily chs with
  | error e => simp [hp] at hret
  | ok data =>
    simp only [hp] at hret
    injection hret with hret
    obtain ⟨f, rfl, hf, _⟩ := C13_anchors api daily d0 n hn hidx chs data hp
    have hlen : (interpAux limit [] (Series.values (hourlyS d0 n f))).length = 24 * n := by
      rw [interpAux_length]; simp [Series.values]
    have hidx' : Series.index out = Series.index (hourlyS d0 n fun _ _ => (XF.nan : XF K)) := by
      rw [← hret]
      have hz : List.map Prod.fst ((Series.index (hourlyS d0 n f)).zip (interpAux limit [] (Series.values (hourlyS d0 n f)))) =
          Series.index (hourlyS d0 n f) := List.map_fst_zip (by rw [hlen]; simp [Series.index])
      refine hz.trans ?_
      exact (hourlyS_index d0 n f).trans (hourlyS_index d0 n _).symm
    obtain ⟨g, hg⟩ := hourlyS_eq_of_index hidx'
    refine ⟨g, hg, ?_⟩
    intro c h hc
    obtain ⟨hlo, hhi, s, hs, hv⟩ := hf c h hc
    refine ⟨s, hs, ?_⟩
    intro i x hi hx hne
    have hfx := hv i x hi hx
    have hk : 24 * i + h.toNat < (Series.values (hourlyS d0 n f)).length := by simp [Series.values]; omega
    have h1 : (Series.values (hourlyS d0 n f))[24 * i + h.toNat] = x := by
      simp only [hourlyS_values, List.getElem_map, List.getElem_range]
      rw [show (24 * i + h.toNat) / 24 = i by omega, show (24 * i + h.toNat) % 24 = h.toNat by omega, hfx]
    have h2 := (C13_interpolation limit (Series.values (hourlyS d0 n f)) _ hk).1 (by rw [h1]; exact hne)
    rw [h1] at h2
    have h3 : (Series.values out)[24 * i + h.toNat]? = some x := by
      rw [← hret]
      unfold Series.values
      rw [List.map_snd_zip (by simp [Series.index, interpAux_length])]
      exact h2
    rw [hg, hourlyS_values] at h3
    have h4 : 24 * i + h.toNat < 24 * n := by omega
    simp only [List.getElem?_map, List.getElem?_range h4, Option.map_some, Option.some.injEq] at h3
    rw [show (24 * i + h.toNat) / 24 = i by omega, show (24 * i + h.toNat) % 24 = h.toNat by omega] at h3
    exact h3

/-- **C13 (current pandas).** Without `Series.append` the call never returns for a non-empty `column_hours`; it raises
AttributeError if the first entry is a valid hour and an existing column. -/
theorem C13_raises (api : PandasApi) (hapi : api.seriesAppend = false) (daily : Frame K) (d0 : Int) (n : Nat) (hn : 0 < n)
    (hidx : daily.index = (List.range n).map fun i : Nat => at00 (d0 + i)) (c : String) (h : Int) (chs : List (String × Int))
    (limit : Nat) :
    (∃ e, stationInterpolate api daily ((c, h) :: chs) limit = .error e) ∧
    (0 ≤ h → h ≤ 23 → daily.WF → daily.has c = true →
      stationInterpolate api daily ((c, h) :: chs) limit = .error .attributeError) := by
  obtain ⟨n, rfl⟩ : ∃ m, n = m + 1 := ⟨n - 1, by omega⟩
  have hhead : daily.index.head? = some (at00 d0) := by
    rw [hidx, List.range_succ_eq_map]; simp
  have hlast : daily.index.getLast? = some (at00 (d0 + n)) := by
    rw [hidx, List.range_succ, List.map_append]; simp
  have hstep : stationInterpolate api daily ((c, h) :: chs) limit =
      match interpColumn api daily (at00 d0) (at00 (d0 + n)) [] (c, h) with
      | .error e => .error e
      | .ok data => stationInterpolate api daily ((c, h) :: chs) limit := by
    cases hc : interpColumn api daily (at00 d0) (at00 (d0 + n)) [] (c, h) with
    | ok data => rfl
    | error e =>
      simp only [stationInterpolate, prepareInterpolationData, hhead, hlast, List.foldlM_cons, hc, bind, Except.bind]
  constructor
  · cases hc : interpColumn api daily (at00 d0) (at00 (d0 + n)) [] (c, h) with
    | ok data =>
      have := (interpColumn_ok api daily d0 n [] data (c, h) hc).2.2.1
      rw [hapi] at this; cases this
    | error e => rw [hstep, hc]; exact ⟨e, rfl⟩
  · intro hlo hhi hwf hhas
    rw [hstep]
    have : interpColumn api daily (at00 d0) (at00 (d0 + n)) [] (c, h) = .error .attributeError := by
      unfold interpColumn
      have hb : ¬ (h < 0 ∨ 23 < h) := by omega
      have hr : ((h.toNat : Nat) : Int) = h := by omega
      have hdr := dateRange_days d0 n h.toNat (by omega)
      rw [hr] at hdr
      have hcol : ∃ s, daily.col? c = some s := by
        unfold Frame.col?
        cases hfd : daily.cols.find? (fun x => x.1 == c) with
        | none =>
          rw [List.find?_eq_none] at hfd
          unfold Frame.has at hhas
          obtain ⟨x, hx, hxc⟩ := List.any_eq_true.1 hhas
          exact absurd hxc (hfd x hx)
        | some x => exact ⟨_, rfl⟩
      obtain ⟨s, hs⟩ := hcol
      have hl : (Series.values s).length = n + 1 := by
        have := congrArg List.length (col?_index hwf hs)
        rw [hidx] at this
        simpa [Series.index, Series.values] using this
      simp only [hb, if_false, bind, Except.bind, pure, Except.pure, hdr, Frame.item, hs, Series.make, List.length_map,
        List.length_range, hl, if_true, needs, hapi, Bool.false_eq_true]
    rw [this]

/-- non-vacuity: two days of `tmin` at 06:00 and `tmax` at 15:00 -/
def demoDaily : Frame ℚ := ⟨[at00 0, at00 1], [("tmin", [.fin 1, .nan]), ("tmax", [.fin 10, .fin 12])]⟩

example : ∃ out, stationInterpolate .legacy demoDaily [("tmin", 6), ("tmax", 15)] = .ok out ∧
    Series.at? out (atHour 0 6) = some (.fin 1) ∧ Series.at? out (atHour 1 15) = some (.fin 12) := by
  have h : (stationInterpolate .legacy demoDaily [("tmin", 6), ("tmax", 15)]).toOption.isSome := by decide +kernel
  cases hr : stationInterpolate .legacy demoDaily [("tmin", 6), ("tmax", 15)] with
  | error e => rw [hr] at h; simp [Except.toOption] at h
  | ok out =>
    refine ⟨out, rfl, ?_⟩
    obtain ⟨g, rfl, hg⟩ := C13_interpolate_keeps_observations .legacy demoDaily 0 2 (by omega) (by decide) _ _ out hr
    obtain ⟨s, hs, h1⟩ := hg "tmin" 6 (by simp)
    obtain ⟨s', hs', h2⟩ := hg "tmax" 15 (by simp)
    have e1 : s = [(at00 0, .fin 1), (at00 1, .nan)] := by
      have : demoDaily.col? "tmin" = some [(at00 0, .fin 1), (at00 1, .nan)] := by decide +kernel
      rw [this] at hs; injection hs with hs; exact hs.symm
    have e2 : s' = [(at00 0, .fin 10), (at00 1, .fin 12)] := by
      have : demoDaily.col? "tmax" = some [(at00 0, .fin 10), (at00 1, .fin 12)] := by decide +kernel
      rw [this] at hs'; injection hs' with hs'; exact hs'.symm
    refine ⟨?_, ?_⟩
    · have := hourlyS_at? 0 (n := 2) g (i := 0) (h := 6) (by omega) (by omega)
      simp only [Nat.cast_zero, add_zero] at this
      rw [this, show g 0 6 = .fin 1 from h1 0 (.fin 1) (by omega) (by rw [e1]; rfl) (by simp)]
    · have := hourlyS_at? 0 (n := 2) g (i := 1) (h := 15) (by omega) (by omega)
      simp only [Nat.cast_one, zero_add] at this
      rw [this, show g 1 15 = .fin 12 from h2 1 (.fin 12) (by omega) (by rw [e2]; rfl) (by simp)]

example : stationInterpolate .modern demoDaily [("tmin", 6), ("tmax", 15)] = .error .attributeError :=
  (C13_raises .modern rfl demoDaily 0 2 (by omega) (by decide) "tmin" 6 _ 24).2 (by decide) (by decide)
    (by intro c hc; simp [demoDaily] at hc; rcases hc with rfl | rfl <;> rfl) (by decide)

end Melodist
