import Verif.Lemmas.Series
import Verif.Props.Index

/-!
# Equal distribution of values with gaps between the days, or labelled at a later hour
-/
set_option linter.unusedSectionVars false

namespace Melodist
open Spec
variable {K : Type}

/-- the hours of a list of days -/
def gapS {V : Type} (ds : List Int) (f : Int → Nat → V) : Series V :=
  ds.flatMap fun d => (List.range 24).map fun h => (atHour d h, f d h)

theorem gapS_cons {V : Type} (d : Int) (ds : List Int) (f : Int → Nat → V) :
    gapS (d :: ds) f = ((List.range 24).map fun h => (atHour d h, f d h)) ++ gapS ds f := rfl

/-- the filled cells of the days `js` of one group: the first `H` hours of a day continue the value of the day before it in the group -/
def runOn (H : Nat) (v : Int → XF K) : XF K → List Int → List (XF K)
  | _, [] => []
  | prev, j :: js => List.replicate H prev ++ List.replicate (24 - H) (v j) ++ runOn H v (v j) js

/-- state of the forward fill before the first hours of a day -/
def Pend (H : Nat) (last : Option (XF K)) (cnt : Nat) (prev : XF K) : Prop :=
  (Exhausted last cnt ∧ prev = .nan) ∨ (last = some prev ∧ cnt + H = 23 ∧ prev.isNan = false)

/-- the cells of one day labelled at hour `H` -/
def blockAt (H : Nat) (x : XF K) : List (XF K) := List.replicate H .nan ++ (x :: List.replicate (23 - H) .nan)

theorem exhausted_nans {last : Option (XF K)} {cnt : Nat} (h : Exhausted last cnt) (m : Nat) (rest : List (XF K)) :
    ∃ l' c', Exhausted l' c' ∧ ffillAux 23 last cnt (List.replicate m .nan ++ rest) = List.replicate m .nan ++ ffillAux 23 l' c' rest := by
  rcases last with _ | w
  · exact ⟨none, cnt, Or.inl rfl, ffillAux_nans_none 23 cnt m rest⟩
  · rcases h with h | h
    · cases h
    · exact ⟨some w, cnt + m, Or.inr (by omega), ffillAux_nans_over 23 cnt w m rest h⟩

/-- from a label on: the cell and the missing cells after it -/
theorem ffill_label {H : Nat} (hH : H < 24) {last : Option (XF K)} {cnt : Nat} (h : Exhausted last cnt) (x : XF K) (rest : List (XF K)) :
    ∃ l' c', Pend H l' c' x ∧
      ffillAux 23 last cnt ((x :: List.replicate (23 - H) .nan) ++ rest) = List.replicate (24 - H) x ++ ffillAux 23 l' c' rest := by
  have e24 : 24 - H = (23 - H) + 1 := by omega
  by_cases hx : x.isNan = true
  · rw [XF.isNan_iff] at hx
    subst hx
    obtain ⟨l', c', he, hf⟩ := exhausted_nans h (24 - H) rest
    refine ⟨l', c', Or.inl ⟨he, rfl⟩, ?_⟩
    rw [← hf, e24]; rfl
  · refine ⟨some x, 23 - H, Or.inr ⟨rfl, by omega, by simpa using hx⟩, ?_⟩
    rw [List.cons_append, ffillAux_cons_valid _ _ _ hx, ffillAux_nans 23 0 x (23 - H) rest (by omega), e24]
    simp [List.replicate_succ]

theorem pend_nans {H : Nat} {last : Option (XF K)} {cnt : Nat} {prev : XF K} (h : Pend H last cnt prev) (rest : List (XF K)) :
    ∃ l' c', Exhausted l' c' ∧ ffillAux 23 last cnt (List.replicate H .nan ++ rest) = List.replicate H prev ++ ffillAux 23 l' c' rest := by
  rcases h with ⟨he, rfl⟩ | ⟨rfl, hc, _⟩
  · exact exhausted_nans he H rest
  · exact ⟨some prev, cnt + H, Or.inr (by omega), ffillAux_nans 23 cnt prev H rest (by omega)⟩

theorem ffill_runOn {H : Nat} (hH : H < 24) (v : Int → XF K) (js : List Int) : ∀ (last : Option (XF K)) (cnt : Nat) (prev : XF K), Pend H last cnt prev →
    ffillAux 23 last cnt (js.flatMap fun j => blockAt H (v j)) = runOn H v prev js := by
  induction js with
  | nil => intro last cnt prev _; rfl
  | cons j js ih =>
    intro last cnt prev hp
    rw [List.flatMap_cons, blockAt, List.append_assoc]
    obtain ⟨l1, c1, h1, e1⟩ := pend_nans hp ((v j :: List.replicate (23 - H) .nan) ++ js.flatMap fun j => blockAt H (v j))
    obtain ⟨l2, c2, h2, e2⟩ := ffill_label hH h1 (v j) (js.flatMap fun j => blockAt H (v j))
    rw [e1, e2, ih l2 c2 (v j) h2, runOn, List.append_assoc]

theorem range_block {H : Nat} (hH : H < 24) (x : XF K) : (List.range 24).map (fun h => if h = H then x else XF.nan) = blockAt H x := by
  unfold blockAt
  apply List.ext_getElem
  · simp; omega
  · intro i h1 h2
    simp only [List.length_map, List.length_range] at h1
    simp only [List.getElem_map, List.getElem_range]
    rcases Nat.lt_trichotomy i H with h | h | h
    · rw [if_neg (by omega), List.getElem_append_left (by simpa using h)]; simp
    · subst h; rw [if_pos rfl, List.getElem_append_right (by simp)]; simp
    · rw [if_neg (by omega), List.getElem_append_right (by simp; omega)]
      simp only [List.length_replicate]
      obtain ⟨m, hm⟩ : ∃ m, i - H = m + 1 := ⟨i - H - 1, by omega⟩
      simp [hm]

/-- the day of month of a day -/
def domDay (d : Int) : Int := (civil d).2.2

theorem groupCells_gapS (ds : List Int) (f : Int → Nat → XF K) (k : Int) :
    groupCells domOf (gapS ds f) k = (ds.filter fun d => domDay d == k).flatMap fun d => (List.range 24).map (f d) := by
  induction ds with
  | nil => rfl
  | cons d ds ih =>
    have ih' : ((gapS ds f).filter fun r => domOf r.1 == k).map Prod.snd =
      (ds.filter fun d => domDay d == k).flatMap fun d => (List.range 24).map (f d) := ih
    unfold groupCells
    rw [gapS_cons, List.filter_append, List.map_append, ih', List.filter_map, List.map_map]
    have e : ∀ h ∈ List.range 24, ((fun r : Time × XF K => domOf r.1 == k) ∘ fun h => (atHour d h, f d h)) h = decide (domDay d = k) := by
      intro h hh
      simp only [Function.comp_def, domOf_atHour d h (List.mem_range.1 hh), domDay]
      rfl
    rw [List.filter_congr e]
    by_cases h : domDay d = k <;> simp [h, Function.comp_def]

/-- the days `ds` with the first `H` hours of each continuing the value `prev` of its day of month -/
def carry (H : Nat) (v : Int → XF K) : (Int → XF K) → List Int → Series (XF K)
  | _, [] => []
  | prev, d :: ds => ((List.range 24).map fun h => (atHour d h, if h < H then prev (domDay d) else v d)) ++
      carry H v (fun k => if k = domDay d then v d else prev k) ds

theorem range_split {H : Nat} (hH : H < 24) (x y : XF K) :
    (List.range 24).map (fun h => if h < H then x else y) = List.replicate H x ++ List.replicate (24 - H) y := by
  apply List.ext_getElem
  · simp; omega
  · intro i h1 h2
    simp only [List.length_map, List.length_range] at h1
    simp only [List.getElem_map, List.getElem_range]
    by_cases h : i < H
    · rw [if_pos h, List.getElem_append_left (by simpa using h)]; simp
    · rw [if_neg h, List.getElem_append_right (by simpa using h)]; simp

theorem carry_index (H : Nat) (v : Int → XF K) (ds : List Int) : ∀ prev : Int → XF K, Series.index (carry H v prev ds) = ds.flatMap fun d => (List.range 24).map (atHour d) := by
  induction ds with
  | nil => intro prev; rfl
  | cons d ds ih =>
    intro prev
    rw [carry, Series.index, List.map_append, List.flatMap_cons, ← ih (fun k => if k = domDay d then v d else prev k)]
    simp [Series.index, Function.comp_def]

theorem scatter_carry {H : Nat} (hH : H < 24) (v : Int → XF K) (ds : List Int) : ∀ prev : Int → XF K,
    scatter domOf (fun k => runOn H v (prev k) (ds.filter fun d => domDay d == k)) (ds.flatMap fun d => (List.range 24).map (atHour d)) =
      Series.values (carry H v prev ds) := by
  induction ds with
  | nil => intro prev; rfl
  | cons d ds ih =>
    intro prev
    rw [List.flatMap_cons, carry]
    have hv : Series.values (((List.range 24).map fun h => (atHour d h, if h < H then prev (domDay d) else v d)) ++
        carry H v (fun k => if k = domDay d then v d else prev k) ds) =
        (List.range 24).map (fun h => if h < H then prev (domDay d) else v d) ++ Series.values (carry H v (fun k => if k = domDay d then v d else prev k) ds) := by
      simp [Series.values, Function.comp_def]
    rw [hv, ← ih]
    rw [scatter_const domOf (domDay d) _ _ ((List.range 24).map (fun h => if h < H then prev (domDay d) else v d))
      (runOn H v (v d) (ds.filter fun e => domDay e == domDay d))]
    · congr 2
      funext k
      by_cases h : k = domDay d
      · subst h; simp
      · have hne : (domDay d == k) = false := by simpa using fun e => h e.symm
        simp [h, hne]
    · simp
    · simp only [List.filter_cons, beq_self_eq_true, if_true, runOn]
      rw [range_split hH]
    · intro t ht
      rw [List.mem_map] at ht
      obtain ⟨h, hh, rfl⟩ := ht
      exact domOf_atHour d h (List.mem_range.1 hh)

/-- the hours of the days `d :: ds` from hour `H` of the first day on -/
def fromLabel {V : Type} (H : Nat) (d : Int) (ds : List Int) (f : Int → Nat → V) : Series V :=
  ((List.range (24 - H)).map fun h => (atHour d (H + h), f d (H + h))) ++ gapS ds f

theorem groupTransform_label {H : Nat} (hH : H < 24) (d : Int) (ds : List Int) (v : Int → XF K) :
    groupTransform domOf (ffill 23) (fromLabel H d ds fun e h => if h = H then v e else .nan) =
      ((List.range (24 - H)).map fun h => (atHour d (H + h), v d)) ++ carry H v (fun k => if k = domDay d then v d else .nan) ds := by
  have hhead : (List.range (24 - H)).map (fun h => if H + h = H then v d else XF.nan) = v d :: List.replicate (23 - H) .nan := by
    have e24 : 24 - H = (23 - H) + 1 := by omega
    rw [e24, List.range_succ_eq_map]
    simp only [List.map_cons, Nat.add_zero, if_true, List.map_map]
    congr 1
    rw [List.eq_replicate_iff]
    refine ⟨by simp, ?_⟩
    intro b hb
    obtain ⟨i, _, rfl⟩ := List.mem_map.1 hb
    simp
  have hstream : ∀ k, ffill 23 (((fromLabel H d ds fun e h => if h = H then v e else XF.nan).filter fun r => domOf r.1 == k).map Prod.snd) =
      if k = domDay d then List.replicate (24 - H) (v d) ++ runOn H v (v d) (ds.filter fun e => domDay e == k)
      else runOn H v .nan (ds.filter fun e => domDay e == k) := by
    intro k
    have hg := groupCells_gapS ds (fun e h => if h = H then v e else XF.nan) k
    unfold groupCells at hg
    simp only [range_block hH] at hg
    rw [fromLabel, List.filter_append, List.map_append, hg, List.filter_map, List.map_map]
    have e : ∀ h ∈ List.range (24 - H), ((fun r : Time × XF K => domOf r.1 == k) ∘ fun h => (atHour d (H + h), if H + h = H then v d else XF.nan)) h = decide (domDay d = k) := by
      intro h hh
      have := List.mem_range.1 hh
      simp only [Function.comp_def, domOf_atHour d (H + h) (by omega), domDay]
      rfl
    rw [List.filter_congr e]
    by_cases hk : k = domDay d
    · subst hk
      rw [if_pos rfl]
      simp only [decide_true, List.filter_true, Function.comp_def, hhead]
      obtain ⟨l', c', hp, he⟩ := ffill_label hH (Or.inl rfl : Exhausted (none : Option (XF K)) 0) (v d) ((ds.filter fun e => domDay e == domDay d).flatMap fun e => blockAt H (v e))
      unfold ffill
      rw [he, ffill_runOn hH v _ l' c' (v d) hp]
    · rw [if_neg hk]
      have hk' : ¬ domDay d = k := fun e => hk e.symm
      simp only [hk', decide_false, List.filter_false, List.map_nil, List.nil_append]
      exact ffill_runOn hH v _ none 0 .nan (Or.inl ⟨Or.inl rfl, rfl⟩)
  have hi : Series.index (fromLabel H d ds fun e h => if h = H then v e else XF.nan) =
      (List.range (24 - H)).map (fun h => atHour d (H + h)) ++ ds.flatMap fun d => (List.range 24).map (atHour d) := by
    unfold fromLabel gapS Series.index
    simp [Function.comp_def, List.map_flatMap]
  unfold groupTransform
  rw [hi, funext hstream]
  rw [scatter_const domOf (domDay d) _ _ (List.replicate (24 - H) (v d)) (runOn H v (v d) (ds.filter fun e => domDay e == domDay d))]
  · have hrest : (fun k => if k = domDay d then runOn H v (v d) (ds.filter fun e => domDay e == domDay d) else
        if k = domDay d then List.replicate (24 - H) (v d) ++ runOn H v (v d) (ds.filter fun e => domDay e == k)
        else runOn H v XF.nan (ds.filter fun e => domDay e == k)) =
        fun k => runOn H v ((fun k => if k = domDay d then v d else .nan) k) (ds.filter fun e => domDay e == k) := by
      funext k
      by_cases h : k = domDay d
      · subst h; simp
      · simp [h]
    rw [hrest, scatter_carry hH, List.zip_append (by simp)]
    congr 1
    · apply List.ext_getElem
      · simp
      · intro i h1 h2; simp
    · rw [← carry_index H v ds (fun k => if k = domDay d then v d else .nan), index_zip_values]
  · simp
  · rw [if_pos rfl]
  · intro t ht
    rw [List.mem_map] at ht
    obtain ⟨h, hh, rfl⟩ := ht
    have := List.mem_range.1 hh
    exact domOf_atHour d (H + h) (by omega)

/-! ## the index -/

theorem hours_sorted : ∀ {ds : List Int}, ds.Pairwise (· < ·) → (ds.flatMap fun d => (List.range 24).map (atHour d)).Pairwise (· < ·) := by
  intro ds hs
  rw [List.pairwise_flatMap]
  refine ⟨?_, ?_⟩
  · intro d _
    rw [List.pairwise_map]
    exact (List.pairwise_lt_range (n := 24)).imp (by intro a b h; unfold atHour; omega)
  · refine hs.imp ?_
    intro a b hab x hx y hy
    obtain ⟨i, hi, rfl⟩ := List.mem_map.1 hx
    obtain ⟨j, hj, rfl⟩ := List.mem_map.1 hy
    have := List.mem_range.1 hi
    unfold atHour; omega

/-- the index of `fromLabel` -/
def labelIndex (H : Nat) (d : Int) (ds : List Int) : List Time :=
  (List.range (24 - H)).map (fun h => atHour d (H + h)) ++ ds.flatMap fun d => (List.range 24).map (atHour d)

theorem fromLabel_index {V : Type} (H : Nat) (d : Int) (ds : List Int) (f : Int → Nat → V) :
    Series.index (fromLabel H d ds f) = labelIndex H d ds := by
  unfold fromLabel gapS Series.index labelIndex
  simp [Function.comp_def, List.map_flatMap]

theorem mem_labelIndex {H : Nat} {d : Int} {ds : List Int} {t : Time} (hs : (d :: ds).Pairwise (· < ·)) :
    t ∈ labelIndex H d ds ↔ ∃ e ∈ d :: ds, ∃ h < 24, (e = d → H ≤ h) ∧ t = atHour e h := by
  rw [List.pairwise_cons] at hs
  unfold labelIndex
  simp only [List.mem_append, List.mem_map, List.mem_range, List.mem_flatMap]
  constructor
  · rintro (⟨h, hh, rfl⟩ | ⟨e, he, h, hh, rfl⟩)
    · exact ⟨d, by simp, H + h, by omega, fun _ => by omega, rfl⟩
    · exact ⟨e, by simp [he], h, hh, fun hd => by have := hs.1 e he; omega, rfl⟩
  · rintro ⟨e, he, h, hh, hd, rfl⟩
    rcases List.mem_cons.1 he with rfl | he
    · left; have := hd rfl; exact ⟨h - H, by omega, by congr 1; omega⟩
    · right; exact ⟨e, he, h, hh, rfl⟩

theorem labelIndex_sorted {H : Nat} {d : Int} {ds : List Int} (hs : (d :: ds).Pairwise (· < ·)) : (labelIndex H d ds).Pairwise (· < ·) := by
  rw [List.pairwise_cons] at hs
  unfold labelIndex
  rw [List.pairwise_append]
  refine ⟨?_, hours_sorted hs.2, ?_⟩
  · rw [List.pairwise_map]
    exact (List.pairwise_lt_range (n := 24 - H)).imp (by intro a b h; unfold atHour; omega)
  · intro x hx y hy
    obtain ⟨i, hi, rfl⟩ := List.mem_map.1 hx
    obtain ⟨e, he, hy⟩ := List.mem_flatMap.1 hy
    obtain ⟨j, hj, rfl⟩ := List.mem_map.1 hy
    have := List.mem_range.1 hi
    have := hs.1 e he
    unfold atHour; omega

/-- the first and the last label -/
theorem min_max_label (H : Nat) (d : Int) (ds : List Int) (hs : (d :: ds).Pairwise (· < ·)) :
    ∃ b ∈ d :: ds, (∀ e ∈ d :: ds, d ≤ e ∧ e ≤ b) ∧ ((d :: ds).map (atHour · H)).min? = some (atHour d H) ∧ ((d :: ds).map (atHour · H)).max? = some (atHour b H) := by
  obtain ⟨a, b, ha, hb, hin, _, _⟩ := min_max_at00 (d :: ds) (by simp)
  have hd : ∀ e ∈ d :: ds, d ≤ e := by
    rw [List.pairwise_cons] at hs
    intro e he
    rcases List.mem_cons.1 he with rfl | he
    · exact le_refl _
    · exact (hs.1 e he).le
  refine ⟨b, hb, fun e he => ⟨hd e he, (hin e he).2⟩, ?_, ?_⟩
  · rw [List.min?_eq_some_iff]
    refine ⟨List.mem_map.2 ⟨d, by simp, rfl⟩, ?_⟩
    intro x hx
    obtain ⟨e, he, rfl⟩ := List.mem_map.1 hx
    have := hd e he
    unfold atHour; omega
  · rw [List.max?_eq_some_iff]
    refine ⟨List.mem_map.2 ⟨b, hb, rfl⟩, ?_⟩
    intro x hx
    obtain ⟨e, he, rfl⟩ := List.mem_map.1 hx
    have := (hin e he).2
    unfold atHour; omega

theorem dateRange_label {H : Nat} (hH : H < 24) {a b : Int} (hab : a ≤ b) :
    dateRange (atHour a H) (replaceHour (atHour b H) 23) HOUR = (List.range (24 * (b - a + 1).toNat - H)).map fun k => atHour (a + ((k + H) / 24 : Nat)) ((k + H) % 24) := by
  have hr : replaceHour (atHour b H) 23 = atHour b 23 := by
    unfold replaceHour; rw [dayOf_atHour b hH]; unfold atHour; omega
  rw [hr]
  unfold dateRange
  rw [if_neg (by unfold atHour; omega)]
  have hl : ((atHour b 23 - atHour a H) / HOUR + 1).toNat = 24 * (b - a + 1).toNat - H := by
    unfold atHour; omega
  rw [hl]
  apply List.map_congr_left
  intro k _
  unfold atHour; omega

theorem span_label {H : Nat} (hH : H < 24) {a b : Int} (hab : a ≤ b) :
    (dateRange (atHour a H) (replaceHour (atHour b H) 23) HOUR).length = 24 * (b - a + 1).toNat - H ∧
    (dateRange (atHour a H) (replaceHour (atHour b H) 23) HOUR).Pairwise (· < ·) ∧
    ∀ t, t ∈ dateRange (atHour a H) (replaceHour (atHour b H) 23) HOUR ↔ ∃ d, a ≤ d ∧ d ≤ b ∧ ∃ h < 24, (d = a → H ≤ h) ∧ t = atHour d h := by
  rw [dateRange_label hH hab]
  refine ⟨by simp, ?_, ?_⟩
  · rw [List.pairwise_map]
    exact (List.pairwise_lt_range (n := _)).imp (by intro a b h; unfold atHour; omega)
  · intro t
    simp only [List.mem_map, List.mem_range]
    constructor
    · rintro ⟨k, hk, rfl⟩
      exact ⟨a + ((k + H) / 24 : Nat), by omega, by omega, (k + H) % 24, by omega, by omega, rfl⟩
    · rintro ⟨d, h1, h2, h, hh, hd, rfl⟩
      refine ⟨24 * (d - a).toNat + h - H, ?_, ?_⟩
      · by_cases hda : d = a
        · have := hd hda; subst hda; omega
        · omega
      · have hk : 24 * (d - a).toNat + h - H + H = 24 * (d - a).toNat + h := by
          by_cases hda : d = a
          · have := hd hda; omega
          · omega
        rw [hk]; unfold atHour; omega

/-- `hourly_index` of days labelled at hour `H` -/
theorem hourlyIndex_label (api : PandasApi) {H : Nat} (hH : H < 24) (d : Int) (ds : List Int) (hs : (d :: ds).Pairwise (· < ·)) :
    (∀ idx, hourlyIndex api ((d :: ds).map (atHour · H)) = .ok idx → idx = labelIndex H d ds) ∧
    ((∀ g, d ≤ g → (∃ b ∈ d :: ds, g ≤ b) → g ∈ d :: ds) ∨ (api.indexToDatetime = true ∧ api.pdDatetime = true) →
      hourlyIndex api ((d :: ds).map (atHour · H)) = .ok (labelIndex H d ds)) ∧
    (∀ g, d ≤ g → (∃ b ∈ d :: ds, g ≤ b) → g ∉ d :: ds → api.indexToDatetime = false →
      hourlyIndex api ((d :: ds).map (atHour · H)) = .error .attributeError) := by
  obtain ⟨b, hb, hin, hmin, hmax⟩ := min_max_label H d ds hs
  have hab := (hin b hb).1
  obtain ⟨hl, hsr, hm⟩ := span_label hH hab
  have hnd : (d :: ds).Nodup := hs.imp (fun h => ne_of_lt h)
  have hcov := days_cover (d :: ds) hnd d b hab hin
  have hcond : (24 * (b - d + 1).toNat - H > (d :: ds).length * 24) ↔ ¬ ∀ g, d ≤ g → g ≤ b → g ∈ d :: ds := by
    rw [← hcov]; omega
  have hall : (∀ g, d ≤ g → (∃ b ∈ d :: ds, g ≤ b) → g ∈ d :: ds) ↔ ∀ g, d ≤ g → g ≤ b → g ∈ d :: ds :=
    ⟨fun h g h1 h2 => h g h1 ⟨b, hb, h2⟩, fun h g h1 ⟨b', hb', h2⟩ => h g h1 (h2.trans (hin b' hb').2)⟩
  have hfull : (∀ g, d ≤ g → g ≤ b → g ∈ d :: ds) → dateRange (atHour d H) (replaceHour (atHour b H) 23) HOUR = labelIndex H d ds := by
    intro hg
    refine List.Perm.eq_of_pairwise (fun a b _ _ h1 h2 => absurd h2 (by have h1 : a < b := h1; show ¬ b < a; omega)) hsr (labelIndex_sorted hs) ?_
    refine (List.perm_ext_iff_of_nodup (hsr.imp fun h => ne_of_lt h) ((labelIndex_sorted hs).imp fun h => ne_of_lt h)).2 ?_
    intro t
    rw [hm, mem_labelIndex hs]
    constructor
    · rintro ⟨e, h1, h2, h, hh, hd, rfl⟩; exact ⟨e, hg e h1 h2, h, hh, hd, rfl⟩
    · rintro ⟨e, he, h, hh, hd, rfl⟩; exact ⟨e, (hin e he).1, (hin e he).2, h, hh, hd, rfl⟩
  have hkept : ((dateRange (atHour d H) (replaceHour (atHour b H) 23) HOUR).filter
      fun t => (((d :: ds).map (atHour · H)).map dayOf).contains (dayOf t)).map (fun t => stamp (dayOf t) (hourOf t)) = labelIndex H d ds := by
    have hid : ((d :: ds).map (atHour · H)).map dayOf = d :: ds := by
      rw [List.map_map]; conv_rhs => rw [← List.map_id (d :: ds)]
      apply List.map_congr_left; intro e _; simp [Function.comp_def, dayOf_atHour e hH]
    rw [hid]
    have hsame : ∀ t ∈ (dateRange (atHour d H) (replaceHour (atHour b H) 23) HOUR).filter
        (fun t => (d :: ds).contains (dayOf t)), stamp (dayOf t) (hourOf t) = t := by
      intro t ht
      obtain ⟨e, _, _, h, hh, _, rfl⟩ := (hm t).1 (List.mem_filter.1 ht).1
      rw [dayOf_atHour e hh, hourOf_atHour e hh]; rfl
    rw [List.map_congr_left hsame, List.map_id']
    have hsf := hsr.filter (fun t => (d :: ds).contains (dayOf t))
    refine List.Perm.eq_of_pairwise (fun a b _ _ h1 h2 => absurd h2 (by have h1 : a < b := h1; show ¬ b < a; omega)) hsf (labelIndex_sorted hs) ?_
    refine (List.perm_ext_iff_of_nodup (hsf.imp fun h => ne_of_lt h) ((labelIndex_sorted hs).imp fun h => ne_of_lt h)).2 ?_
    intro t
    rw [List.mem_filter, hm, mem_labelIndex hs]
    constructor
    · rintro ⟨⟨e, h1, h2, h, hh, hd, rfl⟩, hc⟩
      rw [dayOf_atHour e hh] at hc
      exact ⟨e, List.contains_iff_mem.1 hc, h, hh, hd, rfl⟩
    · rintro ⟨e, he, h, hh, hd, rfl⟩
      refine ⟨⟨e, (hin e he).1, (hin e he).2, h, hh, hd, rfl⟩, ?_⟩
      rw [dayOf_atHour e hh]; exact List.contains_iff_mem.2 he
  have hdef : hourlyIndex api ((d :: ds).map (atHour · H)) =
      if 24 * (b - d + 1).toNat - H > (d :: ds).length * 24 then do
        needs api.indexToDatetime
        needs api.pdDatetime
        .ok (labelIndex H d ds)
      else .ok (dateRange (atHour d H) (replaceHour (atHour b H) 23) HOUR) := by
    unfold hourlyIndex
    rw [hmin, hmax]
    simp only [Bool.not_false, Bool.true_and, hl, decide_eq_true_eq, hkept, List.length_map]
  rw [hdef]
  refine ⟨?_, ?_, ?_⟩
  · intro idx hret
    split at hret
    · unfold needs at hret
      cases hf1 : api.indexToDatetime <;> cases hf2 : api.pdDatetime <;>
        simp [hf1, hf2, bind, Except.bind] at hret
      exact hret.symm
    · next hc =>
      rw [hcond, not_not] at hc
      injection hret with hret
      rw [← hret, hfull hc]
  · rintro (hg | ⟨h1, h2⟩)
    · rw [if_neg (by rw [hcond, not_not]; exact hall.1 hg), hfull (hall.1 hg)]
    · split
      · simp [needs, h1, h2, bind, Except.bind]
      · next hc =>
        rw [hcond, not_not] at hc
        rw [hfull hc]
  · intro g h1 ⟨b', hb', h2⟩ hg hapi
    rw [if_pos (hcond.2 fun h => hg (h g h1 (h2.trans (hin b' hb').2)))]
    simp [needs, hapi, bind, Except.bind]

end Melodist
