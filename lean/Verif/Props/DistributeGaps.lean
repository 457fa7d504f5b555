import Verif.Lemmas.Distribute
import Verif.Lemmas.Calendar
import Verif.Spec.Basic
import Mathlib.Tactic.Ring
import Mathlib.Tactic.FieldSimp
import Mathlib.Tactic.Linarith

/-!
# C123  Equal distribution of daily values with gaps, or not labelled at midnight
-/
set_option linter.unusedSectionVars false

namespace Melodist
open Spec
variable {K : Type} [Field K] [LinearOrder K] [IsStrictOrderedRing K]

/-- daily values of the days `ds`, each labelled at hour `H` of its day -/
def Spec.labelled {K : Type} (H : Nat) (ds : List Int) (v : Int → XF K) : Series (XF K) := ds.map fun d => (atHour d H, v d)

/-- what an hour gets of the value `x` of its day -/
def Spec.share (divide : Bool) (x : XF K) : XF K := if divide then x / .fin 24 else x

theorem at?_mem_sorted {V : Type} {s : Series V} (hs : s.index.Pairwise (· < ·)) {t : Time} {x : V} (h : (t, x) ∈ s) : s.at? t = some x := by
  induction s with
  | nil => simp at h
  | cons r s ih =>
    have hs' : (∀ u ∈ Series.index s, r.1 < u) ∧ (Series.index s).Pairwise (· < ·) := by simpa [Series.index] using hs
    rcases List.mem_cons.1 h with h | h
    · subst h; simp [Series.at?]
    · have hne : r.1 ≠ t := by
        have := hs'.1 t (List.mem_map.2 ⟨_, h, rfl⟩)
        omega
      have := ih hs'.2 h
      simpa [Series.at?, hne] using this

theorem labelled_index (H : Nat) (ds : List Int) (v : Int → XF K) : (labelled H ds v).index = ds.map (atHour · H) := by
  simp [labelled, Series.index, Function.comp_def]

theorem reindex_label {H : Nat} (hH : H < 24) (d : Int) (ds : List Int) (hs : (d :: ds).Pairwise (· < ·)) (v : Int → XF K) :
    Series.reindex (labelled H (d :: ds) v) (labelIndex H d ds) = .ok (fromLabel H d ds fun e h => if h = H then v e else .nan) := by
  have hsort : (labelled H (d :: ds) v).index.Pairwise (· < ·) := by
    rw [labelled_index, List.pairwise_map]
    exact hs.imp (by intro a b h; unfold atHour; omega)
  have key : ∀ e ∈ d :: ds, ∀ h < 24, ((labelled H (d :: ds) v).at? (atHour e h)).getD .nan = if h = H then v e else .nan := by
    intro e he h hh
    by_cases hhH : h = H
    · subst hhH
      rw [if_pos rfl, at?_mem_sorted hsort (x := v e) (List.mem_map.2 ⟨e, he, rfl⟩)]; rfl
    · rw [if_neg hhH]
      have : (labelled H (d :: ds) v).at? (atHour e h) = none := by
        unfold Series.at?
        rw [Option.map_eq_none_iff, List.find?_eq_none]
        intro r hr
        obtain ⟨f, _, rfl⟩ := List.mem_map.1 hr
        simp only [beq_iff_eq]
        unfold atHour; omega
      rw [this]; rfl
  unfold Series.reindex
  have hnd : (labelled H (d :: ds) v).index.Nodup := hsort.imp fun h => ne_of_lt h
  rw [if_pos hnd]
  congr 1
  unfold labelIndex fromLabel
  rw [List.map_append, List.map_map]
  congr 1
  · apply List.map_congr_left
    intro h hh
    have := List.mem_range.1 hh
    simp only [Function.comp_def]
    rw [key d (by simp) (H + h) (by omega)]
  · unfold gapS
    rw [List.map_flatMap]
    apply List.flatMap_congr
    intro e he
    rw [List.map_map]
    apply List.map_congr_left
    intro h hh
    simp only [Function.comp_def]
    rw [key e (by simp [he]) h (List.mem_range.1 hh)]

/-- the result, when there is one -/
def labelResult {K : Type} (H : Nat) (d : Int) (ds : List Int) (v : Int → XF K) : Series (XF K) :=
  ((List.range (24 - H)).map fun h => (atHour d (H + h), v d)) ++ carry H v (fun k => if k = domDay d then v d else .nan) ds

theorem labelResult_index (H : Nat) (d : Int) (ds : List Int) (v : Int → XF K) : (labelResult H d ds v).index = labelIndex H d ds := by
  have := carry_index H v ds (fun k => if k = domDay d then v d else .nan)
  unfold Series.index at this
  unfold labelResult labelIndex Series.index
  rw [List.map_append, this]
  simp [Function.comp_def]

theorem distribute_of_index (api : PandasApi) {H : Nat} (hH : H < 24) (d : Int) (ds : List Int) (hs : (d :: ds).Pairwise (· < ·)) (v : Int → XF K) (divide : Bool)
    (hi : hourlyIndex api ((d :: ds).map (atHour · H)) = .ok (labelIndex H d ds)) :
    distributeEqually api (labelled H (d :: ds) v) divide = .ok ((labelResult H d ds v).map fun r => (r.1, share divide r.2)) := by
  unfold distributeEqually
  rw [labelled_index, hi]
  simp only [bind, Except.bind]
  rw [reindex_label hH d ds hs v]
  simp only [groupTransform_label hH, share]
  cases divide
  · simp [labelResult]
  · rfl

theorem carry_mem {H : Nat} (v : Int → XF K) (ds : List Int) : ∀ (prev : Int → XF K), ds.Pairwise (· < ·) → ∀ e ∈ ds, ∀ h < 24,
    (H ≤ h → (atHour e h, v e) ∈ carry H v prev ds) ∧
    (h < H → (∀ j ∈ ds, j < e → domDay j = domDay e → (∀ m ∈ ds, j < m → m < e → domDay m ≠ domDay e) → (atHour e h, v j) ∈ carry H v prev ds) ∧
      ((∀ j ∈ ds, j < e → domDay j ≠ domDay e) → (atHour e h, prev (domDay e)) ∈ carry H v prev ds)) := by
  induction ds with
  | nil => intro prev _ e he; simp at he
  | cons d ds ih =>
    intro prev hs e he h hh
    rw [List.pairwise_cons] at hs
    rw [carry]
    simp only [List.mem_append]
    rcases List.mem_cons.1 he with rfl | he
    · refine ⟨fun hH => Or.inl ?_, fun hH => ⟨?_, fun _ => Or.inl ?_⟩⟩
      · exact List.mem_map.2 ⟨h, List.mem_range.2 hh, by rw [if_neg (by omega)]⟩
      · intro j hj hlt
        rcases List.mem_cons.1 hj with rfl | hj
        · omega
        · have := hs.1 j hj; omega
      · exact List.mem_map.2 ⟨h, List.mem_range.2 hh, by rw [if_pos hH]⟩
    · have hde := hs.1 e he
      obtain ⟨h1, h2⟩ := ih (fun k => if k = domDay d then v d else prev k) hs.2 e he h hh
      refine ⟨fun hH => Or.inr (h1 hH), fun hH => ⟨?_, ?_⟩⟩
      · intro j hj hlt hdom hno
        right
        rcases List.mem_cons.1 hj with rfl | hj
        · have := (h2 hH).2 (fun m hm hme => hno m (by simp [hm]) (hs.1 m hm) hme)
          simpa [hdom] using this
        · exact (h2 hH).1 j hj hlt hdom (fun m hm => hno m (by simp [hm]))
      · intro hno
        right
        have := (h2 hH).2 (fun j hj => hno j (by simp [hj]))
        have hd := hno d (by simp) hde
        simpa [show ¬ domDay e = domDay d from fun e => hd e.symm] using this

/-- **C123 (rows and values).** Daily values of any increasing list of days `d :: ds`, each labelled at hour `H` of its
day.  Whenever `distribute_equally` returns, the rows are the hours of these days in order, those of the first day from its
label on.  From hour `H` on an hour has the value of its own day.  The hours before it have the value of the latest
earlier day of the record with the same day of the month, and are missing when there is none. -/
theorem C123_values (api : PandasApi) {H : Nat} (hH : H < 24) (d : Int) (ds : List Int) (hs : (d :: ds).Pairwise (· < ·)) (v : Int → XF K) (divide : Bool)
    (out : Series (XF K)) (hret : distributeEqually api (labelled H (d :: ds) v) divide = .ok out) :
    out.index.Pairwise (· < ·) ∧
    (∀ t, t ∈ out.index ↔ ∃ e ∈ d :: ds, ∃ h < 24, (e = d → H ≤ h) ∧ t = atHour e h) ∧
    ∀ e ∈ d :: ds, ∀ h < 24,
      (H ≤ h → out.at? (atHour e h) = some (share divide (v e))) ∧
      (h < H →
        (∀ j ∈ d :: ds, j < e → domOf (at00 j) = domOf (at00 e) →
          (∀ m ∈ d :: ds, j < m → m < e → domOf (at00 m) ≠ domOf (at00 e)) → out.at? (atHour e h) = some (share divide (v j))) ∧
        (e ≠ d → (∀ j ∈ d :: ds, j < e → domOf (at00 j) ≠ domOf (at00 e)) → out.at? (atHour e h) = some .nan)) := by
  have hdom : ∀ e, domOf (at00 e) = domDay e := fun e => by unfold domOf; rw [dayOf_at00]; rfl
  simp only [hdom]
  have hi : hourlyIndex api ((d :: ds).map (atHour · H)) = .ok (labelIndex H d ds) := by
    rw [distributeEqually, labelled_index] at hret
    cases hx : hourlyIndex api ((d :: ds).map (atHour · H)) with
    | error err => rw [hx] at hret; simp [bind, Except.bind] at hret
    | ok idx => rw [(hourlyIndex_label api hH d ds hs).1 idx hx]
  rw [distribute_of_index api hH d ds hs v divide hi] at hret
  injection hret with hret
  have hidx : out.index = labelIndex H d ds := by
    rw [← hret, ← labelResult_index H d ds v]; simp [Series.index, Function.comp_def]
  have hsort : out.index.Pairwise (· < ·) := by rw [hidx]; exact labelIndex_sorted hs
  refine ⟨hsort, fun t => by rw [hidx, mem_labelIndex hs], ?_⟩
  have hmem : ∀ t x, (t, x) ∈ labelResult H d ds v → out.at? t = some (share divide x) := by
    intro t x hx
    refine at?_mem_sorted hsort ?_
    rw [← hret]
    exact List.mem_map.2 ⟨(t, x), hx, rfl⟩
  have hnan : share divide (XF.nan : XF K) = .nan := by cases divide <;> rfl
  have hs' := hs
  rw [List.pairwise_cons] at hs'
  intro e he h hh
  rcases List.mem_cons.1 he with rfl | he
  · refine ⟨fun hle => hmem _ _ ?_, fun _ => ⟨?_, fun hne => absurd rfl hne⟩⟩
    · exact List.mem_append_left _ (List.mem_map.2 ⟨h - H, List.mem_range.2 (by omega), by rw [Nat.add_sub_cancel' hle]⟩)
    · intro j hj hlt
      rcases List.mem_cons.1 hj with rfl | hj
      · omega
      · have := hs'.1 j hj; omega
  · obtain ⟨h1, h2⟩ := carry_mem (H := H) v ds (fun k => if k = domDay d then v d else .nan) hs'.2 e he h hh
    refine ⟨fun hle => hmem _ _ (List.mem_append_right _ (h1 hle)), fun hlt => ⟨?_, ?_⟩⟩
    · intro j hj hje hdm hno
      refine hmem _ _ (List.mem_append_right _ ?_)
      rcases List.mem_cons.1 hj with rfl | hj
      · have := (h2 hlt).2 (fun m hm hme => hno m (by simp [hm]) (hs'.1 m hm) hme)
        simpa [hdm] using this
      · exact (h2 hlt).1 j hj hje hdm (fun m hm => hno m (by simp [hm]))
    · intro _ hno
      rw [← hnan]
      refine hmem _ _ (List.mem_append_right _ ?_)
      have := (h2 hlt).2 (fun j hj => hno j (by simp [hj]))
      have hd := hno d (by simp) (hs'.1 e he)
      simpa [show ¬ domDay e = domDay d from fun e => hd e.symm] using this

/-- **C123 (when it returns).** Without a gap between the days the call returns; with one it returns only when pandas still
has `Index.to_datetime` and `pd.datetime`, and raises AttributeError when `Index.to_datetime` is gone. -/
theorem C123_returns (api : PandasApi) {H : Nat} (hH : H < 24) (d : Int) (ds : List Int) (hs : (d :: ds).Pairwise (· < ·)) (v : Int → XF K) (divide : Bool) :
    ((∀ g, d ≤ g → (∃ b ∈ d :: ds, g ≤ b) → g ∈ d :: ds) ∨ (api.indexToDatetime = true ∧ api.pdDatetime = true) →
      ∃ out, distributeEqually api (labelled H (d :: ds) v) divide = .ok out) ∧
    (∀ g, d ≤ g → (∃ b ∈ d :: ds, g ≤ b) → g ∉ d :: ds → api.indexToDatetime = false →
      distributeEqually api (labelled H (d :: ds) v) divide = .error .attributeError) := by
  obtain ⟨_, h2, h3⟩ := hourlyIndex_label api hH d ds hs
  refine ⟨fun h => ⟨_, distribute_of_index api hH d ds hs v divide (h2 h)⟩, fun g hg hb hn ha => ?_⟩
  unfold distributeEqually
  rw [labelled_index, h3 g hg hb hn ha]
  rfl

theorem dayCells_of_at {V : Type} {s : Series V} (hs : s.index.Pairwise (· < ·)) (D : Int) (f : Nat → V)
    (hin : ∀ t ∈ s.index, t / 86400000000 = D → ∃ h < 24, t = atHour D h) (hat : ∀ h < 24, (atHour D h, f h) ∈ s) :
    dayCells s D = (List.range 24).map f := by
  have hs' : s.Pairwise (fun a b => a.1 < b.1) := by
    unfold Series.index at hs; rwa [List.pairwise_map] at hs
  have huniq : ∀ t x, (t, x) ∈ s → s.at? t = some x := fun t x h => at?_mem_sorted hs h
  have : s.filter (fun r => decide (r.1 / 86400000000 = D)) = (List.range 24).map fun h => (atHour D h, f h) := by
    have hs2 : ((List.range 24).map fun h => (atHour D h, f h)).Pairwise (fun a b => a.1 < b.1) := by
      rw [List.pairwise_map]
      exact (List.pairwise_lt_range (n := 24)).imp (by intro a b h; unfold atHour; omega)
    refine List.Perm.eq_of_pairwise (fun a b _ _ h1 h2 => absurd h2 (by have h1 : a.1 < b.1 := h1; show ¬ b.1 < a.1; omega)) (hs'.filter _) hs2 ?_
    have hne : ∀ {a b : Time × V}, a.1 < b.1 → a ≠ b := by rintro a b h rfl; omega
    refine (List.perm_ext_iff_of_nodup ((hs'.filter _).imp hne) (hs2.imp hne)).2 ?_
    rintro ⟨t, x⟩
    simp only [List.mem_filter, decide_eq_true_eq, List.mem_map, List.mem_range]
    constructor
    · rintro ⟨hm, hD⟩
      obtain ⟨h, hh, rfl⟩ := hin t (List.mem_map.2 ⟨_, hm, rfl⟩) hD
      refine ⟨h, hh, ?_⟩
      have h1 := huniq _ _ hm
      rw [huniq _ _ (hat h hh)] at h1
      injection h1 with h1
      rw [h1]
    · rintro ⟨h, hh, he⟩
      injection he with h1 h2
      subst h1; subst h2
      exact ⟨hat h hh, by unfold atHour; omega⟩
  unfold dayCells
  rw [this, List.map_map]
  rfl

theorem mem_of_at? {V : Type} {s : Series V} {t : Time} {x : V} (h : s.at? t = some x) : (t, x) ∈ s := by
  unfold Series.at? at h
  rw [Option.map_eq_some_iff] at h
  obtain ⟨r, hr, rfl⟩ := h
  have h1 := List.mem_of_find?_eq_some hr
  have h2 := List.find?_some hr
  have h2 : r.1 = t := by simpa using h2
  rw [← h2]
  exact h1

/-- **C123 (gaps).** Values of any increasing list of days labelled at midnight: each listed day has its value in all its
24 hours, and with `divide=True` its 24 hours add up to it - also when days in between are not in the record. -/
theorem C123_gaps (api : PandasApi) (d : Int) (ds : List Int) (hs : (d :: ds).Pairwise (· < ·)) (v : Int → XF K) :
    (∀ out, distributeEqually api (labelled 0 (d :: ds) v) = .ok out →
      (∀ t, t ∈ out.index ↔ ∃ e ∈ d :: ds, ∃ h < 24, t = atHour e h) ∧ ∀ e ∈ d :: ds, dayCells out e = List.replicate 24 (v e)) ∧
    (∀ out, distributeEqually api (labelled 0 (d :: ds) v) true = .ok out →
      ∀ e ∈ d :: ds, ∀ x, v e = .fin x → TotalIs (dayCells out e) x) := by
  have hcells : ∀ divide out, distributeEqually api (labelled 0 (d :: ds) v) divide = .ok out → ∀ e ∈ d :: ds, dayCells out e = List.replicate 24 (share divide (v e)) := by
    intro divide out hret e he
    obtain ⟨h1, h2, h3⟩ := C123_values api (by decide) d ds hs v divide out hret
    rw [dayCells_of_at h1 e (fun _ => share divide (v e))]
    · rfl
    · intro t ht hD
      obtain ⟨f, _, h, hh, _, rfl⟩ := (h2 t).1 ht
      have : f = e := by unfold atHour at hD; omega
      subst this
      exact ⟨h, hh, rfl⟩
    · intro h hh
      exact mem_of_at? ((h3 e he h hh).1 (Nat.zero_le h))
  refine ⟨fun out hret => ⟨fun t => ?_, hcells false out hret⟩, fun out hret e he x hx => ?_⟩
  · rw [(C123_values api (by decide) d ds hs v false out hret).2.1 t]
    simp
  · refine ⟨List.replicate 24 (x / 24), ?_, ?_⟩
    · rw [hcells true out hret e he, hx]
      simp [share, XF.fin_div_fin]
    · simp; ring

/-- **C123 (labels after midnight).** A day whose value `x` is labelled at hour `H`, with `y` the value of the latest
earlier day of the record that has the same day of the month: the hours of the day add up to `((24 - H)·x + H·y)/24`. -/
theorem C123_amount (api : PandasApi) {H : Nat} (hH : H < 24) (d : Int) (ds : List Int) (hs : (d :: ds).Pairwise (· < ·)) (v : Int → XF K)
    (out : Series (XF K)) (hret : distributeEqually api (labelled H (d :: ds) v) true = .ok out)
    (e j : Int) (he : e ∈ d :: ds) (hj : j ∈ d :: ds) (hje : j < e) (hdom : domOf (at00 j) = domOf (at00 e))
    (hno : ∀ m ∈ d :: ds, j < m → m < e → domOf (at00 m) ≠ domOf (at00 e)) (x y : K) (hx : v e = .fin x) (hy : v j = .fin y) :
    TotalIs (dayCells out e) (((24 - (H : K)) * x + H * y) / 24) := by
  obtain ⟨h1, h2, h3⟩ := C123_values api hH d ds hs v true out hret
  have hne : e ≠ d := by
    rintro rfl
    rw [List.pairwise_cons] at hs
    rcases List.mem_cons.1 hj with rfl | hj
    · omega
    · have := hs.1 j hj; omega
  have hc := dayCells_of_at h1 e (fun h => if h < H then XF.fin (y / 24) else .fin (x / 24)) (by
      intro t ht hD
      obtain ⟨f, _, h, hh, _, rfl⟩ := (h2 t).1 ht
      have : f = e := by unfold atHour at hD; omega
      subst this
      exact ⟨h, hh, rfl⟩) (by
      intro h hh
      apply mem_of_at?
      split
      · next hlt => rw [((h3 e he h hh).2 hlt).1 j hj hje hdom hno, hy]; simp [share, XF.fin_div_fin]
      · next hlt => rw [(h3 e he h hh).1 (by omega), hx]; simp [share, XF.fin_div_fin])
  refine ⟨List.replicate H (y / 24) ++ List.replicate (24 - H) (x / 24), ?_, ?_⟩
  · rw [hc, range_split hH]; simp
  · simp only [List.sum_append, List.sum_replicate, nsmul_eq_mul]
    rw [Nat.cast_sub hH.le]
    push_cast
    ring

/-- **C123 (how far back).** Two days with the same day of the month are at least 28 days apart. -/
theorem C123_month (j e : Int) (hje : j < e) (hdom : domOf (at00 j) = domOf (at00 e)) : j + 28 ≤ e := by
  have hd : ∀ e, domOf (at00 e) = (civil e).2.2 := fun e => by unfold domOf; rw [dayOf_at00]
  rw [hd, hd] at hdom
  by_contra hlt
  obtain ⟨k, hk⟩ : ∃ k : Nat, e = j + k := ⟨(e - j).toNat, by omega⟩
  subst hk
  have hml : ∀ y m : Int, 28 ≤ monthLength y m := by
    intro y m
    unfold monthLength
    repeat' split
    all_goals omega
  -- after a step of `k < 28` days the day of the month has grown by `k`, or has fallen and is at most `k`
  have hstep : ∀ k : Nat, k < 28 → (civil (j + k)).2.2 = (civil j).2.2 + k ∨ ((civil (j + k)).2.2 ≤ k ∧ (civil (j + k)).2.2 < (civil j).2.2 - (28 - k) + 1) := by
    intro k
    induction k with
    | zero => intro _; left; simp
    | succ k ih =>
      intro hk
      have hs := civil_succ (j + k)
      have hcast : j + ((k + 1 : Nat) : Int) = j + k + 1 := by push_cast; ring
      rw [hcast, hs]
      have hb := hml (civil (j + k)).1 (civil (j + k)).2.1
      unfold nextDate
      rcases ih (by omega) with h | h
      · split
        · left; simp only; omega
        · right
          split <;> simp only <;> omega
      · split
        · right; simp only; omega
        · right; split <;> simp only <;> omega
  have := hstep k (by omega)
  omega

/-- 2 January to 9 February 1970 -/
def exWinter : List Int := (List.range 39).map fun i : Nat => (i : Int) + 1

/-- a value for each day -/
def exValue (d : Int) : XF ℚ := .fin ((d : ℚ) + 100)

/-- values of forty days labelled at 7:00: the value of 1 February (day 31) starts at 7:00, its first hours have the value of 1 January (day 0);
the first hours of 2 January are missing -/
example : ∃ out : Series (XF ℚ), distributeEqually .modern (labelled 7 (0 :: exWinter) exValue) = .ok out ∧
    out.at? (atHour 31 7) = some (.fin 131) ∧ out.at? (atHour 31 6) = some (.fin 100) ∧ out.at? (atHour 1 3) = some .nan := by
  have hs : (0 :: exWinter).Pairwise (· < ·) := by decide +kernel
  obtain ⟨out, ho⟩ := (C123_returns .modern (by decide : 7 < 24) 0 exWinter hs exValue false).1
    (Or.inl (by
      rintro g h0 ⟨b, hb, hg⟩
      have hb' : b < 40 := by
        rcases List.mem_cons.1 hb with rfl | hb
        · omega
        · obtain ⟨i, hi, rfl⟩ := List.mem_map.1 hb
          have := List.mem_range.1 hi; omega
      rcases Int.lt_or_eq_of_le h0 with h | h
      · exact List.mem_cons_of_mem _ (List.mem_map.2 ⟨(g - 1).toNat, List.mem_range.2 (by omega), by omega⟩)
      · rw [← h]; simp))
  obtain ⟨_, _, h⟩ := C123_values .modern (by decide) 0 exWinter hs _ false out ho
  refine ⟨out, ho, ?_, ?_, ?_⟩
  · rw [(h 31 (by decide +kernel) 7 (by decide)).1 (le_refl _)]; simp [share, exValue]; try norm_num
  · rw [((h 31 (by decide +kernel) 6 (by decide)).2 (by decide)).1 0 (by simp) (by decide) (by decide +kernel) (by decide +kernel)]; simp [share, exValue]; try norm_num
  · exact ((h 1 (by decide +kernel) 3 (by decide)).2 (by decide)).2 (by decide) (by decide +kernel)

/-- two days with a gap of a month, pandas as it was: each has its own value, although they have the same day of the month -/
example : ∃ out : Series (XF ℚ), distributeEqually .legacy (labelled 0 [0, 31] exValue) = .ok out ∧
    dayCells out 0 = List.replicate 24 (.fin 100) ∧ dayCells out 31 = List.replicate 24 (.fin 131) := by
  obtain ⟨out, ho⟩ := (C123_returns .legacy (by decide : 0 < 24) 0 [31] (by decide) exValue false).1 (Or.inr ⟨rfl, rfl⟩)
  have h := (C123_gaps .legacy 0 [31] (by decide) exValue).1 out ho
  refine ⟨out, ho, ?_, ?_⟩
  · rw [h.2 0 (by decide)]; simp [exValue]; try norm_num
  · rw [h.2 31 (by decide)]; simp [exValue]; try norm_num

/-- … and current pandas raises -/
example : distributeEqually .modern (labelled 0 [0, 31] exValue) = .error .attributeError :=
  (C123_returns .modern (by decide) 0 [31] (by decide) _ false).2 5 (by decide) ⟨31, by decide, by decide⟩ (by decide) rfl

end Melodist
