import Verif.Lemmas.Series

namespace Melodist
open Spec

variable {V : Type}

theorem filter_ends_take (rows : List (Int × V)) (hnd : (rows.map Prod.fst).Nodup) (L : List Int) (a b : Nat)
    (hab : a ≤ b) (hL : ∀ t, t ∈ L ↔ t ∈ (rows.map Prod.fst).take a ∨ t ∈ (rows.map Prod.fst).drop b) :
    rows.filter (fun r => !L.contains r.1) = (rows.take b).drop a := by
  have hsplit : rows = rows.take a ++ ((rows.take b).drop a ++ rows.drop b) := by
    rw [← List.append_assoc]
    conv_lhs => rw [← List.take_append_drop b rows]
    congr 1
    conv_lhs => rw [← List.take_append_drop a (rows.take b)]
    rw [List.take_take, Nat.min_eq_left hab]
  have hp := hnd
  rw [hsplit, List.map_append, List.map_append, List.nodup_append, List.nodup_append] at hp
  obtain ⟨_, ⟨_, _, hmd⟩, hh⟩ := hp
  conv_lhs => rw [hsplit]
  rw [List.filter_append, List.filter_append]
  have e1 : (rows.take a).filter (fun r => !L.contains r.1) = [] := by
    rw [List.filter_eq_nil_iff]
    intro r hr
    have : r.1 ∈ L := (hL _).2 (Or.inl (by rw [← List.map_take]; exact List.mem_map.2 ⟨r, hr, rfl⟩))
    simpa using this
  have e3 : (rows.drop b).filter (fun r => !L.contains r.1) = [] := by
    rw [List.filter_eq_nil_iff]
    intro r hr
    have : r.1 ∈ L := (hL _).2 (Or.inr (by rw [← List.map_drop]; exact List.mem_map.2 ⟨r, hr, rfl⟩))
    simpa using this
  have e2 : ((rows.take b).drop a).filter (fun r => !L.contains r.1) = (rows.take b).drop a := by
    rw [List.filter_eq_self]
    intro r hr
    have hrm : r.1 ∈ ((rows.take b).drop a).map Prod.fst := List.mem_map.2 ⟨r, hr, rfl⟩
    have : r.1 ∉ L := by
      intro hc
      rcases (hL _).1 hc with h | h
      · rw [← List.map_take] at h
        exact hh _ h _ (List.mem_append.2 (Or.inl hrm)) rfl
      · rw [← List.map_drop] at h
        exact hmd _ hrm _ h rfl
    simpa using this
  rw [e1, e2, e3]; simp

theorem filter_ends (rows : List (Int × V)) (hnd : (rows.map Prod.fst).Nodup) (L : List Int) (a b : Nat)
    (hL : ∀ t, t ∈ L ↔ t ∈ (rows.map Prod.fst).take a ∨ t ∈ (rows.map Prod.fst).drop b) :
    rows.filter (fun r => !L.contains r.1) = (rows.take b).drop a := by
  by_cases hab : a ≤ b
  · exact filter_ends_take rows hnd L a b hab hL
  · have h1 : (rows.take b).drop a = [] := by
      rw [List.drop_eq_nil_iff]; simp; omega
    rw [h1, List.filter_eq_nil_iff]
    intro r hr
    have hm : r.1 ∈ rows.map Prod.fst := List.mem_map.2 ⟨r, hr, rfl⟩
    rw [← List.take_append_drop b (rows.map Prod.fst), List.mem_append] at hm
    have : r.1 ∈ L := by
      rw [hL]
      rcases hm with h | h
      · left
        exact (List.take_subset_take_left _ (by omega)) h
      · exact Or.inr h
    simpa using this

/-- number of rows dropped at the front -/
def headCount (first : Int) (idx : List Int) : Nat := (idx.takeWhile fun t => !isFullHour first t).length
/-- number of rows dropped at the end -/
def tailCount (last : Int) (idx : List Int) : Nat := (idx.tail.reverse.takeWhile fun t => !isFullHour last t).length

theorem takeWhile_eq_take {α : Type} (p : α → Bool) (l : List α) : l.takeWhile p = l.take (l.takeWhile p).length := by
  induction l with
  | nil => rfl
  | cons a l ih =>
    rw [List.takeWhile_cons]
    split
    · rw [List.length_cons, List.take_succ_cons, ← ih]
    · rfl

/-- effective first hour (util.py:317-324) -/
def firstHour (shift : Int) : Int := if shift > 23 ∨ shift < 0 then 0 else shift
/-- effective last hour -/
def lastHour (shift : Int) : Int := if firstHour shift - 1 < 0 then firstHour shift - 1 + 24 else firstHour shift - 1

theorem tailCount_le (last : Int) (idx : List Int) : tailCount last idx ≤ idx.length - 1 := by
  unfold tailCount
  have := (List.takeWhile_prefix (fun t => !isFullHour last t) (l := idx.tail.reverse)).length_le
  simpa using this

theorem drop_eq (rows : List (Int × V)) (hnd : (rows.map Prod.fst).Nodup) (shift : Int) :
    dropIncompleteDays rows shift =
      (rows.take (rows.length - tailCount (lastHour shift) (rows.map Prod.fst))).drop
        (headCount (firstHour shift) (rows.map Prod.fst)) := by
  unfold dropIncompleteDays
  apply filter_ends rows hnd
  intro t
  rw [List.mem_append]
  apply or_congr
  · rw [show Series.index rows = rows.map Prod.fst from rfl, takeWhile_eq_take]; exact Iff.rfl
  · rw [show Series.index rows = rows.map Prod.fst from rfl, takeWhile_eq_take]
    change t ∈ (rows.map Prod.fst).tail.reverse.take (tailCount (lastHour shift) (rows.map Prod.fst)) ↔ _
    have hle := tailCount_le (lastHour shift) (rows.map Prod.fst)
    rw [List.length_map] at hle
    rw [List.take_reverse, List.mem_reverse, List.length_tail, List.length_map, List.drop_tail]
    rcases Nat.eq_zero_or_pos rows.length with h0 | h0
    · have : rows = [] := List.length_eq_zero_iff.1 h0
      subst this; simp
    · rw [show rows.length - 1 - tailCount (lastHour shift) (rows.map Prod.fst) + 1 =
        rows.length - tailCount (lastHour shift) (rows.map Prod.fst) by omega]

theorem takeWhile_stop {α : Type} (p : α → Bool) (l : List α) (h : (l.takeWhile p).length < l.length) :
    p l[(l.takeWhile p).length] = false := by
  induction l with
  | nil => simp at h
  | cons a l ih =>
    by_cases hp : p a = true
    · have e : (a :: l).takeWhile p = a :: l.takeWhile p := by rw [List.takeWhile_cons, if_pos hp]
      simp only [e, List.length_cons] at h ⊢
      simpa using ih (by omega)
    · have e : (a :: l).takeWhile p = [] := by rw [List.takeWhile_cons, if_neg hp]
      simp only [e]
      simpa using hp

theorem headCount_zero (first : Int) (l : List Int) (h : ∀ x, l.head? = some x → isFullHour first x = true) :
    headCount first l = 0 := by
  unfold headCount
  rcases l with _ | ⟨a, l⟩
  · rfl
  · rw [List.takeWhile_cons_of_neg]
    · rfl
    · simp [h a rfl]

theorem tailCount_zero (last : Int) (l : List Int) (h : 2 ≤ l.length → ∀ x, l.getLast? = some x → isFullHour last x = true) :
    tailCount last l = 0 := by
  unfold tailCount
  rcases l with _ | ⟨a, l⟩
  · rfl
  · rcases List.eq_nil_or_concat l with rfl | ⟨l', x, rfl⟩
    · rfl
    · simp only [List.concat_eq_append, List.tail_cons, List.reverse_append, List.reverse_cons, List.reverse_nil, List.nil_append, List.singleton_append]
      have hx : isFullHour last x = true := h (by simp) x (by
        rw [List.concat_eq_append, ← List.cons_append, List.getLast?_append]; rfl)
      rw [List.takeWhile_cons_of_neg]
      · rfl
      · simp [hx]

/-- after dropping, nothing more is dropped -/
theorem drop_idem (rows : List (Int × V)) (hnd : (rows.map Prod.fst).Nodup) (shift : Int) :
    dropIncompleteDays (dropIncompleteDays rows shift) shift = dropIncompleteDays rows shift := by
  have hsub : (dropIncompleteDays rows shift).Sublist rows := by
    unfold dropIncompleteDays; exact List.filter_sublist
  have hnd' : ((dropIncompleteDays rows shift).map Prod.fst).Nodup := (hsub.map _).nodup hnd
  rw [drop_eq _ hnd']
  have ha : headCount (firstHour shift) ((dropIncompleteDays rows shift).map Prod.fst) = 0 := by
    apply headCount_zero
    intro x hx
    rw [drop_eq rows hnd, List.map_drop, List.map_take, List.head?_drop] at hx
    set idx := rows.map Prod.fst with hidx
    have hlt : headCount (firstHour shift) idx < idx.length := by
      by_contra hc
      rw [List.getElem?_eq_none (by simp; omega)] at hx
      simp at hx
    rw [List.getElem?_take] at hx
    split at hx
    · rw [List.getElem?_eq_getElem hlt] at hx
      have := takeWhile_stop (fun t => !isFullHour (firstHour shift) t) idx hlt
      simp only [Option.some.injEq] at hx
      change (!isFullHour (firstHour shift) idx[headCount (firstHour shift) idx]) = false at this
      rw [hx] at this
      simpa using this
    · simp at hx
  have hb : tailCount (lastHour shift) ((dropIncompleteDays rows shift).map Prod.fst) = 0 := by
    apply tailCount_zero
    intro h2 x hx
    rw [drop_eq rows hnd, List.map_drop, List.map_take] at hx h2
    set idx := rows.map Prod.fst with hidx
    have hlen : rows.length = idx.length := by simp [hidx]
    rw [hlen] at hx h2
    have hle := tailCount_le (lastHour shift) idx
    simp only [List.length_drop, List.length_take] at h2
    rw [List.getLast?_eq_getElem?] at hx
    simp only [List.length_drop, List.length_take] at hx
    rw [List.getElem?_drop, List.getElem?_take, if_pos (by omega)] at hx
    have hlt : tailCount (lastHour shift) idx < idx.tail.reverse.length := by simp; omega
    have := takeWhile_stop (fun t => !isFullHour (lastHour shift) t) idx.tail.reverse hlt
    have hget : idx.tail.reverse[tailCount (lastHour shift) idx] = x := by
      have hpos : headCount (firstHour shift) idx + (min (idx.length - tailCount (lastHour shift) idx) idx.length - headCount (firstHour shift) idx - 1) =
        idx.length - 1 - tailCount (lastHour shift) idx := by omega
      rw [hpos, List.getElem?_eq_getElem (by omega)] at hx
      simp only [Option.some.injEq] at hx
      rw [← hx, List.getElem_reverse, List.getElem_tail]
      congr 1
      simp; omega
    change (!isFullHour (lastHour shift) idx.tail.reverse[tailCount (lastHour shift) idx]) = false at this
    rw [hget] at this
    simpa using this
  rw [ha, hb]
  simp

/-! ### regular hourly frames -/

/-- an equally spaced hourly index of `m` rows from `t0` -/
def hourlyIdx (t0 : Int) (m : Nat) : List Int := (List.range m).map fun k : Nat => t0 + k * HOUR

theorem takeWhile_range_length (p : Nat → Bool) (m i : Nat) (hp : ∀ k < i, k < m → p k = true) (hi : i < m → p i = false) :
    ((List.range m).takeWhile p).length = min i m := by
  induction m generalizing p i with
  | zero => simp
  | succ m ih =>
    rw [List.range_succ_eq_map]
    rcases i with _ | i
    · rw [List.takeWhile_cons_of_neg]
      · simp
      · simp [hi (by omega)]
    · rw [List.takeWhile_cons_of_pos (hp 0 (by omega) (by omega)), List.length_cons, List.takeWhile_map, List.length_map,
        ih (p ∘ Nat.succ) i (fun k hk hm => hp (k + 1) (by omega) (by omega)) (fun h => hi (by omega))]
      omega

theorem isFullHour_hourly (t0 : Int) (h0 : t0 % HOUR = 0) (k : Nat) (h : Int) :
    isFullHour h (t0 + k * HOUR) = decide ((hourOf t0 + k) % 24 = h) := by
  unfold isFullHour hourOf minuteOf
  have h1 : (t0 + (k : Int) * HOUR) % HOUR / MINUTE = 0 := by omega
  have h2 : (t0 + (k : Int) * HOUR) % DAY / HOUR = (t0 % DAY / HOUR + k) % 24 := by omega
  rw [h1, h2]
  by_cases hh : (t0 % DAY / HOUR + (k : Int)) % 24 = h <;> simp [hh]

theorem headCount_hourly (t0 : Int) (h0 : t0 % HOUR = 0) (m : Nat) (first : Int) (hf : 0 ≤ first ∧ first ≤ 23) :
    headCount first (hourlyIdx t0 m) = min ((first - hourOf t0) % 24).toNat m := by
  unfold headCount hourlyIdx
  rw [List.takeWhile_map, List.length_map]
  apply takeWhile_range_length
  · intro k hk hkm
    simp only [Function.comp_def, isFullHour_hourly t0 h0, Bool.not_eq_true', decide_eq_false_iff_not]
    omega
  · intro _
    simp only [Function.comp_def, isFullHour_hourly t0 h0, Bool.not_eq_false', decide_eq_true_eq]
    omega

theorem tail_reverse_hourly (t0 : Int) (m : Nat) :
    (hourlyIdx t0 m).tail.reverse = (List.range (m - 1)).map fun k : Nat => t0 + ((m - 1 - k : Nat) : Int) * HOUR := by
  apply List.ext_getElem
  · simp [hourlyIdx]
  · intro k h1 h2
    simp only [hourlyIdx, List.length_reverse, List.length_tail, List.length_map, List.length_range] at h1
    simp only [hourlyIdx, List.getElem_reverse, List.getElem_tail, List.getElem_map, List.getElem_range, List.length_tail, List.length_map, List.length_range]
    congr 2
    omega

theorem tailCount_hourly (t0 : Int) (h0 : t0 % HOUR = 0) (m : Nat) (last : Int) (hf : 0 ≤ last ∧ last ≤ 23) :
    tailCount last (hourlyIdx t0 m) = min ((hourOf t0 + m - 1 - last) % 24).toNat (m - 1) := by
  unfold tailCount
  rw [tail_reverse_hourly, List.takeWhile_map, List.length_map]
  apply takeWhile_range_length
  · intro k hk hkm
    simp only [Function.comp_def, isFullHour_hourly t0 h0, Bool.not_eq_true', decide_eq_false_iff_not]
    omega
  · intro _
    simp only [Function.comp_def, isFullHour_hourly t0 h0, Bool.not_eq_false', decide_eq_true_eq]
    omega

theorem hourlyIdx_nodup (t0 : Int) (m : Nat) : (hourlyIdx t0 m).Nodup := by
  apply nodup_of_sorted
  unfold hourlyIdx
  rw [List.pairwise_map]
  exact (List.pairwise_lt_range (n := m)).imp (by intro a b h; omega)

theorem firstHour_range (shift : Int) : 0 ≤ firstHour shift ∧ firstHour shift ≤ 23 := by
  unfold firstHour; split <;> omega

theorem lastHour_range (shift : Int) : 0 ≤ lastHour shift ∧ lastHour shift ≤ 23 := by
  have := firstHour_range shift
  unfold lastHour; split <;> omega

theorem lastHour_mod (shift : Int) : lastHour shift = (firstHour shift - 1) % 24 := by
  have := firstHour_range shift
  unfold lastHour; split <;> omega

theorem hourOf_range (t : Int) : 0 ≤ hourOf t ∧ hourOf t ≤ 23 := by
  unfold hourOf; omega

/-- complete description for regular hourly frames -/
theorem drop_hourly (rows : List (Int × V)) (t0 : Int) (h0 : t0 % HOUR = 0)
    (hidx : rows.map Prod.fst = hourlyIdx t0 rows.length) (shift : Int) :
    dropIncompleteDays rows shift =
      if (firstHour shift - hourOf t0) % 24 = 0 ∧ 0 < rows.length ∧ rows.length < 24 then rows.take 1
      else (rows.drop ((firstHour shift - hourOf t0) % 24).toNat).take
        (24 * ((rows.length - ((firstHour shift - hourOf t0) % 24).toNat) / 24)) := by
  have hnd : (rows.map Prod.fst).Nodup := by rw [hidx]; exact hourlyIdx_nodup _ _
  rw [drop_eq rows hnd, hidx, headCount_hourly t0 h0 _ _ (firstHour_range _), tailCount_hourly t0 h0 _ _ (lastHour_range _)]
  have h1 := firstHour_range shift
  have h2 := hourOf_range t0
  rw [lastHour_mod]
  set m := rows.length with hm
  set i : Nat := ((firstHour shift - hourOf t0) % 24).toNat with hi
  have hi' : (firstHour shift - hourOf t0) % 24 = i := by omega
  split
  · next h =>
    rw [show min i m = 0 by omega, List.drop_zero]
    congr 1
    omega
  · next h =>
    by_cases hle : i ≤ m
    · rw [show min i m = i by omega, List.drop_take]
      by_cases hz : m = 0
      · have : rows = [] := List.length_eq_zero_iff.1 (by omega)
        subst this; simp
      · by_cases hq : m - i < 24 
        · rw [show 24 * ((m - i) / 24) = 0 by omega, List.take_zero]
          rw [show m - min ((hourOf t0 + ↑m - 1 - (firstHour shift - 1) % 24) % 24).toNat (m - 1) - i = 0 by omega]
          simp
        · congr 1
          omega
    · rw [List.drop_eq_nil_of_le (by simp; omega), List.drop_eq_nil_of_le (by omega)]
      simp

end Melodist
