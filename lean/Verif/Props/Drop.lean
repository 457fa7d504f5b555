import Verif.Lemmas.Drop

/-!
# C11, C12: drop_incomplete_days
-/

namespace Melodist
open Spec

variable {V : Type}

namespace Spec
/-- the index of a gap-free hourly frame with `m` rows, starting at the full hour `t0` -/
def gapFreeHourly (t0 : Int) (m : Nat) : List Int := (List.range m).map fun k : Nat => t0 + k * 3600000000

/-- the hour of day of a timestamp -/
def hourOfDay (t : Int) : Int := t % 86400000000 / 3600000000

/-- a block of complete days that begin at hour `first`: a multiple of 24 consecutive rows, the first one at `first`,
the last one at the hour before -/
def WholeDays (first : Int) (block : List (Int × V)) : Prop :=
  ∃ q, block.length = 24 * q ∧
    (∀ r, block.head? = some r → hourOfDay r.1 = first) ∧
    (∀ r, block.getLast? = some r → hourOfDay r.1 = (first - 1) % 24)
end Spec

theorem hour_of_row (rows : List (Int × V)) (t0 : Int) (h0 : t0 % HOUR = 0)
    (hidx : rows.map Prod.fst = gapFreeHourly t0 rows.length) (k : Nat) (hk : k < rows.length) :
    rows[k].1 = t0 + k * HOUR ∧ hourOfDay rows[k].1 = (hourOf t0 + k) % 24 := by
  have h : (rows.map Prod.fst)[k]'(by simpa using hk) = t0 + k * HOUR := by
    simp only [hidx, gapFreeHourly, List.getElem_map, List.getElem_range]
  rw [List.getElem_map] at h
  refine ⟨h, ?_⟩
  rw [h]
  unfold hourOfDay hourOf
  omega

/-- the exceptional case of C11: fewer than 24 rows, the first one exactly at the first hour -/
def StartsShort (rows : List (Int × V)) (t0 : Int) (first : Int) : Prop :=
  hourOfDay t0 = first ∧ 0 < rows.length ∧ rows.length < 24

/-- **C11.** For a gap-free hourly frame that is not one of the exceptional ones, the result is a block of
complete days (shift 0..23 = first hour of a day). -/
theorem C11_whole_days (rows : List (Int × V)) (t0 : Int) (h0 : t0 % 3600000000 = 0)
    (hidx : rows.map Prod.fst = gapFreeHourly t0 rows.length) (shift : Int) (hs : 0 ≤ shift ∧ shift ≤ 23)
    (hexc : ¬ StartsShort rows t0 shift) :
    WholeDays shift (dropIncompleteDays rows shift) := by
  have hf : firstHour shift = shift := by unfold firstHour; rw [if_neg (by omega)]
  have hr := hourOf_range t0
  rw [drop_hourly rows t0 h0 hidx, hf]
  have hexc' : ¬ ((shift - hourOf t0) % 24 = 0 ∧ 0 < rows.length ∧ rows.length < 24) := by
    rintro ⟨h1, h2⟩
    exact hexc ⟨by unfold hourOfDay; unfold hourOf at h1 hr; omega, h2⟩
  rw [if_neg hexc']
  set i : Nat := ((shift - hourOf t0) % 24).toNat with hi
  set q : Nat := (rows.length - i) / 24 with hq
  have hlen : ((rows.drop i).take (24 * q)).length = 24 * q := by
    rw [List.length_take, List.length_drop]; omega
  refine ⟨q, hlen, ?_, ?_⟩
  · intro r hr'
    rw [List.head?_eq_getElem?] at hr'
    have hlt : 0 < 24 * q := by
      by_contra hc
      rw [List.getElem?_eq_none (by omega)] at hr'; simp at hr'
    rw [List.getElem?_eq_getElem (by omega), List.getElem_take, List.getElem_drop] at hr'
    simp only [Option.some.injEq] at hr'
    rw [← hr', (hour_of_row rows t0 h0 hidx (i + 0) (by omega)).2]
    omega
  · intro r hr'
    rw [List.getLast?_eq_getElem?, hlen] at hr'
    have hlt : 0 < 24 * q := by
      by_contra hc
      rw [List.getElem?_eq_none (by omega)] at hr'; simp at hr'
    rw [List.getElem?_eq_getElem (by omega), List.getElem_take, List.getElem_drop] at hr'
    simp only [Option.some.injEq] at hr'
    rw [← hr', (hour_of_row rows t0 h0 hidx (i + (24 * q - 1)) (by omega)).2]
    omega

/-- **C11 (exception).** In the exceptional case exactly the first row survives, which is not a complete day. -/
theorem C11_exception (rows : List (Int × V)) (t0 : Int) (h0 : t0 % 3600000000 = 0)
    (hidx : rows.map Prod.fst = gapFreeHourly t0 rows.length) (shift : Int) (hs : 0 ≤ shift ∧ shift ≤ 23)
    (hexc : StartsShort rows t0 shift) :
    (dropIncompleteDays rows shift).length = 1 ∧ ¬ WholeDays shift (dropIncompleteDays rows shift) := by
  have hf : firstHour shift = shift := by unfold firstHour; rw [if_neg (by omega)]
  have hl : (dropIncompleteDays rows shift).length = 1 := by
    rw [drop_hourly rows t0 h0 hidx, hf, if_pos]
    · rw [List.length_take]; have := hexc.2.1; omega
    · refine ⟨?_, hexc.2⟩
      have := hexc.1
      unfold hourOfDay at this
      unfold hourOf; omega
  refine ⟨hl, ?_⟩
  rintro ⟨q, h1, _⟩
  omega

/-- **C12 (trimming).** Whatever the index (only distinct labels are needed): the result is a contiguous block of the input. -/
theorem C12_contiguous (rows : List (Int × V)) (hnd : (rows.map Prod.fst).Nodup) (shift : Int) :
    ∃ a b, dropIncompleteDays rows shift = (rows.drop a).take b := by
  rw [drop_eq rows hnd, List.drop_take]
  exact ⟨_, _, rfl⟩

/-- **C12 (idempotence).** -/
theorem C12_idempotent (rows : List (Int × V)) (hnd : (rows.map Prod.fst).Nodup) (shift : Int) :
    dropIncompleteDays (dropIncompleteDays rows shift) shift = dropIncompleteDays rows shift :=
  drop_idem rows hnd shift

/-- **C12 (maximality).** For a gap-free hourly frame every block of complete days is inside the result: no
complete day is lost. -/
theorem C12_largest (rows : List (Int × V)) (t0 : Int) (h0 : t0 % 3600000000 = 0)
    (hidx : rows.map Prod.fst = gapFreeHourly t0 rows.length) (shift : Int) (hs : 0 ≤ shift ∧ shift ≤ 23)
    (a q : Nat) (hq : 0 < q) (hfit : a + 24 * q ≤ rows.length) (hday : WholeDays shift ((rows.drop a).take (24 * q))) :
    ∀ r ∈ (rows.drop a).take (24 * q), r ∈ dropIncompleteDays rows shift := by
  have hf : firstHour shift = shift := by unfold firstHour; rw [if_neg (by omega)]
  have hr := hourOf_range t0
  obtain ⟨_, _, hfirst, _⟩ := hday
  have hhead : ((rows.drop a).take (24 * q)).head? = some rows[a] := by
    rw [List.head?_eq_getElem?, List.getElem?_eq_getElem (by rw [List.length_take, List.length_drop]; omega),
      List.getElem_take, List.getElem_drop]
    simp
  have := hfirst _ hhead
  rw [(hour_of_row rows t0 h0 hidx a (by omega)).2] at this
  rw [drop_hourly rows t0 h0 hidx, hf, if_neg (by omega)]
  set i : Nat := ((shift - hourOf t0) % 24).toNat with hi
  intro r hmem
  obtain ⟨k, hk, rfl⟩ := List.getElem_of_mem hmem
  rw [List.length_take, List.length_drop] at hk
  rw [List.getElem_take, List.getElem_drop]
  have hia : i ≤ a := by omega
  have e : rows[a + k] = ((rows.drop i).take (24 * ((rows.length - i) / 24)))[a + k - i]'(by
      rw [List.length_take, List.length_drop]; omega) := by
    rw [List.getElem_take, List.getElem_drop]
    congr 1; omega
  rw [e]
  exact List.getElem_mem _

/-- **C12 (shift).** An out-of-range shift behaves like `shift=0`. -/
theorem C12_shift_out_of_range (rows : List (Int × V)) (shift : Int) (hs : shift < 0 ∨ 23 < shift) :
    dropIncompleteDays rows shift = dropIncompleteDays rows 0 := by
  unfold dropIncompleteDays
  rw [if_pos (by omega), if_neg (by omega)]

/-- non-vacuity of C11, C12: 60 hours from 05:00 of day 1 leave exactly day 2 -/
example : WholeDays 0 (dropIncompleteDays ((List.range 60).map fun k : Nat => (atHour 1 5 + k * 3600000000, k)) 0) :=
  C11_whole_days _ (atHour 1 5) (by decide) (by simp [gapFreeHourly, Function.comp_def]) 0 (by omega)
    (by intro h; exact absurd h.2.2 (by decide))

example : (dropIncompleteDays ((List.range 60).map fun k : Nat => (atHour 1 5 + k * 3600000000, k)) 0).length = 24 := by
  rw [drop_hourly _ (atHour 1 5) (by decide) (by simp [hourlyIdx, Function.comp_def])]
  decide

/-- the exceptional case occurs: 10 hours from midnight leave one row -/
example : (dropIncompleteDays ((List.range 10).map fun k : Nat => (atHour 1 0 + k * 3600000000, k)) 0).length = 1 :=
  (C11_exception _ (atHour 1 0) (by decide) (by simp [gapFreeHourly, Function.comp_def]) 0 (by omega)
    ⟨by decide, by decide, by decide⟩).1

end Melodist
