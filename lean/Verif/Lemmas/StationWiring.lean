import Verif.Lemmas.Station
import Verif.Lemmas.Humidity
import Verif.Props.StationState
import Verif.Props.StationData

/-!
# Lemmas: what the disaggregation methods of a station store
-/

set_option linter.unusedSectionVars false

namespace Melodist
open Spec

/-- the hours of the `n` days from `d0` on -/
def hoursOf (d0 : Int) (n : Nat) : List Time := (List.range (24 * n)).map fun j : Nat => atHour (d0 + ((j / 24 : Nat) : Int)) (j % 24)

theorem hoursOf_eq {V : Type} (d0 : Int) (n : Nat) (f : Nat → Nat → V) : Series.index (hourlyS d0 n f) = hoursOf d0 n := by
  unfold Series.index hourlyS hoursOf
  rw [List.map_map]
  rfl

theorem hoursOf_nodup (d0 : Int) (n : Nat) : (hoursOf d0 n).Nodup := by
  rw [← hoursOf_eq d0 n fun _ _ => ()]
  exact nodup_of_sorted (hourlyS_index_sorted d0 n _)

theorem aligned_self {V : Type} {s : Series (XF V)} (h : s.index.Nodup) : (s.index.map fun t => (t, (s.at? t).getD .nan)) = s := by
  unfold Series.index
  rw [List.map_map]
  conv_rhs => rw [← List.map_id s]
  apply List.map_congr_left
  intro r hr
  simp only [Function.comp_apply, id]
  rw [at?_of_row h (v := r.2) hr]
  rfl

namespace World

/-- station `i` has daily data `f` for the `n` days from `d0` on, and its result frame `k` has the hours of these days and the five hourly columns: the
state after daily data were assigned -/
structure Ready (w : World) (i : Nat) (f : Frame ℝ) (k : Nat) (d0 : Int) (n : Nat) : Prop where
  daily : (w.stations i).daily = some f
  days : f.index = (List.range n).map fun j : Nat => at00 (d0 + j)
  disagg : (w.stations i).disagg = some k
  hours : (w.frames k).index = hoursOf d0 n
  columns : ∀ name ∈ ["temp", "precip", "glob", "hum", "wind"], (w.frames k).has name = true

variable {w : World} {i : Nat} {f : Frame ℝ} {k : Nat} {d0 : Int} {n : Nat}

theorem writeCol_error (name : String) (e : PyErr) : w.writeCol i name (.error e) = (w, some e) := rfl

/-- a series is stored aligned to the hours of the station -/
theorem writeCol_series (R : Ready w i f k d0 n) {name : String} (hn : name ∈ ["temp", "precip", "glob", "hum", "wind"]) {s : Series (XF ℝ)}
    (hs : s.index.Nodup) :
    (w.writeCol i name (.ok (.series s))).2 = none ∧
    ((w.writeCol i name (.ok (.series s))).1.frames k).col? name = some ((hoursOf d0 n).map fun t => (t, (s.at? t).getD .nan)) := by
  have hc : columnValues (w.frames k).index (.series s) = .ok ((hoursOf d0 n).map fun t => (s.at? t).getD .nan) := by
    unfold columnValues
    dsimp only
    rw [R.hours]
    by_cases h : s.index = hoursOf d0 n
    · rw [if_pos h]
      congr 1
      rw [← h]
      have := congrArg Series.values (aligned_self hs)
      rw [← this]
      simp [Series.values, Function.comp_def]
    · rw [if_neg h, if_pos hs]
  have hw : w.writeCol i name (.ok (.series s)) =
      (w.setFrame k (replaceCol (w.frames k) name ((hoursOf d0 n).map fun t => (s.at? t).getD .nan)), none) := by
    unfold writeCol
    dsimp only
    rw [R.disagg]
    dsimp only
    rw [hc]
  rw [hw]
  refine ⟨rfl, ?_⟩
  rw [setFrame_frames, Function.update_self, replaceCol_col?_eq _ _ (R.columns name hn), R.hours, zip_map_self]

/-- a series with the hours of the station is stored as it is -/
theorem writeCol_hours (R : Ready w i f k d0 n) {name : String} (hn : name ∈ ["temp", "precip", "glob", "hum", "wind"]) {s : Series (XF ℝ)}
    (hs : s.index = hoursOf d0 n) :
    (w.writeCol i name (.ok (.series s))).2 = none ∧ ((w.writeCol i name (.ok (.series s))).1.frames k).col? name = some s := by
  have hnd : s.index.Nodup := by rw [hs]; exact hoursOf_nodup d0 n
  obtain ⟨h1, h2⟩ := writeCol_series R hn hnd
  refine ⟨h1, ?_⟩
  rw [h2, ← hs, aligned_self hnd]

/-- an array of one value per hour is stored in order -/
theorem writeCol_array (R : Ready w i f k d0 n) {name : String} (hn : name ∈ ["temp", "precip", "glob", "hum", "wind"]) {l : List (XF ℝ)} :
    (l.length = 24 * n → (w.writeCol i name (.ok (.array l))).2 = none ∧
      ((w.writeCol i name (.ok (.array l))).1.frames k).col? name = some ((hoursOf d0 n).zip l)) ∧
    (l.length ≠ 24 * n → w.writeCol i name (.ok (.array l)) = (w, some .valueError)) := by
  have hlen : (hoursOf d0 n).length = 24 * n := by simp [hoursOf]
  constructor
  · intro h
    have hw : w.writeCol i name (.ok (.array l)) = (w.setFrame k (replaceCol (w.frames k) name l), none) := by
      unfold writeCol
      dsimp only
      rw [R.disagg]
      dsimp only
      unfold columnValues
      dsimp only
      rw [if_pos (by rw [R.hours, hlen, h])]
    rw [hw]
    refine ⟨rfl, ?_⟩
    rw [setFrame_frames, Function.update_self, replaceCol_col?_eq _ _ (R.columns name hn), R.hours]
  · intro h
    unfold writeCol
    dsimp only
    rw [R.disagg]
    dsimp only
    unfold columnValues
    dsimp only
    rw [if_neg (by rw [R.hours, hlen]; exact h)]

end World

end Melodist
