import Verif.Lemmas.Stats

set_option linter.unusedSectionVars false

namespace Melodist
open Spec

variable {K : Type} [Field K] [LinearOrder K]

/-! ### constants -/

section
variable [IsStrictOrderedRing K]

theorem meanSkip_day24_const (x : XF K) : meanSkip (day24 fun _ => x) = x := by
  have h24 : (24 : K) ≠ 0 := by norm_num
  have h24' : (0 : K) < 24 := by norm_num
  cases x with
  | nan => exact meanSkip_nan (by intro c hc; obtain ⟨_, _, rfl⟩ := mem_day24.1 hc; rfl)
  | fin x =>
    rw [meanSkip_eq (nanOrFin_day24 fun _ => x) (by rw [numbers_day24]; simp [day24]), numbers_day24, sum_day24_const,
      day24_length]
    congr 1; push_cast; field_simp
  | pinf =>
    have h1 : countValid (day24 fun _ => (XF.pinf : XF K)) = 24 := rfl
    have h2 : sumSkip (day24 fun _ => (XF.pinf : XF K)) = .pinf := rfl
    unfold meanSkip
    rw [h1, h2, if_neg (by omega)]
    show (if ((24 : Nat) : K) < 0 then XF.ninf else XF.pinf) = XF.pinf
    rw [if_neg (by push_cast; exact not_lt.2 h24'.le)]
  | ninf =>
    have h1 : countValid (day24 fun _ => (XF.ninf : XF K)) = 24 := rfl
    have h2 : sumSkip (day24 fun _ => (XF.ninf : XF K)) = .ninf := rfl
    unfold meanSkip
    rw [h1, h2, if_neg (by omega)]
    show (if ((24 : Nat) : K) < 0 then XF.pinf else XF.ninf) = XF.ninf
    rw [if_neg (by push_cast; exact not_lt.2 h24'.le)]

theorem minSkip_replicate_inf (x : XF K) (hx : x = .pinf ∨ x = .ninf) (m : Nat) : minSkip (List.replicate (m + 1) x) = x := by
  induction m with
  | zero => rcases hx with rfl | rfl <;> rfl
  | succ m ih =>
    rw [List.replicate_succ, minSkip, ih]
    rcases hx with rfl | rfl <;> simp [XF.lt]

theorem minSkip_day24_const (x : XF K) : minSkip (day24 fun _ => x) = x := by
  cases x with
  | nan => exact minSkip_nan (by intro c hc; obtain ⟨_, _, rfl⟩ := mem_day24.1 hc; rfl)
  | fin x =>
    obtain ⟨m, hm, hmem, _⟩ := minSkip_eq (nanOrFin_day24 fun _ => x) (by rw [numbers_day24]; simp [day24])
    rw [numbers_day24] at hmem
    obtain ⟨_, _, rfl⟩ := mem_day24.1 hmem
    exact hm
  | pinf => exact minSkip_replicate_inf .pinf (Or.inl rfl) 23
  | ninf => exact minSkip_replicate_inf .ninf (Or.inr rfl) 23

theorem maxSkip_replicate_inf (x : XF K) (hx : x = .pinf ∨ x = .ninf) (m : Nat) : maxSkip (List.replicate (m + 1) x) = x := by
  induction m with
  | zero => rcases hx with rfl | rfl <;> rfl
  | succ m ih =>
    rw [List.replicate_succ, maxSkip, ih]
    rcases hx with rfl | rfl <;> simp [XF.lt]

theorem maxSkip_day24_const (x : XF K) : maxSkip (day24 fun _ => x) = x := by
  cases x with
  | nan => exact maxSkip_nan (by intro c hc; obtain ⟨_, _, rfl⟩ := mem_day24.1 hc; rfl)
  | fin x =>
    obtain ⟨m, hm, hmem, _⟩ := maxSkip_eq (nanOrFin_day24 fun _ => x) (by rw [numbers_day24]; simp [day24])
    rw [numbers_day24] at hmem
    obtain ⟨_, _, rfl⟩ := mem_day24.1 hmem
    exact hm
  | pinf => exact maxSkip_replicate_inf .pinf (Or.inl rfl) 23
  | ninf => exact maxSkip_replicate_inf .ninf (Or.inr rfl) 23

end

/-! ### frames -/

/-- index of a frame that is being filled column by column -/
def FrameIdx (f : Frame K) (idx : List Int) : Prop := f.cols = [] ∨ f.index = idx

theorem setCol_idx (f : Frame K) (idx : List Int) (h : FrameIdx f idx) (name : String) (s : Series (XF K))
    (hs : s.index = idx) : (f.setCol name s).index = idx := by
  unfold Frame.setCol
  rcases h with h | h
  · simp [h, hs, Frame.has]
  · by_cases he : f.cols = []
    · simp [he, hs, Frame.has]
    · have : f.cols.isEmpty = false := by simpa using he
      simp only [this, Bool.false_eq_true, if_false]
      split <;> exact h

theorem aligned_values {s : Series (XF K)} (hnd : s.index.Nodup) :
    s.index.zip (s.index.map fun t => (Series.at? s t).getD .nan) = s := by
  induction s with
  | nil => rfl
  | cons r s ih =>
    have hnd' : r.1 ∉ Series.index s ∧ (Series.index s).Nodup := by
      simpa [Series.index] using hnd
    have ih := ih hnd'.2
    simp only [Series.index, List.map_cons, List.zip_cons_cons]
    congr 1
    · simp [Series.at?]
    · have : (List.map Prod.fst s).map (fun t => (Series.at? (r :: s) t).getD .nan) =
          (List.map Prod.fst s).map (fun t => (Series.at? s t).getD .nan) := by
        apply List.map_congr_left
        intro t ht
        have hne : r.1 ≠ t := by
          rintro rfl; exact hnd'.1 ht
        simp [Series.at?, List.find?_cons, hne]
      simp only [Series.index] at ih
      rw [this, ih]

theorem find?_map_key {W : Type} (l : List (String × W)) (name : String) (v : W) (n' : String) :
    (l.map fun c => if c.1 == name then (name, v) else c).find? (fun c => c.1 == n') =
      (l.find? (fun c => c.1 == n')).map fun c => if c.1 == name then (name, v) else c := by
  induction l with
  | nil => rfl
  | cons c l ih =>
    simp only [List.map_cons]
    have : ((if c.1 == name then (name, v) else c).1 == n') = (c.1 == n') := by
      by_cases h : c.1 = name <;> simp [h]
    rw [List.find?_cons, List.find?_cons, this]
    cases c.1 == n'
    · exact ih
    · rfl

theorem setCol_same (f : Frame K) (idx : List Int) (h : FrameIdx f idx) (name : String) (s : Series (XF K))
    (hs : s.index = idx) (hnd : idx.Nodup) : (f.setCol name s).col? name = some s := by
  have hi := setCol_idx f idx h name s hs
  have hal := aligned_values (s := s) (hs ▸ hnd)
  rw [hs] at hal
  unfold Frame.col?
  rw [hi]
  unfold Frame.setCol
  have hidx' : (if f.cols.isEmpty then { f with index := s.index } else f : Frame K).index = idx := by
    rcases h with h | h
    · simp [h, hs]
    · by_cases he : f.cols = [] <;> simp [he, hs, h]
  have hcols' : (if f.cols.isEmpty then { f with index := s.index } else f : Frame K).cols = f.cols := by
    split <;> rfl
  simp only [hidx', Frame.has, hcols']
  by_cases hh : f.cols.any (fun c => c.1 == name) = true
  · rw [if_pos hh]
    simp only [find?_map_key]
    obtain ⟨c, hc1, hc2⟩ := List.any_eq_true.1 hh
    cases hf : f.cols.find? (fun c => c.1 == name) with
    | none => rw [List.find?_eq_none] at hf; exact absurd hc2 (hf c hc1)
    | some c' =>
      have := List.find?_some hf
      simp only [Option.map_some, this, if_true]
      exact congrArg some hal
  · rw [if_neg hh]
    have hf : f.cols.find? (fun c => c.1 == name) = none := by
      rw [List.find?_eq_none]
      intro c hc hcn
      exact hh (List.any_eq_true.2 ⟨c, hc, hcn⟩)
    simp only [List.find?_append, hf, Option.none_or, List.find?_singleton, beq_self_eq_true, if_true,
      Option.map_some]
    exact congrArg some hal

theorem setCol_other (f : Frame K) (name n' : String) (hne : name ≠ n') (s : Series (XF K)) :
    (f.setCol name s).col? n' = f.col? n' := by
  unfold Frame.col? Frame.setCol
  by_cases he : f.cols = []
  · simp [he, Frame.has, hne]
  · have : f.cols.isEmpty = false := by simpa using he
    simp only [this, Bool.false_eq_true, if_false]
    split
    · simp only [find?_map_key]
      cases hf : f.cols.find? (fun c => c.1 == n') with
      | none => rfl
      | some c =>
        have hc := List.find?_some hf
        have hc : c.1 = n' := by simpa using hc
        simp [hc, Ne.symm hne]
    · simp [List.find?_append, hne]

/-- a well-formed frame: all columns have the length of the index -/
def Frame.WF (f : Frame K) : Prop := ∀ c ∈ f.cols, c.2.length = f.index.length

theorem col?_index {f : Frame K} (hwf : f.WF) {name : String} {s : Series (XF K)} (h : f.col? name = some s) :
    s.index = f.index := by
  unfold Frame.col? at h
  cases hf : f.cols.find? (fun c => c.1 == name) with
  | none => simp [hf] at h
  | some c =>
    have := hwf c (List.mem_of_find?_eq_some hf)
    simp [hf] at h
    subst h
    unfold Series.index
    rw [List.map_fst_zip]
    omega

end Melodist
