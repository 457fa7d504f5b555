import Verif.Model.Smet
import Verif.Model.DwdMeta
import Verif.Lemmas.Text

/-!
# C130: line ends of files
-/

set_option linter.unusedSectionVars false

namespace Melodist
open Text

/-- `file` is `text` with any of its line ends written as in Windows -/
inductive Spec.WindowsEnds : Text → Text → Prop
  | nil : WindowsEnds [] []
  | char {c : Char} {text file : Text} : c ≠ '\n' → c ≠ '\r' → WindowsEnds text file → WindowsEnds (c :: text) (c :: file)
  | lf {text file : Text} : WindowsEnds text file → WindowsEnds ('\n' :: text) ('\n' :: file)
  | crlf {text file : Text} : WindowsEnds text file → WindowsEnds ('\n' :: text) ('\r' :: '\n' :: file)

/-- `file` is `text` with all line ends written as in old versions of Mac OS -/
inductive Spec.MacEnds : Text → Text → Prop
  | nil : MacEnds [] []
  | char {c : Char} {text file : Text} : c ≠ '\n' → c ≠ '\r' → MacEnds text file → MacEnds (c :: text) (c :: file)
  | cr {text file : Text} : MacEnds text file → MacEnds ('\n' :: text) ('\r' :: file)

open Spec

theorem univ_char {c : Char} (h : c ≠ '\r') (t : Text) : univ (c :: t) = c :: univ t := by
  rw [univ]
  · intro cs e; exact absurd e h
  · intro e; exact h e

theorem Spec.WindowsEnds.univ_eq {text file : Text} (h : WindowsEnds text file) : univ file = text ∧ univ text = text := by
  induction h with
  | nil => exact ⟨rfl, rfl⟩
  | char _ h2 _ ih => rw [univ_char h2, univ_char h2, ih.1, ih.2]; exact ⟨rfl, rfl⟩
  | lf _ ih => rw [univ_char (by decide), univ_char (by decide), ih.1, ih.2]; exact ⟨rfl, rfl⟩
  | crlf _ ih => rw [univ_char (by decide) (c := '\n'), univ, ih.1, ih.2]; exact ⟨rfl, rfl⟩

theorem Spec.MacEnds.head {text file : Text} (h : MacEnds text file) : file.head? ≠ some '\n' := by
  cases h with
  | nil => simp
  | char h1 _ _ => simpa using h1
  | cr _ => simp

theorem Spec.MacEnds.univ_eq {text file : Text} (h : MacEnds text file) : univ file = text ∧ univ text = text := by
  induction h with
  | nil => exact ⟨rfl, rfl⟩
  | char _ h2 _ ih => rw [univ_char h2, univ_char h2, ih.1, ih.2]; exact ⟨rfl, rfl⟩
  | @cr text file h ih =>
    rw [univ_char (by decide) (c := '\n'), ih.2]
    refine ⟨?_, rfl⟩
    cases file with
    | nil => rw [univ, ih.1]; intro cs e; cases e
    | cons c cs =>
      rw [univ, ih.1]
      intro cs' e
      cases e
      exact absurd rfl h.head

/-- the same text up to the line ends -/
def Spec.SameLines (text file : Text) : Prop := WindowsEnds text file ∨ MacEnds text file

theorem Spec.SameLines.univ_eq {text file : Text} (h : SameLines text file) : univ file = univ text := by
  rcases h with h | h
  · have := h.univ_eq; rw [this.1, this.2]
  · have := h.univ_eq; rw [this.1, this.2]

section
variable {K : Type} [Field K] [LinearOrder K]

/-- **C130** (SMET) A file whose line ends are `\\r\\n` in some or all lines, or `\\r` in all lines, is read like the same text with `\\n`. -/
theorem C130_smet (api : PandasApi) {text file : Text} (h : SameLines text file) (mode : String) :
    Smet.readSmet (K := K) api file mode = Smet.readSmet api text mode := by
  unfold Smet.readSmet
  rw [h.univ_eq]

/-- **C130** (KNMI) Likewise, also if the file is not valid. -/
theorem C130_knmi (api : PandasApi) {text file : Text} (h : SameLines text file) : DataIO.readKnmi (K := K) api file = DataIO.readKnmi api text := by
  unfold DataIO.readKnmi
  rw [h.univ_eq]

theorem foldlM_readers {α β : Type} (f g : β → α → Py β) {R : α → α → Prop} (hfg : ∀ b x y, R x y → f b y = g b x) :
    ∀ {l l' : List α}, List.Forall₂ R l l' → ∀ b, l'.foldlM f b = l.foldlM g b
  | [], [], _, b => rfl
  | x :: xs, y :: ys, h, b => by
    cases h with
    | cons h1 h2 =>
      rw [List.foldlM_cons, List.foldlM_cons, hfg b x y h1]
      congr 1
      funext c
      exact foldlM_readers f g hfg h2 c

/-- **C130** (KNMI data set) Every file may have its own line ends. -/
theorem C130_knmi_dataset (api : PandasApi) {texts files : List Text} (h : List.Forall₂ SameLines texts files) :
    DataIO.readKnmiDataset (K := K) api files = DataIO.readKnmiDataset api texts := by
  cases h with
  | nil => rfl
  | cons h1 h2 =>
    unfold DataIO.readKnmiDataset
    dsimp only
    rw [C130_knmi api h1]
    congr 1
    funext first
    exact foldlM_readers _ _ (fun b x y hxy => by rw [C130_knmi api hxy]) h2 first

/-- **C130** (DWD) Every file may have its own line ends. -/
theorem C130_dwd {texts files : List Text} (h : List.Forall₂ SameLines texts files) {mtext mfile : Text} (hm : SameLines mtext mfile) (mode : String) (skipLast : Option Bool) :
    DataIO.readDwdFull (K := K) files mfile mode skipLast = DataIO.readDwdFull texts mtext mode skipLast := by
  have one : ∀ x y, SameLines x y → DataIO.readSingleDwdFull (K := K) y mfile mode skipLast = DataIO.readSingleDwdFull x mtext mode skipLast := by
    intro x y hxy
    unfold DataIO.readSingleDwdFull DataIO.readDwdMeta DataIO.readSingleDwd
    rw [hm.univ_eq, hxy.univ_eq]
  cases h with
  | nil => rfl
  | @cons x y _ _ h1 h2 =>
    unfold DataIO.readDwdFull
    dsimp only
    rw [one x y h1]
    congr 1
    funext first
    exact foldlM_readers _ _ (fun b x y hxy => by rw [one x y hxy]) h2 first

/-- the text with all line ends replaced -/
def replaceEnds (e : Text) (t : Text) : Text := t.flatMap fun c => if c = '\n' then e else [c]

theorem sameLines_windows : ∀ {t : Text}, '\r' ∉ t → SameLines t (replaceEnds ['\r', '\n'] t) := by
  intro t h
  left
  induction t with
  | nil => exact .nil
  | cons c t ih =>
    have ih := ih fun e => h (by simp [e])
    unfold replaceEnds at ih ⊢
    rw [List.flatMap_cons]
    by_cases hc : c = '\n'
    · subst hc; exact .crlf ih
    · rw [if_neg hc]; exact .char hc (fun e => h (by simp [e])) ih

theorem sameLines_mac : ∀ {t : Text}, '\r' ∉ t → SameLines t (replaceEnds ['\r'] t) := by
  intro t h
  right
  induction t with
  | nil => exact .nil
  | cons c t ih =>
    have ih := ih fun e => h (by simp [e])
    unfold replaceEnds at ih ⊢
    rw [List.flatMap_cons]
    by_cases hc : c = '\n'
    · subst hc; exact .cr ih
    · rw [if_neg hc]; exact .char hc (fun e => h (by simp [e])) ih

end

/-- two DWD files, one with line ends of Windows and one with those of Mac OS -/
example : DataIO.readDwdFull (K := ℚ) [replaceEnds ['\r', '\n'] " MESS_DATUM;NIEDERSCHLAGSHOEHE\n2016010102;1.5\n2016010101;0.0\n".toList,
      replaceEnds ['\r'] " MESS_DATUM;REL_FEUCHTE\n2016010103;80.0\n2016010102;90.0\n".toList]
      (replaceEnds ['\r', '\n'] "Stations_id; Stationsname;Geogr.Breite;Geogr.Laenge\n44;Ort;52.9;8.2\n".toList) "h" none =
    DataIO.readDwdFull [" MESS_DATUM;NIEDERSCHLAGSHOEHE\n2016010102;1.5\n2016010101;0.0\n".toList, " MESS_DATUM;REL_FEUCHTE\n2016010103;80.0\n2016010102;90.0\n".toList]
      "Stations_id; Stationsname;Geogr.Breite;Geogr.Laenge\n44;Ort;52.9;8.2\n".toList "h" none :=
  C130_dwd (.cons (sameLines_windows (by decide)) (.cons (sameLines_mac (by decide)) .nil)) (sameLines_windows (by decide)) "h" none

/-- which is a successful reading -/
example : okAnd (DataIO.readDwdFull (K := ℚ) [replaceEnds ['\r', '\n'] " MESS_DATUM;NIEDERSCHLAGSHOEHE\n2016010102;1.5\n2016010101;0.0\n".toList,
      replaceEnds ['\r'] " MESS_DATUM;REL_FEUCHTE\n2016010103;80.0\n2016010102;90.0\n".toList]
      (replaceEnds ['\r', '\n'] "Stations_id; Stationsname;Geogr.Breite;Geogr.Laenge\n44;Ort;52.9;8.2\n".toList) "h" none)
    (fun r => r.2.index.length = 3 ∧ r.2.cols = [("precip", [.fin 0, .fin (3 / 2), .nan]), ("hum", [.nan, .fin 90, .fin 80])]) = true := by
  decide +kernel

end Melodist
