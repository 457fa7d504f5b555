import Verif.Base.Text
import Verif.Model.Util

/-!
# Vocabulary for the statements about KNMI and DWD files: what such files look like
-/

namespace Melodist.Spec

open Text

/-- a decimal numeral: sign, whole part, digits after the point (no point if there are none) -/
structure Numeral where
  neg : Bool
  whole : Nat
  frac : List (Fin 10)
  deriving DecidableEq

/-- how it is written -/
def Numeral.text (x : Numeral) : Text :=
  (if x.neg then ['-'] else []) ++ ofNat x.whole ++ if x.frac = [] then [] else '.' :: x.frac.map fun d => digit d.val

/-- the number -/
def Numeral.value {K : Type} [Field K] (x : Numeral) : K :=
  let v : K := x.whole + ((x.frac.foldl (fun (n : Nat) d => 10 * n + d.val) 0 : Nat) : K) / 10 ^ x.frac.length
  if x.neg then -v else v

/-- texts joined by a separator -/
def joined (sep : Char) : List Text → Text
  | [] => []
  | [x] => x
  | x :: xs => x ++ sep :: joined sep xs

/-- lines, each followed by a line end -/
def textOf (ls : List Text) : Text := (ls.map fun l => l ++ ['\n']).flatten

/-- blanks in front of a text -/
def padded (n : Nat) (t : Text) : Text := List.replicate n ' ' ++ t

/-- the digits `YYYYMMDD` of a day -/
def ymd (day : Int) : Text := ofNat (civil day).1.toNat ++ two (civil day).2.1.toNat ++ two (civil day).2.2.toNat

/-- the year of the day has four digits -/
def FourDigitYear (day : Int) : Prop := 1000 ≤ (civil day).1 ∧ (civil day).1 ≤ 9999

/-- a record of a KNMI file: day, number of the hour, the other columns by their names (`none`: empty) -/
structure KnmiRecord where
  day : Int
  hour : Nat
  val : String → Option Numeral

/-- the field of a record in the column `name` -/
def KnmiRecord.field (r : KnmiRecord) (name : String) : Text :=
  if name = "YYYYMMDD" then ymd r.day else if name = "HH" then ofNat r.hour
  else match r.val name with
    | none => []
    | some x => x.text

/-- a KNMI file: the lines of explanation, the column names, the records; all fields may be preceded by blanks -/
def knmiFile (explanation : List Text) (names : List (Nat × String)) (recs : List ((String → Nat) × KnmiRecord)) : Text :=
  textOf (explanation ++ joined ',' (names.map fun n => padded n.1 n.2.toList) ::
    recs.map fun r => joined ',' (names.map fun n => padded (r.1 n.2) (r.2.field n.2)))

/-- a plain column name: no separator, line end, quotation mark, no blank in front -/
def PlainName (sep : Char) (n : String) : Prop :=
  (∀ c ∈ n.toList, c ≠ sep ∧ c ≠ '\n' ∧ c ≠ '\r' ∧ c ≠ '"') ∧ ∀ c, n.toList.head? = some c → isBlank c = false

/-- a cell: missing, or the number converted -/
def cellOf {K : Type} [Field K] (conv : K → K) : Option Numeral → XF K
  | none => .nan
  | some x => .fin (conv x.value)

/-- the frame that belongs to the records of KNMI files: the time is the end of the hour; temperature in K, precipitation in mm without negative
values, radiation in W/m², relative humidity in %, wind speed in m/s, sunshine in minutes -/
def knmiFrame {K : Type} [Field K] [LinearOrder K] (recs : List KnmiRecord) : Frame K :=
  ⟨recs.map fun r => r.day * DAY + r.hour * HOUR,
    [("temp", recs.map fun r => cellOf (fun x => x / 10 + 273.15) (r.val "T")), ("precip", recs.map fun r => cellOf (fun x => max 0 (x / 10)) (r.val "RH")),
      ("glob", recs.map fun r => cellOf (fun x => x * 10000 / 3600) (r.val "Q")), ("hum", recs.map fun r => cellOf id (r.val "U")),
      ("wind", recs.map fun r => cellOf (fun x => x / 10) (r.val "FH")), ("ssd", recs.map fun r => cellOf (fun x => x * 6) (r.val "SQ"))]⟩

/-- the columns of DWD files that are used: the name in the file, the name in melodist, whether it is a temperature -/
def dwdTable : List (String × String × Bool) :=
  [("LUFTTEMPERATUR", "tmean", true), ("LUFTTEMPERATUR_MINIMUM", "tmin", true), ("LUFTTEMPERATUR_MAXIMUM", "tmax", true),
    ("NIEDERSCHLAGSHOEHE", "precip", false), ("GLOBAL_KW_J", "glob", false), ("REL_FEUCHTE", "hum", false), ("WINDGESCHWINDIGKEIT", "wind", false),
    ("SONNENSCHEINDAUER", "sun_h", false)]

/-- the melodist name of a column of a DWD file (blanks around the name in the file do not count; a column may also have the melodist name already), and
whether it is a temperature; `none`: the column is not used -/
def dwdKnown (n : String) : Option (String × Bool) :=
  (dwdTable.find? fun e => e.1 == String.ofList (strip n.toList) || e.2.1 == String.ofList (strip n.toList)).map fun e => e.2

/-- a record of a DWD file: day, hour (hourly files only), numbers in the columns that are used (`none`: empty), any text in the others, blanks in front
of the numbers -/
structure DwdRecord where
  day : Int
  hour : Nat
  val : String → Option Numeral
  other : String → Text
  blanks : String → Nat

/-- the field of a record in the column `name` -/
def DwdRecord.field (hourly : Bool) (r : DwdRecord) (name : String) : Text :=
  if name = " MESS_DATUM" then ymd r.day ++ (if hourly then two r.hour else [])
  else if (dwdKnown name).isNone then r.other name
  else match r.val name with
    | none => []
    | some x => padded (r.blanks name) x.text

/-- the lines of a DWD file -/
def dwdLines (hourly : Bool) (names : List String) (recs : List DwdRecord) : List Text :=
  joined ';' (names.map String.toList) :: recs.map fun r => joined ';' (names.map (r.field hourly))

/-- a cell: -999 stands for a missing value; temperatures from °C to K -/
def dwdCell {K : Type} [Field K] [LinearOrder K] (kelvin : Bool) : Option Numeral → XF K
  | none => .nan
  | some x => if (x.value : K) = -999 then .nan else .fin (if kelvin then x.value + 273.15 else x.value)

/-- the table that belongs to the records: the columns that are used, under their melodist names, in the order of the file -/
def dwdFrame {K : Type} [Field K] [LinearOrder K] (hourly : Bool) (names : List String) (recs : List DwdRecord) : Frame K :=
  ⟨recs.map fun r => r.day * DAY + if hourly then r.hour * HOUR else 0,
    names.filterMap fun n => (dwdKnown n).map fun e => (e.1, recs.map fun r => dwdCell e.2 (r.val n))⟩

/-- the value of a column at a time; missing if the time does not occur -/
def valueAt {K : Type} (times : List Time) (col : List (XF K)) (t : Time) : XF K := ((times.zip col).lookup t).getD .nan

end Melodist.Spec
