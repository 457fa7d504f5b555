import Mathlib.Algebra.Order.Field.Basic
import Mathlib.Tactic.Linarith

/-!
# Float cells

`XF K` models one float64 cell of a numpy array / pandas column.  The finite part is an exact element of an
ordered field `K` (simplification: no rounding, no overflow, no signed zero); NaN and the infinities
follow IEEE-754 as used by numpy (no exception is raised by arithmetic on arrays).
-/

set_option linter.unusedSectionVars false

namespace Melodist

/-- A float64 cell: NaN, -inf, a finite number, or +inf.  (numpy/pandas `float64`; not a definition of /repo.) -/
inductive XF (K : Type) where
  | nan
  | ninf
  | fin (x : K)
  | pinf
deriving DecidableEq, Repr

namespace XF

variable {K : Type}

/-- `np.isnan` / `pd.isnull` on a float cell. -/
def isNan : XF K → Bool
  | nan => true
  | _ => false

/-- cell is a finite number -/
def isFin : XF K → Bool
  | fin _ => true
  | _ => false

/-- the cell is NaN or finite (no infinity): the only cells a data set can contain -/
def NanOrFin : XF K → Prop
  | nan => True
  | fin _ => True
  | _ => False

instance : DecidablePred (NanOrFin (K := K)) := fun x => by
  cases x <;> simp only [NanOrFin] <;> infer_instance

/-- an optional value as a cell: `None`/missing is NaN -/
def ofOption : Option K → XF K
  | none => nan
  | some x => fin x

section arith
variable [Field K] [LinearOrder K]

/-- IEEE addition -/
protected def add : XF K → XF K → XF K
  | nan, _ => nan
  | _, nan => nan
  | fin a, fin b => fin (a + b)
  | pinf, ninf => nan
  | ninf, pinf => nan
  | pinf, _ => pinf
  | _, pinf => pinf
  | ninf, _ => ninf
  | _, ninf => ninf

/-- IEEE negation -/
protected def neg : XF K → XF K
  | nan => nan
  | ninf => pinf
  | fin a => fin (-a)
  | pinf => ninf

/-- infinity with the sign of `x` (used for `inf * x`); NaN for 0 -/
def infOfSign (x : K) : XF K :=
  if 0 < x then pinf else if x < 0 then ninf else nan

/-- IEEE multiplication (`0 * inf = nan`) -/
protected def mul : XF K → XF K → XF K
  | nan, _ => nan
  | _, nan => nan
  | fin a, fin b => fin (a * b)
  | pinf, fin b => infOfSign b
  | fin a, pinf => infOfSign a
  | ninf, fin b => infOfSign (-b)
  | fin a, ninf => infOfSign (-a)
  | pinf, pinf => pinf
  | ninf, ninf => pinf
  | pinf, ninf => ninf
  | ninf, pinf => ninf

/-- IEEE division (numpy: `x/0 = ±inf`, `0/0 = nan`; zero is unsigned here) -/
protected def div : XF K → XF K → XF K
  | nan, _ => nan
  | _, nan => nan
  | fin a, fin b => if b = 0 then infOfSign a else fin (a / b)
  | fin _, pinf => fin 0
  | fin _, ninf => fin 0
  | pinf, fin b => if b < 0 then ninf else pinf
  | ninf, fin b => if b < 0 then pinf else ninf
  | _, _ => nan

instance : Add (XF K) := ⟨XF.add⟩
instance : Neg (XF K) := ⟨XF.neg⟩
instance : Sub (XF K) := ⟨fun a b => a + -b⟩
instance : Mul (XF K) := ⟨XF.mul⟩
instance : Div (XF K) := ⟨XF.div⟩
instance : Inhabited (XF K) := ⟨nan⟩

/-- IEEE `<` (false when an operand is NaN) -/
protected def lt : XF K → XF K → Prop
  | nan, _ => False
  | _, nan => False
  | fin a, fin b => a < b
  | ninf, ninf => False
  | ninf, _ => True
  | _, ninf => False
  | pinf, _ => False
  | fin _, pinf => True

/-- IEEE `<=` -/
protected def le : XF K → XF K → Prop
  | nan, _ => False
  | _, nan => False
  | fin a, fin b => a ≤ b
  | ninf, _ => True
  | _, pinf => True
  | _, ninf => False
  | pinf, fin _ => False

/-- IEEE `==` (NaN is not equal to itself) -/
protected def feq : XF K → XF K → Prop
  | fin a, fin b => a = b
  | ninf, ninf => True
  | pinf, pinf => True
  | _, _ => False

instance (a b : XF K) : Decidable (XF.lt a b) := by
  cases a <;> cases b <;> simp only [XF.lt] <;> infer_instance
instance (a b : XF K) : Decidable (XF.le a b) := by
  cases a <;> cases b <;> simp only [XF.le] <;> infer_instance
instance (a b : XF K) : Decidable (XF.feq a b) := by
  cases a <;> cases b <;> simp only [XF.feq] <;> infer_instance

@[simp] theorem fin_add_fin (a b : K) : (fin a + fin b : XF K) = fin (a + b) := rfl
@[simp] theorem neg_fin (a : K) : (-(fin a) : XF K) = fin (-a) := rfl
@[simp] theorem fin_sub_fin (a b : K) : (fin a - fin b : XF K) = fin (a - b) := by
  show fin (a + -b) = _; rw [sub_eq_add_neg]
@[simp] theorem fin_mul_fin (a b : K) : (fin a * fin b : XF K) = fin (a * b) := rfl
theorem fin_div_fin (a b : K) : (fin a / fin b : XF K) = if b = 0 then infOfSign a else fin (a / b) := rfl
@[simp] theorem fin_div_fin_of_ne (a : K) {b : K} (h : b ≠ 0) : (fin a / fin b : XF K) = fin (a / b) := by
  rw [fin_div_fin, if_neg h]
@[simp] theorem zero_div_zero : (fin 0 / fin 0 : XF K) = nan := by
  simp [fin_div_fin, infOfSign]

@[simp] theorem nan_add (a : XF K) : nan + a = nan := rfl
@[simp] theorem add_nan (a : XF K) : a + nan = nan := by cases a <;> rfl
@[simp] theorem neg_nan : (-nan : XF K) = nan := rfl
@[simp] theorem nan_sub (a : XF K) : nan - a = nan := rfl
@[simp] theorem sub_nan (a : XF K) : a - nan = nan := by cases a <;> rfl
@[simp] theorem nan_mul (a : XF K) : nan * a = nan := rfl
@[simp] theorem mul_nan (a : XF K) : a * nan = nan := by cases a <;> rfl
@[simp] theorem nan_div (a : XF K) : nan / a = nan := rfl
@[simp] theorem div_nan (a : XF K) : a / nan = nan := by cases a <;> rfl

@[simp] theorem lt_fin (a b : K) : XF.lt (fin a) (fin b) ↔ a < b := Iff.rfl
@[simp] theorem le_fin (a b : K) : XF.le (fin a) (fin b) ↔ a ≤ b := Iff.rfl
@[simp] theorem feq_fin (a b : K) : XF.feq (fin a) (fin b) ↔ a = b := Iff.rfl
@[simp] theorem not_nan_lt (a : XF K) : ¬ XF.lt nan a := fun h => h
@[simp] theorem not_lt_nan (a : XF K) : ¬ XF.lt a nan := by cases a <;> exact fun h => h
@[simp] theorem not_nan_le (a : XF K) : ¬ XF.le nan a := fun h => h
@[simp] theorem not_le_nan (a : XF K) : ¬ XF.le a nan := by cases a <;> exact fun h => h
@[simp] theorem not_nan_feq (a : XF K) : ¬ XF.feq nan a := fun h => h
@[simp] theorem not_feq_nan (a : XF K) : ¬ XF.feq a nan := by cases a <;> exact fun h => h

/-- `Series.clip(lo, hi)` on a cell: NaN stays NaN (pandas/numpy). -/
def clip (lo hi : K) : XF K → XF K
  | nan => nan
  | ninf => fin lo
  | pinf => fin hi
  | fin x => fin (min (max x lo) hi)

end arith

@[simp] theorem isNan_nan : (nan : XF K).isNan = true := rfl
@[simp] theorem isNan_fin (a : K) : (fin a).isNan = false := rfl
@[simp] theorem isNan_pinf : (pinf : XF K).isNan = false := rfl
@[simp] theorem isNan_ninf : (ninf : XF K).isNan = false := rfl
@[simp] theorem isFin_fin (a : K) : (fin a).isFin = true := rfl
@[simp] theorem isFin_nan : (nan : XF K).isFin = false := rfl
@[simp] theorem nanOrFin_nan : NanOrFin (nan : XF K) := trivial
@[simp] theorem nanOrFin_fin (a : K) : NanOrFin (fin a) := trivial
@[simp] theorem not_nanOrFin_pinf : ¬ NanOrFin (pinf : XF K) := fun h => h
@[simp] theorem not_nanOrFin_ninf : ¬ NanOrFin (ninf : XF K) := fun h => h

theorem isNan_iff (a : XF K) : a.isNan = true ↔ a = nan := by cases a <;> simp [isNan]

/-- exact decimal literal `m / 10^k`, the value of a decimal float literal in the source -/
def dec [Field K] (m : Int) (k : Nat) : K := (m : K) / (10 : K) ^ k

end XF

end Melodist
