import Mathlib.Analysis.SpecialFunctions.Log.Base
import Mathlib.Analysis.SpecialFunctions.Trigonometric.Deriv
import Mathlib.Analysis.SpecialFunctions.Pow.Real
import Mathlib.Analysis.Real.Sqrt
import Mathlib.Algebra.Order.Floor.Defs
import Mathlib.Algebra.Order.Floor.Ring
import Mathlib.Algebra.Order.Archimedean.Real.Basic

/-!
# Arithmetic and exceptions

The model of the Python code is generic in the arithmetic: `Arith α` lists the operations the code
uses and assumes no law about them.
-/

namespace KC

/-- Python exception classes raised by the modelled code.  `unmodelled` marks a path that the model
does not follow (it is never claimed to succeed). -/
inductive PyErr where
  | valueError
  | typeError
  | indexError
  | keyError
  | runtimeError
  | unboundLocalError
  | attributeError
  | osError
  | unmodelled
  deriving DecidableEq, Repr

/-- Result of a Python call. -/
abbrev Py (β : Type) := Except PyErr β

/-- `if not c: raise e` -/
def require (c : Prop) [Decidable c] (e : PyErr) : Py Unit := if c then .ok () else .error e

/-- The numerical operations used by kcorrect.  No laws are assumed.
`f32` is the rounding applied when a value is stored in (or converted to) an `np.float32` array,
`trunc` the conversion applied when a float is stored in an integer array. -/
class Arith (α : Type) extends Add α, Sub α, Mul α, Div α, Neg α where
  /-- decimal literals of the source -/
  lit : ℚ → α
  abs : α → α
  sqrt : α → α
  exp : α → α
  log : α → α
  log10 : α → α
  /-- `10.**x` -/
  pow10 : α → α
  sinh : α → α
  cosh : α → α
  /-- `np.pi` -/
  pi : α
  /-- `<` (False when an operand is NaN) -/
  ltb : α → α → Bool
  /-- `<=` (False when an operand is NaN) -/
  leb : α → α → Bool
  f32 : α → α
  trunc : α → α

attribute [instance 10] Arith.toAdd Arith.toSub Arith.toMul Arith.toDiv Arith.toNeg

export Arith (lit ltb leb f32 pow10 log10)

/-- `a > b` and `a >= b` as Python evaluates them. -/
def gtb {α} [Arith α] (a b : α) : Bool := ltb b a
def geb {α} [Arith α] (a b : α) : Bool := leb b a

/-- Exact real arithmetic; storing in float32 is the identity.  Lean totalises `x/0 = 0`, `sqrt` and `log` of
non-positive arguments: theorems over `ℝ` carry guards that exclude those points. -/
noncomputable instance : Arith ℝ where
  lit q := (q : ℝ)
  abs x := |x|
  sqrt := Real.sqrt
  exp := Real.exp
  log := Real.log
  log10 := Real.logb 10
  pow10 x := (10 : ℝ) ^ x
  sinh := Real.sinh
  cosh := Real.cosh
  pi := Real.pi
  ltb a b := decide (a < b)
  leb a b := decide (a ≤ b)
  f32 := id
  trunc x := if 0 ≤ x then (⌊x⌋ : ℝ) else (⌈x⌉ : ℝ)

/-- Reals with IEEE-754 special values (one zero, no rounding). -/
inductive XR where
  | fin (r : ℝ)
  | pinf
  | ninf
  | nan

namespace XR
open Classical

noncomputable def add : XR → XR → XR
  | nan, _ => nan
  | _, nan => nan
  | fin a, fin b => fin (a + b)
  | pinf, ninf => nan
  | ninf, pinf => nan
  | pinf, _ => pinf
  | _, pinf => pinf
  | ninf, _ => ninf
  | _, ninf => ninf

noncomputable def neg : XR → XR
  | nan => nan
  | fin a => fin (-a)
  | pinf => ninf
  | ninf => pinf

/-- infinity times the sign of `r`; `0 * inf` is NaN -/
noncomputable def infMul (r : ℝ) : XR := if 0 < r then pinf else if r < 0 then ninf else nan

noncomputable def mul : XR → XR → XR
  | nan, _ => nan
  | _, nan => nan
  | fin a, fin b => fin (a * b)
  | pinf, fin b => infMul b
  | fin a, pinf => infMul a
  | ninf, fin b => infMul (-b)
  | fin a, ninf => infMul (-a)
  | pinf, pinf => pinf
  | ninf, ninf => pinf
  | pinf, ninf => ninf
  | ninf, pinf => ninf

/-- division; a zero divisor is `+0` -/
noncomputable def div : XR → XR → XR
  | nan, _ => nan
  | _, nan => nan
  | fin a, fin b => if b = 0 then infMul a else fin (a / b)
  | fin _, pinf => fin 0
  | fin _, ninf => fin 0
  | pinf, fin b => if b = 0 then pinf else infMul b
  | ninf, fin b => if b = 0 then ninf else infMul (-b)
  | _, _ => nan

noncomputable def ltb : XR → XR → Bool
  | nan, _ => false
  | _, nan => false
  | fin a, fin b => decide (a < b)
  | ninf, ninf => false
  | ninf, _ => true
  | _, ninf => false
  | pinf, _ => false
  | _, pinf => true

noncomputable def leb : XR → XR → Bool
  | nan, _ => false
  | _, nan => false
  | fin a, fin b => decide (a ≤ b)
  | ninf, _ => true
  | _, pinf => true
  | pinf, _ => false
  | _, ninf => false

noncomputable def sqrt : XR → XR
  | nan => nan
  | fin a => if a < 0 then nan else fin (Real.sqrt a)
  | pinf => pinf
  | ninf => nan

noncomputable def logWith (f : ℝ → ℝ) : XR → XR
  | nan => nan
  | fin a => if a < 0 then nan else if a = 0 then ninf else fin (f a)
  | pinf => pinf
  | ninf => nan

noncomputable def growth (f : ℝ → ℝ) (atNinf : XR) : XR → XR
  | nan => nan
  | fin a => fin (f a)
  | pinf => pinf
  | ninf => atNinf

noncomputable def abs : XR → XR
  | nan => nan
  | fin a => fin |a|
  | _ => pinf

end XR

/-- IEEE-754 special values over exact reals. -/
noncomputable instance : Arith XR where
  add := XR.add
  sub a b := XR.add a (XR.neg b)
  mul := XR.mul
  div := XR.div
  neg := XR.neg
  lit q := .fin (q : ℝ)
  abs := XR.abs
  sqrt := XR.sqrt
  exp := XR.growth Real.exp (.fin 0)
  log := XR.logWith Real.log
  log10 := XR.logWith (Real.logb 10)
  pow10 := XR.growth (fun x => (10 : ℝ) ^ x) (.fin 0)
  sinh := XR.growth Real.sinh .ninf
  cosh := XR.growth Real.cosh .pinf
  pi := .fin Real.pi
  ltb := XR.ltb
  leb := XR.leb
  f32 := id
  trunc x := match x with
    | .fin x => .fin (if 0 ≤ x then (⌊x⌋ : ℝ) else (⌈x⌉ : ℝ))
    | y => y

/-! ### Unfolding lemmas for the real instance -/
section real
@[simp] theorem real_lit (q : ℚ) : (lit q : ℝ) = (q : ℝ) := rfl
@[simp] theorem real_abs (x : ℝ) : Arith.abs x = |x| := rfl
@[simp] theorem real_sqrt (x : ℝ) : Arith.sqrt x = Real.sqrt x := rfl
@[simp] theorem real_exp (x : ℝ) : Arith.exp x = Real.exp x := rfl
@[simp] theorem real_log (x : ℝ) : Arith.log x = Real.log x := rfl
@[simp] theorem real_log10 (x : ℝ) : log10 x = Real.logb 10 x := rfl
@[simp] theorem real_pow10 (x : ℝ) : pow10 x = (10 : ℝ) ^ x := rfl
@[simp] theorem real_sinh (x : ℝ) : Arith.sinh x = Real.sinh x := rfl
@[simp] theorem real_cosh (x : ℝ) : Arith.cosh x = Real.cosh x := rfl
@[simp] theorem real_ltb (a b : ℝ) : ltb a b = decide (a < b) := rfl
@[simp] theorem real_leb (a b : ℝ) : leb a b = decide (a ≤ b) := rfl
@[simp] theorem real_gtb (a b : ℝ) : gtb a b = decide (b < a) := rfl
@[simp] theorem real_geb (a b : ℝ) : geb a b = decide (b ≤ a) := rfl
@[simp] theorem real_f32 (x : ℝ) : f32 x = x := rfl
theorem real_trunc (x : ℝ) : Arith.trunc x = if 0 ≤ x then (⌊x⌋ : ℝ) else (⌈x⌉ : ℝ) := rfl
end real

end KC
