import Verif.Model.Arith
import Mathlib.Data.Int.Log

/-!
# Binary floating point

A third arithmetic for the model: numbers rounded to 24 (`np.float32`) or 53 (`np.float64`) significant bits after every operation, with
numpy's rule for the precision of a result.  Exponents are unbounded (no overflow, no subnormal numbers).  The transcendental functions are
taken to be correctly rounded; those of a C library may be off by one unit in the last place.
-/

namespace KC

/-- nearest integer, ties to even -/
noncomputable def rne (x : ℝ) : ℤ :=
  if x - ⌊x⌋ < 1 / 2 then ⌊x⌋
  else if 1 / 2 < x - ⌊x⌋ then ⌊x⌋ + 1
  else if Even ⌊x⌋ then ⌊x⌋ else ⌊x⌋ + 1

/-- the exponent of the last bit of a number of `p` bits of the size of `x` -/
noncomputable def ulpExp (p : Nat) (x : ℝ) : ℤ := Int.log 2 |x| - p + 1

/-- IEEE-754 rounding to nearest, ties to even, to `p` significant bits -/
noncomputable def rd (p : Nat) (x : ℝ) : ℝ := rne (x / 2 ^ ulpExp p x) * 2 ^ ulpExp p x

/-- dtype of a value: a Python `float`, which takes the precision of what it is combined with, or a numpy number -/
inductive DT where
  | weak
  | f32
  | f64
  deriving DecidableEq

/-- significant bits -/
def DT.prec : DT → Nat
  | .f32 => 24
  | _ => 53

/-- numpy's dtype of the result of an operation on two values (NEP 50; before NumPy 2 the same for arrays) -/
def DT.join : DT → DT → DT
  | .weak, d => d
  | d, .weak => d
  | .f32, .f32 => .f32
  | _, _ => .f64

/-- dtype of a numpy function of a value: `np.log(10.)` is an `np.float64` -/
def DT.np : DT → DT
  | .weak => .f64
  | d => d

/-- a floating-point number -/
structure Fl where
  val : ℝ
  dt : DT

namespace Fl

/-- a binary operation: convert to the common dtype, operate, round -/
noncomputable def op2 (f : ℝ → ℝ → ℝ) (a b : Fl) : Fl :=
  ⟨rd (a.dt.join b.dt).prec (f (rd (a.dt.join b.dt).prec a.val) (rd (a.dt.join b.dt).prec b.val)), a.dt.join b.dt⟩

/-- a numpy function of one argument; that of a Python `float`, as `np.log(10.)`, is an `np.float64` -/
noncomputable def op1 (f : ℝ → ℝ) (a : Fl) : Fl := ⟨rd a.dt.prec (f a.val), a.dt.np⟩

end Fl

/-- Floating-point arithmetic of numpy.  `10.**x` of a Python `x` stays a Python number. -/
noncomputable instance : Arith Fl where
  add := Fl.op2 (· + ·)
  sub := Fl.op2 (· - ·)
  mul := Fl.op2 (· * ·)
  div := Fl.op2 (· / ·)
  neg a := ⟨-a.val, a.dt⟩
  lit q := ⟨rd 53 q, .weak⟩
  abs a := ⟨|a.val|, a.dt⟩
  sqrt := Fl.op1 Real.sqrt
  exp := Fl.op1 Real.exp
  log := Fl.op1 Real.log
  log10 := Fl.op1 (Real.logb 10)
  pow10 a := ⟨rd a.dt.prec ((10 : ℝ) ^ a.val), a.dt⟩
  sinh := Fl.op1 Real.sinh
  cosh := Fl.op1 Real.cosh
  pi := ⟨rd 53 Real.pi, .weak⟩
  ltb a b := decide (a.val < b.val)
  leb a b := decide (a.val ≤ b.val)
  f32 a := ⟨rd 24 a.val, .f32⟩
  trunc x := ⟨if 0 ≤ x.val then (⌊x.val⌋ : ℝ) else (⌈x.val⌉ : ℝ), x.dt⟩

end KC
