import Verif.Model.Float

/-!
# IEEE-754 arithmetic

A fourth arithmetic for the model: `Fl` with the exponent range of `np.float32` and `np.float64`.  A result too large for its dtype is an infinity, a result
below the smallest normal number is rounded to a multiple of the smallest subnormal one, infinities and NaN propagate as in `XR`.  There is one zero: an
operation that distinguishes `-0` from `+0` (division by it) is taken at `+0`.
-/

namespace KC

/-- finite numbers are below `2 ^ emax` -/
def DT.emax : DT → ℤ
  | .f32 => 128
  | _ => 1024

/-- the smallest positive number is `2 ^ emin` -/
def DT.emin : DT → ℤ
  | .f32 => -149
  | _ => -1074

/-- rounding to nearest even with the exponent range of the dtype -/
noncomputable def rdIe (d : DT) (x : ℝ) : XR :=
  let e := max (ulpExp d.prec x) d.emin
  let y : ℝ := rne (x / 2 ^ e) * 2 ^ e
  open Classical in
  if 2 ^ d.emax ≤ y then .pinf else if y ≤ -2 ^ d.emax then .ninf else .fin y

/-- the same for any value -/
noncomputable def XR.round (d : DT) : XR → XR
  | .fin x => rdIe d x
  | y => y

/-- an IEEE-754 number -/
structure Ie where
  v : XR
  dt : DT

namespace Ie

/-- a binary operation: convert to the common dtype, operate, round -/
noncomputable def op2 (f : XR → XR → XR) (a b : Ie) : Ie :=
  ⟨(f (a.v.round (a.dt.join b.dt)) (b.v.round (a.dt.join b.dt))).round (a.dt.join b.dt), a.dt.join b.dt⟩

/-- a numpy function of one argument -/
noncomputable def op1 (f : XR → XR) (a : Ie) : Ie := ⟨(f a.v).round a.dt.np, a.dt.np⟩

end Ie

/-- IEEE-754 arithmetic with numpy's dtypes.  `10.**x` of a Python `x` stays a Python number. -/
noncomputable instance : Arith Ie where
  add := Ie.op2 XR.add
  sub := Ie.op2 (fun a b => XR.add a (XR.neg b))
  mul := Ie.op2 XR.mul
  div := Ie.op2 XR.div
  neg a := ⟨XR.neg a.v, a.dt⟩
  lit q := ⟨rdIe .weak q, .weak⟩
  abs a := ⟨XR.abs a.v, a.dt⟩
  sqrt := Ie.op1 XR.sqrt
  exp := Ie.op1 (XR.growth Real.exp (.fin 0))
  log := Ie.op1 (XR.logWith Real.log)
  log10 := Ie.op1 (XR.logWith (Real.logb 10))
  pow10 a := ⟨(XR.growth (fun x => (10 : ℝ) ^ x) (.fin 0) a.v).round a.dt, a.dt⟩
  sinh := Ie.op1 (XR.growth Real.sinh .ninf)
  cosh := Ie.op1 (XR.growth Real.cosh .pinf)
  pi := ⟨rdIe .weak Real.pi, .weak⟩
  ltb a b := XR.ltb (a.v.round (a.dt.join b.dt)) (b.v.round (a.dt.join b.dt))
  leb a b := XR.leb (a.v.round (a.dt.join b.dt)) (b.v.round (a.dt.join b.dt))
  f32 a := ⟨a.v.round .f32, .f32⟩
  trunc a := ⟨match a.v with
    | .fin x => .fin (if 0 ≤ x then (⌊x⌋ : ℝ) else (⌈x⌉ : ℝ))
    | y => y, a.dt⟩

end KC
