import Verif.Model.Kcorrect

/-!
# `docs/examples.rst`: errors from Monte Carlo samples

The recipe of the documentation for the errors of absolute magnitudes, with numpy's `std`.
-/

namespace KC
variable {α : Type} [Arith α]

/-- `a != b` (True when an operand is NaN) -/
def neb (a b : α) : Bool := !(leb a b && leb b a)

/-- `ndarray.std` of the selected values: mean, mean of the squared differences, square root.  Modelled: the sums are taken in one order,
numpy adds pairwise. -/
def stdOf (xs : List α) : α :=
  let n : α := lit xs.length
  let mean := sumL xs / n
  Arith.sqrt (sumL (xs.map (fun x => (x - mean) * (x - mean))) / n)

/-- examples.rst:360: `absmag_mc.std(axis=2, where=(absmag_mc != -9999.))`, one number per leading index, in C order. -/
def mcErrors (x : NDA α) : List α :=
  match x with
  | .scalar _ => []
  | .arr _ mc rows => rows.map (fun row => stdOf (((List.range mc).map (ent row)).filter (fun v => neb v (lit (-9999)))))

end KC
