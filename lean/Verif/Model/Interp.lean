import Verif.Model.Utils

/-!
# Sorting, cubic interpolation objects, the trapezoid rule

`scipy`'s cubic spline is an oracle (`Lib.spline`); the wrapper `interp1d(kind='cubic', bounds_error=False,
fill_value=0.)` around it is modelled.
-/

namespace KC

/-- Library functions the code calls and whose inside is not modelled.  Theorems that need to know
something about them take it as an explicit hypothesis. -/
structure Lib (α : Type) where
  /-- value at `q` of the cubic spline through the points `(x, y)`, `x` strictly increasing -/
  spline : List α → List α → α → α
  /-- `scipy.optimize.brentq(f, a, b)` -/
  brentq : (α → α) → α → α → Py α
  /-- result of `read_basel` on the shipped solar and Vega spectra -/
  sun : Py (Basel α)
  vega : Py (Basel α)

variable {α : Type} [Arith α]

/-- `a == b` (False on NaN) -/
def eqb (a b : α) : Bool := leb a b && leb b a

/-- `np.argsort(xs)`; ties are kept in order (numpy's default sort may order ties differently). -/
def argsort (xs : List α) : List Nat :=
  (List.range xs.length).mergeSort (fun i j => leb (ent xs i) (ent xs j))

/-- remove repeated neighbours -/
def dedupAdj : List α → List α
  | a :: b :: l => if eqb a b then dedupAdj (b :: l) else a :: dedupAdj (b :: l)
  | l => l

/-- `np.unique(xs)`: sorted, without repetitions. -/
def npUnique (xs : List α) : List α := dedupAdj (xs.mergeSort (fun a b => leb a b))

/-- No two neighbours are equal (the test of scipy's `make_interp_spline`). -/
def noDup : List α → Bool
  | a :: b :: l => !eqb a b && noDup (b :: l)
  | _ => true

/-- An interpolation object: abscissae in increasing order and one or more rows of ordinates. -/
structure Interp (α : Type) where
  x : List α
  ys : List (List α)

/-- `interpolate.interp1d(x, ys, kind='cubic', bounds_error=False, fill_value=0.)` (response.py:235–238,
response.py:366–367, template.py:132–135).  `ys` is a list of rows along the last axis.  `ValueError` if a row's length
differs from that of `x`, if there are fewer than 4 points, or if two abscissae coincide.  scipy sorts the
abscissae. -/
def mkInterp (x : List α) (ys : List (List α)) : Py (Interp α) :=
  if ∀ row ∈ ys, row.length = x.length then
    if 4 ≤ x.length then
      if noDup (gather x (argsort x)) then
        .ok ⟨gather x (argsort x), ys.map (fun row => gather row (argsort x))⟩
      else .error .valueError
    else .error .valueError
  else .error .valueError

/-- Value of one row at `q`: the fill value 0 outside the range of the abscissae. -/
def interpRow (lib : Lib α) (x y : List α) (q : α) : α :=
  if ltb q (x.headD (lit 0)) || ltb (x.getLastD (lit 0)) q then lit 0 else lib.spline x y q

/-- `interp(qs)`, one row of values per row of ordinates. -/
def Interp.eval (lib : Lib α) (itp : Interp α) (qs : List α) : List (List α) :=
  itp.ys.map (fun y => qs.map (interpRow lib itp.x y))

/-- `scipy.integrate.trapezoid(y, x)` on one-dimensional arrays of equal length. -/
def trapezoid : List α → List α → α
  | y0 :: y1 :: ys, x0 :: x1 :: xs => (x1 - x0) * (y1 + y0) / lit 2 + trapezoid (y1 :: ys) (x1 :: xs)
  | _, _ => lit 0

end KC
