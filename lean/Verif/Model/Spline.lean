import Verif.Model.Interp

/-!
# The cubic spline of `interp1d(kind='cubic')`

response.py:235–238, 366–367 and template.py:132–135 interpolate with `scipy.interpolate.interp1d(kind='cubic')`, which is
`make_interp_spline(x, y, k=3)` with its default end conditions ("not-a-knot").  scipy computes B-spline coefficients; the
same function is computed here by the textbook method, from its second derivatives at the knots ("moments").  In exact
arithmetic there is only one not-a-knot spline (`C159_unique`), so the two agree; rounding errors may differ.
-/

namespace KC

variable {α : Type} [Arith α]

/-- distance from knot `i` to the next -/
def gapAt (x : List α) (i : Nat) : α := ent x (i + 1) - ent x i

/-- Row `i` (for an interior knot, `1 ≤ i ≤ n - 2`) of the equations for the moments, entry left of the diagonal; the moments at
the two ends are eliminated by the not-a-knot conditions. -/
def nakSub (x : List α) (i : Nat) : α :=
  if i = 1 then lit 0
  else if i + 2 = x.length then gapAt x (i - 1) - gapAt x i * gapAt x i / gapAt x (i - 1)
  else gapAt x (i - 1)

/-- diagonal entry -/
def nakDiag (x : List α) (i : Nat) : α :=
  lit 2 * (gapAt x (i - 1) + gapAt x i)
    + (if i = 1 then gapAt x (i - 1) * (gapAt x (i - 1) + gapAt x i) / gapAt x i else lit 0)
    + (if i + 2 = x.length then gapAt x i * (gapAt x i + gapAt x (i - 1)) / gapAt x (i - 1) else lit 0)

/-- entry right of the diagonal -/
def nakSup (x : List α) (i : Nat) : α :=
  if i + 2 = x.length then lit 0
  else if i = 1 then gapAt x i - gapAt x (i - 1) * gapAt x (i - 1) / gapAt x i
  else gapAt x i

/-- right-hand side: six times the difference of the two slopes at the knot -/
def nakRhs (x y : List α) (i : Nat) : α :=
  lit 6 * ((ent y (i + 1) - ent y i) / gapAt x i - (ent y i - ent y (i - 1)) / gapAt x (i - 1))

/-- elimination, downwards: what multiplies the next moment -/
def nakElimC (x : List α) : Nat → α
  | 0 => lit 0
  | i + 1 => nakSup x (i + 1) / (nakDiag x (i + 1) - nakSub x (i + 1) * nakElimC x i)

/-- elimination, downwards: right-hand side -/
def nakElimD (x y : List α) : Nat → α
  | 0 => lit 0
  | i + 1 => (nakRhs x y (i + 1) - nakSub x (i + 1) * nakElimD x y i) / (nakDiag x (i + 1) - nakSub x (i + 1) * nakElimC x i)

/-- substitution, upwards: the moment `j` places before the last interior knot -/
def nakBack (x y : List α) : Nat → α
  | 0 => nakElimD x y (x.length - 2)
  | j + 1 => nakElimD x y (x.length - 3 - j) - nakElimC x (x.length - 3 - j) * nakBack x y j

/-- second derivative at an interior knot -/
def nakInner (x y : List α) (i : Nat) : α := nakBack x y (x.length - 2 - i)

/-- second derivative at knot `i`; at the ends from the condition that the third derivative does not jump at the neighbouring knot -/
def nakMoment (x y : List α) (i : Nat) : α :=
  if i = 0 then
    ((gapAt x 0 + gapAt x 1) * nakInner x y 1 - gapAt x 0 * nakInner x y 2) / gapAt x 1
  else if i + 1 = x.length then
    ((gapAt x (i - 1) + gapAt x (i - 2)) * nakInner x y (i - 1) - gapAt x (i - 1) * nakInner x y (i - 2)) / gapAt x (i - 2)
  else nakInner x y i

/-- the cubic between knots `i` and `i + 1` -/
def nakPiece (x y : List α) (i : Nat) (q : α) : α :=
  let h := gapAt x i
  let u := ent x (i + 1) - q
  let v := q - ent x i
  nakMoment x y i * (u * u * u) / (lit 6 * h) + nakMoment x y (i + 1) * (v * v * v) / (lit 6 * h)
    + (ent y i / h - nakMoment x y i * h / lit 6) * u + (ent y (i + 1) / h - nakMoment x y (i + 1) * h / lit 6) * v

/-- the interval a point belongs to: how many interior knots are not above it -/
def nakSeg (x : List α) (q : α) : Nat :=
  ((List.range (x.length - 2)).filter (fun k => leb (ent x (k + 1)) q)).length

/-- value at `q` of the not-a-knot cubic spline through the points `(x, y)` -/
def nakSpline (x y : List α) (q : α) : α := nakPiece x y (nakSeg x q) q

/-- the library with scipy's spline -/
def Lib.cubic (lib : Lib α) : Lib α := { lib with spline := nakSpline }

end KC
