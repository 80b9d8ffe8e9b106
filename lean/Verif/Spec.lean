import Mathlib.Analysis.SpecialFunctions.Arsinh
import Verif.Model.Arr

/-!
# Specification vocabulary

Small definitions used to state the properties.  Nothing here refers to the modelled functions.
-/

namespace KC.Spec
open KC

/-- The entry of an array at leading multi-index number `r` (C order) and last-axis index `j`. -/
def entry {α : Type} : NDA α → Nat → Nat → Option α
  | .scalar x, 0, 0 => some x
  | .scalar _, _, _ => none
  | .arr _ _ rows, r, j => (rows[r]?).bind (fun row => row[j]?)

/-- Row `r` of an array as a one-dimensional array (a single object of a table). -/
def rowOf {α : Type} : NDA α → Nat → Option (NDA α)
  | .scalar _, _ => none
  | .arr _ ncol rows, r => (rows[r]?).map (fun row => .arr [] ncol [row])

/-- The array with the entry at `(r, j)` replaced by `x`. -/
def setEntry {α : Type} : NDA α → Nat → Nat → α → NDA α
  | .scalar _, _, _, x => .scalar x
  | .arr lead ncol rows, r, j, x => .arr lead ncol (rows.modify r (fun row => row.set j x))

/-- The last axis of the array has `n` entries. -/
def lastAxis {α : Type} (a : NDA α) (n : Nat) : Prop := a.shape.getLast? = some n

/-- Magnitude of a positive flux in maggies. -/
noncomputable def mag (f : ℝ) : ℝ := -2.5 * Real.logb 10 f

/-- SDSS definition of the asinh magnitude of flux `f` with softening `b`. -/
noncomputable def asinhMag (b f : ℝ) : ℝ := -2.5 / Real.log 10 * (Real.arsinh (f / (2 * b)) + Real.log b)

/-- SDSS softening parameters for u, g, r, i, z. -/
noncomputable def sdssB : Fin 5 → ℝ := ![1.4e-10, 0.9e-10, 1.2e-10, 1.8e-10, 7.4e-10]

/-- Fractional error of a flux with inverse variance `iv`. -/
noncomputable def fracErr (m iv : ℝ) : ℝ := 1 / (|m| * Real.sqrt iv)

/-- Trapezoid rule for the integral over `x` of a function with values `f` at `x`. -/
noncomputable def trapRule : List ℝ → List ℝ → ℝ
  | x0 :: x1 :: xs, f0 :: f1 :: fs => (x1 - x0) * ((f0 + f1) / 2) + trapRule (x1 :: xs) (f1 :: fs)
  | _, _ => 0

/-- The function interpolating the points `(x, y)` with spline `sp`, zero outside the range of `x`. -/
noncomputable def curveFn (sp : List ℝ → List ℝ → ℝ → ℝ) (x y : List ℝ) (q : ℝ) : ℝ :=
  if q < x.headD 0 ∨ x.getLastD 0 < q then 0 else sp x y q

/-- Flux density of the AB reference source, 3631 Jy, in erg/cm²/s/Å at wavelength `w` in Å. -/
noncomputable def abFlux (w : ℝ) : ℝ := 0.03631 * 2.99792 / w ^ 2

/-- Photon-weighted band integral `∫ w R(w) f(w) dw` by the trapezoid rule on the grid `g`. -/
noncomputable def photonInt (g : List ℝ) (R f : ℝ → ℝ) : ℝ := trapRule g (g.map (fun w => w * R w * f w))

/-- `g` is the union grid of a spectrum sampled at `sw` and a band sampled at `rw` on the range of the band:
increasing, made of all band samples, all spectrum samples in the band, and nothing but band and spectrum
samples. -/
structure UnionGrid (sw rw g : List ℝ) : Prop where
  incr : g.Pairwise (· < ·)
  band : ∀ w ∈ rw, w ∈ g
  sed : ∀ w ∈ sw, rw.headD 0 ≤ w → w ≤ rw.getLastD 0 → w ∈ g
  only : ∀ w ∈ g, w ∈ rw ∨ w ∈ sw

/-- At each end of the band `(rw, rr)` the response is zero or the spectrum, sampled at `sw`, extends beyond it. -/
def EndsCovered (sw rw rr : List ℝ) : Prop :=
  (rr.headD 0 = 0 ∨ ∃ w ∈ sw, w < rw.headD 0) ∧ (rr.getLastD 0 = 0 ∨ ∃ w ∈ sw, rw.getLastD 0 < w)

/-- `v` is the largest entry of `l`. -/
def MaxOf (l : List ℝ) (v : ℝ) : Prop := v ∈ l ∧ ∀ u ∈ l, u ≤ v

/-- `r` is, up to the tolerance of the root finder (2e-12 plus four machine epsilon), a point in `[lo, hi]` where
`f` crosses half of `mx`. -/
def CrossesHalf (f : ℝ → ℝ) (mx lo hi r : ℝ) : Prop :=
  ∃ s ∈ Set.Icc lo hi, |s - r| ≤ 2e-12 + 8.9e-16 * |r| ∧ (f r / mx - 1 / 2) * (f s / mx - 1 / 2) ≤ 0

/-- The spectrum that coefficients `c` make of the templates `Y`, all sampled at the same `n` wavelengths: `Σ_k c_k Y_k`. -/
noncomputable def modelSpectrum (n : Nat) (c : List ℝ) (Y : List (List ℝ)) : List ℝ :=
  (List.range n).map (fun j => (List.zipWith (fun a y => a * y.getD j 0) c Y).sum)

/-- A call returned `x`. -/
def Returns {β : Type} (c : Py β) (x : β) : Prop := c = .ok x

/-- A call raised an exception. -/
def Raises {β : Type} (c : Py β) : Prop := ∃ e, c = .error e

end KC.Spec
