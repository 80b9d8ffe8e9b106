import Verif.Model.Response

/-!
# `src/kcorrect/template.py`: `SED.plot`

What is handed to matplotlib: the polylines and the axis limits.
-/

namespace KC
variable {α : Type} [Arith α]

/-- The drawing commands of one call: a polyline per `plt.plot`, the arguments of `plt.xlim` and `plt.ylim`. -/
structure Plot (α : Type) where
  lines : List (List (α × α))
  xlim : Option (α × α)
  ylim : Option (α × α)

/-- Index `i` into an axis of length `n`: negative indices count from the end, `IndexError` outside. -/
def pyIdx (n : Nat) (i : Int) : Py Nat :=
  if 0 ≤ i ∧ i < n then .ok i.toNat
  else if -(n : Int) ≤ i ∧ i < 0 then .ok (i + n).toNat
  else .error .indexError

/-- template.py:272–275: one polyline, the samples with positive flux. -/
def plotLine (wave fl : List α) : List (α × α) :=
  ((List.zip wave fl).filter (fun p => gtb p.2 (lit 0))).map (fun p => (log10 p.1, log10 (p.1 * p.2)))

/-- `np.min` of a nonempty vector; NaN propagates (as in `npMax`). -/
def npMin : List α → α
  | [] => lit 0
  | [a] => a
  | a :: l => if ltb (npMin l) a || !leb (npMin l) (npMin l) then npMin l else a

/-- template.py:278–285: the positive values of `lambda * flux` of the rows `sel` strictly between the limits.  Line 281–283 multiplies by an outer product
with ones. -/
def plotVals (wave : List α) (sel : List (List α)) (lo hi : α) : List α :=
  let mask := wave.map (fun w => gtb w lo && ltb w hi)
  ((sel.map (fun fl => maskSel mask (List.zipWith (fun f w => f * (lit 1 * w)) fl wave))).flatten).filter (fun y => gtb y (lit 0))

/-- template.py:247–292 `plot(indx, wavelim)`.  `indx` is `None` or integers (a single one is made an array of one, 268–269).  Lines 271–275 draw
the selected rows, `IndexError` for an index outside the table; 277–288: `min` of no values raises `ValueError`.  The rows of the flux have the length of
the wavelengths (otherwise the boolean index of 273 raises; not modelled).  What was drawn before an exception is not modelled. -/
def Sed.plot (s : Sed α) (indx : Option (List Int)) (wavelim : Option (α × α)) : Py (Plot α) := do
  let is := indx.getD ((List.range s.nsed).map (fun (i : Nat) => (i : Int)))
  let js ← is.mapM (pyIdx s.flux.length)
  let sel := js.map (fun j => s.flux.getD j [])
  let lines := sel.map (plotLine s.wave)
  match wavelim with
  | none => return ⟨lines, none, none⟩
  | some (lo, hi) =>
    let ys := plotVals s.wave sel lo hi
    require (ys ≠ []) .valueError
    return ⟨lines, some (log10 (f32 lo), log10 (f32 hi)), some (log10 (npMin ys) - lit 0.1, log10 (npMax ys) + lit 0.1)⟩

end KC
