import Verif.Model.Template

/-!
# `src/kcorrect/response.py`: class `Response`
-/

namespace KC
variable {α : Type} [Arith α]

/-- The bandpass itself: attributes `wave`, `response`, `interp`. -/
structure Curve (α : Type) where
  wave : List α
  resp : List α
  itp : Interp α

/-- `self.interp(q)` for the response curve (a one-row interpolator). -/
def Curve.at (lib : Lib α) (c : Curve α) (q : α) : α := interpRow lib c.itp.x (c.itp.ys.headD []) q

/-- Attributes of a loaded `Response` (response.py:131–165). -/
structure Resp (α : Type) extends Curve α where
  lambdaEff : α
  solarMag : Option α
  vega2ab : Option α
  fwhmLow : α
  fwhmHigh : α
  fwhm : α

/-- response.py:191–193 (also 256–258 and 287–289): sort by wavelength.  Indexing `response[isort]` raises `IndexError`
when `response` is shorter than `wave`. -/
def sortCurve (wave resp : List α) : Py (List α × List α) :=
  if wave.length ≤ resp.length then .ok (gather wave (argsort wave), gather resp (argsort wave))
  else .error .indexError

/-- indices of the True entries, `np.where(mask)[0]` -/
def maskIdx : List Bool → List Nat
  | mask => (List.range mask.length).filter (fun i => mask.getD i false)

/-- boolean indexing `xs[mask]` -/
def maskSel (mask : List Bool) (xs : List α) : List α :=
  ((List.zip mask xs).filter (fun p => p.1)).map (fun p => p.2)

/-- response.py:374: SED samples inside the band. -/
def keepMask (sedWave respWave : List α) : List Bool :=
  sedWave.map (fun w => geb w (respWave.headD (lit 0)) && leb w (respWave.getLastD (lit 0)))

/-- response.py:375–385: the integration grid, `none` when no SED sample is inside the band (line 376).
Lines 379–382 add one SED sample on each side. -/
def projGrid (sedWave respWave : List α) : Option (List α) :=
  let keep := keepMask sedWave respWave
  let ikeep := maskIdx keep
  match ikeep.head?, ikeep.getLast? with
  | some first, some last =>
    let keep := if 0 < first then keep.set (first - 1) true else keep
    let keep := if last < sedWave.length - 1 then keep.set (last + 1) true else keep
    some (npUnique (maskSel keep sedWave ++ respWave))
  | _, _ => none

/-- response.py:394–395 and 403–405: `trapezoid(grid, integrand)` where the integrand is
`f * response * grid`.  The arguments are in this order in the source: scipy's signature is `trapezoid(y, x)`. -/
def bandIntegral (grid f r : List α) : α :=
  trapezoid grid (List.zipWith (fun a w => a * w) (List.zipWith (fun a b => a * b) f r) grid)

/-- response.py:388–411: projection of the rows `seds` (spectra interpolated to the grid) for given response
values `r` on the grid.  Line 393–395: a single spectrum gives a scalar; 397–400: several give a float32 vector. -/
def projOnGrid (grid : List α) (seds : List (List α)) (r : List α) : NDA α :=
  let denom := bandIntegral grid (grid.map sedAbAt) r
  match seds with
  | [s] => .scalar (bandIntegral grid s r / denom)
  | _ => .vec (seds.map (fun s => f32 (bandIntegral grid s r) / denom))

/-- response.py:373–411 `project` for a spectrum given by its wavelengths and an interpolator.  When no
spectrum sample is inside the band the scalar `0.` is returned (377). -/
def projectWith (lib : Lib α) (c : Curve α) (sedWave : List α) (itp : Interp α) : NDA α :=
  match projGrid sedWave c.wave with
  | none => .scalar (lit 0)
  | some grid => projOnGrid grid (itp.eval lib grid) (grid.map (c.at lib))

/-- response.py:369–371 `project(sed=sed)`; an SED without interpolator makes line 388 call `None`. -/
def projectSed (lib : Lib α) (c : Curve α) (s : Sed α) : Py (NDA α) :=
  match s.interp with
  | some itp => .ok (projectWith lib c s.wave itp)
  | none => match projGrid s.wave c.wave with
    | none => .ok (.scalar (lit 0))
    | some _ => .error .typeError

/-- response.py:350–367 `project(wave=wave, flux=flux)`. -/
def projectArr (lib : Lib α) (c : Curve α) (wave : List α) (flux : NDA α) : Py (NDA α) := do
  let wave := wave.map f32
  let rows ← match flux.map f32 with
    | .scalar _ => .error .indexError
    | .arr lead n rows =>
      if n ≠ wave.length then .error .valueError
      else if 1 < lead.length then .error .valueError
      else .ok rows
  let itp ← mkInterp wave rows
  return projectWith lib c wave itp

/-- response.py:413–436 `set_lambda_eff`; the arguments of `trapezoid` are in the order of the source. -/
def lambdaEffOf (wave resp : List α) : α :=
  let numer := trapezoid wave (List.zipWith (fun w r => Arith.log w * r / w) wave resp)
  let denom := trapezoid wave (List.zipWith (fun w r => r / w) wave resp)
  Arith.exp (numer / denom)

/-- `np.max` of a nonempty vector; NaN (the only value not less than or equal to itself) propagates. -/
def npMax : List α → α
  | [] => lit 0
  | [a] => a
  | a :: l => if ltb a (npMax l) || !leb (npMax l) (npMax l) then npMax l else a

/-- response.py:438–481 `set_fwhm_limits`: (fwhm_low, fwhm_high).  `np.where(...)[0][0]` raises `IndexError` when the
condition holds nowhere. -/
def fwhmLimits (lib : Lib α) (c : Curve α) : Py (α × α) := do
  let f := c.at lib
  let vals := c.wave.map f
  let mx := npMax vals
  let norm := vals.map (fun v => v / mx)
  let half : α → α := fun x => f x / mx - lit 0.5
  let iupper ← match (maskIdx (norm.map (fun v => gtb v (lit 0.5)))).head? with
    | some i => .ok i
    | none => .error .indexError
  let low ← if iupper = 0 then .ok (ent c.wave iupper)
    else lib.brentq half (ent c.wave (iupper - 1)) (ent c.wave iupper)
  let ilower ← match (maskIdx (norm.map (fun v => geb v (lit 0.5)))).getLast? with
    | some i => .ok i
    | none => .error .indexError
  let high ← if ilower = norm.length - 1 then .ok (c.wave.getLastD (lit 0))
    else lib.brentq half (ent c.wave ilower) (ent c.wave (ilower + 1))
  return (low, high)

/-- response.py:497–508 (and 533–545): the solar (Vega) spectrum as an `SED` in Angstrom and erg/cm²/s/Å at distance
`d` parsecs for radius `radius`.  For a file with exactly one spectrum; the loop of 504–506 raises `ValueError` for
several (shape mismatch), and a file without spectra is not modelled.  Line 505 stores into the float32 array `flux`. -/
def starSed (b : Basel α) (radius d : α) : Py (Sed α) :=
  match b.flux with
  | [fl] =>
    let wave := b.wave.map (fun w => w * lit 10)
    let k := radius / (d * lit 3.086e18)
    let flux := List.zipWith (fun f w => f32 (Arith.pi * lit 4 * f * lit 2.99792e18 / (w * w)) * (k * k)) fl wave
    Sed.mk' wave (.arr [1] flux.length [flux]) true
  | [] => .error .unmodelled
  | _ => .error .valueError

/-- response.py:510–515 and 547–551: magnitude of a projected spectrum, `None` unless positive. -/
def magOrNone (m : NDA α) : Py (Option α) :=
  match m with
  | .scalar x => .ok (if gtb x (lit 0) then some (-(lit 2.5) * log10 x) else none)
  | _ => .error .unmodelled

/-- response.py:483–517 `set_solar_magnitude`. -/
def solarMagOf (lib : Lib α) (c : Curve α) : Py (Option α) := do
  let b ← lib.sun
  let s ← starSed b (lit 6.960e10) (lit 10)
  magOrNone (← projectSed lib c s)

/-- response.py:519–552 `set_vega2ab`. -/
def vega2abOf (lib : Lib α) (c : Curve α) : Py (Option α) := do
  let b ← lib.vega
  let s ← starSed b (lit 1.91144e11) (lit 7.68)
  magOrNone (← projectSed lib c s)

/-- response.py:215–222 `_setup` on sorted arrays. -/
def respSetup (lib : Lib α) (wave resp : List α) : Py (Resp α) := do
  let itp ← mkInterp wave [resp]
  let c : Curve α := ⟨wave, resp, itp⟩
  let leff := lambdaEffOf wave resp
  let sun ← solarMagOf lib c
  let vega ← vega2abOf lib c
  let (lo, hi) ← fwhmLimits lib c
  return { wave := wave, resp := resp, itp := itp, lambdaEff := leff, solarMag := sun, vega2ab := vega,
           fwhmLow := lo, fwhmHigh := hi, fwhm := hi - lo }

/-- response.py:188–213 `Response(wave=wave, response=resp)`. -/
def mkResponse (lib : Lib α) (wave resp : List α) : Py (Resp α) := do
  let (w, r) ← sortCurve wave resp
  respSetup lib w r

end KC
