import Verif.Model.Utils

/-!
# `bin/`: the photometry of the example scripts

The steps between the columns of the catalogue and `fit_coeffs`, and the points drawn in the plots of mass-to-light
ratio against colour.  The catalogue is what `fitsio.read` returned; all columns are float32.  Reading the files,
the choice of rows of `k_plot_test_mtol` (lines 38–42), messages and the other plots are not modelled.
-/

namespace KC
variable {α : Type} [Arith α]

/-- `a != b` (true when an operand is NaN) -/
def neqb (a b : α) : Bool := !(leb a b && leb b a)

/-- `np.isfinite(x)`: `x - x` is zero for finite numbers and NaN for the others -/
def finb (x : α) : Bool := leb (x - x) (lit 0)

/-- elementwise operation on two arrays of the same shape -/
def zipTab (f : α → α → α) : NDA α → NDA α → NDA α
  | .arr l n a, .arr _ _ b => .arr l n (List.zipWith (List.zipWith f) a b)
  | a, _ => a

/-- The arguments `maggies` and `ivar` of `fit_coeffs`. -/
structure Phot (α : Type) where
  maggies : NDA α
  ivar : NDA α

/-- k_plot_test_mtol:67–69, k_plot_test_gst:121–123: the entries `ibad`. -/
def badEntry (m v : α) : Bool := !finb m || !finb v || ltb v (lit 0)

/-- k_plot_test_mtol:67–72, k_plot_test_gst:121–126: bad entries of both arrays are set to zero. -/
def cleanPhot (m v : NDA α) : Phot α :=
  ⟨zipTab (fun m v => if badEntry m v then lit 0 else m) m v, zipTab (fun m v => if badEntry m v then lit 0 else v) m v⟩

/-- k_plot_test_mtol:47–50, k_plot_test_gst:75–78: SDSS nanomaggies to AB maggies.  The arrays of `sdss_ab_correct` are
float32, and so are their products with the Python floats. -/
def sdssMaggies (flux ivar : NDA α) : Py (Phot α) := do
  let o ← sdssAbCorrect flux (some ivar) abfixDefault
  match o.ivar with
  | some v => return ⟨o.maggies.map (fun x => f32 (x * lit 1e-9)), v.map (fun x => f32 (x * lit 1e18))⟩
  | none => throw .typeError

/-- k_plot_test_mtol:62 -/
def mtolFloor : List α := [lit 0.05, lit 0.02, lit 0.02, lit 0.02, lit 0.03]

/-- k_plot_test_mtol:47–72: from the columns `PETROFLUX`, `PETROFLUX_IVAR` and `EXTINCTION` to the photometry that is fitted. -/
def mtolPhotometry (flux ivar ext : NDA α) : Py (Phot α) := do
  let p ← sdssMaggies flux ivar
  let m := zipTab (fun x a => f32 (x * f32 (pow10 (lit 0.4 * a)))) p.maggies ext
  let v := zipTab (fun x a => f32 (x * f32 (pow10 (-(lit 0.8) * a)))) p.ivar ext
  let w ← errorFloor f32 (mtolFloor.map f32) m v
  return cleanPhot m w

/-- One row of the catalogue of k_plot_test_gst. -/
structure GstRow (α : Type) where
  fuv : α
  fuvErr : α
  nuv : α
  nuvErr : α
  model : List α
  modelIvar : List α
  jMag : α
  jSig : α
  hMag : α
  hSig : α
  kMag : α
  kSig : α
  extinction : List α

/-- k_plot_test_gst:58–70: one GALEX band, flux and inverse variance; zero for both unless flux and error are set. -/
def galexBand (zp flux err : α) : α × α :=
  let scale := pow10 (-(lit 0.4) * zp)
  if neqb flux (lit (-99)) && neqb flux (lit 0) && neqb err (lit (-99)) && neqb err (lit 0) then
    (f32 (flux * scale), f32 (lit 1 / ((err * scale) * (err * scale))))
  else (lit 0, lit 0)

/-- k_plot_test_gst:83–97: one 2MASS band, from the magnitude and its error. -/
def twomassBand (vega2ab mag sig : α) : α × α :=
  if neqb mag (lit 0) && gtb sig (lit 0) then
    let m := f32 (pow10 (-(lit 0.4) * (mag + vega2ab)))
    let e := m * Arith.log (lit 10) / lit 2.5 * sig
    (m, f32 (lit 1 / (e * e)))
  else (lit 0, lit 0)

/-- k_plot_test_gst:102–104: extinction in every band, in units of that in r. -/
def redFac : List α :=
  [lit 8.29, lit 8.18, lit 5.155, lit 3.793, lit 2.751, lit 2.086, lit 1.479, lit 0.902, lit 0.576, lit 0.367].map
    (fun x => f32 (f32 x / f32 (lit 2.751)))

/-- k_plot_test_gst:115–116 -/
def gstFloor : List α :=
  [lit 0.03, lit 0.03, lit 0.02, lit 0.02, lit 0.02, lit 0.02, lit 0.02, lit 0.04, lit 0.04, lit 0.04]

/-- `x.vega2ab` used as a number: `TypeError` when it is `None` -/
def needMag (v : Option α) : Py α :=
  match v with
  | some x => .ok x
  | none => .error .typeError

/-- k_plot_test_gst:50–97: the ten columns of one row, before the correction for extinction.  `sm` and `sv` are the SDSS
columns. -/
def gstRowOf (vJ vH vK : α) (g : GstRow α) (sm sv : List α) : List (α × α) :=
  [galexBand (lit 18.82) g.fuv g.fuvErr, galexBand (lit 20.08) g.nuv g.nuvErr] ++ List.zipWith Prod.mk sm sv ++
    [twomassBand vJ g.jMag g.jSig, twomassBand vH g.hMag g.hSig, twomassBand vK g.kMag g.kSig]

/-- k_plot_test_gst:105–109: correction for extinction with `EXTINCTION[:, 2]` -/
def deredden (g : GstRow α) (row : List (α × α)) : List (α × α) :=
  List.zipWith (fun r (p : α × α) =>
    (f32 (p.1 * f32 (pow10 (lit 0.4 * ent g.extinction 2 * r))), f32 (p.2 * f32 (pow10 (-(lit 0.8) * ent g.extinction 2 * r))))) redFac row

/-- k_plot_test_gst:50–126: from the catalogue to the photometry that is fitted.  `vJ`, `vH`, `vK` are the attributes
`vega2ab` of the 2MASS responses. -/
def gstPhotometry (vJ vH vK : Option α) (cat : List (GstRow α)) : Py (Phot α) := do
  let p ← sdssMaggies (.arr [cat.length] 5 (cat.map GstRow.model)) (.arr [cat.length] 5 (cat.map GstRow.modelIvar))
  let vJ ← needMag vJ
  let vH ← needMag vH
  let vK ← needMag vK
  match p with
  | ⟨.arr _ _ sm, .arr _ _ sv⟩ =>
    let rows := List.zipWith (fun g (s : List α × List α) => deredden g (gstRowOf vJ vH vK g s.1 s.2)) cat (List.zip sm sv)
    let m : NDA α := .arr [cat.length] 10 (rows.map (List.map Prod.fst))
    let v : NDA α := .arr [cat.length] 10 (rows.map (List.map Prod.snd))
    let w ← errorFloor f32 (gstFloor.map f32) m v
    return cleanPhot m w
  | _ => throw .unmodelled

/-- k_plot_test_mtol:108–112, k_plot_test_gst:282–287: the points (B−V, log M/L) that are drawn.  One triple
(mass-to-light ratio in V, absolute magnitudes in B and V) per galaxy. -/
def mtolPoints (vB vV : Option α) (gals : List (α × α × α)) : Py (List (α × α)) := do
  let vV ← needMag vV
  let fac := pow10 (lit 0.4 * vV)
  let vB ← needMag vB
  return (gals.filter (fun g => gtb g.1 (lit 0))).map (fun g => (g.2.1 - g.2.2 - vB + vV, log10 (g.1 / fac)))

end KC
