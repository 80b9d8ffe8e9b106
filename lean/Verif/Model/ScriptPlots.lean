import Verif.Model.Fitter
import Verif.Model.Scripts

/-!
# `bin/`: curves and points of the other plots

Residuals of `k_plot_test_gst` and `k_plot_test_sdss`, the spectrum drawn by `k_plot_test_v4_default_fit` and
`k_plot_test_v4_lrg1_fit`, and the colour tracks of `k_plot_test_v4_lrg1_colors`.  Axes, labels and files are not modelled.
-/

namespace KC
variable {α : Type} [Arith α]

/-- `- 2.5 * np.log10(a / b)` -/
def magRatio (a b : α) : α := -(lit 2.5) * log10 (a / b)

/-- k_plot_test_gst:216–223: the points of one panel.  One triple (redshift, flux, model flux) per galaxy. -/
def gstMagPoints (gals : List (α × α × α)) : List (α × α) :=
  (gals.filter (fun g => gtb g.2.1 (lit 0) && gtb g.2.2 (lit 0))).map (fun g => (g.1, magRatio g.2.1 g.2.2))

/-- k_plot_test_gst:251–260: the points of one panel.  Redshift, fluxes and model fluxes in the two bands. -/
def gstColorPoints (gals : List (α × (α × α) × (α × α))) : List (α × α) :=
  (gals.filter (fun g => gtb g.2.1.1 (lit 0) && gtb g.2.1.2 (lit 0) && gtb g.2.2.1 (lit 0) && gtb g.2.2.2 (lit 0))).map
    (fun g => (g.1, magRatio g.2.1.1 g.2.1.2 - magRatio g.2.2.1 g.2.2.2))

/-- k_plot_test_sdss:19, 91: the observed fluxes of one galaxy in its bands, from the columns `PETROFLUX` and `EXTINCTION`.  The table is
corrected row by row, so one row is enough. -/
def sdssObserved (flux ext : List α) : Py (List α) := do
  let m := List.zipWith (fun x a => f32 (x * f32 (pow10 (lit 0.4 * a)))) flux ext
  let o ← sdssAbCorrect (.arr [1] 5 [m]) none abfixDefault
  match o.maggies with
  | .arr _ _ [r] => return r
  | _ => throw .unmodelled

/-- k_plot_test_sdss:93–95: the residuals of one galaxy in its bands; all galaxies are drawn. -/
def sdssResiduals (flux ext model : List α) : Py (List α) := do
  return List.zipWith magRatio (← sdssObserved flux ext) model

/-- k_plot_test_sdss:114–120: the residuals of the colours of one galaxy. -/
def sdssColorResiduals (flux ext model : List α) : Py (List α) := do
  let o ← sdssObserved flux ext
  return List.zipWith (fun a b => a - b) (List.zipWith magRatio o o.tail) (List.zipWith magRatio model model.tail)

/-- `coeffs.dot(flux)` for a vector and an array of `n` columns; `ValueError` when the lengths differ. -/
def specDot (n : Nat) (c : List α) (flux : List (List α)) : Py (List α) :=
  if c.length = flux.length then .ok ((List.range n).map (fun k => dot c (flux.map (fun r => ent r k))))
  else .error .valueError

/-- What `k_plot_test_v4_default_fit` draws: the spectrum, the observed and the fitted maggies. -/
structure FitPlot (α : Type) where
  curve : List (α × α)
  observed : List (α × α)
  fitted : List (α × α)

/-- k_plot_test_v4_default_fit:8–44, k_plot_test_v4_lrg1_fit:8–44 for any templates, responses, redshift and photometry.  The curve uses
`templates.wave` and `templates.flux` as `set_Amatrix` has left them. -/
def fitPlot (lib : Lib α) (disk : Disk α) (nnls : Nnls α) (noise : Nat → Nat → Nat → α) (reg : Reg α) (s : Sed α) (responses : List Name) (z : α)
    (maggies ivar : List α) : Py (FitPlot α) :=
  match (Fitter.mk' .base responses (.sed s) (lit 0) (lit 0.1) 100 false).setAmatrix lib disk ⟨reg, s⟩ with
  | (_, .error e) => .error e
  | (w, .ok F) => do
    let leff ← responses.mapM (lambdaEffIn w.reg)
    let out ← F.fitCoeffs nnls (some (.scalar z)) (some (.vec maggies)) (some (.vec ivar)) 0 noise
    match out.coeffs with
    | .arr [] _ [c] => do
      let spec ← specDot w.sed.wave.length c w.sed.flux
      let m ← F.reconstruct (some (.scalar z)) (some out.coeffs) (lit 0)
      match m with
      | .arr [] _ [fm] =>
        return ⟨List.zipWith (fun l f => (log10 l, log10 (f / sedAbAt l))) w.sed.wave spec,
          List.zipWith (fun l x => (log10 l, log10 x)) (leff.map f32) maggies, List.zipWith (fun l x => (log10 l, log10 x)) (leff.map f32) fm⟩
      | _ => throw .unmodelled
    | _ => throw .unmodelled

/-- k_plot_test_v4_lrg1_colors:17–21, the redshifts (the script has `nz = 1000`) -/
def trackGrid (nz : Nat) : List α :=
  (List.range nz).map (fun (i : Nat) => f32 (lit 0 + f32 (f32 ((lit 0.55 - lit 0) * f32 (lit (i : ℚ) + lit 0.5)) / lit (nz : ℚ))))

/-- `maggies[i, j] = v`: `ValueError` for an array that does not have one element -/
def storeOne (v : NDA α) : Py α :=
  match v with
  | .scalar x => .ok (f32 x)
  | .arr [] _ [[x]] => .ok (f32 x)
  | _ => .error .valueError

/-- k_plot_test_v4_lrg1_colors:26–27 -/
def trackOne (lib : Lib α) (g : Reg α) (s : Sed α) (n : Name) : Py α :=
  match g n with
  | some o => do storeOne (← projectSed lib (← o.curve) s)
  | none => .error .keyError

/-- k_plot_test_v4_lrg1_colors:24–27 -/
def trackLoop (lib : Lib α) (g : Reg α) (responses : List Name) : List α → Sed α → Py (List (List α))
  | [], _ => .ok []
  | z :: zs, s =>
    match s.setRedshift z with
    | (_, .error e) => .error e
    | (s', .ok _) => do
      let row ← responses.mapM (trackOne lib g s')
      let rest ← trackLoop lib g responses zs s'
      return row :: rest

/-- k_plot_test_v4_lrg1_colors:12–32: the points (redshift, colours of neighbouring bands), for any number of redshifts and responses. -/
def colorTracks (lib : Lib α) (disk : Disk α) (reg : Reg α) (s : Sed α) (responses : List Name) (nz : Nat) : Py (List (α × List α)) :=
  match loadMissing lib disk responses reg with
  | (_, .error e) => .error e
  | (g, .ok _) => do
    let rows ← trackLoop lib g responses (trackGrid nz) s
    return List.zipWith (fun z r => (z, List.zipWith magRatio r r.tail)) (trackGrid nz) rows

end KC
