import Verif.Model.Fits

/-!
# `src/kcorrect/fitter.py`: class `Fitter`

`scipy.optimize.nnls` and the stream of normal deviates are parameters.  `interp1d` with its default linear
interpolation along axis 0 is modelled from scipy's `_call_linear` and `_check_bounds`.
-/

namespace KC
variable {α : Type} [Arith α]

/-! ### The interpolated A matrix -/

/-- The object `interpolate.interp1d(redshifts, A, axis=0)` (fitter.py:76–78): abscissae in increasing order and one
`[nrow, ncol]` matrix (list of rows) for each. -/
structure AMat (α : Type) where
  x : List α
  ys : List (List (List α))
  nrow : Nat
  ncol : Nat

/-- fitter.py:76–78 `_interpolate_Amatrix`.  scipy raises `ValueError` if the lengths along the axis differ, and sorts the abscissae. -/
def mkAMat (x : List α) (ys : List (List (List α))) (nrow ncol : Nat) : Py (AMat α) :=
  if x.length = ys.length then
    .ok ⟨gather x (argsort x), (argsort x).map (fun i => ys.getD i []), nrow, ncol⟩
  else .error .valueError

/-- NaN is the only value not less than or equal to itself. -/
def isNan (a : α) : Bool := !leb a a

/-- `np.searchsorted(x, q)`: number of leading entries less than `q` (NaN sorts last). -/
def searchLeft (x : List α) (q : α) : Nat :=
  (x.takeWhile (fun a => ltb a q || (isNan q && !isNan a))).length

/-- `idx.clip(1, len(x)-1)` -/
def clipIdx (n i : Nat) : Nat := min (max i 1) (n - 1)

/-- One entry: the slope formula of `_call_linear`. -/
def linEntry (xlo xhi q ylo yhi : α) : α := (yhi - ylo) / (xhi - xlo) * (q - xlo) + ylo

/-- The matrix between two nodes. -/
def linBetween (xlo xhi q : α) (ylo yhi : List (List α)) : List (List α) :=
  List.zipWith (List.zipWith (linEntry xlo xhi q)) ylo yhi

/-- `Amatrix(q)` for one redshift.  `ValueError` below the first or above the last node (scipy's default
`bounds_error`), `IndexError` for an empty grid.  For a grid of one node `lo = -1` and `hi = 0` are the same node. -/
def AMat.at (m : AMat α) (q : α) : Py (List (List α)) :=
  if m.x.length = 0 then .error .indexError
  else if ltb q (m.x.headD (lit 0)) || ltb (m.x.getLastD (lit 0)) q then .error .valueError
  else
    let hi := clipIdx m.x.length (searchLeft m.x q)
    let lo := hi - 1
    .ok (linBetween (ent m.x lo) (ent m.x hi) q (m.ys.getD lo []) (m.ys.getD hi []))

/-- `Amatrix(qs)` for a vector of redshifts: one matrix each; one redshift out of range makes the call raise. -/
def AMat.atAll (m : AMat α) (qs : List α) : Py (List (List (List α))) := qs.mapM m.at

/-! ### Objects -/

/-- `SED` or `Template` object used as `templates`. -/
inductive Tpl (α : Type) where
  | sed (s : Sed α)
  | template (t : Tmpl α)

/-- The attributes common to both classes. -/
def Tpl.toSed : Tpl α → Sed α
  | .sed s => s
  | .template t => t.toSed

/-- The masses and histories only a `Template` has. -/
def Tpl.mass : Tpl α → Py (Tmpl α)
  | .sed _ => .error .attributeError
  | .template t => .ok t

/-- `templates.nsed` -/
def Tpl.nsed (t : Tpl α) : Nat := t.toSed.nsed

/-- Which `to_ab` method the object has. -/
inductive Cls where
  | base
  | sdss
  | gst
  deriving DecidableEq

/-- Attributes of a `Fitter` (fitter.py:62–74). -/
structure Fitter (α : Type) where
  cls : Cls
  abcorrect : Bool
  responses : List Name
  templates : Tpl α
  nredshift : Nat
  range : α × α
  redshifts : List α
  Amatrix : Option (AMat α)

/-- fitter.py:69–73, the redshift grid. -/
def redshiftGrid (lo hi : α) (n : Nat) : List α :=
  (List.range n).map (fun (i : Nat) => f32 lo + (f32 hi - f32 lo) * lit (i : ℚ) / lit ((n : ℚ) - 1))

/-- fitter.py:62–74 `Fitter(...)`. -/
def Fitter.mk' (cls : Cls) (responses : List Name) (templates : Tpl α) (lo hi : α) (n : Nat) (abcorrect : Bool) : Fitter α :=
  ⟨cls, abcorrect, responses, templates, n, (f32 lo, f32 hi), redshiftGrid lo hi n, none⟩

/-! ### Building the matrix -/

/-- `rmatrix[iz, ir, a:b] = v` with `b - a = n`: a scalar is broadcast, a vector must have length `n` (or 1). -/
def storeRow (n : Nat) (v : NDA α) : Py (List α) :=
  match v with
  | .scalar x => .ok (List.replicate n (f32 x))
  | .arr [] _ [r] =>
    if r.length = n then .ok (r.map f32)
    else match r with
      | [x] => .ok (List.replicate n (f32 x))
      | _ => .error .valueError
  | _ => .error .unmodelled

/-- cut a list into consecutive pieces of length `k` (`k > 0`), the last one possibly shorter -/
def piecesOf (k : Nat) (xs : List (List α)) : List (List (List α)) :=
  (List.range ((xs.length + k - 1) / k)).map (fun i => (xs.drop (i * k)).take k)

/-- fitter.py:97–105: projections in groups of `k` templates (the code has `k = 1000`).  The slices written by the loop are
consecutive and cover the row, so the row is their concatenation. -/
def chunkRow (lib : Lib α) (c : Curve α) (k : Nat) (s : Sed α) : Py (List α) := do
  let parts ← (piecesOf k s.flux).mapM (fun rows => do
    storeRow rows.length (← projectArr lib c s.wave (.arr [rows.length] s.wave.length rows)))
  return parts.flatten

/-- fitter.py:93–105, the row of one response. -/
def respRow (lib : Lib α) (g : Reg α) (s : Sed α) (n : Name) : Py (List α) := do
  let o ← match g n with
    | some o => .ok o
    | none => .error .keyError
  let c ← o.curve
  if s.interpolate then storeRow s.nsed (← projectSed lib c s)
  else chunkRow lib c 1000 s

/-- fitter.py:91–105, the loop over the grid.  The templates are left at the redshift where the loop stops. -/
def gridLoop (lib : Lib α) (g : Reg α) (responses : List Name) : List α → Sed α → Sed α × Py (List (List (List α)))
  | [], s => (s, .ok [])
  | z :: zs, s =>
    match s.setRedshift z with
    | (s', .error e) => (s', .error e)
    | (s', .ok _) =>
      match responses.mapM (respRow lib g s') with
      | .error e => (s', .error e)
      | .ok m =>
        match gridLoop lib g responses zs s' with
        | (s'', .ok ms) => (s'', .ok (m :: ms))
        | (s'', .error e) => (s'', .error e)

/-- The state `_calc_Amatrix` works on: the shared response dictionary and the shared template object. -/
structure Shared (α : Type) where
  reg : Reg α
  sed : Sed α

/-- fitter.py:80–113 `_calc_Amatrix`.  An exception anywhere leaves the templates where they are. -/
def calcAmatrix (lib : Lib α) (disk : Disk α) (redshifts : List α) (responses : List Name) (w : Shared α) :
    Shared α × Py (AMat α) :=
  match loadMissing lib disk responses w.reg with
  | (g, .error e) => (⟨g, w.sed⟩, .error e)
  | (g, .ok _) =>
    match gridLoop lib g responses redshifts w.sed with
    | (s, .error e) => (⟨g, s⟩, .error e)
    | (s, .ok ms) =>
      match mkAMat redshifts ms responses.length w.sed.nsed with
      | .error e => (⟨g, s⟩, .error e)
      | .ok A =>
        match s.setRedshift (lit 0) with
        | (s', .error e) => (⟨g, s'⟩, .error e)
        | (s', .ok _) => (⟨g, s'⟩, .ok A)

/-- fitter.py:149–153 `set_Amatrix`. -/
def Fitter.setAmatrix (lib : Lib α) (disk : Disk α) (F : Fitter α) (w : Shared α) : Shared α × Py (Fitter α) :=
  match calcAmatrix lib disk F.redshifts F.responses w with
  | (w', .ok A) => (w', .ok { F with Amatrix := some A })
  | (w', .error e) => (w', .error e)

/-! ### Inputs -/

/-- kcorrect.py:1146–1152, columns 2 to 6 replaced. -/
def put27 (row s : List α) : List α := row.take 2 ++ s ++ row.drop 7

/-- `a[..., 2:7]`; `IndexError` for a 0-dimensional array. -/
def slice27 (a : NDA α) : Py (NDA α) :=
  match a with
  | .scalar _ => .error .indexError
  | .arr lead ncol rows => .ok (.arr lead (min 7 ncol - min 2 ncol) (rows.map (fun r => (r.drop 2).take 5)))

/-- the rows of an array along its last axis -/
def NDA.rows : NDA α → List (List α)
  | .scalar x => [[x]]
  | .arr _ _ rows => rows

/-- `a[..., 2:7] = s` for `s` of the shape of the slice -/
def putSlice27 (a s : NDA α) : NDA α :=
  match a with
  | .scalar x => .scalar x
  | .arr lead ncol rows => .arr lead ncol (List.zipWith put27 rows s.rows)

/-- The method `to_ab`: fitter.py:115–147 (identity), kcorrect.py:911–957 (`KcorrectSDSS`), kcorrect.py:1105–1157 (`KcorrectGST`;
without `ivar` line 1155 indexes `None`, a `TypeError`).  Values only; that `KcorrectGST.to_ab` writes into its arguments is
modelled in `Model/Heap`. -/
def toAb (cls : Cls) (maggies : NDA α) (ivar : Option (NDA α)) : Py (AbOut α) :=
  match cls with
  | .base => .ok ⟨maggies, ivar⟩
  | .sdss => sdssAbCorrect maggies ivar abfixDefault
  | .gst => do
    let sm ← slice27 maggies
    match ivar with
    | none => throw .typeError
    | some iv =>
      let siv ← slice27 iv
      let r ← sdssAbCorrect sm (some siv) abfixDefault
      match r.ivar with
      | some riv => return ⟨putSlice27 maggies r.maggies, some (putSlice27 iv riv)⟩
      | none => throw .unmodelled

/-- What `_process_inputs` returns, by rows: `array`, the redshifts (`n` of them), and one row per redshift of each given table. -/
structure Inp (α : Type) where
  array : Bool
  z : List α
  maggies : Option (List (List α))
  ivar : Option (List (List α))
  coeffs : Option (List (List α))

/-- fitter.py:300–343, the tests on one table: rank, number of objects, number `w` of columns, all `ValueError`. -/
def checkTable (array : Bool) (n w : Nat) : Option (NDA α) → Py (Option (NDA α))
  | none => .ok none
  | some a =>
    let a := a.map f32
    if a.shape = (if array then [n, w] else [w]) then .ok (some a) else .error .valueError

/-- fitter.py:234–352 `_process_inputs`. -/
def processInputs (F : Fitter α) (redshift maggies ivar coeffs : Option (NDA α)) : Py (Inp α) := do
  let (array, z) ← match redshift.map (NDA.map f32) with
    | none => .error .valueError
    | some (.scalar z) => .ok (false, [z])
    | some (.arr [] _ rows) => .ok (true, rows.flatten)
    | some (.arr _ _ _) => .error .typeError
  let maggies ← checkTable array z.length F.responses.length maggies
  let ivar ← checkTable array z.length F.responses.length ivar
  let coeffs ← checkTable array z.length F.templates.nsed coeffs
  match F.abcorrect, maggies with
  | true, some m =>
    let r ← toAb F.cls m ivar
    return ⟨array, z, some r.maggies.rows, r.ivar.map NDA.rows, coeffs.map NDA.rows⟩
  | _, _ => return ⟨array, z, maggies.map NDA.rows, ivar.map NDA.rows, coeffs.map NDA.rows⟩

/-- The processed redshifts as an array again. -/
def Inp.zArr (i : Inp α) : NDA α := if i.array then .arr [] i.z.length [i.z] else .scalar (i.z.headD (lit 0))

/-- A processed table with `w` columns as an array again. -/
def Inp.tbl (i : Inp α) (w : Nat) (rows : List (List α)) : NDA α :=
  if i.array then .arr [i.z.length] w rows else .arr [] w rows

/-! ### Fitting -/

/-- `scipy.optimize.nnls(A, b, maxiter)` for a matrix with `n` columns; `none` is the default iteration limit. -/
abbrev Nnls (α : Type) := (n : Nat) → List (List α) → List α → Option Nat → Py (List α)

/-- fitter.py:208–212 and 225–229: one retry, with a larger limit, after `RuntimeError`. -/
def solve (nnls : Nnls α) (n : Nat) (A : List (List α)) (b : List α) : Py (List α) :=
  match nnls n A b none with
  | .error .runtimeError => nnls n A b (some (n * 100))
  | r => r

/-- What `_fit_coeffs` returns: one array (`mc == 0`), or a tuple of two or three. -/
inductive Fit1 (α : Type) where
  | one (c : List α)
  | two (c : List α) (cmc : List (List α))
  | three (c : List α) (cmc mmc : List (List α))

/-- fitter.py:218–223: Monte Carlo maggies number `k`.  `p`-th band with positive `inverr` gets the `p`-th deviate. -/
def mcMaggies (noise : Nat → α) (maggies inverr : List α) : List α :=
  let igd := maskIdx (inverr.map (fun e => gtb e (lit 0)))
  (maggies.map f32).mapIdx (fun j m =>
    if gtb (ent inverr j) (lit 0) then f32 (m + noise (igd.idxOf j) * (lit 1 / ent inverr j)) else m)

/-- the `[len(c), len(cols)]` table whose columns are `cols`, each of length `n` -/
def fromCols (n : Nat) (cols : List (List α)) : List (List α) :=
  (List.range n).map (fun j => cols.map (fun c => ent c j))

/-- fitter.py:195–198: `inverr_matrix * Amatrix(redshift)`, one row of the matrix per band, with numpy's broadcasting where the numbers of rows differ.
`nsed` columns on both sides. -/
def weigh (inverr : List α) (M : List (List α)) : Py (List (List α)) :=
  if inverr.length = M.length then .ok (List.zipWith (fun e row => row.map (fun a => e * a)) inverr M)
  else if M.length = 1 then .ok (inverr.map (fun e => (M.headD []).map (fun a => e * a)))
  else if inverr.length = 1 then .ok (M.map (fun row => row.map (fun a => inverr.headD (lit 0) * a)))
  else .error .valueError

/-- fitter.py:197–198: the statement inside `try`, which can raise `ValueError` because the redshift is outside the grid or because the number of bands is not
that of the matrix. -/
def weighAt (Am : AMat α) (ivar : List α) (z : α) : Py (List (List α)) := do weigh (ivar.map Arith.sqrt) (← Am.at z)

/-- fitter.py:155–232 `_fit_coeffs`.  `maggies = none` stands for `None` squeezed to an object array (the product of line 206 is
then a `TypeError`); `zeroD` says that `np.squeeze` has made `maggies` and `ivar` 0-dimensional (one band), which `nnls` refuses
(`ValueError`; some scipy versions raise `IndexError`), as it does when `A` and `b` have different numbers of rows.  Line 198: calling `None` before `set_Amatrix` is a `TypeError`, not caught. -/
def fit1 (nnls : Nnls α) (F : Fitter α) (z : α) (maggies : Option (List α)) (ivar : List α) (zeroD : Bool) (mc : Nat)
    (noise : Nat → Nat → α) : Py (Fit1 α) := do
  let nsed := F.templates.nsed
  let inverr := ivar.map Arith.sqrt
  match F.Amatrix with
  | none => throw .typeError
  | some Am =>
    match weighAt Am ivar z with
    | .error .valueError =>
      if mc = 0 then return .one (zeros nsed)
      else return .two (zeros nsed) (fromCols nsed (List.replicate mc (zeros nsed)))
    | .error e => throw e
    | .ok A =>
      match maggies with
      | none => throw .typeError
      | some m =>
        if zeroD || A.length != ivar.length then throw .valueError
        let c ← solve nnls nsed A (List.zipWith (fun x e => x * e) m inverr)
        if mc = 0 then return .one c
        else
          let mm := (List.range mc).map (fun k => mcMaggies (noise k) m inverr)
          let cs ← mm.mapM (fun mk => do
            storeRow nsed (.vec (← solve nnls nsed A (List.zipWith (fun x e => x * e) mk inverr))))
          return .three c (fromCols nsed cs) (fromCols m.length mm)

/-- What `fit_coeffs` returns: the coefficients, and with `mc > 0` the Monte Carlo coefficients and maggies. -/
structure FitOut (α : Type) where
  coeffs : NDA α
  mc : Option (NDA α × NDA α)

/-- unpacking `a = f(...)` for `mc == 0`, `a, b, c = f(...)` otherwise: a tuple of two does not unpack into three -/
def unpack (r : Fit1 α) : Py (List α × List (List α) × List (List α)) :=
  match r with
  | .one c => .ok (c, [], [])
  | .two _ _ => .error .valueError
  | .three c a b => .ok (c, a, b)

/-- fitter.py:410–431: one object, scalar or one-element array.  Line 423 reshapes `coeffs` to `(1, nsed)`, after which `len(coeffs)` in
425 and `len(maggies)` in 426 are both 1. -/
def fitOne (nnls : Nnls α) (F : Fitter α) (i : Inp α) (mc : Nat) (noise : Nat → Nat → α) : Py (FitOut α) := do
  let nb := F.responses.length
  let z := i.z.headD (lit 0)
  match i.ivar with
  | none => throw .typeError
  | some iv =>
    let r ← fit1 nnls F z (i.maggies.map (fun m => m.headD [])) (iv.headD []) (nb == 1) mc noise
    let (c, cmc, mmc) ← unpack r
    if i.array then
      if mc = 0 then return ⟨.arr [1] c.length [c], none⟩
      else
        let a ← (NDA.arr [F.templates.nsed] mc cmc).reshape [1, 1] mc
        let b ← (NDA.arr [nb] mc mmc).reshape [1, 1] mc
        return ⟨.arr [1] c.length [c], some (a, b)⟩
    else if mc = 0 then return ⟨.vec c, none⟩
    else return ⟨.vec c, some (.arr [F.templates.nsed] mc cmc, .arr [nb] mc mmc)⟩

/-- `X[k, :]` for a table that may be `None` -/
def rowOpt (X : Option (List (List α))) (k : Nat) : Py (List α) :=
  match X with
  | some rows => .ok (rows.getD k [])
  | none => .error .typeError

/-- fitter.py:438–449, one pass of the loop. -/
def fitPass (nnls : Nnls α) (F : Fitter α) (i : Inp α) (mc : Nat) (noise : Nat → Nat → Nat → α) (k : Nat) :
    Py (List α × List (List α) × List (List α)) := do
  let m ← rowOpt i.maggies k
  let iv ← rowOpt i.ivar k
  let r ← fit1 nnls F (ent i.z k) (some m) iv false mc (noise k)
  let (c, a, b) ← unpack r
  let c ← storeRow F.templates.nsed (.vec c)
  return (c, a, b)

/-- fitter.py:409–454, after `_process_inputs`. -/
def Fitter.fitCoeffsI (nnls : Nnls α) (F : Fitter α) (i : Inp α) (mc : Nat) (noise : Nat → Nat → Nat → α) : Py (FitOut α) := do
  if i.z.length = 1 then fitOne nnls F i mc (noise 0)
  else
    let rs ← (List.range i.z.length).mapM (fitPass nnls F i mc noise)
    let n := i.z.length
    let cs := NDA.arr [n] F.templates.nsed (rs.map (fun r => r.1))
    if mc = 0 then return ⟨cs, none⟩
    else return ⟨cs, some (.arr [n, F.templates.nsed] mc (rs.map (fun r => r.2.1)).flatten,
      .arr [n, F.responses.length] mc (rs.map (fun r => r.2.2)).flatten)⟩

/-- fitter.py:354–454 `fit_coeffs`.  `noise` lists the normal deviates by object, sample and band. -/
def Fitter.fitCoeffs (nnls : Nnls α) (F : Fitter α) (redshift maggies ivar : Option (NDA α)) (mc : Nat)
    (noise : Nat → Nat → Nat → α) : Py (FitOut α) := do
  if redshift.isNone then throw .typeError
  let i ← processInputs F redshift maggies ivar none
  Fitter.fitCoeffsI nnls F i mc noise

/-! ### Reconstruction -/

/-- fitter.py:495 -/
def shiftOf (z bs : α) : α := (lit 1 + z) * (lit 1 + bs) - lit 1

/-- fitter.py:503–511 for one object: matrix times coefficients, divided by `1 + band_shift`. -/
def reconRow (bs : α) (M : List (List α)) (c : List α) : List α :=
  M.map (fun row => dot row c / (lit 1 + bs))

/-- fitter.py:491–513, after `_process_inputs`.  `coeffs = None`: `None.T` (array) or `A.dot(None)`. -/
def reconI (Am : Option (AMat α)) (i : Inp α) (bs : α) : Py (NDA α) :=
  match Am with
  | none => throw .typeError
  | some Am => do
    let Ms ← Am.atAll (i.z.map (fun z => shiftOf z bs))
    match i.coeffs with
    | none => throw (if i.array then .attributeError else .typeError)
    | some cs => return i.tbl Am.nrow (List.zipWith (reconRow bs) Ms cs)

/-- fitter.py:456–513 `_reconstruct` with interpolator `Am`. -/
def reconstructWith (F : Fitter α) (Am : Option (AMat α)) (redshift coeffs : Option (NDA α)) (bs : α) : Py (NDA α) := do
  let i ← processInputs F redshift none none coeffs
  reconI Am i bs

/-- fitter.py:515–543 `reconstruct`. -/
def Fitter.reconstruct (F : Fitter α) (redshift coeffs : Option (NDA α)) (bs : α) : Py (NDA α) :=
  reconstructWith F F.Amatrix redshift coeffs bs

end KC
