import Verif.Model.Fitter

/-!
# `src/kcorrect/kcorrect.py`: class `Kcorrect`

The cosmology enters as the function `distmod` from redshift to distance modulus.  Response lists are Python lists of names.
-/

namespace KC
variable {α : Type} [Arith α]

/-- Attributes of a `Kcorrect` object (kcorrect.py:129–185), those of `Fitter` included. -/
structure Kc (α : Type) extends Fitter α where
  responsesOut : List Name
  responsesMap : List Name
  AmatrixOut : Option (AMat α)
  imap : List Nat
  distmod : α → α

/-- kcorrect.py:172–177: `imap`; `list.index` finds the first occurrence. -/
def imapOf (responses rmap : List Name) : Py (List Nat) :=
  rmap.mapM (fun r => if r ∈ responses then .ok (responses.idxOf r) else .error .valueError)

/-- kcorrect.py:129–185 `Kcorrect(responses=..., templates=..., ...)`.  `w.sed` is the object `templates`.  Not modelled: `responses=None`
(a `TypeError`), the default templates, and lists given as tuples or arrays. -/
def Kc.init (lib : Lib α) (disk : Disk α) (cls : Cls) (responses : List Name) (templates : Tpl α) (out rmap : Option (List Name))
    (lo hi : α) (n : Nat) (abcorrect : Bool) (distmod : α → α) (w : Shared α) : Shared α × Py (Kc α) :=
  match (Fitter.mk' cls responses templates lo hi n abcorrect).setAmatrix lib disk w with
  | (w1, .error e) => (w1, .error e)
  | (w1, .ok F) =>
    let out := out.getD F.responses
    let rmap := rmap.getD F.responses
    if rmap.length ≠ out.length then (w1, .error .valueError)
    else
      let (w2, A) : Shared α × Py (Option (AMat α)) :=
        if out = F.responses then (w1, .ok F.Amatrix)
        else match calcAmatrix lib disk F.redshifts out w1 with
          | (w2, .ok A) => (w2, .ok (some A))
          | (w2, .error e) => (w2, .error e)
      (w2, do
        let A ← A
        let im ← imapOf F.responses rmap
        return ⟨F, out, rmap, A, im, distmod⟩)

/-- kcorrect.py:394–416 `reconstruct_out`. -/
def Kc.reconstructOut (K : Kc α) (redshift coeffs : Option (NDA α)) (bs : α) : Py (NDA α) :=
  reconstructWith K.toFitter K.AmatrixOut redshift coeffs bs

/-- an array of the same shape with other rows -/
def NDA.withRows (a : NDA α) (rows : List (List α)) : NDA α :=
  match a with
  | .scalar x => .scalar x
  | .arr lead ncol _ => .arr lead ncol rows

/-- `-2.5 * np.log10(x)` -/
def magOf (x : α) : α := lit (-5 / 2) * log10 x

/-- kcorrect.py:451–465, one object: the K-corrections from the maggies `a` in the input bands and `b` in the output bands.
`round` is the conversion to float32 on the array path (458) and nothing on the scalar path (464). -/
def kRow (imap : List Nat) (round : α → α) (c a b : List α) : List α :=
  if gtb (sumL c) (lit 0) then List.zipWith (fun x y => round (magOf (x / y))) (gather a imap) b else zeros b.length

/-- three rows together -/
def zip3 {β γ δ ε : Type} (f : β → γ → δ → ε) (a : List β) (b : List γ) (c : List δ) : List ε :=
  List.zipWith (fun x p => f x p.1 p.2) a (List.zip b c)

/-- kcorrect.py:443–467, after `_process_inputs`. -/
def Kc.kcorrectI (K : Kc α) (i : Inp α) (bs : α) : Py (NDA α) := do
  let co := i.coeffs.map (i.tbl K.templates.nsed)
  let a ← K.reconstruct (some i.zArr) co (lit 0)
  let b ← K.reconstructOut (some (i.zArr.map (fun z => lit 0 * z))) co bs
  match i.coeffs with
  | none => throw .attributeError
  | some cs => return b.withRows (zip3 (kRow K.imap (if i.array then f32 else id)) cs a.rows b.rows)

/-- kcorrect.py:418–467 `kcorrect`. -/
def Kc.kcorrect (K : Kc α) (redshift coeffs : Option (NDA α)) (bs : α) : Py (NDA α) := do
  let i ← processInputs K.toFitter redshift none none coeffs
  K.kcorrectI i bs

/-- What `absmag` returns: an array, or a tuple of arrays. -/
inductive Ret (α : Type) where
  | one (a : NDA α)
  | tuple (l : List (NDA α))

/-- kcorrect.py:616–619 -/
def mkRet : List (NDA α) → Ret α
  | [a] => .one a
  | l => .tuple l

/-- kcorrect.py:564–579, one entry: 0, then the formula where both are positive, then -9999 where one is not. -/
def absEntry (dm k m iv : α) : α :=
  let a := if gtb m (lit 0) && gtb iv (lit 0) then f32 (f32 (magOf m) - dm - k) else lit 0
  if leb m (lit 0) || leb iv (lit 0) then lit (-9999) else a

/-- kcorrect.py:584–593, one entry. -/
def recEntry (dm k o : α) : α :=
  let a := if gtb o (lit 0) then f32 (f32 (magOf o) - dm - k) else lit (-9999)
  if leb o (lit 0) then lit (-9999) else a

/-- kcorrect.py:596–607, one entry. -/
def limEntry (dm k iv : α) : α :=
  let a := if gtb iv (lit 0) then f32 (f32 (magOf (lit 1 / Arith.sqrt iv)) - dm - k) else lit (-9999)
  if leb iv (lit 0) then lit (-9999) else a

/-- kcorrect.py:257 and 553: factor relative to 10 pc of a distance in Mpc. -/
def dfactorOf (d : α) : α := (d / lit (1 / 100000)) * (d / lit (1 / 100000))

/-- kcorrect.py:550–556: distance moduli.  With `distance` its shape is checked against that of `coeffs`. -/
def Kc.dmOf (K : Kc α) (i : Inp α) (distance : Option (NDA α)) : Py (List α) :=
  match distance with
  | none => .ok (i.z.map K.distmod)
  | some d => do
    let j ← processInputs K.toFitter (some d) none none (i.coeffs.map (i.tbl K.templates.nsed))
    return j.z.map (fun d => lit (5 / 2) * log10 (dfactorOf d))

/-- kcorrect.py:550–619, after `_process_inputs`.  `None` for maggies or ivar fails at 561/562; on the array path the distance
modulus is multiplied by 1 (573). -/
def Kc.absmagI (K : Kc α) (i : Inp α) (bs : α) (distance : Option (NDA α)) (reconstruct limit kcorrect : Bool) : Py (Ret α) := do
  let dm ← K.dmOf i distance
  let dm := if i.array then dm.map (fun d => d * lit 1) else dm
  let co := i.coeffs.map (i.tbl K.templates.nsed)
  let k ← K.kcorrect (some i.zArr) co bs
  match i.maggies, i.ivar with
  | some ms, some ivs =>
    let m := ms.map (fun r => gather r K.imap)
    let iv := ivs.map (fun r => gather r K.imap)
    let abs := k.withRows (List.zipWith (fun d p => zip3 (fun k m v => absEntry d k m v) p.1 p.2.1 p.2.2) dm
      (List.zip k.rows (List.zip m iv)))
    let rec1 : List (NDA α) ← if reconstruct then do
        let o ← K.reconstructOut (some i.zArr) co bs
        pure [o.withRows (zip3 (fun d k o => List.zipWith (recEntry d) k o) dm k.rows o.rows)]
      else pure []
    let lim := if limit then [k.withRows (zip3 (fun d k v => List.zipWith (limEntry d) k v) dm k.rows iv)] else []
    return mkRet (abs :: rec1 ++ lim ++ if kcorrect then [k] else [])
  | _, _ => throw .typeError

/-- kcorrect.py:469–619 `absmag`. -/
def Kc.absmag (K : Kc α) (maggies ivar redshift coeffs : Option (NDA α)) (bs : α) (distance : Option (NDA α))
    (reconstruct limit kcorrect : Bool) : Py (Ret α) := do
  let i ← processInputs K.toFitter redshift maggies ivar coeffs
  K.absmagI i bs distance reconstruct limit kcorrect

/-! ### Monte Carlo -/

/-- the array of the given shape with these entries in C order -/
def NDA.ofFlat (shape : List Nat) (xs : List α) : NDA α :=
  match shape.getLast? with
  | none => .scalar (xs.headD (lit 0))
  | some w => .arr shape.dropLast w (NDA.chunks w shape.dropLast.prod xs)

/-- `a[..., k]` -/
def NDA.lastIdx (a : NDA α) (k : Nat) : Py (NDA α) :=
  match a with
  | .scalar _ => .error .indexError
  | .arr lead ncol rows => if k < ncol then .ok (.ofFlat lead (rows.map (fun r => ent r k))) else .error .indexError

/-- `a.shape[-1]` -/
def NDA.lastDim (a : NDA α) : Py Nat :=
  match a with
  | .scalar _ => .error .indexError
  | .arr _ ncol _ => .ok ncol

/-- `slot[...] = a` for a slot of the given shape: equal shapes, or a last axis of length 1 repeated.  (Other ways
to broadcast do not occur: the leading axes agree.) -/
def bcastFlat (shape : List Nat) (a : NDA α) : Py (List α) :=
  if a.shape = shape then .ok a.flat
  else match a with
    | .arr lead 1 rows =>
      match shape.getLast? with
      | some w => if shape = lead ++ [w] then .ok (rows.map (fun r => List.replicate w (r.headD (lit 0)))).flatten else .error .valueError
      | none => .error .valueError
    | _ => .error .valueError

/-- `out = np.zeros(shape + (ncol,), dtype=np.float32)` with `out[..., k]` set to the `k`-th list. -/
def stackLast (shape : List Nat) (ncol : Nat) (cols : List (List α)) : NDA α :=
  .arr shape ncol ((List.range shape.prod).map (fun j => (List.range ncol).map (fun k =>
    match cols[k]? with
    | some c => f32 (ent c j)
    | none => lit 0)))

/-- the arrays of a result -/
def Ret.list : Ret α → List (NDA α)
  | .one a => [a]
  | .tuple l => l

/-- kcorrect.py:621–702 `absmag_mc`.  The arrays are allocated with the shape of `maggies_mc` (671–675). -/
def Kc.absmagMc (K : Kc α) (maggiesMc : NDA α) (ivar redshift : Option (NDA α)) (coeffsMc : NDA α) (bs : α)
    (distance : Option (NDA α)) (reconstruct kcorrect : Bool) : Py (Ret α) := do
  let mc ← coeffsMc.lastDim
  match maggiesMc with
  | .scalar _ => if mc = 0 then throw .unmodelled else throw .indexError
  | .arr slot ncol _ =>
    let outs ← (List.range mc).mapM (fun k => do
      let m ← maggiesMc.lastIdx k
      let c ← coeffsMc.lastIdx k
      let out ← K.absmag (some m) ivar redshift (some c) bs distance reconstruct false kcorrect
      out.list.mapM (bcastFlat slot))
    let nout := 1 + (if reconstruct then 1 else 0) + (if kcorrect then 1 else 0)
    return mkRet ((List.range nout).map (fun t => stackLast slot ncol (outs.map (fun o => o.getD t []))))

/-! ### Derived quantities -/

/-- The dictionary returned by `derived`. -/
structure Derived (α : Type) where
  mremain : NDA α
  intsfh : NDA α
  mtol : NDA α
  b50 : NDA α
  b300 : NDA α
  b1000 : NDA α
  metallicity : NDA α

/-- `coeffs.dot(t)` by rows: `ValueError` if the number of templates is not the length of `t` -/
def dotPy (cs : List (List α)) (nsed : Nat) (t : List α) : Py (List α) :=
  if t.length = nsed then .ok (cs.map (fun c => dot c t)) else .error .valueError

/-- kcorrect.py:270–290, one object: the ratio where there is mass, 0 otherwise -/
def ratio (round : α → α) (mass num den : α) : α := if gtb mass (lit 0) then round (num / den) else lit 0

/-- The processed vector as an array again. -/
def Inp.vecArr (i : Inp α) (xs : List α) : NDA α := if i.array then .vec xs else .scalar (xs.headD (lit 0))

/-- kcorrect.py:301–302, one response: `f[response].solar_magnitude + dm` for the objects, `10.**(-0.4*...)`.  A name not in the
dictionary is a `KeyError`; `dm` is not assigned when a distance was given (254–257), an `UnboundLocalError`; adding to `None` is a
`TypeError`. -/
def solarOf (g : Reg α) (dm : Option (List α)) (n : Name) : Py (List α) := do
  let o ← match g n with
    | some o => .ok o
    | none => .error .keyError
  let dm ← match dm with
    | some dm => .ok dm
    | none => .error .unboundLocalError
  match o.solarMag with
  | none => throw .typeError
  | some s => return dm.map (fun d => pow10 (lit (-2 / 5) * (s + d)))

/-- kcorrect.py:305–312, one entry -/
def mtolEntry (mass rm : α) : α := if gtb rm (lit 0) then f32 (mass / rm) else lit 0

/-- kcorrect.py:254–323, after `_process_inputs`.  `g` is the response dictionary at the time of the call.  The array of 303 is
float32, so the quotients stored in it are rounded (for a `band_shift` that is a Python float or `np.float32`; a `np.float64` would make it a
float64 array).  On the array path
`np.outer(mremain, np.ones(len(self.responses)))[ok]` is an `IndexError` if the numbers of input and output bands differ. -/
def Kc.derivedI (K : Kc α) (g : Reg α) (i : Inp α) (bs : α) (distance : Option (NDA α)) : Py (Derived α) := do
  let co := i.coeffs.map (i.tbl K.templates.nsed)
  let (dm, df) : Option (List α) × List α ← match distance with
    | some d => do
      let j ← processInputs K.toFitter (some d) none none co
      pure (none, j.z.map dfactorOf)
    | none => pure (some (i.z.map K.distmod), (i.z.map K.distmod).map (fun d => pow10 (lit (2 / 5) * d)))
  match i.coeffs with
  | none => throw .attributeError
  | some cs =>
    let t ← K.templates.mass
    let nsed := K.templates.nsed
    let scaled (v : List α) : Py (List α) := do return List.zipWith (fun x y => x * y) (← dotPy cs nsed v) df
    let intsfh ← scaled t.intsfh
    let mremain ← scaled t.mremain
    require (t.mremain.length = t.mets.length) .valueError
    let metals ← scaled (List.zipWith (fun x y => x * y) t.mremain t.mets)
    let m50 ← scaled t.m50
    let m300 ← scaled t.m300
    let m1000 ← scaled t.m1000
    let round : α → α := if i.array then f32 else id
    let metallicity := zip3 (ratio round) mremain metals mremain
    let b50 := zip3 (ratio round) mremain m50 intsfh
    let b300 := zip3 (ratio round) mremain m300 intsfh
    let b1000 := zip3 (ratio round) mremain m1000 intsfh
    let rm ← K.reconstructOut (some (i.vecArr (zeros i.z.length))) co bs
    let solar ← K.responsesOut.mapM (solarOf g dm)
    let rows := rm.rows.mapIdx (fun k row => row.mapIdx (fun j v =>
      match solar[j]? with
      | some s => f32 (v / ent s k)
      | none => v))
    require (i.array = true → K.responses.length = K.responsesOut.length) .indexError
    let mass := if i.array then mremain.map (fun x => x * lit 1) else mremain
    let mtol := rm.withRows (List.zipWith (fun x row => row.map (mtolEntry x)) mass rows)
    return ⟨i.vecArr mremain, i.vecArr intsfh, mtol, i.vecArr b50, i.vecArr b300, i.vecArr b1000, i.vecArr metallicity⟩

/-- kcorrect.py:187–323 `derived`. -/
def Kc.derived (K : Kc α) (g : Reg α) (redshift coeffs : Option (NDA α)) (bs : α) (distance : Option (NDA α)) : Py (Derived α) := do
  let i ← processInputs K.toFitter redshift none none coeffs
  K.derivedI g i bs distance

/-- kcorrect.py:384–391 for one key: the arrays of the samples stacked along a new last axis. -/
def stackKey (mc : Nat) (as : List (NDA α)) : NDA α :=
  stackLast ((as.map NDA.shape).headD []) mc (as.map NDA.flat)

/-- kcorrect.py:325–392 `derived_mc`; `None` for `mc = 0`. -/
def Kc.derivedMc (K : Kc α) (g : Reg α) (redshift : Option (NDA α)) (coeffsMc : NDA α) (bs : α) (distance : Option (NDA α)) :
    Py (Option (Derived α)) := do
  let mc ← coeffsMc.lastDim
  let ds ← (List.range mc).mapM (fun k => do
    let c ← coeffsMc.lastIdx k
    K.derived g redshift (some c) bs distance)
  if mc = 0 then return none
  return some ⟨stackKey mc (ds.map (·.mremain)), stackKey mc (ds.map (·.intsfh)), stackKey mc (ds.map (·.mtol)),
    stackKey mc (ds.map (·.b50)), stackKey mc (ds.map (·.b300)), stackKey mc (ds.map (·.b1000)), stackKey mc (ds.map (·.metallicity))⟩

/-! ### Files -/

/-- A name stored in a column of 200 characters and read back: cut to 200 characters, trailing spaces lost. -/
def fitsName (n : Name) : Name := ((n.take 200).reverse.dropWhile (· = ' ')).reverse

/-- kcorrect.py:730–767: the HDUs appended to those of the templates, in order.  `redshift_range` goes into int32. -/
def Kc.hdus (K : Kc α) : Py (FitsFile α) := do
  let Am ← match K.Amatrix with
    | some A => .ok A
    | none => .error .typeError
  let Ao ← match K.AmatrixOut with
    | some A => .ok A
    | none => .error .typeError
  let a ← Am.atAll K.redshifts
  let o ← Ao.atAll K.redshifts
  return [(.data, .settings K.nredshift (Arith.trunc K.range.1) (Arith.trunc K.range.2) K.abcorrect),
    (.redshifts, .image (.vec K.redshifts)),
    (.responses, .names (K.responses.map fitsName)),
    (.responsesOut, .names (K.responsesOut.map fitsName)),
    (.responsesMap, .names (K.responsesMap.map fitsName)),
    (.A, .image (.arr [K.redshifts.length, Am.nrow] Am.ncol a.flatten)),
    (.Aout, .image (.arr [K.redshifts.length, Ao.nrow] Ao.ncol o.flatten))]

/-- the file of the templates, kcorrect.py:728 -/
def Tpl.tofits (t : Tpl α) : Py (FitsFile α) :=
  match t with
  | .sed s => s.tofits .flux
  | .template t => t.tofits

/-- kcorrect.py:704–770 `tofits`, the file it leaves. -/
def Kc.tofits (K : Kc α) : Py (FitsFile α) := do
  let t ← K.templates.tofits
  let h ← K.hdus
  return t ++ h

/-- a table of names -/
def FitsFile.names (f : FitsFile α) (e : Ext) : Py (List Name) := do
  match ← f.get e with
  | .names ns => return ns
  | .torn => throw .osError
  | _ => throw .unmodelled

/-- an image of rank 3 as the list of its matrices, with its last two dimensions -/
def FitsFile.cube (f : FitsFile α) (e : Ext) : Py (List (List (List α)) × Nat × Nat) := do
  match ← f.image e with
  | .arr [n, m] w rows => return (NDA.chunks m n rows, m, w)
  | _ => throw .unmodelled

/-- kcorrect.py:772–811 and 134–135, 172–185: `Kcorrect(filename=f)`.  Only the class `Kcorrect` takes a file name.  Lines
800–802 load the input responses into the dictionary `g`. -/
def Kc.fromfits (lib : Lib α) (disk : Disk α) (f : FitsFile α) (distmod : α → α) (g : Reg α) : Reg α × Py (Kc α) :=
  let head : Py (Tmpl α × (Nat × α × α × Bool) × List α × List Name × List Name × List Name) := do
    let t ← Tmpl.fromfits f false
    let st ← match ← f.get .data with
      | .settings n lo hi ab => .ok (n, lo, hi, ab)
      | .torn => .error .osError
      | _ => .error .unmodelled
    let z ← f.vec .redshifts
    let r ← f.names .responses
    let m ← f.names .responsesMap
    let o ← f.names .responsesOut
    return (t, st, z, r, m, o)
  match head with
  | .error e => (g, .error e)
  | .ok (t, st, z, r, m, o) =>
    match loadMissing lib disk r g with
    | (g', .error e) => (g', .error e)
    | (g', .ok _) => (g', do
      let (a, an, aw) ← f.cube .A
      let (b, bn, bw) ← f.cube .Aout
      let A ← mkAMat z a an aw
      let Ao ← mkAMat z b bn bw
      let im ← imapOf r m
      return ⟨⟨.base, st.2.2.2, r, .template t, st.1, (st.2.1, st.2.2.1), z, some A⟩, o, m, some Ao, im, distmod⟩)

/-- What is in the file system while `tofits` runs: nothing (removed for overwriting), or the HDUs written so far, the last one
possibly cut off.  Writing is a list of HDUs, one after the other. -/
def writing (before f : FitsFile α) : List (FitsFile α) :=
  (List.range (f.length + 1)).map (fun k => before ++ f.take k) ++
  (List.range f.length).map (fun k => before ++ f.take k ++ ((f.drop k).take 1).map (fun h => (h.1, .torn)))

/-- kcorrect.py:728–770, template.py:209–223 and 404–431: the states of the file on disk from the first write to the last.  The SED is
written, the template HDUs are appended, then the whole file is written again. -/
def Kc.saveStates (K : Kc α) : Py (List (FitsFile α)) := do
  let full ← K.tofits
  match K.templates with
  | .sed s => return writing [] (← s.tofits .flux) ++ writing [] full
  | .template t =>
    let s ← t.toSed.tofits .flux
    let tf ← t.tofits
    return writing [] s ++ writing s (tf.drop s.length) ++ writing [] full

/-! ### `KcorrectSDSS` -/

/-- kcorrect.py:959–1005 `fit_coeffs_asinh`.  A single array returned by `sdss_asinh_to_maggies` (no `mag_err`) does not unpack into
two, except when it has length 2. -/
def Kc.fitCoeffsAsinh (nnls : Nnls α) (K : Kc α) (redshift : Option (NDA α)) (mag : NDA α) (magErr extinction : Option (NDA α))
    (noise : Nat → Nat → Nat → α) : Py (FitOut α) := do
  if redshift.isNone then throw .typeError
  let r ← asinhToMaggies mag magErr extinction
  match r.ivar with
  | some iv => K.fitCoeffs nnls redshift (some r.maggies) (some iv) 0 noise
  | none =>
    match r.maggies with
    | .arr (2 :: lead) ncol rows =>
      let half := rows.length / 2
      let part (rs : List (List α)) : NDA α := .arr lead ncol rs
      K.fitCoeffs nnls redshift (some (part (rows.take half))) (some (part (rows.drop half))) 0 noise
    | _ => throw .valueError

end KC
