import Verif.Model.Kcorrect

/-!
# Arrays as objects

The other modules model what the methods compute.  Here the caller's arrays are cells of a heap, so that a method can change them.
`np.float32(x)` returns `x` itself if it is already an array of 32-bit floats and a new array otherwise, and `KcorrectGST.to_ab` assigns
into the arrays that it gets.
-/

namespace KC
variable {α : Type} [Arith α]

/-- An array object: whether its dtype is `float32`, and its values.  Lists and arrays of other dtypes are cells with `isF32 = false`. -/
structure Cell (α : Type) where
  isF32 : Bool
  val : NDA α

/-- All the arrays there are; the index is the identity of the object. -/
abbrev Heap (α : Type) := List (Cell α)

/-- A reference to a whole array, or the view `a[..., k]` of it. -/
structure View where
  ref : Nat
  idx : Option Nat
deriving DecidableEq

/-- the values seen through a view -/
def View.get (v : View) (h : Heap α) : Py (NDA α) :=
  match h[v.ref]? with
  | none => .error .unmodelled
  | some c =>
    match v.idx with
    | none => .ok c.val
    | some k => c.val.lastIdx k

/-- `a[..., k] = s` for `s` of the shape of the slot -/
def putLast (a : NDA α) (k : Nat) (s : NDA α) : NDA α :=
  match a with
  | .scalar x => .scalar x
  | .arr lead ncol rows => .arr lead ncol (List.zipWith (fun row x => row.set k x) rows s.flat)

/-- the cell after an assignment of all the values of a view -/
def View.put (v : View) (s : NDA α) (c : Cell α) : Cell α :=
  match v.idx with
  | none => { c with val := s }
  | some k => { c with val := putLast c.val k s }

/-- A computation that can change the heap, and keeps the changes when it raises. -/
def HM (α β : Type) := Heap α → Heap α × Py β

instance : Monad (HM α) where
  pure b := fun h => (h, .ok b)
  bind x f := fun h =>
    match x h with
    | (h', .ok b) => f b h'
    | (h', .error e) => (h', .error e)

namespace HM

def lift {β : Type} (x : Py β) : HM α β := fun h => (h, x)

def read (v : View) : HM α (NDA α) := fun h => (h, v.get h)

def readOpt : Option View → HM α (Option (NDA α))
  | none => pure none
  | some v => do return some (← read v)

/-- a new `float32` array -/
def alloc (a : NDA α) : HM α View := fun h => (h ++ [⟨true, a⟩], .ok ⟨h.length, none⟩)

/-- `a[...] = s` -/
def write (v : View) (s : NDA α) : HM α Unit := fun h => (h.modify v.ref (v.put s), .ok ())

/-- `np.float32(x)`: numpy's `PyArray_FromAny` without a request to copy returns the array itself if the dtype is already right. -/
def toF32 (v : View) : HM α View := fun h =>
  match h[v.ref]? with
  | none => (h, .error .unmodelled)
  | some c =>
    if c.isF32 then (h, .ok v)
    else
      match v.get h with
      | .error e => (h, .error e)
      | .ok a => alloc (a.map f32) h

def mapList {β γ : Type} (f : β → HM α γ) : List β → HM α (List γ)
  | [] => pure []
  | b :: t => do
    let c ← f b
    let cs ← mapList f t
    return c :: cs

end HM

open HM

/-- fitter.py:300–343, the tests on one table. -/
def tableH (array : Bool) (n w : Nat) : Option View → HM α (Option View)
  | none => pure none
  | some v => do
    let v ← toF32 v
    let a ← read v
    if a.shape = (if array then [n, w] else [w]) then return some v else lift (.error .valueError)

/-- `to_ab` on objects: fitter.py:115–147 returns its arguments, `KcorrectSDSS` (kcorrect.py:911–957) new arrays, `KcorrectGST`
(kcorrect.py:1144–1157) its arguments after assigning to them, first to `maggies` and then to `ivar`. -/
def toAbH (cls : Cls) (m : View) (iv : Option View) : HM α (View × Option View) :=
  match cls with
  | .base => pure (m, iv)
  | .sdss => do
    let a ← read m
    let b ← readOpt iv
    let r ← lift (sdssAbCorrect a b abfixDefault)
    let m ← alloc r.maggies
    match r.ivar with
    | none => return (m, none)
    | some v => return (m, some (← alloc v))
  | .gst => do
    let a ← read m
    let sm ← lift (slice27 a)
    match iv with
    | none => lift (.error .typeError)
    | some iv =>
      let b ← read iv
      let siv ← lift (slice27 b)
      let r ← lift (sdssAbCorrect sm (some siv) abfixDefault)
      match r.ivar with
      | none => lift (.error .unmodelled)
      | some riv =>
        write m (putSlice27 a r.maggies)
        let b ← read iv
        write iv (putSlice27 b riv)
        return (m, some iv)

/-- fitter.py:286–297: `array` and the redshifts -/
def redshiftsOf : NDA α → Py (Bool × List α)
  | .scalar z => .ok (false, [z])
  | .arr [] _ rows => .ok (true, rows.flatten)
  | .arr _ _ _ => .error .typeError

/-- fitter.py:234–352 `_process_inputs`, on objects. -/
def processH (F : Fitter α) (redshift maggies ivar coeffs : Option View) : HM α (Inp α) := do
  match redshift with
  | none => lift (.error .valueError)
  | some zv =>
    let zv ← toF32 zv
    let za ← read zv
    let az ← lift (redshiftsOf za)
    let m ← tableH az.1 az.2.length F.responses.length maggies
    let iv ← tableH az.1 az.2.length F.responses.length ivar
    let c ← tableH az.1 az.2.length F.templates.nsed coeffs
    match F.abcorrect, m with
    | true, some m =>
      let r ← toAbH F.cls m iv
      let a ← read r.1
      let b ← readOpt r.2
      let c ← readOpt c
      return ⟨az.1, az.2, some a.rows, b.map NDA.rows, c.map NDA.rows⟩
    | _, m =>
      let a ← readOpt m
      let b ← readOpt iv
      let c ← readOpt c
      return ⟨az.1, az.2, a.map NDA.rows, b.map NDA.rows, c.map NDA.rows⟩

/-- A call of a method.  Arrays are views; `g` is the response dictionary at the time of the call. -/
inductive Call (α : Type) where
  | fit (z m iv : Option View) (mc : Nat) (noise : Nat → Nat → Nat → α)
  | asinh (z : View) (mag err : View) (ext : Option View) (noise : Nat → Nat → Nat → α)
  | reconstruct (z c : Option View) (bs : α)
  | reconstructOut (z c : Option View) (bs : α)
  | kcorrect (z c : Option View) (bs : α)
  | absmag (m iv z c : Option View) (bs : α) (d : Option View) (reconstruct limit kcorrect : Bool)
  | absmagMc (mm : Nat) (iv z : Option View) (cm : Nat) (bs : α) (d : Option View) (reconstruct kcorrect : Bool)
  | derived (g : Reg α) (z c : Option View) (bs : α) (d : Option View)
  | derivedMc (g : Reg α) (z : Option View) (cm : Nat) (bs : α) (d : Option View)

/-- What a call returns. -/
inductive Res (α : Type) where
  | fit (r : FitOut α)
  | arr (a : NDA α)
  | ret (r : Ret α)
  | derived (d : Derived α)
  | derivedMc (d : Option (Derived α))

/-- kcorrect.py:469–619 `absmag`, on objects. -/
def Kc.absmagH (K : Kc α) (m iv z c : Option View) (bs : α) (d : Option View) (r l k : Bool) : HM α (Ret α) := do
  let i ← processH K.toFitter z m iv c
  let d ← readOpt d
  lift (K.absmagI i bs d r l k)

/-- kcorrect.py:187–323 `derived`, on objects. -/
def Kc.derivedH (K : Kc α) (g : Reg α) (z c : Option View) (bs : α) (d : Option View) : HM α (Derived α) := do
  let i ← processH K.toFitter z none none c
  let d ← readOpt d
  lift (K.derivedI g i bs d)

/-- fitter.py:354–454 `fit_coeffs`, on objects. -/
def Fitter.fitCoeffsH (nnls : Nnls α) (F : Fitter α) (z m iv : Option View) (mc : Nat) (noise : Nat → Nat → Nat → α) : HM α (FitOut α) := do
  if z.isNone then lift (.error .typeError)
  else
    let i ← processH F z m iv none
    lift (Fitter.fitCoeffsI nnls F i mc noise)

/-- kcorrect.py:621–702 `absmag_mc`, on objects: the maggies of a sample are a view of those of the caller. -/
def Kc.absmagMcH (K : Kc α) (mm : Nat) (iv z : Option View) (cm : Nat) (bs : α) (d : Option View) (r kk : Bool) : HM α (Ret α) := do
  let ca ← read ⟨cm, none⟩
  let mc ← lift ca.lastDim
  let ma ← read ⟨mm, none⟩
  match ma with
  | .scalar _ => lift (.error (if mc = 0 then .unmodelled else .indexError))
  | .arr slot ncol _ =>
    let outs ← mapList (fun k => do
      let _ ← read ⟨mm, some k⟩
      let _ ← read ⟨cm, some k⟩
      let out ← K.absmagH (some ⟨mm, some k⟩) iv z (some ⟨cm, some k⟩) bs d r false kk
      lift (out.list.mapM (bcastFlat slot))) (List.range mc)
    let nout := 1 + (if r then 1 else 0) + (if kk then 1 else 0)
    return mkRet ((List.range nout).map (fun t => stackLast slot ncol (outs.map (fun o => o.getD t []))))

/-- kcorrect.py:325–392 `derived_mc`, on objects. -/
def Kc.derivedMcH (K : Kc α) (g : Reg α) (z : Option View) (cm : Nat) (bs : α) (d : Option View) : HM α (Option (Derived α)) := do
  let ca ← read ⟨cm, none⟩
  let mc ← lift ca.lastDim
  let ds ← mapList (fun k => do
    let _ ← read ⟨cm, some k⟩
    K.derivedH g z (some ⟨cm, some k⟩) bs d) (List.range mc)
  if mc = 0 then return none
  return some ⟨stackKey mc (ds.map (·.mremain)), stackKey mc (ds.map (·.intsfh)), stackKey mc (ds.map (·.mtol)),
    stackKey mc (ds.map (·.b50)), stackKey mc (ds.map (·.b300)), stackKey mc (ds.map (·.b1000)), stackKey mc (ds.map (·.metallicity))⟩

/-- A method call on objects.  `reconstruct_out` and `reconstruct` differ in the interpolator (fitter.py:515–543, kcorrect.py:394–416).
`fit_coeffs_asinh` (with magnitude errors) makes new arrays and fits them. -/
def Kc.callH (nnls : Nnls α) (K : Kc α) : Call α → HM α (Res α)
  | .fit z m iv mc noise => do return .fit (← K.toFitter.fitCoeffsH nnls z m iv mc noise)
  | .asinh z mag err ext noise => do
    let a ← read mag
    let e ← read err
    let x ← readOpt ext
    let r ← lift (asinhToMaggies a (some e) x)
    let m ← alloc r.maggies
    match r.ivar with
    | none => lift (.error .unmodelled)
    | some v =>
      let iv ← alloc v
      return .fit (← K.toFitter.fitCoeffsH nnls (some z) (some m) (some iv) 0 noise)
  | .reconstruct z c bs => do
    let i ← processH K.toFitter z none none c
    return .arr (← lift (reconI K.Amatrix i bs))
  | .reconstructOut z c bs => do
    let i ← processH K.toFitter z none none c
    return .arr (← lift (reconI K.AmatrixOut i bs))
  | .kcorrect z c bs => do
    let i ← processH K.toFitter z none none c
    return .arr (← lift (K.kcorrectI i bs))
  | .absmag m iv z c bs d r l k => do return .ret (← K.absmagH m iv z c bs d r l k)
  | .absmagMc mm iv z cm bs d r kk => do return .ret (← K.absmagMcH mm iv z cm bs d r kk)
  | .derived g z c bs d => do return .derived (← K.derivedH g z c bs d)
  | .derivedMc g z cm bs d => do return .derivedMc (← K.derivedMcH g z cm bs d)

/-- A sequence of calls on one or several objects, with their results. -/
def runCalls (nnls : Nnls α) : List (Kc α × Call α) → Heap α → Heap α × List (Py (Res α))
  | [], h => (h, [])
  | (K, c) :: t, h =>
    let r := K.callH nnls c h
    let s := runCalls nnls t r.1
    (s.1, r.2 :: s.2)

end KC
