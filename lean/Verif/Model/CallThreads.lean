import Verif.Model.Heap

/-!
# Threads calling methods on shared arrays

`Model/Heap` runs a call from beginning to end.  Here a call is a program whose accesses to arrays are single steps, and several threads
execute lists of calls, with the steps in any order.

Simplifications: one access to an array (reading all of it, copying it, assigning to a slice of it) is one step, as it is for small arrays
under the lock of the interpreter; numpy releases the lock inside operations on large ones.  The values of an array are read once, when the
tables have been checked, while the code reads row after row of it in the loops over the galaxies.  Temporary arrays are kept apart for
every thread: no reference to them leaves the call that makes them.
-/

namespace KC
variable {α : Type} [Arith α]

/-- A program: it has returned or raised, or it makes a step that changes the heap by `f`, and goes on with `k` of the heap before it. -/
inductive Prog (α β : Type) where
  | done (r : Py β)
  | act (f : Heap α → Heap α) (k : Heap α → Prog α β)

namespace Prog

/-- `p`, and then `g` of its value unless it raises -/
def bind {β γ : Type} (p : Prog α β) (g : β → Prog α γ) : Prog α γ :=
  match p with
  | done (.ok b) => g b
  | done (.error e) => done (.error e)
  | act f k => act f (fun h => (k h).bind g)

instance : Monad (Prog α) where
  pure b := done (.ok b)
  bind := bind

/-- from beginning to end, without other threads -/
def run {β : Type} : Prog α β → HM α β
  | done r => fun h => (h, r)
  | act f k => fun h => (k h).run (f h)

/-- steps of `run` -/
def len {β : Type} : Prog α β → Heap α → Nat
  | done _, _ => 0
  | act f k, h => (k h).len (f h) + 1

/-- one step -/
def atomic {β : Type} (x : HM α β) : Prog α β := act (fun h => (x h).1) (fun h => done (x h).2)

/-- no step -/
def lift {β : Type} (x : Py β) : Prog α β := done x

def readOpt : Option View → Prog α (Option (NDA α))
  | none => pure none
  | some v => do return some (← atomic (HM.read v))

def mapList {β γ : Type} (f : β → Prog α γ) : List β → Prog α (List γ)
  | [] => pure []
  | b :: t => do
    let c ← f b
    let cs ← mapList f t
    return c :: cs

end Prog

open Prog

/-- fitter.py:300–343, the tests on one table. -/
def tableP (array : Bool) (n w : Nat) : Option View → Prog α (Option View)
  | none => pure none
  | some v => do
    let v ← atomic (HM.toF32 v)
    let a ← atomic (HM.read v)
    if a.shape = (if array then [n, w] else [w]) then return some v else lift (.error .valueError)

/-- `a[..., 2:7] = s` (kcorrect.py:1148, 1149): the other columns are those that the array has now -/
def putH (v : View) (s : NDA α) : HM α Unit := do
  let a ← HM.read v
  HM.write v (putSlice27 a s)

/-- `to_ab`: fitter.py:115–147, kcorrect.py:911–957, kcorrect.py:1144–1157.  In the last, `maggies[..., 2:7]` and `ivar[..., 2:7]` are read
(1145–1147), then the first is assigned (1148) and then the second (1149). -/
def toAbP (cls : Cls) (m : View) (iv : Option View) : Prog α (View × Option View) :=
  match cls with
  | .base => pure (m, iv)
  | .sdss => do
    let a ← atomic (HM.read m)
    let b ← readOpt iv
    let r ← lift (sdssAbCorrect a b abfixDefault)
    let m ← atomic (HM.alloc r.maggies)
    match r.ivar with
    | none => return (m, none)
    | some v => return (m, some (← atomic (HM.alloc v)))
  | .gst => do
    let a ← atomic (HM.read m)
    let sm ← lift (slice27 a)
    match iv with
    | none => lift (.error .typeError)
    | some iv =>
      let b ← atomic (HM.read iv)
      let siv ← lift (slice27 b)
      let r ← lift (sdssAbCorrect sm (some siv) abfixDefault)
      match r.ivar with
      | none => lift (.error .unmodelled)
      | some riv =>
        atomic (putH m r.maggies)
        atomic (putH iv riv)
        return (m, some iv)

/-- fitter.py:234–352 `_process_inputs`. -/
def processP (F : Fitter α) (redshift maggies ivar coeffs : Option View) : Prog α (Inp α) := do
  match redshift with
  | none => lift (.error .valueError)
  | some zv =>
    let zv ← atomic (HM.toF32 zv)
    let za ← atomic (HM.read zv)
    let az ← lift (redshiftsOf za)
    let m ← tableP az.1 az.2.length F.responses.length maggies
    let iv ← tableP az.1 az.2.length F.responses.length ivar
    let c ← tableP az.1 az.2.length F.templates.nsed coeffs
    match F.abcorrect, m with
    | true, some m =>
      let r ← toAbP F.cls m iv
      let a ← atomic (HM.read r.1)
      let b ← readOpt r.2
      let c ← readOpt c
      return ⟨az.1, az.2, some a.rows, b.map NDA.rows, c.map NDA.rows⟩
    | _, m =>
      let a ← readOpt m
      let b ← readOpt iv
      let c ← readOpt c
      return ⟨az.1, az.2, a.map NDA.rows, b.map NDA.rows, c.map NDA.rows⟩

/-- kcorrect.py:469–619 `absmag`. -/
def Kc.absmagP (K : Kc α) (m iv z c : Option View) (bs : α) (d : Option View) (r l k : Bool) : Prog α (Ret α) := do
  let i ← processP K.toFitter z m iv c
  let d ← readOpt d
  lift (K.absmagI i bs d r l k)

/-- kcorrect.py:187–323 `derived`. -/
def Kc.derivedP (K : Kc α) (g : Reg α) (z c : Option View) (bs : α) (d : Option View) : Prog α (Derived α) := do
  let i ← processP K.toFitter z none none c
  let d ← readOpt d
  lift (K.derivedI g i bs d)

/-- fitter.py:354–454 `fit_coeffs`. -/
def Fitter.fitCoeffsP (nnls : Nnls α) (F : Fitter α) (z m iv : Option View) (mc : Nat) (noise : Nat → Nat → Nat → α) : Prog α (FitOut α) := do
  if z.isNone then lift (.error .typeError)
  else
    let i ← processP F z m iv none
    lift (Fitter.fitCoeffsI nnls F i mc noise)

/-- kcorrect.py:621–702 `absmag_mc`. -/
def Kc.absmagMcP (K : Kc α) (mm : Nat) (iv z : Option View) (cm : Nat) (bs : α) (d : Option View) (r kk : Bool) : Prog α (Ret α) := do
  let ca ← atomic (HM.read ⟨cm, none⟩)
  let mc ← lift ca.lastDim
  let ma ← atomic (HM.read ⟨mm, none⟩)
  match ma with
  | .scalar _ => lift (.error (if mc = 0 then .unmodelled else .indexError))
  | .arr slot ncol _ =>
    let outs ← mapList (fun k => do
      let _ ← atomic (HM.read ⟨mm, some k⟩)
      let _ ← atomic (HM.read ⟨cm, some k⟩)
      let out ← K.absmagP (some ⟨mm, some k⟩) iv z (some ⟨cm, some k⟩) bs d r false kk
      lift (out.list.mapM (bcastFlat slot))) (List.range mc)
    let nout := 1 + (if r then 1 else 0) + (if kk then 1 else 0)
    return mkRet ((List.range nout).map (fun t => stackLast slot ncol (outs.map (fun o => o.getD t []))))

/-- kcorrect.py:325–392 `derived_mc`. -/
def Kc.derivedMcP (K : Kc α) (g : Reg α) (z : Option View) (cm : Nat) (bs : α) (d : Option View) : Prog α (Option (Derived α)) := do
  let ca ← atomic (HM.read ⟨cm, none⟩)
  let mc ← lift ca.lastDim
  let ds ← mapList (fun k => do
    let _ ← atomic (HM.read ⟨cm, some k⟩)
    K.derivedP g z (some ⟨cm, some k⟩) bs d) (List.range mc)
  if mc = 0 then return none
  return some ⟨stackKey mc (ds.map (·.mremain)), stackKey mc (ds.map (·.intsfh)), stackKey mc (ds.map (·.mtol)),
    stackKey mc (ds.map (·.b50)), stackKey mc (ds.map (·.b300)), stackKey mc (ds.map (·.b1000)), stackKey mc (ds.map (·.metallicity))⟩

/-- A method call, step by step (`Kc.callH` is the same call in one piece; `run_call`). -/
def Kc.callP (nnls : Nnls α) (K : Kc α) : Call α → Prog α (Res α)
  | .fit z m iv mc noise => do return .fit (← K.toFitter.fitCoeffsP nnls z m iv mc noise)
  | .asinh z mag err ext noise => do
    let a ← atomic (HM.read mag)
    let e ← atomic (HM.read err)
    let x ← readOpt ext
    let r ← lift (asinhToMaggies a (some e) x)
    let m ← atomic (HM.alloc r.maggies)
    match r.ivar with
    | none => lift (.error .unmodelled)
    | some v =>
      let iv ← atomic (HM.alloc v)
      return .fit (← K.toFitter.fitCoeffsP nnls (some z) (some m) (some iv) 0 noise)
  | .reconstruct z c bs => do
    let i ← processP K.toFitter z none none c
    return .arr (← lift (reconI K.Amatrix i bs))
  | .reconstructOut z c bs => do
    let i ← processP K.toFitter z none none c
    return .arr (← lift (reconI K.AmatrixOut i bs))
  | .kcorrect z c bs => do
    let i ← processP K.toFitter z none none c
    return .arr (← lift (K.kcorrectI i bs))
  | .absmag m iv z c bs d r l k => do return .ret (← K.absmagP m iv z c bs d r l k)
  | .absmagMc mm iv z cm bs d r kk => do return .ret (← K.absmagMcP mm iv z cm bs d r kk)
  | .derived g z c bs d => do return .derived (← K.derivedP g z c bs d)
  | .derivedMc g z cm bs d => do return .derivedMc (← K.derivedMcP g z cm bs d)

/-- A thread: the calls to come, the one in progress, the temporary arrays, the results so far. -/
structure ShThread (α : Type) where
  todo : List (Kc α × Call α)
  cur : Option (Prog α (Res α))
  loc : Heap α
  out : List (Py (Res α))

/-- The caller's arrays and the threads. -/
structure ShWorld (α : Type) where
  base : Heap α
  th : Nat → ShThread α

/-- A step of a thread when the caller's arrays are `B`: it starts a call, makes a step of it, or takes note of its result.  A call that
raises does not end the thread. -/
def ShThread.step (nnls : Nnls α) (B : Heap α) (s : ShThread α) : Heap α × ShThread α :=
  match s.cur, s.todo with
  | none, [] => (B, s)
  | none, (K, c) :: t => (B, { s with todo := t, cur := some (K.callP nnls c) })
  | some (.done r), _ => (B, { s with cur := none, out := s.out ++ [r] })
  | some (.act f k), _ => ((f (B ++ s.loc)).take B.length, { s with cur := some (k (B ++ s.loc)), loc := (f (B ++ s.loc)).drop B.length })

/-- A step of thread `t`. -/
def ShWorld.step (nnls : Nnls α) (t : Nat) (w : ShWorld α) : ShWorld α :=
  let r := (w.th t).step nnls w.base
  ⟨r.1, fun u => if u = t then r.2 else w.th u⟩

/-- Run a schedule. -/
def ShWorld.run (nnls : Nnls α) (sched : List Nat) (w : ShWorld α) : ShWorld α := sched.foldl (fun w t => w.step nnls t) w

/-- All threads before their first call. -/
def ShWorld.start (h : Heap α) (calls : Nat → List (Kc α × Call α)) : ShWorld α := ⟨h, fun t => ⟨calls t, none, [], []⟩⟩

end KC
