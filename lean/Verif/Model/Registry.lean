import Verif.Model.Response
import Verif.Model.Utils

/-!
# `src/kcorrect/response.py`: `ResponseDict`, `Response.fromdat`, `all_responses`

Names of responses and files are lists of characters.  The contents of the data directory is a parameter
(`Disk`), different at different calls if files change.
-/

namespace KC
variable {α : Type} [Arith α]

/-- Names of responses and of files. -/
abbrev Name := List Char

/-- What reading the file with a given name in `data/responses` gives (response.py:277–289): the columns `lambda` and
`pass`, or the exception raised (`ValueError` when the file does not exist, 283–284; the exception of
`astropy.io.ascii.read` or the lookup of a missing column otherwise).  A name that is an absolute path (277) is just
another key. -/
abbrev Disk (α : Type) := Name → Py (List α × List α)

/-- response.py:112 `'{n}.dat'` -/
def datName (n : Name) : Name := n ++ ['.', 'd', 'a', 't']

/-- A `Response` object in any stage of construction: `None` (or a missing attribute, for `vega2ab` and the `fwhm`
attributes) is `none`. -/
structure RespObj (α : Type) where
  wave : Option (List α)
  resp : Option (List α)
  itp : Option (Interp α)
  lambdaEff : Option α
  solarMag : Option α
  vega2ab : Option α
  fwhm : Option (α × α × α)

/-- response.py:188–213 `Response()` -/
def RespObj.empty : RespObj α := ⟨none, none, none, none, none, none, none⟩

/-- The object of a completely loaded response. -/
def RespObj.full (R : Resp α) : RespObj α :=
  ⟨some R.wave, some R.resp, some R.itp, some R.lambdaEff, R.solarMag, R.vega2ab, some (R.fwhmLow, R.fwhmHigh, R.fwhm)⟩

/-- The curve of an object; using it without one is an operation on `None`. -/
def RespObj.curve (o : RespObj α) : Py (Curve α) :=
  match o.wave, o.resp, o.itp with
  | some w, some r, some i => .ok ⟨w, r, i⟩
  | _, _, _ => .error .typeError

/-- The wavelength and response arrays of an object. -/
def RespObj.arrays (o : RespObj α) : Py (List α × List α) :=
  match o.wave, o.resp with
  | some w, some r => .ok (w, r)
  | _, _ => .error .typeError

/-- response.py:287–290 and 215–222, 230–239: the attribute assignments of `fromdat` and `_setup`, in order, each as one
step on the object.  `w`, `r` are the sorted columns. -/
def setupStep (lib : Lib α) (w r : List α) : Nat → RespObj α → Py (RespObj α)
  | 0, o => .ok { o with wave := some w }
  | 1, o => .ok { o with resp := some r }
  | 2, o => do let (w, r) ← o.arrays; let i ← mkInterp w [r]; return { o with itp := some i }
  | 3, o => do let (w, r) ← o.arrays; return { o with lambdaEff := some (lambdaEffOf w r) }
  | 4, o => do let c ← o.curve; let m ← solarMagOf lib c; return { o with solarMag := m }
  | 5, o => do let c ← o.curve; let m ← vega2abOf lib c; return { o with vega2ab := m }
  | 6, o => do let c ← o.curve; let (lo, hi) ← fwhmLimits lib c; return { o with fwhm := some (lo, hi, hi - lo) }
  | _, o => .ok o

/-- number of assignments in `setupStep` -/
def nSetup : Nat := 7

/-- Run the assignments `ks` until one raises.  What was assigned before stays assigned. -/
def runSetup (lib : Lib α) (w r : List α) : List Nat → RespObj α → RespObj α × Py Unit
  | [], o => (o, .ok ())
  | k :: ks, o => match setupStep lib w r k o with
    | .ok o' => runSetup lib w r ks o'
    | .error e => (o, .error e)

/-- response.py:262–291 `fromdat` on an object: the object afterwards and whether it raised. -/
def fromdat (lib : Lib α) (disk : Disk α) (file : Name) (o : RespObj α) : RespObj α × Py Unit :=
  match (do let (w, r) ← disk file; sortCurve w r) with
  | .error e => (o, .error e)
  | .ok (w, r) => runSetup lib w r (List.range nSetup) o

/-- The dictionary `ResponseDict` as a map from names to objects. -/
abbrev Reg (α : Type) := Name → Option (RespObj α)

/-- `self[n] = o` -/
def Reg.insert (g : Reg α) (n : Name) (o : RespObj α) : Reg α := fun m => if m = n then some o else g m

/-- response.py:97–113 `load_response`: the dictionary afterwards and whether it raised.  Lines 109–110: already there
and no `reload`; 111: an empty response is entered; 112: it is filled from the file. -/
def loadResponse (lib : Lib α) (disk : Disk α) (n : Name) (reload : Bool) (g : Reg α) : Reg α × Py Unit :=
  if (g n).isSome && !reload then (g, .ok ())
  else
    let res := fromdat lib disk (datName n) RespObj.empty
    (g.insert n res.1, res.2)

/-! ### all_responses -/

/-- response.py:66–68 `re.match('^(.*)\\.dat$', filename)`, group 1.  `.` does not match a newline and `$` matches at the end
or before a final newline.  (Without flags `^` only matches at the start, and the string determines the group.) -/
def datMatch (f : Name) : Option Name :=
  let body := if f.getLast? = some '\n' then f.dropLast else f
  let n := body.take (body.length - 4)
  if 4 ≤ body.length ∧ body.drop (body.length - 4) = ['.', 'd', 'a', 't'] ∧ '\n' ∉ n then some n else none

/-- response.py:61–68: candidates in the listing of `response_dir` (`os.listdir` with the answer of `os.path.isfile`). -/
def datNames (listing : List (Name × Bool)) : List Name :=
  listing.filterMap (fun p => if p.2 then datMatch p.1 else none)

/-- response.py:69–76, one name: with `check_validity` it is kept unless `load_response(name)` raises (the bare `except` of
73 catches everything). -/
def checkStep (lib : Lib α) (disk : Disk α) (check : Bool) (acc : Reg α × List Name) (n : Name) : Reg α × List Name :=
  if check then
    match loadResponse lib disk n false acc.1 with
    | (g', .ok _) => (g', acc.2 ++ [n])
    | (g', .error _) => (g', acc.2)
  else (acc.1, acc.2 ++ [n])

/-- response.py:24–77 `all_responses`.  The dictionary is the shared one (63) and the files are read from the default
directory (`disk`) whatever directory `listing` comes from. -/
def allResponses (lib : Lib α) (disk : Disk α) (check : Bool) (listing : List (Name × Bool)) (g : Reg α) :
    Reg α × List Name :=
  (datNames listing).foldl (checkStep lib disk check) (g, [])

/-! ### The singleton -/

/-- State of the class machinery: the instance in `ResponseDictSingleton._instances` (response.py:82) and the
dictionaries that exist, by identity. -/
structure Store (α : Type) where
  inst : Option Nat
  next : Nat
  dicts : Nat → Reg α

/-- The initial state of a process. -/
def Store.init : Store α := ⟨none, 0, fun _ _ => none⟩

/-- response.py:84–88 `ResponseDict()`: the identity of the object returned. -/
def Store.construct (s : Store α) : Store α × Nat :=
  match s.inst with
  | some i => (s, i)
  | none => ({ inst := some s.next, next := s.next + 1,
               dicts := fun i => if i = s.next then (fun _ => none) else s.dicts i }, s.next)

/-- `h.load_response(n, reload)` through the handle `h`. -/
def Store.load (lib : Lib α) (disk : Disk α) (h : Nat) (n : Name) (reload : Bool) (s : Store α) : Store α :=
  { s with dicts := fun i => if i = h then (loadResponse lib disk n reload (s.dicts h)).1 else s.dicts i }

/-- Program counter of a thread executing `ResponseDict()`: before line 85, before 86, before 88, returned. -/
inductive CPC where
  | check
  | create
  | fetch
  | got (h : Nat)

/-- Threads constructing dictionaries. -/
structure CWorld (α : Type) where
  store : Store α
  pc : Nat → CPC

/-- One step of thread `t` in `ResponseDictSingleton.__call__` (response.py:84–88), the three lines being three atomic
steps. -/
def CWorld.step (t : Nat) (s : CWorld α) : CWorld α :=
  let goto (st : Store α) (p : CPC) : CWorld α := ⟨st, fun u => if u = t then p else s.pc u⟩
  match s.pc t with
  | .check => goto s.store (if s.store.inst.isSome then .fetch else .create)
  | .create => goto { inst := some s.store.next, next := s.store.next + 1,
                      dicts := fun i => if i = s.store.next then (fun _ => none) else s.store.dicts i } .fetch
  | .fetch => goto s.store (match s.store.inst with
    | some i => .got i
    | none => .fetch)
  | .got _ => s

/-! ### Threads -/

/-- Program counter of a thread executing `load_response(n, reload)`. -/
inductive PC (α : Type) where
  /-- before line 109 -/
  | start (n : Name) (reload : Bool)
  /-- before line 111 -/
  | make (n : Name)
  /-- before the lookup `self[response]` of line 112 -/
  | look (n : Name)
  /-- in `fromdat` of object `o`, before reading the file -/
  | read (n : Name) (o : Nat)
  /-- in `fromdat`/`_setup` of object `o`, before assignment `k` -/
  | assign (n : Name) (o : Nat) (w r : List α) (k : Nat)
  /-- returned -/
  | done (n : Name)
  /-- raised -/
  | failed (n : Name) (e : PyErr)

/-- Shared memory and threads: the dictionary maps names to object identities. -/
structure World (α : Type) where
  dict : Name → Option Nat
  heap : Nat → RespObj α
  next : Nat
  pc : Nat → PC α

/-- set the program counter of thread `t` -/
def World.goto (s : World α) (t : Nat) (p : PC α) : World α :=
  { s with pc := fun u => if u = t then p else s.pc u }

/-- One step of thread `t`: response.py:109, 111, the lookup and the reads and assignments of 112.  Each dictionary
operation, the reading of the file, and each attribute assignment (with the computation of its value) is atomic; a finished
thread does not move. -/
def World.step (lib : Lib α) (disk : Disk α) (t : Nat) (s : World α) : World α :=
  match s.pc t with
  | .start n reload => if (s.dict n).isSome && !reload then s.goto t (.done n) else s.goto t (.make n)
  | .make n =>
    World.goto { s with dict := fun m => if m = n then some s.next else s.dict m, next := s.next + 1,
                        heap := fun o => if o = s.next then RespObj.empty else s.heap o } t (.look n)
  | .look n => match s.dict n with
    | some o => s.goto t (.read n o)
    | none => s.goto t (.failed n .keyError)
  | .read n o => match (do let (w, r) ← disk (datName n); sortCurve w r) with
    | .ok (w, r) => s.goto t (.assign n o w r 0)
    | .error e => s.goto t (.failed n e)
  | .assign n o w r k =>
    if k < nSetup then
      match setupStep lib w r k (s.heap o) with
      | .ok v => World.goto { s with heap := fun i => if i = o then v else s.heap i } t (.assign n o w r (k + 1))
      | .error e => s.goto t (.failed n e)
    else s.goto t (.done n)
  | .done _ => s
  | .failed _ _ => s

/-- Run a schedule. -/
def World.run (lib : Lib α) (disk : Disk α) (sched : List Nat) (s : World α) : World α :=
  sched.foldl (fun s t => s.step lib disk t) s

/-! ### maggies2flambda with the registry -/

/-- utils.py:356–359: responses that are not in the dictionary are loaded, in order; stops at the first exception. -/
def loadMissing (lib : Lib α) (disk : Disk α) : List Name → Reg α → Reg α × Py Unit
  | [], g => (g, .ok ())
  | n :: ns, g => match loadResponse lib disk n false g with
    | (g', .ok _) => loadMissing lib disk ns g'
    | (g', .error e) => (g', .error e)

/-- utils.py:361, the entry of `n`: `responses[n].lambda_eff`.  An entry whose loading failed has `None` there, which
`np.array([None], dtype=np.float32)` turns into NaN, written `0 / 0` here (it is NaN in `XR` and in floating point, not over the reals). -/
def lambdaEffIn (g : Reg α) (n : Name) : Py α :=
  match g n with
  | none => .error .keyError
  | some o => match o.lambdaEff with
    | some l => .ok l
    | none => .ok (lit 0 / lit 0)

/-- utils.py:318–379 `maggies2flambda`. -/
def maggies2flambda (lib : Lib α) (disk : Disk α) (maggies : NDA α) (ivar : Option (NDA α)) (responses : List Name)
    (g : Reg α) : Reg α × Py (FlOut α) :=
  match loadMissing lib disk responses g with
  | (g', .error e) => (g', .error e)
  | (g', .ok _) => (g', do
    let ls ← responses.mapM (lambdaEffIn g')
    flambdaOf (ls.map f32) maggies ivar)

end KC
