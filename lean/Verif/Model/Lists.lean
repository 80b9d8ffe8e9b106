import Verif.Model.Kcorrect

/-!
# Lists of band names as Python objects

`Fitter.__init__` and `Kcorrect.__init__` keep references to the lists they are given (fitter.py:66, kcorrect.py:152–162), and the defaults of
`KcorrectSDSS` and `KcorrectGST` (kcorrect.py:896–897, 1089–1091) are list objects made once, when the module is imported.  No method of the package
changes a list; the caller can change every list they have passed, and every list that is an attribute of an object.
-/

namespace KC
variable {α : Type} [Arith α]

/-- kcorrect.py:896–897 -/
def sdssBands : List Name :=
  ["sdss_u0".toList, "sdss_g0".toList, "sdss_r0".toList, "sdss_i0".toList, "sdss_z0".toList]

/-- kcorrect.py:1089–1091 -/
def gstBands : List Name :=
  ["galex_FUV".toList, "galex_NUV".toList] ++ sdssBands ++ ["twomass_J".toList, "twomass_H".toList, "twomass_Ks".toList]

/-- A `Kcorrect` object: its attributes, with the addresses of the three lists. -/
structure KObj (α : Type) where
  K : Kc α
  resp : Nat
  out : Nat
  map : Nat

/-- List objects by address, the next free address, and the `Kcorrect` objects made so far (the last one first). -/
structure LWorld (α : Type) where
  lists : Nat → List Name
  next : Nat
  objs : List (KObj α)

/-- After the import: address 0 is the default of `KcorrectSDSS`, address 1 that of `KcorrectGST`. -/
def LWorld.init : LWorld α := ⟨fun a => if a = 0 then sdssBands else if a = 1 then gstBands else [], 2, []⟩

/-- The attributes as a method sees them when it is called. -/
def KObj.view (o : KObj α) (lists : Nat → List Name) : Kc α :=
  { o.K with responses := lists o.resp, responsesOut := lists o.out, responsesMap := lists o.map }

/-- The arguments of the constructor other than the lists, and the state of the response dictionary, the files and the templates at that moment. -/
structure KArgs (α : Type) where
  lib : Lib α
  disk : Disk α
  templates : Tpl α
  lo : α
  hi : α
  n : Nat
  abcorrect : Bool
  distmod : α → α
  shared : Shared α

/-- the default of `responses`; `Kcorrect` has none -/
def defaultList : Cls → Option Nat
  | .sdss => some 0
  | .gst => some 1
  | .base => none

/-- kcorrect.py:129–185, 896–909 and 1089–1103: the constructor on list objects.  155–158: `responses_out` and `responses_map` default to the list object
`self.responses`.  `responses=None` for `Kcorrect` is a `TypeError` when it is iterated (fitter.py:84). -/
def LWorld.make (w : LWorld α) (cls : Cls) (resp out rmap : Option Nat) (a : KArgs α) : Py (KObj α) :=
  match resp.or (defaultList cls) with
  | none => .error .typeError
  | some r =>
    match (Kc.init a.lib a.disk cls (w.lists r) a.templates (out.map w.lists) (rmap.map w.lists) a.lo a.hi a.n a.abcorrect a.distmod a.shared).2 with
    | .ok K => .ok ⟨K, r, out.getD r, rmap.getD r⟩
    | .error e => .error e

/-- What happens in a session: the caller makes a list, changes the contents of a list object, or constructs an object. -/
inductive LOp (α : Type) where
  | newList (l : List Name)
  | assign (a : Nat) (l : List Name)
  | construct (cls : Cls) (resp out rmap : Option Nat) (a : KArgs α)

/-- one step of a session; a constructor that raises leaves no object -/
def LWorld.step (w : LWorld α) : LOp α → LWorld α
  | .newList l => ⟨fun a => if a = w.next then l else w.lists a, w.next + 1, w.objs⟩
  | .assign a l => { w with lists := fun b => if b = a then l else w.lists b }
  | .construct cls r o m a =>
    match w.make cls r o m a with
    | .ok k => { w with objs := k :: w.objs }
    | .error _ => w

/-- a session -/
def LWorld.run (w : LWorld α) (l : List (LOp α)) : LWorld α := l.foldl LWorld.step w

end KC
