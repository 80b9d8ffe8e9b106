import Verif.Model.Kcorrect

/-!
# `tofits` of `SED`, `Template` and `Response` on a file system: `clobber`, and the states of the file while it is written
-/

namespace KC
variable {α : Type} [Arith α]

/-- `HDUList.writeto(filename, overwrite=clobber)`: what the file holds afterwards, and the outcome.  `old` is the file that is there before the call;
without `overwrite` astropy raises `OSError` if there is one, before writing. -/
def writeTo (old : Option (FitsFile α)) (clobber : Bool) (f : FitsFile α) : Option (FitsFile α) × Py Unit :=
  match old, clobber with
  | some g, false => (some g, .error .osError)
  | _, _ => (some f, .ok ())

/-- template.py:182–224 `SED.tofits(filename, ext, clobber)`.  The HDUs are made before the file is touched (209–215, 218–222). -/
def Sed.save (s : Sed α) (ext : Ext) (clobber : Bool) (old : Option (FitsFile α)) : Option (FitsFile α) × Py Unit :=
  match s.tofits ext with
  | .error e => (old, .error e)
  | .ok f => writeTo old clobber f

/-- template.py:404–431 `Template.tofits(filename, clobber)`: `SED.tofits` with extension name `FLUX` (417), then the file is opened for update and six
HDUs are appended (418–431). -/
def Tmpl.save (t : Tmpl α) (clobber : Bool) (old : Option (FitsFile α)) : Option (FitsFile α) × Py Unit :=
  match t.toSed.save .flux clobber old with
  | (g, .error e) => (g, .error e)
  | (_, .ok ()) => match t.tofits with
    | .ok f => (some f, .ok ())
    | .error e => (old, .error e)

/-- response.py:293–312 `Response.tofits(filename, ext, clobber)`; `ext` is not used. -/
def Curve.save (c : Curve α) (_ext : Ext) (clobber : Bool) (old : Option (FitsFile α)) : Option (FitsFile α) × Py Unit :=
  writeTo old clobber c.tofits

/-- The states of the file on disk while `SED.tofits` runs. -/
def Sed.saveStates (s : Sed α) (ext : Ext) : Py (List (FitsFile α)) := do
  return writing [] (← s.tofits ext)

/-- The states of the file on disk while `Template.tofits` runs: the SED is written, then the six HDUs are appended. -/
def Tmpl.saveStates (t : Tmpl α) : Py (List (FitsFile α)) := do
  let s ← t.toSed.tofits .flux
  let f ← t.tofits
  return writing [] s ++ writing s (f.drop s.length)

end KC
