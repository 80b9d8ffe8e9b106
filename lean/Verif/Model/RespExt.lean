import Verif.Model.Saving

/-!
# `Response.fromfits(filename, ext)` with any extension
-/

namespace KC
variable {α : Type} [Arith α]

/-- How an extension is selected: by number (negative numbers count from the end) or by name. -/
inductive ExtSel where
  | num (n : Int)
  | name (e : Ext)

/-- `hdus[ext]`: `IndexError` for a number and `KeyError` for a name that is not there. -/
def FitsFile.select (f : FitsFile α) : ExtSel → Py (Hdu α)
  | .name e => f.get e
  | .num n =>
    let k := if n < 0 then n + f.length else n
    if k < 0 then .error .indexError
    else match f[k.toNat]? with
      | some h => .ok h.2
      | none => .error .indexError

/-- response.py:241–260 `Response.fromfits(filename, ext)`.  Line 254: without data (`None[0]`) `TypeError`.  Line 258: a table of a spectrum has no column
`response`, `KeyError`.  Other contents are not modelled. -/
def respFromfitsExt (lib : Lib α) (f : FitsFile α) (ext : ExtSel) : Py (Resp α) := do
  match ← f.select ext with
  | .respTable w r => mkResponse lib w r
  | .empty => throw .typeError
  | .sedTable _ _ => throw .keyError
  | .torn => throw .osError
  | _ => throw .unmodelled

end KC
