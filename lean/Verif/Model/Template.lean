import Verif.Model.Interp

/-!
# `src/kcorrect/template.py`: class `SED`
-/

namespace KC
variable {α : Type} [Arith α]

/-- Attributes of an `SED` object (template.py:35–73).  `restFlux` and `flux` are the rows of the
`[nsed, nwave]` arrays. -/
structure Sed (α : Type) where
  restWave : List α
  restFlux : List (List α)
  wave : List α
  flux : List (List α)
  redshift : α
  interpolate : Bool
  interp : Option (Interp α)
  binimage : Bool

/-- template.py:108 -/
def Sed.nwave (s : Sed α) : Nat := s.restWave.length
/-- template.py:113 -/
def Sed.nsed (s : Sed α) : Nat := s.restFlux.length

/-- template.py:127–139 `set_interp`.  On success the interpolator is that of the current `wave` and `flux`
and the flag is set; if scipy raises, the object is left as it was. -/
def Sed.setInterp (s : Sed α) : Sed α × Py Unit :=
  match mkInterp s.wave s.flux with
  | .ok i => ({ s with interp := some i, interpolate := true }, .ok ())
  | .error e => (s, .error e)

/-- template.py:103–118 `_setup` for given arrays.  Lines 109–110: a one-dimensional flux is reshaped to
`(1, nwave)`, `ValueError` if its length differs; a 0-dimensional one is an `IndexError` in 113.  A flux of rank 3 or more is not modelled. -/
def Sed.setup (wave : List α) (flux : NDA α) (interpolate binimage : Bool) : Py (Sed α) := do
  let rows ← match flux with
    | .scalar _ => .error .indexError
    | .arr [] n rows => if n = wave.length then .ok rows else .error .valueError
    | .arr [_] _ rows => .ok rows
    | _ => .error .unmodelled
  let s : Sed α := { restWave := wave, restFlux := rows, wave := wave, flux := rows, redshift := lit 0,
                     interpolate := interpolate, interp := none, binimage := binimage }
  if interpolate then
    match s.setInterp with
    | (s', .ok ()) => .ok s'
    | (_, .error e) => .error e
  else .ok s

/-- template.py:89–101, `SED(wave=wave, flux=flux, interpolate=interpolate)`. -/
def Sed.mk' (wave : List α) (flux : NDA α) (interpolate : Bool) : Py (Sed α) :=
  Sed.setup wave flux interpolate false

/-- template.py:226–245 `set_redshift`.  Lines 240–242 come before the interpolator is rebuilt, so they have taken
effect even when line 244 raises. -/
def Sed.setRedshift (s : Sed α) (z : α) : Sed α × Py Unit :=
  let s1 : Sed α := { s with wave := s.restWave.map (fun w => w * (lit 1 + z)),
                             flux := s.restFlux.map (List.map (fun f => f / (lit 1 + z))),
                             redshift := z }
  if s1.interpolate then s1.setInterp else (s1, .ok ())

end KC
