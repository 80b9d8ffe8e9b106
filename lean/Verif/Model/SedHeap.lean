import Verif.Model.Fitter

/-!
# `SED` objects and the arrays they share

`SED(wave=w, flux=f)` keeps references to the arrays of the caller (template.py:90–91), the reshape of a one-dimensional flux (110) is a view of it,
and `wave` and `flux` are at first the same arrays as `restframe_wave` and `restframe_flux` (114–115).  `set_redshift` makes new arrays (240–241).
`interp1d` copies its arguments (`copy=True` by default).  In the sessions below the caller makes arrays, builds `SED` objects from them, calls
`set_redshift` and `set_interp`, and writes into any array in place: into those they made, and into `sed.wave`, `sed.flux`, `sed.restframe_wave`,
`sed.restframe_flux`.  Simplified: an assignment in place replaces the whole contents of an array; slices of arrays that overlap are not modelled.
-/

namespace KC
variable {α : Type} [Arith α]

/-- An `SED` object: the addresses of its four arrays, and the other attributes. -/
structure SObj (α : Type) where
  restWave : Nat
  restFlux : Nat
  wave : Nat
  flux : Nat
  redshift : α
  interpolate : Bool
  interp : Option (Interp α)

/-- The array objects by address, and the `SED` objects in the order of their construction. -/
structure SWorld (α : Type) where
  heap : List (NDA α)
  objs : List (SObj α)

/-- contents of the array at an address, by rows -/
def rowsAt (h : List (NDA α)) (a : Nat) : List (List α) := (h.getD a (.scalar (lit 0))).rows

/-- The attributes as a method sees them when it is called. -/
def SObj.view (o : SObj α) (h : List (NDA α)) : Sed α :=
  ⟨(rowsAt h o.restWave).headD [], rowsAt h o.restFlux, (rowsAt h o.wave).headD [], rowsAt h o.flux, o.redshift, o.interpolate, o.interp, false⟩

/-- What happens in a session. -/
inductive SOp (α : Type) where
  /-- the caller makes an array -/
  | array (a : NDA α)
  /-- `SED(wave=w, flux=f, interpolate=interpolate)` with the arrays at these addresses -/
  | sed (w f : Nat) (interpolate : Bool)
  /-- `set_redshift(z)` of object number `i` -/
  | setRedshift (i : Nat) (z : α)
  /-- `set_interp()` of object number `i` -/
  | setInterp (i : Nat)
  /-- `x[...] = a` for the array at this address -/
  | write (addr : Nat) (a : NDA α)

/-- template.py:89–118, the constructor; no object if it raises.  The wavelengths are one-dimensional. -/
def SWorld.mkSed (s : SWorld α) (w f : Nat) (interpolate : Bool) : SWorld α :=
  match s.heap[w]?, s.heap[f]? with
  | some wave, some flux =>
    match Sed.setup (wave.rows.headD []) flux interpolate false with
    | .error _ => s
    | .ok d => { s with objs := s.objs ++ [⟨w, f, w, f, d.redshift, d.interpolate, d.interp⟩] }
  | _, _ => s

/-- template.py:226–245 `set_redshift`: two new arrays, even for the redshift 0. -/
def SWorld.setRedshift (s : SWorld α) (i : Nat) (z : α) : SWorld α :=
  match s.objs[i]? with
  | none => s
  | some o =>
    let d := ((o.view s.heap).setRedshift z).1
    ⟨s.heap ++ [.vec d.wave, .arr [d.flux.length] d.wave.length d.flux],
      s.objs.set i { o with wave := s.heap.length, flux := s.heap.length + 1, redshift := d.redshift, interpolate := d.interpolate, interp := d.interp }⟩

/-- template.py:127–139 `set_interp` -/
def SWorld.setInterp (s : SWorld α) (i : Nat) : SWorld α :=
  match s.objs[i]? with
  | none => s
  | some o =>
    let d := ((o.view s.heap).setInterp).1
    { s with objs := s.objs.set i { o with interpolate := d.interpolate, interp := d.interp } }

/-- One step of a session. -/
def SWorld.step (s : SWorld α) : SOp α → SWorld α
  | .array a => { s with heap := s.heap ++ [a] }
  | .sed w f b => s.mkSed w f b
  | .setRedshift i z => s.setRedshift i z
  | .setInterp i => s.setInterp i
  | .write x a => { s with heap := s.heap.set x a }

/-- A session. -/
def SWorld.run (s : SWorld α) (l : List (SOp α)) : SWorld α := l.foldl SWorld.step s

end KC
