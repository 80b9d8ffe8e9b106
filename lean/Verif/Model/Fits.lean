import Verif.Model.Registry

/-!
# FITS files and `src/kcorrect/template.py`: `SED.tofits/fromfits`, class `Template`; `Response.tofits/fromfits`

A FITS file is the list of its HDUs (name and contents).  That `astropy.io.fits` gives back the HDUs that were
written, in order and with the stored values, is part of the trusted base; the conversions made by kcorrect before writing
(float32 and int32 columns) and after reading are modelled.
-/

namespace KC
variable {α : Type} [Arith α]

/-- Extension names (case does not matter to astropy). -/
inductive Ext where
  | primary | flux | wave | intsfh | mremain | mets | m300 | m50 | m1000
  | data | redshifts | responses | responsesOut | responsesMap | A | Aout
  | named (n : Name)
  deriving DecidableEq

/-- Contents of an HDU. -/
inductive Hdu (α : Type) where
  /-- no data -/
  | empty
  /-- an image -/
  | image (a : NDA α)
  /-- one-row table with columns `wave` and `flux` (template.py:120–125) -/
  | sedTable (wave : List α) (flux : List (List α))
  /-- one-row table with columns `wave` and `response` (response.py:224–228) -/
  | respTable (wave resp : List α)
  /-- one-row table `nredshift`, `redshift_range`, `abcorrect` (kcorrect.py:731–733) -/
  | settings (nredshift : Nat) (lo hi : α) (abcorrect : Bool)
  /-- table with one column of names (kcorrect.py:743–758) -/
  | names (ns : List Name)
  /-- an HDU whose data was cut off while writing; reading the data raises -/
  | torn

/-- A FITS file. -/
abbrev FitsFile (α : Type) := List (Ext × Hdu α)

/-- `name in hdus` -/
def FitsFile.has (f : FitsFile α) (e : Ext) : Bool := f.any (fun h => h.1 == e)

/-- `hdus[name]`: the first HDU of that name, `KeyError` if there is none. -/
def FitsFile.get (f : FitsFile α) (e : Ext) : Py (Hdu α) :=
  match f.find? (fun h => h.1 == e) with
  | some h => .ok h.2
  | none => .error .keyError

/-- `hdus[name].data` for an image HDU -/
def FitsFile.image (f : FitsFile α) (e : Ext) : Py (NDA α) := do
  match ← f.get e with
  | .image a => return a
  | .torn => throw .osError
  | _ => throw .unmodelled

/-- template.py:120–125 and 209–223 `SED.tofits`.  With `binimage` two images are written (212–217), otherwise a one-row table of
float32 columns (219–223; astropy adds an empty primary HDU).  Line 220: `ValueError` if a row of the flux has a different
length from the wavelengths (a row length of 1, which numpy would broadcast, is also reported so). -/
def Sed.tofits (s : Sed α) (ext : Ext) : Py (FitsFile α) :=
  if s.binimage then
    .ok [(.wave, .image (.vec s.restWave)),
         (.flux, .image (.arr [s.restFlux.length] (s.restFlux.headD []).length s.restFlux))]
  else if ∀ row ∈ s.restFlux, row.length = s.restWave.length then
    .ok [(.primary, .empty), (ext, .sedTable (s.restWave.map f32) (s.restFlux.map (List.map f32)))]
  else .error .valueError

/-- template.py:172–178, rank of the stored flux: `nsed`, and the flat values. -/
def fluxFlat (a : NDA α) : Py (Nat × List α) :=
  match a with
  | .scalar _ => .ok (1, [])
  | .arr [] _ rows => .ok (1, rows.flatten)
  | .arr lead _ rows => .ok (lead.getLastD 1, rows.flatten)

/-- template.py:165–180: from `restframe_wave` and `restframe_flux` as stored.  `np.squeeze` turns a single wavelength into a
0-dimensional array, of which `len` raises `TypeError` (177); the reshape of 178 raises `ValueError` if the sizes do not match. -/
def Sed.ofStored (wave : List α) (flux : NDA α) (interpolate binimage : Bool) : Py (Sed α) := do
  let (nsed, flat) ← fluxFlat flux
  require (wave.length ≠ 1) .typeError
  require (flat.length = nsed * wave.length) .valueError
  Sed.setup wave (.arr [nsed] wave.length (NDA.chunks wave.length nsed flat)) interpolate binimage

/-- template.py:141–181 `SED.fromfits`. -/
def Sed.fromfits (f : FitsFile α) (ext : Ext) (interpolate : Bool) : Py (Sed α) := do
  if f.has .flux && f.has .wave then
    let w ← f.image .wave
    let fl ← f.image .flux
    match w with
    | .arr [] _ [wave] => Sed.ofStored wave fl interpolate true
    | _ => throw .unmodelled
  else
    match ← f.get ext with
    | .sedTable wave rows => Sed.ofStored wave (.arr [1, rows.length] wave.length rows) interpolate false
    | _ => throw .unmodelled

/-- Attributes of a `Template` (template.py:286–330): an SED with, per template, the integrated star formation history,
the remaining mass, the metallicity and the mass formed in the last 300, 1000 and 50 Myr. -/
structure Tmpl (α : Type) extends Sed α where
  intsfh : List α
  mremain : List α
  mets : List α
  m300 : List α
  m1000 : List α
  m50 : List α

/-- a one-dimensional image -/
def FitsFile.vec (f : FitsFile α) (e : Ext) : Py (List α) := do
  match ← f.image e with
  | .arr [] _ [v] => return v
  | _ => throw .unmodelled

/-- template.py:404–431 `Template.tofits`: the file of `SED.tofits` with six images appended. -/
def Tmpl.tofits (t : Tmpl α) : Py (FitsFile α) := do
  let f ← t.toSed.tofits .flux
  return f ++ [(.intsfh, .image (.vec t.intsfh)), (.mremain, .image (.vec t.mremain)), (.mets, .image (.vec t.mets)),
    (.m300, .image (.vec t.m300)), (.m50, .image (.vec t.m50)), (.m1000, .image (.vec t.m1000))]

/-- template.py:386–402 `Template(filename=f, interpolate=interpolate)`.  Lines 397–400: without an `M50` HDU (or if reading
it raises) `m50` is `m300 * 0.`. -/
def Tmpl.fromfits (f : FitsFile α) (interpolate : Bool) : Py (Tmpl α) := do
  let s ← Sed.fromfits f .flux interpolate
  let intsfh ← f.vec .intsfh
  let mremain ← f.vec .mremain
  let mets ← f.vec .mets
  let m300 ← f.vec .m300
  let m1000 ← f.vec .m1000
  let m50 := match f.vec .m50 with
    | .ok v => v
    | .error _ => m300.map (fun m => m * lit 0)
  return { toSed := s, intsfh := intsfh, mremain := mremain, mets := mets, m300 := m300, m1000 := m1000, m50 := m50 }

/-- response.py:224–228 and 293–315 `Response.tofits`: one-row table with the native types of the arrays. -/
def Curve.tofits (c : Curve α) : FitsFile α := [(.primary, .empty), (.named [], .respTable c.wave c.resp)]

/-- response.py:241–260 `Response.fromfits` with `ext=1`: the curve is sorted and set up again. -/
def respFromfits (lib : Lib α) (f : FitsFile α) : Py (Resp α) :=
  match f with
  | [_, (_, .respTable w r)] => mkResponse lib w r
  | _ => .error .unmodelled

end KC
