import Verif.Model.RespExt

/-!
# `fromfits` and `fromdat` called on an object that already has contents

Each method is a sequence of assignments to attributes.  When a statement raises, what was assigned before it stays assigned.
-/

namespace KC
variable {α : Type} [Arith α]

/-! ### `Response` -/

/-- response.py:241–260 `r.fromfits(filename, ext)` on the object `o`: the object afterwards and whether it raised.  Lines 256–258: `wave` is assigned before the
column `response` is looked up and ordered.  The other cases are those of `respFromfitsExt`. -/
def RespObj.fromfits (lib : Lib α) (f : FitsFile α) (ext : ExtSel) (o : RespObj α) : RespObj α × Py Unit :=
  match f.select ext with
  | .error e => (o, .error e)
  | .ok (.respTable w r) =>
    match sortCurve w r with
    | .error e => ({ o with wave := some (gather w (argsort w)) }, .error e)
    | .ok (w', r') => runSetup lib w' r' (List.range nSetup) o
  | .ok .empty => (o, .error .typeError)
  | .ok (.sedTable w _) => ({ o with wave := some (gather w (argsort w)) }, .error .keyError)
  | .ok .torn => (o, .error .osError)
  | .ok _ => (o, .error .unmodelled)

/-! ### `SED` -/

/-- Attributes of an `SED` object as arrays of any shape, for the states in the middle of `fromfits`. -/
structure SedAttr (α : Type) where
  restWave : NDA α
  restFlux : NDA α
  wave : NDA α
  flux : NDA α
  redshift : α
  interpolate : Bool
  interp : Option (Interp α)
  binimage : Bool

/-- The attributes of a completely set up object (`nwave` samples in every spectrum). -/
def SedAttr.of (s : Sed α) : SedAttr α :=
  ⟨.vec s.restWave, .arr [s.restFlux.length] s.restWave.length s.restFlux, .vec s.wave, .arr [s.flux.length] s.wave.length s.flux, s.redshift,
    s.interpolate, s.interp, s.binimage⟩

/-- template.py:132–135, `interp1d` on arrays of any shape: `ValueError` unless the wavelengths are a vector and the flux has at least one axis.  A flux of
rank 3 or more is not modelled. -/
def mkInterpArr (wave flux : NDA α) : Py (Interp α) :=
  match wave, flux with
  | .arr [] _ [w], .arr [] _ rows => mkInterp w rows
  | .arr [] _ [w], .arr [_] _ rows => mkInterp w rows
  | .arr [] _ [_], .arr _ _ _ => .error .unmodelled
  | _, _ => .error .valueError

/-- template.py:127–139 `set_interp` -/
def SedAttr.setInterp (a : SedAttr α) : SedAttr α × Py Unit :=
  match mkInterpArr a.wave a.flux with
  | .ok i => ({ a with interp := some i, interpolate := true }, .ok ())
  | .error e => (a, .error e)

/-- template.py:226–245 `set_redshift` -/
def SedAttr.setRedshift (a : SedAttr α) (z : α) : SedAttr α × Py Unit :=
  let b : SedAttr α := { a with wave := a.restWave.map (fun w => w * (lit 1 + z)), flux := a.restFlux.map (fun f => f / (lit 1 + z)), redshift := z }
  if b.interpolate then b.setInterp else (b, .ok ())

/-- template.py:165–180 and 103–118 after the arrays were assigned as they are stored, the wavelengths being the numbers `wave`.  Line 176: `np.squeeze` (a single
wavelength becomes 0-dimensional, `TypeError` in 177); 178: the reshape raises `ValueError` if the sizes do not match; 180: `_setup`. -/
def SedAttr.stored (a : SedAttr α) (wave : List α) (flux : NDA α) : SedAttr α × Py Unit :=
  match wave with
  | [w] => ({ a with restWave := .scalar w, restFlux := flux }, .error .typeError)
  | _ =>
    match fluxFlat flux with
    | .error e => ({ a with restWave := .vec wave, restFlux := flux }, .error e)
    | .ok (nsed, flat) =>
      if flat.length = nsed * wave.length then
        let rows : NDA α := .arr [nsed] wave.length (NDA.chunks wave.length nsed flat)
        let b : SedAttr α := { a with restWave := .vec wave, restFlux := rows, wave := .vec wave, flux := rows, redshift := lit 0 }
        if b.interpolate then b.setInterp else (b, .ok ())
      else ({ a with restWave := .vec wave, restFlux := flux }, .error .valueError)

/-- template.py:141–181 `sed.fromfits(filename, ext)` on an object.  Line 163 assigns `binimage` first; 164–165: `restframe_wave` is assigned before the flux is
read. -/
def SedAttr.fromfits (a : SedAttr α) (f : FitsFile α) (ext : Ext) : SedAttr α × Py Unit :=
  let a : SedAttr α := { a with binimage := f.has .flux && f.has .wave }
  if f.has .flux && f.has .wave then
    match f.image .wave with
    | .error e => (a, .error e)
    | .ok w =>
      match f.image .flux with
      | .error e => ({ a with restWave := w }, .error e)
      | .ok fl =>
        match w with
        | .arr [] _ [wave] => a.stored wave fl
        | _ => ({ a with restWave := w, restFlux := fl }, .error .unmodelled)
  else
    match f.get ext with
    | .error e => (a, .error e)
    | .ok (.sedTable wave rows) => a.stored wave (.arr [1, rows.length] wave.length rows)
    | .ok _ => (a, .error .unmodelled)

/-- What can be done with an `SED` object. -/
inductive SedOp (α : Type) where
  | fromfits (f : FitsFile α) (ext : Ext)
  | setRedshift (z : α)
  | setInterp

/-- one method call -/
def SedAttr.step (a : SedAttr α) : SedOp α → SedAttr α × Py Unit
  | .fromfits f ext => a.fromfits f ext
  | .setRedshift z => a.setRedshift z
  | .setInterp => a.setInterp

/-- method calls one after the other, exceptions being caught by the caller -/
def SedAttr.run (a : SedAttr α) (l : List (SedOp α)) : SedAttr α := l.foldl (fun a op => (a.step op).1) a

/-! ### `Template` -/

/-- Attributes of a `Template`. -/
structure TmplAttr (α : Type) extends SedAttr α where
  intsfh : List α
  mremain : List α
  mets : List α
  m300 : List α
  m1000 : List α
  m50 : List α

/-- the attributes of a template as it comes out of the constructor -/
def TmplAttr.of (t : Tmpl α) : TmplAttr α :=
  { toSedAttr := SedAttr.of t.toSed, intsfh := t.intsfh, mremain := t.mremain, mets := t.mets, m300 := t.m300, m1000 := t.m1000, m50 := t.m50 }

/-- `template.fromfits(filename, ext)`: the method is inherited from `SED` (template.py:141–181; class `Template`, 276–431, defines no `fromfits`). -/
def TmplAttr.fromfits (t : TmplAttr α) (f : FitsFile α) (ext : Ext) : TmplAttr α × Py Unit :=
  let r := t.toSedAttr.fromfits f ext
  ({ t with toSedAttr := r.1 }, r.2)

/-! ### `Kcorrect` -/

/-- the table `DATA` (kcorrect.py:790–793) -/
def FitsFile.settings (f : FitsFile α) : Py (Nat × α × α × Bool) := do
  match ← f.get .data with
  | .settings n lo hi ab => .ok (n, lo, hi, ab)
  | .torn => .error .osError
  | _ => .error .unmodelled

/-- kcorrect.py:772–811 `kc.fromfits(filename)` on the object `K` of any class, with the response dictionary `g`: the object and the dictionary afterwards, and
whether it raised.  The attributes `imap` and `cosmo` are assigned by the constructor only (172–183). -/
def Kc.readFits (lib : Lib α) (disk : Disk α) (f : FitsFile α) (K : Kc α) (g : Reg α) : (Kc α × Reg α) × Py Unit :=
  match Tmpl.fromfits f false with
  | .error e => ((K, g), .error e)
  | .ok t =>
    let K1 : Kc α := { K with templates := .template t }
    match f.settings with
    | .error e => ((K1, g), .error e)
    | .ok (n, lo, hi, ab) =>
      let K2 : Kc α := { K1 with nredshift := n, range := (lo, hi), abcorrect := ab }
      match f.vec .redshifts with
      | .error e => ((K2, g), .error e)
      | .ok z =>
        let K3 : Kc α := { K2 with redshifts := z }
        match f.names .responses with
        | .error e => ((K3, g), .error e)
        | .ok r =>
          let K4 : Kc α := { K3 with responses := r }
          match f.names .responsesMap with
          | .error e => ((K4, g), .error e)
          | .ok m =>
            let K5 : Kc α := { K4 with responsesMap := m }
            match f.names .responsesOut with
            | .error e => ((K5, g), .error e)
            | .ok o =>
              let K6 : Kc α := { K5 with responsesOut := o }
              match loadMissing lib disk r g with
              | (g', .error e) => ((K6, g'), .error e)
              | (g', .ok _) =>
                match f.cube .A with
                | .error e => ((K6, g'), .error e)
                | .ok (a, an, aw) =>
                  match f.cube .Aout with
                  | .error e => ((K6, g'), .error e)
                  | .ok (b, bn, bw) =>
                    match mkAMat z a an aw with
                    | .error e => ((K6, g'), .error e)
                    | .ok A =>
                      let K7 : Kc α := { K6 with Amatrix := some A }
                      match mkAMat z b bn bw with
                      | .error e => ((K7, g'), .error e)
                      | .ok Ao => (({ K7 with AmatrixOut := some Ao }, g'), .ok ())

end KC
