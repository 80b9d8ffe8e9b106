import Verif.Props.Build
import Verif.Props.Derived
import Verif.Model.Heap

/-!
# C98: results do not depend on where the shared templates were left

A `Kcorrect` object keeps a reference to the template object that it was built with.  Other code may move that object to other redshifts,
switch its interpolation on, or build other fitters from it.
-/

namespace KC
variable {α : Type} [Arith α]

/-- What other code can do with a template object: `set_redshift`, `set_interp`, or building a matrix from it on some grid for some
responses (with the response dictionary and files of that moment). -/
inductive TplOp (α : Type) where
  | setRedshift (z : α)
  | setInterp
  | build (disk : Disk α) (reg : Reg α) (zs : List α) (rs : List Name)

/-- the object afterwards, whether or not the call raised -/
def TplOp.run (lib : Lib α) (s : Sed α) : TplOp α → Sed α
  | .setRedshift z => (s.setRedshift z).1
  | .setInterp => s.setInterp.1
  | .build disk reg zs rs => (calcAmatrix lib disk zs rs ⟨reg, s⟩).1.sed

/-- the same templates with the SED part in another state -/
def Tpl.withSed (t : Tpl α) (s : Sed α) : Tpl α :=
  match t with
  | .sed _ => .sed s
  | .template t => .template { t with toSed := s }

/-- The `Kcorrect` object after a history of operations on its templates. -/
def Kc.afterOps (lib : Lib α) (K : Kc α) (l : List (TplOp α)) : Kc α :=
  { K with toFitter := { K.toFitter with templates := K.templates.withSed (l.foldl (TplOp.run lib) K.templates.toSed) } }

/-- the attributes that operations keep -/
structure RestKept (s t : Sed α) : Prop where
  wave : t.restWave = s.restWave
  flux : t.restFlux = s.restFlux
  bi : t.binimage = s.binimage

theorem tplOp_rest (lib : Lib α) (s : Sed α) (o : TplOp α) : RestKept s (o.run lib s) := by
  cases o with
  | setRedshift z => have h := sameRest_setRedshift s z; exact ⟨h.wave, h.flux, h.bi⟩
  | setInterp =>
    simp only [TplOp.run, Sed.setInterp]
    cases mkInterp s.wave s.flux <;> exact ⟨rfl, rfl, rfl⟩
  | build disk reg zs rs => have h := calcAmatrix_rest lib disk zs rs ⟨reg, s⟩; exact ⟨h.wave, h.flux, h.bi⟩

theorem tplOps_rest (lib : Lib α) (l : List (TplOp α)) : ∀ s : Sed α, RestKept s (l.foldl (TplOp.run lib) s) := by
  induction l with
  | nil => intro s; exact ⟨rfl, rfl, rfl⟩
  | cons o t ih =>
    intro s
    have h1 := tplOp_rest lib s o
    have h2 := ih (o.run lib s)
    exact ⟨h2.wave.trans h1.wave, h2.flux.trans h1.flux, h2.bi.trans h1.bi⟩

section moved
variable (K : Kc α) (s : Sed α) (hs : RestKept K.templates.toSed s)

/-- the object with the SED part of its templates replaced -/
def Kc.moved (K : Kc α) (s : Sed α) : Kc α :=
  { K with toFitter := { K.toFitter with templates := K.templates.withSed s } }

include hs

theorem moved_nsed : (K.templates.withSed s).nsed = K.templates.nsed := by
  have h := hs.flux
  revert h
  cases K.templates <;> intro h <;> simp only [Tpl.withSed, Tpl.nsed, Tpl.toSed, Sed.nsed] at * <;> rw [h]

theorem moved_process (redshift maggies ivar coeffs : Option (NDA α)) :
    processInputs (K.moved s).toFitter redshift maggies ivar coeffs = processInputs K.toFitter redshift maggies ivar coeffs := by
  unfold processInputs
  simp only [Kc.moved, moved_nsed K s hs]

theorem moved_recon (Am : Option (AMat α)) (redshift coeffs : Option (NDA α)) (bs : α) :
    reconstructWith (K.moved s).toFitter Am redshift coeffs bs = reconstructWith K.toFitter Am redshift coeffs bs := by
  unfold reconstructWith
  rw [moved_process K s hs]

theorem moved_fit1 (nnls : Nnls α) (z : α) (m : Option (List α)) (iv : List α) (zd : Bool) (mc : Nat) (noise : Nat → Nat → α) :
    fit1 nnls (K.moved s).toFitter z m iv zd mc noise = fit1 nnls K.toFitter z m iv zd mc noise := by
  unfold fit1
  simp only [Kc.moved, moved_nsed K s hs]

theorem moved_fit (nnls : Nnls α) (i : Inp α) (mc : Nat) (noise : Nat → Nat → Nat → α) :
    Fitter.fitCoeffsI nnls (K.moved s).toFitter i mc noise = Fitter.fitCoeffsI nnls K.toFitter i mc noise := by
  have h0 : (K.moved s).toFitter.templates.nsed = K.templates.nsed := moved_nsed K s hs
  have h1 : fitOne nnls (K.moved s).toFitter i mc (noise 0) = fitOne nnls K.toFitter i mc (noise 0) := by
    unfold fitOne
    simp only [moved_fit1 K s hs, h0]
    rfl
  have h2 : fitPass nnls (K.moved s).toFitter i mc noise = fitPass nnls K.toFitter i mc noise := by
    funext k
    unfold fitPass
    simp only [moved_fit1 K s hs, h0]
  unfold Fitter.fitCoeffsI
  rw [h1, h2]
  simp only [h0]
  rfl

theorem moved_kcorrectI (i : Inp α) (bs : α) : (K.moved s).kcorrectI i bs = K.kcorrectI i bs := by
  have h0 : (K.moved s).templates.nsed = K.templates.nsed := moved_nsed K s hs
  unfold Kc.kcorrectI Fitter.reconstruct Kc.reconstructOut
  simp only [moved_recon K s hs, h0]
  rfl

theorem moved_kcorrect (z c : Option (NDA α)) (bs : α) : (K.moved s).kcorrect z c bs = K.kcorrect z c bs := by
  unfold Kc.kcorrect
  simp only [moved_process K s hs, moved_kcorrectI K s hs]

theorem moved_absmagI (i : Inp α) (bs : α) (d : Option (NDA α)) (r l k : Bool) :
    (K.moved s).absmagI i bs d r l k = K.absmagI i bs d r l k := by
  have h0 : (K.moved s).templates.nsed = K.templates.nsed := moved_nsed K s hs
  have h1 : (K.moved s).dmOf i d = K.dmOf i d := by
    unfold Kc.dmOf
    simp only [moved_process K s hs, h0]
    rfl
  unfold Kc.absmagI Kc.reconstructOut
  simp only [moved_recon K s hs, moved_kcorrect K s hs, h0, h1]
  rfl

theorem moved_absmag (m iv z c : Option (NDA α)) (bs : α) (d : Option (NDA α)) (r l k : Bool) :
    (K.moved s).absmag m iv z c bs d r l k = K.absmag m iv z c bs d r l k := by
  unfold Kc.absmag
  simp only [moved_process K s hs, moved_absmagI K s hs]

theorem moved_absmagMc (m : NDA α) (iv z : Option (NDA α)) (c : NDA α) (bs : α) (d : Option (NDA α)) (r k : Bool) :
    (K.moved s).absmagMc m iv z c bs d r k = K.absmagMc m iv z c bs d r k := by
  unfold Kc.absmagMc
  simp only [moved_absmag K s hs]

theorem moved_derivedI (g : Reg α) (i : Inp α) (bs : α) (d : Option (NDA α)) :
    (K.moved s).derivedI g i bs d = K.derivedI g i bs d := by
  have h0 : (K.moved s).templates.nsed = K.templates.nsed := moved_nsed K s hs
  have hm : (K.moved s).templates.mass = K.templates.mass.map (fun t => { t with toSed := s }) := by
    simp only [Kc.moved]
    cases K.templates <;> rfl
  unfold Kc.derivedI Kc.reconstructOut
  simp only [moved_recon K s hs, moved_process K s hs, h0, hm]
  cases K.templates.mass <;> rfl

theorem moved_derived (g : Reg α) (z c : Option (NDA α)) (bs : α) (d : Option (NDA α)) :
    (K.moved s).derived g z c bs d = K.derived g z c bs d := by
  unfold Kc.derived
  simp only [moved_process K s hs, moved_derivedI K s hs]

theorem moved_derivedMc (g : Reg α) (z : Option (NDA α)) (c : NDA α) (bs : α) (d : Option (NDA α)) :
    (K.moved s).derivedMc g z c bs d = K.derivedMc g z c bs d := by
  unfold Kc.derivedMc
  simp only [moved_derived K s hs]

theorem moved_tofits : (K.moved s).tofits = K.tofits := by
  have h1 : (K.moved s).templates.tofits = K.templates.tofits := by
    obtain ⟨h1, h2, h3⟩ := hs
    revert h1 h2 h3
    simp only [Kc.moved]
    cases K.templates <;> intro h1 h2 h3 <;> simp only [Tpl.toSed] at h1 h2 h3 <;>
      simp only [Tpl.withSed, Tpl.tofits, Tmpl.tofits, Sed.tofits, h1, h2, h3]
  unfold Kc.tofits
  rw [h1]
  rfl

theorem moved_processH (z m iv c : Option View) : processH (K.moved s).toFitter z m iv c = processH K.toFitter z m iv c := by
  unfold processH
  simp only [Kc.moved, moved_nsed K s hs]

theorem moved_callH (nnls : Nnls α) (c : Call α) : (K.moved s).callH nnls c = K.callH nnls c := by
  cases c <;> simp only [Kc.callH, Kc.absmagMcH, Kc.derivedMcH, Kc.absmagH, Kc.derivedH, Fitter.fitCoeffsH, moved_processH K s hs,
    moved_fit K s hs, moved_kcorrectI K s hs, moved_absmagI K s hs, moved_derivedI K s hs] <;> rfl

end moved

/-- C98, any arithmetic: whatever has been done to the templates since the object was built (including calls that raised), every method
returns what it returned before, or raises the same exception. -/
theorem C98_templates_moved (lib : Lib α) (K : Kc α) (l : List (TplOp α)) :
    (∀ nnls z m iv mc noise, (K.afterOps lib l).fitCoeffs nnls z m iv mc noise = K.fitCoeffs nnls z m iv mc noise) ∧
    (∀ nnls z mag err ext noise, (K.afterOps lib l).fitCoeffsAsinh nnls z mag err ext noise = K.fitCoeffsAsinh nnls z mag err ext noise) ∧
    (∀ z c bs, (K.afterOps lib l).reconstruct z c bs = K.reconstruct z c bs) ∧
    (∀ z c bs, (K.afterOps lib l).reconstructOut z c bs = K.reconstructOut z c bs) ∧
    (∀ z c bs, (K.afterOps lib l).kcorrect z c bs = K.kcorrect z c bs) ∧
    (∀ m iv z c bs d r li k, (K.afterOps lib l).absmag m iv z c bs d r li k = K.absmag m iv z c bs d r li k) ∧
    (∀ m iv z c bs d r k, (K.afterOps lib l).absmagMc m iv z c bs d r k = K.absmagMc m iv z c bs d r k) ∧
    (∀ g z c bs d, (K.afterOps lib l).derived g z c bs d = K.derived g z c bs d) ∧
    (∀ g z c bs d, (K.afterOps lib l).derivedMc g z c bs d = K.derivedMc g z c bs d) ∧
    (K.afterOps lib l).tofits = K.tofits := by
  have hs := tplOps_rest lib l K.templates.toSed
  have hf : ∀ nnls z m iv mc noise, (K.afterOps lib l).fitCoeffs nnls z m iv mc noise = K.fitCoeffs nnls z m iv mc noise := by
    intro nnls z m iv mc noise
    show (K.moved _).fitCoeffs nnls z m iv mc noise = _
    unfold Fitter.fitCoeffs
    simp only [moved_process K _ hs, moved_fit K _ hs]
  refine ⟨hf, ?_, ?_, ?_, ?_, ?_, ?_, ?_, ?_, ?_⟩
  · intro nnls z mag err ext noise
    unfold Kc.fitCoeffsAsinh
    simp only [hf]
  · exact fun z c bs => moved_recon K _ hs _ z c bs
  · exact fun z c bs => moved_recon K _ hs _ z c bs
  · exact moved_kcorrect K _ hs
  · exact moved_absmag K _ hs
  · exact moved_absmagMc K _ hs
  · exact moved_derived K _ hs
  · exact moved_derivedMc K _ hs
  · exact moved_tofits K _ hs

/-- C98 for arrays as objects: the caller's arrays are treated in the same way too. -/
theorem C98_calls_moved (lib : Lib α) (K : Kc α) (l : List (TplOp α)) (nnls : Nnls α) (c : Call α) :
    (K.afterOps lib l).callH nnls c = K.callH nnls c :=
  moved_callH K _ (tplOps_rest lib l K.templates.toSed) nnls c

/-- Not vacuous: an operation that does move the templates. -/
example : ∃ (s : Sed ℝ) (o : TplOp ℝ), (o.run demoLib s).wave ≠ s.wave ∧ (o.run demoLib s).flux ≠ s.flux := by
  refine ⟨⟨[1, 2], [[1, 1]], [1, 2], [[1, 1]], 0, false, none, false⟩, .setRedshift 1, ?_, ?_⟩ <;>
    simp [TplOp.run, Sed.setRedshift]

end KC
