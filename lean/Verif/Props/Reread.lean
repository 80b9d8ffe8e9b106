import Verif.Model.Reread
import Verif.Props.KFiles
import Verif.Props.RespExt
import Verif.Props.ToAb
import Verif.Props.SolverChoice

/-!
# Files read into objects that already have contents (C194–C197)
-/

namespace KC
open Spec

/-! ### C194: responses and spectra -/

/-- C194: when `fromdat` on any `Response` object (used before or not, complete or left behind by a failure) returns, the object is what `Response()` gives for that
file; and it returns exactly when that does. -/
theorem C194_response_dat [Arith α] (lib : Lib α) (disk : Disk α) (file : Name) (o o' : RespObj α) :
    fromdat lib disk file o = (o', .ok ()) ↔ ∃ w r R, disk file = .ok (w, r) ∧ mkResponse lib w r = .ok R ∧ o' = RespObj.full R :=
  fromdat_ok_iff lib disk file o o'

/-- C194: the same for `fromfits` of a `Response`. -/
theorem C194_response_fits [Arith α] (lib : Lib α) (f : FitsFile α) (ext : ExtSel) (o o' : RespObj α) :
    o.fromfits lib f ext = (o', .ok ()) ↔ ∃ R, respFromfitsExt lib f ext = .ok R ∧ o' = RespObj.full R := by
  unfold RespObj.fromfits respFromfitsExt
  cases f.select ext with
  | error e => simp [error_bind]
  | ok h =>
    simp only [ok_bind]
    cases h with
    | respTable w r =>
      simp only [mkResponse]
      cases sortCurve w r with
      | error e => simp [error_bind]
      | ok p => simpa [ok_bind] using runSetup_ok_iff lib p.1 p.2 o o'
    | _ => simp [throw, throwThe, MonadExceptOf.throw]

/-- an SED without interpolation has no interpolator -/
def SedAttr.Sound (a : SedAttr α) : Prop := a.interpolate = false → a.interp = none

/-- kept -/
theorem SedAttr.Sound.setInterp [Arith α] {a : SedAttr α} (h : a.Sound) : a.setInterp.1.Sound := by
  unfold SedAttr.setInterp
  split
  · intro hh; cases hh
  · exact h

/-- kept -/
theorem SedAttr.Sound.congr [Arith α] {a b : SedAttr α} (h : a.Sound) (h1 : b.interpolate = a.interpolate) (h2 : b.interp = a.interp) : b.Sound := by
  unfold SedAttr.Sound at *
  rw [h1, h2]; exact h

/-- kept -/
theorem SedAttr.Sound.stored [Arith α] {a : SedAttr α} (h : a.Sound) (w : List α) (fl : NDA α) : (a.stored w fl).1.Sound := by
  unfold SedAttr.stored
  split
  · exact h.congr rfl rfl
  · split
    · exact h.congr rfl rfl
    · split
      · dsimp only
        split
        · exact SedAttr.Sound.setInterp (h.congr rfl rfl)
        · exact h.congr rfl rfl
      · exact h.congr rfl rfl

/-- kept -/
theorem SedAttr.Sound.step [Arith α] {a : SedAttr α} (h : a.Sound) (op : SedOp α) : (a.step op).1.Sound := by
  cases op with
  | setInterp => exact h.setInterp
  | setRedshift z =>
    simp only [SedAttr.step, SedAttr.setRedshift]
    split
    · exact SedAttr.Sound.setInterp (h.congr rfl rfl)
    · exact h.congr rfl rfl
  | fromfits f ext =>
    have h' : SedAttr.Sound { a with binimage := f.has .flux && f.has .wave } := h.congr rfl rfl
    simp only [SedAttr.step, SedAttr.fromfits]
    split
    · split
      · exact h'
      · split
        · exact h'.congr rfl rfl
        · split
          · exact h'.stored _ _
          · exact h'.congr rfl rfl
    · split
      · exact h'
      · exact h'.stored _ _
      · exact h'

/-- kept -/
theorem SedAttr.Sound.run [Arith α] (l : List (SedOp α)) : ∀ {a : SedAttr α}, a.Sound → (a.run l).Sound := by
  induction l with
  | nil => intro a h; exact h
  | cons op l ih => intro a h; exact ih (h.step op)

/-- arrays read from a file -/
theorem stored_ok_iff [Arith α] {a : SedAttr α} (h : a.Sound) (w : List α) (fl : NDA α) (b : SedAttr α) :
    a.stored w fl = (b, .ok ()) ↔ ∃ s, Sed.ofStored w fl a.interpolate a.binimage = .ok s ∧ b = SedAttr.of s := by
  unfold SedAttr.stored Sed.ofStored
  cases hf : fluxFlat fl with
  | error e => split <;> simp [error_bind]
  | ok p =>
    obtain ⟨n, flat⟩ := p
    split
    · simp [ok_bind, require, error_bind]
    · next hw =>
      have h1 : w.length ≠ 1 := by
        intro h1
        obtain ⟨x, rfl⟩ := List.length_eq_one_iff.mp h1
        exact hw x rfl
      simp only [ok_bind]
      by_cases hl : flat.length = n * w.length
      · simp only [hl, if_true, require, h1, ne_eq, not_false_eq_true, ok_bind]
        unfold Sed.setup
        simp only [ok_bind]
        cases hi : a.interpolate with
        | false =>
          simp [SedAttr.of, chunks_length, NDA.vec, h hi, eq_comm]
        | true =>
          simp only [if_true, SedAttr.setInterp, Sed.setInterp, NDA.vec, mkInterpArr]
          cases mkInterp w (NDA.chunks w.length n flat) with
          | error e => simp
          | ok i =>
            simp [SedAttr.of, chunks_length, NDA.vec, eq_comm]
      · rw [if_neg hl]
        simp [hl, require, h1, error_bind, ok_bind]

/-- reads of an SED -/
theorem fromfits_ok_iff [Arith α] {a : SedAttr α} (h : a.Sound) (f : FitsFile α) (ext : Ext) (b : SedAttr α) :
    a.fromfits f ext = (b, .ok ()) ↔ ∃ s, Sed.fromfits f ext a.interpolate = .ok s ∧ b = SedAttr.of s := by
  have h' : SedAttr.Sound { a with binimage := f.has .flux && f.has .wave } := h.congr rfl rfl
  unfold SedAttr.fromfits Sed.fromfits
  by_cases hb : (f.has .flux && f.has .wave) = true
  · simp only [hb, if_true] at h' ⊢
    cases f.image .wave with
    | error e => simp [error_bind]
    | ok w =>
      cases f.image .flux with
      | error e => simp [error_bind, ok_bind]
      | ok fl =>
        simp only [ok_bind]
        split
        · exact stored_ok_iff h' _ _ b
        · simp [throw, throwThe, MonadExceptOf.throw]
  · simp only [Bool.not_eq_true] at hb
    simp only [hb] at h' ⊢
    simp only [Bool.false_eq_true, if_false]
    cases f.get ext with
    | error e => simp [error_bind]
    | ok hd =>
      cases hd with
      | sedTable w rows => exact stored_ok_iff h' _ _ b
      | _ => simp [throw, throwThe, MonadExceptOf.throw, ok_bind]

/-- what the constructor leaves -/
theorem setup_sound [Arith α] {w : List α} {fl : NDA α} {ip bi : Bool} {s : Sed α} (h : Sed.setup w fl ip bi = .ok s) : (SedAttr.of s).Sound := by
  obtain ⟨rows, oi, _, rfl, h'⟩ := setup_ok h
  clear h
  intro hi
  rcases h' with ⟨_, h⟩ | ⟨h, _⟩
  · exact h
  · simp only [SedAttr.of] at hi
    rw [h] at hi; cases hi

/-- what is read from a file went through the set-up -/
theorem Sed_fromfits_setup [Arith α] {f : FitsFile α} {ext : Ext} {ip : Bool} {s : Sed α} (h : Sed.fromfits f ext ip = .ok s) :
    ∃ w fl bi, Sed.setup w fl ip bi = .ok s := by
  have key : ∀ w fl bi, Sed.ofStored w fl ip bi = .ok s → ∃ w fl bi, Sed.setup w fl ip bi = .ok s := by
    intro w fl bi h
    unfold Sed.ofStored at h
    obtain ⟨p, _, h⟩ := bind_ok_iff.mp h
    obtain ⟨_, _, h⟩ := bind_ok_iff.mp h
    obtain ⟨_, _, h⟩ := bind_ok_iff.mp h
    exact ⟨_, _, _, h⟩
  unfold Sed.fromfits at h
  split at h
  · obtain ⟨w, _, h⟩ := bind_ok_iff.mp h
    obtain ⟨fl, _, h⟩ := bind_ok_iff.mp h
    split at h
    · exact key _ _ _ h
    · cases h
  · obtain ⟨hd, _, h⟩ := bind_ok_iff.mp h
    split at h
    · exact key _ _ _ h
    · cases h

/-- what the constructor leaves, from a file -/
theorem Sed_fromfits_sound [Arith α] {f : FitsFile α} {ext : Ext} {ip : Bool} {s : Sed α} (h : Sed.fromfits f ext ip = .ok s) : (SedAttr.of s).Sound := by
  obtain ⟨w, fl, bi, h⟩ := Sed_fromfits_setup h
  exact setup_sound h

/-- the setting of what is read -/
theorem Sed_fromfits_interpolate [Arith α] {f : FitsFile α} {ext : Ext} {ip : Bool} {s : Sed α} (h : Sed.fromfits f ext ip = .ok s) : s.interpolate = ip := by
  obtain ⟨w, fl, bi, h⟩ := Sed_fromfits_setup h
  obtain ⟨rows, oi, _, e, _⟩ := setup_ok h
  rw [e]

/-- C194: whatever was done before with an `SED` object (reads that returned or raised, redshifts, interpolators), when `fromfits` returns, the object is what
`SED(filename)` gives, with the setting `interpolate` the object has: in particular the spectra are at redshift 0 and the interpolator is that of the new spectra. -/
theorem C194_sed [Arith α] (s₀ : Sed α) (hs : (∃ wave flux ip, Sed.mk' wave flux ip = .ok s₀) ∨ ∃ f ext ip, Sed.fromfits f ext ip = .ok s₀)
    (history : List (SedOp α)) (f : FitsFile α) (ext : Ext) (b : SedAttr α) :
    ((SedAttr.of s₀).run history).fromfits f ext = (b, .ok ()) ↔
      ∃ s, Sed.fromfits f ext ((SedAttr.of s₀).run history).interpolate = .ok s ∧ b = SedAttr.of s := by
  refine fromfits_ok_iff (SedAttr.Sound.run history ?_) f ext b
  rcases hs with ⟨w, fl, ip, h⟩ | ⟨f, ext, ip, h⟩
  · exact setup_sound h
  · exact Sed_fromfits_sound h

/-! ### C195: templates -/

/-- C195 for the spectra: a `Template` that reads another file has that file's spectra.  Missing (false, `C195_false`): the star-formation histories. -/
theorem C195_spectra_partial [Arith α] (t₀ : Tmpl α) (f₀ : FitsFile α) (ip : Bool) (h₀ : Tmpl.fromfits f₀ ip = .ok t₀) (f : FitsFile α) (b : TmplAttr α) :
    (TmplAttr.of t₀).fromfits f .flux = (b, .ok ()) ↔ ∃ s, Sed.fromfits f .flux t₀.interpolate = .ok s ∧
      b = { TmplAttr.of t₀ with toSedAttr := SedAttr.of s } := by
  have hs : (SedAttr.of t₀.toSed).Sound := by
    unfold Tmpl.fromfits at h₀
    obtain ⟨s, hs, h₀⟩ := bind_ok_iff.mp h₀
    obtain ⟨_, _, h₀⟩ := bind_ok_iff.mp h₀
    obtain ⟨_, _, h₀⟩ := bind_ok_iff.mp h₀
    obtain ⟨_, _, h₀⟩ := bind_ok_iff.mp h₀
    obtain ⟨_, _, h₀⟩ := bind_ok_iff.mp h₀
    obtain ⟨_, _, h₀⟩ := bind_ok_iff.mp h₀
    cases h₀
    exact Sed_fromfits_sound hs
  have key := fromfits_ok_iff hs f .flux
  unfold TmplAttr.fromfits
  simp only [Prod.mk.injEq]
  constructor
  · rintro ⟨h1, h2⟩
    obtain ⟨s, h3, h4⟩ := (key _).mp (Prod.ext rfl h2)
    exact ⟨s, h3, by rw [← h1, ← h4]; rfl⟩
  · rintro ⟨s, h3, rfl⟩
    have := (key (SedAttr.of s)).mpr ⟨s, h3, rfl⟩
    rw [show (TmplAttr.of t₀).toSedAttr = SedAttr.of t₀.toSed from rfl, this]
    exact ⟨rfl, rfl⟩

/-- C195 is false: after `fromfits` the histories (masses formed, remaining, recent, metallicities) are those of the template the object was made from, for all pairs of
files. -/
theorem C195_false [Arith α] (t₀ t₁ : Tmpl α) (f₀ f₁ : FitsFile α) (ip : Bool) (h₀ : Tmpl.fromfits f₀ ip = .ok t₀)
    (h₁ : Tmpl.fromfits f₁ t₀.interpolate = .ok t₁) :
    (TmplAttr.of t₀).fromfits f₁ .flux = (TmplAttr.of { t₀ with toSed := t₁.toSed }, .ok ()) := by
  refine (C195_spectra_partial t₀ f₀ ip h₀ f₁ _).mpr ?_
  unfold Tmpl.fromfits at h₁
  obtain ⟨s, hs, h₁⟩ := bind_ok_iff.mp h₁
  obtain ⟨_, _, h₁⟩ := bind_ok_iff.mp h₁
  obtain ⟨_, _, h₁⟩ := bind_ok_iff.mp h₁
  obtain ⟨_, _, h₁⟩ := bind_ok_iff.mp h₁
  obtain ⟨_, _, h₁⟩ := bind_ok_iff.mp h₁
  obtain ⟨_, _, h₁⟩ := bind_ok_iff.mp h₁
  cases h₁
  exact ⟨s, hs, rfl⟩

/-- C195 is false of masses: an object made with templates that were read over others reports masses with the remaining masses of the first file. -/
theorem C195_false_masses (t₀ t₁ : Tmpl ℝ) (K₁ K : Kc ℝ) (Ao : AMat ℝ) (hg : Ao.Good) (h₁ : MassKc K₁ t₁ Ao)
    (hK : K = { K₁ with templates := .template { t₀ with toSed := t₁.toSed } }) (h₀ : MassOK t₀ t₁.toSed.nsed)
    (g : Reg ℝ) (z bs : ℝ) (c : List ℝ) (hc : c.length = t₁.toSed.nsed) (D₁ : Derived ℝ)
    (hD : K₁.derived g (some (.scalar z)) (some (.vec c)) bs none = .ok D₁) :
    ∃ D, K.derived g (some (.scalar z)) (some (.vec c)) bs none = .ok D ∧
      D₁.mremain = .scalar (total c t₁.mremain * lumFactor (K₁.distmod z)) ∧ D.mremain = .scalar (total c t₀.mremain * lumFactor (K₁.distmod z)) := by
  have e1 : K₁.templates.nsed = t₁.toSed.nsed := by rw [h₁.tpl]; rfl
  have hM : MassKc K { t₀ with toSed := t₁.toSed } Ao := by
    subst hK
    exact ⟨rfl, ⟨h₀.intsfh, h₀.mremain, h₀.mets, h₀.m50, h₀.m300, h₀.m1000⟩, h₁.out⟩
  have hcK : c.length = K.templates.nsed := by subst hK; exact hc
  obtain ⟨hA, ss, hss⟩ := (derived_returns h₁ g z c (hc.trans e1.symm) bs).mp ⟨D₁, hD⟩
  obtain ⟨D, hD'⟩ := (derived_returns hM g z c hcK bs).mpr ⟨hA, ss, by subst hK; exact hss⟩
  obtain ⟨_, _, _, _, v1⟩ := derived_vals h₁ hg g z c (hc.trans e1.symm) bs D₁ hD
  obtain ⟨_, _, _, _, v2⟩ := derived_vals hM hg g z c hcK bs D hD'
  refine ⟨D, hD', v1.mremain, ?_⟩
  have := v2.mremain
  subst hK
  exact this

/-! ### C196: Kcorrect -/

/-- the parts of a file that `Kcorrect(filename=...)` opens -/
theorem fromfits_parts [Arith α] {lib : Lib α} {disk : Disk α} {f : FitsFile α} {dm : α → α} {g g' : Reg α} {L : Kc α}
    (h : Kc.fromfits lib disk f dm g = (g', .ok L)) :
    ∃ t n lo hi ab z r m o a b A Ao im, Tmpl.fromfits f false = .ok t ∧ f.settings = .ok (n, lo, hi, ab) ∧ f.vec .redshifts = .ok z ∧
      f.names .responses = .ok r ∧ f.names .responsesMap = .ok m ∧ f.names .responsesOut = .ok o ∧ loadMissing lib disk r g = (g', .ok ()) ∧
      f.cube .A = .ok a ∧ f.cube .Aout = .ok b ∧ mkAMat z a.1 a.2.1 a.2.2 = .ok A ∧ mkAMat z b.1 b.2.1 b.2.2 = .ok Ao ∧
      L = ⟨⟨.base, ab, r, .template t, n, (lo, hi), z, some A⟩, o, m, some Ao, im, dm⟩ := by
  unfold Kc.fromfits at h
  unfold FitsFile.settings
  dsimp only at h
  cases h1 : Tmpl.fromfits f false with
  | error e => simp [h1, error_bind] at h
  | ok t =>
  simp only [h1, ok_bind] at h
  cases h2 : f.get .data with
  | error e => simp [h2, error_bind] at h
  | ok hd =>
  simp only [h2, ok_bind] at h
  cases hd with
  | settings n lo hi ab =>
    simp only at h
    cases h3 : f.vec .redshifts with
    | error e => simp [h3, error_bind] at h
    | ok z =>
    simp only [h3, ok_bind] at h
    cases h4 : f.names .responses with
    | error e => simp [h4, error_bind] at h
    | ok r =>
    simp only [h4, ok_bind] at h
    cases h5 : f.names .responsesMap with
    | error e => simp [h5, error_bind] at h
    | ok m =>
    simp only [h5, ok_bind] at h
    cases h6 : f.names .responsesOut with
    | error e => simp [h6, error_bind] at h
    | ok o =>
    simp only [h6, ok_bind, pure_py] at h
    cases h7 : loadMissing lib disk r g with
    | mk g1 res =>
    cases res with
    | error e => simp [h7] at h
    | ok u =>
    simp only [h7, Prod.mk.injEq] at h
    obtain ⟨rfl, h⟩ := h
    obtain ⟨⟨a, an, aw⟩, h8, h⟩ := bind_ok_iff.mp h
    obtain ⟨⟨b, bn, bw⟩, h9, h⟩ := bind_ok_iff.mp h
    obtain ⟨A, h10, h⟩ := bind_ok_iff.mp h
    obtain ⟨Ao, h11, h⟩ := bind_ok_iff.mp h
    obtain ⟨im, h12, h⟩ := bind_ok_iff.mp h
    cases h
    exact ⟨t, n, lo, hi, ab, z, r, m, o, _, _, A, Ao, im, rfl, rfl, rfl, rfl, rfl, rfl, h7, h8, h9, h10, h11, rfl⟩
  | _ => simp [error_bind] at h

/-- a file that can be opened can be read into an object -/
theorem readFits_of_fromfits [Arith α] {lib : Lib α} {disk : Disk α} {f : FitsFile α} {dm : α → α} {g g' : Reg α} {K' : Kc α}
    (h : Kc.fromfits lib disk f dm g = (g', .ok K')) (K : Kc α) :
    Kc.readFits lib disk f K g = (({ K' with cls := K.cls, imap := K.imap, distmod := K.distmod }, g'), .ok ()) := by
  obtain ⟨t, n, lo, hi, ab, z, r, m, o, a, b, A, Ao, im, h1, h2, h3, h4, h5, h6, h7, h8, h9, h10, h11, rfl⟩ := fromfits_parts h
  unfold Kc.readFits
  simp only [h1, h2, h3, h4, h5, h6, h7, h8, h9, h10, h11]

/-- the answers of `L` are those of `S` where they do not depend on the mapping nor on the distances -/
theorem read_alike (S L : Kc ℝ) (t t' : Tmpl ℝ) (ht : S.templates = .template t) (e2 : t'.restFlux = t.restFlux) (hm : SameMass t' t)
    (r : ℝ × ℝ) (hL : L = { S with templates := .template t', range := r }) : SameAnswers L S := by
  have hT : (Tpl.template t').nsed = S.templates.nsed := by
    rw [ht]
    simp only [Tpl.nsed, Tpl.toSed, Sed.nsed, e2]
  have al : Alike L S := by
    subst hL
    exact ⟨processInputs_congr S.toFitter (.template t') r hT, hT, rfl, rfl, rfl, rfl, rfl, rfl⟩
  subst hL
  exact ⟨rfl, rfl, rfl, rfl, rfl, rfl, al.fit, al.recon, al.reconOut, al.kcorrect, al.absmag, al.absmagMc,
    al.derived (s := t') (t := t) rfl ht hm, al.derivedMc (s := t') (t := t) rfl ht hm⟩

/-- C196 for an object of the same class with the same mapping and cosmology (AB-correcting classes included): after `fromfits` it gives the answers of the saved object.
Whatever the mapping, it gives them when the mapping and the cosmology are put right by hand.  Missing (false, `C196_false`): another mapping.  Band names of at
most 200 characters (`C83_false_names`). -/
theorem C196_same_partial (S : Kc ℝ) (t : Tmpl ℝ) (A Ao : AMat ℝ) (h : Savable S t A Ao)
    (hn : ∀ n ∈ S.responses ++ S.responsesOut ++ S.responsesMap, FitsOK n) :
    ∃ f, S.tofits = .ok f ∧ ∀ lib disk g g', loadMissing lib disk S.responses g = (g', .ok ()) →
      ∀ K : Kc ℝ, K.cls = S.cls → ∃ K', Kc.readFits lib disk f K g = ((K', g'), .ok ()) ∧ K'.imap = K.imap ∧ K'.distmod = K.distmod ∧ K'.templates.nsed = S.templates.nsed ∧
        SameAnswers { K' with imap := S.imap, distmod := S.distmod } S ∧
        (K.imap = S.imap → K.distmod = S.distmod → SameAnswers K' S) := by
  obtain ⟨f, t', hf, e1, e2, e3, e4, e5, e6, e7, e8, ho⟩ := reopen S t A Ao h hn
  refine ⟨f, hf, ?_⟩
  intro lib disk g g' hl K hc
  refine ⟨_, readFits_of_fromfits (ho lib disk S.distmod g g' hl) K, rfl, rfl, ?_, ?_, ?_⟩
  · rw [h.tpl]
    simp only [Tpl.nsed, Tpl.toSed, Sed.nsed, e2]
  · refine read_alike S _ t t' h.tpl e2 ⟨e3, e4, e5, e8, e6, e7⟩ (Arith.trunc S.range.1, Arith.trunc S.range.2) ?_
    simp only [hc]
  · intro hi hd
    refine read_alike S _ t t' h.tpl e2 ⟨e3, e4, e5, e8, e6, e7⟩ (Arith.trunc S.range.1, Arith.trunc S.range.2) ?_
    simp only [hc, hi, hd]

/-- C196 for objects made by the constructor with the same class, bands and mapping, on any templates, redshift range and AB setting. -/
theorem C196_constructed_partial (lib : Lib ℝ) (disk : Disk ℝ) (cls : Cls) (R : List Name) (out rmap : Option (List Name)) (dm : ℝ → ℝ)
    (t : Tmpl ℝ) (lo hi : ℝ) (n : Nat) (ab : Bool) (g : Reg ℝ) (w : Shared ℝ) (S : Kc ℝ) (hlo : lo < hi) (hn : 2 ≤ n) (hr : Rect t.toSed)
    (h2 : 2 ≤ t.restWave.length) (h : Kc.init lib disk cls R (.template t) out rmap lo hi n ab dm ⟨g, t.toSed⟩ = (w, .ok S))
    (hnm : ∀ n ∈ S.responses ++ S.responsesOut ++ S.responsesMap, FitsOK n)
    (T : Tpl ℝ) (lo' hi' : ℝ) (n' : Nat) (ab' : Bool) (w₀ w₁ : Shared ℝ) (K : Kc ℝ)
    (hK : Kc.init lib disk cls R T out rmap lo' hi' n' ab' dm w₀ = (w₁, .ok K)) :
    ∃ f K' g', S.tofits = .ok f ∧ Kc.readFits lib disk f K g = ((K', g'), .ok ()) ∧ SameAnswers K' S := by
  obtain ⟨A, Ao, hs⟩ := constructed_savable lib disk cls R t out rmap lo hi n ab dm g w S hlo hn hr h2 h
  obtain ⟨x1, A1, hA, hFe, h3, h4, _, h5, h6, _⟩ := init_ok h
  obtain ⟨_, _, _, hFe', _, _, _, h5', h6', _⟩ := init_ok hK
  obtain ⟨f, hf, hre⟩ := C196_same_partial S t A Ao hs hnm
  have hl := (calcAmatrix_ok hA).1
  have e4 : S.responses = R := by rw [hFe]; rfl
  rw [← e4] at hl
  have ec : K.cls = S.cls := by rw [hFe, hFe']; rfl
  obtain ⟨K', hK', _, _, _, _, hsame⟩ := hre lib disk g x1.reg hl K ec
  rw [h5] at h5'
  exact ⟨f, K', _, hf, hK', hsame (Except.ok.inj h5').symm (h6'.trans h6.symm)⟩

/-- C196 is false of an object with another mapping: the K-corrections of the read object in an output band are taken from the input band of the old mapping.  (The old
mapping has as many bands as the new and its indices are in range, otherwise the code raises.) -/
theorem C196_false (S : Kc ℝ) (t : Tmpl ℝ) (A Ao : AMat ℝ) (h : Savable S t A Ao)
    (hn : ∀ n ∈ S.responses ++ S.responsesOut ++ S.responsesMap, FitsOK n) (f : FitsFile ℝ) (hf : S.tofits = .ok f)
    (lib : Lib ℝ) (disk : Disk ℝ) (g g' : Reg ℝ) (hl : loadMissing lib disk S.responses g = (g', .ok ()))
    (K : Kc ℝ) (hcls : K.cls = S.cls) (_hlen : K.imap.length = S.imap.length) (_hrange : ∀ i ∈ K.imap, i < S.responses.length)
    (z bs : ℝ) (c : List ℝ) (hc : c.length = S.templates.nsed) (hpos : 0 < c.sum) (k a b : NDA ℝ)
    (hk : S.kcorrect (some (.scalar z)) (some (.vec c)) bs = .ok k)
    (ha : S.reconstruct (some (.scalar z)) (some (.vec c)) 0 = .ok a)
    (hb : S.reconstructOut (some (.scalar 0)) (some (.vec c)) bs = .ok b)
    (j i₀ i : Nat) (h0 : K.imap[j]? = some i₀) (hi : S.imap[j]? = some i) (fa fa₀ fb : ℝ) (hfa : entry a 0 i = some fa)
    (hfa0 : entry a 0 i₀ = some fa₀) (hfb : entry b 0 j = some fb) (p1 : 0 < fa) (p2 : 0 < fa₀) (p3 : 0 < fb) (hne : fa ≠ fa₀) :
    ∃ K' k', Kc.readFits lib disk f K g = ((K', g'), .ok ()) ∧ K'.responsesMap = S.responsesMap ∧
      K'.kcorrect (some (.scalar z)) (some (.vec c)) bs = .ok k' ∧
      entry k 0 j = some (mag fa - mag fb) ∧ entry k' 0 j = some (mag fa₀ - mag fb) ∧ entry k' 0 j ≠ entry k 0 j := by
  obtain ⟨f', hf', hre⟩ := C196_same_partial S t A Ao h hn
  rw [hf] at hf'
  cases hf'
  obtain ⟨K', hK', hi', hd', hnsed, hs, _⟩ := hre lib disk g g' hl K hcls
  have eA : K'.Amatrix = some A := by have := hs.A; rw [h.hA] at this; exact this
  have eAo : K'.AmatrixOut = some Ao := by have := hs.Aout; rw [h.hAo] at this; exact this
  have hr : K'.toFitter.reconstruct = S.toFitter.reconstruct := hs.reconstruct
  have hro : K'.reconstructOut = S.reconstructOut := hs.reconstructOut
  have hc' : c.length = K'.templates.nsed := hc.trans hnsed.symm
  obtain ⟨ex, val⟩ := C67_model_magnitudes K' A Ao eA eAo z bs c hc'
  obtain ⟨k', hk'⟩ := ex.mpr ⟨⟨a, by rw [hr]; exact ha⟩, b, by rw [hro]; exact hb⟩
  have v' := (val k' a b hk' (by rw [hr]; exact ha) (by rw [hro]; exact hb)).2.2 hpos j i₀ fa₀ fb (by rw [hi']; exact h0) hfa0 hfb p2 p3
  have v := ((C67_model_magnitudes S A Ao h.hA h.hAo z bs c hc).2 k a b hk ha hb).2.2 hpos j i fa fb hi hfa hfb p1 p3
  refine ⟨K', k', hK', hs.map, hk', v, v', ?_⟩
  rw [v, v']
  intro he
  have he : mag fa₀ = mag fa := by linarith [Option.some.inj he]
  unfold mag at he
  have hlog : Real.logb 10 fa₀ = Real.logb 10 fa := by linarith
  exact hne (Real.logb_injOn_pos (by norm_num) (Set.mem_Ioi.mpr p1) (Set.mem_Ioi.mpr p2) hlog.symm)

/-! ### C197: reads that fail -/

/-- other extensions than the removed one -/
theorem get_filter_ne (f : FitsFile α) (e x : Ext) (h : x ≠ e) : FitsFile.get (f.filter (fun h => h.1 ≠ e)) x = f.get x := by
  unfold FitsFile.get
  have : List.find? (fun h => h.1 == x) (f.filter (fun h => h.1 ≠ e)) = f.find? (fun h => h.1 == x) := by
    rw [List.find?_filter]
    congr 1
    funext p
    by_cases hp : p.1 = x
    · simp [hp, h]
    · simp [hp]
  rw [this]

/-- other extensions than the removed one -/
theorem has_filter_ne (f : FitsFile α) (e x : Ext) (h : x ≠ e) : FitsFile.has (f.filter (fun h => h.1 ≠ e)) x = f.has x := by
  unfold FitsFile.has
  rw [List.any_filter]
  congr 1
  funext p
  by_cases hp : p.1 = x
  · simp [hp, h]
  · simp [hp]

/-- the removed extension -/
theorem get_filter_self (f : FitsFile α) (e : Ext) : FitsFile.get (f.filter (fun h => h.1 ≠ e)) e = .error .keyError := by
  unfold FitsFile.get
  have : List.find? (fun h => h.1 == e) (f.filter (fun h => h.1 ≠ e)) = none := by
    rw [List.find?_eq_none]
    intro p hp
    simpa using (List.mem_filter.mp hp).2
  rw [this]

/-- templates are read in the same way when a matrix is missing -/
theorem tmpl_cut [Arith α] (f : FitsFile α) (ip : Bool) : Tmpl.fromfits (f.filter (fun h => h.1 ≠ .A)) ip = Tmpl.fromfits f ip := by
  unfold Tmpl.fromfits Sed.fromfits FitsFile.vec FitsFile.image
  simp only [get_filter_ne f .A _ (by decide : Ext.flux ≠ .A), get_filter_ne f .A _ (by decide : Ext.wave ≠ .A),
    get_filter_ne f .A _ (by decide : Ext.intsfh ≠ .A), get_filter_ne f .A _ (by decide : Ext.mremain ≠ .A),
    get_filter_ne f .A _ (by decide : Ext.mets ≠ .A), get_filter_ne f .A _ (by decide : Ext.m300 ≠ .A),
    get_filter_ne f .A _ (by decide : Ext.m1000 ≠ .A), get_filter_ne f .A _ (by decide : Ext.m50 ≠ .A),
    has_filter_ne f .A _ (by decide : Ext.flux ≠ .A), has_filter_ne f .A _ (by decide : Ext.wave ≠ .A)]

/-- C197 is false of `Kcorrect`: for every file that can be opened, the same file without the extension `A` (cut off there, say) makes `fromfits` raise on any object
and leaves it with the templates, bands and grid of the file, and the old matrices and mapping. -/
theorem C197_false_kcorrect [Arith α] {lib : Lib α} {disk : Disk α} {f : FitsFile α} {dm : α → α} {g g' : Reg α} {L : Kc α}
    (h : Kc.fromfits lib disk f dm g = (g', .ok L)) (K : Kc α) :
    Kc.readFits lib disk (f.filter (fun h => h.1 ≠ .A)) K g =
      (({ L with cls := K.cls, imap := K.imap, distmod := K.distmod, Amatrix := K.Amatrix, AmatrixOut := K.AmatrixOut }, g'), .error .keyError) := by
  obtain ⟨t, n, lo, hi, ab, z, r, m, o, a, b, A, Ao, im, h1, h2, h3, h4, h5, h6, h7, h8, h9, h10, h11, rfl⟩ := fromfits_parts h
  have e1 := (tmpl_cut f false).trans h1
  have e2 : FitsFile.settings (f.filter (fun h => h.1 ≠ .A)) = .ok (n, lo, hi, ab) := by
    rw [← h2]; unfold FitsFile.settings; rw [get_filter_ne f .A _ (by decide)]
  have e3 : FitsFile.vec (f.filter (fun h => h.1 ≠ .A)) .redshifts = .ok z := by
    rw [← h3]; unfold FitsFile.vec FitsFile.image; rw [get_filter_ne f .A _ (by decide)]
  have e4 : FitsFile.names (f.filter (fun h => h.1 ≠ .A)) .responses = .ok r := by
    rw [← h4]; unfold FitsFile.names; rw [get_filter_ne f .A _ (by decide)]
  have e5 : FitsFile.names (f.filter (fun h => h.1 ≠ .A)) .responsesMap = .ok m := by
    rw [← h5]; unfold FitsFile.names; rw [get_filter_ne f .A _ (by decide)]
  have e6 : FitsFile.names (f.filter (fun h => h.1 ≠ .A)) .responsesOut = .ok o := by
    rw [← h6]; unfold FitsFile.names; rw [get_filter_ne f .A _ (by decide)]
  have e8 : FitsFile.cube (f.filter (fun h => h.1 ≠ .A)) .A = .error .keyError := by
    unfold FitsFile.cube FitsFile.image; rw [get_filter_self]; rfl
  unfold Kc.readFits
  simp only [e1, e2, e3, e4, e5, e6, h7, e8]

/-- C197 for `Kcorrect`: a read that raises leaves class, mapping, cosmology and output matrix as they were; and everything, if the templates could not be read.  Missing
(false, `C197_false_kcorrect`): the rest. -/
theorem C197_kcorrect_partial [Arith α] (lib : Lib α) (disk : Disk α) (f : FitsFile α) (K K' : Kc α) (g g' : Reg α) (e : PyErr)
    (h : Kc.readFits lib disk f K g = ((K', g'), .error e)) :
    K'.cls = K.cls ∧ K'.imap = K.imap ∧ K'.distmod = K.distmod ∧ K'.AmatrixOut = K.AmatrixOut ∧
      ((∀ t, Tmpl.fromfits f false ≠ .ok t) → K' = K ∧ g' = g) := by
  unfold Kc.readFits at h
  split at h
  · cases h; exact ⟨rfl, rfl, rfl, rfl, fun _ => ⟨rfl, rfl⟩⟩
  · next t ht =>
    have hno : (∀ t, Tmpl.fromfits f false ≠ .ok t) → K' = K ∧ g' = g := fun hn => absurd ht (hn t)
    suffices hs : K'.cls = K.cls ∧ K'.imap = K.imap ∧ K'.distmod = K.distmod ∧ K'.AmatrixOut = K.AmatrixOut from
      ⟨hs.1, hs.2.1, hs.2.2.1, hs.2.2.2, hno⟩
    clear hno
    dsimp only at h
    repeat' split at h
    all_goals cases h
    all_goals exact ⟨rfl, rfl, rfl, rfl⟩


/-- what is left when the set-up of a response raises -/
theorem runSetup_error [Arith α] {lib : Lib α} {w r : List α} {o o' : RespObj α} {e : PyErr}
    (h : runSetup lib w r (List.range nSetup) o = (o', .error e)) : o'.wave = some w ∧ o'.resp = some r ∧ o'.fwhm = o.fwhm := by
  have hr : List.range nSetup = [0, 1, 2, 3, 4, 5, 6] := rfl
  rw [hr] at h
  simp only [runSetup, setupStep, RespObj.arrays, ok_bind] at h
  cases h1 : mkInterp w [r] with
  | error e1 => simp only [h1, error_bind] at h; cases h; exact ⟨rfl, rfl, rfl⟩
  | ok i =>
    simp only [h1, ok_bind, pure_py, RespObj.curve] at h
    cases h2 : solarMagOf lib ⟨w, r, i⟩ with
    | error e1 => simp only [h2, error_bind] at h; cases h; exact ⟨rfl, rfl, rfl⟩
    | ok m =>
      simp only [h2, ok_bind] at h
      cases h3 : vega2abOf lib ⟨w, r, i⟩ with
      | error e1 => simp only [h3, error_bind] at h; cases h; exact ⟨rfl, rfl, rfl⟩
      | ok v =>
        simp only [h3, ok_bind] at h
        cases h4 : fwhmLimits lib ⟨w, r, i⟩ with
        | error e1 => simp only [h4, error_bind] at h; cases h; exact ⟨rfl, rfl, rfl⟩
        | ok p => simp [h4, ok_bind] at h

/-- C197 for `Response`: after a `fromdat` that raises, the object is as before, or wavelengths and response are those of the file; the half-maximum limits are the old ones.
Missing (false, `C197_false_response`): the wavelengths and response. -/
theorem C197_response_partial [Arith α] (lib : Lib α) (disk : Disk α) (file : Name) (o o' : RespObj α) (e : PyErr)
    (h : fromdat lib disk file o = (o', .error e)) :
    o'.fwhm = o.fwhm ∧ (o' = o ∨ ∃ w r, disk file = .ok (w, r) ∧ o'.wave = some (gather w (argsort w)) ∧ o'.resp = some (gather r (argsort w))) := by
  unfold fromdat at h
  cases hf : disk file with
  | error e' => simp only [hf, error_bind] at h; cases h; exact ⟨rfl, Or.inl rfl⟩
  | ok p =>
    obtain ⟨w, r⟩ := p
    by_cases hl : w.length ≤ r.length
    · simp only [hf, ok_bind, sortCurve, if_pos hl] at h
      obtain ⟨h1, h2, h3⟩ := runSetup_error h
      exact ⟨h3, Or.inr ⟨w, r, rfl, h1, h2⟩⟩
    · simp only [hf, ok_bind, sortCurve, if_neg hl] at h
      cases h; exact ⟨rfl, Or.inl rfl⟩

/-- C197 is false of `Response`: for every file of fewer than four samples, `fromdat` raises `ValueError` and leaves the file's wavelengths and response together with the
old interpolator, effective wavelength, Sun and Vega magnitudes. -/
theorem C197_false_response [Arith α] (lib : Lib α) (disk : Disk α) (file : Name) (w r : List α) (hd : disk file = .ok (w, r))
    (hl : w.length = r.length) (h4 : w.length < 4) (R : Resp α) :
    fromdat lib disk file (RespObj.full R) =
      ({ RespObj.full R with wave := some (gather w (argsort w)), resp := some (gather r (argsort w)) }, .error .valueError) := by
  have hi : mkInterp (gather w (argsort w)) [gather r (argsort w)] = .error .valueError := by
    unfold mkInterp
    rw [if_pos (by simp [gather_length, argsort_length]), if_neg (by rw [gather_length, argsort_length]; omega)]
  have hr : List.range nSetup = [0, 1, 2, 3, 4, 5, 6] := rfl
  unfold fromdat
  simp only [hd, ok_bind, sortCurve, if_pos hl.le, hr, runSetup, setupStep, RespObj.arrays, hi, error_bind]


/-- what is left when the set-up of an SED raises -/
theorem stored_error [Arith α] {a b : SedAttr α} {w : List α} {fl : NDA α} {e : PyErr} (h : a.stored w fl = (b, .error e)) :
    b.interp = a.interp ∧ b.interpolate = a.interpolate ∧
      (b.wave = a.wave ∧ b.flux = a.flux ∧ b.redshift = a.redshift ∨
        a.interpolate = true ∧ b.wave = b.restWave ∧ b.flux = b.restFlux ∧ b.redshift = lit 0) := by
  unfold SedAttr.stored at h
  split at h
  · cases h; exact ⟨rfl, rfl, Or.inl ⟨rfl, rfl, rfl⟩⟩
  · split at h
    · cases h; exact ⟨rfl, rfl, Or.inl ⟨rfl, rfl, rfl⟩⟩
    · split at h
      · dsimp only at h
        split at h
        · next hi =>
          unfold SedAttr.setInterp at h
          split at h
          · cases h
          · cases h; exact ⟨rfl, rfl, Or.inr ⟨hi, rfl, rfl, rfl⟩⟩
        · cases h
      · cases h; exact ⟨rfl, rfl, Or.inl ⟨rfl, rfl, rfl⟩⟩

/-- C197 for `SED`: after a `fromfits` that raises, interpolator and setting are the old ones; wavelengths, flux and redshift are the old ones too, unless the object
interpolates.  Missing (false, `C197_false_sed`): interpolating objects, and the rest-frame arrays. -/
theorem C197_sed_partial [Arith α] (a b : SedAttr α) (f : FitsFile α) (ext : Ext) (e : PyErr) (h : a.fromfits f ext = (b, .error e)) :
    b.interp = a.interp ∧ b.interpolate = a.interpolate ∧
      (b.wave = a.wave ∧ b.flux = a.flux ∧ b.redshift = a.redshift ∨
        a.interpolate = true ∧ b.wave = b.restWave ∧ b.flux = b.restFlux ∧ b.redshift = lit 0) := by
  unfold SedAttr.fromfits at h
  dsimp only at h
  split at h
  · split at h
    · cases h; exact ⟨rfl, rfl, Or.inl ⟨rfl, rfl, rfl⟩⟩
    · split at h
      · cases h; exact ⟨rfl, rfl, Or.inl ⟨rfl, rfl, rfl⟩⟩
      · split at h
        · exact stored_error (a := { a with binimage := f.has .flux && f.has .wave }) h
        · cases h; exact ⟨rfl, rfl, Or.inl ⟨rfl, rfl, rfl⟩⟩
  · split at h
    · cases h; exact ⟨rfl, rfl, Or.inl ⟨rfl, rfl, rfl⟩⟩
    · exact stored_error (a := { a with binimage := f.has .flux && f.has .wave }) h
    · cases h; exact ⟨rfl, rfl, Or.inl ⟨rfl, rfl, rfl⟩⟩

/-- spectra too short for an interpolator -/
theorem stored_short [Arith α] {a : SedAttr α} {w : List α} {fl : NDA α} {s : Sed α} (hi : a.interpolate = true)
    (h : Sed.ofStored w fl false a.binimage = .ok s) (h4 : s.restWave.length < 4) :
    a.stored w fl = ({ SedAttr.of s with interpolate := true, interp := a.interp }, .error .valueError) := by
  unfold Sed.ofStored at h
  obtain ⟨⟨n, flat⟩, hf, h⟩ := bind_ok_iff.mp h
  obtain ⟨_, h1, h⟩ := bind_ok_iff.mp h
  obtain ⟨_, h2, h⟩ := bind_ok_iff.mp h
  unfold require at h1 h2
  have h1 : w.length ≠ 1 := by intro hh; rw [if_neg (not_not.mpr hh)] at h1; cases h1
  have h2 : flat.length = n * w.length := by by_contra hh; rw [if_neg hh] at h2; cases h2
  rw [setup_rows (Or.inr ⟨_, _, rfl⟩)] at h
  cases h
  unfold SedAttr.stored
  split
  · simp at h1
  · simp only [hf, if_pos h2, hi, if_true, SedAttr.setInterp, NDA.vec, mkInterpArr]
    have hm : mkInterp w (NDA.chunks w.length n flat) = .error .valueError := by
      have h4 : ¬ 4 ≤ w.length := by simpa using h4
      unfold mkInterp
      split_ifs <;> rfl
    simp [hm, SedAttr.of, chunks_length, NDA.vec]

/-- C197 is false of `SED`: for every interpolating object and every file of spectra of fewer than four wavelengths, `fromfits` raises `ValueError` and leaves the file's
spectra together with the interpolator of the old ones. -/
theorem C197_false_sed [Arith α] (a : SedAttr α) (hi : a.interpolate = true) (f : FitsFile α) (ext : Ext) (s : Sed α)
    (hs : Sed.fromfits f ext false = .ok s) (h4 : s.restWave.length < 4) :
    a.fromfits f ext = ({ SedAttr.of s with interpolate := true, interp := a.interp }, .error .valueError) := by
  unfold Sed.fromfits at hs
  unfold SedAttr.fromfits
  split at hs
  · next hb =>
    obtain ⟨w, h1, hs⟩ := bind_ok_iff.mp hs
    obtain ⟨fl, h2, hs⟩ := bind_ok_iff.mp hs
    split at hs
    · simp only [hb, if_true, h1, h2]
      exact stored_short (a := { a with binimage := true }) hi hs h4
    · cases hs
  · next hb =>
    obtain ⟨hd, h1, hs⟩ := bind_ok_iff.mp hs
    have hb' : (f.has .flux && f.has .wave) = false := by simpa using hb
    split at hs
    · simp only [hb', h1]
      exact stored_short (a := { a with binimage := false }) hi hs h4
    · cases hs

/-! ### the hypotheses can be met -/

/-- C194_response_dat: x, read into a response object left behind by a failure. -/
example : ∃ R, fromdat demoLib demoDisk ['x', '.', 'd', 'a', 't'] ⟨some [1], none, none, some 7, none, none, none⟩ = (RespObj.full R, .ok ()) := by
  obtain ⟨R, hR⟩ := demo_response (wave := [1, 2, 3, 4]) (resp := [0, 1, 1, 0]) (by norm_num) (by simp) rfl ⟨1, by simp, by norm_num⟩
  exact ⟨R, (C194_response_dat _ _ _ _ _).mpr ⟨[1, 2, 3, 4], [0, 1, 1, 0], R, by simp [demoDisk], hR, rfl⟩⟩

/-- C194_response_fits: the same curve in a FITS file. -/
example : ∃ R, RespObj.fromfits demoLib [(.primary, .empty), (.flux, .respTable [1, 2, 3, 4] [0, 1, 1, 0])] (.num 1) ⟨some [1], none, none, some 7, none, none, none⟩ =
    (RespObj.full R, .ok ()) := by
  obtain ⟨R, hR⟩ := demo_response (wave := [1, 2, 3, 4]) (resp := [0, 1, 1, 0]) (by norm_num) (by simp) rfl ⟨1, by simp, by norm_num⟩
  refine ⟨R, (C194_response_fits _ _ _ _ _).mpr ⟨R, ?_, rfl⟩⟩
  simpa [respFromfitsExt, FitsFile.select, ok_bind] using hR

/-- the file of one spectrum on three wavelengths -/
noncomputable def demoShortFile : FitsFile ℝ := [(.primary, .empty), (.flux, .sedTable [1, 2, 3] [[4, 5, 6]])]

theorem demoShort_read : Sed.fromfits demoShortFile .flux false = .ok ⟨[1, 2, 3], [[4, 5, 6]], [1, 2, 3], [[4, 5, 6]], 0, false, none, false⟩ := by
  simp [Sed.fromfits, demoShortFile, FitsFile.has, FitsFile.get, ok_bind, Sed.ofStored, fluxFlat, require, Sed.setup, NDA.chunks]

/-- C194_sed: an object at redshift 1, after a read that raised, reads a spectrum. -/
example : ∃ s₀ : Sed ℝ, Sed.mk' [1, 2, 3, 4] (.arr [1] 4 [[1, 1, 1, 1]]) false = .ok s₀ ∧
    (((SedAttr.of s₀).run [.setRedshift 1, .fromfits [] .flux]).fromfits demoShortFile .flux).2 = .ok () := by
  refine ⟨⟨[1, 2, 3, 4], [[1, 1, 1, 1]], [1, 2, 3, 4], [[1, 1, 1, 1]], 0, false, none, false⟩, by simp [Sed.mk', Sed.setup, ok_bind], ?_⟩
  have h := (C194_sed (α := ℝ) ⟨[1, 2, 3, 4], [[1, 1, 1, 1]], [1, 2, 3, 4], [[1, 1, 1, 1]], 0, false, none, false⟩
    (Or.inl ⟨[1, 2, 3, 4], .arr [1] 4 [[1, 1, 1, 1]], false, by simp [Sed.mk', Sed.setup, ok_bind]⟩)
    [.setRedshift 1, .fromfits [] .flux] demoShortFile .flux _).mpr ⟨_, demoShort_read, rfl⟩
  have h2 := congrArg Prod.snd h
  simpa using h2

/-- C195: the demonstration template and another one with other masses, each saved to a file. -/
example : ∃ (t₀ t₁ : Tmpl ℝ) (f₀ f₁ : FitsFile ℝ), Tmpl.fromfits f₀ false = .ok t₀ ∧ Tmpl.fromfits f₁ t₀.interpolate = .ok t₁ ∧ t₀.mremain ≠ t₁.mremain := by
  obtain ⟨f₀, t₀, _, h0, _, _, _, m0, _⟩ := C41_template_roundtrip_partial demoTmpl [] false (by simp [Rect, demoTmpl]) (by simp [demoTmpl]) (by simp)
  obtain ⟨f₁, t₁, _, h1, _, _, _, m1, _⟩ := C41_template_roundtrip_partial { demoTmpl with mremain := [2, 5] } [] t₀.interpolate (by simp [Rect, demoTmpl]) (by simp [demoTmpl]) (by
    intro hi
    exfalso
    have : t₀.interpolate = false := by
      unfold Tmpl.fromfits at h0
      obtain ⟨s, hs, h0⟩ := bind_ok_iff.mp h0
      obtain ⟨_, _, h0⟩ := bind_ok_iff.mp h0
      obtain ⟨_, _, h0⟩ := bind_ok_iff.mp h0
      obtain ⟨_, _, h0⟩ := bind_ok_iff.mp h0
      obtain ⟨_, _, h0⟩ := bind_ok_iff.mp h0
      obtain ⟨_, _, h0⟩ := bind_ok_iff.mp h0
      cases h0
      exact Sed_fromfits_interpolate hs
    rw [this] at hi; cases hi)
  refine ⟨t₀, t₁, f₀, f₁, h0, h1, ?_⟩
  rw [m0, m1]
  simp [demoTmpl]

/-- C195_false_masses: the demonstration object, and templates with other masses. -/
example : MassKc demoMass demoTmpl demoAm ∧ MassOK ({ demoTmpl with mremain := [2, 5] } : Tmpl ℝ) demoTmpl.toSed.nsed ∧
    ∃ D, demoMass.derived demoReg (some (.scalar 1)) (some (.vec [2, 1])) 0 none = .ok D := by
  refine ⟨demoMass_ok, ⟨rfl, rfl, rfl, rfl, rfl, rfl⟩, ?_⟩
  exact (derived_returns demoMass_ok demoReg 1 [2, 1] rfl 0).mpr ⟨⟨_, demoAm_at0⟩, _, demoSolar⟩

/-- two input bands, one output band mapped to the first of them -/
noncomputable def demoTwoIn : Kc ℝ :=
  ⟨{ Fitter.mk' .base [['x'], ['y']] (.template demoTmpl) 0 3 3 false with Amatrix := some demoAm2, redshifts := [0, 1, 3] }, [['x']], [['x']], some demoAm, [0], fun z => z⟩

theorem demoTwoIn_savable : Savable demoTwoIn demoTmpl demoAm2 demoAm :=
  ⟨rfl, by simp [Rect, demoTmpl], by simp [demoTmpl], rfl, rfl, demo_ready.good, demoAm_good, rfl, rfl, rfl⟩

theorem demoTwoIn_names : ∀ n ∈ demoTwoIn.responses ++ demoTwoIn.responsesOut ++ demoTwoIn.responsesMap, FitsOK n := by
  intro n hn
  simp only [demoTwoIn, Fitter.mk', List.cons_append, List.nil_append, List.mem_cons, List.not_mem_nil, or_false] at hn
  rcases hn with rfl | rfl | rfl | rfl <;> exact ⟨by simp, by simp⟩

/-- C196_same_partial and C196_false: that object saved, and read into one whose output band is mapped to the second input band. -/
example : ∃ f K' k k' a b, demoTwoIn.tofits = .ok f ∧
    Kc.readFits demoLib demoDisk f { demoTwoIn with imap := [1], responsesMap := [['y']] } (fun _ => some RespObj.empty) = ((K', fun _ => some RespObj.empty), .ok ()) ∧
    K'.responsesMap = [['x']] ∧ demoTwoIn.kcorrect (some (.scalar 0)) (some (.vec [1, 1])) 0 = .ok k ∧
    K'.kcorrect (some (.scalar 0)) (some (.vec [1, 1])) 0 = .ok k' ∧ entry k 0 0 = some a ∧ entry k' 0 0 = some b ∧ a = mag 3 - mag 3 ∧ b = mag 4 - mag 3 := by
  have hx : demoTwoIn.reconstruct (some (.scalar 0)) (some (.vec [1, 1])) 0 = .ok (.arr [] 2 [[3, 4]]) := by
    refine (recon_real demoTwoIn.toFitter demoAm2 0 [1, 1] 0 rfl).trans ?_
    rw [show ((1 : ℝ) + 0) * (1 + 0) - 1 = 0 by norm_num, demoAm2_at0']
    simp [Except.map, reconRow, demoAm2, dot, sumL_real]; norm_num
  have hy : demoTwoIn.reconstructOut (some (.scalar 0)) (some (.vec [1, 1])) 0 = .ok (.arr [] 1 [[3]]) := by
    refine (recon_real demoTwoIn.toFitter demoAm 0 [1, 1] 0 rfl).trans ?_
    rw [show ((1 : ℝ) + 0) * (1 + 0) - 1 = 0 by norm_num, demoAm_at0]
    simp [Except.map, reconRow, demoAm, dot, sumL_real]; norm_num
  obtain ⟨k, hk⟩ := (C67_model_magnitudes demoTwoIn demoAm2 demoAm rfl rfl 0 0 [1, 1] rfl).1.mpr ⟨⟨_, hx⟩, ⟨_, hy⟩⟩
  obtain ⟨f, hf, _⟩ := C196_same_partial demoTwoIn demoTmpl demoAm2 demoAm demoTwoIn_savable demoTwoIn_names
  obtain ⟨K', k', h1, h2, h3, h4, h5, _⟩ := C196_false demoTwoIn demoTmpl demoAm2 demoAm demoTwoIn_savable demoTwoIn_names f hf demoLib demoDisk
    (fun _ => some RespObj.empty) (fun _ => some RespObj.empty) (loadMissing_present _ _ _ _ (fun _ _ => rfl))
    { demoTwoIn with imap := [1], responsesMap := [['y']] } rfl rfl (by simp [demoTwoIn, Fitter.mk']) 0 0 [1, 1] rfl (by norm_num) k _ _ hk hx hy 0 1 0 rfl rfl
    3 4 3 rfl rfl rfl (by norm_num) (by norm_num) (by norm_num) (by norm_num)
  exact ⟨f, K', k, k', _, _, hf, h1, h2, hk, h3, h4, h5, rfl, rfl⟩

/-- C196_constructed_partial: the constructor, twice (C85_constructed_partial's example), the second object on the SED without masses. -/
example : (∃ w S, Kc.init demoLib demoDisk .base [['x']] (.template { demoTmpl with toSed := demoShared.sed }) none none 0 2 10 false (fun z => z)
    ⟨fun _ => none, demoShared.sed⟩ = (w, .ok S)) ∧ ∃ w K, Kc.init demoLib demoDisk .base [['x']] (.sed demoShared.sed) none none 0 2 10 false (fun z => z)
    ⟨fun _ => none, demoShared.sed⟩ = (w, .ok K) :=
  ⟨(demo_init _ _).1, (demo_init _ _).1⟩

/-- C197_false_kcorrect: the demonstration object is saved and opened. -/
example : ∃ f g' L, demoSave.tofits = .ok f ∧ Kc.fromfits demoLib demoDisk f demoSave.distmod (fun _ => none) = (g', .ok L) := by
  obtain ⟨f, _, g', K', hf, _, hK, _⟩ := demo_saved
  exact ⟨f, g', K', hf, hK⟩

/-- C197_kcorrect_partial: an empty file. -/
example : ∃ e, Kc.readFits demoLib demoDisk [] demoSave (fun _ => none) = ((demoSave, fun _ => none), .error e) := by
  refine ⟨.keyError, ?_⟩
  simp [Kc.readFits, Tmpl.fromfits, Sed.fromfits, FitsFile.has, FitsFile.get, error_bind]

/-- C197_response_partial, C197_false_response: a file of two samples read into the response x. -/
example : ∃ R, mkResponse demoLib [1, 2, 3, 4] [0, 1, 1, 0] = .ok R ∧
    fromdat demoLib (fun _ => .ok ([6, 5], [1, 2])) ['y'] (RespObj.full R) =
      ({ RespObj.full R with wave := some (gather [6, 5] (argsort ([6, 5] : List ℝ))), resp := some (gather [1, 2] (argsort ([6, 5] : List ℝ))) }, .error .valueError) := by
  obtain ⟨R, hR⟩ := demo_response (wave := [1, 2, 3, 4]) (resp := [0, 1, 1, 0]) (by norm_num) (by simp) rfl ⟨1, by simp, by norm_num⟩
  exact ⟨R, hR, C197_false_response _ _ _ [6, 5] [1, 2] rfl rfl (by simp) R⟩

/-- C197_sed_partial, C197_false_sed: an interpolating object and a spectrum on three wavelengths. -/
example : ∃ s₀ : Sed ℝ, Sed.mk' [1, 2, 3, 4] (.arr [1] 4 [[1, 1, 1, 1]]) true = .ok s₀ ∧ ∃ b, (SedAttr.of s₀).fromfits demoShortFile .flux = (b, .error .valueError) ∧
    b.wave = .vec [1, 2, 3] ∧ b.interp = s₀.interp := by
  obtain ⟨i, hi⟩ : ∃ i, mkInterp ([1, 2, 3, 4] : List ℝ) [[1, 1, 1, 1]] = .ok i := ⟨_, (mkInterp_strict _ _ (by norm_num) (by simp) (by simp))⟩
  have h0 : Sed.mk' ([1, 2, 3, 4] : List ℝ) (.arr [1] 4 [[1, 1, 1, 1]]) true = .ok ⟨[1, 2, 3, 4], [[1, 1, 1, 1]], [1, 2, 3, 4], [[1, 1, 1, 1]], 0, true, some i, false⟩ := by
    simp [Sed.mk', Sed.setup, ok_bind, Sed.setInterp, hi]
  exact ⟨_, h0, _, C197_false_sed _ rfl demoShortFile .flux _ demoShort_read (by simp), rfl, rfl⟩

end KC
