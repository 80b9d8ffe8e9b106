import Verif.Props.Fits
import Verif.Props.Derived
import Verif.Props.KInit
import Verif.Lemmas.AMat

/-!
# Files of `Kcorrect` objects (C83–C86, C96)
-/

namespace KC
open Spec

section generic
variable {α : Type} [Arith α]

/-! ### Reading what was written -/

theorem get_append_not {f l : FitsFile α} {e : Ext} (h : ∀ x ∈ f, x.1 ≠ e) : FitsFile.get (f ++ l) e = FitsFile.get l e := by
  unfold FitsFile.get
  have hf : List.find? (fun h : Ext × Hdu α => h.1 == e) f = none := by
    rw [List.find?_eq_none]
    intro x hx
    simpa using h x hx
  rw [List.find?_append, hf]; rfl

theorem vec_append_has {f l : FitsFile α} {e : Ext} (h : FitsFile.has f e = true) : FitsFile.vec (f ++ l) e = FitsFile.vec f e := by
  unfold FitsFile.vec FitsFile.image
  rw [get_append_of_has h]

/-- The HDUs of a written template. -/
theorem tmpl_names {t : Tmpl α} {f : FitsFile α} (h : t.tofits = .ok f) :
    (∀ x ∈ f, x.1 ∈ [Ext.primary, .flux, .wave, .intsfh, .mremain, .mets, .m300, .m50, .m1000]) ∧
    ∀ e ∈ [Ext.flux, .intsfh, .mremain, .mets, .m300, .m50, .m1000], FitsFile.has f e = true := by
  unfold Tmpl.tofits at h
  obtain ⟨s, hs, h⟩ := bind_ok_iff.mp h
  obtain ⟨h1, _, h2⟩ := tofits_names hs
  cases h
  constructor
  · intro x hx
    rcases List.mem_append.mp hx with hx | hx
    · rcases h1 x hx with h | h | h <;> simp [h]
    · simp only [List.mem_cons, List.not_mem_nil, or_false] at hx
      rcases hx with rfl | rfl | rfl | rfl | rfl | rfl <;> simp
  · intro e he
    rw [has_append]
    simp only [List.mem_cons, List.not_mem_nil, or_false] at he
    rcases he with rfl | rfl | rfl | rfl | rfl | rfl | rfl
    · rw [h2]; rfl
    all_goals simp [FitsFile.has]

theorem tmpl_fromfits_append {t : Tmpl α} {f l : FitsFile α} (h : t.tofits = .ok f) (hl : FitsFile.has l .wave = false) (ip : Bool) :
    Tmpl.fromfits (f ++ l) ip = Tmpl.fromfits f ip := by
  obtain ⟨_, hh⟩ := tmpl_names h
  unfold Tmpl.fromfits
  rw [sed_fromfits_append (hh .flux (by simp)) hl, vec_append_has (hh .intsfh (by simp)), vec_append_has (hh .mremain (by simp)),
    vec_append_has (hh .mets (by simp)), vec_append_has (hh .m300 (by simp)), vec_append_has (hh .m50 (by simp)),
    vec_append_has (hh .m1000 (by simp))]

/-- The seven HDUs `tofits` adds. -/
theorem hdus_ok {K : Kc α} {h : FitsFile α} (hh : K.hdus = .ok h) :
    ∃ A Ao a o, K.Amatrix = some A ∧ K.AmatrixOut = some Ao ∧ A.atAll K.redshifts = .ok a ∧ Ao.atAll K.redshifts = .ok o ∧
      h = [(.data, .settings K.nredshift (Arith.trunc K.range.1) (Arith.trunc K.range.2) K.abcorrect),
        (.redshifts, .image (.vec K.redshifts)), (.responses, .names (K.responses.map fitsName)),
        (.responsesOut, .names (K.responsesOut.map fitsName)), (.responsesMap, .names (K.responsesMap.map fitsName)),
        (.A, .image (.arr [K.redshifts.length, A.nrow] A.ncol a.flatten)),
        (.Aout, .image (.arr [K.redshifts.length, Ao.nrow] Ao.ncol o.flatten))] := by
  unfold Kc.hdus at hh
  cases hA : K.Amatrix with
  | none => rw [hA] at hh; cases hh
  | some A =>
    cases hAo : K.AmatrixOut with
    | none => rw [hA, hAo] at hh; cases hh
    | some Ao =>
      rw [hA, hAo] at hh
      simp only [ok_bind, bind_ok_iff] at hh
      obtain ⟨a, ha, o, ho, hh⟩ := hh
      cases hh
      exact ⟨A, Ao, a, o, rfl, rfl, ha, ho, rfl⟩

/-- A file from which an object was opened has an intact `AOUT` HDU. -/
theorem fromfits_needs {lib : Lib α} {disk : Disk α} {f : FitsFile α} {dm : α → α} {g g' : Reg α} {K : Kc α}
    (h : Kc.fromfits lib disk f dm g = (g', .ok K)) : (∃ a, f.get .Aout = .ok (.image a)) ∧ ∃ a, f.get .intsfh = .ok (.image a) := by
  have himg : ∀ e x, f.image e = .ok x → ∃ a, f.get e = .ok (.image a) := by
    intro e x hx
    unfold FitsFile.image at hx
    obtain ⟨y, hy, hx⟩ := bind_ok_iff.mp hx
    cases y with
    | image a => exact ⟨a, hy⟩
    | _ => cases hx
  unfold Kc.fromfits at h
  simp only at h
  split at h
  · cases h
  · rename_i t st z r m o hhead
    constructor
    · split at h
      · cases h
      · rename_i g2 u hl
        simp only [Prod.mk.injEq, bind_ok_iff] at h
        obtain ⟨_, _, _, b, hb, _⟩ := h
        unfold FitsFile.cube at hb
        obtain ⟨y, hy, _⟩ := bind_ok_iff.mp hb
        exact himg _ _ hy
    · obtain ⟨t', ht, _⟩ := bind_ok_iff.mp hhead
      unfold Tmpl.fromfits at ht
      obtain ⟨s, _, ht⟩ := bind_ok_iff.mp ht
      obtain ⟨v, hv, _⟩ := bind_ok_iff.mp ht
      unfold FitsFile.vec at hv
      obtain ⟨y, hy, _⟩ := bind_ok_iff.mp hv
      exact himg _ _ hy

/-! ### Interrupted saves (C86) -/

theorem get_none {f : FitsFile α} {e : Ext} (h : ∀ x ∈ f, x.1 ≠ e) : FitsFile.get f e = .error .keyError := by
  unfold FitsFile.get
  have hf : List.find? (fun h : Ext × Hdu α => h.1 == e) f = none := by
    rw [List.find?_eq_none]
    intro x hx
    simpa using h x hx
  rw [hf]

/-- States while a file is written whose last HDU is the only one called `e`: `e` is intact only at the end. -/
theorem writing_last {f : FitsFile α} {e : Ext} {d : Hdu α} (hf : ∀ x ∈ f, x.1 ≠ e) {s : FitsFile α}
    (hs : s ∈ writing [] (f ++ [(e, d)])) {a : NDA α} (ha : s.get e = .ok (.image a)) : s = f ++ [(e, d)] := by
  unfold writing at hs
  simp only [List.nil_append, List.mem_append, List.mem_map, List.mem_range, List.length_append, List.length_cons, List.length_nil,
    Nat.zero_add] at hs
  rcases hs with ⟨k, hk, rfl⟩ | ⟨k, hk, rfl⟩
  · by_cases hk' : k ≤ f.length
    · rw [List.take_append_of_le_length hk', get_none (fun x hx => hf x (List.mem_of_mem_take hx))] at ha
      cases ha
    · rw [List.take_of_length_le (by simp; omega)]
  · by_cases hk' : k < f.length
    · rw [List.take_append_of_le_length (by omega), List.drop_append_of_le_length (by omega),
        List.take_append_of_le_length (by simp; omega), get_none] at ha
      · cases ha
      · intro x hx
        rcases List.mem_append.mp hx with hx | hx
        · exact hf x (List.mem_of_mem_take hx)
        · obtain ⟨y, hy, rfl⟩ := List.mem_map.mp hx
          exact hf y (List.mem_of_mem_drop (List.mem_of_mem_take hy))
    · have : k = f.length := by omega
      subst this
      rw [List.take_append_of_le_length le_rfl, List.take_length, List.drop_append_of_le_length le_rfl, List.drop_length,
        get_append_not hf] at ha
      simp [FitsFile.get] at ha

theorem writing_names {b f s : FitsFile α} (hs : s ∈ writing b f) {x : Ext × Hdu α} (hx : x ∈ s) : ∃ y, (y ∈ b ∨ y ∈ f) ∧ x.1 = y.1 := by
  unfold writing at hs
  simp only [List.mem_append, List.mem_map, List.mem_range] at hs
  rcases hs with ⟨k, _, rfl⟩ | ⟨k, _, rfl⟩
  · rcases List.mem_append.mp hx with hx | hx
    · exact ⟨x, Or.inl hx, rfl⟩
    · exact ⟨x, Or.inr (List.mem_of_mem_take hx), rfl⟩
  · rcases List.mem_append.mp hx with hx | hx
    · rcases List.mem_append.mp hx with hx | hx
      · exact ⟨x, Or.inl hx, rfl⟩
      · exact ⟨x, Or.inr (List.mem_of_mem_take hx), rfl⟩
    · obtain ⟨y, hy, rfl⟩ := List.mem_map.mp hx
      exact ⟨y, Or.inr (List.mem_of_mem_drop (List.mem_of_mem_take hy)), rfl⟩

theorem tpl_names {T : Tpl α} {f : FitsFile α} (h : T.tofits = .ok f) :
    ∀ x ∈ f, x.1 ∈ [Ext.primary, .flux, .wave, .intsfh, .mremain, .mets, .m300, .m50, .m1000] := by
  cases T with
  | template t => exact (tmpl_names h).1
  | sed s =>
    intro x hx
    rcases (tofits_names h).1 x hx with h | h | h <;> simp [h]

/-- C86: whatever the moment at which a save is interrupted, opening what is on disk either raises, or the disk holds the complete
file. -/
theorem C86_interrupted_save (K : Kc α) (f : FitsFile α) (hf : K.tofits = .ok f) (states : List (FitsFile α)) (hst : K.saveStates = .ok states)
    (s : FitsFile α) (hs : s ∈ states) (lib : Lib α) (disk : Disk α) (dm : α → α) (g g' : Reg α) (K' : Kc α)
    (ho : Kc.fromfits lib disk s dm g = (g', .ok K')) : s = f := by
  obtain ⟨⟨a, ha⟩, _⟩ := fromfits_needs ho
  have hf0 := hf
  unfold Kc.tofits at hf
  obtain ⟨tf, htf, hf⟩ := bind_ok_iff.mp hf
  obtain ⟨h, hh, hf⟩ := bind_ok_iff.mp hf
  cases hf
  have hn := tpl_names htf
  have no : ∀ x ∈ tf, x.1 ≠ .Aout := by
    intro x hx he
    have := hn x hx
    rw [he] at this
    simp at this
  have full : ∀ s ∈ writing [] (tf ++ h), s.get .Aout = .ok (.image a) → s = tf ++ h := by
    obtain ⟨A, Ao, b, o, _, _, _, _, rfl⟩ := hdus_ok hh
    intro s hs ha
    have e : ∀ (x1 x2 x3 x4 x5 x6 x7 : Ext × Hdu α), tf ++ [x1, x2, x3, x4, x5, x6, x7] = (tf ++ [x1, x2, x3, x4, x5, x6]) ++ [x7] := by
      intros; simp
    rw [e] at hs ⊢
    refine writing_last ?_ hs ha
    intro x hx
    rcases List.mem_append.mp hx with hx | hx
    · exact no x hx
    · simp only [List.mem_cons, List.not_mem_nil, or_false] at hx
      rcases hx with rfl | rfl | rfl | rfl | rfl | rfl <;> simp
  have early : ∀ b f' : FitsFile α, (∀ x ∈ b, x.1 ≠ .Aout) → (∀ x ∈ f', x.1 ≠ .Aout) → ∀ s ∈ writing b f', s.get .Aout ≠ .ok (.image a) := by
    intro b f' hb hf' s hs hg
    rw [get_none] at hg
    · cases hg
    · intro x hx
      obtain ⟨y, hy, he⟩ := writing_names hs hx
      rw [he]
      rcases hy with hy | hy
      · exact hb y hy
      · exact hf' y hy
  have sed : ∀ (s : Sed α) fs, s.tofits .flux = .ok fs → ∀ x ∈ fs, x.1 ≠ .Aout := by
    intro s fs hs x hx he
    rcases (tofits_names hs).1 x hx with h | h | h <;> rw [he] at h <;> cases h
  unfold Kc.saveStates at hst
  rw [hf0, ok_bind] at hst
  cases hT : K.templates with
  | sed sd =>
    rw [hT] at hst
    obtain ⟨fs, hfs, hst⟩ := bind_ok_iff.mp hst
    cases hst
    rcases List.mem_append.mp hs with hs | hs
    · exact absurd ha (early [] fs (by simp) (sed _ _ hfs) s hs)
    · exact full s hs ha
  | template t =>
    rw [hT] at hst
    obtain ⟨fs, hfs, hst⟩ := bind_ok_iff.mp hst
    obtain ⟨tf', htf', hst⟩ := bind_ok_iff.mp hst
    cases hst
    rw [hT] at htf
    have : tf' = tf := Except.ok.inj (htf'.symm.trans htf)
    subst this
    rcases List.mem_append.mp hs with hs | hs
    · rcases List.mem_append.mp hs with hs | hs
      · exact absurd ha (early [] fs (by simp) (sed _ _ hfs) s hs)
      · exact absurd ha (early fs _ (sed _ _ hfs) (fun x hx => no x (List.mem_of_mem_drop hx)) s hs)
    · exact full s hs ha

/-- C86: the last state is the complete file. -/
theorem C86_complete_at_end (K : Kc α) (f : FitsFile α) (hf : K.tofits = .ok f) (states : List (FitsFile α)) (hst : K.saveStates = .ok states) :
    f ∈ states := by
  have key : f ∈ writing [] f := by
    unfold writing
    simp only [List.nil_append, List.mem_append, List.mem_map, List.mem_range]
    exact Or.inl ⟨f.length, by omega, List.take_length⟩
  unfold Kc.saveStates at hst
  rw [hf, ok_bind] at hst
  cases hT : K.templates with
  | sed s =>
    rw [hT] at hst
    obtain ⟨fs, _, hst⟩ := bind_ok_iff.mp hst
    cases hst
    exact List.mem_append_right _ key
  | template t =>
    rw [hT] at hst
    obtain ⟨fs, _, hst⟩ := bind_ok_iff.mp hst
    obtain ⟨tf', _, hst⟩ := bind_ok_iff.mp hst
    cases hst
    exact List.mem_append_right _ key

/-- C96 is false: saving over an existing file passes through a state in which neither the old nor the new object can be opened. -/
theorem C96_false (K : Kc α) (states : List (FitsFile α)) (hst : K.saveStates = .ok states) (lib : Lib α) (disk : Disk α) (dm : α → α)
    (g g' : Reg α) : ∃ s ∈ states, ∀ K', Kc.fromfits lib disk s dm g ≠ (g', .ok K') := by
  have key : ∀ f : FitsFile α, [] ∈ writing [] f := by
    intro f
    unfold writing
    simp only [List.nil_append, List.mem_append, List.mem_map, List.mem_range]
    exact Or.inl ⟨0, by omega, by simp⟩
  refine ⟨[], ?_, ?_⟩
  · unfold Kc.saveStates at hst
    obtain ⟨f, _, hst⟩ := bind_ok_iff.mp hst
    cases hT : K.templates with
    | sed s =>
      rw [hT] at hst
      obtain ⟨fs, _, hst⟩ := bind_ok_iff.mp hst
      cases hst
      exact List.mem_append_left _ (key _)
    | template t =>
      rw [hT] at hst
      obtain ⟨fs, _, hst⟩ := bind_ok_iff.mp hst
      obtain ⟨tf', _, hst⟩ := bind_ok_iff.mp hst
      cases hst
      exact List.mem_append_left _ (List.mem_append_left _ (key _))
  · intro K' h
    obtain ⟨⟨a, ha⟩, _⟩ := fromfits_needs h
    cases ha

/-- C85 is false for objects with `SED` templates: they can be saved, but not opened again. -/
theorem C85_false_sed (K : Kc α) (s : Sed α) (hT : K.templates = .sed s) (f : FitsFile α) (hf : K.tofits = .ok f) (lib : Lib α) (disk : Disk α)
    (dm : α → α) (g g' : Reg α) (K' : Kc α) : Kc.fromfits lib disk f dm g ≠ (g', .ok K') := by
  intro h
  obtain ⟨_, a, ha⟩ := fromfits_needs h
  unfold Kc.tofits at hf
  rw [hT] at hf
  obtain ⟨tf, htf, hf⟩ := bind_ok_iff.mp hf
  obtain ⟨h, hh, hf⟩ := bind_ok_iff.mp hf
  cases hf
  obtain ⟨A, Ao, b, o, _, _, _, _, rfl⟩ := hdus_ok hh
  rw [get_none] at ha
  · cases ha
  · intro x hx
    rcases List.mem_append.mp hx with hx | hx
    · intro he
      rcases (tofits_names htf).1 x hx with h | h | h <;> rw [he] at h <;> cases h
    · simp only [List.mem_cons, List.not_mem_nil, or_false] at hx
      rcases hx with rfl | rfl | rfl | rfl | rfl | rfl | rfl <;> simp

/-! ### Round trip -/

/-- A name that fits the column: at most 200 characters, no space at the end. -/
def FitsOK (n : Name) : Prop := n.length ≤ 200 ∧ n.getLast? ≠ some ' '

theorem fitsName_ok {n : Name} (h : FitsOK n) : fitsName n = n := by
  unfold fitsName
  rw [List.take_of_length_le h.1]
  have : n.reverse.dropWhile (fun c => decide (c = ' ')) = n.reverse := by
    cases hr : n.reverse with
    | nil => rfl
    | cons c r =>
      have hc : n.getLast? = some c := by rw [List.getLast?_eq_head?_reverse, hr]; rfl
      have : c ≠ ' ' := by intro e; exact h.2 (by rw [hc, e])
      simp [this]
  rw [this, List.reverse_reverse]

theorem fitsName_length (n : Name) : (fitsName n).length ≤ 200 := by
  unfold fitsName
  rw [List.length_reverse]
  refine (List.dropWhile_suffix _).length_le.trans ?_
  rw [List.length_reverse, List.length_take]
  omega

/-- Equal except for the class, the stored redshift range and the template object, which has as many templates. -/
theorem processInputs_congr (F : Fitter α) (T : Tpl α) (r : α × α) (hT : T.nsed = F.templates.nsed) :
    processInputs { F with templates := T, range := r } = processInputs F := by
  funext a b c d
  unfold processInputs
  simp only [hT]

theorem processInputs_cls (F : Fitter α) (hF : NoAb F) : processInputs { F with cls := .base } = processInputs F := by
  rcases hF with h | h
  · funext a b c d
    unfold processInputs
    simp only [h]
  · have : ({ F with cls := .base } : Fitter α) = F := by cases F; cases h; rfl
    rw [this]

/-- Two objects that answer alike. -/
structure Alike (K L : Kc α) : Prop where
  inputs : processInputs K.toFitter = processInputs L.toFitter
  nsed : K.templates.nsed = L.templates.nsed
  responses : K.responses = L.responses
  out : K.responsesOut = L.responsesOut
  A : K.Amatrix = L.Amatrix
  Aout : K.AmatrixOut = L.AmatrixOut
  imap : K.imap = L.imap
  distmod : K.distmod = L.distmod

theorem Alike.fit {K L : Kc α} (h : Alike K L) (nnls : Nnls α) : K.toFitter.fitCoeffs nnls = L.toFitter.fitCoeffs nnls := by
  funext a b c d e
  unfold Fitter.fitCoeffs Fitter.fitCoeffsI fitOne fitPass fit1
  rw [h.inputs, h.nsed, h.responses, h.A]

theorem Alike.recon {K L : Kc α} (h : Alike K L) : K.toFitter.reconstruct = L.toFitter.reconstruct := by
  funext a b c
  unfold Fitter.reconstruct reconstructWith reconI
  rw [h.inputs, h.A]

theorem Alike.reconOut {K L : Kc α} (h : Alike K L) : K.reconstructOut = L.reconstructOut := by
  funext a b c
  unfold Kc.reconstructOut reconstructWith reconI
  rw [h.inputs, h.Aout]

theorem Alike.kcorrect {K L : Kc α} (h : Alike K L) : K.kcorrect = L.kcorrect := by
  funext a b c
  unfold Kc.kcorrect Kc.kcorrectI
  rw [h.inputs, h.recon, h.reconOut, h.imap, h.nsed]

theorem Alike.absmag {K L : Kc α} (h : Alike K L) : K.absmag = L.absmag := by
  funext a b c d e f g i j
  unfold Kc.absmag Kc.absmagI Kc.dmOf
  rw [h.inputs, h.kcorrect, h.reconOut, h.imap, h.nsed, h.distmod]

theorem Alike.absmagMc {K L : Kc α} (h : Alike K L) : K.absmagMc = L.absmagMc := by
  funext a b c d e f g i
  unfold Kc.absmagMc
  rw [h.absmag]

/-- The tables of masses agree. -/
structure SameMass (s t : Tmpl α) : Prop where
  intsfh : s.intsfh = t.intsfh
  mremain : s.mremain = t.mremain
  mets : s.mets = t.mets
  m50 : s.m50 = t.m50
  m300 : s.m300 = t.m300
  m1000 : s.m1000 = t.m1000

theorem Alike.derived {K L : Kc α} (h : Alike K L) {s t : Tmpl α} (hs : K.templates = .template s) (ht : L.templates = .template t)
    (hm : SameMass s t) : K.derived = L.derived := by
  funext g a b c d
  unfold Kc.derived Kc.derivedI
  have e1 : K.templates.mass = .ok s := by rw [hs]; rfl
  have e2 : L.templates.mass = .ok t := by rw [ht]; rfl
  rw [h.inputs, h.reconOut, h.nsed, h.distmod, h.out, h.responses, e1, e2]
  simp only [ok_bind, hm.intsfh, hm.mremain, hm.mets, hm.m50, hm.m300, hm.m1000]

theorem Alike.derivedMc {K L : Kc α} (h : Alike K L) {s t : Tmpl α} (hs : K.templates = .template s) (ht : L.templates = .template t)
    (hm : SameMass s t) : K.derivedMc = L.derivedMc := by
  funext g a b c d
  unfold Kc.derivedMc
  rw [h.derived hs ht hm]

end generic

/-- What `tofits` needs of an object, and what a constructed object (on at least two redshifts) has: `constructed_savable`. -/
structure Savable (K : Kc ℝ) (t : Tmpl ℝ) (A Ao : AMat ℝ) : Prop where
  tpl : K.templates = .template t
  rect : Rect t.toSed
  waves : 2 ≤ t.restWave.length
  hA : K.Amatrix = some A
  hAo : K.AmatrixOut = some Ao
  good : A.Good
  goodOut : Ao.Good
  grid : A.x = K.redshifts
  gridOut : Ao.x = K.redshifts
  imap : imapOf K.responses K.responsesMap = .ok K.imap

theorem atAll_nodes {A : AMat ℝ} (h : A.Good) : A.atAll A.x = .ok A.ys := by
  unfold AMat.atAll
  rw [mapM_ok_iff, List.forall₂_iff_get]
  refine ⟨h.len.symm, ?_⟩
  intro i h1 h2
  have := at_node h h1
  rw [getD_lt h2] at this
  simp only [List.get_eq_getElem]
  rw [← this]
  congr 1
  exact (ent_eq (List.getElem?_eq_getElem h1)).symm

theorem mkAMat_nodes {A : AMat ℝ} (h : A.Good) : mkAMat A.x A.ys A.nrow A.ncol = .ok A := by
  unfold mkAMat
  rw [if_pos h.len.symm, argsort_of_sorted _ (h.incr.imp le_of_lt), gather_range _ _ rfl]
  have : (List.range A.x.length).map (fun i => A.ys.getD i []) = A.ys := by
    apply List.ext_getElem?
    intro i
    by_cases hi : i < A.x.length
    · have hi' : i < A.ys.length := by rw [h.len]; exact hi
      rw [List.getElem?_map, List.getElem?_range hi, Option.map_some, getD_lt hi', List.getElem?_eq_getElem hi']
    · rw [List.getElem?_eq_none (by simpa using hi), List.getElem?_eq_none (by rw [h.len]; omega)]
  rw [this]

theorem cube_back {A : AMat ℝ} (h : A.Good) : NDA.chunks A.nrow A.x.length A.ys.flatten = A.ys := by
  rw [← h.len]
  exact chunks_flatten _ _ (fun M hM => (h.shaped M hM).1)

/-- What is opened from a saved file: everything as saved, except that the class is `Kcorrect` and the redshift range is truncated to
integers. -/
theorem reopen (K : Kc ℝ) (t : Tmpl ℝ) (A Ao : AMat ℝ) (h : Savable K t A Ao)
    (hn : ∀ n ∈ K.responses ++ K.responsesOut ++ K.responsesMap, FitsOK n) :
    ∃ f t', K.tofits = .ok f ∧ t'.restWave = t.restWave ∧ t'.restFlux = t.restFlux ∧ t'.intsfh = t.intsfh ∧ t'.mremain = t.mremain ∧
      t'.mets = t.mets ∧ t'.m300 = t.m300 ∧ t'.m1000 = t.m1000 ∧ t'.m50 = t.m50 ∧
      ∀ lib disk dm g g', loadMissing lib disk K.responses g = (g', .ok ()) →
        Kc.fromfits lib disk f dm g = (g', .ok { K with
          cls := .base, templates := .template t', range := (Arith.trunc K.range.1, Arith.trunc K.range.2), distmod := dm }) := by
  obtain ⟨tf, t', htf, hfr, e1, e2, e3, e4, e5, e6, e7, e8, _⟩ := C41_template_roundtrip_partial t [] false h.rect h.waves (by simp)
  have htf : t.tofits = .ok tf := htf
  have names : ∀ l : List Name, (∀ n ∈ l, FitsOK n) → l.map fitsName = l := by
    intro l hl
    conv_rhs => rw [← List.map_id l]
    exact List.map_congr_left (fun n hn => fitsName_ok (hl n hn))
  have n1 := names K.responses (fun n h => hn n (by simp [h]))
  have n2 := names K.responsesOut (fun n h => hn n (by simp [h]))
  have n3 := names K.responsesMap (fun n h => hn n (by simp [h]))
  have a1 := atAll_nodes h.good
  have a2 := atAll_nodes h.goodOut
  have c1 := cube_back h.good
  have c2 := cube_back h.goodOut
  have m1 := mkAMat_nodes h.good
  have m2 := mkAMat_nodes h.goodOut
  rw [h.grid] at a1 c1 m1
  rw [h.gridOut] at a2 c2 m2
  let l : FitsFile ℝ := [(.data, .settings K.nredshift (Arith.trunc K.range.1) (Arith.trunc K.range.2) K.abcorrect),
        (.redshifts, .image (.vec K.redshifts)), (.responses, .names K.responses),
        (.responsesOut, .names K.responsesOut), (.responsesMap, .names K.responsesMap),
        (.A, .image (.arr [K.redshifts.length, A.nrow] A.ncol A.ys.flatten)),
        (.Aout, .image (.arr [K.redshifts.length, Ao.nrow] Ao.ncol Ao.ys.flatten))]
  have hh : K.hdus = .ok l := by
    unfold Kc.hdus
    rw [h.hA, h.hAo]
    simp only [ok_bind, a1, a2, n1, n2, n3]
    rfl
  refine ⟨tf ++ l, t', ?_, e1, e2, e3, e4, e5, e6, e7, e8, ?_⟩
  · unfold Kc.tofits
    rw [h.tpl]
    simp only [Tpl.tofits, htf, hh, ok_bind]
    rfl
  · intro lib disk dm g g' hl
    have hno : ∀ e : Ext, e ∉ [Ext.primary, .flux, .wave, .intsfh, .mremain, .mets, .m300, .m50, .m1000] → FitsFile.get (tf ++ l) e = FitsFile.get l e := by
      intro e he
      refine get_append_not (fun x hx hxe => he ?_)
      rw [← hxe]; exact (tmpl_names htf).1 x hx
    have g1 : FitsFile.get (tf ++ l) .data = .ok (.settings K.nredshift (Arith.trunc K.range.1) (Arith.trunc K.range.2) K.abcorrect) := hno _ (by simp)
    have g2 : FitsFile.get (tf ++ l) .redshifts = .ok (.image (.vec K.redshifts)) := hno _ (by simp)
    have g3 : FitsFile.get (tf ++ l) .responses = .ok (.names K.responses) := hno _ (by simp)
    have g4 : FitsFile.get (tf ++ l) .responsesOut = .ok (.names K.responsesOut) := hno _ (by simp)
    have g5 : FitsFile.get (tf ++ l) .responsesMap = .ok (.names K.responsesMap) := hno _ (by simp)
    have g6 : FitsFile.get (tf ++ l) .A = .ok (.image (.arr [K.redshifts.length, A.nrow] A.ncol A.ys.flatten)) := hno _ (by simp)
    have g7 : FitsFile.get (tf ++ l) .Aout = .ok (.image (.arr [K.redshifts.length, Ao.nrow] Ao.ncol Ao.ys.flatten)) := hno _ (by simp)
    unfold Kc.fromfits
    rw [tmpl_fromfits_append htf rfl, hfr]
    unfold FitsFile.vec FitsFile.names FitsFile.cube FitsFile.image
    rw [g1, g2, g3, g4, g5, g6, g7]
    simp only [ok_bind, pure_py, NDA.vec, hl, c1, c2, m1, m2, h.imap]
    obtain ⟨⟨_, _, _, _, _, _, _, _⟩, _, _, _, _, _⟩ := K
    have hA := h.hA
    have hAo := h.hAo
    simp only at hA hAo
    subst hA hAo
    rfl

theorem calc_good {lib : Lib ℝ} {disk : Disk ℝ} {lo hi : ℝ} {n : Nat} (hlo : lo < hi) (hn : 2 ≤ n) {R : List Name} {w w' : Shared ℝ}
    {A : AMat ℝ} (h : calcAmatrix lib disk (redshiftGrid lo hi n) R w = (w', .ok A)) : A.Good := by
  obtain ⟨hlen, _, _, hp, _⟩ := C43_grid lo hi n hlo hn
  obtain ⟨_, _, ms, hmk, hall⟩ := calcAmatrix_ok h
  refine (mkAMat_good hmk (hp.imp ne_of_lt) (by omega) ?_).1
  intro M hM
  obtain ⟨i, hi', rfl⟩ := List.mem_iff_getElem.mp hM
  obtain ⟨t, ht, hrow⟩ := (List.forall₂_iff_get.mp hall).2 i (by rw [hall.length_eq]; exact hi') hi'
  obtain ⟨_, h2, _, h4, _⟩ := setRedshift_fields w.sed ((redshiftGrid lo hi n).get ⟨i, by rw [hall.length_eq]; exact hi'⟩)
  rw [ht] at h2 h4
  simp only at h2 h4
  have hns : t.nsed = w.sed.nsed := by rw [Sed.nsed, Sed.nsed, h2]
  have hf : t.flux.length = t.nsed := by rw [h4, Sed.nsed, h2]; simp
  rw [mapM_ok_iff] at hrow
  refine ⟨hrow.length_eq.symm, ?_⟩
  intro row hr
  obtain ⟨j, hj, rfl⟩ := List.mem_iff_getElem.mp hr
  have := (List.forall₂_iff_get.mp hrow).2 j (by rw [hrow.length_eq]; exact hj) hj
  rw [← hns]
  exact respRow_length hf this

/-- Every object constructed from templates on at least two redshifts can be saved. -/
theorem constructed_savable (lib : Lib ℝ) (disk : Disk ℝ) (cls : Cls) (R : List Name) (t : Tmpl ℝ) (out rmap : Option (List Name)) (lo hi : ℝ)
    (n : Nat) (ab : Bool) (dm : ℝ → ℝ) (g : Reg ℝ) (w' : Shared ℝ) (K : Kc ℝ) (hlo : lo < hi) (hn : 2 ≤ n) (hr : Rect t.toSed)
    (h2 : 2 ≤ t.restWave.length) (h : Kc.init lib disk cls R (.template t) out rmap lo hi n ab dm ⟨g, t.toSed⟩ = (w', .ok K)) :
    ∃ A Ao, Savable K t A Ao := by
  obtain ⟨w1, A, hA, hF, h3, h4, _, h5, _, hout⟩ := init_ok h
  have e1 : K.templates = .template t := by rw [hF]; rfl
  have e2 : K.Amatrix = some A := by rw [hF]
  have e3 : K.redshifts = redshiftGrid lo hi n := by rw [hF]; rfl
  have e4 : K.responses = R := by rw [hF]; rfl
  have gx := (calc_grid hlo hn hA).1
  have gg := calc_good hlo hn hA
  rcases hout with ⟨_, ho, _⟩ | ⟨_, Ao, hAo, ho⟩
  · exact ⟨A, A, e1, hr, h2, e2, ho, gg, gg, by rw [gx, e3], by rw [gx, e3], by rw [e4, h4, h5]⟩
  · exact ⟨A, Ao, e1, hr, h2, e2, ho, gg, calc_good hlo hn hAo, by rw [gx, e3], by rw [(calc_grid hlo hn hAo).1, e3], by rw [e4, h4, h5]⟩

/-! ### The registry after reopening -/

section reg
variable {α : Type} [Arith α]

/-- `loadMissing` touches only the names it is given. -/
theorem loadMissing_other (lib : Lib α) (disk : Disk α) (m : Name) : ∀ (l : List Name) (g : Reg α), m ∉ l →
    (loadMissing lib disk l g).1 m = g m := by
  intro l
  induction l with
  | nil => intro g _; rfl
  | cons a t ih =>
    intro g hm
    have ha : m ≠ a := fun e => hm (by simp [e])
    have ht : m ∉ t := fun e => hm (by simp [e])
    have h1 := loadResponse_other lib disk a m false g ha
    unfold loadMissing
    cases hl : loadResponse lib disk a false g with
    | mk g1 r =>
      rw [hl] at h1
      cases r with
      | error e => exact h1
      | ok u => exact (ih g1 ht).trans h1

theorem loadMissing_present (lib : Lib α) (disk : Disk α) : ∀ (l : List Name) (g : Reg α), (∀ n ∈ l, (g n).isSome) →
    loadMissing lib disk l g = (g, .ok ()) := by
  intro l
  induction l with
  | nil => intro g _; rfl
  | cons a t ih =>
    intro g h
    unfold loadMissing
    rw [loadResponse_cached lib disk a g (h a (by simp))]
    exact ih g (fun n hn => h n (by simp [hn]))

theorem loadResponse_isSome (lib : Lib α) (disk : Disk α) (n m : Name) (g : Reg α) (h : (g m).isSome) :
    ((loadResponse lib disk n false g).1 m).isSome := by
  by_cases e : m = n
  · rw [e]; exact loadResponse_present lib disk n false g
  · rw [loadResponse_other lib disk n m false g e]; exact h

theorem loadMissing_loads (lib : Lib α) (disk : Disk α) : ∀ (l : List Name) (g g' : Reg α), loadMissing lib disk l g = (g', .ok ()) →
    (∀ m, (g m).isSome → (g' m).isSome) ∧ ∀ n ∈ l, (g' n).isSome := by
  intro l
  induction l with
  | nil => intro g g' h; cases h; exact ⟨fun _ h => h, by simp⟩
  | cons a t ih =>
    intro g g' h
    unfold loadMissing at h
    have hk := loadResponse_isSome lib disk a (g := g)
    have hp := loadResponse_present lib disk a false g
    cases hl : loadResponse lib disk a false g with
    | mk g1 r =>
      rw [hl] at h hk hp
      cases r with
      | error e => cases h
      | ok u =>
        obtain ⟨h1, h2⟩ := ih g1 g' h
        refine ⟨fun m hm => h1 m (hk m hm), ?_⟩
        intro n hn
        rcases List.mem_cons.mp hn with rfl | hn
        · exact h1 n hp
        · exact h2 n hn

/-- Without the entry of an output band `derived` does not return. -/
theorem derived_needs_out (K : Kc α) (g : Reg α) (n : Name) (hn : n ∈ K.responsesOut) (hg : g n = none) (z c d : Option (NDA α)) (bs : α) (D : Derived α) :
    K.derived g z c bs d ≠ .ok D := by
  intro h
  obtain ⟨_, _, ⟨s, hs⟩, _⟩ := derived_ok h
  rw [mapM_ok_iff] at hs
  obtain ⟨i, hi, rfl⟩ := List.mem_iff_getElem.mp hn
  have := (List.forall₂_iff_get.mp hs).2 i hi (by rw [← hs.length_eq]; exact hi)
  simp only [List.get_eq_getElem, solarOf, hg, error_bind] at this
  cases this

end reg

/-! ### C83 -/

/-- All the answers of two objects are the same: same bands, mapping and redshifts, same matrices, and the same result of every method
for every input. -/
structure SameAnswers (K L : Kc ℝ) : Prop where
  responses : K.responses = L.responses
  out : K.responsesOut = L.responsesOut
  map : K.responsesMap = L.responsesMap
  redshifts : K.redshifts = L.redshifts
  A : K.Amatrix = L.Amatrix
  Aout : K.AmatrixOut = L.AmatrixOut
  fit : ∀ nnls, K.toFitter.fitCoeffs nnls = L.toFitter.fitCoeffs nnls
  reconstruct : K.toFitter.reconstruct = L.toFitter.reconstruct
  reconstructOut : K.reconstructOut = L.reconstructOut
  kcorrect : K.kcorrect = L.kcorrect
  absmag : K.absmag = L.absmag
  absmagMc : K.absmagMc = L.absmagMc
  derived : K.derived = L.derived
  derivedMc : K.derivedMc = L.derivedMc

/-- C83 for an object without AB correction (or of the class `Kcorrect`), with band names of at most 200 characters: saved and reopened
with the same cosmology in a process where its responses load, it gives the same answers.  Missing (false, `C83_false_class`,
`C83_false_names`): the classes with an AB correction switched on, and longer names. -/
theorem C83_reopened_partial (K : Kc ℝ) (t : Tmpl ℝ) (A Ao : AMat ℝ) (h : Savable K t A Ao)
    (hn : ∀ n ∈ K.responses ++ K.responsesOut ++ K.responsesMap, FitsOK n) (hF : NoAb K.toFitter) :
    ∃ f, K.tofits = .ok f ∧ ∀ lib disk g g', loadMissing lib disk K.responses g = (g', .ok ()) →
      ∃ K', Kc.fromfits lib disk f K.distmod g = (g', .ok K') ∧ SameAnswers K' K := by
  obtain ⟨f, t', hf, e1, e2, e3, e4, e5, e6, e7, e8, ho⟩ := reopen K t A Ao h hn
  refine ⟨f, hf, ?_⟩
  intro lib disk g g' hl
  refine ⟨_, ho lib disk K.distmod g g' hl, ?_⟩
  have hT : (Tpl.template t').nsed = K.templates.nsed := by
    rw [h.tpl]
    simp only [Tpl.nsed, Tpl.toSed, Sed.nsed, e2]
  have al : Alike { K with cls := .base, templates := .template t', range := (Arith.trunc K.range.1, Arith.trunc K.range.2), distmod := K.distmod } K := by
    refine ⟨?_, hT, rfl, rfl, rfl, rfl, rfl, rfl⟩
    rw [← processInputs_cls K.toFitter hF]
    exact processInputs_congr { K.toFitter with cls := .base } (.template t') _ hT
  exact ⟨rfl, rfl, rfl, rfl, rfl, rfl, al.fit, al.recon, al.reconOut, al.kcorrect, al.absmag, al.absmagMc,
    al.derived (s := t') (t := t) rfl h.tpl ⟨e3, e4, e5, e8, e6, e7⟩, al.derivedMc (s := t') (t := t) rfl h.tpl ⟨e3, e4, e5, e8, e6, e7⟩⟩

/-- C83, C85 for every object made by the constructor (same restrictions): reopened in a process in the state in which the object was
made, it gives the same answers; and if its output bands are among its input bands, everything it needs is loaded again.  Missing
(false, `C85_false`): other output bands. -/
theorem C85_constructed_partial (lib : Lib ℝ) (disk : Disk ℝ) (cls : Cls) (R : List Name) (t : Tmpl ℝ) (out rmap : Option (List Name)) (lo hi : ℝ)
    (n : Nat) (ab : Bool) (dm : ℝ → ℝ) (g : Reg ℝ) (w' : Shared ℝ) (K : Kc ℝ) (hlo : lo < hi) (hn : 2 ≤ n) (hr : Rect t.toSed)
    (h2 : 2 ≤ t.restWave.length) (h : Kc.init lib disk cls R (.template t) out rmap lo hi n ab dm ⟨g, t.toSed⟩ = (w', .ok K))
    (hnm : ∀ n ∈ K.responses ++ K.responsesOut ++ K.responsesMap, FitsOK n) (hF : ab = false ∨ cls = .base) :
    ∃ f g' K', K.tofits = .ok f ∧ Kc.fromfits lib disk f dm g = (g', .ok K') ∧ SameAnswers K' K ∧
      (K.responsesOut ⊆ K.responses → g' = w'.reg) := by
  obtain ⟨A, Ao, hs⟩ := constructed_savable lib disk cls R t out rmap lo hi n ab dm g w' K hlo hn hr h2 h
  obtain ⟨w1, A1, hA, hFe, h3, h4, _, h5, h6, hout⟩ := init_ok h
  have e4 : K.responses = R := by rw [hFe]; rfl
  have hNo : NoAb K.toFitter := by rw [hFe]; exact hF
  obtain ⟨f, hf, hre⟩ := C83_reopened_partial K t A Ao hs hnm hNo
  have hl := (calcAmatrix_ok hA).1
  simp only at hl
  rw [← e4] at hl
  obtain ⟨K', ho, hsame⟩ := hre lib disk g w1.reg hl
  rw [h6] at ho
  refine ⟨f, w1.reg, K', hf, ho, hsame, ?_⟩
  intro hsub
  rcases hout with ⟨_, _, hw⟩ | ⟨_, Ao', hAo, _⟩
  · rw [hw]
  · have hl2 := (calcAmatrix_ok hAo).1
    rw [loadMissing_present lib disk _ _ (fun n hn => (loadMissing_loads lib disk _ _ _ hl).2 n (hsub (by rw [h3]; exact hn)))] at hl2
    exact (Prod.mk.inj hl2).1

/-- What is opened from the file of any object. -/
theorem fromfits_settings {K : Kc ℝ} {f : FitsFile ℝ} (hf : K.tofits = .ok f) {lib : Lib ℝ} {disk : Disk ℝ} {dm : ℝ → ℝ} {g g' : Reg ℝ}
    {K' : Kc ℝ} (ho : Kc.fromfits lib disk f dm g = (g', .ok K')) :
    K'.cls = .base ∧ K'.responses = K.responses.map fitsName ∧ K'.responsesOut = K.responsesOut.map fitsName ∧
      K'.responsesMap = K.responsesMap.map fitsName ∧ K'.redshifts = K.redshifts ∧ K'.nredshift = K.nredshift ∧
      K'.abcorrect = K.abcorrect ∧ K'.range = (Arith.trunc K.range.1, Arith.trunc K.range.2) ∧
      loadMissing lib disk K'.responses g = (g', .ok ()) := by
  unfold Kc.tofits at hf
  obtain ⟨tf, htf, hf⟩ := bind_ok_iff.mp hf
  obtain ⟨l, hh, hf⟩ := bind_ok_iff.mp hf
  cases hf
  have hno : ∀ e : Ext, e ∉ [Ext.primary, .flux, .wave, .intsfh, .mremain, .mets, .m300, .m50, .m1000] → FitsFile.get (tf ++ l) e = FitsFile.get l e := by
    intro e he
    refine get_append_not (fun x hx hxe => he ?_)
    rw [← hxe]; exact tpl_names htf x hx
  obtain ⟨A, Ao, a, o, _, _, _, _, rfl⟩ := hdus_ok hh
  have g1 : FitsFile.get (tf ++ _) .data = .ok (.settings K.nredshift (Arith.trunc K.range.1) (Arith.trunc K.range.2) K.abcorrect) := hno .data (by simp)
  have g2 : FitsFile.get (tf ++ _) .redshifts = .ok (.image (.vec K.redshifts)) := hno .redshifts (by simp)
  have g3 : FitsFile.get (tf ++ _) .responses = .ok (.names (K.responses.map fitsName)) := hno .responses (by simp)
  have g4 : FitsFile.get (tf ++ _) .responsesOut = .ok (.names (K.responsesOut.map fitsName)) := hno .responsesOut (by simp)
  have g5 : FitsFile.get (tf ++ _) .responsesMap = .ok (.names (K.responsesMap.map fitsName)) := hno .responsesMap (by simp)
  unfold Kc.fromfits FitsFile.vec FitsFile.names FitsFile.image at ho
  rw [g1, g2, g3, g4, g5] at ho
  simp only [ok_bind, pure_py, NDA.vec] at ho
  cases ht : Tmpl.fromfits (tf ++ _) false with
  | error e => rw [ht] at ho; cases ho
  | ok t =>
    rw [ht] at ho
    simp only [ok_bind] at ho
    cases hl : loadMissing lib disk (K.responses.map fitsName) g with
    | mk g1 r =>
      rw [hl] at ho
      cases r with
      | error e => cases ho
      | ok u =>
        simp only [Prod.mk.injEq, bind_ok_iff] at ho
        obtain ⟨rfl, _, _, _, _, _, _, _, _, _, _, ho⟩ := ho
        cases ho
        exact ⟨rfl, rfl, rfl, rfl, rfl, rfl, rfl, rfl, hl⟩

/-- C83 is false of band names of more than 200 characters: they are cut, so what is reopened has other bands. -/
theorem C83_false_names (K : Kc ℝ) (f : FitsFile ℝ) (hf : K.tofits = .ok f) (n : Name) (hn : n ∈ K.responses) (hlong : 200 < n.length)
    (lib : Lib ℝ) (disk : Disk ℝ) (dm : ℝ → ℝ) (g g' : Reg ℝ) (K' : Kc ℝ) (ho : Kc.fromfits lib disk f dm g = (g', .ok K')) :
    K'.responses ≠ K.responses := by
  obtain ⟨_, h, _⟩ := fromfits_settings hf ho
  intro e
  rw [← e, h] at hn
  obtain ⟨m, _, rfl⟩ := List.mem_map.mp hn
  have := fitsName_length m
  omega

theorem trunc_eq_iff (x : ℝ) : Arith.trunc x = x ↔ ∃ i : ℤ, x = i := by
  rw [real_trunc]
  constructor
  · intro h
    split at h
    · exact ⟨⌊x⌋, h.symm⟩
    · exact ⟨⌈x⌉, h.symm⟩
  · rintro ⟨i, rfl⟩
    simp

/-- C84: the number of redshifts and the AB setting come back; the redshift range comes back exactly when both ends are whole
numbers.  (False otherwise, `C84_false`.) -/
theorem C84_settings_partial (K : Kc ℝ) (f : FitsFile ℝ) (hf : K.tofits = .ok f) (lib : Lib ℝ) (disk : Disk ℝ) (dm : ℝ → ℝ) (g g' : Reg ℝ)
    (K' : Kc ℝ) (ho : Kc.fromfits lib disk f dm g = (g', .ok K')) :
    K'.nredshift = K.nredshift ∧ K'.abcorrect = K.abcorrect ∧ (K'.range = K.range ↔ ∃ i j : ℤ, K.range = (↑i, ↑j)) := by
  obtain ⟨_, _, _, _, _, h1, h2, h3, _⟩ := fromfits_settings hf ho
  refine ⟨h1, h2, ?_⟩
  rw [h3]
  obtain ⟨lo, hi⟩ := K.range
  simp only [Prod.mk.injEq, trunc_eq_iff]
  constructor
  · rintro ⟨⟨i, hi⟩, j, hj⟩; exact ⟨i, j, hi, hj⟩
  · rintro ⟨i, j, hi, hj⟩; exact ⟨⟨i, hi⟩, j, hj⟩

/-- C85 is false: an object with an output band that is not an input band, reopened in a process that has not loaded that band, cannot
compute derived quantities. -/
theorem C85_false_out (K : Kc ℝ) (f : FitsFile ℝ) (hf : K.tofits = .ok f) (hn : ∀ n ∈ K.responses ++ K.responsesOut, FitsOK n) (n : Name)
    (hout : n ∈ K.responsesOut) (hin : n ∉ K.responses) (lib : Lib ℝ) (disk : Disk ℝ) (dm : ℝ → ℝ) (g g' : Reg ℝ) (hg : g n = none)
    (K' : Kc ℝ) (ho : Kc.fromfits lib disk f dm g = (g', .ok K')) (z c d : Option (NDA ℝ)) (bs : ℝ) (D : Derived ℝ) :
    K'.derived g' z c bs d ≠ .ok D := by
  obtain ⟨_, h1, h2, _, _, _, _, _, hl⟩ := fromfits_settings hf ho
  have names : ∀ l : List Name, (∀ n ∈ l, FitsOK n) → l.map fitsName = l := by
    intro l hl
    conv_rhs => rw [← List.map_id l]
    exact List.map_congr_left (fun n hn => fitsName_ok (hl n hn))
  rw [names _ (fun n h => hn n (by simp [h]))] at h1 h2
  refine derived_needs_out K' g' n (by rw [h2]; exact hout) ?_ z c d bs D
  have := loadMissing_other lib disk n K'.responses g (by rw [h1]; exact hin)
  rw [hl] at this
  exact this.trans hg

/-! ### Not vacuous (C84–C87, C96) -/

/-- bands x in and y out, matrices on the redshifts 0, 1, 3; range 1/10 to 3 -/
noncomputable def demoSave : Kc ℝ := { demoMass with redshifts := [0, 1, 3], range := (1 / 10, 3) }

theorem demoSave_savable : Savable demoSave demoTmpl demoAm demoAm := by
  refine ⟨rfl, ?_, by simp [demoTmpl], rfl, rfl, demoAm_good, demoAm_good, rfl, rfl, rfl⟩
  simp [Rect, demoTmpl]

theorem demoSave_names : ∀ n ∈ demoSave.responses ++ demoSave.responsesOut ++ demoSave.responsesMap, FitsOK n := by
  intro n hn
  simp only [demoSave, demoMass, demoFitter, Fitter.mk', List.cons_append, List.nil_append, List.mem_cons, List.not_mem_nil, or_false] at hn
  rcases hn with rfl | rfl | rfl <;> exact ⟨by simp, by simp⟩

/-- a fresh process in which x can be loaded -/
theorem demo_fresh : ∃ g', loadMissing demoLib demoDisk demoSave.responses (fun _ => none) = (g', .ok ()) := by
  obtain ⟨g', h⟩ := demo_load
  refine ⟨g', ?_⟩
  show loadMissing demoLib demoDisk [['x']] _ = _
  unfold loadMissing
  rw [h]
  rfl

/-- An object that can be saved passes through the states of `saveStates`. -/
theorem states_exist {K : Kc ℝ} {f : FitsFile ℝ} (hf : K.tofits = .ok f) : ∃ states, K.saveStates = .ok states := by
  unfold Kc.saveStates
  have h0 := hf
  unfold Kc.tofits at h0
  obtain ⟨tf, htf, _⟩ := bind_ok_iff.mp h0
  rw [hf, ok_bind]
  cases hT : K.templates with
  | sed s =>
    rw [hT] at htf
    unfold Tpl.tofits at htf
    simp only at htf
    simp only [htf, ok_bind]
    exact ⟨_, rfl⟩
  | template t =>
    rw [hT] at htf
    unfold Tpl.tofits at htf
    simp only at htf
    have h1 := htf
    unfold Tmpl.tofits at h1
    obtain ⟨s, hs, _⟩ := bind_ok_iff.mp h1
    simp only [htf, hs, ok_bind]
    exact ⟨_, rfl⟩

/-- C83, C84, C86, C96: an object that is saved and reopened in a fresh process. -/
theorem demo_saved : ∃ f states g' K', demoSave.tofits = .ok f ∧ demoSave.saveStates = .ok states ∧
    Kc.fromfits demoLib demoDisk f demoSave.distmod (fun _ => none) = (g', .ok K') ∧ SameAnswers K' demoSave := by
  obtain ⟨f, hf, h⟩ := C83_reopened_partial demoSave demoTmpl demoAm demoAm demoSave_savable demoSave_names (Or.inl rfl)
  obtain ⟨g', hg⟩ := demo_fresh
  obtain ⟨K', hK, hs⟩ := h _ _ _ _ hg
  obtain ⟨states, hst⟩ := states_exist hf
  exact ⟨f, states, g', K', hf, hst, hK, hs⟩

/-- C84 is false: the range (0.1, 3) is reopened as (0, 3). -/
theorem C84_false : ∃ (K K' : Kc ℝ) (f : FitsFile ℝ) (g' : Reg ℝ), K.tofits = .ok f ∧
    Kc.fromfits demoLib demoDisk f K.distmod (fun _ => none) = (g', .ok K') ∧ K.range = (1 / 10, 3) ∧ K'.range = (0, 3) := by
  obtain ⟨f, _, g', K', hf, _, hK, _⟩ := demo_saved
  obtain ⟨_, _, _, _, _, _, _, h, _⟩ := fromfits_settings hf hK
  refine ⟨demoSave, K', f, g', hf, hK, rfl, ?_⟩
  rw [h]
  simp only [demoSave, real_trunc]
  norm_num

/-- C85 is false: `derived` works on the object and never on what is reopened from its file in a fresh process. -/
theorem C85_false : ∃ (K K' : Kc ℝ) (f : FitsFile ℝ) (g g' : Reg ℝ), K.tofits = .ok f ∧
    Kc.fromfits demoLib demoDisk f K.distmod (fun _ => none) = (g', .ok K') ∧
    (∃ D, K.derived g (some (.scalar 1)) (some (.vec [2, 1])) 0 none = .ok D) ∧
    ∀ z c d bs D, K'.derived g' z c bs d ≠ .ok D := by
  obtain ⟨f, _, g', K', hf, _, hK, _⟩ := demo_saved
  refine ⟨demoSave, K', f, demoReg, g', hf, hK, ?_, ?_⟩
  · exact (derived_returns (t := demoTmpl) (Ao := demoAm) ⟨rfl, demoMass_ok.mass, rfl⟩ demoReg 1 [2, 1] rfl 0).mpr ⟨⟨_, demoAm_at0⟩, _, demoSolar⟩
  · intro z c d bs D
    exact C85_false_out demoSave f hf (fun n hn => demoSave_names n (by simp only [List.mem_append] at hn ⊢; exact Or.inl hn)) ['y'] (by simp [demoSave, demoMass])
      (by simp [demoSave, demoMass, demoFitter, Fitter.mk']) demoLib demoDisk _ _ _ rfl K' hK z c d bs D

/-- C85_constructed_partial: the constructor returns an object on ten redshifts whose output bands are its input bands. -/
example : ∃ w' K, Kc.init demoLib demoDisk .base [['x']] (.template { demoTmpl with toSed := demoShared.sed }) none none 0 2 10 false (fun z => z)
    ⟨fun _ => none, demoShared.sed⟩ = (w', .ok K) ∧ Rect demoShared.sed ∧ 2 ≤ demoShared.sed.restWave.length := by
  obtain ⟨w', K, h⟩ := (demo_init (.template { demoTmpl with toSed := demoShared.sed }) (fun z => z)).1
  exact ⟨w', K, h, by simp [Rect, demoShared], by simp [demoShared]⟩

/-- C83_false_names: an object whose band has a name of 201 characters is saved and reopened (where the name of 200 characters is loaded). -/
example : ∃ (K K' : Kc ℝ) (f : FitsFile ℝ) (n : Name) (g g' : Reg ℝ), K.tofits = .ok f ∧ n ∈ K.responses ∧ 200 < n.length ∧
    Kc.fromfits demoLib demoDisk f K.distmod g = (g', .ok K') := by
  have e1 : fitsName (List.replicate 201 'x') = List.replicate 200 'x' := by
    have h : FitsOK (List.replicate 200 'x') := ⟨by rw [List.length_replicate], by rw [List.getLast?_replicate, if_neg (by norm_num)]; decide⟩
    rw [← fitsName_ok h]
    unfold fitsName
    rw [List.take_replicate, List.take_replicate]
    rfl
  have hok : FitsOK (List.replicate 200 'x') := ⟨by rw [List.length_replicate], by rw [List.getLast?_replicate, if_neg (by norm_num)]; decide⟩
  let K2 : Kc ℝ := { demoSave with responses := [List.replicate 200 'x'], responsesMap := [List.replicate 200 'x'] }
  let K1 : Kc ℝ := { demoSave with responses := [List.replicate 201 'x'], responsesMap := [List.replicate 201 'x'] }
  have hs := demoSave_savable
  have h2 : Savable K2 demoTmpl demoAm demoAm := ⟨hs.tpl, hs.rect, hs.waves, hs.hA, hs.hAo, hs.good, hs.goodOut, hs.grid, hs.gridOut, by
    show imapOf [List.replicate 200 'x'] [List.replicate 200 'x'] = .ok [0]
    rw [imapOf_ok_iff]
    simp⟩
  obtain ⟨f, t', hf, _, _, _, _, _, _, _, _, ho⟩ := reopen K2 demoTmpl demoAm demoAm h2 (by
    intro n hn
    simp only [K2, demoSave, demoMass, List.cons_append, List.nil_append, List.mem_cons, List.not_mem_nil, or_false] at hn
    rcases hn with rfl | rfl | rfl
    · exact hok
    · exact ⟨by simp, by simp⟩
    · exact hok)
  have e : K1.tofits = K2.tofits := by
    unfold Kc.tofits Kc.hdus
    simp only [K1, K2, List.map_cons, List.map_nil, e1, fitsName_ok hok]
  refine ⟨K1, _, f, List.replicate 201 'x', fun _ => some RespObj.empty, _, e.trans hf, List.mem_singleton.mpr rfl, by rw [List.length_replicate]; norm_num, ho demoLib demoDisk _ _ _ (loadMissing_present _ _ _ _ (fun _ _ => rfl))⟩

end KC
