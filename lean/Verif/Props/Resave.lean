import Verif.Props.KFiles
import Verif.Props.FloatMag
import Verif.Lemmas.Ieee

/-!
# Saving what was read back (C152)
-/

namespace KC
open Spec

section generic
variable {α : Type} [Arith α]

theorem layoutRound_idem (h32 : ∀ x : α, f32 (f32 x) = f32 x) (b : Bool) (l : List α) :
    (l.map (layoutRound b)).map (layoutRound b) = l.map (layoutRound b) := by
  rw [List.map_map]
  refine List.map_congr_left (fun x _ => ?_)
  cases b <;> simp [layoutRound, h32]

/-- The file of an SED depends only on its rest frame arrays and its layout. -/
theorem sed_tofits_congr {s t : Sed α} (hb : t.binimage = s.binimage) (hw : t.restWave = s.restWave) (hf : t.restFlux = s.restFlux) (ext : Ext) :
    t.tofits ext = s.tofits ext := by
  unfold Sed.tofits
  rw [hb, hw, hf]

/-- Rounding first what the layout rounds anyway does not change the file. -/
theorem sed_tofits_round (h32 : ∀ x : α, f32 (f32 x) = f32 x) {s t : Sed α} (hb : t.binimage = s.binimage)
    (hw : t.restWave = s.restWave.map (layoutRound s.binimage))
    (hf : t.restFlux = s.restFlux.map (List.map (layoutRound s.binimage))) (ext : Ext) : t.tofits ext = s.tofits ext := by
  unfold Sed.tofits
  rw [hb, hw, hf]
  cases hbi : s.binimage
  · have e : ∀ l : List α, (l.map (layoutRound false)).map f32 = l.map f32 := by
      intro l
      rw [List.map_map]
      exact List.map_congr_left (fun x _ => by simp [layoutRound, h32])
    have e2 : (s.restFlux.map (List.map (layoutRound false))).map (List.map f32) = s.restFlux.map (List.map f32) := by
      rw [List.map_map]
      exact List.map_congr_left (fun l _ => e l)
    rw [e, e2]
    simp only [Bool.false_eq_true, if_false, List.mem_map, forall_exists_index, and_imp, forall_apply_eq_imp_iff₂, List.length_map]
  · have e : ∀ l : List α, l.map (layoutRound true) = l := by
      intro l
      conv_rhs => rw [← List.map_id l]
      exact List.map_congr_left (fun x _ => by simp [layoutRound])
    have e2 : s.restFlux.map (List.map (layoutRound true)) = s.restFlux := by
      conv_rhs => rw [← List.map_id s.restFlux]
      exact List.map_congr_left (fun x _ => by simp [e])
    rw [e, e2]

/-- C152.  An SED object written at any redshift and read back, then written again (at any redshift), gives the same file: the
precision lost by the table layout is lost only once. -/
theorem C152_sed (h32 : ∀ x : α, f32 (f32 x) = f32 x) (s s' : Sed α) (zs zs' : List α) (ext : Ext) (interpolate : Bool) (hp : ext ≠ .primary)
    (hrect : Rect s) (h2 : 2 ≤ s.restWave.length) (f : FitsFile α) (hf : (shifts s zs).tofits ext = .ok f)
    (hi : interpolate = true → ∃ i, mkInterp (s.restWave.map (layoutRound s.binimage))
      (s.restFlux.map (List.map (layoutRound s.binimage))) = .ok i)
    (hr : Sed.fromfits f ext interpolate = .ok s') : (shifts s' zs').tofits ext = .ok f := by
  obtain ⟨f1, s1, hf1, hr1, hw, hfl, _, _, _, hb⟩ := C40_sed_roundtrip_partial s zs ext interpolate hp hrect h2 hi
  rw [hf] at hf1; cases hf1
  rw [hr] at hr1; cases hr1
  obtain ⟨e1, e2, e3, e4⟩ := shifts_rest s zs
  obtain ⟨k1, k2, k3, k4⟩ := shifts_rest s' zs'
  rw [← hf]
  have hs : s'.tofits ext = s.tofits ext := sed_tofits_round h32 hb hw hfl ext
  have a1 : (shifts s' zs').tofits ext = s'.tofits ext := by
    refine sed_tofits_congr ?_ ?_ ?_ ext <;> assumption
  have a2 : (shifts s zs).tofits ext = s.tofits ext := by
    refine sed_tofits_congr ?_ ?_ ?_ ext <;> assumption
  rw [a1, a2, hs]

theorem tmpl_tofits_congr {s t : Tmpl α} (h : t.toSed.tofits .flux = s.toSed.tofits .flux) (h1 : t.intsfh = s.intsfh)
    (h2 : t.mremain = s.mremain) (h3 : t.mets = s.mets) (h4 : t.m300 = s.m300) (h5 : t.m1000 = s.m1000) (h6 : t.m50 = s.m50) :
    t.tofits = s.tofits := by
  unfold Tmpl.tofits
  rw [h, h1, h2, h3, h4, h5, h6]

/-- C152.  The same for a `Template`. -/
theorem C152_template (h32 : ∀ x : α, f32 (f32 x) = f32 x) (t t' : Tmpl α) (interpolate : Bool) (hrect : Rect t.toSed)
    (h2 : 2 ≤ t.restWave.length) (f : FitsFile α) (hf : t.tofits = .ok f)
    (hi : interpolate = true → ∃ i, mkInterp (t.restWave.map (layoutRound t.binimage))
      (t.restFlux.map (List.map (layoutRound t.binimage))) = .ok i)
    (hr : Tmpl.fromfits f interpolate = .ok t') : t'.tofits = .ok f := by
  obtain ⟨f1, t1, hf1, hr1, hw, hfl, _, _, _, hb, h1, h2', h3, h4, h5, h6, _⟩ := C41_template_roundtrip_generic t interpolate hrect h2 hi
  rw [hf] at hf1; cases hf1
  rw [hr] at hr1; cases hr1
  rw [← hf]
  exact tmpl_tofits_congr (sed_tofits_round h32 hb hw hfl .flux) h1 h2' h3 h4 h5 h6

end generic

/-! ### Responses -/

/-- C152.  The curve of a `Response` written, read back and written again gives the same file. -/
theorem C152_response (lib : Lib ℝ) (wave resp : List ℝ) (R R' : Resp ℝ) (h : mkResponse lib wave resp = .ok R)
    (hr : respFromfits lib R.toCurve.tofits = .ok R') : R'.toCurve.tofits = R.toCurve.tofits := by
  rw [C92_response_roundtrip lib wave resp R h] at hr
  cases hr; rfl

/-! ### `Kcorrect` objects -/

theorem dropWhile_head {p : Char → Bool} (l : List Char) (c : Char) (h : (l.dropWhile p).head? = some c) : p c = false := by
  induction l with
  | nil => cases h
  | cons a l ih =>
    rw [List.dropWhile_cons] at h
    split at h
    · exact ih h
    · rename_i hn; cases h; simpa using hn

theorem fitsName_fits (n : Name) : FitsOK (fitsName n) := by
  unfold fitsName
  constructor
  · rw [List.length_reverse]
    refine le_trans (List.dropWhile_sublist _).length_le ?_
    rw [List.length_reverse, List.length_take]; omega
  · intro h
    rw [List.getLast?_reverse] at h
    have := dropWhile_head _ _ h
    simp at this

theorem fitsName_idem (n : Name) : fitsName (fitsName n) = fitsName n := fitsName_ok (fitsName_fits n)

theorem map_fitsName_idem (l : List Name) : (l.map fitsName).map fitsName = l.map fitsName := by
  rw [List.map_map]
  exact List.map_congr_left (fun n _ => fitsName_idem n)

theorem trunc_idem (x : ℝ) : Arith.trunc (Arith.trunc x) = (Arith.trunc x : ℝ) := by
  rw [real_trunc, real_trunc]
  by_cases h : 0 ≤ x
  · have h0 : (0 : ℝ) ≤ (⌊x⌋ : ℝ) := by exact_mod_cast Int.floor_nonneg.mpr h
    rw [if_pos h, if_pos h0, Int.floor_intCast]
  · rw [if_neg h]
    split <;> simp

/-- What opening a file went through. -/
theorem fromfits_steps {lib : Lib ℝ} {disk : Disk ℝ} {f : FitsFile ℝ} {dm : ℝ → ℝ} {g g' : Reg ℝ} {K : Kc ℝ}
    (h : Kc.fromfits lib disk f dm g = (g', .ok K)) :
    ∃ t r m, Tmpl.fromfits f false = .ok t ∧ K.templates = .template t ∧ f.names .responses = .ok r ∧ f.names .responsesMap = .ok m ∧
      loadMissing lib disk r g = (g', .ok ()) ∧ imapOf r m = .ok K.imap := by
  unfold Kc.fromfits at h
  simp only at h
  split at h
  · cases h
  · rename_i t st z r m o hhead
    simp only [bind_ok_iff, pure_py] at hhead
    obtain ⟨t1, ht, y, _, hhead⟩ := hhead
    have : ∃ st1, (do
        let z ← f.vec .redshifts
        let r ← f.names .responses
        let m ← f.names .responsesMap
        let o ← f.names .responsesOut
        return (t1, st1, z, r, m, o)) = (.ok (t, st, z, r, m, o) : Py (Tmpl ℝ × (Nat × ℝ × ℝ × Bool) × List ℝ × List Name × List Name × List Name)) := by
      cases y with
      | settings n lo hi ab => exact ⟨_, hhead⟩
      | _ => cases hhead
    obtain ⟨st1, hhead⟩ := this
    simp only [bind_ok_iff, pure_py] at hhead
    obtain ⟨z1, _, r1, hr, m1, hm, o1, _, he⟩ := hhead
    cases he
    split at h
    · cases h
    · rename_i g2 u hl
      simp only [Prod.mk.injEq, bind_ok_iff, pure_py] at h
      obtain ⟨rfl, a, _, b, _, A, _, Ao, _, im, him, hK⟩ := h
      cases hK
      exact ⟨t, r, m, ht, rfl, hr, hm, hl, him⟩

/-- The names in a saved file. -/
theorem tofits_names_k {K : Kc ℝ} {t : Tmpl ℝ} (ht : K.templates = .template t) {f : FitsFile ℝ} (hf : K.tofits = .ok f) :
    f.names .responses = .ok (K.responses.map fitsName) ∧ f.names .responsesMap = .ok (K.responsesMap.map fitsName) := by
  unfold Kc.tofits at hf
  obtain ⟨tf, htf, hf⟩ := bind_ok_iff.mp hf
  obtain ⟨l, hl, hf⟩ := bind_ok_iff.mp hf
  cases hf
  rw [ht] at htf
  have htf : t.tofits = .ok tf := htf
  obtain ⟨A, Ao, a, o, _, _, _, _, rfl⟩ := hdus_ok hl
  have hno : ∀ (l : FitsFile ℝ) (e : Ext), e ∉ [Ext.primary, .flux, .wave, .intsfh, .mremain, .mets, .m300, .m50, .m1000] →
      FitsFile.get (tf ++ l) e = FitsFile.get l e := by
    intro l e he
    refine get_append_not (fun x hx hxe => he ?_)
    rw [← hxe]; exact (tmpl_names htf).1 x hx
  constructor
  · unfold FitsFile.names
    rw [hno _ _ (by simp)]
    rfl
  · unfold FitsFile.names
    rw [hno _ _ (by simp)]
    rfl

/-- What is written is determined by these attributes. -/
theorem kc_tofits_congr {K L : Kc ℝ} (ht : L.templates.tofits = K.templates.tofits) (hn : L.nredshift = K.nredshift)
    (h1 : (Arith.trunc L.range.1 : ℝ) = Arith.trunc K.range.1) (h2 : (Arith.trunc L.range.2 : ℝ) = Arith.trunc K.range.2)
    (hab : L.abcorrect = K.abcorrect) (hz : L.redshifts = K.redshifts) (hr : L.responses.map fitsName = K.responses.map fitsName)
    (ho : L.responsesOut.map fitsName = K.responsesOut.map fitsName) (hm : L.responsesMap.map fitsName = K.responsesMap.map fitsName)
    (hA : L.Amatrix = K.Amatrix) (hAo : L.AmatrixOut = K.AmatrixOut) : L.tofits = K.tofits := by
  unfold Kc.tofits Kc.hdus
  rw [ht, hn, h1, h2, hab, hz, hr, ho, hm, hA, hAo]

/-- C152.  A `Kcorrect` object (of any class, with any names) saved, opened from the file in any process and saved again gives the same file. -/
theorem C152_kcorrect (K K' : Kc ℝ) (t : Tmpl ℝ) (A Ao : AMat ℝ) (h : Savable K t A Ao) (f : FitsFile ℝ) (hf : K.tofits = .ok f)
    (lib : Lib ℝ) (disk : Disk ℝ) (dm : ℝ → ℝ) (g g' : Reg ℝ) (ho : Kc.fromfits lib disk f dm g = (g', .ok K')) : K'.tofits = .ok f := by
  obtain ⟨t', r, m, hT, hKt, hr, hm, hl, him⟩ := fromfits_steps ho
  obtain ⟨hr', hm'⟩ := tofits_names_k h.tpl hf
  rw [hr] at hr'; cases hr'
  rw [hm] at hm'; cases hm'
  let K₁ : Kc ℝ := { K with responses := K.responses.map fitsName, responsesOut := K.responsesOut.map fitsName,
                            responsesMap := K.responsesMap.map fitsName, imap := K'.imap }
  have hK₁ : K₁.tofits = K.tofits := kc_tofits_congr rfl rfl rfl rfl rfl rfl (map_fitsName_idem _) (map_fitsName_idem _) (map_fitsName_idem _) rfl rfl
  have hs : Savable K₁ t A Ao := ⟨h.tpl, h.rect, h.waves, h.hA, h.hAo, h.good, h.goodOut, h.grid, h.gridOut, him⟩
  obtain ⟨f1, t1, hf1, e1, e2, e3, e4, e5, e6, e7, e8, hop⟩ := reopen K₁ t A Ao hs (by
    intro n hn
    simp only [K₁, List.mem_append, List.mem_map] at hn
    rcases hn with (⟨x, _, rfl⟩ | ⟨x, _, rfl⟩) | ⟨x, _, rfl⟩ <;> exact fitsName_fits x)
  rw [hK₁, hf] at hf1; cases hf1
  have hK' := hop lib disk dm g g' hl
  rw [ho] at hK'
  simp only [Prod.mk.injEq, Except.ok.injEq, true_and] at hK'
  have ht' : t'.tofits = t.tofits := by
    unfold Kc.tofits at hf
    obtain ⟨tf, htf, hf⟩ := bind_ok_iff.mp hf
    obtain ⟨l, hl, hf⟩ := bind_ok_iff.mp hf
    cases hf
    rw [h.tpl] at htf
    have htf : t.tofits = .ok tf := htf
    rw [htf]
    obtain ⟨_, _, _, _, _, _, _, _, hleq⟩ := hdus_ok hl
    rw [tmpl_fromfits_append htf (by rw [hleq]; rfl)] at hT
    exact C152_template (fun _ => rfl) t t' false h.rect h.waves tf htf (by simp) hT
  rw [← hf]
  have := hK'
  refine kc_tofits_congr ?_ ?_ ?_ ?_ ?_ ?_ ?_ ?_ ?_ ?_ ?_
  · rw [hKt, h.tpl]; exact ht'
  all_goals rw [hK']
  · exact trunc_idem _
  · exact trunc_idem _
  · exact map_fitsName_idem _
  · exact map_fitsName_idem _
  · exact map_fitsName_idem _

/-- C152.  In particular every object constructed from templates (all classes, all settings, on at least two redshifts), and any number of times:
each generation opened from the file of the one before writes the same file. -/
theorem C152_generations (K : Nat → Kc ℝ) (t : Tmpl ℝ) (A Ao : AMat ℝ) (h : Savable (K 0) t A Ao) (f : FitsFile ℝ) (hf : (K 0).tofits = .ok f)
    (lib : Lib ℝ) (disk : Nat → Disk ℝ) (dm : Nat → ℝ → ℝ) (g g' : Nat → Reg ℝ)
    (ho : ∀ n fn, (K n).tofits = .ok fn → Kc.fromfits lib (disk n) fn (dm n) (g n) = (g' n, .ok (K (n + 1)))) (n : Nat) :
    (K n).tofits = .ok f := by
  induction n with
  | zero => exact hf
  | succ n ih => exact C152_kcorrect (K 0) (K (n + 1)) t A Ao h f hf lib (disk n) (dm n) (g n) (g' n) (ho n f ih)

/-- non-vacuity: the object of C83's example, opened in a fresh process. -/
example : ∃ f K' g', demoSave.tofits = .ok f ∧ Kc.fromfits demoLib demoDisk f demoSave.distmod (fun _ => none) = (g', .ok K') ∧
    K'.range ≠ demoSave.range ∧ K'.tofits = .ok f := by
  obtain ⟨f, t', hf, _, _, _, _, _, _, _, _, ho⟩ := reopen demoSave demoTmpl demoAm demoAm demoSave_savable demoSave_names
  obtain ⟨g', hl⟩ := demo_fresh
  have hK := ho demoLib demoDisk demoSave.distmod (fun _ => none) g' hl
  refine ⟨f, _, g', hf, hK, ?_, C152_kcorrect _ _ _ _ _ demoSave_savable f hf _ _ _ _ _ hK⟩
  simp only [demoSave, real_trunc, ne_eq, Prod.mk.injEq, not_and]
  intro h
  norm_num at h

/-- Floating point meets the hypothesis on `f32`. -/
example : ∀ x : Fl, f32 (f32 x) = f32 x := f32_f32

end KC
