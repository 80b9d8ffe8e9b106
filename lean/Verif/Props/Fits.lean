import Verif.Model.Fits
import Verif.Lemmas.Fwhm
import Verif.Props.Sed

/-!
# C40, C41, C92: file round trips of SEDs, templates and responses

`Rect s`: the object's rest-frame flux is a rectangular table with at least one spectrum and as many columns as wavelengths.
-/

namespace KC
variable {α : Type} [Arith α]
open Spec

/-- The rest-frame spectra of `s` form an `[nsed, nwave]` table with at least one spectrum. -/
def Rect (s : Sed α) : Prop := s.restFlux ≠ [] ∧ ∀ row ∈ s.restFlux, row.length = s.restWave.length

/-- Precision of a file layout: images keep the values, the table has float32 columns. -/
def layoutRound (binimage : Bool) (x : α) : α := if binimage then x else f32 x

theorem chunks_flatten {β : Type} (k : Nat) : ∀ (rows : List (List β)), (∀ row ∈ rows, row.length = k) →
    NDA.chunks k rows.length rows.flatten = rows := by
  intro rows
  induction rows with
  | nil => intro _; rfl
  | cons a t ih =>
    intro h
    have ha := h a (List.mem_cons_self)
    simp only [List.length_cons, NDA.chunks, List.flatten_cons]
    rw [← ha, List.take_left, List.drop_left, ha, ih (fun r hr => h r (List.mem_cons_of_mem _ hr))]

theorem flatten_length_rect {β : Type} (k : Nat) (rows : List (List β)) (h : ∀ row ∈ rows, row.length = k) :
    rows.flatten.length = rows.length * k := by
  induction rows with
  | nil => simp
  | cons a t ih =>
    simp only [List.flatten_cons, List.length_append, List.length_cons]
    rw [ih (fun r hr => h r (List.mem_cons_of_mem _ hr)), h a (List.mem_cons_self)]
    ring

/-- Reading stored arrays of matching shape. -/
theorem ofStored_ok (wave : List α) (lead : List Nat) (rows : List (List α)) (ip bi : Bool) (h1 : wave.length ≠ 1)
    (hlead : lead.getLast? = some rows.length) (h2 : ∀ row ∈ rows, row.length = wave.length) :
    Sed.ofStored wave (.arr lead wave.length rows) ip bi = Sed.setup wave (.arr [rows.length] wave.length rows) ip bi := by
  have hf : fluxFlat (.arr lead wave.length rows) = .ok (rows.length, rows.flatten) := by
    cases lead with
    | nil => simp at hlead
    | cons a l =>
      simp only [fluxFlat]
      rw [List.getLastD_eq_getLast?, hlead]; rfl
  simp only [Sed.ofStored, hf, ok_bind, require_true h1, require_true (flatten_length_rect _ rows h2), chunks_flatten _ rows h2]

/-- C40, for spectra with at least two wavelengths.  Whatever redshift the object is at, `tofits` writes a file from which `SED(filename)`
makes an object with the rest-frame wavelengths and fluxes of the original, to the precision of the file layout, at redshift 0
and in the same layout.  With interpolation, the stored wavelengths must still be acceptable to the interpolator.
The extension name may be anything but the reserved `PRIMARY`.  Missing: spectra with a single wavelength (`C40_false`). -/
theorem C40_sed_roundtrip_partial (s : Sed α) (zs : List α) (ext : Ext) (interpolate : Bool) (hp : ext ≠ .primary) (hrect : Rect s)
    (h2 : 2 ≤ s.restWave.length)
    (hi : interpolate = true → ∃ i, mkInterp (s.restWave.map (layoutRound s.binimage))
      (s.restFlux.map (List.map (layoutRound s.binimage))) = .ok i) :
    ∃ f s', (shifts s zs).tofits ext = .ok f ∧ Sed.fromfits f ext interpolate = .ok s' ∧
      s'.restWave = s.restWave.map (layoutRound s.binimage) ∧
      s'.restFlux = s.restFlux.map (List.map (layoutRound s.binimage)) ∧
      s'.wave = s'.restWave ∧ s'.flux = s'.restFlux ∧ s'.redshift = lit 0 ∧ s'.binimage = s.binimage := by
  obtain ⟨e1, e2, e3, e4⟩ := shifts_rest s zs
  obtain ⟨hne, hrow⟩ := hrect
  have hround : ∀ l : List α, l.map (layoutRound s.binimage) = if s.binimage then l else l.map f32 := by
    intro l
    cases s.binimage
    · simp [layoutRound]
    · conv_rhs => rw [if_pos rfl, ← List.map_id l]
      exact List.map_congr_left (fun x _ => by simp [layoutRound])
  have hsetup : ∀ bi, ∃ s', Sed.setup (s.restWave.map (layoutRound s.binimage))
      (.arr [(s.restFlux.map (List.map (layoutRound s.binimage))).length] (s.restWave.map (layoutRound s.binimage)).length
        (s.restFlux.map (List.map (layoutRound s.binimage)))) interpolate bi = .ok s' ∧
      s'.restWave = s.restWave.map (layoutRound s.binimage) ∧
      s'.restFlux = s.restFlux.map (List.map (layoutRound s.binimage)) ∧
      s'.wave = s'.restWave ∧ s'.flux = s'.restFlux ∧ s'.redshift = lit 0 ∧ s'.binimage = bi := by
    intro bi
    rw [setup_rows (rows := s.restFlux.map (List.map (layoutRound s.binimage))) (Or.inr ⟨_, _, rfl⟩)]
    cases interpolate with
    | false => exact ⟨_, rfl, rfl, rfl, rfl, rfl, rfl, rfl⟩
    | true =>
      obtain ⟨i, hi⟩ := hi rfl
      simp only [Sed.setInterp, hi, if_true]
      exact ⟨_, rfl, rfl, rfl, rfl, rfl, rfl, rfl⟩
  cases hb : s.binimage with
  | true =>
    have hid : ∀ l : List α, l.map (layoutRound true) = l := by intro l; have := hround l; rw [hb] at this; simpa using this
    have hid2 : ∀ l : List (List α), l.map (List.map (layoutRound true)) = l := by
      intro l
      conv_rhs => rw [← List.map_id l]
      exact List.map_congr_left (fun x _ => hid x)
    obtain ⟨s', hs, h⟩ := hsetup true
    rw [hb, hid, hid2] at hs
    rw [hb] at h
    refine ⟨[(.wave, .image (.vec s.restWave)),
         (.flux, .image (.arr [s.restFlux.length] (s.restFlux.headD []).length s.restFlux))], s', ?_, ?_, h⟩
    · unfold Sed.tofits; rw [e4, hb, e1, e2]; rfl
    · have hh : (s.restFlux.headD []).length = s.restWave.length := by
        cases hr : s.restFlux with
        | nil => exact absurd hr hne
        | cons a t => exact hrow a (by rw [hr]; exact List.mem_cons_self)
      rw [hh]
      have hst := ofStored_ok s.restWave [s.restFlux.length] s.restFlux interpolate true (by omega) rfl hrow
      unfold Sed.fromfits
      have c1 : FitsFile.has ([(.wave, .image (.vec s.restWave)),
         (.flux, .image (.arr [s.restFlux.length] s.restWave.length s.restFlux))] : FitsFile α) .flux = true := rfl
      have c2 : FitsFile.has ([(.wave, .image (.vec s.restWave)),
         (.flux, .image (.arr [s.restFlux.length] s.restWave.length s.restFlux))] : FitsFile α) .wave = true := rfl
      rw [c1, c2]
      simp only [Bool.and_self, if_true]
      show Sed.ofStored s.restWave (.arr [s.restFlux.length] s.restWave.length s.restFlux) interpolate true = _
      rw [hst, hs]
  | false =>
    have hid : ∀ l : List α, l.map (layoutRound false) = l.map f32 := by intro l; have := hround l; rw [hb] at this; simpa using this
    have hid2 : ∀ l : List (List α), l.map (List.map (layoutRound false)) = l.map (List.map f32) := by
      intro l
      exact List.map_congr_left (fun x _ => hid x)
    obtain ⟨s', hs, h⟩ := hsetup false
    rw [hb, hid, hid2] at hs
    rw [hb] at h
    refine ⟨[(.primary, .empty), (ext, .sedTable (s.restWave.map f32) (s.restFlux.map (List.map f32)))], s', ?_, ?_, h⟩
    · unfold Sed.tofits; rw [e4, hb, e1, e2]; simp only [Bool.false_eq_true, if_false]; rw [if_pos hrow]
    · have hrow' : ∀ row ∈ s.restFlux.map (List.map (f32 : α → α)), row.length = (s.restWave.map (f32 : α → α)).length := by
        intro row hr
        rw [List.mem_map] at hr
        obtain ⟨r, hr, rfl⟩ := hr
        simpa using hrow r hr
      have hst := ofStored_ok (s.restWave.map (f32 : α → α)) [1, (s.restFlux.map (List.map (f32 : α → α))).length]
        (s.restFlux.map (List.map f32)) interpolate false (by simp; omega) rfl hrow'
      have c1 : (FitsFile.has ([(.primary, .empty), (ext, .sedTable (s.restWave.map f32) (s.restFlux.map (List.map f32)))]
          : FitsFile α) .flux && FitsFile.has ([(.primary, .empty), (ext, .sedTable (s.restWave.map f32)
            (s.restFlux.map (List.map f32)))] : FitsFile α) .wave) = false := by
        simp only [FitsFile.has, List.any_cons, List.any_nil, Bool.or_false]
        by_cases h1 : ext = .flux
        · subst h1; rfl
        · have : (ext == Ext.flux) = false := by simpa using h1
          rw [this]; rfl
      unfold Sed.fromfits
      rw [c1]
      · have c3 : FitsFile.get ([(.primary, .empty), (ext, .sedTable (s.restWave.map f32) (s.restFlux.map (List.map f32)))]
          : FitsFile α) ext = .ok (.sedTable (s.restWave.map f32) (s.restFlux.map (List.map f32))) := by
          have : (Ext.primary == ext) = false := by simpa using Ne.symm hp
          simp [FitsFile.get, this]
        simp only [c3, ok_bind, Bool.false_eq_true, if_false]
        rw [hst, hs]

/-- C40 fails for a spectrum with a single wavelength (which can be made without interpolation): the file is written but
cannot be read. -/
theorem C40_false : ∃ (s : Sed ℝ) (f : FitsFile ℝ), Sed.mk' [5000] (.arr [1] 1 [[1]]) false = .ok s ∧
    s.tofits .flux = .ok f ∧ Raises (Sed.fromfits f .flux false) := by
  refine ⟨⟨[5000], [[1]], [5000], [[1]], 0, false, none, false⟩,
    [(.primary, .empty), (.flux, .sedTable [5000] [[1]])], ?_, ?_, .typeError, ?_⟩
  · simp [Sed.mk', Sed.setup]
  · simp [Sed.tofits]
  · show Sed.ofStored [5000] (.arr [1, 1] 1 [[1]]) false false = .error .typeError
    simp [Sed.ofStored, fluxFlat, require]

/-- No spectrum with a single wavelength can be read back, whatever its flux, its layout, and the extension name. -/
theorem C40_one_wavelength (s : Sed α) (w : α) (hw : s.restWave = [w]) (ext : Ext) (interpolate : Bool) (hp : ext ≠ .primary) (f : FitsFile α)
    (h : s.tofits ext = .ok f) : Sed.fromfits f ext interpolate = .error .typeError := by
  have hst : ∀ (wave : List α) (a : NDA α) (b : Bool), wave.length = 1 → Sed.ofStored wave a interpolate b = .error .typeError := by
    intro wave a b hl
    have : ∃ p, fluxFlat a = .ok p := by
      unfold fluxFlat
      split <;> exact ⟨_, rfl⟩
    obtain ⟨p, hp⟩ := this
    simp [Sed.ofStored, hp, hl, require]
  unfold Sed.tofits at h
  split at h
  · cases h
    simp only [Sed.fromfits, FitsFile.has, List.any_cons, FitsFile.image, FitsFile.get, hw]
    simp [NDA.vec, hst]
  · split at h
    · cases h
      have c1 : (FitsFile.has ([(.primary, .empty), (ext, .sedTable (s.restWave.map f32) (s.restFlux.map (List.map f32)))] : FitsFile α) .flux &&
          FitsFile.has ([(.primary, .empty), (ext, .sedTable (s.restWave.map f32) (s.restFlux.map (List.map f32)))] : FitsFile α) .wave) = false := by
        cases ext <;> simp [FitsFile.has]
      have c2 : (Ext.primary == ext) = false := by simpa using Ne.symm hp
      unfold Sed.fromfits
      rw [c1]
      simp [FitsFile.get, c2, hst, hw]
    · cases h

/-- Not vacuous: two spectra with four wavelengths, in both layouts, with and without interpolation. -/
example (b ip : Bool) : ∃ s : Sed ℝ, s.binimage = b ∧ Rect s ∧ 2 ≤ s.restWave.length ∧
    (ip = true → ∃ i, mkInterp (s.restWave.map (layoutRound s.binimage))
      (s.restFlux.map (List.map (layoutRound s.binimage))) = .ok i) := by
  refine ⟨⟨[1, 2, 3, 4], [[1, 2, 3, 4], [0, 0, 1, 0]], [1, 2, 3, 4], [[1, 2, 3, 4], [0, 0, 1, 0]], 0, false, none, b⟩, rfl,
    ⟨by simp, by simp⟩, by simp, fun _ => ?_⟩
  have hid : ∀ l : List ℝ, l.map (layoutRound b) = l := by
    intro l
    exact map_id_of (fun x => by simp [layoutRound])
  have hid2 : ∀ l : List (List ℝ), l.map (List.map (layoutRound b)) = l := by
    intro l
    conv_rhs => rw [← List.map_id l]
    exact List.map_congr_left (fun x _ => hid x)
  simp only [hid, hid2]
  exact ⟨_, mkInterp_strict _ _ (by norm_num) (by simp) (by simp)⟩

/-! ### C41 -/

theorem vec_append {f : FitsFile α} {l : FitsFile α} {e : Ext} (h : ∀ x ∈ f, x.1 ≠ e) :
    FitsFile.vec (f ++ l) e = FitsFile.vec l e := by
  have : FitsFile.get (f ++ l) e = FitsFile.get l e := by
    unfold FitsFile.get
    have hf : List.find? (fun h : Ext × Hdu α => h.1 == e) f = none := by
      rw [List.find?_eq_none]
      intro x hx
      simpa using h x hx
    rw [List.find?_append, hf]; rfl
  unfold FitsFile.vec FitsFile.image
  rw [this]

/-- The HDUs of a written SED. -/
theorem tofits_names {s : Sed α} {f : FitsFile α} (h : s.tofits .flux = .ok f) :
    (∀ x ∈ f, x.1 = .primary ∨ x.1 = .flux ∨ x.1 = .wave) ∧ f ≠ [] ∧ FitsFile.has f .flux = true := by
  unfold Sed.tofits at h
  split at h
  · cases h; simp [FitsFile.has]
  · split at h
    · cases h; simp [FitsFile.has]
    · cases h

theorem has_append (f l : FitsFile α) (e : Ext) : FitsFile.has (f ++ l) e = (FitsFile.has f e || FitsFile.has l e) := by
  simp [FitsFile.has]

theorem get_append_of_has {f l : FitsFile α} {e : Ext} (h : FitsFile.has f e = true) :
    FitsFile.get (f ++ l) e = FitsFile.get f e := by
  unfold FitsFile.get
  unfold FitsFile.has at h
  rw [List.find?_append]
  rcases hf : List.find? (fun h : Ext × Hdu α => h.1 == e) f with _ | x
  · rw [List.find?_eq_none] at hf
    rw [List.any_eq_true] at h
    obtain ⟨x, hx, hx'⟩ := h
    exact absurd hx' (hf x hx)
  · rfl

/-- Appending HDUs other than `FLUX` and `WAVE` does not change the SED read from a file. -/
theorem sed_fromfits_append {f l : FitsFile α} (hfl : FitsFile.has f .flux = true) (hl : FitsFile.has l .wave = false)
    (ip : Bool) : Sed.fromfits (f ++ l) .flux ip = Sed.fromfits f .flux ip := by
  unfold Sed.fromfits
  rw [has_append, has_append, hfl, hl]
  simp only [Bool.true_or, Bool.or_false, Bool.true_and]
  have e1 : FitsFile.get (f ++ l) .flux = FitsFile.get f .flux := get_append_of_has hfl
  cases hw : FitsFile.has f .wave with
  | false => simp only [Bool.false_eq_true, if_false, e1]
  | true =>
    have e2 : FitsFile.get (f ++ l) .wave = FitsFile.get f .wave := get_append_of_has hw
    simp only [if_true]
    unfold FitsFile.image
    rw [e1, e2]

/-- C41.  A `Template` written at any redshift and read back has the same spectra (to the precision of the file layout) and the same
six vectors of masses and metallicities; and if the `M50` HDU is removed from the file, everything else is the same and
`m50` is `m300 * 0`. -/
theorem C41_template_roundtrip_generic (t : Tmpl α) (interpolate : Bool) (hrect : Rect t.toSed) (h2 : 2 ≤ t.restWave.length)
    (hi : interpolate = true → ∃ i, mkInterp (t.restWave.map (layoutRound t.binimage))
      (t.restFlux.map (List.map (layoutRound t.binimage))) = .ok i) :
    ∃ f t', t.tofits = .ok f ∧ Tmpl.fromfits f interpolate = .ok t' ∧
      t'.restWave = t.restWave.map (layoutRound t.binimage) ∧
      t'.restFlux = t.restFlux.map (List.map (layoutRound t.binimage)) ∧
      t'.wave = t'.restWave ∧ t'.flux = t'.restFlux ∧ t'.redshift = lit 0 ∧ t'.binimage = t.binimage ∧
      t'.intsfh = t.intsfh ∧ t'.mremain = t.mremain ∧ t'.mets = t.mets ∧ t'.m300 = t.m300 ∧ t'.m1000 = t.m1000 ∧
      t'.m50 = t.m50 ∧
      Tmpl.fromfits (f.filter (fun h => h.1 ≠ .m50)) interpolate = .ok { t' with m50 := t.m300.map (fun m => m * lit 0) } := by
  obtain ⟨f, s', hf, hs', hw, hfl, hw', hfl', hz, hb⟩ := C40_sed_roundtrip_partial t.toSed [] .flux interpolate (by simp) hrect h2 hi
  have hf : t.toSed.tofits .flux = .ok f := hf
  obtain ⟨hn, _, hhas⟩ := tofits_names hf
  have hne : ∀ e : Ext, e ≠ .primary → e ≠ .flux → e ≠ .wave → ∀ x ∈ f, x.1 ≠ e := by
    intro e h1 h2 h3 x hx he
    rcases hn x hx with h | h | h <;> rw [he] at h <;> contradiction
  set l : FitsFile α := [(.intsfh, .image (.vec t.intsfh)), (.mremain, .image (.vec t.mremain)), (.mets, .image (.vec t.mets)),
    (.m300, .image (.vec t.m300)), (.m50, .image (.vec t.m50)), (.m1000, .image (.vec t.m1000))] with hl
  set l' : FitsFile α := [(.intsfh, .image (.vec t.intsfh)), (.mremain, .image (.vec t.mremain)), (.mets, .image (.vec t.mets)),
    (.m300, .image (.vec t.m300)), (.m1000, .image (.vec t.m1000))] with hl'
  have hfilt : (f ++ l).filter (fun h => h.1 ≠ .m50) = f ++ l' := by
    rw [List.filter_append]
    congr 1
    rw [List.filter_eq_self]
    intro x hx
    simpa using hne .m50 (by simp) (by simp) (by simp) x hx
  refine ⟨f ++ l, { toSed := s', intsfh := t.intsfh, mremain := t.mremain, mets := t.mets, m300 := t.m300, m1000 := t.m1000,
                    m50 := t.m50 }, ?_, ?_, hw, hfl, hw', hfl', hz, hb, rfl, rfl, rfl, rfl, rfl, rfl, ?_⟩
  · unfold Tmpl.tofits
    rw [hf]; rfl
  · unfold Tmpl.fromfits
    rw [sed_fromfits_append hhas rfl, hs']
    simp only [ok_bind]
    rw [vec_append (hne .intsfh (by simp) (by simp) (by simp)), vec_append (hne .mremain (by simp) (by simp) (by simp)),
      vec_append (hne .mets (by simp) (by simp) (by simp)), vec_append (hne .m300 (by simp) (by simp) (by simp)),
      vec_append (hne .m1000 (by simp) (by simp) (by simp)), vec_append (hne .m50 (by simp) (by simp) (by simp))]
    rfl
  · rw [hfilt]
    unfold Tmpl.fromfits
    rw [sed_fromfits_append hhas rfl, hs']
    simp only [ok_bind]
    rw [vec_append (hne .intsfh (by simp) (by simp) (by simp)), vec_append (hne .mremain (by simp) (by simp) (by simp)),
      vec_append (hne .mets (by simp) (by simp) (by simp)), vec_append (hne .m300 (by simp) (by simp) (by simp)),
      vec_append (hne .m1000 (by simp) (by simp) (by simp)), vec_append (hne .m50 (by simp) (by simp) (by simp))]
    rfl

/-- C41 in real arithmetic, where a file without `M50` reads as all zeros.  Templates with a single wavelength are excluded as in C40. -/
theorem C41_template_roundtrip_partial (t : Tmpl ℝ) (zs : List ℝ) (interpolate : Bool) (hrect : Rect t.toSed) (h2 : 2 ≤ t.restWave.length)
    (hi : interpolate = true → ∃ i, mkInterp t.restWave t.restFlux = .ok i) :
    ∃ f t', ({ t with toSed := shifts t.toSed zs } : Tmpl ℝ).tofits = .ok f ∧ Tmpl.fromfits f interpolate = .ok t' ∧
      t'.restWave = t.restWave ∧ t'.restFlux = t.restFlux ∧
      t'.intsfh = t.intsfh ∧ t'.mremain = t.mremain ∧ t'.mets = t.mets ∧ t'.m300 = t.m300 ∧ t'.m1000 = t.m1000 ∧
      t'.m50 = t.m50 ∧
      Tmpl.fromfits (f.filter (fun h => h.1 ≠ .m50)) interpolate =
        .ok { t' with m50 := List.replicate t.m300.length 0 } := by
  obtain ⟨e1, e2, e3, e4⟩ := shifts_rest t.toSed zs
  have hid : ∀ l : List ℝ, l.map (layoutRound t.binimage) = l := fun l => map_id_of (fun x => by simp [layoutRound])
  have hid2 : ∀ l : List (List ℝ), l.map (List.map (layoutRound t.binimage)) = l := by
    intro l
    conv_rhs => rw [← List.map_id l]
    exact List.map_congr_left (fun x _ => hid x)
  have hr' : Rect ({ t with toSed := shifts t.toSed zs } : Tmpl ℝ).toSed := by
    simp only [Rect, e1, e2]; exact hrect
  have hi' : interpolate = true → ∃ i, mkInterp ((shifts t.toSed zs).restWave.map (layoutRound (shifts t.toSed zs).binimage))
      ((shifts t.toSed zs).restFlux.map (List.map (layoutRound (shifts t.toSed zs).binimage))) = .ok i := by
    rw [e1, e2, e4, hid, hid2]; exact hi
  obtain ⟨f, t', a1, a2, a3, a4, a5, a6, a7, a8, a9, a10, a11, a12, a13, a14, a15⟩ :=
    C41_template_roundtrip_generic ({ t with toSed := shifts t.toSed zs } : Tmpl ℝ) interpolate hr' (by simp only [e1]; exact h2) hi'
  refine ⟨f, t', a1, a2, ?_, ?_, a9, a10, a11, a12, a13, a14, ?_⟩
  · rw [a3]; simp only [e1, e4, hid]
  · rw [a4]; simp only [e2, e4, hid2]
  · rw [a15]
    have : t.m300.map (fun m => m * lit 0) = List.replicate t.m300.length (0 : ℝ) := by
      rw [← List.map_const' ]
      exact List.map_congr_left (fun x _ => by simp)
    simp only [this]

/-- C41 fails for templates with a single wavelength (which can be made without interpolation): they are written, and no such file can be read. -/
theorem C41_false : (∃ (t : Tmpl ℝ) (f : FitsFile ℝ), Sed.mk' [5000] (.arr [1] 1 [[1]]) false = .ok t.toSed ∧ t.tofits = .ok f) ∧
    ∀ (t : Tmpl ℝ) (w : ℝ) (f : FitsFile ℝ) (interpolate : Bool), t.restWave = [w] → t.tofits = .ok f → Raises (Tmpl.fromfits f interpolate) := by
  constructor
  · refine ⟨⟨⟨[5000], [[1]], [5000], [[1]], 0, false, none, false⟩, [1], [1], [1], [1], [1], [1]⟩, _, ?_, rfl⟩
    simp [Sed.mk', Sed.setup]
  · intro t w f ip hw hf
    unfold Tmpl.tofits at hf
    cases h0 : t.toSed.tofits .flux with
    | error e => rw [h0] at hf; cases hf
    | ok f0 =>
    rw [h0] at hf
    cases hf
    obtain ⟨_, _, hhas⟩ := tofits_names h0
    refine ⟨.typeError, ?_⟩
    unfold Tmpl.fromfits
    rw [sed_fromfits_append hhas rfl, C40_one_wavelength t.toSed w hw .flux ip (by simp) f0 h0]
    rfl

/-- Not vacuous: a template pair, interpolated. -/
example : ∃ t : Tmpl ℝ, Rect t.toSed ∧ 2 ≤ t.restWave.length ∧ ∃ i, mkInterp t.restWave t.restFlux = .ok i :=
  ⟨⟨⟨[1, 2, 3, 4], [[1, 2, 3, 4], [0, 0, 1, 0]], [1, 2, 3, 4], [[1, 2, 3, 4], [0, 0, 1, 0]], 0, false, none, true⟩,
    [1, 2], [0.5, 1], [0.02, 0.01], [0, 1], [1, 1], [0, 0]⟩, ⟨by simp, by simp⟩, by simp,
    _, mkInterp_strict _ _ (by norm_num) (by simp) (by simp)⟩

/-! ### C92 -/

/-- C92.  A `Response` written with `tofits` and read back with `fromfits` has exactly the same curve and the same
derived attributes. -/
theorem C92_response_roundtrip (lib : Lib ℝ) (wave resp : List ℝ) (R : Resp ℝ) (h : mkResponse lib wave resp = .ok R) :
    respFromfits lib R.toCurve.tofits = .ok R := by
  obtain ⟨hl, hw, hr, hs⟩ := mkResponse_ok h
  have hsorted : R.wave.Pairwise (· ≤ ·) := by rw [hw]; exact gather_sorted wave
  have hlen : R.wave.length = R.resp.length := by
    rw [hw, hr, gather_length, gather_length]
  show mkResponse lib R.wave R.resp = .ok R
  unfold mkResponse sortCurve
  rw [if_pos (by omega)]
  simp only [ok_bind]
  rw [argsort_of_sorted _ hsorted, gather_range _ _ rfl, gather_range _ _ hlen.symm]
  exact hs

/-- Not vacuous. -/
example : ∃ R, mkResponse demoLib [4, 2, 3, 1] [0, 1, 1, 0] = .ok R :=
  demo_response (wave := [4, 2, 3, 1]) (resp := [0, 1, 1, 0]) (by norm_num) (by simp) rfl ⟨1, by simp, by norm_num⟩

end KC
