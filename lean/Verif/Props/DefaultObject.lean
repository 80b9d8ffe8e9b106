import Verif.Lemmas.TemplateEdge
import Verif.Props.ShippedStars
import Verif.Props.ShippedTemplates
import Verif.Props.LawsonHanson
import Verif.Props.Pipeline
import Verif.Props.Spectrum
import Verif.Props.Cubics

/-!
The objects a user gets without giving templates: `Kcorrect(responses=...)`, `KcorrectSDSS()` and `KcorrectGST()` with the shipped template file, the shipped response
curves and the shipped models of the Sun and of Vega.
-/

namespace KC
open Spec

namespace Spec

/-- wavelengths in Angstrom -/
noncomputable def unitsWave (u : List (List Nat)) : List ℝ := u.flatten.map (fun k : Nat => (k : ℝ) / 2 ^ 14)

/-- The file has one table in `FLUX` with the wavelengths `u` and `n` spectra at these wavelengths. -/
def TableIn (f : FitsFile ℝ) (u : List (List Nat)) (n : Nat) : Prop :=
  f.has .wave = false ∧ ∃ rows, f.get .flux = .ok (.sedTable (unitsWave u) rows) ∧ rows.length = n ∧ ∀ r ∈ rows, r.length = 10000

/-- `f` is `kcorrect-default-v4.fits`: its wavelengths, five spectra, and its histories. -/
def IsDefault (f : FitsFile ℝ) : Prop := TableIn f defaultUnits 5 ∧ defaultHist.InFile f

/-- `f` is `kcorrect-lrg1-v4.fits`. -/
def IsLrg1 (f : FitsFile ℝ) : Prop := TableIn f lrg1Units 1 ∧ lrg1Hist.InFile f

end Spec

theorem unitsWave_ok {u : List (List Nat)} {lo hi : Nat} (h : waveOK u lo hi = true) :
    (unitsWave u).length = 10000 ∧ (unitsWave u).Pairwise (· < ·) ∧ (∀ w ∈ unitsWave u, (lo : ℝ) / 2 ^ 14 ≤ w ∧ w ≤ (hi : ℝ) / 2 ^ 14 ∧ 0 < w) ∧
      (lo : ℝ) / 2 ^ 14 ∈ unitsWave u ∧ (hi : ℝ) / 2 ^ 14 ∈ unitsWave u := by
  obtain ⟨h1, h2, h3, h4, h5⟩ := waveOK_sound h
  refine ⟨by rw [unitsWave, List.length_map, h1], ?_, ?_, List.mem_map_of_mem h4, List.mem_map_of_mem h5⟩
  · refine List.Pairwise.map _ (fun a b hab => ?_) h2
    have : (a : ℝ) < b := by exact_mod_cast hab
    exact (div_lt_div_iff_of_pos_right (by norm_num)).mpr this
  · intro w hw
    obtain ⟨k, hk, rfl⟩ := List.mem_map.mp hw
    obtain ⟨a, b, c⟩ := h3 k hk
    have a' : (lo : ℝ) ≤ k := by exact_mod_cast a
    have b' : (k : ℝ) ≤ hi := by exact_mod_cast b
    have c' : (0 : ℝ) < k := by exact_mod_cast c
    exact ⟨by gcongr, by gcongr, by positivity⟩

/-- reading a template file of this form -/
theorem read_template {f : FitsFile ℝ} {u : List (List Nat)} {lo hi n : Nat} {h : Hist} (hu : waveOK u lo hi = true) (ht : TableIn f u n) (hf : h.InFile f)
    (h1 : h.intsfh.length = n) (h2 : h.mremain.length = n) (h3 : h.mets.length = n) (h4 : h.m300.length = n) (h5 : h.m1000.length = n) (interp : Bool) :
    ∃ t, Tmpl.fromfits f interp = .ok t ∧ t.restWave = unitsWave u ∧ t.nsed = n ∧ t.restFlux.length = n ∧ (∀ r ∈ t.restFlux, r.length = 10000) ∧
      MassOK t n ∧ ∀ rows, f.get .flux = .ok (.sedTable (unitsWave u) rows) → t.restFlux = rows := by
  obtain ⟨hno, rows, hget, hn, hrow⟩ := ht
  obtain ⟨w1, w2, _⟩ := unitsWave_ok hu
  have hsed : ∃ s, Sed.fromfits f .flux interp = .ok s ∧ s.restWave = unitsWave u ∧ s.restFlux = rows ∧ s.nsed = n := by
    have e : Sed.fromfits f .flux interp = Sed.ofStored (unitsWave u) (.arr [1, rows.length] (unitsWave u).length rows) interp false := by
      simp [Sed.fromfits, hno, hget, ok_bind]
    have hfl : rows.flatten.length = rows.length * 10000 := by
      rw [List.length_flatten, List.map_congr_left hrow]
      simp
    have hch : NDA.chunks (unitsWave u).length rows.length rows.flatten = rows := chunks_flatten _ rows (fun r hr => by rw [w1]; exact hrow r hr)
    rw [e]
    simp only [Sed.ofStored, fluxFlat, List.getLastD_cons, List.getLastD_nil, ok_bind]
    have r1 : (unitsWave u).length ≠ 1 := by rw [w1]; norm_num
    have r2 : rows.flatten.length = rows.length * (unitsWave u).length := by rw [w1]; exact hfl
    rw [require, if_pos r1, ok_bind, require, if_pos r2, ok_bind, hch]
    unfold Sed.setup
    simp only [ok_bind]
    cases interp with
    | false => exact ⟨_, rfl, rfl, rfl, hn⟩
    | true =>
      have hi := mkInterp_strict (unitsWave u) rows w2 (by rw [w1]; norm_num) (fun r hr => by rw [w1]; exact hrow r hr)
      simp only [if_true, Sed.setInterp, hi]
      exact ⟨_, rfl, rfl, rfl, hn⟩
  obtain ⟨s, hs, s1, s2, s3⟩ := hsed
  obtain ⟨f1, f2, f3, f4, f5, f6⟩ := hf
  refine ⟨{ toSed := s, intsfh := h.intsfh.map (fun q => f32 (lit q)), mremain := h.mremain.map (fun q => f32 (lit q)),
            mets := h.mets.map (fun q => f32 (lit q)), m300 := h.m300.map (fun q => f32 (lit q)), m1000 := h.m1000.map (fun q => f32 (lit q)),
            m50 := (h.m300.map (fun q => f32 (lit q))).map (fun m => m * lit 0) }, ?_, s1, s3, by rw [s2]; exact hn, by rw [s2]; exact hrow, ?_, ?_⟩
  · unfold Tmpl.fromfits
    rw [hs, f1, f2, f3, f4, f5, no_m50 f6]
    rfl
  · exact ⟨by simp [h1], by simp [h2], by simp [h3], by simp [h4], by simp [h4], by simp [h5]⟩
  · intro rows' h'
    rw [hget] at h'
    cases h'
    exact s2

/-- **C187.** The shipped template files can be read: ten thousand increasing wavelengths from 600 Å to 320 µm, five spectra and one, with masses for each. -/
theorem C187_template (f : FitsFile ℝ) (interp : Bool) :
    (IsDefault f → ∃ t, Tmpl.fromfits f interp = .ok t ∧ t.restWave = unitsWave defaultUnits ∧ t.nsed = 5 ∧ MassOK t 5) ∧
    (IsLrg1 f → ∃ t, Tmpl.fromfits f interp = .ok t ∧ t.restWave = unitsWave lrg1Units ∧ t.nsed = 1 ∧ MassOK t 1) ∧
    ∀ u ∈ [defaultUnits, lrg1Units], (unitsWave u).length = 10000 ∧ (unitsWave u).Pairwise (· < ·) ∧ (∀ w ∈ unitsWave u, 600.2 < w ∧ w < 3198627) := by
  refine ⟨fun h => ?_, fun h => ?_, ?_⟩
  · obtain ⟨t, h1, h2, h3, _, _, h4, _⟩ := read_template default_ok h.1 h.2 rfl rfl rfl rfl rfl interp
    exact ⟨t, h1, h2, h3, h4⟩
  · obtain ⟨t, h1, h2, h3, _, _, h4, _⟩ := read_template lrg1_ok h.1 h.2 rfl rfl rfl rfl rfl interp
    exact ⟨t, h1, h2, h3, h4⟩
  · intro u hu
    simp only [List.mem_cons, List.not_mem_nil, or_false] at hu
    rcases hu with rfl | rfl
    · obtain ⟨a, b, c, _⟩ := unitsWave_ok default_ok
      exact ⟨a, b, fun w hw => ⟨by have := (c w hw).1; norm_num at this ⊢; linarith, by have := (c w hw).2.1; norm_num at this ⊢; linarith⟩⟩
    · obtain ⟨a, b, c, _⟩ := unitsWave_ok lrg1_ok
      exact ⟨a, b, fun w hw => ⟨by have := (c w hw).1; norm_num at this ⊢; linarith, by have := (c w hw).2.1; norm_num at this ⊢; linarith⟩⟩

/-- what is in the dictionary after the responses have been loaded into an empty one -/
theorem loadMissing_gives {lib : Lib ℝ} {disk : Disk ℝ} : ∀ {rs : List Name} {g g' : Reg ℝ}, loadMissing lib disk rs g = (g', .ok ()) →
    (∀ n o, g n = some o → ∃ R, FileGives lib disk n R ∧ g n = some (RespObj.full R)) →
    (∀ n o, g' n = some o → ∃ R, FileGives lib disk n R ∧ g' n = some (RespObj.full R)) ∧ ∀ n ∈ rs, g' n ≠ none := by
  intro rs
  induction rs with
  | nil =>
    intro g g' h hg
    simp only [loadMissing, Prod.mk.injEq, and_true] at h
    subst h
    exact ⟨hg, by simp⟩
  | cons n ns ih =>
    intro g g' h hg
    unfold loadMissing at h
    cases hc : loadResponse lib disk n false g with
    | mk g1 r =>
      rw [hc] at h
      cases r with
      | error e => simp at h
      | ok x =>
        simp only at h
        have h1 : ∀ m o, g1 m = some o → ∃ R, FileGives lib disk m R ∧ g1 m = some (RespObj.full R) := by
          cases hgn : g n with
          | some o =>
            have := loadResponse_cached lib disk n g (by rw [hgn]; rfl)
            rw [hc] at this
            cases this
            exact hg
          | none =>
            obtain ⟨R, hR, e, hoth⟩ := (C29_load_contents lib disk n false g g1 (Or.inl hgn)).mp hc
            intro m o hm
            by_cases hmn : m = n
            · subst hmn; exact ⟨R, hR, e⟩
            · rw [hoth m hmn] at hm ⊢
              exact hg m o hm
        obtain ⟨a, b⟩ := ih h h1
        refine ⟨a, fun m hm => ?_⟩
        rcases List.mem_cons.mp hm with rfl | hm
        · have hp : (g1 m).isSome := by
            have := loadResponse_present lib disk m false g
            rw [hc] at this
            exact this
          have key : ∀ (l : List Name) (x y : Reg ℝ), loadMissing lib disk l x = (y, .ok ()) → (x m).isSome → (y m).isSome := by
            intro l
            induction l with
            | nil => intro x y hxy hx; simp only [loadMissing, Prod.mk.injEq, and_true] at hxy; rw [← hxy]; exact hx
            | cons k l ihl =>
              intro x y hxy hx
              unfold loadMissing at hxy
              cases hk : loadResponse lib disk k false x with
              | mk x1 r =>
                rw [hk] at hxy
                cases r with
                | error e => simp at hxy
                | ok _ =>
                  refine ihl x1 y hxy ?_
                  have := loadResponse_keeps lib disk k m x hx
                  rw [hk] at this
                  exact (congrArg Option.isSome this).trans hx
          have := key ns g1 g' h hp
          intro e
          rw [e] at this
          simp at this
        · exact b m hm

/-- the default object as it is made -/
theorem default_made (lib : Lib ℝ) (hb : BrentqOK lib) (hsun : Reads lib.sun sunFile) (hvega : Reads lib.vega vegaFile) (disk : Disk ℝ)
    (hdisk : ∀ b ∈ defaultFiles, disk (datName b.name) = .ok (b.wave, b.resp)) (f : FitsFile ℝ) (hf : IsDefault f) (interp : Bool) (cls : Cls) (R : List Name)
    (hsub : ∀ n ∈ R, n ∈ gstBands) (ab : Bool) (dm : ℝ → ℝ) :
    ∃ t w' K, Tmpl.fromfits f interp = .ok t ∧ t.restWave = unitsWave defaultUnits ∧ t.restFlux.length = 5 ∧ (∀ r ∈ t.restFlux, r.length = 10000) ∧ MassOK t 5 ∧
      Kc.init lib.cubic disk cls R (.template t) none none 0 2 4000 ab dm ⟨fun _ => none, t.toSed⟩ = (w', .ok K) ∧ K.responses = R ∧ K.responsesOut = R ∧
      K.templates = .template t ∧ K.templates.nsed = 5 ∧ K.abCls = (if ab then cls else .base) ∧ Made lib.cubic (.template t) 0 2 4000 K w'.reg ∧
      ∀ n ∈ R, ∃ r, FileGives lib.cubic disk n r ∧ w'.reg n = some (RespObj.full r) := by
  obtain ⟨t, ht, t1, t2, t3, t4, t5, _⟩ := read_template default_ok hf.1 hf.2 rfl rfl rfl rfl rfl interp
  obtain ⟨w1, w2, _⟩ := unitsWave_ok default_ok
  have hflux : ∀ row ∈ t.restFlux, row.length = t.restWave.length := by
    intro r hr; rw [t1, w1]; exact t4 r hr
  have hne : t.restFlux ≠ [] := by intro e; rw [e] at t3; simp at t3
  obtain ⟨w', K, hK, k1, k2, _⟩ := C181_object lib hb (C185_star (.inl rfl) hsun) (C185_star (.inr rfl) hvega) disk hdisk cls R hsub (.template t) 0 2 4000 ab dm
    ⟨fun _ => none, t.toSed⟩ (by norm_num) (by norm_num) (by norm_num) (by show t.restWave.Pairwise _; rw [t1]; exact w2)
    (by show 4 ≤ t.restWave.length; rw [t1, w1]; norm_num) hflux hne (fun _ _ => Or.inl rfl)
  have hmade : Made lib.cubic (.template t) 0 2 4000 K w'.reg := ⟨by norm_num, by norm_num, hne, hflux, _, _, _, _, _, _, _, _, _, rfl, hK, rfl⟩
  obtain ⟨A, Ao, hA, hAo, hT, _, nA, nAo⟩ := hmade.nodes
  have hns : K.templates.nsed = 5 := by rw [hT]; exact t2
  obtain ⟨w1', A1, hcal, hF, _, _, _, _, _, hO⟩ := init_ok hK
  refine ⟨t, w', K, ht, t1, t3, t4, t5, hK, k1, k2, hT, hns, ?_, hmade, ?_⟩
  · unfold Fitter.abCls
    rw [hF]
    rfl
  · intro n hn
    obtain ⟨hl, _⟩ := calcAmatrix_ok hcal
    have hw : w' = w1' := by
      rcases hO with ⟨_, _, e⟩ | ⟨e, _⟩
      · exact e
      · exact absurd rfl e
    obtain ⟨a, b⟩ := loadMissing_gives hl (fun n o h => by simp at h)
    rw [hw]
    obtain ⟨o, ho⟩ := Option.ne_none_iff_exists'.mp (b n hn)
    exact a n o ho

/-- **C187.** With the shipped files, an object with the default templates and any of the default bands is made, and everything works for every galaxy: for all photometry with
nonnegative inverse variances and every redshift from 0 to 2, `fit_coeffs` returns a best fit, and with its coefficients `kcorrect`, `absmag` and `derived` return, at every
band shift from 0 to 2; the masses and fractions are as in C183. -/
theorem C187_object (lib : Lib ℝ) (hb : BrentqOK lib) (hsun : Reads lib.sun sunFile) (hvega : Reads lib.vega vegaFile) (disk : Disk ℝ)
    (hdisk : ∀ b ∈ defaultFiles, disk (datName b.name) = .ok (b.wave, b.resp)) (f : FitsFile ℝ) (hf : IsDefault f) (interp : Bool) (cls : Cls) (R : List Name)
    (hsub : ∀ n ∈ R, n ∈ gstBands) (ab : Bool) (dm : ℝ → ℝ) :
    ∃ t w' K, Tmpl.fromfits f interp = .ok t ∧
      Kc.init lib.cubic disk cls R (.template t) none none 0 2 4000 ab dm ⟨fun _ => none, t.toSed⟩ = (w', .ok K) ∧ K.responses = R ∧ K.responsesOut = R ∧
      K.templates.nsed = 5 ∧
      ∀ (_ : AbReady (if ab then cls else .base) R.length) (_ : R.length ≠ 1) (z : ℝ) (_ : 0 ≤ z) (_ : z ≤ 2) (m iv : List ℝ) (_ : m.length = R.length) (_ : iv.length = R.length)
        (_ : ∀ v ∈ iv, 0 ≤ v) (noise : Nat → Nat → Nat → ℝ),
        ∃ c, K.fitCoeffs (lhNnls 0) (some (.scalar z)) (some (.vec m)) (some (.vec iv)) 0 noise = .ok ⟨.vec c, none⟩ ∧
          Optimal K.toFitter z (abM K.abCls m) (abIv K.abCls iv) c ∧
          ∀ bs, 0 ≤ bs → bs ≤ 2 →
            (∃ k, K.kcorrect (some (.scalar z)) (some (.vec c)) bs = .ok k) ∧
            (∃ a, K.absmag (some (.vec m)) (some (.vec iv)) (some (.scalar z)) (some (.vec c)) bs none false false false = .ok a) ∧
            ∃ D b300 b1000 mr is Z, K.derived w'.reg (some (.scalar z)) (some (.vec c)) bs none = .ok D ∧ D.b50 = .scalar 0 ∧ D.b300 = .scalar b300 ∧
              D.b1000 = .scalar b1000 ∧ D.mremain = .scalar mr ∧ D.intsfh = .scalar is ∧ D.metallicity = .scalar Z ∧ 0 ≤ b300 ∧ b300 ≤ b1000 ∧ b1000 ≤ 1 ∧
              0.52 * is ≤ mr ∧ mr ≤ 0.95 * is ∧ (0 < mr → 0.0056 ≤ Z ∧ Z ≤ 0.051) := by
  obtain ⟨t, w', K, ht, t1, t3, t4, t5, hK, k1, k2, hT, hns, hab, hmade, hgive⟩ := default_made lib hb hsun hvega disk hdisk f hf interp cls R hsub ab dm
  obtain ⟨A, Ao, hA, hAo, _, _, nA, nAo⟩ := hmade.nodes
  refine ⟨t, w', K, ht, hK, k1, k2, hns, ?_⟩
  intro hr hnb z z0 z2 m iv hm hiv hpos noise
  rw [← hab] at hr
  rw [← k1] at hr hnb hm hiv
  have hR : Ready K.toFitter A := ⟨hA, nA.good, nA.rows, by rw [nA.cols, hns]; exact t3⟩
  obtain ⟨A', Ao', hA', hAo', _, _, gA, gAo⟩ := init_grids hK (by norm_num) (by norm_num)
  rw [hA] at hA'; cases hA'
  rw [hAo] at hAo'; cases hAo'
  obtain ⟨c, hc, ho⟩ := C184_fit K.toFitter (by rw [hns]; norm_num) hr hnb A hR z ((gA z).mpr ⟨z0, z2⟩) m iv hm hiv hpos noise
  refine ⟨c, hc, ho, fun bs b0 b2 => ?_⟩
  obtain ⟨_, p2, p3⟩ := C150_single_partial lib.cubic disk cls R (.template t) none none 0 2 4000 ab dm _ w' K hK (by norm_num) (by norm_num) hr hnb (lhNnls 0)
    C184_contract.len z m iv hm hiv 0 noise _ hc bs ⟨b0, b2⟩
  have hmass : MassKc K t Ao := ⟨hT, by rw [hns]; exact t5, hAo⟩
  have hreg : ∀ n ∈ K.responsesOut, n ∈ gstBands ∧ ∃ R, FileGives lib.cubic disk n R ∧ w'.reg n = some (RespObj.full R) := by
    intro n hn
    rw [k2] at hn
    exact ⟨hsub n hn, hgive n hn⟩
  obtain ⟨M, hM⟩ : ∃ M, Ao.at bs = .ok M := by
    obtain ⟨M, _, _, _, _, _, hM, _⟩ := C45_bracketed Ao nAo.good bs ((gAo bs).mpr ⟨b0, b2⟩)
    exact ⟨M, hM⟩
  obtain ⟨D, hD⟩ := C185_derived lib hsun hvega disk hdisk hmass w'.reg hreg z c ho.1 bs M hM
  obtain ⟨b300, b1000, mr, is, Z, q⟩ := C183_default f hf.2 interp t ht K Ao hmass nAo.good w'.reg z c ho.1 ho.2.1 bs D hD
  exact ⟨p2.mpr ⟨z0, z2⟩, p3.mpr ⟨z0, z2⟩, D, b300, b1000, mr, is, Z, hD, q⟩

/-! The hypotheses can be met: a file with the wavelengths and the histories of the shipped one, and flat spectra. -/

noncomputable def flatFile : FitsFile ℝ := defaultHist.file (unitsWave defaultUnits) (List.replicate 5 (List.replicate 10000 1))

theorem flatFile_default : IsDefault flatFile := ⟨⟨rfl, _, rfl, List.length_replicate, fun r hr => by rw [List.eq_of_mem_replicate hr]; exact List.length_replicate⟩, hist_inFile _ _ _⟩

/-- `KcorrectGST()` with that file: the galaxy seen in all ten bands at redshift one -/
example (dm : ℝ → ℝ) : ∃ t w' K c, Tmpl.fromfits flatFile true = .ok t ∧
    Kc.init shippedLib.cubic shippedDisk .gst gstBands (.template t) none none 0 2 4000 true dm ⟨fun _ => none, t.toSed⟩ = (w', .ok K) ∧
    K.fitCoeffs (lhNnls 0) (some (.scalar 1)) (some (.vec (List.replicate 10 20))) (some (.vec (List.replicate 10 100))) 0 (fun _ _ _ => 0) = .ok ⟨.vec c, none⟩ ∧
    Optimal K.toFitter 1 (abM K.abCls (List.replicate 10 20)) (abIv K.abCls (List.replicate 10 100)) c ∧
    ∃ k, K.kcorrect (some (.scalar 1)) (some (.vec c)) 0.1 = .ok k := by
  obtain ⟨h1, h2, h3⟩ := shipped_reads
  obtain ⟨t, w', K, ht, hK, _, _, _, h⟩ := C187_object shippedLib h3 h1 h2 shippedDisk shippedDisk_ok flatFile flatFile_default true .gst gstBands (fun _ h => h) true dm
  obtain ⟨c, hc, ho, hall⟩ := h (by show 7 ≤ gstBands.length; decide) (by decide) 1 (by norm_num) (by norm_num) (List.replicate 10 20) (List.replicate 10 100) rfl rfl
    (by simp) (fun _ _ _ => 0)
  exact ⟨t, w', K, c, ht, hK, hc, ho, (hall 0.1 (by norm_num) (by norm_num)).1⟩

/-! ### C188: where the templates end -/

namespace Spec

/-- at redshift `z` every sample of the band is between two wavelengths of the template -/
def Covers (W : List ℝ) (z : ℝ) (b : BandFile) : Prop :=
  ∀ w ∈ b.wave, (∃ v ∈ W, v * (1 + z) ≤ w) ∧ ∃ v ∈ W, w ≤ v * (1 + z)

end Spec

theorem files_inside : ∀ b ∈ defaultFiles, b.w.all (fun q => decide (1340 ≤ q) && decide (q ≤ 30000)) = true ∧
    (b.name ≠ "galex_FUV".toList → b.w.all (fun q => decide (1690 ≤ q)) = true) ∧
    (b.name ≠ "galex_FUV".toList → b.name ≠ "galex_NUV".toList → b.w.all (fun q => decide (2900 ≤ q)) = true) := by decide +kernel

/-- **C188, where it holds.** Both sets of templates cover the ten bands up to redshift 1.2, all but `galex_FUV` up to 1.8, and the SDSS and 2MASS bands up to 2. -/
theorem C188_partial (u : List (List Nat)) (hu : u ∈ [defaultUnits, lrg1Units]) (b : BandFile) (hd : b ∈ defaultFiles) (z : ℝ) (h0 : 0 ≤ z)
    (h : z ≤ 1.2 ∨ (z ≤ 1.8 ∧ b.name ≠ "galex_FUV".toList) ∨ (z ≤ 2 ∧ b.name ≠ "galex_FUV".toList ∧ b.name ≠ "galex_NUV".toList)) :
    Covers (unitsWave u) z b := by
  obtain ⟨f1, f2, f3⟩ := files_inside b hd
  simp only [List.all_eq_true, Bool.and_eq_true, decide_eq_true_eq] at f1 f2 f3
  have ends : (∃ v ∈ unitsWave u, v ≤ 600.26) ∧ ∃ v ∈ unitsWave u, 30000 ≤ v := by
    simp only [List.mem_cons, List.not_mem_nil, or_false] at hu
    rcases hu with rfl | rfl
    · obtain ⟨_, _, _, a, c⟩ := unitsWave_ok default_ok
      exact ⟨⟨_, a, by norm_num⟩, _, c, by norm_num⟩
    · obtain ⟨_, _, _, a, c⟩ := unitsWave_ok lrg1_ok
      exact ⟨⟨_, a, by norm_num⟩, _, c, by norm_num⟩
  obtain ⟨⟨v, hv, v1⟩, v', hv', v2⟩ := ends
  intro w hw
  obtain ⟨q, hq, rfl⟩ := List.mem_map.mp hw
  refine ⟨⟨v, hv, ?_⟩, v', hv', ?_⟩
  · have hle : 600.26 * (1 + z) ≤ (q : ℝ) := by
      rcases h with h | ⟨h, n1⟩ | ⟨h, n1, n2⟩
      · have : (1340 : ℝ) ≤ q := by exact_mod_cast (f1 q hq).1
        nlinarith
      · have : (1690 : ℝ) ≤ q := by exact_mod_cast f2 n1 q hq
        nlinarith
      · have : (2900 : ℝ) ≤ q := by exact_mod_cast f3 n1 n2 q hq
        nlinarith
    nlinarith
  · have : (q : ℝ) ≤ 30000 := by exact_mod_cast (f1 q hq).2
    nlinarith

theorem defaultAt2_real : toR defaultAt2 = (unitsWave defaultUnits).map (fun w => w * (1 + 2)) := by
  rw [toR, defaultAt2, unitsWave, List.map_map, List.map_map]
  refine List.map_congr_left fun k _ => ?_
  simp only [Function.comp]
  push_cast
  ring

theorem defaultAt2_incr : defaultAt2.Pairwise (· < ·) := by
  rw [← toR_incr, defaultAt2_real]
  refine List.Pairwise.map _ (fun a b hab => ?_) (unitsWave_ok default_ok).2.1
  have : a < b := hab
  linarith

theorem FUV_default : file_galex_FUV ∈ defaultFiles := List.mem_cons_self

theorem FUV_first : ((bandRows file_galex_FUV cert_galex_FUV).map SRow.x).headD 0 = 1340 := by decide +kernel

theorem FUV_last : ((bandRows file_galex_FUV cert_galex_FUV).map SRow.x).getLastD 0 = 1810 := by decide +kernel

/-- **C188 fails.** The default object accepts redshift 2, but there its templates begin at 1800 Å, inside `galex_FUV` (1340–1810 Å).  `reconstruct` returns without a warning,
for every galaxy, and its entry for `galex_FUV` is that of the spectrum cut at 1800 Å: a spectrum nowhere brighter than `M` maggies gets at most `0.01 M`. -/
theorem C188_false (lib : Lib ℝ) (hb : BrentqOK lib) (hsun : Reads lib.sun sunFile) (hvega : Reads lib.vega vegaFile) (disk : Disk ℝ)
    (hdisk : ∀ b ∈ defaultFiles, disk (datName b.name) = .ok (b.wave, b.resp)) (f : FitsFile ℝ) (hf : IsDefault f) (interp : Bool) (cls : Cls) (R : List Name)
    (hsub : ∀ n ∈ R, n ∈ gstBands) (j : Nat) (hj : R[j]? = some "galex_FUV".toList) (ab : Bool) (dm : ℝ → ℝ) :
    ¬ Covers (unitsWave defaultUnits) 2 file_galex_FUV ∧
    ∃ t w' K, Tmpl.fromfits f interp = .ok t ∧
      Kc.init lib.cubic disk cls R (.template t) none none 0 2 4000 ab dm ⟨fun _ => none, t.toSed⟩ = (w', .ok K) ∧
      ∀ c : List ℝ, c.length = 5 → ∃ m g v F, K.reconstruct (some (.scalar 2)) (some (.vec c)) 0 = .ok m ∧ entry m 0 j = some v ∧
        F = curveFn nakSpline (t.restWave.map (fun w => w * (1 + 2))) ((modelSpectrum 10000 c t.restFlux).map (fun x => x / (1 + 2))) ∧
        v = photonInt g (curveFn nakSpline file_galex_FUV.sort.wave file_galex_FUV.sort.resp) F /
          photonInt g (curveFn nakSpline file_galex_FUV.sort.wave file_galex_FUV.sort.resp) abFlux ∧
        (∀ w, w < 1800 → F w = 0) ∧ ∀ M, 0 ≤ M → (∀ w, 0 ≤ F w ∧ F w ≤ M * abFlux w) → v ≤ 0.01 * M := by
  obtain ⟨u1, u2, u3, u4, u5⟩ := unitsWave_ok default_ok
  refine ⟨?_, ?_⟩
  · intro h
    have h0 : (1340 : ℝ) ∈ file_galex_FUV.wave := by
      refine List.mem_map.mpr ⟨1340, ?_, by norm_num⟩
      decide +kernel
    obtain ⟨⟨v, hv, hle⟩, _⟩ := h 1340 h0
    have := (u3 v hv).1
    norm_num at this
    linarith
  · obtain ⟨t, w', K, ht, t1, t3, t4, t5, hK, k1, k2, hT, hns, hab, hmade, hgive⟩ := default_made lib hb hsun hvega disk hdisk f hf interp cls R hsub ab dm
    refine ⟨t, w', K, ht, hK, fun c hc => ?_⟩
    have hgrid : (2 : ℝ) ∈ K.redshifts := by
      obtain ⟨_, _, _, _, _, e4, _⟩ := hmade.nodes
      rw [e4]
      exact List.mem_of_getElem? (even_grid 0 2 4000 (by norm_num) (by norm_num)).last
    have e2 : (1 + (2 : ℝ)) * (1 + 0) - 1 = 2 := by norm_num
    obtain ⟨⟨m, hm, _, hent⟩, _⟩ := C107_on_grid lib.cubic (C159_contracts lib).2.1 (.template t) 0 2 4000 K w'.reg hmade 2 0 c (by rw [hns]; exact hc) (by rw [e2]; exact hgrid)
    obtain ⟨o, cv, v, ho, hcv, hseen, hv⟩ := hent j _ (by rw [k1]; exact hj)
    obtain ⟨r, ⟨w, p, hdk, hr⟩, hreg⟩ := hgive _ (List.mem_of_getElem? hj)
    rw [hreg] at ho
    cases ho
    have hcv' : cv = r.toCurve := by
      have : (RespObj.full r).curve = .ok r.toCurve := rfl
      rw [this] at hcv
      cases hcv; rfl
    subst hcv'
    have hfile := hdisk file_galex_FUV FUV_default
    have hname : file_galex_FUV.name = "galex_FUV".toList := rfl
    rw [hname] at hfile
    rw [hfile] at hdk
    cases hdk
    rw [e2] at hseen
    have hsw : (t.restWave.map (fun w => w * (1 + (2 : ℝ)))).Pairwise (· < ·) := by
      rw [t1, ← defaultAt2_real]; exact toR_incr.mpr defaultAt2_incr
    have hlen : t.restWave.length = 10000 := by rw [t1, u1]
    have hproj : Projects lib.cubic r.toCurve (t.restWave.map (fun w => w * (1 + (2 : ℝ)))) [(modelSpectrum 10000 c t.restFlux).map (fun x => x / (1 + 2))] (.scalar v) := by
      refine .arrays [] ((modelSpectrum 10000 c t.restFlux).map (fun x => x / (1 + 2))).length ?_
      have := hseen
      unfold Seen at this
      rw [show (Tpl.template t).toSed.restWave.length = 10000 from hlen] at this
      exact this
    have hgood := defaultFiles_good FUV_default
    obtain ⟨c1, c2⟩ : cert_galex_FUV.length = file_galex_FUV.sort.rows.length ∧ rowsOK (bandRows file_galex_FUV cert_galex_FUV) = true := by
      have := bandOK_galex_FUV
      simp only [MagRow.bandOK, Bool.and_eq_true, decide_eq_true_eq] at this
      exact ⟨this.1.1.1, this.1.1.2⟩
    have hbm := mkRows_maps (xs := file_galex_FUV.sort.w) (ys := file_galex_FUV.sort.p) (cs := cert_galex_FUV) (by simp [BandFile.w, BandFile.p]) (by simpa [BandFile.w] using c1)
    have ebx : rowsX (bandRows file_galex_FUV cert_galex_FUV) = file_galex_FUV.sort.wave := by rw [rowsX_toR, bandRows, hbm.1]; rfl
    have eby : rowsY (bandRows file_galex_FUV cert_galex_FUV) = file_galex_FUV.sort.resp := by rw [rowsY_toR, bandRows, hbm.2]; rfl
    have hov : ∃ w ∈ t.restWave.map (fun w => w * (1 + (2 : ℝ))), file_galex_FUV.sort.wave.headD 0 ≤ w ∧ w ≤ file_galex_FUV.sort.wave.getLastD 0 := by
      refine ⟨_, List.mem_map_of_mem (by rw [t1]; exact u4), ?_, ?_⟩
      · rw [← ebx, rowsX_toR, toR_headD, FUV_first]; norm_num
      · rw [← ebx, rowsX_toR, toR_getLastD, FUV_last]; norm_num
    obtain ⟨g, hg, hflat⟩ := C181_ratio lib file_galex_FUV FUV_default r hr _ hsw _ _ hproj hov
    simp only [NDA.flat, List.map_cons, List.map_nil, List.cons.injEq, and_true] at hflat
    have F0 : ∀ w, w < 1800 → curveFn nakSpline (t.restWave.map (fun w => w * (1 + (2 : ℝ)))) ((modelSpectrum 10000 c t.restFlux).map (fun x => x / (1 + 2))) w = 0 := by
      intro w hw
      unfold curveFn
      rw [if_pos]
      left
      obtain ⟨a, l, hal⟩ := List.exists_cons_of_ne_nil (show t.restWave ≠ [] by intro e; rw [e] at hlen; simp at hlen)
      have := (u3 a (by rw [← t1, hal]; simp)).1
      rw [hal]
      simp only [List.map_cons, List.headD_cons]
      norm_num at this
      linarith
    refine ⟨m, g, v, _, hm, by simpa using hv, rfl, hflat, F0, fun M hM hF => ?_⟩
    have key := edge_bounds defaultAt2_incr c2 zeroEnds_FUV (by norm_num) (by norm_num) edge_FUV (g := g) (by rw [defaultAt2_real, ebx, ← t1]; exact hg) hM
      (f := curveFn nakSpline (t.restWave.map (fun w => w * (1 + (2 : ℝ)))) ((modelSpectrum 10000 c t.restFlux).map (fun x => x / (1 + 2))))
      (fun w hw => F0 w (by exact_mod_cast hw)) (fun w => (hF w).1) (fun w => (hF w).2)
    rw [ebx, eby] at key
    rw [hflat, div_le_iff₀ key.1]
    refine key.2.trans (le_of_eq ?_)
    push_cast
    ring

theorem flat_mix : modelSpectrum 10000 [1, 0, 1, 0, 2] (List.replicate 5 (List.replicate 10000 (1 : ℝ))) = (List.range 10000).map (fun _ => (4 : ℝ)) := by
  unfold modelSpectrum
  refine List.map_congr_left fun j hj => ?_
  have hj' : j < 10000 := List.mem_range.mp hj
  have e : (List.replicate 10000 (1 : ℝ)).getD j 0 = 1 := by
    rw [List.getD_eq_getElem?_getD, List.getElem?_replicate, if_pos hj', Option.getD_some]
  simp only [List.replicate_succ (n := 4), List.replicate_succ (n := 3), List.replicate_succ (n := 2), List.replicate_succ (n := 1), List.replicate_succ (n := 0),
    List.replicate_zero, List.zipWith_cons_cons, List.zipWith_nil_right, List.sum_cons, List.sum_nil, e]
  norm_num

/-- not vacuous: the object of the flat spectra, and a galaxy whose spectrum is flat -/
example (dm : ℝ → ℝ) : ∃ t w' K m v M, Tmpl.fromfits flatFile true = .ok t ∧
    Kc.init shippedLib.cubic shippedDisk .gst gstBands (.template t) none none 0 2 4000 true dm ⟨fun _ => none, t.toSed⟩ = (w', .ok K) ∧
    K.reconstruct (some (.scalar 2)) (some (.vec [1, 0, 1, 0, 2])) 0 = .ok m ∧ entry m 0 0 = some v ∧ 0 < M ∧ v ≤ 0.01 * M := by
  obtain ⟨h1, h2, h3⟩ := shipped_reads
  obtain ⟨_, t, w', K, ht, hK, h⟩ := C188_false shippedLib h3 h1 h2 shippedDisk shippedDisk_ok flatFile flatFile_default true .gst gstBands (fun _ h => h) 0 rfl true dm
  obtain ⟨m, g, v, F, hm, hv, hF, _, _, hall⟩ := h [1, 0, 1, 0, 2] rfl
  refine ⟨t, w', K, m, v, 4 / 3 * 10 ^ 14 / (0.03631 * 2.99792), ht, hK, hm, hv, by norm_num, hall _ (by norm_num) ?_⟩
  obtain ⟨t', ht', w1, _, _, _, _, w2⟩ := read_template default_ok flatFile_default.1 flatFile_default.2 rfl rfl rfl rfl rfl true
  rw [ht] at ht'
  cases ht'
  obtain ⟨u1, u2, u3, u4, u5⟩ := unitsWave_ok default_ok
  have hfl := w2 _ rfl
  rw [hfl, flat_mix, w1] at hF
  set W := (unitsWave defaultUnits).map (fun w => w * (1 + (2 : ℝ))) with hW
  have hWl : W.length = 10000 := by rw [hW, List.length_map, u1]
  have hWi : W.Pairwise (· < ·) := by rw [hW, ← defaultAt2_real]; exact toR_incr.mpr defaultAt2_incr
  have eY : ((List.range 10000).map (fun _ => (4 : ℝ))).map (fun x => x / (1 + 2)) = W.map (Cub.val ⟨4 / 3, 0, 0, 0⟩) := by
    refine List.ext_getElem (by simp only [List.length_map, List.length_range, hWl]) fun i _ _ => ?_
    simp only [List.getElem_map, Cub.val]
    norm_num
  rw [eY] at hF
  intro w
  rw [hF, curve_cubic W hWi (by rw [hWl]; norm_num)]
  have hab : 0 ≤ abFlux w := by unfold abFlux; positivity
  split_ifs with hc
  · exact ⟨le_refl _, by positivity⟩
  · push Not at hc
    have hpos : 0 < w ∧ w ≤ 10 ^ 7 := by
      have hne : W ≠ [] := by intro e; rw [e] at hWl; simp at hWl
      have m1 : W.headD 0 ∈ W := by
        obtain ⟨a, l, e⟩ := List.exists_cons_of_ne_nil hne
        rw [e]; simp
      have m2 : W.getLastD 0 ∈ W := by
        rw [List.getLastD_eq_getLast?, List.getLast?_eq_some_getLast hne, Option.getD_some]
        exact List.getLast_mem hne
      obtain ⟨a, ha, e1⟩ := List.mem_map.mp m1
      obtain ⟨b, hb, e2⟩ := List.mem_map.mp m2
      have b1 := (u3 a ha).2.2
      have b2 := (u3 b hb).2.1
      norm_num at b2
      exact ⟨by linarith [hc.1], by linarith [hc.2]⟩
    refine ⟨by norm_num [Cub.val], ?_⟩
    have hw2 : w ^ 2 ≤ 10 ^ 14 := (pow_le_pow_left₀ hpos.1.le hpos.2 2).trans (by norm_num)
    have hw3 : 0 < w ^ 2 := by have := hpos.1; positivity
    have : (Cub.val ⟨4 / 3, 0, 0, 0⟩ w) = 4 / 3 := by norm_num [Cub.val]
    rw [this, abFlux]
    have e : 4 / 3 * 10 ^ 14 / (0.03631 * 2.99792) * (0.03631 * 2.99792 / w ^ 2) = 4 / 3 * (10 ^ 14 / w ^ 2) := by
      field_simp
    rw [e]
    have : 1 ≤ 10 ^ 14 / w ^ 2 := (one_le_div hw3).mpr hw2
    linarith

/-- and of `C188_partial`: `galex_NUV` at redshift 1.5 -/
example : Covers (unitsWave lrg1Units) 1.5 file_galex_NUV := by
  refine C188_partial lrg1Units (by simp) _ ?_ 1.5 (by norm_num) (Or.inr (Or.inl ⟨by norm_num, by decide⟩))
  simp [defaultFiles]

end KC
