import Verif.Lemmas.StarCheckS
import Verif.Lemmas.StarCheckF
import Verif.Lemmas.StarCheckN
import Verif.Props.Basel
import Verif.Props.Derived

/-!
# C185, C186: the Sun and Vega as shipped

The two spectra are in `Model/StarFiles.lean`, copied row by row.
-/

namespace KC
open Spec

namespace Spec

/-- the columns of a file: wavelengths in nanometres, and fluxes -/
noncomputable def StarFile.wave (s : StarFile) : List ℝ := s.rows.map (fun r => (r.1 : ℝ) / 10)
noncomputable def StarFile.flux (s : StarFile) : List ℝ := s.rows.map (fun r => (r.2.1 : ℝ) / 10 ^ r.2.2)

/-- reading a star gives the wavelengths and the fluxes of a file -/
def Reads (p : Py (Basel ℝ)) (s : StarFile) : Prop := ∃ b, p = .ok b ∧ b.wave = StarFile.wave s ∧ b.flux = [StarFile.flux s]

/-- the ten default bands with the AB magnitude of the Sun at 10 parsecs and that of Vega -/
def starTable : List (BandFile × ℚ × ℚ) :=
  [(file_galex_FUV, 18.84578, 2.34544),
   (file_galex_NUV, 9.98248, 1.75516),
   (file_sdss_u0, 6.38696, 0.93196),
   (file_sdss_g0, 5.12405, -0.08589),
   (file_sdss_r0, 4.64513, 0.15564),
   (file_sdss_i0, 4.53250, 0.36965),
   (file_sdss_z0, 4.50941, 0.53219),
   (file_twomass_J, 4.55482, 0.90169),
   (file_twomass_H, 4.69996, 1.38032),
   (file_twomass_Ks, 5.13359, 1.84730)]

end Spec

theorem starTable_files : starTable.map (·.1) = defaultFiles := by decide +kernel

theorem sun_rows : sunFile.rows.length = 1221 ∧ sunFile.rows.IsChain (fun p q => p.1 < q.1) := by decide +kernel
theorem vega_rows : vegaFile.rows.length = 1221 ∧ vegaFile.rows.IsChain (fun p q => p.1 < q.1) := by decide +kernel

/-- what is used of a star file -/
structure GoodStar (s : StarFile) (c : List (Int × Nat × Nat)) : Prop where
  many : s.rows.length = 1221
  incr : s.rows.IsChain (fun p q => p.1 < q.1)
  pos : ∀ r ∈ s.rows, 0 < r.1
  len : c.length = s.rows.length
  ok : rowsOK (starRows s c) = true

theorem sun_good : GoodStar sunFile cert_sun := ⟨sun_rows.1, sun_rows.2, by decide +kernel, by decide +kernel, sun_rowsOK⟩
theorem vega_good : GoodStar vegaFile cert_vega := ⟨vega_rows.1, vega_rows.2, by decide +kernel, by decide +kernel, vega_rowsOK⟩

theorem GoodStar.xs {s : StarFile} {c : List (Int × Nat × Nat)} (h : GoodStar s c) : rowsX (starRows s c) = (StarFile.wave s).map (· * 10) := by
  rw [rowsX_toR, starRows, (mkRows_maps (by simp [StarFile.x, StarFile.y]) (by simp [StarFile.x, h.len])).1]
  simp only [StarFile.x, toR, StarFile.wave, List.map_map]
  apply List.map_congr_left
  intro r _
  simp

theorem GoodStar.ys {s : StarFile} {c : List (Int × Nat × Nat)} (h : GoodStar s c) (rad d : ℝ) {k : ℚ} (hk : (k : ℝ) = 4 * 2.99792e18 * (rad / (d * 3.086e18)) ^ 2) :
    List.zipWith (starFlux rad d) (StarFile.flux s) ((StarFile.wave s).map (· * 10)) = (rowsY (starRows s c)).map (fun v => (k * Real.pi) * v) := by
  rw [rowsY_toR, starRows, (mkRows_maps (by simp [StarFile.x, StarFile.y]) (by simp [StarFile.x, h.len])).2]
  simp only [StarFile.y, toR, StarFile.wave, StarFile.flux, List.map_map, List.zipWith_map, List.zipWith_self]
  apply List.map_congr_left
  intro r hr
  have : (r.1 : ℝ) ≠ 0 := by have := h.pos r hr; exact_mod_cast this.ne'
  simp only [Function.comp_apply, starFlux]
  push_cast
  rw [hk]
  field_simp

/-- **C185.** Whatever the text, if its words read as the numbers of the file then the file is read as these wavelengths and this one spectrum. -/
theorem C185_read (s : StarFile) (hs : s = sunFile ∨ s = vegaFile) (pF : List Char → Option ℝ) (pI : List Char → Option Int) (ws : Char → Bool) (text : List Char)
    (wws fws : List (List Char)) (h0 h1 h2 h3 h4 h5 : List Char) (htext : Renders ws (wws ++ ([h0, h1, h2, h3, h4, h5] ++ fws)) text)
    (hw : List.Forall₂ (fun w x => pF w = some x) wws (StarFile.wave s)) (hf : List.Forall₂ (fun w x => pF w = some x) fws (StarFile.flux s))
    (hI : ∃ n, pI h0 = some n) (hh : ∀ w ∈ [h1, h2, h3, h4, h5], ∃ v, pF w = some v) : Reads (readBasel pF pI ws text) s := by
  have hl : s.rows.length = 1221 := by rcases hs with rfl | rfl <;> [exact sun_rows.1; exact vega_rows.1]
  obtain ⟨n, hn⟩ := hI
  obtain ⟨v1, e1⟩ := hh h1 (by simp)
  obtain ⟨v2, e2⟩ := hh h2 (by simp)
  obtain ⟨v3, e3⟩ := hh h3 (by simp)
  obtain ⟨v4, e4⟩ := hh h4 (by simp)
  obtain ⟨v5, e5⟩ := hh h5 (by simp)
  obtain ⟨b, hb, hbw, hbf, _⟩ := C15_read_basel pF pI ws text wws [[h0, h1, h2, h3, h4, h5] ++ fws] [] (StarFile.wave s)
    [{ modelno := n, teff := v1, logg := v2, mh := v3, vturb := v4, xh := v5, flux := StarFile.flux s }] (by simpa using htext)
    (by rw [hw.length_eq]; simp [StarFile.wave, hl]) hw
    (.cons ⟨h0, h1, h2, h3, h4, h5, fws, rfl, by rw [hf.length_eq]; simp [StarFile.flux, hl], hn, e1, e2, e3, e4, e5, hf⟩ .nil) (by simp)
  exact ⟨b, hb, hbw, by simpa using hbf⟩

/-- **C185.** The two stars meet what the construction of a response needs of them. -/
theorem C185_star {p : Py (Basel ℝ)} {s : StarFile} (hs : s = sunFile ∨ s = vegaFile) (h : Reads p s) : StarOK p := by
  obtain ⟨b, hb, hw, hf⟩ := h
  have hl : s.rows.length = 1221 := by rcases hs with rfl | rfl <;> [exact sun_rows.1; exact vega_rows.1]
  have hc : s.rows.IsChain (fun p q => p.1 < q.1) := by rcases hs with rfl | rfl <;> [exact sun_rows.2; exact vega_rows.2]
  have : IsTrans (Nat × Nat × Nat) (fun p q => p.1 < q.1) := ⟨fun _ _ _ => lt_trans⟩
  refine ⟨b, StarFile.flux s, hb, hf, by simp [hw, StarFile.flux, StarFile.wave], by simp [hw, StarFile.wave, hl], ?_⟩
  rw [hw]
  unfold StarFile.wave
  refine List.Pairwise.map _ (fun p q hpq => ?_) (List.isChain_iff_pairwise.mp hc)
  have : (p.1 : ℝ) < q.1 := by exact_mod_cast hpq
  intro e
  have := (div_left_inj' (by norm_num : (10 : ℝ) ≠ 0)).mp e
  linarith

/-- **C185.** With the shipped stars, every default response file makes a Response. -/
theorem C185_response (lib : Lib ℝ) (hb : BrentqOK lib) (hsun : Reads lib.sun sunFile) (hvega : Reads lib.vega vegaFile) (b : BandFile) (hd : b ∈ defaultFiles) :
    ∃ R, mkResponse lib.cubic b.wave b.resp = .ok R ∧ R.wave = b.sort.wave ∧ R.resp = b.sort.resp :=
  C181_response lib hb (C185_star (.inl rfl) hsun) (C185_star (.inr rfl) hvega) b hd

theorem kSun_cast : ((kSun : ℚ) : ℝ) = 4 * 2.99792e18 * (6.960e10 / (10 * 3.086e18)) ^ 2 := by
  unfold kSun; push_cast; norm_num

theorem kVega_cast : ((kVega : ℚ) : ℝ) = 4 * 2.99792e18 * (1.91144e11 / (7.68 * 3.086e18)) ^ 2 := by
  unfold kVega; push_cast; norm_num

/-- the projection of a star of a file, as a ratio of photon integrals over the points of the certificates -/
theorem star_ratio {lib : Lib ℝ} {b : BandFile} {cb : List (Int × Nat × Nat)} (hgb : GoodFile b.sort) (hcb : cb.length = b.sort.rows.length) {R : Resp ℝ}
    (hR : mkResponse lib.cubic b.sort.wave b.sort.resp = .ok R) {s : StarFile} {c : List (Int × Nat × Nat)} (hs : GoodStar s c)
    (hov : ∃ w ∈ (StarFile.wave s).map (· * 10), b.sort.wave.headD 0 ≤ w ∧ w ≤ b.sort.wave.getLastD 0)
    {rad d : ℝ} {k : ℚ} (hk : (k : ℝ) = 4 * 2.99792e18 * (rad / (d * 3.086e18)) ^ 2) {x : ℝ}
    (hx : projectArr lib.cubic R.toCurve ((StarFile.wave s).map (· * 10)) (.vec (List.zipWith (starFlux rad d) (StarFile.flux s) ((StarFile.wave s).map (· * 10)))) = .ok (.scalar x)) :
    ∃ g, UnionGrid (rowsX (starRows s c)) (rowsX (bandRows b cb)) g ∧
      x = (k * Real.pi) * photonInt g (curveFn nakSpline (rowsX (bandRows b cb)) (rowsY (bandRows b cb))) (curveFn nakSpline (rowsX (starRows s c)) (rowsY (starRows s c))) /
        photonInt g (curveFn nakSpline (rowsX (bandRows b cb)) (rowsY (bandRows b cb))) abFlux := by
  have hbm := mkRows_maps (xs := b.sort.w) (ys := b.sort.p) (cs := cb) (by simp [BandFile.w, BandFile.p]) (by simpa [BandFile.w] using hcb)
  have ebx : rowsX (bandRows b cb) = b.sort.wave := by rw [rowsX_toR, bandRows, hbm.1]; rfl
  have eby : rowsY (bandRows b cb) = b.sort.resp := by rw [rowsY_toR, bandRows, hbm.2]; rfl
  obtain ⟨e1, e2⟩ := mkResponse_sorted (hgb.incr.imp le_of_lt) hgb.len hR
  have hsx := hs.xs
  have K := (rows_sound hs.ok).1
  rw [hs.ys rad d hk, ← hsx] at hx
  rw [← hsx, ← ebx] at hov
  have hp : Projects lib.cubic R.toCurve (rowsX (starRows s c)) [(rowsY (starRows s c)).map (fun v => (k * Real.pi) * v)] (.scalar x) := .arrays [] _ hx
  obtain ⟨g, hg, hm⟩ := C18_project_ratio_partial lib.cubic (C159_contracts lib).1 _ _ R hR _ K.incr _ _ hp (by rw [e1, ← ebx]; exact hov)
    ⟨Or.inl (by rw [e2]; exact hgb.first), Or.inl (by rw [e2]; exact hgb.last)⟩
  rw [e1, e2, ← ebx, ← eby] at hm
  rw [e1, ← ebx] at hg
  refine ⟨g, hg, ?_⟩
  have hl : (rowsY (starRows s c)).length = (rowsX (starRows s c)).length := by simp [rowsX, rowsY]
  have ec : curveFn nakSpline (rowsX (starRows s c)) ((rowsY (starRows s c)).map (fun v => (k * Real.pi) * v)) =
      fun w => (k * Real.pi) * curveFn nakSpline (rowsX (starRows s c)) (rowsY (starRows s c)) w + 0 * abFlux w := by
    funext w
    have := curveFn_smul (lib := lib.cubic) (C159_contracts lib).2.1 (rowsX (starRows s c)) (rowsY (starRows s c)) (k * Real.pi) hl w
    rw [zero_mul, add_zero]
    exact this
  simp only [NDA.flat, List.map_cons, List.map_nil, List.cons.injEq, and_true] at hm
  have hm' : x = photonInt g (curveFn nakSpline (rowsX (bandRows b cb)) (rowsY (bandRows b cb)))
      (curveFn nakSpline (rowsX (starRows s c)) ((rowsY (starRows s c)).map (fun v => (k * Real.pi) * v))) /
        photonInt g (curveFn nakSpline (rowsX (bandRows b cb)) (rowsY (bandRows b cb))) abFlux := hm
  rw [hm', ec, photonInt_linear]
  ring

/-- a sample of the star lies in the band -/
def overlapQ (s : StarFile) (b : BandFile) : Bool := s.x.any (fun q => decide (b.sort.w.headD 0 ≤ q) && decide (q ≤ b.sort.w.getLastD 0))

theorem overlap_sound {s : StarFile} {b : BandFile} (h : overlapQ s b = true) :
    ∃ w ∈ (StarFile.wave s).map (· * 10), b.sort.wave.headD 0 ≤ w ∧ w ≤ b.sort.wave.getLastD 0 := by
  simp only [overlapQ, List.any_eq_true, Bool.and_eq_true, decide_eq_true_eq] at h
  obtain ⟨q, hq, h1, h2⟩ := h
  obtain ⟨r, hr, rfl⟩ := List.mem_map.mp hq
  refine ⟨(r.1 : ℝ), ?_, ?_, ?_⟩
  · rw [StarFile.wave, List.map_map]
    refine List.mem_map.mpr ⟨r, hr, ?_⟩
    simp
  · have := toR_headD b.sort.w
    rw [show b.sort.wave = toR b.sort.w from rfl, this]
    exact_mod_cast h1
  · have := toR_getLastD b.sort.w
    rw [show b.sort.wave = toR b.sort.w from rfl, this]
    exact_mod_cast h2

theorem star_mag {lib : Lib ℝ} {b : BandFile} {cb : List (Int × Nat × Nat)} (hgb : GoodFile b.sort) (hcb : cb.length = b.sort.rows.length) {R : Resp ℝ}
    (hR : mkResponse lib.cubic b.sort.wave b.sort.resp = .ok R) {s : StarFile} {c : List (Int × Nat × Nat)} (hs : GoodStar s c) (hob : rowsOK (bandRows b cb) = true)
    (hin : insideOK (starRows s c) (bandRows b cb) = true) (hov : overlapQ s b = true)
    {rad d : ℝ} {k : ℚ} (hk : (k : ℝ) = 4 * 2.99792e18 * (rad / (d * 3.086e18)) ^ 2) (hk0 : 0 < k) {v : Int} {a h e : Nat} (hp : powOK v a h e = true)
    (hm : maggiesOK (starRows s c) (bandRows b cb) (10 ^ 24) k a h e = true) {x : ℝ}
    (hx : projectArr lib.cubic R.toCurve ((StarFile.wave s).map (· * 10)) (.vec (List.zipWith (starFlux rad d) (StarFile.flux s) ((StarFile.wave s).map (· * 10)))) = .ok (.scalar x)) :
    ∃ M, Spec.magOf x = some M ∧ |M - v / 100000| < 0.0001 := by
  obtain ⟨g, hg, rfl⟩ := star_ratio hgb hcb hR hs (overlap_sound hov) hk hx
  obtain ⟨h1, h2⟩ := maggiesOK_sound hs.ok hob hin hk0 hm hg
  obtain ⟨h3, h4⟩ := powOK_sound hp h1 h2
  exact ⟨_, by rw [Spec.magOf, if_pos h3], h4⟩

def magRows : List MagRow := [mags_galex_FUV, mags_galex_NUV, mags_sdss_u0, mags_sdss_g0, mags_sdss_r0, mags_sdss_i0, mags_sdss_z0, mags_twomass_J, mags_twomass_H, mags_twomass_Ks]

theorem overlaps : ∀ r ∈ magRows, overlapQ sunFile r.file = true ∧ overlapQ vegaFile r.file = true := by decide +kernel

theorem magRows_band : ∀ r ∈ magRows, r.bandOK = true := by
  simp only [magRows, List.forall_mem_cons]
  exact ⟨bandOK_galex_FUV, bandOK_galex_NUV, bandOK_sdss_u0, bandOK_sdss_g0, bandOK_sdss_r0, bandOK_sdss_i0, bandOK_sdss_z0, bandOK_twomass_J, bandOK_twomass_H, bandOK_twomass_Ks, fun _ h => absurd h List.not_mem_nil⟩

theorem magRows_sun : ∀ r ∈ magRows, r.sunOK = true := by
  simp only [magRows, List.forall_mem_cons]
  exact ⟨sunOK_galex_FUV, sunOK_galex_NUV, sunOK_sdss_u0, sunOK_sdss_g0, sunOK_sdss_r0, sunOK_sdss_i0, sunOK_sdss_z0, sunOK_twomass_J, sunOK_twomass_H, sunOK_twomass_Ks, fun _ h => absurd h List.not_mem_nil⟩

theorem magRows_vega : ∀ r ∈ magRows, r.vegaOK = true := by
  simp only [magRows, List.forall_mem_cons]
  exact ⟨vegaOK_galex_FUV, vegaOK_galex_NUV, vegaOK_sdss_u0, vegaOK_sdss_g0, vegaOK_sdss_r0, vegaOK_sdss_i0, vegaOK_sdss_z0, vegaOK_twomass_J, vegaOK_twomass_H, vegaOK_twomass_Ks, fun _ h => absurd h List.not_mem_nil⟩

theorem starTable_mags : starTable = magRows.map (fun r => (r.file, (r.sun.1 : ℚ) / 100000, (r.vega.1 : ℚ) / 100000)) := by decide +kernel

/-- **C185.** With the shipped stars and response curves, the AB magnitudes of the Sun and of Vega in the ten default bands are those of the table, to 0.0001.  (The table
has the four values of the project's own tests: 6.38696 and 0.93196 in `sdss_u0`, 5.13359 and 1.84730 in `twomass_Ks`.) -/
theorem C185_magnitudes (lib : Lib ℝ) (hsun : Reads lib.sun sunFile) (hvega : Reads lib.vega vegaFile) (b : BandFile) (ms mv : ℚ) (hrow : (b, ms, mv) ∈ starTable)
    (R : Resp ℝ) (hR : mkResponse lib.cubic b.wave b.resp = .ok R) :
    (∃ M, R.solarMag = some M ∧ |M - ms| < 0.0001) ∧ ∃ V, R.vega2ab = some V ∧ |V - mv| < 0.0001 := by
  have hd : b ∈ defaultFiles := by
    rw [← starTable_files]
    exact List.mem_map_of_mem (f := (·.1)) hrow
  rw [file_sort lib.cubic hd] at hR
  rw [starTable_mags] at hrow
  obtain ⟨r, hr, e⟩ := List.mem_map.mp hrow
  simp only [Prod.mk.injEq] at e
  obtain ⟨rfl, rfl, rfl⟩ := e
  have hb := magRows_band r hr
  simp only [MagRow.bandOK, Bool.and_eq_true, decide_eq_true_eq] at hb
  obtain ⟨⟨⟨b1, b2⟩, b3⟩, b4⟩ := hb
  have h1 := magRows_sun r hr
  simp only [MagRow.sunOK, Bool.and_eq_true] at h1
  have h2 := magRows_vega r hr
  simp only [MagRow.vegaOK, Bool.and_eq_true] at h2
  obtain ⟨bs, es, ws, fs⟩ := hsun
  obtain ⟨bv, ev, wv, fv⟩ := hvega
  obtain ⟨⟨x, hx, m1⟩, ⟨y, hy, m2⟩⟩ := C136_star_magnitudes (lib := lib.cubic) hR es fs (by simp [ws, StarFile.flux, StarFile.wave]) ev fv
    (by simp [wv, StarFile.flux, StarFile.wave])
  rw [ws] at hx
  rw [wv] at hy
  have g := defaultFiles_good hd
  obtain ⟨M, e1, e2⟩ := star_mag g b1 hR sun_good b2 b3 (overlaps r hr).1 kSun_cast (by norm_num [kSun]) h1.1 h1.2 hx
  obtain ⟨V, e3, e4⟩ := star_mag g b1 hR vega_good b2 b4 (overlaps r hr).2 kVega_cast (by norm_num [kVega]) h2.1 h2.2 hy
  refine ⟨⟨M, m1.trans e1, ?_⟩, ⟨V, m2.trans e3, ?_⟩⟩
  · push_cast; exact e2
  · push_cast; exact e4

/-- **C185.** With the shipped files, `derived` has the solar magnitudes it needs in every one of the default bands: the masses and the mass-to-light ratios come back
for every galaxy and every band shift that the table of projections covers. -/
theorem C185_derived (lib : Lib ℝ) (hsun : Reads lib.sun sunFile) (hvega : Reads lib.vega vegaFile) (disk : Disk ℝ)
    (hdisk : ∀ b ∈ defaultFiles, disk (datName b.name) = .ok (b.wave, b.resp)) {K : Kc ℝ} {t : Tmpl ℝ} {Ao : AMat ℝ} (h : MassKc K t Ao) (g : Reg ℝ)
    (hg : ∀ n ∈ K.responsesOut, n ∈ gstBands ∧ ∃ R, FileGives lib.cubic disk n R ∧ g n = some (RespObj.full R)) (z : ℝ) (c : List ℝ)
    (hc : c.length = K.templates.nsed) (bs : ℝ) (M : List (List ℝ)) (hM : Ao.at bs = .ok M) :
    ∃ D, K.derived g (some (.scalar z)) (some (.vec c)) bs none = .ok D := by
  rw [derived_returns h g z c hc bs]
  refine ⟨⟨M, hM⟩, ?_⟩
  have key : ∀ n ∈ K.responsesOut, ∃ s o, g n = some o ∧ o.solarMag = some s := by
    intro n hn
    obtain ⟨hb, R, ⟨w, r, hw, hR⟩, hgn⟩ := hg n hn
    rw [← files_names] at hb
    obtain ⟨b, hbd, rfl⟩ := List.mem_map.mp hb
    rw [hdisk b hbd] at hw
    obtain ⟨rfl, rfl⟩ := Prod.mk.inj (Except.ok.inj hw)
    rw [← starTable_files] at hbd
    obtain ⟨⟨b', ms, mv⟩, hrow, rfl⟩ := List.mem_map.mp hbd
    obtain ⟨⟨m, hm, _⟩, _⟩ := C185_magnitudes lib hsun hvega b' ms mv hrow R hR
    exact ⟨m, _, hgn, hm⟩
  unfold SolarMags
  generalize K.responsesOut = l at key
  clear hg
  induction l with
  | nil => exact ⟨[], .nil⟩
  | cons n l ih =>
    obtain ⟨s, o, h1, h2⟩ := key n (by simp)
    obtain ⟨ss, hss⟩ := ih (fun m hm => key m (List.mem_cons_of_mem _ hm))
    exact ⟨s :: ss, .cons ⟨o, h1, h2⟩ hss⟩

/-! ### C186 -/

theorem iras_check : file_iras_60.sort.check = true ∧ file_iras_60.sort = file_iras_60 ∧ cert_iras_60.length = file_iras_60.sort.rows.length ∧
    rowsOK (bandRows file_iras_60 cert_iras_60) = true ∧ overlapQ sunFile file_iras_60 = true ∧ overlapQ vegaFile file_iras_60 = true := by decide +kernel

theorem iras_sun : (insideOK (starRows sunFile cert_sun) (bandRows file_iras_60 cert_iras_60) &&
    decide (0 < denLo (starRows sunFile cert_sun) (bandRows file_iras_60 cert_iras_60) (10 ^ 24)) &&
    decide (numHi (starRows sunFile cert_sun) (bandRows file_iras_60 cert_iras_60) (10 ^ 24) < 0)) = true := by decide +kernel

theorem iras_vega : (insideOK (starRows vegaFile cert_vega) (bandRows file_iras_60 cert_iras_60) &&
    decide (0 < denLo (starRows vegaFile cert_vega) (bandRows file_iras_60 cert_iras_60) (10 ^ 24)) &&
    decide (numHi (starRows vegaFile cert_vega) (bandRows file_iras_60 cert_iras_60) (10 ^ 24) < 0)) = true := by decide +kernel

theorem iras_none {lib : Lib ℝ} {R : Resp ℝ} (hR : mkResponse lib.cubic file_iras_60.wave file_iras_60.resp = .ok R) {s : StarFile} {c : List (Int × Nat × Nat)} (hs : GoodStar s c)
    (hov : overlapQ s file_iras_60 = true)
    (hck : (insideOK (starRows s c) (bandRows file_iras_60 cert_iras_60) && decide (0 < denLo (starRows s c) (bandRows file_iras_60 cert_iras_60) (10 ^ 24)) &&
      decide (numHi (starRows s c) (bandRows file_iras_60 cert_iras_60) (10 ^ 24) < 0)) = true)
    {rad d : ℝ} {k : ℚ} (hk : (k : ℝ) = 4 * 2.99792e18 * (rad / (d * 3.086e18)) ^ 2) (hk0 : 0 < k) {x : ℝ}
    (hx : projectArr lib.cubic R.toCurve ((StarFile.wave s).map (· * 10)) (.vec (List.zipWith (starFlux rad d) (StarFile.flux s) ((StarFile.wave s).map (· * 10)))) = .ok (.scalar x)) :
    x < 0 := by
  obtain ⟨c1, c2, c3, c4, _⟩ := iras_check
  rw [← c2] at hR
  obtain ⟨g, hg, rfl⟩ := star_ratio (BandFile.good c1) c3 hR hs (overlap_sound hov) hk hx
  simp only [Bool.and_eq_true, decide_eq_true_eq] at hck
  obtain ⟨⟨hin, hd⟩, hn⟩ := hck
  obtain ⟨_, n2, d1, _⟩ := star_bounds hs.ok c4 hin (S := 10 ^ 24) (by positivity) hg
  have hd : (0 : ℝ) < denLo (starRows s c) (bandRows file_iras_60 cert_iras_60) (10 ^ 24) := by exact_mod_cast hd
  have hn : (numHi (starRows s c) (bandRows file_iras_60 cert_iras_60) (10 ^ 24) : ℝ) < 0 := by exact_mod_cast hn
  have hk0 : (0 : ℝ) < k := by exact_mod_cast hk0
  have hp := Real.pi_pos
  refine div_neg_of_neg_of_pos (mul_neg_of_pos_of_neg (by positivity) (lt_of_le_of_lt n2 hn)) (lt_of_lt_of_le hd d1)

/-- the samples of a star between two wavelengths in Angstroms are positive -/
def StarFile.brightIn (s : StarFile) (lo hi : Nat) : Bool := s.rows.all (fun r => decide (r.1 < lo) || decide (hi < r.1) || decide (0 < r.2.1))

/-- **C186 is false.** The shipped band `iras_60` lies inside the wavelength range of both models, and both have only positive fluxes there; its Response is made, but
with no solar magnitude and no Vega correction. -/
theorem C186_false (lib : Lib ℝ) (hb : BrentqOK lib) (hsun : Reads lib.sun sunFile) (hvega : Reads lib.vega vegaFile) :
    (∀ w ∈ file_iras_60.wave, 270000 ≤ w ∧ w ≤ 870000) ∧ (∀ v ∈ file_iras_60.resp, 0 ≤ v) ∧
    (∀ s ∈ [sunFile, vegaFile], (∃ l ∈ StarFile.wave s, l * 10 < 270000) ∧ (∃ l ∈ StarFile.wave s, 870000 < l * 10) ∧
      ∀ p ∈ List.zip (StarFile.wave s) (StarFile.flux s), 200000 ≤ p.1 * 10 → p.1 * 10 ≤ 1000000 → 0 < p.2) ∧
    ∃ R, mkResponse lib.cubic file_iras_60.wave file_iras_60.resp = .ok R ∧ R.solarMag = none ∧ R.vega2ab = none := by
  refine ⟨?_, ?_, ?_, ?_⟩
  · have h : ∀ r ∈ file_iras_60.rows, 270000 ≤ r.1 ∧ r.1 ≤ 870000 := by decide +kernel
    intro w hw
    simp only [BandFile.wave, BandFile.w, List.map_map, List.mem_map] at hw
    obtain ⟨r, hr, rfl⟩ := hw
    obtain ⟨h1, h2⟩ := h r hr
    have e : file_iras_60.wdec = 0 := rfl
    simp only [Function.comp_apply, e, pow_zero, div_one]
    exact ⟨by exact_mod_cast h1, by exact_mod_cast h2⟩
  · have h : ∀ r ∈ file_iras_60.rows, 0 ≤ r.2 := by decide +kernel
    intro w hw
    simp only [BandFile.resp, BandFile.p, List.map_map, List.mem_map] at hw
    obtain ⟨r, hr, rfl⟩ := hw
    have := h r hr
    have h2 : (0 : ℚ) ≤ (r.2 : ℚ) / 10 ^ file_iras_60.pdec := div_nonneg (by exact_mod_cast this) (by positivity)
    simp only [Function.comp_apply]
    exact_mod_cast h2
  · have h : ∀ s ∈ [sunFile, vegaFile], (s.rows.any (fun r => decide (r.1 < 270000)) && s.rows.any (fun r => decide (870000 < r.1)) && StarFile.brightIn s 200000 1000000) = true := by
      simp only [List.forall_mem_cons]
      exact ⟨by decide +kernel, by decide +kernel, fun _ h => absurd h List.not_mem_nil⟩
    intro s hs
    have h := h s hs
    simp only [Bool.and_eq_true, List.any_eq_true, StarFile.brightIn, List.all_eq_true, decide_eq_true_eq, Bool.or_eq_true] at h
    obtain ⟨⟨⟨r1, m1, l1⟩, ⟨r2, m2, l2⟩⟩, h3⟩ := h
    have e : ∀ v : ℝ, v / 10 * 10 = v := fun v => by ring
    refine ⟨⟨_, List.mem_map_of_mem m1, ?_⟩, ⟨_, List.mem_map_of_mem m2, ?_⟩, ?_⟩
    · simp only [e]; exact_mod_cast l1
    · simp only [e]; exact_mod_cast l2
    · intro p hp
      simp only [StarFile.wave, StarFile.flux, List.zip_map', List.mem_map] at hp
      obtain ⟨r, hr, rfl⟩ := hp
      simp only [e]
      intro a1 a2
      have a1 : 200000 ≤ r.1 := by exact_mod_cast a1
      have a2 : r.1 ≤ 1000000 := by exact_mod_cast a2
      rcases h3 r hr with (h | h) | h
      · omega
      · omega
      · have : (0 : ℝ) < r.2.1 := by exact_mod_cast h
        positivity
  · obtain ⟨c1, c2, c3, c4, o1, o2⟩ := iras_check
    have g := BandFile.good c1
    rw [c2] at g
    obtain ⟨R, hR⟩ := C91_response_builds lib.cubic (C159_contracts lib).1 hb (C185_star (.inl rfl) hsun) (C185_star (.inr rfl) hvega) file_iras_60.wave file_iras_60.resp
      (g.incr.imp fun h => h.ne) g.four g.len g.some
    obtain ⟨bs, es, ws, fs⟩ := hsun
    obtain ⟨bv, ev, wv, fv⟩ := hvega
    obtain ⟨⟨x, hx, m1⟩, ⟨y, hy, m2⟩⟩ := C136_star_magnitudes (lib := lib.cubic) hR es fs (by simp [ws, StarFile.flux, StarFile.wave]) ev fv
      (by simp [wv, StarFile.flux, StarFile.wave])
    rw [ws] at hx
    rw [wv] at hy
    have n1 := iras_none hR sun_good o1 iras_sun kSun_cast (by norm_num [kSun]) hx
    have n2 := iras_none hR vega_good o2 iras_vega kVega_cast (by norm_num [kVega]) hy
    exact ⟨R, hR, by rw [m1, Spec.magOf, if_neg (not_lt.mpr n1.le)], by rw [m2, Spec.magOf, if_neg (not_lt.mpr n2.le)]⟩

/-- With `iras_60` among the output bands, no call to `derived` returns. -/
theorem C186_false_derived (lib : Lib ℝ) (hsun : Reads lib.sun sunFile) (hvega : Reads lib.vega vegaFile) (hb : BrentqOK lib) (disk : Disk ℝ)
    (hdisk : disk (datName file_iras_60.name) = .ok (file_iras_60.wave, file_iras_60.resp)) (K : Kc ℝ) (hn : file_iras_60.name ∈ K.responsesOut) (g : Reg ℝ)
    (hg : ∃ R, FileGives lib.cubic disk file_iras_60.name R ∧ g file_iras_60.name = some (RespObj.full R))
    (redshift coeffs : Option (NDA ℝ)) (bs : ℝ) (distance : Option (NDA ℝ)) (D : Derived ℝ) : K.derived g redshift coeffs bs distance ≠ .ok D := by
  obtain ⟨R, ⟨w, r, hw, hR⟩, hgn⟩ := hg
  rw [hdisk] at hw
  obtain ⟨rfl, rfl⟩ := Prod.mk.inj (Except.ok.inj hw)
  obtain ⟨R', hR', h1, _⟩ := (C186_false lib hb hsun hvega).2.2.2
  rw [hR] at hR'
  cases hR'
  exact C81_false K _ hn g _ hgn h1 redshift coeffs bs distance D

/-- **C186, the part that holds.** In each of the ten default bands both are defined. -/
theorem C186_partial (lib : Lib ℝ) (hsun : Reads lib.sun sunFile) (hvega : Reads lib.vega vegaFile) (b : BandFile) (hd : b ∈ defaultFiles) (R : Resp ℝ)
    (hR : mkResponse lib.cubic b.wave b.resp = .ok R) : R.solarMag ≠ none ∧ R.vega2ab ≠ none := by
  rw [← starTable_files] at hd
  obtain ⟨⟨b', ms, mv⟩, hrow, rfl⟩ := List.mem_map.mp hd
  obtain ⟨⟨m, hm, _⟩, ⟨v, hv, _⟩⟩ := C185_magnitudes lib hsun hvega b' ms mv hrow R hR
  exact ⟨by rw [hm]; simp, by rw [hv]; simp⟩

/-! ### not vacuous -/

/-- a library with the shipped stars -/
noncomputable def shippedLib : Lib ℝ :=
  { demoLib with
    sun := .ok { modelno := [1], teff := [5777], logg := [4.44], mh := [0], vturb := [1.5], xh := [1.25], wave := StarFile.wave sunFile, flux := [StarFile.flux sunFile] }
    vega := .ok { modelno := [1], teff := [9400], logg := [3.9], mh := [-0.5], vturb := [0], xh := [0], wave := StarFile.wave vegaFile, flux := [StarFile.flux vegaFile] } }

theorem shipped_reads : Reads shippedLib.sun sunFile ∧ Reads shippedLib.vega vegaFile ∧ BrentqOK shippedLib := ⟨⟨_, rfl, rfl, rfl⟩, ⟨_, rfl, rfl, rfl⟩, demo_brentq⟩

/-- C185: the solar magnitude in `sdss_r0`. -/
example : ∃ R M, mkResponse shippedLib.cubic file_sdss_r0.wave file_sdss_r0.resp = .ok R ∧ R.solarMag = some M ∧ |M - 4.64513| < 0.0001 := by
  obtain ⟨h1, h2, h3⟩ := shipped_reads
  have hd : file_sdss_r0 ∈ defaultFiles := by simp [defaultFiles]
  obtain ⟨R, hR, _⟩ := C185_response shippedLib h3 h1 h2 file_sdss_r0 hd
  obtain ⟨⟨M, hM, hv⟩, _⟩ := C185_magnitudes shippedLib h1 h2 file_sdss_r0 4.64513 0.15564 (by simp [starTable]) R hR
  refine ⟨R, M, hR, hM, ?_⟩
  push_cast at hv
  exact hv

/-- C186: a response with neither. -/
example : ∃ R, mkResponse shippedLib.cubic file_iras_60.wave file_iras_60.resp = .ok R ∧ R.solarMag = none ∧ R.vega2ab = none :=
  (C186_false shippedLib shipped_reads.2.2 shipped_reads.1 shipped_reads.2.1).2.2.2

theorem demo_r0_kc : MassKc { demoMass with responsesOut := ["sdss_r0".toList] } demoTmpl demoAm := ⟨rfl, demoMass_ok.mass, rfl⟩

/-- C185: `derived` with the shipped files and `sdss_r0` for the output band. -/
example : ∃ K : Kc ℝ, K.responsesOut = ["sdss_r0".toList] ∧ ∃ g D, K.derived g (some (.scalar 1)) (some (.vec [2, 1])) 0 none = .ok D := by
  obtain ⟨h1, h2, h3⟩ := shipped_reads
  have hd : file_sdss_r0 ∈ defaultFiles := by simp [defaultFiles]
  obtain ⟨R, hR, _⟩ := C185_response shippedLib h3 h1 h2 file_sdss_r0 hd
  obtain ⟨⟨M, hM⟩, _⟩ := (derived_returns demoMass_ok demoReg 1 [2, 1] rfl 0).mp demo_derived
  have hdisk := shippedDisk_ok _ hd
  have hgst : "sdss_r0".toList ∈ gstBands := by decide +kernel
  have hname : file_sdss_r0.name = "sdss_r0".toList := rfl
  rw [hname] at hdisk
  have key := C185_derived shippedLib h1 h2 shippedDisk shippedDisk_ok demo_r0_kc (fun _ => some (RespObj.full R))
    (by
      intro n hn
      rw [List.mem_singleton.mp hn]
      exact ⟨hgst, R, ⟨_, _, hdisk, hR⟩, rfl⟩) 1 [2, 1] rfl 0 M hM
  exact ⟨_, rfl, _, key⟩

/-- C185: a text that reads as the file of the Sun, with words of different lengths for the numbers. -/
example : ∃ pF pI text, Reads (readBasel pF pI (fun c => c = ' ') text) sunFile := by
  let pF : List Char → Option ℝ := fun w =>
    if w.head? = some 'a' then (StarFile.wave sunFile)[w.length - 1]? else if w.head? = some 'b' then (StarFile.flux sunFile)[w.length - 1]? else some 0
  let wd : Char → Nat → List Char := fun c i => List.replicate (i + 1) c
  have hr : ∀ words : List (List Char), (∀ w ∈ words, w ≠ [] ∧ ∀ c ∈ w, c ≠ ' ') → ∃ text, Renders (fun c => c = ' ') words text := by
    intro words
    induction words with
    | nil => exact fun _ => ⟨[], .done [] (by simp)⟩
    | cons w ws ih =>
      intro h
      obtain ⟨t, ht⟩ := ih (fun v hv => h v (by simp [hv]))
      exact ⟨_, .word [] w ' ' ws t (by simp) (h w (by simp)).1 (fun c hc => by simpa using (h w (by simp)).2 c hc) (by simp) ht⟩
  obtain ⟨text, ht⟩ := hr ((List.range 1221).map (wd 'a') ++ ([['1'], ['1'], ['1'], ['1'], ['1'], ['1']] ++ (List.range 1221).map (wd 'b'))) (by
    intro w hw
    simp only [List.mem_append, List.mem_map, List.mem_cons, List.not_mem_nil, or_false] at hw
    rcases hw with ⟨i, _, rfl⟩ | (rfl | rfl | rfl | rfl | rfl | rfl) | ⟨i, _, rfl⟩
    all_goals first
      | exact ⟨by simp [wd], fun c hc => by rw [(List.mem_replicate.mp hc).2]; decide⟩
      | exact ⟨by simp, by simp⟩)
  have hl := sun_rows.1
  refine ⟨pF, fun _ => some 1, text, C185_read sunFile (.inl rfl) _ _ _ _ _ _ ['1'] ['1'] ['1'] ['1'] ['1'] ['1'] ht ?_ ?_ ⟨1, rfl⟩ ?_⟩
  · rw [List.forall₂_iff_get]
    refine ⟨by simp [StarFile.wave, hl], fun i h1 h2 => ?_⟩
    simp [pF, wd, List.head?_replicate]
  · rw [List.forall₂_iff_get]
    refine ⟨by simp [StarFile.flux, hl], fun i h1 h2 => ?_⟩
    simp [pF, wd, List.head?_replicate]
  · intro w hw
    simp only [List.mem_cons, List.not_mem_nil, or_false, or_self] at hw
    subst hw
    exact ⟨0, by simp [pF]⟩

end KC
