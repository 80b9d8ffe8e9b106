import Verif.Props.Shipped
import Verif.Props.Spline
import Verif.Props.Spectrum
import Verif.Lemmas.InBand

/-!
Spectra that are cubic polynomials of wavelength, flat and linear ones among them.
-/

namespace KC
open Spec

/-- C159 for a cubic: the spline through its samples is the cubic. -/
theorem nak_cubic (x : List ℝ) (hx : x.Pairwise (· < ·)) (h4 : 4 ≤ x.length) (p : Cub) (q : ℝ) (h1 : x.headD 0 ≤ q) (h2 : q ≤ x.getLastD 0) :
    nakSpline x (x.map p.val) q = p.val q := by
  refine (C159_unique x (x.map p.val) hx h4 p.val ⟨fun _ => p, fun _ _ _ _ _ => rfl, ?_, fun _ _ => ⟨rfl, rfl⟩, rfl, fun _ _ => rfl⟩ q ?_ ?_).symm
  · intro i hi
    simp [ent, hi]
  · have : ent x 0 = x.headD 0 := by cases x <;> simp [ent, real_lit]
    rw [this]; exact h1
  · have : ent x (x.length - 1) = x.getLastD 0 := by
      rw [List.getLastD_eq_getLast?, List.getLast?_eq_getElem?]
      simp [ent, real_lit]
    rw [this]; exact h2

theorem curve_cubic (x : List ℝ) (hx : x.Pairwise (· < ·)) (h4 : 4 ≤ x.length) (p : Cub) (q : ℝ) :
    curveFn nakSpline x (x.map p.val) q = if q < x.headD 0 ∨ x.getLastD 0 < q then 0 else p.val q := by
  unfold curveFn
  split_ifs with h
  · rfl
  · push Not at h
    exact nak_cubic x hx h4 p q h.1 h.2

/-- **C189.** Spectra that are cubic polynomials of wavelength: an SED object made of their samples, at any four or more increasing wavelengths, interpolates to the polynomials
themselves everywhere between the first and the last sample, and to zero outside. -/
theorem C189_interp (lib : Lib ℝ) (W : List ℝ) (hW : W.Pairwise (· < ·)) (h4 : 4 ≤ W.length) (ps : List Cub) :
    ∃ i, mkInterp W (ps.map (fun p => W.map p.val)) = .ok i ∧
      ∀ qs, i.eval lib.cubic qs = ps.map (fun p => qs.map (fun q => if q < W.headD 0 ∨ W.getLastD 0 < q then 0 else p.val q)) := by
  have h := mkInterp_strict W (ps.map (fun p => W.map p.val)) hW h4 (by simp)
  refine ⟨_, h, fun qs => ?_⟩
  simp only [Interp.eval, List.map_map]
  refine List.map_congr_left fun p _ => List.map_congr_left fun q _ => ?_
  have := curve_cubic W hW h4 p q
  unfold curveFn at this
  simp only [interpRow, Lib.cubic, Bool.or_eq_true, real_ltb, decide_eq_true_eq, real_lit, Rat.cast_zero]
  exact this

/-- **C189.** Their projection on a band inside the sampled range is the ratio of the photon integrals of the polynomials and of the AB source: the samples enter only as points
of the integration. -/
theorem C189_project (lib : Lib ℝ) (wave resp : List ℝ) (R : Resp ℝ) (hR : mkResponse lib.cubic wave resp = .ok R) (sw : List ℝ) (hs : sw.Pairwise (· < ·)) (ps : List Cub)
    (m : NDA ℝ) (hm : Projects lib.cubic R.toCurve sw (ps.map (fun p => sw.map p.val)) m) (hends : EndsCovered sw R.wave R.resp)
    (hov : ∃ w ∈ sw, R.wave.headD 0 ≤ w ∧ w ≤ R.wave.getLastD 0) (hin : ∀ w ∈ R.wave, sw.headD 0 ≤ w ∧ w ≤ sw.getLastD 0) :
    ∃ g, UnionGrid sw R.wave g ∧ m.flat = ps.map (fun p => photonInt g (curveFn nakSpline R.wave R.resp) p.val / photonInt g (curveFn nakSpline R.wave R.resp) abFlux) := by
  obtain ⟨g, hg, hm'⟩ := C18_project_ratio_partial lib.cubic (C159_contracts lib).1 wave resp R hR sw hs _ m hm hov hends
  refine ⟨g, hg, hm'.trans ?_⟩
  rw [List.map_map]
  refine List.map_congr_left fun p _ => ?_
  have h4 : 4 ≤ sw.length := (projects_eq hs hm).2.1
  have hsw : ∀ w ∈ sw, sw.headD 0 ≤ w ∧ w ≤ sw.getLastD 0 := by
    intro w hw
    cases sw with
    | nil => simp at hw
    | cons a l =>
      obtain ⟨i, hi, rfl⟩ := List.getElem_of_mem hw
      rw [List.getLastD_eq_getLast?, List.getLast?_eq_some_getLast (by simp), Option.getD_some, List.getLast_eq_getElem]
      constructor
      · by_cases e : i = 0
        · subst e; simp
        · exact (List.pairwise_iff_getElem.mp hs 0 i (by simp) hi (by omega)).le
      · by_cases e : i = (a :: l).length - 1
        · simp [e]
        · exact (List.pairwise_iff_getElem.mp hs i ((a :: l).length - 1) hi (by simp) (by omega)).le
  have e : ∀ w ∈ g, curveFn nakSpline sw (sw.map p.val) w = p.val w := by
    intro w hw
    have : sw.headD 0 ≤ w ∧ w ≤ sw.getLastD 0 := by
      rcases hg.only w hw with h | h
      · exact hin w h
      · exact hsw w h
    rw [curve_cubic sw hs h4, if_neg (by push Not; exact this)]
  have ei : photonInt g (curveFn nakSpline R.wave R.resp) (curveFn nakSpline sw (sw.map p.val)) = photonInt g (curveFn nakSpline R.wave R.resp) p.val := by
    unfold photonInt
    congr 1
    exact List.map_congr_left fun w hw => by rw [e w hw]
  show photonInt g (curveFn nakSpline R.wave R.resp) (curveFn nakSpline sw (sw.map p.val)) / _ = _
  rw [ei]
  rfl

/-- **C189.** The default bands satisfy the conditions. -/
theorem C189_default (lib : Lib ℝ) (b : BandFile) (hd : b ∈ defaultFiles) (R : Resp ℝ) (hR : mkResponse lib.cubic b.wave b.resp = .ok R) (sw : List ℝ)
    (hs : sw.Pairwise (· < ·)) (p : Cub) (v : ℝ) (hv : projectArr lib.cubic R.toCurve sw (.vec (sw.map p.val)) = .ok (.scalar v))
    (hov : ∃ w ∈ sw, b.sort.wave.headD 0 ≤ w ∧ w ≤ b.sort.wave.getLastD 0) (hin : ∀ w ∈ b.wave, sw.headD 0 ≤ w ∧ w ≤ sw.getLastD 0) :
    ∃ g, UnionGrid sw b.sort.wave g ∧ v = photonInt g (curveFn nakSpline b.sort.wave b.sort.resp) p.val / photonInt g (curveFn nakSpline b.sort.wave b.sort.resp) abFlux := by
  have g := defaultFiles_good hd
  rw [file_sort lib.cubic hd] at hR
  obtain ⟨e1, e2⟩ := mkResponse_sorted (g.incr.imp le_of_lt) g.len hR
  have hw : b.sort.wave.Perm b.wave := ((List.perm_insertionSort _ _ : b.sort.rows.Perm b.rows).map _).map _
  have := C189_project lib _ _ R hR sw hs [p] (.scalar v) (.arrays [] (sw.map p.val).length hv) ⟨Or.inl (by rw [e2]; exact g.first), Or.inl (by rw [e2]; exact g.last)⟩
    (by rw [e1]; exact hov) (fun w h => hin w (hw.mem_iff.mp (by rw [e1] at h; exact h)))
  rw [e1, e2] at this
  obtain ⟨G, hG, h⟩ := this
  refine ⟨G, hG, ?_⟩
  simpa [NDA.flat] using h

/-- a falling line, sampled at four wavelengths -/
example : ∃ i, mkInterp [1, 2, 4, (8 : ℝ)] [[1, 2, 4, 8].map (Cub.val ⟨10, -1, 0, 0⟩)] = .ok i ∧ i.eval demoLib.cubic [3, 5] = [[7, 5]] := by
  obtain ⟨i, h, he⟩ := C189_interp demoLib [1, 2, 4, 8] (by norm_num) (by simp) [⟨10, -1, 0, 0⟩]
  refine ⟨i, h, ?_⟩
  rw [he]
  norm_num [Cub.val]

/-- the flat spectrum, sampled coarsely, in `sdss_r0` -/
example : ∃ R v, mkResponse demoLib.cubic file_sdss_r0.wave file_sdss_r0.resp = .ok R ∧
    projectArr demoLib.cubic R.toCurve [1000, 6000, 20000, 30000] (.vec ([1000, 6000, 20000, 30000].map (Cub.val ⟨1, 0, 0, 0⟩))) = .ok (.scalar v) ∧
    ∃ g, v = photonInt g (curveFn nakSpline file_sdss_r0.sort.wave file_sdss_r0.sort.resp) (Cub.val ⟨1, 0, 0, 0⟩) /
      photonInt g (curveFn nakSpline file_sdss_r0.sort.wave file_sdss_r0.sort.resp) abFlux := by
  have hd : file_sdss_r0 ∈ defaultFiles := by simp [defaultFiles]
  obtain ⟨R, hR, _⟩ := C181_response demoLib demo_brentq demo_star demo_star file_sdss_r0 hd
  have hs : [(1000 : ℝ), 6000, 20000, 30000].Pairwise (· < ·) := by norm_num
  have hi := mkInterp_strict [(1000 : ℝ), 6000, 20000, 30000] [[1000, 6000, 20000, 30000].map (Cub.val ⟨1, 0, 0, 0⟩)] hs (by simp) (by simp)
  have hv := projectArr_vec demoLib.cubic R.toCurve hi (y := [1000, 6000, 20000, 30000].map (Cub.val ⟨1, 0, 0, 0⟩)) (by simp)
  have hall : file_sdss_r0.w.all (fun q => decide (1000 ≤ q) && decide (q ≤ 30000)) = true := by decide +kernel
  simp only [List.all_eq_true, Bool.and_eq_true, decide_eq_true_eq] at hall
  have hmem : file_sdss_r0.sort.w.headD 0 ≤ (6000 : ℚ) ∧ (6000 : ℚ) ≤ file_sdss_r0.sort.w.getLastD 0 := by decide +kernel
  refine ⟨R, _, hR, hv, ?_⟩
  obtain ⟨g, _, h⟩ := C189_default demoLib file_sdss_r0 hd R hR _ hs ⟨1, 0, 0, 0⟩ _ hv ⟨6000, by simp,
    by show (toR file_sdss_r0.sort.w).headD 0 ≤ 6000; rw [toR_headD]; exact_mod_cast hmem.1,
    by show 6000 ≤ (toR file_sdss_r0.sort.w).getLastD 0; rw [toR_getLastD]; exact_mod_cast hmem.2⟩ (fun w hw => by
    obtain ⟨q, hq, rfl⟩ := List.mem_map.mp hw
    have := hall q hq
    simp only [List.headD_cons, List.getLastD_cons]
    exact ⟨by exact_mod_cast this.1, by simpa using (by exact_mod_cast this.2 : (q : ℝ) ≤ 30000)⟩)
  exact ⟨g, h⟩

end KC
