import Verif.Props.Response2

/-!
# Property C179: brighter spectra have more maggies
-/

namespace KC
open Spec

theorem photonInt_mono {g : List ℝ} (hg : g.Pairwise (· < ·)) {r f1 f2 : ℝ → ℝ} (hw : ∀ w ∈ g, 0 ≤ w) (hr : ∀ w ∈ g, 0 ≤ r w) (hf : ∀ w ∈ g, f1 w ≤ f2 w) :
    photonInt g r f1 ≤ photonInt g r f2 := by
  have h := photonInt_nonneg hg (f := fun w => 1 * f2 w + (-1) * f1 w) hw hr (fun w h => by have := hf w h; linarith)
  rw [photonInt_linear] at h
  linarith

/-- **C179.** Of two spectra given at the same wavelengths, the one that is nowhere fainter (at the sample wavelengths of spectrum and band) has at least
as many maggies, for a nonnegative response that vanishes at its ends or is covered by the spectra there. -/
theorem C179_brighter (lib : Lib ℝ) (hk : KnotExact lib) (wave resp : List ℝ) (R : Resp ℝ) (hR : mkResponse lib wave resp = .ok R) (sw : List ℝ)
    (hs : sw.Pairwise (· < ·)) (y1 y2 : List ℝ) (m1 m2 : NDA ℝ) (h1 : Projects lib R.toCurve sw [y1] m1) (h2 : Projects lib R.toCurve sw [y2] m2)
    (hends : EndsCovered sw R.wave R.resp) (hpos : ∀ w ∈ R.wave ++ sw, 0 < w) (hresp : ∀ w ∈ R.wave ++ sw, 0 ≤ curveFn lib.spline R.wave R.resp w)
    (hle : ∀ w ∈ R.wave ++ sw, curveFn lib.spline sw y1 w ≤ curveFn lib.spline sw y2 w) :
    ∃ v1 v2, m1 = .scalar v1 ∧ m2 = .scalar v2 ∧ v1 ≤ v2 := by
  have hc := mkResponse_good hR
  obtain ⟨rfl, _, _⟩ := projects_eq hs h1
  obtain ⟨rfl, _, _⟩ := projects_eq hs h2
  cases hg : projGrid sw R.wave with
  | none =>
    rw [projectWith_none hg, projectWith_none hg]
    exact ⟨_, _, rfl, rfl, le_rfl⟩
  | some g =>
    have hu := projGrid_union hg
    have hgm : ∀ w ∈ g, w ∈ R.wave ++ sw := fun w hw => List.mem_append.mpr (hu.only w hw)
    have e1 := project_ratio hk hc hs hends hg [y1]
    have e2 := project_ratio hk hc hs hends hg [y2]
    have s : ∀ y, ∃ v, projectWith lib R.toCurve sw ⟨sw, [y]⟩ = .scalar v := by
      intro y
      simp only [projectWith, hg, projOnGrid, Interp.eval, List.map_cons, List.map_nil]
      exact ⟨_, rfl⟩
    obtain ⟨v1, q1⟩ := s y1
    obtain ⟨v2, q2⟩ := s y2
    rw [q1] at e1
    rw [q2] at e2
    refine ⟨v1, v2, q1, q2, ?_⟩
    simp only [NDA.flat, List.map_cons, List.map_nil, List.cons.injEq, and_true] at e1 e2
    rw [e1, e2]
    refine div_le_div_of_nonneg_right ?_ ?_
    · exact photonInt_mono hu.incr (fun w hw => (hpos w (hgm w hw)).le) (fun w hw => hresp w (hgm w hw)) (fun w hw => hle w (hgm w hw))
    · exact photonInt_nonneg hu.incr (fun w hw => (hpos w (hgm w hw)).le) (fun w hw => hresp w (hgm w hw))
        (fun w hw => (abFlux_pos (hpos w (hgm w hw))).le)

/-- **C179.** A spectrum that lies between `a` and `b` times the AB source, at the sample wavelengths of spectrum and band, has between `a` and `b` maggies. -/
theorem C179_between (lib : Lib ℝ) (hk : KnotExact lib) (wave resp : List ℝ) (R : Resp ℝ) (hR : mkResponse lib wave resp = .ok R) (sw : List ℝ)
    (hs : sw.Pairwise (· < ·)) (rows : List (List ℝ)) (m : NDA ℝ) (hm : Projects lib R.toCurve sw rows m)
    (hov : ∃ w ∈ sw, R.wave.headD 0 ≤ w ∧ w ≤ R.wave.getLastD 0) (hends : EndsCovered sw R.wave R.resp) (hpos : ∀ w ∈ R.wave ++ sw, 0 < w)
    (hresp : ∀ w ∈ R.wave ++ sw, 0 ≤ curveFn lib.spline R.wave R.resp w) (a b : ℝ)
    (hab : ∀ y ∈ rows, ∀ w ∈ R.wave ++ sw, a * abFlux w ≤ curveFn lib.spline sw y w ∧ curveFn lib.spline sw y w ≤ b * abFlux w) :
    ∀ v ∈ m.flat, a ≤ v ∧ v ≤ b := by
  obtain ⟨g, hg, hf⟩ := C18_project_ratio_partial lib hk wave resp R hR sw hs rows m hm hov hends
  have hgm : ∀ w ∈ g, w ∈ R.wave ++ sw := fun w hw => List.mem_append.mpr (hg.only w hw)
  have hw0 : ∀ w ∈ g, 0 ≤ w := fun w hw => (hpos w (hgm w hw)).le
  have hr0 : ∀ w ∈ g, 0 ≤ curveFn lib.spline R.wave R.resp w := fun w hw => hresp w (hgm w hw)
  have hD := C24_denominator_pos lib hk wave resp R hR sw g hg hpos hresp
  intro v hv
  rw [hf, List.mem_map] at hv
  obtain ⟨y, hy, rfl⟩ := hv
  have l1 := photonInt_mono hg.incr (f1 := fun w => a * abFlux w + 0 * abFlux w) (f2 := curveFn lib.spline sw y) hw0 hr0
    (fun w hw => by have := (hab y hy w (hgm w hw)).1; linarith)
  have l2 := photonInt_mono hg.incr (f2 := fun w => b * abFlux w + 0 * abFlux w) (f1 := curveFn lib.spline sw y) hw0 hr0
    (fun w hw => by have := (hab y hy w (hgm w hw)).2; linarith)
  rw [photonInt_linear] at l1 l2
  constructor
  · rw [le_div_iff₀ hD]; linarith
  · rw [div_le_iff₀ hD]; linarith

/-- Two spectra and a band that meet the hypotheses: the second spectrum is brighter at one wavelength; the first has at most 1000 AB maggies per sample. -/
example : ∃ R m1 m2, mkResponse demoLib [1, 2, 3, 4] [0, 1, 1, 0] = .ok R ∧ Projects demoLib R.toCurve [1, 2, 3, 4] [[3, 0, 5, 1]] m1 ∧
    Projects demoLib R.toCurve [1, 2, 3, 4] [[3, 2, 5, 1]] m2 ∧ EndsCovered [1, 2, 3, 4] R.wave R.resp ∧ (∀ w ∈ R.wave ++ [1, 2, 3, 4], 0 < w) ∧
    (∃ w ∈ [1, 2, 3, 4], R.wave.headD 0 ≤ w ∧ w ≤ R.wave.getLastD 0) ∧
    (∀ w ∈ R.wave ++ [1, 2, 3, 4], 0 ≤ curveFn demoLib.spline R.wave R.resp w) ∧
    (∀ w ∈ R.wave ++ [1, 2, 3, 4], curveFn demoLib.spline [1, 2, 3, 4] [3, 0, 5, 1] w ≤ curveFn demoLib.spline [1, 2, 3, 4] [3, 2, 5, 1] w) ∧
    (∀ y ∈ [[3, 0, 5, 1]], ∀ w ∈ R.wave ++ [1, 2, 3, 4], 0 * abFlux w ≤ curveFn demoLib.spline [1, 2, 3, 4] y w ∧
      curveFn demoLib.spline [1, 2, 3, 4] y w ≤ 1000 * abFlux w) := by
  obtain ⟨R, hR⟩ := demo_response (wave := [1, 2, 3, 4]) (resp := [0, 1, 1, 0]) (by norm_num) (by simp) rfl
    ⟨1, by simp, by norm_num⟩
  obtain ⟨m1, hm1⟩ := projects_exists demoLib R.toCurve [1, 2, 3, 4] [3, 0, 5, 1] sorted1234 (by simp) rfl
  obtain ⟨m2, hm2⟩ := projects_exists demoLib R.toCurve [1, 2, 3, 4] [3, 2, 5, 1] sorted1234 (by simp) rfl
  obtain ⟨h1, h2⟩ := mkResponse_sorted (sorted1234.imp le_of_lt) (by rfl) hR
  obtain ⟨a1, a2, a3, a4⟩ := knots1234 demo_knot 0 1 1 0
  obtain ⟨b1, b2, b3, b4⟩ := knots1234 demo_knot 3 0 5 1
  obtain ⟨c1, c2, c3, c4⟩ := knots1234 demo_knot 3 2 5 1
  refine ⟨R, m1, m2, hR, hm1, hm2, ?_, ?_, ?_, ?_, ?_, ?_⟩ <;> simp only [h1, h2]
  · exact ⟨Or.inl rfl, Or.inl rfl⟩
  · simp
  · exact ⟨1, by simp, by norm_num, by norm_num⟩
  · simp [a1, a2, a3, a4]
  · simp [b1, b2, b3, b4, c1, c2, c3, c4]
  · simp [b1, b2, b3, b4, abFlux]
    norm_num

end KC
