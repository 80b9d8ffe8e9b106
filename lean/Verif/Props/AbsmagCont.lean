import Verif.Props.CoeffCont

/-!
# Absolute magnitudes as functions of redshift, photometry and errors (C200)
-/

namespace KC

open Spec

/-- C200: the absolute magnitudes of fitted objects are continuous in redshift, photometry and inverse variances together, in every output band whose input band has positive
flux and inverse variance and in which the fitted model has flux (in both bands), for a cosmology with continuous distance modulus. -/
theorem C200_absmag (nnls nnls' : Nnls ℝ) (hn : NNLSOK nnls) (hn' : NNLSOK nnls') (K : Kc ℝ) (A Ao : AMat ℝ) (hR : Ready K.toFitter A) (hAo : K.AmatrixOut = some Ao)
    (hr : AbReady K.abCls K.responses.length) (m iv : List ℝ) (hm : m.length = K.responses.length)
    (hiv : iv.length = K.responses.length) (hpos : ∀ v ∈ iv, 0 ≤ v) (z0 : ℝ) (hz0 : InRange A.x z0) (hdm : ContinuousAt K.distmod z0) (hi : Spec.Indep K.toFitter z0 iv)
    (noise0 : Nat → Nat → Nat → ℝ) (out0 : FitOut ℝ)
    (h0 : K.toFitter.fitCoeffs nnls (some (.scalar z0)) (some (.vec m)) (some (.vec iv)) 0 noise0 = .ok out0) (bs : ℝ) (g0 a0 b0 : NDA ℝ)
    (hg0 : K.absmag (some (.vec m)) (some (.vec iv)) (some (.scalar z0)) (some out0.coeffs) bs none false false false = .ok (.one g0))
    (ha0 : K.reconstruct (some (.scalar z0)) (some out0.coeffs) 0 = .ok a0)
    (hb0 : K.reconstructOut (some (.scalar 0)) (some out0.coeffs) bs = .ok b0) (j i : Nat) (hij : K.imap[j]? = some i) (mv v fa fb : ℝ)
    (hmv : m[i]? = some mv) (hv : iv[i]? = some v) (pmv : 0 < mv) (pv : 0 < v)
    (hfa : entry a0 0 i = some fa) (hfb : entry b0 0 j = some fb) (pa : 0 < fa) (pb : 0 < fb) (ε : ℝ) (hε : 0 < ε) :
    ∃ x0 δ, entry g0 0 j = some x0 ∧ 0 < δ ∧ ∀ (z : ℝ) (m' iv' : List ℝ) (noise : Nat → Nat → Nat → ℝ) (out : FitOut ℝ), InRange A.x z →
      |z - z0| < δ → Near δ m m' → Near δ iv iv' → (∀ v ∈ iv', 0 ≤ v) →
      K.toFitter.fitCoeffs nnls' (some (.scalar z)) (some (.vec m')) (some (.vec iv')) 0 noise = .ok out →
      ∃ g x, K.absmag (some (.vec m')) (some (.vec iv')) (some (.scalar z)) (some out.coeffs) bs none false false false = .ok (.one g) ∧
        entry g 0 j = some x ∧ |x - x0| < ε := by
  have hlen : ∀ (nnls : Nnls ℝ), NNLSOK nnls → ∀ (z : ℝ) (m iv : List ℝ) (noise : Nat → Nat → Nat → ℝ) (out : FitOut ℝ), InRange A.x z → m.length = K.responses.length →
      iv.length = K.responses.length → (∀ v ∈ iv, 0 ≤ v) → K.toFitter.fitCoeffs nnls (some (.scalar z)) (some (.vec m)) (some (.vec iv)) 0 noise = .ok out →
      ∃ c, out.coeffs = .vec c ∧ c.length = K.templates.nsed := by
    intro nnls hn z m iv noise out hz hm hiv hpos h
    obtain ⟨c, rfl, ho⟩ := C49_ab nnls hn K.toFitter hr A hR z hz m iv hm hiv hpos noise out h
    exact ⟨c, rfl, ho.1⟩
  obtain ⟨c0, e0, l0⟩ := hlen nnls hn z0 m iv noise0 out0 hz0 hm hiv hpos h0
  have f0 := C70_corrected_partial K hr A Ao hR.set hAo z0 m iv c0 hm hiv l0 bs none (by simp)
  have hg0' := hg0
  rw [e0] at hg0'
  obtain ⟨k0, hk0⟩ := f0.1.mp ⟨g0, hg0'⟩
  obtain ⟨x0, δ1, hx0, hδ1, hd1⟩ := C200_kcorrect nnls nnls' hn hn' K A Ao hR hAo hr m iv hm hiv hpos z0 hz0 hi noise0 out0 h0 bs k0 a0 b0 (by rw [e0]; exact hk0) ha0 hb0
    j i hij fa fb hfa hfb pa pb (ε / 3) (by linarith)
  have v0 := (f0.2 g0 k0 hg0' hk0).2 j i mv v x0 hij hmv hv hx0
  rw [if_pos ⟨pmv, pv⟩] at v0
  obtain ⟨δ2, hδ2, hd2⟩ := Metric.continuousAt_iff.mp (mag_continuousAt pmv) (ε / 3) (by linarith)
  obtain ⟨δ3, hδ3, hd3⟩ := Metric.continuousAt_iff.mp hdm (ε / 3) (by linarith)
  refine ⟨_, min (min δ1 δ2) (min δ3 (min mv v)), v0, by positivity, fun z m' iv' noise out hz h1 h2 h3 h4 h5 => ?_⟩
  have near_mono : ∀ {d d' : ℝ} {a b : List ℝ}, d ≤ d' → Near d a b → Near d' a b := fun h h' => ⟨h'.1, fun j x y hx hy => (h'.2 j x y hx hy).trans_le h⟩
  have q1 : min (min δ1 δ2) (min δ3 (min mv v)) ≤ δ1 := (min_le_left _ _).trans (min_le_left _ _)
  have q2 : min (min δ1 δ2) (min δ3 (min mv v)) ≤ δ2 := (min_le_left _ _).trans (min_le_right _ _)
  have q3 : min (min δ1 δ2) (min δ3 (min mv v)) ≤ δ3 := (min_le_right _ _).trans (min_le_left _ _)
  have q4 : min (min δ1 δ2) (min δ3 (min mv v)) ≤ mv := (min_le_right _ _).trans ((min_le_right _ _).trans (min_le_left _ _))
  have q5 : min (min δ1 δ2) (min δ3 (min mv v)) ≤ v := (min_le_right _ _).trans ((min_le_right _ _).trans (min_le_right _ _))
  obtain ⟨k, x, hk, hx, hxd⟩ := hd1 z m' iv' noise out hz (h1.trans_le q1) (near_mono q1 h2) (near_mono q1 h3) h4 h5
  obtain ⟨c, e, l⟩ := hlen nnls' hn' z m' iv' noise out hz (h2.1.trans hm) (h3.1.trans hiv) h4 h5
  rw [e] at hk ⊢
  have f := C70_corrected_partial K hr A Ao hR.set hAo z m' iv' c (h2.1.trans hm) (h3.1.trans hiv) l bs none (by simp)
  obtain ⟨g, hg⟩ := f.1.mpr ⟨k, hk⟩
  have hi1 : i < m'.length := by rw [h2.1]; exact (List.getElem?_eq_some_iff.mp hmv).1
  have hi2 : i < iv'.length := by rw [h3.1]; exact (List.getElem?_eq_some_iff.mp hv).1
  have n1 := h2.2 i mv _ hmv (List.getElem?_eq_getElem hi1)
  have n2 := h3.2 i v _ hv (List.getElem?_eq_getElem hi2)
  have p1 : 0 < m'[i] := by have := (abs_lt.mp n1).1; linarith
  have p2 : 0 < iv'[i] := by have := (abs_lt.mp n2).1; linarith
  have vv := (f.2 g k hg hk).2 j i _ _ x hij (List.getElem?_eq_getElem hi1) (List.getElem?_eq_getElem hi2) hx
  rw [if_pos ⟨p1, p2⟩] at vv
  refine ⟨g, _, hg, vv, ?_⟩
  have d2 := hd2 (x := m'[i]) (by rw [Real.dist_eq]; linarith)
  have d3 := hd3 (x := z) (by rw [Real.dist_eq]; linarith)
  rw [Real.dist_eq] at d2 d3
  rw [abs_lt] at d2 d3 hxd ⊢
  simp only [dmSpec]
  constructor <;> linarith [d2.1, d2.2, d3.1, d3.2, hxd.1, hxd.2]

/-- Not vacuous: the fit of `demo_near` has an absolute magnitude in the second band. -/
example : ∃ out g a b fa fb, NNLSOK (lhNnls 0) ∧ Ready demoKc2.toFitter demoAm2 ∧ InRange demoAm2.x 2 ∧ ContinuousAt demoKc2.distmod 2 ∧
    Spec.Indep demoKc2.toFitter 2 [1, 1 / 2] ∧
    demoKc2.toFitter.fitCoeffs (lhNnls 0) (some (.scalar 2)) (some (.vec [3, 3])) (some (.vec [1, 1 / 2])) 0 (fun _ _ _ => 0) = .ok out ∧
    demoKc2.absmag (some (.vec [3, 3])) (some (.vec [1, 1 / 2])) (some (.scalar 2)) (some out.coeffs) 0 none false false false = .ok (.one g) ∧
    demoKc2.reconstruct (some (.scalar 2)) (some out.coeffs) 0 = .ok a ∧
    demoKc2.reconstructOut (some (.scalar 0)) (some out.coeffs) 0 = .ok b ∧ demoKc2.imap[1]? = some 1 ∧ entry a 0 1 = some fa ∧ entry b 0 1 = some fb ∧ 0 < fa ∧ 0 < fb := by
  obtain ⟨out, k, a, b, fa, fb, h1, h2, h3, h4, h5, h6, h7, h8, h9, h10, h11, h12, h13, c, hl, hc⟩ := demo_near
  obtain ⟨g, hg⟩ := (C70_corrected_partial demoKc2 trivial demoAm2 demoAm2 rfl rfl 2 [3, 3] [1, 1 / 2] c rfl rfl hl 0 none (by simp)).1.mpr ⟨k, by rw [← hc]; exact h6⟩
  exact ⟨out, g, a, b, fa, fb, h1, h2, h3, continuousAt_id, h4, h5, by rw [hc]; exact hg, h7, h8, h9, h10, h11, h12, h13⟩

end KC
