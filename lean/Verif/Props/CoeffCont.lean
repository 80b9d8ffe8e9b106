import Verif.Lemmas.ArgCont
import Verif.Props.ChiRedshift
import Verif.Props.SolverChoice

/-!
# Coefficients and K-corrections as functions of redshift, photometry and errors (C200)
-/

namespace KC

/-- `m'` has the entries of `m`, each changed by less than `δ`. -/
def Spec.Near (δ : ℝ) (m m' : List ℝ) : Prop :=
  m'.length = m.length ∧ ∀ (j : Nat) (x y : ℝ), m[j]? = some x → m'[j]? = some y → |y - x| < δ

open Spec
open Topology

theorem near_ent {δ : ℝ} (hδ : 0 < δ) {m m' : List ℝ} (h : Near δ m m') (j : Nat) : |ent m' j - ent m j| < δ := by
  by_cases hj : j < m.length
  · have hj' : j < m'.length := by rw [h.1]; exact hj
    rw [ent_some hj, ent_some hj']
    exact h.2 j _ _ (List.getElem?_eq_getElem hj) (List.getElem?_eq_getElem hj')
  · have hj' : ¬ j < m'.length := by rw [h.1]; exact hj
    simp [ent, List.getD_eq_getElem?_getD, hj, hj', hδ]

theorem near_ofFn {N : Nat} {c c0 : Fin N → ℝ} {δ : ℝ} (h : dist c c0 < δ) : Near δ (List.ofFn c0) (List.ofFn c) := by
  refine ⟨by simp, fun j x y hx hy => ?_⟩
  obtain ⟨h1, rfl⟩ := List.getElem?_eq_some_iff.mp hx
  obtain ⟨h2, rfl⟩ := List.getElem?_eq_some_iff.mp hy
  rw [List.getElem_ofFn, List.getElem_ofFn, ← Real.dist_eq]
  exact (dist_le_pi_dist c c0 _).trans_lt h

theorem ab_ent (cls : Cls) (m : List ℝ) (j : Nat) : ent (abM cls m) j = ent m j * abFactor cls j := by
  simp only [ent, List.getD_eq_getElem?_getD, abM_get]
  cases m[j]? <;> simp

theorem abIv_ent (cls : Cls) (iv : List ℝ) (j : Nat) : ent (abIv cls iv) j = ent iv j / abFactor cls j ^ 2 := by
  simp only [ent, List.getD_eq_getElem?_getD, abIv, List.getElem?_mapIdx]
  cases iv[j]? <;> simp

/-- What holds near the redshift and the coefficients of a fit holds for the fits to photometry and errors near the given ones at redshifts near the given one. -/
theorem fit_near (nnls nnls' : Nnls ℝ) (hn : NNLSOK nnls) (hn' : NNLSOK nnls') (F : Fitter ℝ) (A : AMat ℝ) (hR : Ready F A)
    (hr : AbReady F.abCls F.responses.length) (m iv : List ℝ) (hm : m.length = F.responses.length)
    (hiv : iv.length = F.responses.length) (hpos : ∀ v ∈ iv, 0 ≤ v) (z0 : ℝ) (hz0 : InRange A.x z0) (hi : Spec.Indep F z0 iv) (noise0 : Nat → Nat → Nat → ℝ) (out0 : FitOut ℝ)
    (h0 : F.fitCoeffs nnls (some (.scalar z0)) (some (.vec m)) (some (.vec iv)) 0 noise0 = .ok out0) :
    ∃ c0 : Fin F.templates.nsed → ℝ, out0.coeffs = .vec (List.ofFn c0) ∧ (∀ t, 0 ≤ c0 t) ∧
      ∀ P : {z : ℝ // InRange A.x z} × (Fin F.templates.nsed → ℝ) → Prop, (∀ᶠ q in 𝓝 ((⟨z0, hz0⟩ : {z : ℝ // InRange A.x z}), c0), P q) →
        ∃ δ > 0, ∀ (z : ℝ) (m' iv' : List ℝ) (noise : Nat → Nat → Nat → ℝ) (out : FitOut ℝ) (hz : InRange A.x z), |z - z0| < δ → Near δ m m' → Near δ iv iv' →
          (∀ v ∈ iv', 0 ≤ v) → F.fitCoeffs nnls' (some (.scalar z)) (some (.vec m')) (some (.vec iv')) 0 noise = .ok out →
          ∃ c, out.coeffs = .vec (List.ofFn c) ∧ (∀ t, 0 ≤ c t) ∧ P (⟨z, hz⟩, c) := by
  obtain ⟨a, ac, am⟩ := hR.model
  obtain ⟨c0, r0, k0, p0, e0, s0, v0, o0⟩ := hR.optimal am nnls hn hr m iv hm hiv hpos ⟨z0, hz0⟩ noise0 out0 h0
  refine ⟨c0, k0, p0, fun P hP => ?_⟩
  -- parameters: redshift, photometry, inverse variances
  let X := {z : ℝ // InRange A.x z} × (Fin F.responses.length → ℝ) × (Fin F.responses.length → ℝ)
  let a' : Fin F.responses.length → Fin F.templates.nsed → X → ℝ := fun j t p => a j t p.1
  let M : Fin F.responses.length → X → ℝ := fun j p => p.2.1 j * abFactor F.abCls j
  let W : Fin F.responses.length → X → ℝ := fun j p => max (p.2.2 j) 0 / abFactor F.abCls j ^ 2
  have ca : ∀ j t, Continuous (a' j t) := fun j t => (ac j t).comp continuous_fst
  have cM : ∀ j, Continuous (M j) := fun j => (((continuous_apply j).comp (continuous_fst.comp continuous_snd))).mul continuous_const
  have cW : ∀ j, Continuous (W j) := fun j => ((((continuous_apply j).comp (continuous_snd.comp continuous_snd))).max continuous_const).div_const _
  have nW : ∀ j p, 0 ≤ W j p := fun j p => div_nonneg (le_max_right _ _) (sq_nonneg _)
  have eM : ∀ (m : List ℝ) (z : {z : ℝ // InRange A.x z}) (u : Fin F.responses.length → ℝ) j, M j (z, (fun j => ent m j), u) = ent (abM F.abCls m) j := by
    intro m z u j
    rw [ab_ent]
  have eW : ∀ (iv : List ℝ), (∀ v ∈ iv, 0 ≤ v) → iv.length = F.responses.length → ∀ (z : {z : ℝ // InRange A.x z}) (u : Fin F.responses.length → ℝ) j,
      W j (z, u, (fun j => ent iv j)) = ent (abIv F.abCls iv) j := by
    intro iv hpos hl z u j
    rw [abIv_ent]
    have hj : (j : Nat) < iv.length := by rw [hl]; exact j.2
    have : 0 ≤ ent iv j := by rw [ent_some hj]; exact hpos _ (List.getElem_mem hj)
    simp only [W]
    rw [max_eq_left this]
  have eC : ∀ (m iv : List ℝ), (∀ v ∈ iv, 0 ≤ v) → iv.length = F.responses.length → ∀ (z : {z : ℝ // InRange A.x z}) (c : Fin F.templates.nsed → ℝ),
      chiAt a' (fun j => W j (z, (fun j => ent m j), (fun j => ent iv j))) (fun j => M j (z, (fun j => ent m j), (fun j => ent iv j)))
        (z, (fun j => ent m j), (fun j => ent iv j)) c = chiAt a (fun j => ent (abIv F.abCls iv) j) (fun j => ent (abM F.abCls m) j) z c := by
    intro m iv hpos hl z c
    simp only [chiAt_def, eM, eW iv hpos hl, a']
  let x0 : X := (⟨z0, hz0⟩, (fun j => ent m j), (fun j => ent iv j))
  have hinj : ∀ c : Fin F.templates.nsed → ℝ, (∀ j, 0 < W j x0 → ∑ t, a' j t x0 * c t = 0) → c = 0 := by
    intro c hc
    have hall := hi (List.ofFn c) _ (by simp) (am ⟨z0, hz0⟩ (List.ofFn c) (by simp)) (by
      intro j v hv hv0
      have hj : j < F.responses.length := by rw [← hiv]; exact (List.getElem?_eq_some_iff.mp hv).1
      obtain ⟨w1, w2⟩ := abIv_pos (cls := F.abCls) hv hv0
      have hw : 0 < W ⟨j, hj⟩ x0 := by
        rw [eW iv hpos hiv]
        simp only [ent, List.getD_eq_getElem?_getD, w1]
        exact w2
      have := hc ⟨j, hj⟩ hw
      rw [List.getElem?_ofFn]
      simp only [hj, dif_pos, Option.some.injEq]
      rw [← this]
      refine Finset.sum_congr rfl (fun t _ => ?_)
      simp [ent, a', x0])
    funext t
    exact hall _ (List.mem_ofFn.mpr ⟨t, rfl⟩)
  have ho : ∀ y : Fin F.templates.nsed → ℝ, (∀ t, 0 ≤ y t) → chiAt a' (fun j => W j x0) (fun j => M j x0) x0 c0 ≤ chiAt a' (fun j => W j x0) (fun j => M j x0) x0 y := by
    intro y hy
    rw [eC m iv hpos hiv, eC m iv hpos hiv, ← v0]
    exact o0 y hy
  rw [nhds_prod_eq] at hP
  obtain ⟨Pz, hPz, Pc, hPc, hPP⟩ := Filter.eventually_prod_iff.mp hP
  obtain ⟨ε, hε, hb⟩ := Metric.eventually_nhds_iff.mp hPc
  have hz : ∀ᶠ p : X in 𝓝 x0, Pz p.1 := (continuous_fst (X := {z : ℝ // InRange A.x z}) (Y := (Fin F.responses.length → ℝ) × (Fin F.responses.length → ℝ))).tendsto x0 hPz
  have hnear := (argmin_near ca cW cM nW x0 hinj c0 p0 ho hε).and hz
  obtain ⟨δ, hδ, hd⟩ := Metric.eventually_nhds_iff.mp hnear
  refine ⟨δ, hδ, fun z m' iv' noise out hz hzd hmd hivd hpos' hf => ?_⟩
  have hm' : m'.length = F.responses.length := hmd.1.trans hm
  have hiv' : iv'.length = F.responses.length := hivd.1.trans hiv
  obtain ⟨c, r, k, p, e, s, v, o⟩ := hR.optimal am nnls' hn' hr m' iv' hm' hiv' hpos' ⟨z, hz⟩ noise out hf
  refine ⟨c, k, p, ?_⟩
  obtain ⟨d1, d2⟩ := hd (y := (⟨z, hz⟩, (fun j => ent m' j), (fun j => ent iv' j))) (by
    rw [Prod.dist_eq, Prod.dist_eq]
    refine max_lt hzd (max_lt ?_ ?_)
    · exact (dist_pi_lt_iff hδ).mpr (fun j => by rw [Real.dist_eq]; exact near_ent hδ hmd j)
    · exact (dist_pi_lt_iff hδ).mpr (fun j => by rw [Real.dist_eq]; exact near_ent hδ hivd j))
  refine hPP d2 (hb (d1 c p (fun y hy => ?_)))
  rw [eC m' iv' hpos' hiv', eC m' iv' hpos' hiv', ← v]
  exact o y hy

/-- C200: where the bands that enter the fit tell the templates apart, the coefficients are continuous in redshift, photometry and inverse variances together. -/
theorem C200_coefficients (nnls nnls' : Nnls ℝ) (hn : NNLSOK nnls) (hn' : NNLSOK nnls') (F : Fitter ℝ) (A : AMat ℝ) (hR : Ready F A)
    (hr : AbReady F.abCls F.responses.length) (m iv : List ℝ) (hm : m.length = F.responses.length)
    (hiv : iv.length = F.responses.length) (hpos : ∀ v ∈ iv, 0 ≤ v) (z0 : ℝ) (hz0 : InRange A.x z0) (hi : Spec.Indep F z0 iv) (noise0 : Nat → Nat → Nat → ℝ) (out0 : FitOut ℝ)
    (h0 : F.fitCoeffs nnls (some (.scalar z0)) (some (.vec m)) (some (.vec iv)) 0 noise0 = .ok out0) (ε : ℝ) (hε : 0 < ε) :
    ∃ c0 δ, out0.coeffs = .vec c0 ∧ 0 < δ ∧ ∀ (z : ℝ) (m' iv' : List ℝ) (noise : Nat → Nat → Nat → ℝ) (out : FitOut ℝ), InRange A.x z →
      |z - z0| < δ → Near δ m m' → Near δ iv iv' → (∀ v ∈ iv', 0 ≤ v) →
      F.fitCoeffs nnls' (some (.scalar z)) (some (.vec m')) (some (.vec iv')) 0 noise = .ok out → ∃ c, out.coeffs = .vec c ∧ Near ε c0 c := by
  obtain ⟨c0, k0, -, hP⟩ := fit_near nnls nnls' hn hn' F A hR hr m iv hm hiv hpos z0 hz0 hi noise0 out0 h0
  have hc : ∀ᶠ q : {z : ℝ // InRange A.x z} × (Fin F.templates.nsed → ℝ) in 𝓝 (⟨z0, hz0⟩, c0), dist q.2 c0 < ε :=
    (continuous_snd (X := {z : ℝ // InRange A.x z}) (Y := Fin F.templates.nsed → ℝ)).tendsto (⟨z0, hz0⟩, c0) (Metric.ball_mem_nhds c0 hε)
  obtain ⟨δ, hδ, hd⟩ := hP (fun q => dist q.2 c0 < ε) hc
  refine ⟨List.ofFn c0, δ, k0, hδ, fun z m' iv' noise out hz h1 h2 h3 h4 h5 => ?_⟩
  obtain ⟨c, k, -, hc⟩ := hd z m' iv' noise out hz h1 h2 h3 h4 h5
  exact ⟨List.ofFn c, k, near_ofFn hc⟩

/-- The flux of an output band at rest is a weighted sum of the coefficients. -/
theorem out_linear (K : Kc ℝ) (Ao : AMat ℝ) (hAo : K.AmatrixOut = some Ao) (bs : ℝ) (c0 : List ℝ) (hc0 : c0.length = K.templates.nsed) (b0 : NDA ℝ)
    (h0 : K.reconstructOut (some (.scalar 0)) (some (.vec c0)) bs = .ok b0) (j : Nat) (x0 : ℝ) (hx0 : entry b0 0 j = some x0) :
    ∃ β : Fin K.templates.nsed → ℝ, ∀ c : List ℝ, c.length = K.templates.nsed →
      ∃ b, K.reconstructOut (some (.scalar 0)) (some (.vec c)) bs = .ok b ∧ entry b 0 j = some (∑ t, β t * ent c t) := by
  have rb : ∀ c : List ℝ, c.length = K.templates.nsed → K.reconstructOut (some (.scalar 0)) (some (.vec c)) bs = (Ao.at ((1 + 0) * (1 + bs) - 1)).map (fun M => .arr [] Ao.nrow [reconRow bs M c]) := by
    intro c hc
    unfold Kc.reconstructOut
    rw [hAo, recon_real _ _ _ _ _ hc]
  rw [rb c0 hc0] at h0
  cases hM : Ao.at ((1 + 0) * (1 + bs) - 1) with
  | error e => rw [hM] at h0; cases h0
  | ok M =>
  rw [hM] at h0
  cases h0
  have hj : j < M.length := by
    simp only [entry, List.getElem?_cons_zero, Option.bind_some] at hx0
    simpa [reconRow] using (List.getElem?_eq_some_iff.mp hx0).1
  refine ⟨fun t => ent (M[j]) t / (1 + bs), fun c hc => ⟨.arr [] Ao.nrow [reconRow bs M c], by rw [rb c hc, hM]; rfl, ?_⟩⟩
  simp only [entry, List.getElem?_cons_zero, Option.bind_some, reconRow, List.getElem?_map, List.getElem?_eq_getElem hj, Option.map_some, real_lit, Rat.cast_one,
    Option.some.injEq]
  rw [dot_sum, Finset.sum_div]
  refine Fintype.sum_equiv (finCongr hc) _ _ (fun i => ?_)
  simp [ent]
  ring

theorem mag_continuousAt {f : ℝ} (hf : 0 < f) : ContinuousAt mag f := by
  unfold mag
  simp only [Real.logb]
  exact continuousAt_const.mul ((Real.continuousAt_log hf.ne').div_const _)

/-- C200: where the bands that enter the fit tell the templates apart, the K-correction of the fitted model is continuous in redshift, photometry and inverse
variances together, for every output band in which the model has flux (and in its input band). -/
theorem C200_kcorrect (nnls nnls' : Nnls ℝ) (hn : NNLSOK nnls) (hn' : NNLSOK nnls') (K : Kc ℝ) (A Ao : AMat ℝ) (hR : Ready K.toFitter A) (hAo : K.AmatrixOut = some Ao)
    (hr : AbReady K.abCls K.responses.length) (m iv : List ℝ) (hm : m.length = K.responses.length)
    (hiv : iv.length = K.responses.length) (hpos : ∀ v ∈ iv, 0 ≤ v) (z0 : ℝ) (hz0 : InRange A.x z0) (hi : Spec.Indep K.toFitter z0 iv)
    (noise0 : Nat → Nat → Nat → ℝ) (out0 : FitOut ℝ)
    (h0 : K.toFitter.fitCoeffs nnls (some (.scalar z0)) (some (.vec m)) (some (.vec iv)) 0 noise0 = .ok out0) (bs : ℝ) (k0 a0 b0 : NDA ℝ)
    (hk0 : K.kcorrect (some (.scalar z0)) (some out0.coeffs) bs = .ok k0) (ha0 : K.reconstruct (some (.scalar z0)) (some out0.coeffs) 0 = .ok a0)
    (hb0 : K.reconstructOut (some (.scalar 0)) (some out0.coeffs) bs = .ok b0) (j i : Nat) (hij : K.imap[j]? = some i) (fa fb : ℝ)
    (hfa : entry a0 0 i = some fa) (hfb : entry b0 0 j = some fb) (pa : 0 < fa) (pb : 0 < fb) (ε : ℝ) (hε : 0 < ε) :
    ∃ x0 δ, entry k0 0 j = some x0 ∧ 0 < δ ∧ ∀ (z : ℝ) (m' iv' : List ℝ) (noise : Nat → Nat → Nat → ℝ) (out : FitOut ℝ), InRange A.x z →
      |z - z0| < δ → Near δ m m' → Near δ iv iv' → (∀ v ∈ iv', 0 ≤ v) →
      K.toFitter.fitCoeffs nnls' (some (.scalar z)) (some (.vec m')) (some (.vec iv')) 0 noise = .ok out →
      ∃ k x, K.kcorrect (some (.scalar z)) (some out.coeffs) bs = .ok k ∧ entry k 0 j = some x ∧ |x - x0| < ε := by
  obtain ⟨c0, e0, p0, hP⟩ := fit_near nnls nnls' hn hn' K.toFitter A hR hr m iv hm hiv hpos z0 hz0 hi noise0 out0 h0
  rw [e0] at hk0 ha0 hb0
  have l0 : (List.ofFn c0).length = K.templates.nsed := by simp
  obtain ⟨a, ac, am⟩ := hR.model
  obtain ⟨β, hβ⟩ := out_linear K Ao hAo bs _ l0 b0 hb0 j fb hfb
  have eo : ∀ c : Fin K.templates.nsed → ℝ, ∑ t, β t * ent (List.ofFn c) t = ∑ t, β t * c t := fun c => Finset.sum_congr rfl (fun t _ => by simp [ent])
  have hil : i < K.responses.length := by
    have := am ⟨z0, hz0⟩ (List.ofFn c0) l0
    simp only at this
    rw [ha0] at this
    cases this
    simp only [NDA.vec, entry, List.getElem?_cons_zero, Option.bind_some] at hfa
    simpa using (List.getElem?_eq_some_iff.mp hfa).1
  have ea : ∀ (z : {z : ℝ // InRange A.x z}) (c : Fin K.templates.nsed → ℝ), ∃ r, K.reconstruct (some (.scalar z.1)) (some (.vec (List.ofFn c))) 0 = .ok r ∧
      entry r 0 i = some (∑ t, a ⟨i, hil⟩ t z * c t) := by
    intro z c
    refine ⟨_, am z (List.ofFn c) (by simp), ?_⟩
    simp only [NDA.vec, entry, List.getElem?_cons_zero, Option.bind_some, List.getElem?_ofFn, hil, dif_pos, Option.some.injEq]
    exact Finset.sum_congr rfl (fun t _ => by simp [ent])
  -- the K-correction for all coefficients with positive fluxes
  have val : ∀ (z : {z : ℝ // InRange A.x z}) (c : Fin K.templates.nsed → ℝ), (∀ t, 0 ≤ c t) → 0 < ∑ t, a ⟨i, hil⟩ t z * c t → 0 < ∑ t, β t * c t →
      ∃ k, K.kcorrect (some (.scalar z.1)) (some (.vec (List.ofFn c))) bs = .ok k ∧ entry k 0 j = some (mag (∑ t, a ⟨i, hil⟩ t z * c t) - mag (∑ t, β t * c t)) := by
    intro z c hc h1 h2
    obtain ⟨r, hr1, hr2⟩ := ea z c
    obtain ⟨b, hb1, hb2⟩ := hβ (List.ofFn c) (by simp)
    rw [eo] at hb2
    obtain ⟨hex, hk⟩ := C67_model_magnitudes K A Ao hR.set hAo z.1 bs (List.ofFn c) (by simp)
    obtain ⟨k, hkk⟩ := hex.mpr ⟨⟨r, hr1⟩, ⟨b, hb1⟩⟩
    refine ⟨k, hkk, (hk k r b hkk hr1 hb1).2.2 ?_ j i _ _ hij hr2 hb2 h1 h2⟩
    rw [List.sum_ofFn]
    refine (Finset.sum_nonneg (fun t _ => hc t)).lt_of_ne (fun e => ?_)
    have hz := (Finset.sum_eq_zero_iff_of_nonneg (fun t _ => hc t)).mp e.symm
    rw [Finset.sum_eq_zero (fun t ht => by rw [hz t ht, mul_zero])] at h2
    exact lt_irrefl _ h2
  have fa' : fa = ∑ t, a ⟨i, hil⟩ t ⟨z0, hz0⟩ * c0 t := by
    obtain ⟨r, hr1, hr2⟩ := ea ⟨z0, hz0⟩ c0
    rw [ha0] at hr1
    cases hr1
    rw [hfa] at hr2
    exact Option.some.inj hr2
  have fb' : fb = ∑ t, β t * c0 t := by
    obtain ⟨b, hb1, hb2⟩ := hβ (List.ofFn c0) l0
    rw [hb0] at hb1
    cases hb1
    rw [hfb, eo] at hb2
    exact Option.some.inj hb2
  obtain ⟨k1, hk1, hk2⟩ := val ⟨z0, hz0⟩ c0 p0 (by rw [← fa']; exact pa) (by rw [← fb']; exact pb)
  have : k1 = k0 := by
    have := hk0.symm.trans hk1
    cases this
    rfl
  subst this
  have c1 : Continuous (fun q : {z : ℝ // InRange A.x z} × (Fin K.templates.nsed → ℝ) => ∑ t, a ⟨i, hil⟩ t q.1 * q.2 t) :=
    continuous_finsetSum _ (fun t _ => ((ac _ t).comp continuous_fst).mul ((continuous_apply t).comp continuous_snd))
  have c2 : Continuous (fun q : {z : ℝ // InRange A.x z} × (Fin K.templates.nsed → ℝ) => ∑ t, β t * q.2 t) :=
    continuous_finsetSum _ (fun t _ => continuous_const.mul ((continuous_apply t).comp continuous_snd))
  have c3 : ContinuousAt (fun q : {z : ℝ // InRange A.x z} × (Fin K.templates.nsed → ℝ) => mag (∑ t, a ⟨i, hil⟩ t q.1 * q.2 t) - mag (∑ t, β t * q.2 t)) (⟨z0, hz0⟩, c0) := by
    refine ContinuousAt.sub (ContinuousAt.comp (g := mag) ?_ c1.continuousAt) (ContinuousAt.comp (g := mag) ?_ c2.continuousAt)
    · exact mag_continuousAt (by show 0 < ∑ t, a ⟨i, hil⟩ t ⟨z0, hz0⟩ * c0 t; rw [← fa']; exact pa)
    · exact mag_continuousAt (by show 0 < ∑ t, β t * c0 t; rw [← fb']; exact pb)
  obtain ⟨δ, hδ, hd⟩ := hP (fun q => (0 < ∑ t, a ⟨i, hil⟩ t q.1 * q.2 t ∧ 0 < ∑ t, β t * q.2 t) ∧
      dist (mag (∑ t, a ⟨i, hil⟩ t q.1 * q.2 t) - mag (∑ t, β t * q.2 t)) (mag (∑ t, a ⟨i, hil⟩ t ⟨z0, hz0⟩ * c0 t) - mag (∑ t, β t * c0 t)) < ε)
    (((c1.continuousAt.eventually_const_lt (by show 0 < ∑ t, a ⟨i, hil⟩ t ⟨z0, hz0⟩ * c0 t; rw [← fa']; exact pa)).and
      (c2.continuousAt.eventually_const_lt (by show 0 < ∑ t, β t * c0 t; rw [← fb']; exact pb))).and (c3.eventually (Metric.ball_mem_nhds _ hε)))
  refine ⟨_, δ, hk2, hδ, fun z m' iv' noise out hz h1 h2 h3 h4 h5 => ?_⟩
  obtain ⟨c, k, hc, ⟨q1, q2⟩, q3⟩ := hd z m' iv' noise out hz h1 h2 h3 h4 h5
  obtain ⟨kk, hkk, hke⟩ := val ⟨z, hz⟩ c hc q1 q2
  rw [k]
  exact ⟨kk, _, hkk, hke, by rw [← Real.dist_eq]; exact q3⟩

/-- Not vacuous: two bands, two templates, redshift 2 between the nodes 1 and 3 of the grid; the second band is measured less precisely. -/
theorem demo_near : ∃ out k a b fa fb, NNLSOK (lhNnls 0) ∧ Ready demoKc2.toFitter demoAm2 ∧ InRange demoAm2.x 2 ∧ Spec.Indep demoKc2.toFitter 2 [1, 1 / 2] ∧
    demoKc2.toFitter.fitCoeffs (lhNnls 0) (some (.scalar 2)) (some (.vec [3, 3])) (some (.vec [1, 1 / 2])) 0 (fun _ _ _ => 0) = .ok out ∧
    demoKc2.kcorrect (some (.scalar 2)) (some out.coeffs) 0 = .ok k ∧ demoKc2.reconstruct (some (.scalar 2)) (some out.coeffs) 0 = .ok a ∧
    demoKc2.reconstructOut (some (.scalar 0)) (some out.coeffs) 0 = .ok b ∧ demoKc2.imap[1]? = some 1 ∧ entry a 0 1 = some fa ∧ entry b 0 1 = some fb ∧ 0 < fa ∧ 0 < fb ∧ ∃ c, c.length = 2 ∧ out.coeffs = .vec c := by
  have hin : InRange demoAm2.x 2 := by constructor <;> norm_num [demoAm2]
  have h0 : demoAm2.at 0 = .ok [[1, 2], [3, 1]] := at_node (k := 0) demo_ready.good (by simp [demoAm2])
  have hx : ∀ c : List ℝ, c.length = 2 → demoKc2.reconstruct (some (.scalar 2)) (some (.vec c)) 0 = .ok (.vec (reconRow 0 [[1, 2], [3 / 2, 3 / 2]] c)) := by
    intro c hc
    refine (recon_real demoKc2.toFitter demoAm2 2 c 0 hc).trans ?_
    rw [show ((1 : ℝ) + 2) * (1 + 0) - 1 = 2 by norm_num, demoAm2_at2]
    rfl
  have hy : ∀ c : List ℝ, c.length = 2 → demoKc2.reconstructOut (some (.scalar 0)) (some (.vec c)) 0 = .ok (.arr [] 2 [reconRow 0 [[1, 2], [3, 1]] c]) := by
    intro c hc
    refine (recon_real demoKc2.toFitter demoAm2 0 c 0 hc).trans ?_
    rw [show ((1 : ℝ) + 0) * (1 + 0) - 1 = 0 by norm_num, h0]
    rfl
  have hind : Spec.Indep demoKc2.toFitter 2 [1, 1 / 2] := by
    intro x r hl hr hz
    obtain ⟨p, q, rfl⟩ : ∃ p q, x = [p, q] := by
      match x, hl with
      | [p, q], _ => exact ⟨p, q, rfl⟩
    have hr' := hx [p, q] rfl
    rw [hr] at hr'
    simp only [Except.ok.injEq, NDA.vec, NDA.arr.injEq, List.cons.injEq, and_true] at hr'
    obtain rfl := hr'.2.2
    have z1 := hz 0 1 rfl (by norm_num)
    have z2 := hz 1 (1 / 2) rfl (by norm_num)
    simp [reconRow, dot, sumL_real] at z1 z2
    have e1 : p = 0 := by linarith
    have e2 : q = 0 := by linarith
    simp [e1, e2]
  obtain ⟨c, hc, hl, hc0, rc, hrc, hopt⟩ := C184_fit demoKc2.toFitter (by show 2 ≤ 9; norm_num) trivial (by show 2 ≠ 1; norm_num) demoAm2 demo_ready 2 hin [3, 3] [1, 1 / 2] rfl rfl
    (by intro v hv; simp only [List.mem_cons, List.not_mem_nil, or_false] at hv; rcases hv with rfl | rfl <;> norm_num) (fun _ _ _ => 0)
  obtain ⟨p, q, rfl⟩ : ∃ p q, c = [p, q] := by
    match c, hl with
    | [p, q], _ => exact ⟨p, q, rfl⟩
  obtain ⟨r1, hr1, hle⟩ := hopt [1, 1] rfl (by simp)
  have e1 := (hx [p, q] rfl).symm.trans hrc
  have e2 := (hx [1, 1] rfl).symm.trans hr1
  simp only [Except.ok.injEq, NDA.vec, NDA.arr.injEq, List.cons.injEq, and_true] at e1 e2
  obtain rfl := e1.2.2
  obtain rfl := e2.2.2
  have hab : abM demoKc2.abCls [3, 3] = [3, 3] ∧ abIv demoKc2.abCls [1, 1 / 2] = [1, 1 / 2] := ⟨abM_base _, abIv_base _⟩
  rw [show abM demoKc2.toFitter.abCls [3, 3] = [3, 3] from hab.1, show abIv demoKc2.toFitter.abCls [1, 1 / 2] = [1, 1 / 2] from hab.2] at hle
  simp [chi2, reconRow, dot, sumL_real] at hle
  have q1 : 3 - (p + 2 * q) = 0 := by nlinarith [sq_nonneg (3 - (p + 2 * q)), sq_nonneg (3 - (3 / 2 * p + 3 / 2 * q))]
  have q2 : 3 - (3 / 2 * p + 3 / 2 * q) = 0 := by nlinarith [sq_nonneg (3 - (p + 2 * q)), sq_nonneg (3 - (3 / 2 * p + 3 / 2 * q))]
  obtain rfl : p = 1 := by linarith
  obtain rfl : q = 1 := by linarith
  obtain ⟨k, hk⟩ := (C67_model_magnitudes demoKc2 demoAm2 demoAm2 rfl rfl 2 0 [1, 1] rfl).1.mpr ⟨⟨_, hx _ rfl⟩, ⟨_, hy _ rfl⟩⟩
  exact ⟨_, k, _, _, 3, 4, C184_contract, demo_ready, hin, hind, hc, hk, hx _ rfl, hy _ rfl, rfl, by norm_num [entry, reconRow, dot, sumL_real, NDA.vec],
    by norm_num [entry, reconRow, dot, sumL_real], by norm_num, by norm_num, _, rfl, rfl⟩

end KC
