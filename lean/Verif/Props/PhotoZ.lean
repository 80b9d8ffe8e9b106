import Verif.Props.BestRedshift
import Verif.Props.ChiTruth

/-!
# Redshifts from the photometry of a galaxy made of the templates (C208)
-/

namespace KC
open Spec MeasureTheory ProbabilityTheory

theorem chi2_triangle : ∀ a iv b r : List ℝ, (∀ v ∈ iv, 0 ≤ v) → a.length = b.length → chi2 a iv r ≤ 2 * chi2 a iv b + 2 * chi2 b iv r
  | [], _, [], _, _, _ => by simp [chi2]
  | _ :: _, [], _ :: _, _, _, _ => by simp [chi2]
  | x :: a, v :: iv, y :: b, [], h, _ => by
    have := chi2_nonneg (x :: a) (v :: iv) (y :: b) h
    simp only [chi2, List.zipWith_nil_right, List.sum_nil] at this ⊢
    linarith
  | x :: a, v :: iv, y :: b, w :: r, h, hl => by
    have ih := chi2_triangle a iv b r (fun u hu => h u (List.mem_cons_of_mem _ hu)) (by simpa using hl)
    have hv := h v List.mem_cons_self
    rw [chi2_cons, chi2_cons, chi2_cons]
    nlinarith [mul_nonneg hv (sq_nonneg (x - y - (y - w)))]

namespace Spec

/-- The photometry `m` (corrected to AB) in the bands with positive inverse variance is that of a nonnegative combination of the templates at redshift `z`. -/
def Explains (F : Fitter ℝ) (m iv : List ℝ) (z : ℝ) : Prop :=
  ∃ y r, y.length = F.templates.nsed ∧ (∀ v ∈ y, 0 ≤ v) ∧ F.reconstruct (some (.scalar z)) (some (.vec y)) 0 = .ok (.vec r) ∧
    ∀ (j : Nat) (v : ℝ), iv[j]? = some v → 0 < v → r[j]? = (abM F.abCls m)[j]?

end Spec

/-- C208: if a galaxy made of the templates has colours that the templates have at no other redshift, then every redshift at which the fit is at least as good as at the true one is
close to the true one, for photometry close enough to that of the galaxy.  In bands with inverse variance zero the photometry may hold anything. -/
theorem C208_close (nnls : Nnls ℝ) (hn : NNLSOK nnls) (F : Fitter ℝ) (A : AMat ℝ) (hR : Ready F A) (hr : AbReady F.abCls F.responses.length) (hnb : F.responses.length ≠ 1)
    (m iv c : List ℝ) (hm : m.length = F.responses.length) (hiv : iv.length = F.responses.length) (hpos : ∀ v ∈ iv, 0 ≤ v)
    (hnn : ∀ t < F.templates.nsed, ∀ z a, InRange A.x z → F.reconstruct (some (.scalar z)) (some (.vec (alone F.templates.nsed t))) 0 = .ok (.vec a) →
      ∀ x ∈ a, 0 ≤ x)
    (hfl : ∀ z, InRange A.x z → ∀ t < F.templates.nsed, ∃ (a : List ℝ) (j : Nat) (v x : ℝ),
      F.reconstruct (some (.scalar z)) (some (.vec (alone F.templates.nsed t))) 0 = .ok (.vec a) ∧ iv[j]? = some v ∧ a[j]? = some x ∧ 0 < v ∧ 0 < x)
    (z0 : ℝ) (hz0 : InRange A.x z0) (hc : c.length = F.templates.nsed) (hc0 : ∀ v ∈ c, 0 ≤ v)
    (hrec : F.reconstruct (some (.scalar z0)) (some (.vec c)) 0 = .ok (.vec (abM F.abCls m)))
    (hid : ∀ z, InRange A.x z → Explains F m iv z → z = z0) (ε : ℝ) (hε : 0 < ε) :
    ∃ δ > 0, ∀ m' d : List ℝ, m'.length = F.responses.length → chi2 m iv m' < δ → ∀ s, 0 < s → Agree (iv.map (fun v => s * v)) d m' → ∀ z q q0, InRange A.x z →
      Quality nnls F d (iv.map (fun v => s * v)) z q → Quality nnls F d (iv.map (fun v => s * v)) z0 q0 → q ≤ q0 → |z - z0| < ε := by
  have vinj : ∀ a b : List ℝ, (Except.ok (NDA.vec a) : Py (NDA ℝ)) = .ok (.vec b) → a = b := by
    intro a b h
    simp only [Except.ok.injEq, NDA.vec, NDA.arr.injEq, List.cons.injEq, and_true] at h
    exact h.2.2
  obtain ⟨f, hf, hcont⟩ := quality_continuous demoNnls C161_solver.1 F (solve_returns C161_solver.2 _) A hR hr hnb m iv hm hiv hpos hnn hfl
  have hIV := abIv_nonneg F.abCls iv hpos
  -- chi-squared of the exact photometry is bounded below away from the true redshift
  obtain ⟨μ, hμ, hlow⟩ : ∃ μ > 0, ∀ z, InRange A.x z → ε ≤ |z - z0| → μ ≤ f z := by
    by_cases hne : (Set.Icc (A.x.headD 0) (A.x.getLastD 0) ∩ {z | ε ≤ |z - z0|}).Nonempty
    · have hcl : IsClosed {z : ℝ | ε ≤ |z - z0|} := isClosed_le continuous_const (by fun_prop)
      obtain ⟨z1, hz1, hmin⟩ := (isCompact_Icc.inter_right hcl).exists_isMinOn hne (hcont.mono Set.inter_subset_left)
      refine ⟨f z1, ?_, fun z hz hze => hmin ⟨hz, hze⟩⟩
      obtain ⟨n, out, r, h1, h2, e⟩ := hf z1 hz1.1
      have h0 : 0 ≤ f z1 := by rw [e]; exact chi2_nonneg _ _ _ hIV
      refine lt_of_le_of_ne h0 fun hzero => ?_
      obtain ⟨y, rfl, ly, y0, rc, hrc, _⟩ := C49_ab demoNnls C161_solver.1 F hr A hR z1 hz1.1 m iv hm hiv hpos n out h1
      have hlen : r.length = F.responses.length := by
        obtain ⟨M, hM⟩ := (at_ok_iff hR.good.ne).mpr hz1.1
        have := vinj _ _ ((recon_ready hR hM ly).symm.trans h2)
        rw [← this, mulVec, List.length_map, (at_shaped hR.good hM).1, hR.rows]
      have : z1 = z0 := by
        refine hid z1 hz1.1 ⟨y, r, ly, y0, h2, fun j v hv hv0 => ?_⟩
        have hj : j < F.responses.length := by rw [← hiv]; exact (List.getElem?_eq_some_iff.mp hv).1
        have hv' : (abIv F.abCls iv)[j]? = some (v / abFactor F.abCls j ^ 2) := by rw [abIv_get, hv]; rfl
        have ex := chi2_zero (abM F.abCls m) (abIv F.abCls iv) r hIV (by rw [← e, ← hzero]) j _ _ _ hv' (div_pos hv0 (pow_pos (abFactor_pos _ _) 2))
          (List.getElem?_eq_getElem (by rw [abM_length, hm]; exact hj)) (List.getElem?_eq_getElem (by rw [hlen]; exact hj))
        rw [List.getElem?_eq_getElem (by rw [hlen]; exact hj), List.getElem?_eq_getElem (by rw [abM_length, hm]; exact hj), ex]
      have h3 : ε ≤ |z1 - z0| := hz1.2
      rw [this, sub_self, abs_zero] at h3
      linarith
    · exact ⟨1, one_pos, fun z hz hze => absurd ⟨z, hz, hze⟩ hne⟩
  refine ⟨μ / 4, by positivity, fun m' d hm' hclose s hs hd z q q0 hz hq hq0 hle => ?_⟩
  by_contra hfar
  have hfz := hlow z hz (not_lt.mp hfar)
  have hlen : (iv.map (fun v => s * v)).length = F.responses.length := by simp [hiv]
  have hsp : ∀ v ∈ iv.map (fun v => s * v), 0 ≤ v := by
    intro v hv
    obtain ⟨u, hu, rfl⟩ := List.mem_map.mp hv
    exact mul_nonneg hs.le (hpos u hu)
  have habs : abIv F.abCls (iv.map (fun v => s * v)) = (abIv F.abCls iv).map (fun v => s * v) := by
    apply List.ext_getElem?
    intro j
    simp only [abIv_get, List.getElem?_map]
    cases iv[j]? with
    | none => rfl
    | some v => simp [mul_div_assoc]
  obtain ⟨n, out, r, h1, h2, rfl⟩ := hq
  obtain ⟨n0, out0, r0, h10, h20, rfl⟩ := hq0
  obtain ⟨y, rfl, ly, y0, _⟩ := C49_ab nnls hn F hr A hR z hz d _ (by rw [hd.1, hm']) hlen hsp n out h1
  obtain ⟨y', rfl, ly', y0', r', hr', ho'⟩ := C49_ab nnls hn F hr A hR z0 hz0 d _ (by rw [hd.1, hm']) hlen hsp n0 out0 h10
  obtain rfl := vinj _ _ (hr'.symm.trans h20)
  obtain ⟨rt, ht, hlt⟩ := ho' c hc hc0
  obtain rfl := vinj _ _ (hrec.symm.trans ht)
  rw [habs, chi2_weight, chi2_weight, agree_chi2 (agree_scale hs hd) hpos, agree_chi2 (agree_scale hs hd) hpos] at hle hlt
  have h3 : chi2 (abM F.abCls m') (abIv F.abCls iv) r ≤ chi2 (abM F.abCls m') (abIv F.abCls iv) (abM F.abCls m) :=
    le_of_mul_le_mul_left (hle.trans hlt) hs
  have h4 := chi2_triangle (abM F.abCls m) (abIv F.abCls iv) (abM F.abCls m') r hIV (by rw [abM_length, abM_length, hm, hm'])
  rw [chi2_comm (abM F.abCls m') _ (abM F.abCls m), chi2_ab] at h3
  rw [chi2_ab] at h4
  obtain ⟨n1, out1, r1, h11, h21, e1⟩ := hf z hz
  obtain ⟨y1, rfl, _, _, r1', hr1, ho1⟩ := C49_ab demoNnls C161_solver.1 F hr A hR z hz m iv hm hiv hpos n1 out1 h11
  obtain rfl := vinj _ _ (hr1.symm.trans h21)
  obtain ⟨r2, hr2, hle2⟩ := ho1 y ly y0
  obtain rfl := vinj _ _ (hr2.symm.trans h2)
  rw [← e1] at hle2
  linarith

/-- C208 for photometry with normal errors: every redshift at which the fit is at least as good as at the true one is close to the true one, with a probability as close to one as wanted,
once the errors are small. -/
theorem C208_probability {Ω : Type} [MeasurableSpace Ω] (P : Measure Ω) (g : Ω → Nat → ℝ) (hg : ∀ j, HasLaw (fun ω => g ω j) (gaussianReal 0 1) P) (nnls : Nnls ℝ) (hn : NNLSOK nnls)
    (F : Fitter ℝ) (A : AMat ℝ) (hR : Ready F A) (hr : AbReady F.abCls F.responses.length) (hnb : F.responses.length ≠ 1)
    (m iv c : List ℝ) (hm : m.length = F.responses.length) (hiv : iv.length = F.responses.length) (hpos : ∀ v ∈ iv, 0 ≤ v)
    (hnn : ∀ t < F.templates.nsed, ∀ z a, InRange A.x z → F.reconstruct (some (.scalar z)) (some (.vec (alone F.templates.nsed t))) 0 = .ok (.vec a) →
      ∀ x ∈ a, 0 ≤ x)
    (hfl : ∀ z, InRange A.x z → ∀ t < F.templates.nsed, ∃ (a : List ℝ) (j : Nat) (v x : ℝ),
      F.reconstruct (some (.scalar z)) (some (.vec (alone F.templates.nsed t))) 0 = .ok (.vec a) ∧ iv[j]? = some v ∧ a[j]? = some x ∧ 0 < v ∧ 0 < x)
    (z0 : ℝ) (hz0 : InRange A.x z0) (hc : c.length = F.templates.nsed) (hc0 : ∀ v ∈ c, 0 ≤ v)
    (hrec : F.reconstruct (some (.scalar z0)) (some (.vec c)) 0 = .ok (.vec (abM F.abCls m)))
    (hid : ∀ z, InRange A.x z → Explains F m iv z → z = z0) (ε η : ℝ) (hε : 0 < ε) (hη : 0 < η) :
    ∃ K : ℝ, 0 < K ∧ ∀ s, K ≤ s →
      P {ω | ∃ d z q q0, Agree (iv.map (fun v => s * v)) d (observed m (iv.map (fun v => s * v)) (g ω)) ∧ InRange A.x z ∧
        Quality nnls F d (iv.map (fun v => s * v)) z q ∧ Quality nnls F d (iv.map (fun v => s * v)) z0 q0 ∧ q ≤ q0 ∧ ε ≤ |z - z0|} ≤ ENNReal.ofReal η := by
  obtain ⟨δ, hδ, hclose⟩ := C208_close nnls hn F A hR hr hnb m iv c hm hiv hpos hnn hfl z0 hz0 hc hc0 hrec hid ε hε
  refine ⟨(bandsUsed iv + 1) / (δ * η), by positivity, fun s hs => ?_⟩
  have hs0 : 0 < s := lt_of_lt_of_le (by positivity) hs
  have hsp : ∀ v ∈ iv.map (fun v => s * v), 0 ≤ v := by
    intro v hv
    obtain ⟨u, hu, rfl⟩ := List.mem_map.mp hv
    exact mul_nonneg hs0.le (hpos u hu)
  have hb : bandsUsed (iv.map (fun v => s * v)) = bandsUsed iv := by
    unfold bandsUsed
    rw [List.filter_map, List.length_map]
    congr 2
    funext v
    simp [hs0]
  refine (measure_mono fun ω hω => ?_).trans ((noise2_tail P g hg (iv.map (fun v => s * v)) (δ * s) (by positivity)).trans (ENNReal.ofReal_le_ofReal ?_))
  · obtain ⟨d, z, q, q0, hd, hz, hq, hq0, hle, hfar⟩ := hω
    by_contra hsmall
    have h1 : noise2 (iv.map (fun v => s * v)) (g ω) < δ * s := not_le.mp hsmall
    rw [← observed_chi2 F.abCls m _ (by simp [hiv, hm]) hsp, chi2_ab, chi2_weight] at h1
    have h2 : chi2 m iv (observed m (iv.map (fun v => s * v)) (g ω)) < δ := by nlinarith
    exact absurd (hclose _ d (by rw [observed_length, hm]) h2 s hs0 hd z q q0 hz hq hq0 hle) (not_lt.mpr hfar)
  · rw [hb, div_le_iff₀ (by positivity)]
    rw [div_le_iff₀ (by positivity)] at hs
    nlinarith

/-- Two bands and two templates from redshift 0 to 1; the first template at redshift 0 is bluer than any template at another redshift. -/
noncomputable def demoBlue : AMat ℝ := ⟨[0, 1], [[[1, 2], [3, 1]], [[1, 1], [1, 1]]], 2, 2⟩

theorem demoBlue_at {z : ℝ} (hz : InRange demoBlue.x z) : demoBlue.at z = .ok [[1, 2 - z], [3 - 2 * z, 1]] := by
  have h1 : (0 : ℝ) ≤ z := by simpa [InRange, demoBlue] using hz.1
  have h2 : z ≤ 1 := by simpa [InRange, demoBlue] using hz.2
  have hg : demoBlue.Good := ⟨by simp [demoBlue], by simp [demoBlue], by simp [demoBlue], by simp [demoBlue, Shaped]⟩
  rw [at_cell (k := 0) hg (by simp [demoBlue]) (q := z) (by simpa [demoBlue, ent] using h1) (by simpa [demoBlue, ent] using h2)]
  norm_num [linBetween, linEntry, demoBlue, ent]
  constructor <;> ring

noncomputable def demoBlueFitter : Fitter ℝ := { demoFitter2 with Amatrix := some demoBlue }

theorem demoBlue_ready : Ready demoBlueFitter demoBlue :=
  ⟨rfl, ⟨by simp [demoBlue], by simp [demoBlue], by simp [demoBlue], by simp [demoBlue, Shaped]⟩, rfl, rfl⟩

theorem demoBlue_recon {z : ℝ} (hz : InRange demoBlue.x z) (p q : ℝ) :
    demoBlueFitter.reconstruct (some (.scalar z)) (some (.vec [p, q])) 0 = .ok (.vec [p + (2 - z) * q, (3 - 2 * z) * p + q]) := by
  refine (recon_ready demoBlue_ready (demoBlue_at hz) (c := [p, q]) rfl).trans ?_
  simp [mulVec, dot, sumL_real]

/-- The hypotheses hold for the first template at redshift 0, and independent standard normal deviates. -/
example : ∃ (Ω : Type) (_ : MeasurableSpace Ω) (P : Measure Ω) (g : Ω → Nat → ℝ), (∀ j, HasLaw (fun ω => g ω j) (gaussianReal 0 1) P) ∧ NNLSOK (lhNnls 0) ∧ Ready demoBlueFitter demoBlue ∧
    AbReady demoBlueFitter.abCls demoBlueFitter.responses.length ∧ demoBlueFitter.responses.length = 2 ∧ demoBlueFitter.templates.nsed = 2 ∧
    (∀ t < 2, ∀ z a, InRange demoBlue.x z → demoBlueFitter.reconstruct (some (.scalar z)) (some (.vec (alone 2 t))) 0 = .ok (.vec a) → ∀ x ∈ a, 0 ≤ x) ∧
    (∀ z, InRange demoBlue.x z → ∀ t < 2, ∃ (a : List ℝ) (j : Nat) (v x : ℝ),
      demoBlueFitter.reconstruct (some (.scalar z)) (some (.vec (alone 2 t))) 0 = .ok (.vec a) ∧ ([1, 1] : List ℝ)[j]? = some v ∧ a[j]? = some x ∧ 0 < v ∧ 0 < x) ∧
    InRange demoBlue.x 0 ∧ demoBlueFitter.reconstruct (some (.scalar 0)) (some (.vec [1, 0])) 0 = .ok (.vec (abM demoBlueFitter.abCls [1, 3])) ∧
    ∀ z, InRange demoBlue.x z → Explains demoBlueFitter [1, 3] [1, 1] z → z = 0 := by
  have vinj : ∀ a b : List ℝ, (Except.ok (NDA.vec a) : Py (NDA ℝ)) = .ok (.vec b) → a = b := by
    intro a b h
    simp only [Except.ok.injEq, NDA.vec, NDA.arr.injEq, List.cons.injEq, and_true] at h
    exact h.2.2
  have hab : abM demoBlueFitter.abCls [1, 3] = [1, 3] := abM_base _
  have hb : ∀ {z : ℝ}, InRange demoBlue.x z → 0 ≤ z ∧ z ≤ 1 := fun hz => ⟨by simpa [InRange, demoBlue] using hz.1, by simpa [InRange, demoBlue] using hz.2⟩
  have a0 : alone 2 0 = [1, 0] := by simp [alone, List.range_succ]
  have a1 : alone 2 1 = [0, 1] := by simp [alone, List.range_succ]
  have hr0 : InRange demoBlue.x 0 := by constructor <;> norm_num [demoBlue]
  refine ⟨_, _, Measure.infinitePi (fun _ : ℕ × ℕ × ℕ => gaussianReal 0 1), fun ω j => ω (0, 0, j), fun j => deviates_exist.law 0 0 j, C184_contract, demoBlue_ready, trivial, rfl, rfl,
    ?_, ?_, hr0, ?_, ?_⟩
  · intro t ht z a hz hr x hx
    obtain ⟨z0, z1⟩ := hb hz
    interval_cases t
    · rw [a0, demoBlue_recon hz] at hr
      rw [← vinj _ _ hr] at hx
      simp only [List.mem_cons, List.not_mem_nil, or_false] at hx
      rcases hx with rfl | rfl <;> nlinarith
    · rw [a1, demoBlue_recon hz] at hr
      rw [← vinj _ _ hr] at hx
      simp only [List.mem_cons, List.not_mem_nil, or_false] at hx
      rcases hx with rfl | rfl <;> nlinarith
  · intro z hz t ht
    obtain ⟨z0, z1⟩ := hb hz
    interval_cases t
    · rw [a0]
      exact ⟨_, 0, 1, _, demoBlue_recon hz 1 0, rfl, rfl, one_pos, by norm_num⟩
    · rw [a1]
      exact ⟨_, 1, 1, _, demoBlue_recon hz 0 1, rfl, rfl, one_pos, by norm_num⟩
  · rw [hab, demoBlue_recon hr0]
    norm_num
  · rintro z hz ⟨y, r, ly, y0, hr, he⟩
    obtain ⟨z0, z1⟩ := hb hz
    obtain ⟨p, q, rfl⟩ : ∃ p q, y = [p, q] := by
      match y, ly with
      | [p, q], _ => exact ⟨p, q, rfl⟩
    rw [demoBlue_recon hz] at hr
    obtain rfl := vinj _ _ hr
    rw [hab] at he
    have e1 := he 0 1 rfl one_pos
    have e2 := he 1 1 rfl one_pos
    simp only [List.getElem?_cons_zero, List.getElem?_cons_succ, Option.some.injEq] at e1 e2
    have hp : 0 ≤ p := y0 p (by simp)
    have hq : 0 ≤ q := y0 q (by simp)
    have k : 2 * z * p + (5 - 3 * z) * q = 0 := by linarith
    have k1 : q = 0 := by nlinarith [mul_nonneg z0 hp, mul_nonneg hq (sub_nonneg.mpr z1)]
    subst k1
    have k2 : p = 1 := by linarith
    subst k2
    linarith

end KC
