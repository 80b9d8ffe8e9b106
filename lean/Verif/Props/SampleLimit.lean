import Verif.Props.FitLimit
import Verif.Props.CoeffCont
import Verif.Props.BestFitAb
import Verif.Props.Between
import Verif.Props.McErrors
import Verif.Props.NoisyFit
import Mathlib.MeasureTheory.Measure.Lebesgue.EqHaar

/-!
# The limit of the documented errors, K-corrections included (C220)
-/

namespace KC
open Spec MeasureTheory ProbabilityTheory Filter Topology Pointwise

/-- K-correction as a function of the coefficients: measurable and bounded if all templates have flux in both bands -/
theorem kcorrect_fn (K : Kc ℝ) (A Ao : AMat ℝ) (hR : Ready K.toFitter A) (hAo : K.AmatrixOut = some Ao) (z bs : ℝ) (hz : InRange A.x z) (hs : 0 < K.templates.nsed)
    (j i : Nat) (hij : K.imap[j]? = some i)
    (hflux : ∀ t < K.templates.nsed, ∃ a b fa fb, K.reconstruct (some (.scalar z)) (some (.vec (alone K.templates.nsed t))) 0 = .ok a ∧
      K.reconstructOut (some (.scalar 0)) (some (.vec (alone K.templates.nsed t))) bs = .ok b ∧ entry a 0 i = some fa ∧ entry b 0 j = some fb ∧ 0 < fa ∧ 0 < fb) :
    ∃ (k : (Fin K.templates.nsed → ℝ) → ℝ) (B : ℝ), Measurable k ∧ (∀ c, (∀ t, 0 ≤ c t) → |k c| ≤ B) ∧ (∀ c, (∀ t, 0 ≤ c t) → ∀ s : ℝ, 0 < s → k (fun t => s * c t) = k c) ∧
      ∀ c, (∀ t, 0 ≤ c t) → ∃ kc, K.kcorrect (some (.scalar z)) (some (.vec (List.ofFn c))) bs = .ok kc ∧ entry kc 0 j = some (k c) := by
  obtain ⟨a0, ac, am⟩ := hR.model
  obtain ⟨a1, b1, fa1, fb1, h1, h2, h3, h4, _, _⟩ := hflux 0 hs
  obtain ⟨β, hβ⟩ := out_linear K Ao hAo bs _ (alone_length _ _) b1 h2 j fb1 h4
  have hil : i < K.responses.length := by
    have := am ⟨z, hz⟩ _ (alone_length _ 0)
    simp only at this
    rw [h1] at this
    cases this
    simp only [NDA.vec, entry, List.getElem?_cons_zero, Option.bind_some] at h3
    simpa using (List.getElem?_eq_some_iff.mp h3).1
  obtain ⟨α, hα⟩ : ∃ α : Fin K.templates.nsed → ℝ, ∀ c : List ℝ, c.length = K.templates.nsed →
      ∃ a, K.reconstruct (some (.scalar z)) (some (.vec c)) 0 = .ok a ∧ entry a 0 i = some (∑ t, α t * ent c t) := by
    refine ⟨fun t => a0 ⟨i, hil⟩ t ⟨z, hz⟩, fun c hc => ⟨_, am ⟨z, hz⟩ c hc, ?_⟩⟩
    simp only [NDA.vec, entry, List.getElem?_cons_zero, Option.bind_some, List.getElem?_ofFn, hil, dif_pos]
  have eo : ∀ (γ c : Fin K.templates.nsed → ℝ), ∑ t, γ t * ent (List.ofFn c) t = ∑ t, γ t * c t := fun γ c => Finset.sum_congr rfl (fun t _ => by simp [ent])
  have ea : ∀ (γ : Fin K.templates.nsed → ℝ) (t : Fin K.templates.nsed), ∑ s, γ s * ent (alone K.templates.nsed t) s = γ t := by
    intro γ t
    rw [Finset.sum_eq_single t]
    · simp [ent, alone]
    · intro s _ hst
      have : ¬ (s : Nat) = t := fun e => hst (Fin.ext e)
      simp [ent, alone, this]
    · simp
  have pos : ∀ t, 0 < α t ∧ 0 < β t := by
    intro t
    obtain ⟨a, b, fa, fb, q1, q2, q3, q4, q5, q6⟩ := hflux t t.2
    obtain ⟨a', r1, r2⟩ := hα _ (alone_length _ (t : Nat))
    obtain ⟨b', s1, s2⟩ := hβ _ (alone_length _ (t : Nat))
    rw [q1] at r1
    cases r1
    rw [q2] at s1
    cases s1
    rw [q3, ea] at r2
    rw [q4, ea] at s2
    rw [← Option.some.inj r2, ← Option.some.inj s2]
    exact ⟨q5, q6⟩
  have hm : Measurable mag := by
    unfold mag Real.logb
    fun_prop
  have sums : ∀ c : Fin K.templates.nsed → ℝ, (∀ t, 0 ≤ c t) → 0 < ∑ t, c t → ∀ γ : Fin K.templates.nsed → ℝ, (∀ t, 0 < γ t) → 0 < ∑ t, γ t * c t := by
    intro c hc hp γ hγ
    refine (Finset.sum_nonneg fun t _ => mul_nonneg (hγ t).le (hc t)).lt_of_ne fun e => ?_
    have h0 := (Finset.sum_eq_zero_iff_of_nonneg (fun t _ => mul_nonneg (hγ t).le (hc t))).mp e.symm
    rw [Finset.sum_eq_zero (fun t ht => by
      rcases mul_eq_zero.mp (h0 t ht) with h | h
      · exact absurd h (hγ t).ne'
      · exact h)] at hp
    exact lt_irrefl _ hp
  have ratio : ∀ (γ δ : Fin K.templates.nsed → ℝ), (∀ t, 0 < γ t) → (∀ t, 0 < δ t) → ∀ c : Fin K.templates.nsed → ℝ, (∀ t, 0 ≤ c t) → 0 < ∑ t, c t →
      Real.logb 10 (∑ t, γ t * c t) - Real.logb 10 (∑ t, δ t * c t) ≤ Real.logb 10 (∑ t, γ t / δ t) := by
    intro γ δ hγ hδ c hc hp
    have p1 := sums c hc hp γ hγ
    have p2 := sums c hc hp δ hδ
    rw [← Real.logb_div p1.ne' p2.ne']
    refine Real.logb_le_logb_of_le (by norm_num) (div_pos p1 p2) ?_
    rw [div_le_iff₀ p2, Finset.mul_sum]
    refine Finset.sum_le_sum fun t _ => ?_
    rw [← mul_assoc]
    refine mul_le_mul_of_nonneg_right ?_ (hc t)
    have : γ t / δ t ≤ ∑ s, γ s / δ s := Finset.single_le_sum (fun s _ => (div_pos (hγ s) (hδ s)).le) (Finset.mem_univ t)
    rwa [div_le_iff₀ (hδ t)] at this
  refine ⟨fun c => if 0 < ∑ t, c t then mag (∑ t, α t * c t) - mag (∑ t, β t * c t) else 0,
    2.5 * (|Real.logb 10 (∑ t, α t / β t)| + |Real.logb 10 (∑ t, β t / α t)|), ?_, ?_, ?_, ?_⟩
  · refine Measurable.ite (measurableSet_lt measurable_const (by fun_prop)) ((hm.comp (by fun_prop)).sub (hm.comp (by fun_prop))) measurable_const
  · intro c hc
    simp only
    split
    · rename_i hp
      have r1 := ratio α β (fun t => (pos t).1) (fun t => (pos t).2) c hc hp
      have r2 := ratio β α (fun t => (pos t).2) (fun t => (pos t).1) c hc hp
      have s1 := le_abs_self (Real.logb 10 (∑ t, α t / β t))
      have s2 := le_abs_self (Real.logb 10 (∑ t, β t / α t))
      have t1 := abs_nonneg (Real.logb 10 (∑ t, α t / β t))
      have t2 := abs_nonneg (Real.logb 10 (∑ t, β t / α t))
      unfold mag
      rw [abs_le]
      constructor <;> linarith
    · rw [abs_zero]; positivity
  · intro c hc s hs
    have e : ∀ γ : Fin K.templates.nsed → ℝ, ∑ t, γ t * (s * c t) = s * ∑ t, γ t * c t := by
      intro γ
      rw [Finset.mul_sum]
      exact Finset.sum_congr rfl fun t _ => by ring
    simp only
    rw [← Finset.mul_sum, e, e]
    by_cases hp : 0 < ∑ t, c t
    · rw [if_pos hp, if_pos (mul_pos hs hp)]
      have ms : ∀ x : ℝ, 0 < x → mag (s * x) = mag s + mag x := by
        intro x hx
        unfold mag
        rw [Real.logb_mul hs.ne' hx.ne']
        ring
      rw [ms _ (sums c hc hp α fun t => (pos t).1), ms _ (sums c hc hp β fun t => (pos t).2)]
      ring
    · rw [if_neg hp, if_neg]
      intro h
      exact hp (pos_of_mul_pos_left (by rwa [mul_comm] at h) hs.le)
  · intro c hc
    obtain ⟨r, hr1, hr2⟩ := hα (List.ofFn c) (by simp)
    obtain ⟨b, hb1, hb2⟩ := hβ (List.ofFn c) (by simp)
    rw [eo] at hr2 hb2
    obtain ⟨hex, hk⟩ := C67_model_magnitudes K A Ao hR.set hAo z bs (List.ofFn c) (by simp)
    obtain ⟨k, hkk⟩ := hex.mpr ⟨⟨r, hr1⟩, ⟨b, hb1⟩⟩
    refine ⟨k, hkk, ?_⟩
    obtain ⟨_, hk1, hk2⟩ := hk k r b hkk hr1 hb1
    rw [List.sum_ofFn] at hk1 hk2
    simp only
    by_cases hp : 0 < ∑ t, c t
    · rw [if_pos hp]
      exact hk2 hp j i _ _ hij hr2 hb2 (sums c hc hp α fun t => (pos t).1) (sums c hc hp β fun t => (pos t).2)
    · rw [if_neg hp]
      exact hk1 (not_lt.mp hp) j _ hb2

/-- a measurable set that meets every ray from the origin at most once is null -/
theorem rays_null {ι : Type} [Fintype ι] (N : Set (ι → ℝ)) (hN : MeasurableSet N) (h : ∀ w ∈ N, ∀ s : ℝ, 0 < s → s ≠ 1 → s • w ∉ N) : volume N = 0 := by
  have hball : ∀ R : ℕ, volume (N ∩ Metric.closedBall 0 R) = 0 := by
    intro R
    let s : ℕ → ℝ := fun k => 1 + 1 / ((k : ℝ) + 1)
    have s1 : ∀ k, 1 ≤ s k := fun k => le_add_of_nonneg_right (by positivity)
    have s2 : ∀ k, s k ≤ 2 := by
      intro k
      have : 1 / ((k : ℝ) + 1) ≤ 1 := by
        rw [div_le_one (by positivity)]
        exact le_add_of_nonneg_left (by positivity)
      simp only [s]
      linarith
    have sinj : ∀ k l, s k = s l → k = l := by
      intro k l e
      simp only [s, add_right_inj, one_div, inv_inj, add_left_inj, Nat.cast_inj] at e
      exact e
    have hM : MeasurableSet (N ∩ Metric.closedBall 0 R) := hN.inter Metric.isClosed_closedBall.measurableSet
    have hdis : Pairwise (fun k l => Disjoint (s k • (N ∩ Metric.closedBall 0 R)) (s l • (N ∩ Metric.closedBall 0 R))) := by
      intro k l hkl
      rw [Set.disjoint_left]
      rintro _ ⟨u, hu, rfl⟩ ⟨v, hv, e⟩
      simp only at e
      have hk : 0 < s k := lt_of_lt_of_le one_pos (s1 k)
      have hl : 0 < s l := lt_of_lt_of_le one_pos (s1 l)
      refine h v hv.1 (s l / s k) (div_pos hl hk) (fun e1 => hkl (sinj k l ((div_eq_one_iff_eq hk.ne').mp e1).symm)) ?_
      have : (s l / s k) • v = u := by
        rw [div_eq_inv_mul, mul_smul, e, smul_smul, inv_mul_cancel₀ hk.ne', one_smul]
      rw [this]
      exact hu.1
    have hU : volume (⋃ k, s k • (N ∩ Metric.closedBall 0 R)) < ⊤ := by
      refine lt_of_le_of_lt (measure_mono (t := Metric.closedBall 0 (2 * R)) ?_) measure_closedBall_lt_top
      rintro _ hx
      obtain ⟨k, u, hu, rfl⟩ := Set.mem_iUnion.mp hx
      have h1 : ‖u‖ ≤ R := by simpa using hu.2
      rw [mem_closedBall_zero_iff]
      simp only
      rw [norm_smul, Real.norm_eq_abs, abs_of_nonneg (by linarith [s1 k])]
      exact mul_le_mul (s2 k) h1 (norm_nonneg _) (by norm_num)
    rw [measure_iUnion hdis (fun k => hM.const_smul₀ _)] at hU
    by_contra h0
    refine hU.ne (top_le_iff.mp ?_)
    rw [← ENNReal.tsum_const_eq_top_of_ne_zero (α := ℕ) h0]
    refine ENNReal.tsum_le_tsum fun k => ?_
    rw [Measure.addHaar_smul]
    refine le_mul_of_one_le_left zero_le ?_
    rw [ENNReal.one_le_ofReal]
    exact le_trans (one_le_pow₀ (s1 k)) (le_abs_self _)
  have : N = ⋃ R : ℕ, N ∩ Metric.closedBall 0 R := by
    rw [← Set.inter_iUnion, Metric.iUnion_closedBall_nat, Set.inter_univ]
  rw [this]
  exact measure_iUnion_null hball

/-- a product of normal laws with positive variances vanishes on the null sets -/
theorem gauss_null {ι : Type} [Fintype ι] (μ : ι → ℝ) (v : ι → NNReal) (hv : ∀ i, v i ≠ 0) (N : Set (ι → ℝ)) (hN : volume N = 0) :
    Measure.pi (fun i => gaussianReal (μ i) (v i)) N = 0 := by
  let C : ι → ENNReal := fun i => ENNReal.ofReal ((√(2 * Real.pi * v i))⁻¹)
  have hC : ∀ i, C i ≠ 0 := by
    intro i
    have : 0 < v i := pos_iff_ne_zero.mpr (hv i)
    simp only [C, ne_eq, ENNReal.ofReal_eq_zero, not_le]
    positivity
  have hle : ∀ i (s : Set ℝ), gaussianReal (μ i) (v i) s ≤ C i * volume s := by
    intro i s
    rw [gaussianReal_of_var_ne_zero _ (hv i)]
    have : volume.withDensity (gaussianPDF (μ i) (v i)) ≤ volume.withDensity (fun _ => C i) := by
      refine withDensity_mono (Eventually.of_forall fun x => ?_)
      refine ENNReal.ofReal_le_ofReal ?_
      rw [gaussianPDFReal_def]
      refine mul_le_of_le_one_right (by positivity) ?_
      rw [Real.exp_le_one_iff]
      exact div_nonpos_of_nonpos_of_nonneg (neg_nonpos.mpr (sq_nonneg _)) (by positivity)
    refine (this s).trans_eq ?_
    rw [withDensity_const]
    rfl
  have hP : (∏ i, C i) ≠ 0 := Finset.prod_ne_zero_iff.mpr fun i _ => hC i
  have hT : (∏ i, C i) ≠ ⊤ := ENNReal.prod_ne_top fun i _ => ENNReal.ofReal_ne_top
  have key : ((∏ i, C i)⁻¹ • (Measure.pi (fun i => gaussianReal (μ i) (v i))).toOuterMeasure) ≤ OuterMeasure.pi (fun _ : ι => (volume : Measure ℝ).toOuterMeasure) := by
    rw [OuterMeasure.le_pi]
    intro s _
    rw [smul_apply, Measure.coe_toOuterMeasure, Measure.pi_pi, smul_eq_mul]
    calc (∏ i, C i)⁻¹ * ∏ i, gaussianReal (μ i) (v i) (s i) ≤ (∏ i, C i)⁻¹ * ∏ i, (C i * volume (s i)) := by
          gcongr with i
          exact hle i _
      _ = ∏ i, volume (s i) := by rw [Finset.prod_mul_distrib, ← mul_assoc, ENNReal.inv_mul_cancel hP hT, one_mul]
  have h1 := key N
  rw [smul_apply, Measure.coe_toOuterMeasure, smul_eq_mul] at h1
  have h2 : OuterMeasure.pi (fun _ : ι => (volume : Measure ℝ).toOuterMeasure) N ≤ volume N := by
    rw [volume_pi, Measure.pi]
    exact le_toMeasure_apply _ _ _
  rw [hN] at h2
  have h3 := le_antisymm (h1.trans h2) zero_le
  rcases mul_eq_zero.mp h3 with h | h
  · exact absurd (ENNReal.inv_eq_zero.mp h) hT
  · exact h

/-- the best fit as a function of the photometry of the bands that enter it -/
theorem fit_fn (G : Fitter ℝ) (hG : NoAb G) (hr : AbReady G.abCls G.responses.length) (hcls : G.abCls = .base) (hnb : G.responses.length ≠ 1) (A : AMat ℝ) (hR : Ready G A) (z : ℝ)
    (hz : InRange A.x z) (iv : List ℝ) (hiv : iv.length = G.responses.length) (hpos : ∀ v ∈ iv, 0 ≤ v) (hi : Indep G z iv)
    (p : Fin G.responses.length → Prop) (hp : ∀ (j : Fin G.responses.length) v, iv[(j : Nat)]? = some v → 0 < v → p j) :
    ∃ cf : ({j // p j} → ℝ) → Fin G.templates.nsed → ℝ, Continuous cf ∧ (∀ w t, 0 ≤ cf w t) ∧ (∀ w (s : ℝ), 0 < s → cf (s • w) = fun t => s * cf w t) ∧
      (∀ w, ∃ m : List ℝ, m.length = G.responses.length ∧ (∀ q : {j // p j}, m[(q.1 : Nat)]? = some (w q)) ∧ Optimal G z m iv (List.ofFn (cf w))) ∧
      ∀ w (m : List ℝ), m.length = G.responses.length → (∀ q : {j // p j}, m[(q.1 : Nat)]? = some (w q)) → ∀ c, Optimal G z m iv c → c = List.ofFn (cf w) := by
  classical
  let ext : ({j // p j} → ℝ) → List ℝ := fun w => List.ofFn (fun j : Fin G.responses.length => if h : p j then w ⟨j, h⟩ else 0)
  have el : ∀ w, (ext w).length = G.responses.length := fun w => by simp [ext]
  have eq : ∀ w (q : {j // p j}), (ext w)[(q.1 : Nat)]? = some (w q) := by
    intro w q
    simp [ext, q.2]
  have ex : ∀ w, ∃ c : Fin G.templates.nsed → ℝ, G.fitCoeffs demoNnls (some (.scalar z)) (some (.vec (ext w))) (some (.vec iv)) 0 (fun _ _ _ => 0) = .ok ⟨.vec (List.ofFn c), none⟩ ∧
      Optimal G z (ext w) iv (List.ofFn c) := by
    intro w
    obtain ⟨c, h1, h2⟩ := C161_fit demoNnls C161_solver.1 G (solve_returns C161_solver.2 _) hG hnb A hR z hz (ext w) iv (el w) hiv hpos (fun _ _ _ => 0)
    obtain ⟨c', rfl⟩ : ∃ c' : Fin G.templates.nsed → ℝ, c = List.ofFn c' := by
      refine ⟨fun t => c[(t : Nat)]'(by rw [h2.1]; exact t.2), ?_⟩
      apply List.ext_getElem
      · simp [h2.1]
      · intro n h3 h4
        simp
    exact ⟨c', h1, h2⟩
  choose cf hfit hopt using ex
  have huniq : ∀ w (m : List ℝ), m.length = G.responses.length → (∀ q : {j // p j}, m[(q.1 : Nat)]? = some (w q)) → ∀ c, Optimal G z m iv c → c = List.ofFn (cf w) := by
    intro w m hm hq c hc
    have hag : Agree iv m (ext w) := by
      refine ⟨by rw [hm, el], fun j v hj hv => ?_⟩
      have hjl : j < G.responses.length := by rw [← hiv]; exact (List.getElem?_eq_some_iff.mp hj).1
      have hpj := hp ⟨j, hjl⟩ v hj hv
      have h1 := hq ⟨⟨j, hjl⟩, hpj⟩
      have h2 := eq w ⟨⟨j, hjl⟩, hpj⟩
      simp only at h1 h2
      rw [h1, h2]
    have h := agree_optimal hag hpos G z c
    rw [hcls, abM_base, abM_base, abIv_base] at h
    exact optimal_eq G A hR z hz (ext w) iv (el w) hiv hpos hi _ _ (h.mp hc) (hopt w)
  refine ⟨cf, ?_, ?_, ?_, fun w => ⟨ext w, el w, eq w, hopt w⟩, huniq⟩
  · rw [Metric.continuous_iff]
    intro w ε hε
    obtain ⟨c0, δ, h1, h2, h3⟩ := C200_coefficients demoNnls demoNnls C161_solver.1 C161_solver.1 G A hR hr (ext w) iv (el w) hiv hpos z hz hi (fun _ _ _ => 0) _ (hfit w) (ε / 2) (by linarith)
    refine ⟨δ, h2, fun w' hw' => ?_⟩
    obtain ⟨c, h4, h5⟩ := h3 z (ext w') iv (fun _ _ _ => 0) _ hz (by simpa using h2) ⟨by rw [el, el], fun j x y hx hy => by
        have hjl : j < G.responses.length := by rw [← el w]; exact (List.getElem?_eq_some_iff.mp hx).1
        by_cases hpj : p ⟨j, hjl⟩
        · have e1 := eq w ⟨⟨j, hjl⟩, hpj⟩
          have e2 := eq w' ⟨⟨j, hjl⟩, hpj⟩
          simp only at e1 e2
          rw [hx] at e1
          rw [hy] at e2
          rw [Option.some.inj e1, Option.some.inj e2, ← Real.dist_eq]
          exact lt_of_le_of_lt (dist_le_pi_dist w' w _) hw'
        · simp only [ext, List.getElem?_ofFn, hjl, dif_pos, hpj, not_false_eq_true, dif_neg, Option.some.injEq] at hx hy
          rw [← hx, ← hy, sub_self, abs_zero]
          exact h2⟩ ⟨rfl, fun j x y hx hy => by
        rw [hx] at hy
        rw [Option.some.inj hy, sub_self, abs_zero]
        exact h2⟩ hpos (hfit w')
    simp only [NDA.vec, NDA.arr.injEq, true_and] at h1 h4
    refine lt_of_le_of_lt ((dist_pi_le_iff (by linarith)).mpr fun t => ?_) (half_lt_self hε)
    have e1 : c0 = List.ofFn (cf w) := by simp only [List.cons.injEq, and_true] at h1; exact h1.2.symm
    have e2 : c = List.ofFn (cf w') := by simp only [List.cons.injEq, and_true] at h4; exact h4.2.symm
    rw [Real.dist_eq]
    refine (h5.2 t _ _ ?_ ?_).le
    · rw [e1]; simp
    · rw [e2]; simp
  · intro w t
    exact (hopt w).2.1 _ (List.mem_ofFn.mpr ⟨t, rfl⟩)
  · intro w s hs
    have h := (C62_flux_scale G A hR z hz (ext w) iv (List.ofFn (cf w)) s hs).mpr (hopt w)
    have h1 := huniq (s • w) _ (by rw [List.length_map, el]) (fun q => by rw [List.getElem?_map, eq]; rfl) _ h
    rw [List.map_ofFn] at h1
    exact (List.ofFn_injective h1).symm

/-- Independent normal fluxes in the bands with a positive inverse variance: means the AB corrected maggies, variances the inverses of the AB corrected ivars. -/
noncomputable def Spec.fluxLaw (cls : Cls) (nb : Nat) (m iv : List ℝ) : Measure ({l : Fin nb // 0 < ent iv l} → ℝ) :=
  Measure.pi (fun l => gaussianReal (ent m l.1 * abFactor cls l.1) (Real.toNNReal (abFactor cls l.1 ^ 2 / ent iv l.1)))

instance (cls : Cls) (nb : Nat) (m iv : List ℝ) : IsProbabilityMeasure (fluxLaw cls nb m iv) := by
  unfold fluxLaw
  infer_instance

theorem flux_var (cls : Cls) (nb : Nat) (iv : List ℝ) (l : {l : Fin nb // 0 < ent iv l}) : Real.toNNReal (abFactor cls l.1 ^ 2 / ent iv l.1) ≠ 0 := by
  have := abFactor_pos cls l.1
  have := l.2
  rw [Ne, Real.toNNReal_eq_zero, not_le]
  positivity

/-- the samples of a galaxy are independent draws of its fluxes with the coefficients of the best fits to them -/
theorem sample_fits {Ω : Type} [MeasurableSpace Ω] (P : Measure Ω) (noise : Ω → Nat → Nat → Nat → ℝ) (hdev : Deviates P noise) (nnls : Nnls ℝ) (hok : NNLSOK nnls)
    (K : Kc ℝ) (hr : AbReady K.abCls K.responses.length) (hnb : K.responses.length ≠ 1) (A : AMat ℝ) (hR : Ready K.toFitter A)
    (zs : List ℝ) (ms ivs : List (List ℝ)) (hl : zs.length ≠ 1)
    (hm : ms.length = zs.length) (hiv : ivs.length = zs.length) (hmr : ∀ r ∈ ms, r.length = K.responses.length) (hivr : ∀ r ∈ ivs, r.length = K.responses.length)
    (hpos : ∀ r ∈ ivs, ∀ v ∈ r, 0 ≤ v) (out : Ω → Nat → FitOut ℝ)
    (hfit : ∀ ω mc, 0 < mc → K.toFitter.fitCoeffs nnls (some (.vec zs)) (some (.arr [zs.length] K.responses.length ms)) (some (.arr [zs.length] K.responses.length ivs)) mc
      (noise ω) = .ok (out ω mc))
    (g : Nat) (z : ℝ) (m iv : List ℝ) (hg : zs[g]? = some z) (hgm : ms[g]? = some m) (hgi : ivs[g]? = some iv) (hz : InRange A.x z) (hind : Indep K.toFitter z iv) :
    ∃ (W : ℕ → Ω → ({l : Fin K.responses.length // 0 < ent iv l} → ℝ)) (cf : ({l : Fin K.responses.length // 0 < ent iv l} → ℝ) → Fin K.templates.nsed → ℝ)
      (c mf : Ω → Nat → Nat → Nat → Nat → ℝ), iIndepFun W P ∧ (∀ k, HasLaw (W k) (fluxLaw K.abCls K.responses.length m iv) P) ∧ Continuous cf ∧ (∀ w t, 0 ≤ cf w t) ∧
      (∀ w (s : ℝ), 0 < s → cf (s • w) = fun t => s * cf w t) ∧
      (∀ w, ∃ d : List ℝ, d.length = K.responses.length ∧ (∀ l : {l : Fin K.responses.length // 0 < ent iv l}, d[(l.1 : Nat)]? = some (w l)) ∧
        Optimal K.toFitter z d (abIv K.abCls iv) (List.ofFn (cf w))) ∧
      (∀ w (d : List ℝ), d.length = K.responses.length → (∀ l : {l : Fin K.responses.length // 0 < ent iv l}, d[(l.1 : Nat)]? = some (w l)) → ∀ c,
        Optimal K.toFitter z d (abIv K.abCls iv) c → c = List.ofFn (cf w)) ∧
      ∀ ω mc, 0 < mc → (out ω mc).mc = some (cubeOf zs.length K.templates.nsed mc (c ω mc), cubeOf zs.length K.responses.length mc (mf ω mc)) ∧
        ∀ k < mc, (List.range K.templates.nsed).map (fun t => c ω mc g t k) = List.ofFn (cf (W k ω)) ∧
          ∀ l : {l : Fin K.responses.length // 0 < ent iv l}, mf ω mc g l.1 k = W k ω l := by
  obtain ⟨S, hS1, hS2, _, hS4⟩ := C115_ab_batch P noise hdev nnls hok.len K.toFitter hr hnb A hR.set zs ms ivs hl hm hiv hmr hivr hpos
  have hgl : g < zs.length := (List.getElem?_eq_some_iff.mp hg).1
  have hivl : iv.length = K.responses.length := hivr iv (List.mem_of_getElem? hgi)
  have hml : m.length = K.responses.length := hmr m (List.mem_of_getElem? hgm)
  have hip : ∀ v ∈ iv, 0 ≤ v := hpos iv (List.mem_of_getElem? hgi)
  have hie : ∀ l : Fin K.responses.length, iv[(l : Nat)]? = some (ent iv l) := by
    intro l
    have h1 : (l : Nat) < iv.length := by rw [hivl]; exact l.2
    rw [List.getElem?_eq_getElem h1, ent_some h1]
  have hme : ∀ l : Fin K.responses.length, m[(l : Nat)]? = some (ent m l) := by
    intro l
    have h1 : (l : Nat) < m.length := by rw [hml]; exact l.2
    rw [List.getElem?_eq_getElem h1, ent_some h1]
  obtain ⟨cf, c1, c2, c3, c4, c5⟩ := fit_fn K.toFitter.plain (Or.inl rfl) trivial rfl hnb A (ready_plain hR) z hz (abIv K.abCls iv) (by rw [abIv_length]; exact hivl)
    (abIv_nonneg _ _ hip) (by rw [indep_plain]; exact indep_ab _ hind) (fun l => 0 < ent iv l) (by
      intro l v hv hv0
      change (abIv K.abCls iv)[(l : Nat)]? = some v at hv
      rw [abIv_get, hie l] at hv
      rw [← Option.some.inj hv] at hv0
      exact (div_pos_iff_of_pos_right (pow_pos (abFactor_pos _ _) 2)).mp hv0)
  rw [optimal_plain] at c4 c5
  have hcube : ∀ ω mc, ∃ c mf, 0 < mc → (out ω mc).mc = some (cubeOf zs.length K.templates.nsed mc c, cubeOf zs.length K.responses.length mc mf) ∧
      ∀ k < mc, K.toFitter.plain.fitCoeffs nnls (some (.scalar z)) (some (.vec ((List.range K.responses.length).map (fun l => mf g l k)))) (some (.vec (abIv K.abCls iv))) 0
          (fun _ => noise ω g) = .ok ⟨.vec ((List.range K.templates.nsed).map (fun t => c g t k)), none⟩ := by
    intro ω mc
    by_cases h0 : 0 < mc
    · obtain ⟨c, mf, h, h'⟩ := fit_cubes nnls hok.len K.toFitter hr hnb A hR.set zs ms ivs hl hm hiv hmr hivr hpos mc h0 (noise ω) (out ω mc) (hfit ω mc h0)
      exact ⟨c, mf, fun _ => ⟨h, fun k hk => h' g k z iv hg hgi hk⟩⟩
    · exact ⟨fun _ _ _ => 0, fun _ _ _ => 0, fun h => absurd h h0⟩
  choose c mf hc using hcube
  have hmag : ∀ ω mc (l : Nat) k, l < K.responses.length → k < mc → mf ω mc g l k = S (g, l, k) ω := by
    intro ω mc l k hll hkm
    obtain ⟨cm, mm, h1, _, h3⟩ := hS1 mc (by omega) ω (out ω mc) (hfit ω mc (by omega))
    rw [(hc ω mc (by omega)).1] at h1
    simp only [Option.some.injEq, Prod.mk.injEq] at h1
    have h4 := h3 g l k hgl hll hkm
    rw [← h1.2, cube_entry _ _ _ _ _ _ _ hgl hll hkm] at h4
    exact Option.some.inj h4
  have hlaw : ∀ (l : {l : Fin K.responses.length // 0 < ent iv l}) (k : ℕ), HasLaw (S (g, (l.1 : Nat), k))
      (gaussianReal (ent m l.1 * abFactor K.abCls l.1) (Real.toNNReal (abFactor K.abCls l.1 ^ 2 / ent iv l.1))) P :=
    fun l k => hS2 g l.1 k m iv _ _ hgm hgi (hme l.1) (hie l.1) l.2
  let W : ℕ → Ω → ({l : Fin K.responses.length // 0 < ent iv l} → ℝ) := fun k ω l => S (g, (l.1 : Nat), k) ω
  have hW : iIndepFun W P := by
    have h1 : iIndepFun (fun r : {l : Fin K.responses.length // 0 < ent iv l} × ℕ => S (g, (r.1.1 : Nat), r.2)) P :=
      hS4.precomp (g := fun r : {l : Fin K.responses.length // 0 < ent iv l} × ℕ => (g, (r.1.1 : Nat), r.2)) (by
        rintro ⟨⟨a, _⟩, k⟩ ⟨⟨b, _⟩, k'⟩ h
        simp only [Prod.mk.injEq, true_and] at h
        obtain ⟨h1, rfl⟩ := h
        have := Fin.ext h1
        subst this
        rfl)
    exact blocks_indep h1 (fun r => (hlaw r.1 r.2).aemeasurable) (fun _ w => w) (fun _ => measurable_id)
  have hWl : ∀ k, HasLaw (W k) (fluxLaw K.abCls K.responses.length m iv) P := by
    intro k
    refine iIndepFun.hasLaw_pi (fun l => hlaw l k) (hS4.precomp (g := fun l : {l : Fin K.responses.length // 0 < ent iv l} => (g, (l.1 : Nat), k)) ?_)
    rintro ⟨a, _⟩ ⟨b, _⟩ h
    simp only [Prod.mk.injEq, true_and, and_true] at h
    have := Fin.ext h
    subst this
    rfl
  refine ⟨W, cf, c, mf, hW, hWl, c1, c2, c3, c4, c5, fun ω mc h0 => ⟨(hc ω mc h0).1, fun k hkm => ⟨?_, fun l => hmag ω mc _ k l.1.2 hkm⟩⟩⟩
  obtain ⟨c', h1, h2⟩ := C49_optimal nnls hok K.toFitter.plain (Or.inl rfl) A (ready_plain hR) z hz _ _ (by simp [Fitter.plain]) (by rw [abIv_length]; exact hivl)
    (abIv_nonneg _ _ hip) _ _ ((hc ω mc (by omega)).2 k hkm)
  rw [optimal_plain] at h2
  have h3 := c5 (W k ω) _ (by simp [Fitter.plain]) (fun l => by
    have hl : (l.1 : Nat) < K.responses.length := l.1.2
    rw [List.getElem?_map, List.getElem?_range hl, Option.map_some, hmag ω mc _ k hl hkm]) c' h2
  simp only [NDA.vec, FitOut.mk.injEq, NDA.arr.injEq, List.cons.injEq, and_true] at h1
  exact h1.2.2.trans h3

/-- C220: fit a table of galaxies with more and more Monte Carlo samples, compute the absolute magnitudes of the samples and take their documented errors.  Let the deviates be
independent and standard normal, and let the bands with a positive inverse variance of a galaxy tell the templates apart.  Then the K-correction of the best fit is a function
`κ` of the fluxes in these bands, and the error in such a band tends, with probability one, to the standard deviation of magnitude minus K-correction, given a positive flux.  The
fluxes are independent and normal, with the AB corrected maggies of the galaxy as means and the inverses of the AB corrected ivars as variances. -/
theorem C220_fit {Ω : Type} [MeasurableSpace Ω] (P : Measure Ω) (noise : Ω → Nat → Nat → Nat → ℝ) (hdev : Deviates P noise) (nnls : Nnls ℝ) (hok : NNLSOK nnls)
    (K : Kc ℝ) (hr : AbReady K.abCls K.responses.length) (hnb : K.responses.length ≠ 1) (A Ao : AMat ℝ) (hR : Ready K.toFitter A) (hAo : K.AmatrixOut = some Ao) (hG : Ao.Good)
    (hn : Ao.nrow = K.responses.length) (him : K.imap.length = Ao.nrow) (hs : 0 < K.templates.nsed) (zs : List ℝ) (ms ivs : List (List ℝ)) (hl : zs.length ≠ 1)
    (hm : ms.length = zs.length) (hiv : ivs.length = zs.length) (hmr : ∀ r ∈ ms, r.length = K.responses.length) (hivr : ∀ r ∈ ivs, r.length = K.responses.length)
    (hpos : ∀ r ∈ ivs, ∀ v ∈ r, 0 ≤ v) (bs : ℝ) (dist : Option (List ℝ)) (hd : ∀ ds ∈ dist, ds.length = zs.length ∧ ∀ d ∈ ds, 0 < d) (out : Ω → Nat → FitOut ℝ)
    (hfit : ∀ ω mc, 0 < mc → K.toFitter.fitCoeffs nnls (some (.vec zs)) (some (.arr [zs.length] K.responses.length ms)) (some (.arr [zs.length] K.responses.length ivs)) mc
      (noise ω) = .ok (out ω mc))
    (x : Ω → Nat → NDA ℝ) (hx : ∀ ω mc cm mm, 0 < mc → (out ω mc).mc = some (cm, mm) →
      K.absmagMc mm (some (.arr [zs.length] K.responses.length ivs)) (some (.vec zs)) cm bs (dist.map .vec) false false = .ok (.one (x ω mc)))
    (g j : Nat) (z : ℝ) (m iv : List ℝ) (hg : zs[g]? = some z) (hgm : ms[g]? = some m) (hgi : ivs[g]? = some iv) (hz : InRange A.x z) (hind : Indep K.toFitter z iv)
    (q : {l : Fin K.responses.length // 0 < ent iv l}) (hj : K.imap[j]? = some (q.1 : Nat))
    (hflux : ∀ t < K.templates.nsed, ∃ a b fa fb, K.reconstruct (some (.scalar z)) (some (.vec (alone K.templates.nsed t))) 0 = .ok a ∧
      K.reconstructOut (some (.scalar 0)) (some (.vec (alone K.templates.nsed t))) bs = .ok b ∧ entry a 0 q.1 = some fa ∧ entry b 0 j = some fb ∧ 0 < fa ∧ 0 < fb) :
    ∃ κ : ({l : Fin K.responses.length // 0 < ent iv l} → ℝ) → ℝ,
      (∀ (w : {l : Fin K.responses.length // 0 < ent iv l} → ℝ) (d c : List ℝ), d.length = K.responses.length → (∀ l : {l : Fin K.responses.length // 0 < ent iv l}, d[(l.1 : Nat)]? = some (w l)) →
        Optimal K.toFitter z d (abIv K.abCls iv) c → ∃ kc, K.kcorrect (some (.scalar z)) (some (.vec c)) bs = .ok kc ∧ entry kc 0 j = some (κ w)) ∧
      (∀ w : {l : Fin K.responses.length // 0 < ent iv l} → ℝ, ∃ d c : List ℝ, d.length = K.responses.length ∧ (∀ l : {l : Fin K.responses.length // 0 < ent iv l}, d[(l.1 : Nat)]? = some (w l)) ∧
        Optimal K.toFitter z d (abIv K.abCls iv) c) ∧
      ∀ᵐ ω ∂P, Tendsto (fun mc => ((mcErrors (x ω mc))[g * K.responses.length + j]?).getD 0) atTop
        (𝓝 (condSd (fluxLaw K.abCls K.responses.length m iv) {w | 0 < w q} (fun w => mag (w q) - κ w))) := by
  obtain ⟨W, cf, c, mf, hW, hWl, c1, c2, c3, c4, c5, hc⟩ := sample_fits P noise hdev nnls hok K hr hnb A hR zs ms ivs hl hm hiv hmr hivr hpos out hfit g z m iv hg hgm hgi hz hind
  have hgl : g < zs.length := (List.getElem?_eq_some_iff.mp hg).1
  have hie : iv[(q.1 : Nat)]? = some (ent iv q.1) := by
    have h1 : (q.1 : Nat) < iv.length := by rw [hivr iv (List.mem_of_getElem? hgi)]; exact q.1.2
    rw [List.getElem?_eq_getElem h1, ent_some h1]
  obtain ⟨kf, B, k1, k2, k3, k4⟩ := kcorrect_fn K A Ao hR hAo z bs hz hs j q.1 hj hflux
  refine ⟨fun w => kf (cf w), ?_, fun w => ?_, ?_⟩
  · intro w d c h1 h2 h3
    rw [c5 w d h1 h2 c h3]
    exact k4 (cf w) (c2 w)
  · obtain ⟨d, h1, h2, h3⟩ := c4 w
    exact ⟨d, _, h1, h2, h3⟩
  have hmm : Measurable mag := by
    unfold mag Real.logb
    fun_prop
  have hκ : Measurable (fun w => kf (cf w)) := k1.comp c1.measurable
  have hmag : ∀ ω mc k, k < mc → mf ω mc g q.1 k = W k ω q := fun ω mc k hkm => ((hc ω mc (by omega)).2 k hkm).2 q
  have hk : ∀ ω mc k, k < mc → ∃ kc, K.kcorrect (some (.scalar z)) (some (.vec ((List.range K.templates.nsed).map (fun t => c ω mc g t k)))) bs = .ok kc ∧
      entry kc 0 j = some (kf (cf (W k ω))) := by
    intro ω mc k hkm
    rw [((hc ω mc (by omega)).2 k hkm).1]
    exact k4 _ (c2 _)
  refine C218_limit P W hW _ hWl (fun w => w q) (fun w => kf (cf w)) (measurable_pi_apply q) hκ B (fun w => k2 _ (c2 w)) _ _ (flux_var _ _ _ q)
    ((measurePreserving_eval (fun l : {l : Fin K.responses.length // 0 < ent iv l} =>
      gaussianReal (ent m l.1 * abFactor K.abCls l.1) (Real.toNNReal (abFactor K.abCls l.1 ^ 2 / ent iv l.1))) q).hasLaw) K hr A Ao hR.set hAo hG hn him mf c zs (by intro h; rw [h] at hgl; simp at hgl) ivs hiv hivr bs dist hd x
    (fun ω mc h0 => hx ω mc _ _ h0 (hc ω mc h0).1) g j q.1 z _ iv hg hgi hj hie q.2 hmag (fun ω mc k hkm _ => hk ω mc k hkm) ?_
  have hnull : ∀ᵐ ω ∂P, ∀ k, ¬ (0 < W k ω q ∧ mag (W k ω q) - kf (cf (W k ω)) = -9999 - (abOffset K.abCls q.1 - dmSpec K.distmod z (dist.map (fun ds => ent ds g)))) := by
    rw [ae_all_iff]
    intro k
    have hN : MeasurableSet {w : {l : Fin K.responses.length // 0 < ent iv l} → ℝ | 0 < w q ∧
        mag (w q) - kf (cf w) = -9999 - (abOffset K.abCls q.1 - dmSpec K.distmod z (dist.map (fun ds => ent ds g)))} :=
      (measurableSet_lt measurable_const (measurable_pi_apply q)).inter (measurableSet_eq_fun ((hmm.comp (measurable_pi_apply q)).sub hκ) measurable_const)
    have h0 := gauss_null (fun l : {l : Fin K.responses.length // 0 < ent iv l} => ent m l.1 * abFactor K.abCls l.1) _ (flux_var K.abCls _ _) _ (rays_null _ hN (by
      rintro w ⟨w1, w2⟩ s hs0 hs1 ⟨_, w4⟩
      have e1 : kf (cf (s • w)) = kf (cf w) := (congrArg kf (c3 w s hs0)).trans (k3 _ (c2 w) s hs0)
      replace w4 := (congrArg (fun y => mag (s * w q) - y) e1).symm.trans (w4.trans w2.symm)
      unfold mag at w4
      rw [Real.logb_mul hs0.ne' w1.ne'] at w4
      have h1 : Real.logb 10 s = 0 := by linarith
      rw [Real.logb_eq_zero] at h1
      rcases h1 with h | h | h | h | h | h <;> first | linarith | exact hs1 h))
    change fluxLaw K.abCls K.responses.length m iv _ = 0 at h0
    rw [← (hWl k).map_eq] at h0
    exact ae_of_ae_map (hWl k).aemeasurable (p := fun w => ¬ (0 < w q ∧ mag (w q) - kf (cf w) = _)) (by
      rw [ae_iff]
      simpa only [not_not] using h0)
  filter_upwards [hnull] with ω hω mc k hkm hp0 he
  obtain ⟨kc, kv, b1, b2, _, b3⟩ := mc_entries K hr A Ao hR.set hAo hG hn him mc (mf ω mc) (c ω mc) zs (by intro h; rw [h] at hgl; simp at hgl) ivs hiv hivr bs dist hd (x ω mc)
    (hx ω mc _ _ (by omega) (hc ω mc (by omega)).1) g j q.1 z _ iv hg hgi hj hie q.2 k hkm
  obtain ⟨kc', d1, d2⟩ := hk ω mc k hkm
  rw [b1] at d1
  cases d1
  rw [b2] at d2
  rw [he, hmag ω mc k hkm, if_pos hp0, Option.some.inj d2] at b3
  have e := Option.some.inj b3
  refine hω k ⟨hp0, ?_⟩
  linarith

/-! ### Not vacuous -/

/-- at redshift 2 each template has flux in the second band, and the K-corrections of the templates differ (C175) -/
theorem demo_alone_flux : ∀ t < demoKc2.templates.nsed, ∃ a b fa fb, demoKc2.reconstruct (some (.scalar 2)) (some (.vec (alone demoKc2.templates.nsed t))) 0 = .ok a ∧
    demoKc2.reconstructOut (some (.scalar 0)) (some (.vec (alone demoKc2.templates.nsed t))) 0 = .ok b ∧ entry a 0 1 = some fa ∧ entry b 0 1 = some fb ∧ 0 < fa ∧ 0 < fb := by
  have h0 : demoAm2.at 0 = .ok [[1, 2], [3, 1]] := at_node (k := 0) demo_ready.good (by simp [demoAm2])
  have hx : ∀ c : List ℝ, c.length = 2 → demoKc2.reconstruct (some (.scalar 2)) (some (.vec c)) 0 = .ok (.arr [] 2 [reconRow 0 [[1, 2], [3 / 2, 3 / 2]] c]) := by
    intro c hc
    refine (recon_real demoKc2.toFitter demoAm2 2 c 0 hc).trans ?_
    rw [show ((1 : ℝ) + 2) * (1 + 0) - 1 = 2 by norm_num, demoAm2_at2]
    rfl
  have hy : ∀ c : List ℝ, c.length = 2 → demoKc2.reconstructOut (some (.scalar 0)) (some (.vec c)) 0 = .ok (.arr [] 2 [reconRow 0 [[1, 2], [3, 1]] c]) := by
    intro c hc
    refine (recon_real demoKc2.toFitter demoAm2 0 c 0 hc).trans ?_
    rw [show ((1 : ℝ) + 0) * (1 + 0) - 1 = 0 by norm_num, h0]
    rfl
  have e : demoKc2.templates.nsed = 2 := rfl
  rw [e]
  intro t ht
  interval_cases t
  · rw [alone_two.1]
    exact ⟨_, _, 3 / 2, 3, hx _ rfl, hy _ rfl, by simp [entry, reconRow, dot, sumL_real], by simp [entry, reconRow, dot, sumL_real], by norm_num, by norm_num⟩
  · rw [alone_two.2]
    exact ⟨_, _, 3 / 2, 1, hx _ rfl, hy _ rfl, by simp [entry, reconRow, dot, sumL_real], by simp [entry, reconRow, dot, sumL_real], by norm_num, by norm_num⟩

theorem demo_ms : ∀ r ∈ [[(3 : ℝ), 3], [3, 3]], r.length = demoKc2.responses.length := by intro r h; fin_cases h <;> rfl

theorem demo_ivs : ∀ r ∈ [[(1 : ℝ), 1 / 2], [1, 1 / 2]], r.length = demoKc2.responses.length := by intro r h; fin_cases h <;> rfl

theorem demo_ivs_pos : ∀ r ∈ [[(1 : ℝ), 1 / 2], [1, 1 / 2]], ∀ v ∈ r, 0 ≤ v := by
  intro r h v hv
  simp only [List.mem_cons, List.not_mem_nil, or_false, or_self] at h
  subst h
  simp only [List.mem_cons, List.not_mem_nil, or_false] at hv
  rcases hv with rfl | rfl <;> norm_num

/-- fits of two galaxies at redshift 2 with Monte Carlo samples, and the absolute magnitudes of the samples -/
theorem demo_draws {Ω : Type} (noise : Ω → Nat → Nat → Nat → ℝ) : ∃ (out : Ω → Nat → FitOut ℝ) (x : Ω → Nat → NDA ℝ),
    (∀ ω mc, 0 < mc → demoKc2.toFitter.fitCoeffs (lhNnls 0) (some (.vec [2, 2])) (some (.arr [2] 2 [[3, 3], [3, 3]])) (some (.arr [2] 2 [[1, 1 / 2], [1, 1 / 2]])) mc
      (noise ω) = .ok (out ω mc)) ∧
    ∀ ω mc cm mm, 0 < mc → (out ω mc).mc = some (cm, mm) →
      demoKc2.absmagMc mm (some (.arr [2] 2 [[1, 1 / 2], [1, 1 / 2]])) (some (.vec [2, 2])) cm 0 none false false = .ok (.one (x ω mc)) := by
  have hlen : NnlsLen (lhNnls 0) := C184_contract.len
  obtain ⟨_, hrd, hin, hind, _⟩ := demo_used
  have hmr := demo_ms
  have hivr := demo_ivs
  have hpos := demo_ivs_pos
  have hf : ∀ ω mc, ∃ out, 0 < mc → demoKc2.toFitter.fitCoeffs (lhNnls 0) (some (.vec [2, 2])) (some (.arr [2] 2 [[3, 3], [3, 3]])) (some (.arr [2] 2 [[1, 1 / 2], [1, 1 / 2]])) mc
      (noise ω) = .ok out := by
    intro ω mc
    by_cases h0 : 0 < mc
    · obtain ⟨out, h⟩ := (C52_batch_partial (lhNnls 0) hlen demoKc2.toFitter (Or.inl rfl) (by decide) [2, 2] [[3, 3], [3, 3]] [[1, 1 / 2], [1, 1 / 2]] (by simp) rfl rfl hmr hivr mc (noise ω)).1.mpr (by
        intro k hk
        have hz : InRange demoAm2.x (ent [(2 : ℝ), 2] k) := by
          have : ent [(2 : ℝ), 2] k = 2 := by
            have hk2 : k < 2 := hk
            interval_cases k <;> rfl
          rw [this]
          exact hin
        obtain ⟨c, cm, mm, h⟩ := C184_mc demoKc2.toFitter (by decide) (Or.inl rfl) (by decide) demoAm2 demo_ready (ent [2, 2] k) hz ([[3, 3], [3, 3]].getD k []) ([[1, 1 / 2], [1, 1 / 2]].getD k [])
          (by rw [getD_lt (by simpa using hk)]; exact hmr _ (List.getElem_mem _)) (by rw [getD_lt (by simpa using hk)]; exact hivr _ (List.getElem_mem _)) mc h0 (fun _ => noise ω k)
        exact ⟨_, h⟩)
      exact ⟨out, fun _ => h⟩
    · exact ⟨⟨.scalar 0, none⟩, fun h => absurd h h0⟩
  choose out hout using hf
  have hx : ∀ ω mc, ∃ x, ∀ cm mm, 0 < mc → (out ω mc).mc = some (cm, mm) →
      demoKc2.absmagMc mm (some (.arr [2] 2 [[1, 1 / 2], [1, 1 / 2]])) (some (.vec [2, 2])) cm 0 none false false = .ok (.one x) := by
    intro ω mc
    by_cases h0 : 0 < mc
    · obtain ⟨c, m, hcm, _⟩ := fit_cubes (lhNnls 0) hlen demoKc2.toFitter trivial (by decide) demoAm2 rfl [2, 2] [[3, 3], [3, 3]] [[1, 1 / 2], [1, 1 / 2]] (by simp) rfl rfl hmr hivr hpos mc h0 (noise ω) _ (hout ω mc h0)
      obtain ⟨ret, hret⟩ := (C75_table_partial demoKc2 trivial demoAm2 demoAm2 rfl rfl demo_ready.good rfl rfl mc m c [2, 2] (by simp) [[1, 1 / 2], [1, 1 / 2]] rfl hivr 0 none (by simp) false false).1.mpr (by
        intro g k z iv hg hiv hk
        have hz : z = 2 := by have := List.mem_of_getElem? hg; simpa using this
        subst hz
        obtain ⟨kc, hkc⟩ : ∃ kc, demoKc2.kcorrect (some (.scalar 2)) (some (.vec ((List.range demoKc2.templates.nsed).map (fun t => c g t k)))) 0 = .ok kc := by
          rw [kcorrect_real (K := demoKc2) (A := demoAm2) (Ao := demoAm2) rfl rfl 2 _ (by rw [List.length_map, List.length_range])]
          unfold kReal
          rw [demoAm2_at0', demoAm2_at2]
          exact ⟨_, rfl⟩
        obtain ⟨a, ha⟩ := (C70_corrected_partial demoKc2 trivial demoAm2 demoAm2 rfl rfl 2 ((List.range demoKc2.responses.length).map (fun j => m g j k)) iv
          ((List.range demoKc2.templates.nsed).map (fun t => c g t k)) (by simp) (hivr iv (List.mem_of_getElem? hiv)) (by simp) 0 none (by simp)).1.mpr ⟨_, hkc⟩
        exact ⟨_, ha⟩)
      obtain ⟨x, rfl⟩ := absmagMc_single _ _ _ _ _ _ _ _ hret
      refine ⟨x, fun cm mm _ h => ?_⟩
      rw [hcm] at h
      cases h
      exact hret
    · exact ⟨.scalar 0, fun _ _ h => absurd h h0⟩
  choose x hx using hx
  exact ⟨out, x, hout, hx⟩

/-- two galaxies at redshift 2, fitted with the solver of C184: every hypothesis of C220 holds -/
example : ∃ (Ω : Type) (_ : MeasurableSpace Ω) (P : Measure Ω) (x : Ω → Nat → NDA ℝ) (L : ℝ), IsProbabilityMeasure P ∧
    ∀ᵐ ω ∂P, Tendsto (fun mc => ((mcErrors (x ω mc))[1]?).getD 0) atTop (𝓝 L) := by
  have hdev := deviates_exist
  generalize (fun (ω : ℕ × ℕ × ℕ → ℝ) i k p => ω (i, k, p)) = noise at hdev
  generalize Measure.infinitePi (fun _ : ℕ × ℕ × ℕ => gaussianReal 0 1) = P at hdev
  have hP : IsProbabilityMeasure P := hdev.indep.isProbabilityMeasure
  obtain ⟨_, hrd, hin, hind, _⟩ := demo_used
  obtain ⟨out, x, hout, hx⟩ := demo_draws noise
  obtain ⟨κ, _, _, h⟩ := C220_fit P noise hdev (lhNnls 0) C184_contract demoKc2 trivial (by decide) demoAm2 demoAm2 hrd rfl demo_ready.good rfl rfl (by decide) [2, 2] [[3, 3], [3, 3]]
    [[1, 1 / 2], [1, 1 / 2]] (by simp) rfl rfl demo_ms demo_ivs demo_ivs_pos 0 none (by simp) out hout x (fun ω mc cm mm h1 h2 => hx ω mc cm mm h1 h2) 0 1 2 [3, 3] [1, 1 / 2] rfl rfl rfl hin hind
    ⟨⟨1, by decide⟩, by simp [ent]⟩ rfl demo_alone_flux
  exact ⟨_, _, P, x, _, hP, h⟩

end KC
