import Mathlib.Analysis.Normed.Module.FiniteDimension
import Verif.Lemmas.ChiCont

/-!
# The coefficients that minimise a sum of squares whose matrix, weights and data depend on a parameter (for C200)
-/

namespace KC

open Topology

variable {X : Type} [TopologicalSpace X] {J N : Nat}

/-- The sum of squares is continuous in the parameter and the coefficients together. -/
theorem chiAt_joint {a : Fin J → Fin N → X → ℝ} {w m : Fin J → X → ℝ} (ha : ∀ j t, Continuous (a j t)) (hw : ∀ j, Continuous (w j)) (hm : ∀ j, Continuous (m j)) :
    Continuous (fun q : X × (Fin N → ℝ) => chiAt a (fun j => w j q.1) (fun j => m j q.1) q.1 q.2) := by
  simp only [chiAt_def]
  refine continuous_finsetSum _ (fun j _ => ((hw j).comp continuous_fst).mul ((Continuous.sub ((hm j).comp continuous_fst) ?_).pow 2))
  exact continuous_finsetSum _ (fun t _ => ((ha j t).comp continuous_fst).mul ((continuous_apply t).comp continuous_snd))

/-- The weighted sum of squares of the model. -/
noncomputable def sizeAt (a : Fin J → Fin N → X → ℝ) (w : Fin J → X → ℝ) (p : X) (c : Fin N → ℝ) : ℝ := ∑ j, w j p * (∑ t, a j t p * c t) ^ 2

theorem sizeAt_joint {a : Fin J → Fin N → X → ℝ} {w : Fin J → X → ℝ} (ha : ∀ j t, Continuous (a j t)) (hw : ∀ j, Continuous (w j)) :
    Continuous (fun q : X × (Fin N → ℝ) => sizeAt a w q.1 q.2) := by
  unfold sizeAt
  refine continuous_finsetSum _ (fun j _ => ((hw j).comp continuous_fst).mul (Continuous.pow ?_ 2))
  exact continuous_finsetSum _ (fun t _ => ((ha j t).comp continuous_fst).mul ((continuous_apply t).comp continuous_snd))

omit [TopologicalSpace X] in
theorem sizeAt_smul (a : Fin J → Fin N → X → ℝ) (w : Fin J → X → ℝ) (p : X) (s : ℝ) (c : Fin N → ℝ) : sizeAt a w p (s • c) = s ^ 2 * sizeAt a w p c := by
  unfold sizeAt
  rw [Finset.mul_sum]
  refine Finset.sum_congr rfl (fun j _ => ?_)
  have : ∑ t, a j t p * (s • c) t = s * ∑ t, a j t p * c t := by
    rw [Finset.mul_sum]
    exact Finset.sum_congr rfl (fun t _ => by simp only [Pi.smul_apply, smul_eq_mul]; ring)
  rw [this]; ring

omit [TopologicalSpace X] in
theorem sizeAt_le {a : Fin J → Fin N → X → ℝ} {w : Fin J → X → ℝ} (m : Fin J → X → ℝ) {p : X} (hw : ∀ j, 0 ≤ w j p) (c : Fin N → ℝ) :
    sizeAt a w p c ≤ 2 * chiAt a (fun j => w j p) (fun j => m j p) p c + 2 * chiAt a (fun j => w j p) (fun j => m j p) p 0 := by
  simp only [chiAt_def, sizeAt, Finset.mul_sum]
  rw [← Finset.sum_add_distrib]
  refine Finset.sum_le_sum (fun j _ => ?_)
  simp only [Pi.zero_apply, mul_zero, Finset.sum_const_zero, sub_zero]
  generalize ∑ t, a j t p * c t = y
  have h := hw j
  nlinarith [mul_nonneg h (sq_nonneg (y - 2 * m j p))]

/-- Near a parameter at which the weighted bands tell the coefficients apart, the coefficients that fit at least as well as zero ones are bounded. -/
theorem chiAt_coercive {a : Fin J → Fin N → X → ℝ} {w m : Fin J → X → ℝ} (ha : ∀ j t, Continuous (a j t)) (hw : ∀ j, Continuous (w j)) (hm : ∀ j, Continuous (m j))
    (hn : ∀ j p, 0 ≤ w j p) (p0 : X) (hi : ∀ c : Fin N → ℝ, (∀ j, 0 < w j p0 → ∑ t, a j t p0 * c t = 0) → c = 0) :
    ∃ B, ∀ᶠ p in 𝓝 p0, ∀ c : Fin N → ℝ, chiAt a (fun j => w j p) (fun j => m j p) p c ≤ chiAt a (fun j => w j p) (fun j => m j p) p 0 → ‖c‖ ≤ B := by
  have hS : IsCompact (Metric.sphere (0 : Fin N → ℝ) 1) := isCompact_sphere _ _
  rcases (Metric.sphere (0 : Fin N → ℝ) 1).eq_empty_or_nonempty with he | hne
  · refine ⟨0, Filter.Eventually.of_forall (fun p c _ => ?_)⟩
    by_contra h
    have h0 : 0 < ‖c‖ := not_le.mp h
    have : ‖c‖⁻¹ • c ∈ Metric.sphere (0 : Fin N → ℝ) 1 := by
      simp [norm_smul, h0.ne']
    rw [he] at this
    exact this
  have hpos : ∀ c ∈ Metric.sphere (0 : Fin N → ℝ) 1, 0 < sizeAt a w p0 c := by
    intro c hc
    have h0 : 0 ≤ sizeAt a w p0 c := Finset.sum_nonneg (fun j _ => mul_nonneg (hn j p0) (sq_nonneg _))
    rcases h0.lt_or_eq with h | h
    · exact h
    · exfalso
      have hz := (Finset.sum_eq_zero_iff_of_nonneg (fun j _ => mul_nonneg (hn j p0) (sq_nonneg _))).mp h.symm
      have : c = 0 := hi c (fun j hj => by
        have := hz j (Finset.mem_univ j)
        rcases mul_eq_zero.mp this with q | q
        · exact absurd q hj.ne'
        · exact pow_eq_zero_iff (two_ne_zero) |>.mp q)
      rw [this] at hc
      simp at hc
  have cont0 : Continuous (fun c : Fin N → ℝ => sizeAt a w p0 c) := (sizeAt_joint ha hw).comp (Continuous.prodMk continuous_const continuous_id)
  obtain ⟨c1, m1, m2⟩ := hS.exists_isMinOn hne cont0.continuousOn
  have hμ := hpos c1 m1
  have e1 : ∀ᶠ p in 𝓝 p0, ∀ c ∈ Metric.sphere (0 : Fin N → ℝ) 1, sizeAt a w p0 c1 / 2 < sizeAt a w p c := by
    refine hS.eventually_forall_of_forall_eventually (P := fun p c => sizeAt a w p0 c1 / 2 < sizeAt a w p c) (fun c hc => ?_)
    refine (sizeAt_joint ha hw).continuousAt.eventually_const_lt ?_
    have : sizeAt a w p0 c1 ≤ sizeAt a w p0 c := m2 hc
    show sizeAt a w p0 c1 / 2 < sizeAt a w p0 c
    linarith
  have cz : Continuous (fun p : X => chiAt a (fun j => w j p) (fun j => m j p) p 0) := (chiAt_joint ha hw hm).comp (Continuous.prodMk continuous_id continuous_const)
  have e2 := cz.continuousAt.eventually_lt_const (lt_add_one (chiAt a (fun j => w j p0) (fun j => m j p0) p0 0))
  generalize chiAt a (fun j => w j p0) (fun j => m j p0) p0 0 + 1 = C at e2
  generalize sizeAt a w p0 c1 = μ at *
  refine ⟨4 * C / (μ / 2) + 1, ?_⟩
  filter_upwards [e1, e2] with p h1 h2 c hc
  rcases (norm_nonneg c).eq_or_lt with h0 | h0
  · have : 0 ≤ chiAt a (fun j => w j p) (fun j => m j p) p 0 := by
      rw [chiAt_def]; exact Finset.sum_nonneg (fun j _ => mul_nonneg (hn j p) (sq_nonneg _))
    rw [← h0]
    have : 0 ≤ C := this.trans h2.le
    positivity
  · have h3 := h1 (‖c‖⁻¹ • c) (by simp [norm_smul, h0.ne'])
    rw [sizeAt_smul] at h3
    have h4 := sizeAt_le m (hn · p) c (a := a)
    have h5 : μ / 2 * ‖c‖ ^ 2 < 4 * C := by
      have h6 : μ / 2 * ‖c‖ ^ 2 < (‖c‖⁻¹ ^ 2 * sizeAt a w p c) * ‖c‖ ^ 2 := mul_lt_mul_of_pos_right h3 (by positivity)
      have h7 : (‖c‖⁻¹ ^ 2 * sizeAt a w p c) * ‖c‖ ^ 2 = sizeAt a w p c := by field_simp
      linarith
    have h8 : ‖c‖ ^ 2 < 4 * C / (μ / 2) := by
      rw [lt_div_iff₀ (by linarith)]
      linarith
    nlinarith [sq_nonneg (‖c‖ - 1)]

/-- Near a parameter at which the weighted bands tell the coefficients apart, the best coefficients are close to those at the parameter. -/
theorem argmin_near {a : Fin J → Fin N → X → ℝ} {w m : Fin J → X → ℝ} (ha : ∀ j t, Continuous (a j t)) (hw : ∀ j, Continuous (w j)) (hm : ∀ j, Continuous (m j))
    (hn : ∀ j p, 0 ≤ w j p) (p0 : X) (hi : ∀ c : Fin N → ℝ, (∀ j, 0 < w j p0 → ∑ t, a j t p0 * c t = 0) → c = 0) (c0 : Fin N → ℝ) (h0 : ∀ t, 0 ≤ c0 t)
    (ho : ∀ y : Fin N → ℝ, (∀ t, 0 ≤ y t) → chiAt a (fun j => w j p0) (fun j => m j p0) p0 c0 ≤ chiAt a (fun j => w j p0) (fun j => m j p0) p0 y) {ε : ℝ} (hε : 0 < ε) :
    ∀ᶠ p in 𝓝 p0, ∀ c : Fin N → ℝ, (∀ t, 0 ≤ c t) →
      (∀ y : Fin N → ℝ, (∀ t, 0 ≤ y t) → chiAt a (fun j => w j p) (fun j => m j p) p c ≤ chiAt a (fun j => w j p) (fun j => m j p) p y) → dist c c0 < ε := by
  obtain ⟨B, hB⟩ := chiAt_coercive (m := m) ha hw hm hn p0 hi
  let K : Set (Fin N → ℝ) := Metric.closedBall 0 B ∩ ((⋂ t, {c | 0 ≤ c t}) ∩ {c | ε ≤ dist c c0})
  have hK : IsCompact K := by
    refine (isCompact_closedBall _ _).inter_right (IsClosed.inter ?_ ?_)
    · exact isClosed_iInter (fun t => isClosed_le continuous_const (continuous_apply t))
    · exact isClosed_le continuous_const (continuous_id.dist continuous_const)
  have hP : ∀ᶠ p in 𝓝 p0, ∀ c ∈ K, chiAt a (fun j => w j p) (fun j => m j p) p c0 < chiAt a (fun j => w j p) (fun j => m j p) p c := by
    refine hK.eventually_forall_of_forall_eventually (P := fun p c => chiAt a (fun j => w j p) (fun j => m j p) p c0 < chiAt a (fun j => w j p) (fun j => m j p) p c) ?_
    rintro c ⟨-, hc, hd⟩
    have hc' : ∀ t, 0 ≤ c t := fun t => Set.mem_iInter.mp hc t
    have hd' : ε ≤ dist c c0 := hd
    have j1 : Continuous (fun q : X × (Fin N → ℝ) => chiAt a (fun j => w j q.1) (fun j => m j q.1) q.1 c0) :=
      (chiAt_joint ha hw hm).comp (Continuous.prodMk continuous_fst continuous_const)
    refine j1.continuousAt.eventually_lt (chiAt_joint ha hw hm).continuousAt ?_
    show chiAt a (fun j => w j p0) (fun j => m j p0) p0 c0 < chiAt a (fun j => w j p0) (fun j => m j p0) p0 c
    refine lt_of_le_of_ne (ho c hc') (fun e => ?_)
    have hz : c - c0 = 0 := by
      apply hi
      intro j hj
      have h1 := chiAt_close (η := 0) (hn · p0) hc' h0 ho (by rw [add_zero, e]) j
      have h2 : (∑ t, a j t p0 * c t - ∑ t, a j t p0 * c0 t) ^ 2 ≤ 0 := by
        by_contra h
        have := mul_pos hj (not_le.mp h)
        simp only [mul_zero] at h1
        linarith
      have h3 : ∑ t, a j t p0 * c t - ∑ t, a j t p0 * c0 t = 0 := by nlinarith [sq_nonneg (∑ t, a j t p0 * c t - ∑ t, a j t p0 * c0 t)]
      rw [← h3, ← Finset.sum_sub_distrib]
      exact Finset.sum_congr rfl (fun t _ => by simp only [Pi.sub_apply]; ring)
    rw [sub_eq_zero.mp hz, dist_self] at hd'
    linarith
  filter_upwards [hB, hP] with p h1 h2 c hc hopt
  by_contra h
  have hin : c ∈ K := ⟨by simpa using h1 c (hopt 0 (fun _ => le_refl _)), Set.mem_iInter.mpr hc, not_lt.mp h⟩
  exact absurd (hopt c0 h0) (not_le.mpr (h2 c hin))

end KC
