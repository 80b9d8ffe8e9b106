import Mathlib.Algebra.BigOperators.Field
import Mathlib.Topology.Compactness.Compact
import Mathlib.Topology.Instances.Real.Lemmas
import Mathlib.Analysis.Normed.Group.Basic
import Mathlib.Tactic.Positivity
import Mathlib.Tactic.Linarith

/-!
# Minimum of a sum of squares whose matrix depends on a parameter (for C199)
-/

namespace KC

open Topology

variable {X : Type} [TopologicalSpace X] {J N : Nat}

/-- The weighted sum of squares of the model `c` at `z`. -/
noncomputable def chiAt (a : Fin J → Fin N → X → ℝ) (w m : Fin J → ℝ) (z : X) (c : Fin N → ℝ) : ℝ :=
  ∑ j, w j * (m j - ∑ t, a j t z * c t) ^ 2

theorem chiAt_continuous {a : Fin J → Fin N → X → ℝ} (ha : ∀ j t, Continuous (a j t)) (w m : Fin J → ℝ) :
    Continuous (fun p : X × (Fin N → ℝ) => chiAt a w m p.1 p.2) := by
  unfold chiAt
  refine continuous_finsetSum _ (fun j _ => continuous_const.mul ((continuous_const.sub ?_).pow 2))
  exact continuous_finsetSum _ (fun t _ => ((ha j t).comp continuous_fst).mul ((continuous_apply t).comp continuous_snd))

omit [TopologicalSpace X] in
theorem chiAt_def (a : Fin J → Fin N → X → ℝ) (w m : Fin J → ℝ) (z : X) (c : Fin N → ℝ) :
    chiAt a w m z c = ∑ j, w j * (m j - ∑ t, a j t z * c t) ^ 2 := rfl

attribute [irreducible] chiAt

/-- At a fixed model, a small change of the parameter changes the sum of squares little. -/
theorem chiAt_near {a : Fin J → Fin N → X → ℝ} (ha : ∀ j t, Continuous (a j t)) (w m : Fin J → ℝ) (z0 : X) (c : Fin N → ℝ) {ε : ℝ} (hε : 0 < ε) :
    ∀ᶠ z in 𝓝 z0, chiAt a w m z c < chiAt a w m z0 c + ε := by
  have e : Continuous (fun z : X => ((z, c) : X × (Fin N → ℝ))) := by fun_prop
  have h : Continuous (fun z => chiAt a w m z c) := by
    have h := chiAt_continuous ha w m
    exact h.comp e
  exact h.continuousAt.eventually_lt_const (by linarith)

/-- Models that fit at least as well as no model at all are bounded near `z0`, if every column has a positive entry of positive weight there. -/
theorem chiAt_bounded {a : Fin J → Fin N → X → ℝ} (ha : ∀ j t, Continuous (a j t)) {w m : Fin J → ℝ} (hw : ∀ j, 0 ≤ w j)
    (hn : ∀ j t z, 0 ≤ a j t z) (z0 : X) (hp : ∀ t, ∃ j, 0 < w j ∧ 0 < a j t z0) :
    ∃ B : Fin N → ℝ, ∀ᶠ z in 𝓝 z0, ∀ c : Fin N → ℝ, (∀ t, 0 ≤ c t) → chiAt a w m z c ≤ chiAt a w m z 0 → ∀ t, c t ≤ B t := by
  choose j hj hpos using hp
  let Q := ∑ j, w j * (m j) ^ 2
  refine ⟨fun t => (|m (j t)| + 1 + Q / w (j t)) / (a (j t) t z0 / 2), ?_⟩
  have ev : ∀ᶠ z in 𝓝 z0, ∀ t, a (j t) t z0 / 2 < a (j t) t z := by
    rw [Filter.eventually_all]
    intro t
    exact (ha (j t) t).continuousAt.eventually_const_lt (by linarith [hpos t])
  filter_upwards [ev] with z hz c hc hle t
  rw [le_div_iff₀ (by linarith [hpos t])]
  have hQ : chiAt a w m z 0 = Q := by simp [chiAt_def, Q]
  rw [hQ, chiAt_def] at hle
  set r := ∑ s, a (j t) s z * c s with hr
  have h1 : w (j t) * (m (j t) - r) ^ 2 ≤ Q :=
    le_trans (Finset.single_le_sum (f := fun j => w j * (m j - ∑ t, a j t z * c t) ^ 2) (fun j _ => mul_nonneg (hw j) (sq_nonneg _)) (Finset.mem_univ (j t))) hle
  have h2 : (m (j t) - r) ^ 2 ≤ Q / w (j t) := by
    rw [le_div_iff₀ (hj t)]; linarith
  have h3 : a (j t) t z * c t ≤ r :=
    Finset.single_le_sum (f := fun s => a (j t) s z * c s) (fun s _ => mul_nonneg (hn _ _ _) (hc s)) (Finset.mem_univ t)
  have h4 : r ≤ |m (j t)| + 1 + Q / w (j t) := by
    have := le_abs_self (m (j t))
    nlinarith [sq_nonneg (m (j t) - r + 1)]
  calc c t * (a (j t) t z0 / 2) ≤ c t * a (j t) t z := mul_le_mul_of_nonneg_left (hz t).le (hc t)
    _ = a (j t) t z * c t := mul_comm _ _
    _ ≤ _ := h3.trans h4

/-- Near `z0` a model that fits at least as well as no model fits nearly as well at `z0`. -/
theorem chiAt_back {a : Fin J → Fin N → X → ℝ} (ha : ∀ j t, Continuous (a j t)) {w m : Fin J → ℝ} (hw : ∀ j, 0 ≤ w j)
    (hn : ∀ j t z, 0 ≤ a j t z) (z0 : X) (hp : ∀ t, ∃ j, 0 < w j ∧ 0 < a j t z0) {ε : ℝ} (hε : 0 < ε) :
    ∀ᶠ z in 𝓝 z0, ∀ c : Fin N → ℝ, (∀ t, 0 ≤ c t) → chiAt a w m z c ≤ chiAt a w m z 0 → chiAt a w m z0 c < chiAt a w m z c + ε := by
  obtain ⟨B, hB⟩ := chiAt_bounded (m := m) ha hw hn z0 hp
  have hK : IsCompact (Set.pi Set.univ (fun t => Set.Icc 0 (B t))) := isCompact_univ_pi (fun t => isCompact_Icc)
  have hP : ∀ᶠ z in 𝓝 z0, ∀ c ∈ Set.pi Set.univ (fun t => Set.Icc 0 (B t)), chiAt a w m z0 c < chiAt a w m z c + ε := by
    refine hK.eventually_forall_of_forall_eventually (P := fun z c => chiAt a w m z0 c < chiAt a w m z c + ε) (fun c _ => ?_)
    have e : Continuous (fun p : X × (Fin N → ℝ) => ((z0, p.2) : X × (Fin N → ℝ))) := by fun_prop
    have h1 : Continuous (fun p : X × (Fin N → ℝ) => chiAt a w m z0 p.2) :=
      Continuous.comp (g := fun p : X × (Fin N → ℝ) => chiAt a w m p.1 p.2) (chiAt_continuous ha w m) e
    have h2 : Continuous (fun p : X × (Fin N → ℝ) => chiAt a w m p.1 p.2 + ε) := (chiAt_continuous ha w m).add continuous_const
    exact h1.continuousAt.eventually_lt h2.continuousAt (by simp only; linarith)
  filter_upwards [hB, hP] with z h1 h2 c hc hle
  exact h2 c (fun t _ => ⟨hc t, h1 c hc hle t⟩)

omit [TopologicalSpace X] in
/-- The sum of squares half-way between two models. -/
theorem chiAt_mid (a : Fin J → Fin N → X → ℝ) (w m : Fin J → ℝ) (z : X) (c d : Fin N → ℝ) :
    chiAt a w m z (fun t => (c t + d t) / 2) = (chiAt a w m z c + chiAt a w m z d) / 2 - (∑ j, w j * (∑ t, a j t z * c t - ∑ t, a j t z * d t) ^ 2) / 4 := by
  have e : ∀ j, ∑ t, a j t z * ((c t + d t) / 2) = (∑ t, a j t z * c t + ∑ t, a j t z * d t) / 2 := by
    intro j
    rw [← Finset.sum_add_distrib, Finset.sum_div]
    exact Finset.sum_congr rfl (fun t _ => by ring)
  simp only [chiAt_def, e]
  rw [← Finset.sum_add_distrib, Finset.sum_div, Finset.sum_div, ← Finset.sum_sub_distrib]
  exact Finset.sum_congr rfl (fun j _ => by ring)

omit [TopologicalSpace X] in
/-- A model that fits nearly as well as the best one predicts nearly the same in a band of positive weight. -/
theorem chiAt_close {a : Fin J → Fin N → X → ℝ} {w m : Fin J → ℝ} (hw : ∀ j, 0 ≤ w j) {z : X} {c d : Fin N → ℝ} {η : ℝ} (hc : ∀ t, 0 ≤ c t) (hd : ∀ t, 0 ≤ d t)
    (ho : ∀ y : Fin N → ℝ, (∀ t, 0 ≤ y t) → chiAt a w m z d ≤ chiAt a w m z y) (h : chiAt a w m z c ≤ chiAt a w m z d + η) (j : Fin J) :
    w j * (∑ t, a j t z * c t - ∑ t, a j t z * d t) ^ 2 ≤ 2 * η := by
  have h1 := ho (fun t => (c t + d t) / 2) (fun t => by have := hc t; have := hd t; linarith)
  rw [chiAt_mid] at h1
  have h2 : w j * (∑ t, a j t z * c t - ∑ t, a j t z * d t) ^ 2 ≤ ∑ j, w j * (∑ t, a j t z * c t - ∑ t, a j t z * d t) ^ 2 :=
    Finset.single_le_sum (f := fun j => w j * (∑ t, a j t z * c t - ∑ t, a j t z * d t) ^ 2) (fun j _ => mul_nonneg (hw j) (sq_nonneg _)) (Finset.mem_univ j)
  linarith

/-- Near `z0` the prediction of a model that fits at least as well as no model is close to its prediction at `z0`. -/
theorem model_back {a : Fin J → Fin N → X → ℝ} (ha : ∀ j t, Continuous (a j t)) {w m : Fin J → ℝ} (hw : ∀ j, 0 ≤ w j)
    (hn : ∀ j t z, 0 ≤ a j t z) (z0 : X) (hp : ∀ t, ∃ j, 0 < w j ∧ 0 < a j t z0) {ε : ℝ} (hε : 0 < ε) :
    ∀ᶠ z in 𝓝 z0, ∀ c : Fin N → ℝ, (∀ t, 0 ≤ c t) → chiAt a w m z c ≤ chiAt a w m z 0 → ∀ j, |∑ t, a j t z * c t - ∑ t, a j t z0 * c t| < ε := by
  obtain ⟨B, hB⟩ := chiAt_bounded (m := m) ha hw hn z0 hp
  have hK : IsCompact (Set.pi Set.univ (fun t => Set.Icc 0 (B t))) := isCompact_univ_pi (fun t => isCompact_Icc)
  have hP : ∀ᶠ z in 𝓝 z0, ∀ c ∈ Set.pi Set.univ (fun t => Set.Icc 0 (B t)), ∀ j, |∑ t, a j t z * c t - ∑ t, a j t z0 * c t| < ε := by
    refine hK.eventually_forall_of_forall_eventually (P := fun z c => ∀ j, |∑ t, a j t z * c t - ∑ t, a j t z0 * c t| < ε) (fun c _ => ?_)
    rw [Filter.eventually_all]
    intro j
    have h1 : Continuous (fun p : X × (Fin N → ℝ) => |∑ t, a j t p.1 * p.2 t - ∑ t, a j t z0 * p.2 t|) := by
      refine continuous_abs.comp (Continuous.sub ?_ ?_)
      · exact continuous_finsetSum _ (fun t _ => ((ha j t).comp continuous_fst).mul ((continuous_apply t).comp continuous_snd))
      · exact continuous_finsetSum _ (fun t _ => continuous_const.mul ((continuous_apply t).comp continuous_snd))
    exact h1.continuousAt.eventually_lt_const (by simpa using hε)
  filter_upwards [hB, hP] with z h1 h2 c hc hle
  exact h2 c (fun t _ => ⟨hc t, h1 c hc hle t⟩)

end KC
