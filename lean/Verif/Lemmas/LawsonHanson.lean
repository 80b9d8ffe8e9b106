import Verif.Model.Nnls
import Mathlib.LinearAlgebra.FiniteDimensional.Basic
import Mathlib.Data.Fintype.Powerset
import Mathlib.Tactic.Linarith
import Mathlib.Tactic.Ring
import Mathlib.Tactic.FieldSimp
import Mathlib.Tactic.Positivity

/-!
Correctness of the algorithm of Lawson and Hanson.
-/

namespace KC.LH
open Matrix

variable {m n : Nat} (A : Matrix (Fin m) (Fin n) ℝ) (b : Fin m → ℝ)

/-- sum of squared residuals -/
def ssq (x : Fin n → ℝ) : ℝ := (b - A *ᵥ x) ⬝ᵥ (b - A *ᵥ x)

/-- squared length of `A v` -/
def sq (v : Fin n → ℝ) : ℝ := (A *ᵥ v) ⬝ᵥ (A *ᵥ v)

theorem dot_self_nonneg {k : Nat} (u : Fin k → ℝ) : 0 ≤ u ⬝ᵥ u := Finset.sum_nonneg fun _ _ => mul_self_nonneg _

theorem dot_self_zero {k : Nat} {u : Fin k → ℝ} (h : u ⬝ᵥ u = 0) : u = 0 := by
  funext i
  have := (Finset.sum_eq_zero_iff_of_nonneg (fun i _ => mul_self_nonneg (u i))).mp h i (Finset.mem_univ i)
  exact mul_self_eq_zero.mp this

theorem sq_nonneg' (v : Fin n → ℝ) : 0 ≤ sq A v := dot_self_nonneg _

/-- `v` along the gradient -/
theorem dot_grad (x v : Fin n → ℝ) : v ⬝ᵥ grad A b x = (A *ᵥ v) ⬝ᵥ (b - A *ᵥ x) := by
  unfold grad
  rw [dotProduct_mulVec, vecMul_transpose]

theorem ssq_add (x v : Fin n → ℝ) : ssq A b (x + v) = ssq A b x - 2 * (v ⬝ᵥ grad A b x) + sq A v := by
  unfold ssq sq
  rw [dot_grad, mulVec_add, ← sub_sub, sub_dotProduct (b - A *ᵥ x) (A *ᵥ v), dotProduct_sub _ (b - A *ᵥ x) (A *ᵥ v), dotProduct_sub _ (b - A *ᵥ x) (A *ᵥ v),
    dotProduct_comm (b - A *ᵥ x) (A *ᵥ v)]
  ring

theorem grad_add (x v : Fin n → ℝ) : grad A b (x + v) = grad A b x - Aᵀ *ᵥ (A *ᵥ v) := by
  unfold grad
  rw [mulVec_add, ← sub_sub, mulVec_sub]

variable {A b}

/-- the gradient at a solution on `P` is orthogonal to everything supported on `P` -/
theorem IsLS.dot {P : Finset (Fin n)} {s v : Fin n → ℝ} (h : IsLS A b P s) (hv : ∀ j ∉ P, v j = 0) : v ⬝ᵥ grad A b s = 0 := by
  refine Finset.sum_eq_zero fun j _ => ?_
  by_cases hj : j ∈ P
  · rw [h.2 j hj, mul_zero]
  · rw [hv j hj, zero_mul]

theorem IsLS.ssq_eq {P : Finset (Fin n)} {s y : Fin n → ℝ} (h : IsLS A b P s) (hy : ∀ j ∉ P, y j = 0) : ssq A b y = ssq A b s + sq A (y - s) := by
  have := ssq_add A b s (y - s)
  rw [h.dot (v := y - s) (fun j hj => by simp [hy j hj, h.1 j hj])] at this
  rw [show s + (y - s) = y by abel] at this
  linarith

theorem IsLS.le {P : Finset (Fin n)} {s y : Fin n → ℝ} (h : IsLS A b P s) (hy : ∀ j ∉ P, y j = 0) : ssq A b s ≤ ssq A b y := by
  rw [h.ssq_eq hy]
  have := sq_nonneg' A (y - s)
  linarith

variable (A) in
/-- the columns in `P` are linearly independent -/
def Indep (P : Finset (Fin n)) : Prop := ∀ v : Fin n → ℝ, (∀ j ∉ P, v j = 0) → A *ᵥ v = 0 → v = 0

theorem Indep.mono {P Q : Finset (Fin n)} (h : Indep A P) (hQ : Q ⊆ P) : Indep A Q :=
  fun v hv => h v fun j hj => hv j fun hq => hj (hQ hq)

theorem Indep.empty : Indep A ∅ := fun v hv _ => funext fun j => hv j (by simp)

theorem sq_zero {v : Fin n → ℝ} (h : sq A v = 0) : A *ᵥ v = 0 := dot_self_zero h

/-- for independent columns the normal equations have a solution -/
theorem Indep.exists_ls {P : Finset (Fin n)} (h : Indep A P) : ∃ s, IsLS A b P s := by
  classical
  let ext : (P → ℝ) →ₗ[ℝ] (Fin n → ℝ) :=
    { toFun := fun u j => if hj : j ∈ P then u ⟨j, hj⟩ else 0
      map_add' := by intro u v; funext j; by_cases hj : j ∈ P <;> simp [hj]
      map_smul' := by intro c u; funext j; by_cases hj : j ∈ P <;> simp [hj] }
  let T : (P → ℝ) →ₗ[ℝ] (P → ℝ) :=
    { toFun := fun u j => (Aᵀ *ᵥ (A *ᵥ ext u)) j
      map_add' := by intro u v; funext j; simp [mulVec_add]
      map_smul' := by intro c u; funext j; simp [mulVec_smul] }
  have hinj : Function.Injective T := by
    rw [injective_iff_map_eq_zero]
    intro u hu
    have h0 : sq A (ext u) = 0 := by
      unfold sq
      have e : (A *ᵥ ext u) ⬝ᵥ (A *ᵥ ext u) = ext u ⬝ᵥ (Aᵀ *ᵥ (A *ᵥ ext u)) := by
        rw [dotProduct_mulVec (ext u), vecMul_transpose]
      rw [e]
      refine Finset.sum_eq_zero fun j _ => ?_
      by_cases hj : j ∈ P
      · have := congrFun hu ⟨j, hj⟩
        have this : (Aᵀ *ᵥ (A *ᵥ ext u)) j = 0 := this
        rw [this, mul_zero]
      · have : ext u j = 0 := dif_neg hj
        rw [this, zero_mul]
    have h1 := h (ext u) (fun j hj => dif_neg hj) (sq_zero h0)
    funext ⟨j, hj⟩
    have := congrFun h1 j
    have e : ext u j = u ⟨j, hj⟩ := dif_pos hj
    rw [e] at this
    exact this
  have hsurj := LinearMap.injective_iff_surjective.mp hinj
  obtain ⟨u, hu⟩ := hsurj (fun j => (Aᵀ *ᵥ b) j)
  refine ⟨ext u, fun j hj => dif_neg hj, fun j hj => ?_⟩
  have := congrFun hu ⟨j, hj⟩
  have this : (Aᵀ *ᵥ (A *ᵥ ext u)) j = (Aᵀ *ᵥ b) j := this
  unfold grad
  rw [mulVec_sub, Pi.sub_apply, this, sub_self]

theorem lsq_isLS {P : Finset (Fin n)} (h : Indep A P) : IsLS A b P (lsq A b P) := by
  have := h.exists_ls (b := b)
  unfold lsq
  rw [dif_pos this]
  exact this.choose_spec

/-- a column with positive gradient at a solution on `P` is independent of those in `P` -/
theorem Indep.insert {P : Finset (Fin n)} (h : Indep A P) {x : Fin n → ℝ} (hx : IsLS A b P x) {k : Fin n} (hw : 0 < grad A b x k) :
    Indep A (insert k P) := by
  intro v hv hA
  have h1 : v ⬝ᵥ grad A b x = 0 := by rw [dot_grad, hA, zero_dotProduct]
  have h2 : v ⬝ᵥ grad A b x = v k * grad A b x k := by
    refine Finset.sum_eq_single k (fun j _ hj => ?_) (by simp)
    by_cases hP : j ∈ P
    · rw [hx.2 j hP, mul_zero]
    · rw [hv j (by simp [hj, hP]), zero_mul]
  have h3 : v k = 0 := by
    rw [h1] at h2
    rcases mul_eq_zero.mp h2.symm with h | h
    · exact h
    · exact absurd h hw.ne'
  refine h v (fun j hj => ?_) hA
  by_cases hjk : j = k
  · rw [hjk, h3]
  · exact hv j (by simp [hjk, hj])

/-- the new coefficient is positive and the residual smaller -/
theorem insert_step {P : Finset (Fin n)} {x s : Fin n → ℝ} (hx : IsLS A b P x) {k : Fin n} (hk : k ∉ P) (hw : 0 < grad A b x k)
    (hs : IsLS A b (insert k P) s) : 0 < s k ∧ ssq A b s < ssq A b x := by
  have hxs : ∀ j ∉ insert k P, x j = 0 := fun j hj => hx.1 j fun h => hj (by simp [h])
  have e1 := hs.ssq_eq hxs
  have e2 := ssq_add A b x (s - x)
  rw [show x + (s - x) = s by abel] at e2
  have e3 : (s - x) ⬝ᵥ grad A b x = s k * grad A b x k := by
    have : (s - x) ⬝ᵥ grad A b x = (s - x) k * grad A b x k := by
      refine Finset.sum_eq_single k (fun j _ hj => ?_) (by simp)
      by_cases hP : j ∈ P
      · rw [hx.2 j hP, mul_zero]
      · rw [Pi.sub_apply, hs.1 j (by simp [hj, hP]), hx.1 j hP]; simp
    rw [this, Pi.sub_apply, hx.1 k hk, sub_zero]
  have e4 : sq A (x - s) = sq A (s - x) := by
    unfold sq
    rw [show x - s = -(s - x) by abel, mulVec_neg, neg_dotProduct, dotProduct_neg, neg_neg]
  have hsq : sq A (s - x) = s k * grad A b x k := by rw [e4] at e1; rw [e3] at e2; linarith
  have hpos : 0 < sq A (s - x) := by
    rcases lt_or_eq_of_le (sq_nonneg' A (s - x)) with h | h
    · exact h
    · exfalso
      have h0 := sq_zero h.symm
      have hg := grad_add A b x (s - x)
      rw [show x + (s - x) = s by abel, h0, mulVec_zero, sub_zero] at hg
      have := hs.2 k (by simp)
      rw [hg] at this
      exact hw.ne' this
  refine ⟨?_, by rw [e4] at e1; linarith⟩
  rw [hsq] at hpos
  exact (pos_iff_pos_of_mul_pos hpos).mpr hw

/-- on the way from `x` to a solution on `P` the residual falls -/
theorem between {P : Finset (Fin n)} {x s : Fin n → ℝ} (hs : IsLS A b P s) (hx : ∀ j ∉ P, x j = 0) {a : ℝ} (h0 : 0 ≤ a) (h1 : a ≤ 1) :
    ssq A b (fun j => (1 - a) * x j + a * s j) = ssq A b x - (1 - (1 - a) ^ 2) * sq A (x - s) ∧ ssq A b (fun j => (1 - a) * x j + a * s j) ≤ ssq A b x := by
  have e := hs.ssq_eq (y := fun j => (1 - a) * x j + a * s j) (fun j hj => by simp [hx j hj, hs.1 j hj])
  have e' := hs.ssq_eq hx
  have e3 : sq A ((fun j => (1 - a) * x j + a * s j) - s) = (1 - a) ^ 2 * sq A (x - s) := by
    have : (fun j => (1 - a) * x j + a * s j) - s = (1 - a) • (x - s) := by
      funext j
      simp only [Pi.sub_apply, Pi.smul_apply, smul_eq_mul]
      ring
    rw [this]
    unfold sq
    rw [mulVec_smul, smul_dotProduct, dotProduct_smul]
    simp only [smul_eq_mul]
    ring
  rw [e3] at e
  have hq := sq_nonneg' A (x - s)
  refine ⟨by rw [e, e']; ring, ?_⟩
  rw [e, e']
  have : (1 - a) ^ 2 ≤ 1 := by nlinarith
  nlinarith

/-! ### the inner loop -/

/-- what holds of the step length -/
theorem step_spec {P : Finset (Fin n)} {x s : Fin n → ℝ} (h : (P.filter (fun j => s j < 0)).Nonempty) (hx : ∀ j, 0 ≤ x j) :
    0 ≤ step P x s h ∧ step P x s h ≤ 1 ∧ (∃ i ∈ P, s i < 0 ∧ step P x s h = x i / (x i - s i)) ∧
      (∀ j ∈ P, 0 ≤ (1 - step P x s h) * x j + step P x s h * s j) := by
  obtain ⟨i, hi, hmin⟩ := Finset.exists_min_image (P.filter (fun j => s j < 0)) (fun j => x j / (x j - s j)) h
  have hi' := Finset.mem_filter.mp hi
  have e : step P x s h = x i / (x i - s i) := le_antisymm (Finset.inf'_le _ hi) (Finset.le_inf' _ _ hmin)
  have hd : 0 < x i - s i := by have := hx i; linarith [hi'.2]
  have h0 : 0 ≤ step P x s h := by rw [e]; exact div_nonneg (hx i) hd.le
  have h1 : step P x s h ≤ 1 := by rw [e, div_le_one hd]; linarith [hi'.2]
  refine ⟨h0, h1, ⟨i, hi'.1, hi'.2, e⟩, fun j hj => ?_⟩
  by_cases hs : s j < 0
  · have hle : step P x s h ≤ x j / (x j - s j) := Finset.inf'_le _ (Finset.mem_filter.mpr ⟨hj, hs⟩)
    have hdj : 0 < x j - s j := by have := hx j; linarith
    rw [le_div_iff₀ hdj] at hle
    linarith
  · exact add_nonneg (mul_nonneg (by linarith) (hx j)) (mul_nonneg h0 (not_lt.mp hs))

/-- the coefficient that limits the step vanishes -/
theorem step_zero {x s : ℝ} (hx : 0 ≤ x) (hs : s < 0) : (1 - x / (x - s)) * x + x / (x - s) * s = 0 := by
  have : x - s ≠ 0 := by linarith
  field_simp
  ring

/-- state at the end of each pass -/
structure Inv (A : Matrix (Fin m) (Fin n) ℝ) (b : Fin m → ℝ) (P : Finset (Fin n)) (x : Fin n → ℝ) : Prop where
  indep : Indep A P
  ls : IsLS A b P x
  nonneg : ∀ j, 0 ≤ x j

/-- one pass of the inner loop -/
theorem inner_body {tol : ℝ} (ht : 0 ≤ tol) {P : Finset (Fin n)} {x s : Fin n → ℝ} (h : (P.filter (fun j => s j < 0)).Nonempty) (hx : ∀ j, 0 ≤ x j)
    (hxP : ∀ j ∉ P, x j = 0) (hsP : ∀ j ∉ P, s j = 0) :
    (∀ j, 0 ≤ (1 - step P x s h) * x j + step P x s h * s j) ∧
      (P.filter (fun j => tol < (1 - step P x s h) * x j + step P x s h * s j)).card < P.card := by
  obtain ⟨h0, h1, ⟨i, hiP, hi, e⟩, h4⟩ := step_spec h hx
  constructor
  · intro j
    by_cases hj : j ∈ P
    · exact h4 j hj
    · rw [hxP j hj, hsP j hj]; simp
  · refine Finset.card_lt_card ⟨Finset.filter_subset _ _, fun hsub => ?_⟩
    have := (Finset.mem_filter.mp (hsub hiP)).2
    rw [e, step_zero (hx i) hi] at this
    linarith

/-- the inner loop with a positive coefficient for each passive column and tolerance zero -/
theorem inner_pos (f : Nat) : ∀ (P : Finset (Fin n)) (x : Fin n → ℝ), Indep A P → (∀ j, 0 ≤ x j) → (∀ j ∉ P, x j = 0) → (∀ j ∈ P, 0 < x j) →
    (inner A b 0 f P x (lsq A b P)).1.card + (f - (inner A b 0 f P x (lsq A b P)).2.2) ≤ P.card ∧
      ((inner A b 0 f P x (lsq A b P)).2.2 ≠ 0 → Inv A b (inner A b 0 f P x (lsq A b P)).1 (inner A b 0 f P x (lsq A b P)).2.1 ∧
        ssq A b (inner A b 0 f P x (lsq A b P)).2.1 ≤ ssq A b x ∧ (inner A b 0 f P x (lsq A b P)).1 ⊆ P) := by
  induction f with
  | zero =>
    intro P x _ _ _ _
    exact ⟨by simp [inner], fun h => absurd rfl h⟩
  | succ f ih =>
    intro P x hI hx hxP hpos
    have hs := lsq_isLS (b := b) hI
    rw [inner]
    split
    · rename_i h
      obtain ⟨hb1, hb2⟩ := inner_body (le_refl 0) h hx hxP hs.1
      obtain ⟨h0, h1, _, _⟩ := step_spec h hx
      set x' : Fin n → ℝ := fun j => (1 - step P x (lsq A b P) h) * x j + step P x (lsq A b P) h * lsq A b P j with hx'
      set P' := P.filter (fun j => 0 < x' j) with hP'
      have hsub : P' ⊆ P := Finset.filter_subset _ _
      have hout : ∀ j ∉ P', x' j = 0 := by
        intro j hj
        by_cases hjP : j ∈ P
        · have : ¬ 0 < x' j := fun hp => hj (Finset.mem_filter.mpr ⟨hjP, hp⟩)
          exact le_antisymm (not_lt.mp this) (hb1 j)
        · rw [hx']
          simp only [hxP j hjP, hs.1 j hjP]
          ring
      obtain ⟨c1, c2⟩ := ih P' x' (hI.mono hsub) hb1 hout (fun j hj => (Finset.mem_filter.mp hj).2)
      have hl : (inner A b 0 f P' x' (lsq A b P')).2.2 ≤ f := by
        rcases inner_left A b 0 f P' x' (lsq A b P') with h | h <;> omega
      refine ⟨?_, fun hne => ?_⟩
      · show (inner A b 0 f P' x' (lsq A b P')).1.card + (f + 1 - (inner A b 0 f P' x' (lsq A b P')).2.2) ≤ _
        omega
      obtain ⟨d1, d2, d3⟩ := c2 hne
      exact ⟨d1, d2.trans (between hs hxP h0 h1).2, d3.trans hsub⟩
    · rename_i h
      refine ⟨by simp, fun _ => ⟨⟨hI, hs, fun j => ?_⟩, hs.le hxP, le_refl _⟩⟩
      by_cases hj : j ∈ P
      · by_contra hc
        exact h ⟨j, Finset.mem_filter.mpr ⟨hj, not_le.mp hc⟩⟩
      · exact (hs.1 j hj).ge

/-- a pass of the outer loop: the residual falls, or it stays and the passive set shrinks -/
theorem pass {P : Finset (Fin n)} {x : Fin n → ℝ} (h : Inv A b P x) {k : Fin n} (hk : k ∉ P) (hw : 0 < grad A b x k) (f : Nat) :
    (inner A b 0 f (insert k P) x (lsq A b (insert k P))).1.card + (f - (inner A b 0 f (insert k P) x (lsq A b (insert k P))).2.2) ≤ P.card + 1 ∧
      ((inner A b 0 f (insert k P) x (lsq A b (insert k P))).2.2 ≠ 0 →
        Inv A b (inner A b 0 f (insert k P) x (lsq A b (insert k P))).1 (inner A b 0 f (insert k P) x (lsq A b (insert k P))).2.1 ∧
        (ssq A b (inner A b 0 f (insert k P) x (lsq A b (insert k P))).2.1 < ssq A b x ∨
          ssq A b (inner A b 0 f (insert k P) x (lsq A b (insert k P))).2.1 = ssq A b x ∧
            (inner A b 0 f (insert k P) x (lsq A b (insert k P))).1.card < P.card)) := by
  have hI := h.indep.insert h.ls hw
  have hs := lsq_isLS (b := b) hI
  obtain ⟨hsk, hlt⟩ := insert_step h.ls hk hw hs
  have hc : (insert k P).card = P.card + 1 := Finset.card_insert_of_notMem hk
  have hxP : ∀ j ∉ insert k P, x j = 0 := fun j hj => h.ls.1 j fun hp => hj (by simp [hp])
  cases f with
  | zero => exact ⟨by simp [inner, hc], fun h => absurd rfl h⟩
  | succ f =>
    rw [inner]
    split
    · rename_i hn
      obtain ⟨hb1, hb2⟩ := inner_body (le_refl 0) hn h.nonneg hxP hs.1
      obtain ⟨h0, h1, ⟨i, hiP, hi, ei⟩, _⟩ := step_spec hn h.nonneg
      have hbt := between hs hxP h0 h1
      set a := step (insert k P) x (lsq A b (insert k P)) hn with ha
      set x' : Fin n → ℝ := fun j => (1 - a) * x j + a * lsq A b (insert k P) j with hx'
      set P' := (insert k P).filter (fun j => 0 < x' j) with hP'
      have hsub : P' ⊆ insert k P := Finset.filter_subset _ _
      have hout : ∀ j ∉ P', x' j = 0 := by
        intro j hj
        by_cases hjP : j ∈ insert k P
        · have : ¬ 0 < x' j := fun hp => hj (Finset.mem_filter.mpr ⟨hjP, hp⟩)
          exact le_antisymm (not_lt.mp this) (hb1 j)
        · rw [hx']
          simp only [hxP j hjP, hs.1 j hjP]
          ring
      obtain ⟨c1, c2⟩ := inner_pos (b := b) f P' x' (hI.mono hsub) hb1 hout (fun j hj => (Finset.mem_filter.mp hj).2)
      have hl : (inner A b 0 f P' x' (lsq A b P')).2.2 ≤ f := by
        rcases inner_left A b 0 f P' x' (lsq A b P') with h | h <;> omega
      refine ⟨?_, fun hne => ?_⟩
      · show (inner A b 0 f P' x' (lsq A b P')).1.card + (f + 1 - (inner A b 0 f P' x' (lsq A b P')).2.2) ≤ _
        omega
      obtain ⟨d1, d2, d3⟩ := c2 hne
      refine ⟨d1, ?_⟩
      rcases lt_or_eq_of_le h0 with ha0 | ha0
      · left
        refine lt_of_le_of_lt d2 ?_
        have e := hbt.1
        have hsq : 0 < sq A (x - lsq A b (insert k P)) := by
          have := hs.ssq_eq hxP
          linarith
        have : 0 < 1 - (1 - a) ^ 2 := by nlinarith
        have := mul_pos this hsq
        rw [e]
        linarith
      · have hx0 : x' = x := by
          funext j
          rw [hx']
          simp only [← ha0]
          ring
        have d2' := d2.trans (congrArg (ssq A b) hx0).le
        rcases lt_or_eq_of_le d2' with hd | hd
        · exact Or.inl hd
        · right
          refine ⟨hd, ?_⟩
          show (inner A b 0 f P' x' (lsq A b P')).1.card < P.card
          have hik : i ≠ k := by
            rintro rfl
            linarith
          have hiP0 : i ∈ P := by
            rcases Finset.mem_insert.mp hiP with h | h
            · exact absurd h hik
            · exact h
          have hxi : x i = 0 := by
            rw [← ha0] at ei
            have hd' : x i - lsq A b (insert k P) i ≠ 0 := by have := h.nonneg i; linarith
            rcases div_eq_zero_iff.mp ei.symm with h | h
            · exact h
            · exact absurd h hd'
          have hPP : P' ⊂ P := by
            refine ⟨fun j hj => ?_, fun hsub' => ?_⟩
            · obtain ⟨hj1, hj2⟩ := Finset.mem_filter.mp hj
              rcases Finset.mem_insert.mp hj1 with h' | h'
              · rw [hx0, h', h.ls.1 k hk] at hj2
                exact absurd hj2 (lt_irrefl 0)
              · exact h'
            · have := (Finset.mem_filter.mp (hsub' hiP0)).2
              rw [hx0, hxi] at this
              exact lt_irrefl 0 this
          have := Finset.card_lt_card hPP
          omega
    · rename_i hn
      refine ⟨by simp [hc], fun _ => ⟨⟨hI, hs, fun j => ?_⟩, Or.inl hlt⟩⟩
      by_cases hj : j ∈ insert k P
      · by_contra hneg
        exact hn ⟨j, Finset.mem_filter.mpr ⟨hj, not_le.mp hneg⟩⟩
      · exact (hs.1 j hj).ge

/-! ### the outer loop -/

/-- whatever the tolerance, the inner loop ends, if not at the limit, with a nonnegative solution on an independent passive set -/
theorem inner_inv (tol : ℝ) (f : Nat) : ∀ (P : Finset (Fin n)) (x : Fin n → ℝ), Indep A P → (inner A b tol f P x (lsq A b P)).2.2 ≠ 0 →
    Inv A b (inner A b tol f P x (lsq A b P)).1 (inner A b tol f P x (lsq A b P)).2.1 := by
  induction f with
  | zero => intro P x _ h; exact absurd rfl h
  | succ f ih =>
    intro P x hI
    rw [inner]
    split
    · exact ih _ _ (hI.mono (Finset.filter_subset _ _))
    · rename_i h
      have hs := lsq_isLS (b := b) hI
      refine fun _ => ⟨hI, hs, fun j => ?_⟩
      by_cases hj : j ∈ P
      · by_contra hc
        exact h ⟨j, Finset.mem_filter.mpr ⟨hj, not_le.mp hc⟩⟩
      · exact (hs.1 j hj).ge

/-- what the outer loop returns: a nonnegative vector with no gradient where it is positive and a gradient of at most `tol` elsewhere -/
theorem outer_kkt {tol : ℝ} (ht : 0 ≤ tol) (f : Nat) (P : Finset (Fin n)) (x : Fin n → ℝ) (h : Inv A b P x) {r : Fin n → ℝ}
    (hr : outer A b tol f P x = some r) : ∃ Q, Inv A b Q r ∧ ∀ j ∉ Q, grad A b r j ≤ tol := by
  induction f, P, x using outer.induct (A := A) (b := b) (tol := tol) with
  | case1 f P x hk k r' h0 =>
    rw [outer, dif_pos hk, if_pos h0] at hr
    cases hr
  | case2 f P x hk k r' h0 ih =>
    rw [outer, dif_pos hk, if_neg h0] at hr
    have hp := pick_spec P (grad A b x) ⟨hk.choose, hk.choose_spec.1⟩
    have hw : 0 < grad A b x k := lt_of_le_of_lt ht (hk.choose_spec.2.trans_le (hp.2 _ hk.choose_spec.1))
    exact ih (inner_inv tol f _ x (h.indep.insert h.ls hw) h0) hr
  | case3 f P x hk =>
    rw [outer, dif_neg hk] at hr
    cases hr
    exact ⟨P, h, fun j hj => not_lt.mp fun hl => hk ⟨j, hj, hl⟩⟩

theorem inv_start : Inv A b ∅ 0 := ⟨Indep.empty, ⟨fun _ _ => rfl, fun j hj => absurd hj (by simp)⟩, fun _ => le_refl _⟩

/-- such a vector is a best one up to the tolerance -/
theorem kkt_opt {tol : ℝ} {Q : Finset (Fin n)} {x : Fin n → ℝ} (h : Inv A b Q x) (hg : ∀ j ∉ Q, grad A b x j ≤ tol) (ht : 0 ≤ tol) (y : Fin n → ℝ)
    (hy : ∀ j, 0 ≤ y j) : ssq A b x ≤ ssq A b y + 2 * tol * ∑ j, y j := by
  have e := ssq_add A b x (y - x)
  rw [show x + (y - x) = y by abel] at e
  have hq := sq_nonneg' A (y - x)
  have hd : (y - x) ⬝ᵥ grad A b x ≤ tol * ∑ j, y j := by
    rw [sub_dotProduct, h.ls.dot h.ls.1, sub_zero, Finset.mul_sum]
    refine Finset.sum_le_sum fun j _ => ?_
    by_cases hj : j ∈ Q
    · rw [h.ls.2 j hj, mul_zero]; exact mul_nonneg ht (hy j)
    · rw [mul_comm tol]; exact mul_le_mul_of_nonneg_left (hg j hj) (hy j)
  linarith

/-- the solution on an independent passive set is unique -/
theorem IsLS.unique {P : Finset (Fin n)} (hI : Indep A P) {x y : Fin n → ℝ} (hx : IsLS A b P x) (hy : IsLS A b P y) : x = y := by
  have h1 := hx.ssq_eq hy.1
  have h2 := hy.le hx.1
  have h3 := sq_nonneg' A (y - x)
  have h4 : sq A (y - x) = 0 := by linarith
  have := hI (y - x) (fun j hj => by simp [hx.1 j hj, hy.1 j hj]) (sq_zero h4)
  exact (sub_eq_zero.mp this).symm

variable (A b) in
/-- `Q` comes before `P`: smaller residual, or the same and fewer columns -/
def Before (Q P : Finset (Fin n)) : Prop := ssq A b (lsq A b Q) < ssq A b (lsq A b P) ∨ ssq A b (lsq A b Q) = ssq A b (lsq A b P) ∧ Q.card < P.card

theorem Before.trans {P Q R : Finset (Fin n)} (h : Before A b P Q) (h' : Before A b Q R) : Before A b P R := by
  rcases h with h | ⟨h, h1⟩ <;> rcases h' with h' | ⟨h', h2⟩
  · exact Or.inl (h.trans h')
  · exact Or.inl (h.trans_eq h')
  · exact Or.inl (h.trans_lt h')
  · exact Or.inr ⟨h.trans h', h1.trans h2⟩

theorem Before.irrefl (P : Finset (Fin n)) : ¬ Before A b P P := by
  rintro (h | ⟨_, h⟩)
  · exact lt_irrefl _ h
  · exact lt_irrefl _ h

open Classical in
variable (A b) in
/-- number of passive sets that come before `P` -/
noncomputable def rank (P : Finset (Fin n)) : Nat := (Finset.univ.filter (fun Q => Before A b Q P)).card

theorem rank_lt {P Q : Finset (Fin n)} (h : Before A b Q P) : rank A b Q < rank A b P := by
  classical
  refine Finset.card_lt_card ⟨fun R hR => ?_, fun hs => ?_⟩
  · exact Finset.mem_filter.mpr ⟨Finset.mem_univ _, (Finset.mem_filter.mp hR).2.trans h⟩
  · exact Before.irrefl Q (Finset.mem_filter.mp (hs (Finset.mem_filter.mpr ⟨Finset.mem_univ Q, h⟩))).2

theorem rank_bound (P : Finset (Fin n)) : rank A b P < 2 ^ n := by
  classical
  have : (Finset.univ.filter (fun Q => Before A b Q P)).card < (Finset.univ : Finset (Finset (Fin n))).card :=
    Finset.card_lt_card ⟨Finset.filter_subset _ _, fun hs => Before.irrefl P (Finset.mem_filter.mp (hs (Finset.mem_univ P))).2⟩
  simpa [rank] using this

theorem Inv.eq {P : Finset (Fin n)} {x : Fin n → ℝ} (h : Inv A b P x) : lsq A b P = x := IsLS.unique h.indep (lsq_isLS h.indep) h.ls

/-- enough iterations: the outer loop returns -/
theorem outer_returns (f : Nat) (P : Finset (Fin n)) (x : Fin n → ℝ) (h : Inv A b P x) (hf : P.card + rank A b P < f) :
    ∃ r, outer A b 0 f P x = some r := by
  induction f, P, x using outer.induct (A := A) (b := b) (tol := 0) with
  | case1 f P x hk k r h0 =>
    exfalso
    have hp := pick_spec P (grad A b x) ⟨hk.choose, hk.choose_spec.1⟩
    have hw : 0 < grad A b x k := hk.choose_spec.2.trans_le (hp.2 _ hk.choose_spec.1)
    have hc := (pass h hp.1 hw f).1
    have hI := h.indep.insert h.ls hw
    have hb : Before A b (insert k P) P := Or.inl (by rw [h.eq]; exact (insert_step h.ls hp.1 hw (lsq_isLS hI)).2)
    have hlt := rank_lt hb
    have h0' : (inner A b 0 f (insert k P) x (lsq A b (insert k P))).2.2 = 0 := h0
    have hc' : (inner A b 0 f (insert k P) x (lsq A b (insert k P))).1.card + (f - (inner A b 0 f (insert k P) x (lsq A b (insert k P))).2.2) ≤ P.card + 1 := hc
    omega
  | case2 f P x hk k r h0 ih =>
    have hp := pick_spec P (grad A b x) ⟨hk.choose, hk.choose_spec.1⟩
    have hw : 0 < grad A b x k := hk.choose_spec.2.trans_le (hp.2 _ hk.choose_spec.1)
    obtain ⟨hc, hc2⟩ := pass h hp.1 hw f
    have hc : r.1.card + (f - r.2.2) ≤ P.card + 1 := hc
    obtain ⟨hi, hd⟩ : Inv A b r.1 r.2.1 ∧ (ssq A b r.2.1 < ssq A b x ∨ ssq A b r.2.1 = ssq A b x ∧ r.1.card < P.card) := hc2 h0
    have hb : Before A b r.1 P := by
      unfold Before
      rw [hi.eq, h.eq]
      exact hd
    have hlt := rank_lt hb
    have hl : r.2.2 ≤ f := by
      rcases inner_left A b 0 f (insert k P) x (lsq A b (insert k P)) with h | h
      · exact h.le
      · exact h.1.le
    obtain ⟨y, hy⟩ := ih hi (by omega)
    exact ⟨y, by rw [outer, dif_pos hk, if_neg h0]; exact hy⟩
  | case3 f P x hk => exact ⟨x, by rw [outer, dif_neg hk]⟩

theorem run_returns (maxiter : Nat) (h : 2 ^ n ≤ maxiter) : ∃ r, run A b 0 maxiter = some r :=
  outer_returns maxiter ∅ 0 inv_start (by
    have := rank_bound (A := A) (b := b) ∅
    rw [Finset.card_empty]
    omega)

end KC.LH
