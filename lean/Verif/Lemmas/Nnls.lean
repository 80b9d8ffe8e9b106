import Verif.Props.FitReal
import Mathlib.Analysis.Normed.Module.FiniteDimension
import Mathlib.Analysis.InnerProductSpace.PiL2

/-!
Nonnegative least squares has a solution: the sum of squares `‖L x - b‖` takes a smallest value on the nonnegative orthant,
whatever the matrix.
-/

namespace KC
open Spec

/-- nonnegative vectors that vanish outside `S` -/
def face {n : Nat} (S : Finset (Fin n)) : Set (Fin n → ℝ) := {x | (∀ j, 0 ≤ x j) ∧ ∀ j, j ∉ S → x j = 0}

theorem face_closed {n : Nat} (S : Finset (Fin n)) : IsClosed (face S) := by
  have e : face S = (⋂ j, {x : Fin n → ℝ | 0 ≤ x j}) ∩ ⋂ j, ⋂ _ : j ∉ S, {x | x j = 0} := by
    ext x
    simp [face]
  rw [e]
  refine IsClosed.inter (isClosed_iInter fun j => isClosed_le continuous_const (continuous_apply j)) ?_
  exact isClosed_iInter fun j => isClosed_iInter fun _ => isClosed_eq (continuous_apply j) continuous_const

/-- if a nonzero vector supported in `S` is mapped to 0, every vector of the face has the image of one with a smaller support -/
theorem face_shrink {n : Nat} {E : Type} [NormedAddCommGroup E] [NormedSpace ℝ E] (L : (Fin n → ℝ) →ₗ[ℝ] E) (S : Finset (Fin n)) (v : Fin n → ℝ)
    (hv : ∀ j, j ∉ S → v j = 0) (hL : L v = 0) (hp : ∃ j, 0 < v j) (y : Fin n → ℝ) (hy : y ∈ face S) :
    ∃ i ∈ S, ∃ z ∈ face (S.erase i), L z = L y := by
  obtain ⟨j0, hj0⟩ := hp
  have hne : (Finset.univ.filter (fun j => 0 < v j)).Nonempty := ⟨j0, by simpa using hj0⟩
  obtain ⟨i, hi, hmin⟩ := Finset.exists_min_image _ (fun j => y j / v j) hne
  have hvi : 0 < v i := by simpa using hi
  have hiS : i ∈ S := by
    by_contra h
    rw [hv i h] at hvi
    exact lt_irrefl _ hvi
  have ht : 0 ≤ y i / v i := div_nonneg (hy.1 i) hvi.le
  refine ⟨i, hiS, fun j => y j - y i / v i * v j, ⟨?_, ?_⟩, ?_⟩
  · intro j
    rcases lt_or_ge 0 (v j) with h | h
    · have := hmin j (by simpa using h)
      rw [div_le_div_iff₀ hvi h] at this
      have e : y i / v i * v j = y i * v j / v i := by ring
      rw [sub_nonneg, e, div_le_iff₀ hvi]
      exact this
    · have := mul_nonneg ht (neg_nonneg.mpr h)
      have := hy.1 j
      linarith
  · intro j hj
    by_cases hji : j = i
    · subst hji
      show y j - y j / v j * v j = 0
      rw [div_mul_cancel₀ _ hvi.ne', sub_self]
    · have hjS : j ∉ S := fun h => hj (Finset.mem_erase.mpr ⟨hji, h⟩)
      show y j - y i / v i * v j = 0
      rw [hy.2 j hjS, hv j hjS]
      ring
  · have e : (fun j => y j - y i / v i * v j) = y - (y i / v i) • v := by
      ext j
      simp
    rw [e, map_sub, map_smul, hL, smul_zero, sub_zero]

/-- vectors that vanish outside `S`, as a subspace -/
def supp {n : Nat} (S : Finset (Fin n)) : Submodule ℝ (Fin n → ℝ) where
  carrier := {x | ∀ j, j ∉ S → x j = 0}
  add_mem' := fun {a b} ha hb j hj => by simp [ha j hj, hb j hj]
  zero_mem' := fun j _ => rfl
  smul_mem' := fun c x hx j hj => by simp [hx j hj]

theorem face_min {n : Nat} {E : Type} [NormedAddCommGroup E] [NormedSpace ℝ E] (L : (Fin n → ℝ) →ₗ[ℝ] E) (hc : Continuous L) (b : E) :
    ∀ (k : Nat) (S : Finset (Fin n)), S.card = k → ∃ x ∈ face S, (∀ y ∈ face S, ‖L x - b‖ ≤ ‖L y - b‖) ∧
      ∃ S', x ∈ face S' ∧ LinearMap.ker (L.comp (supp S').subtype) = ⊥ := by
  intro k
  induction k using Nat.strong_induction_on with
  | _ k ih =>
    intro S hS
    by_cases hker : ∃ v : Fin n → ℝ, v ≠ 0 ∧ (∀ j, j ∉ S → v j = 0) ∧ L v = 0
    · obtain ⟨v, hv0, hv, hLv⟩ := hker
      have hw : ∃ w : Fin n → ℝ, (∀ j, j ∉ S → w j = 0) ∧ L w = 0 ∧ ∃ j, 0 < w j := by
        obtain ⟨j, hj⟩ := Function.ne_iff.mp hv0
        rcases lt_or_gt_of_ne hj with h | h
        · refine ⟨-v, fun i hi => by simp [hv i hi], by simp [hLv], j, ?_⟩
          simpa using h
        · exact ⟨v, hv, hLv, j, h⟩
      obtain ⟨w, hw, hLw, hp⟩ := hw
      have hsub : ∀ i ∈ S, ∃ x ∈ face (S.erase i), (∀ y ∈ face (S.erase i), ‖L x - b‖ ≤ ‖L y - b‖) ∧
          ∃ S', x ∈ face S' ∧ LinearMap.ker (L.comp (supp S').subtype) = ⊥ := fun i hi =>
        ih (S.erase i).card (by rw [← hS]; exact Finset.card_erase_lt_of_mem hi) _ rfl
      choose! g hg using hsub
      obtain ⟨i0, hi0, _⟩ := face_shrink L S w hw hLw hp 0 ⟨fun _ => le_rfl, fun _ _ => rfl⟩
      obtain ⟨i, hi, hmin⟩ := Finset.exists_min_image S (fun i => ‖L (g i) - b‖) ⟨i0, hi0⟩
      refine ⟨g i, ⟨(hg i hi).1.1, fun j hj => (hg i hi).1.2 j (fun h => hj (Finset.mem_of_mem_erase h))⟩, ?_, (hg i hi).2.2⟩
      intro y hy
      obtain ⟨l, hl, z, hz, e⟩ := face_shrink L S w hw hLw hp y hy
      rw [← e]
      exact (hmin l hl).trans ((hg l hl).2.1 z hz)
    · push Not at hker
      have hinj : LinearMap.ker (L.comp (supp S).subtype) = ⊥ := by
        rw [LinearMap.ker_eq_bot']
        intro v hv
        by_contra h
        exact hker v (fun h' => h (Subtype.ext h')) v.2 hv
      obtain ⟨K, hK, hanti⟩ := LinearMap.exists_antilipschitzWith _ hinj
      have hbound : ∀ y ∈ face S, ‖y‖ ≤ K * ‖L y‖ := by
        intro y hy
        have := hanti.le_mul_norm (map_zero _) (⟨y, hy.2⟩ : supp S)
        simpa using this
      have hcomp : IsCompact (face S ∩ Metric.closedBall 0 (K * (2 * ‖b‖))) :=
        (isCompact_closedBall _ _).inter_left (face_closed S)
      have h0 : (0 : Fin n → ℝ) ∈ face S ∩ Metric.closedBall 0 (K * (2 * ‖b‖)) :=
        ⟨⟨fun _ => le_rfl, fun _ _ => rfl⟩, by simp; positivity⟩
      obtain ⟨x, hx, hmin⟩ := hcomp.exists_isMinOn ⟨0, h0⟩ (f := fun x => ‖L x - b‖) (by fun_prop)
      refine ⟨x, hx.1, fun y hy => ?_, S, hx.1, hinj⟩
      by_cases hyb : y ∈ Metric.closedBall (0 : Fin n → ℝ) (K * (2 * ‖b‖))
      · exact hmin ⟨hy, hyb⟩
      · have h1 : ‖L x - b‖ ≤ ‖b‖ := by simpa using hmin h0
        have h2 : K * (2 * ‖b‖) < K * ‖L y‖ := by
          have : K * (2 * ‖b‖) < ‖y‖ := by simpa using hyb
          exact this.trans_le (hbound y hy)
        have h3 : 2 * ‖b‖ < ‖L y‖ := lt_of_mul_lt_mul_left h2 K.2
        have h4 : ‖L y‖ - ‖b‖ ≤ ‖L y - b‖ := norm_sub_norm_le _ _
        linarith

theorem dot_ofFn : ∀ (n : Nat) (row : List ℝ) (x : Fin n → ℝ), (List.zipWith (· * ·) row (List.ofFn x)).sum = ∑ j : Fin n, ent row j * x j
  | 0, row, x => by simp
  | n + 1, [], x => by simp [ent]
  | n + 1, r :: row, x => by
    rw [List.ofFn_succ, List.zipWith_cons_cons, List.sum_cons, dot_ofFn n row, Fin.sum_univ_succ]
    simp [ent]

/-- the model values of nonnegative coefficients, as a linear map -/
noncomputable def model (n : Nat) (Z : List (List ℝ × ℝ)) : (Fin n → ℝ) →ₗ[ℝ] EuclideanSpace ℝ (Fin Z.length) where
  toFun := fun x => WithLp.toLp 2 (fun i => ∑ j : Fin n, ent (Z[i].1) j * x j)
  map_add' := fun x y => by
    ext i
    simp [mul_add, Finset.sum_add_distrib]
  map_smul' := fun c x => by
    ext i
    simp [Finset.mul_sum, mul_left_comm]

theorem resid_norm (n : Nat) (A : List (List ℝ)) (b : List ℝ) (x : Fin n → ℝ) : resid A (List.ofFn x) b =
    ‖model n (A.zip b) x - WithLp.toLp 2 (fun i => ((A.zip b)[i]).2)‖ ^ 2 := by
  rw [EuclideanSpace.norm_sq_eq]
  unfold resid
  have e : List.zipWith (fun row v => ((List.zipWith (· * ·) row (List.ofFn x)).sum - v) ^ 2) A b =
      (A.zip b).map (fun p => ((∑ j : Fin n, ent p.1 j * x j) - p.2) ^ 2) := by
    rw [List.zip, List.map_zipWith]
    simp only [dot_ofFn]
  rw [e, ← Fin.sum_univ_fun_getElem]
  refine Finset.sum_congr rfl fun i _ => ?_
  simp [model]

/-- vectors on independent columns have at most as many nonzero entries as there are rows -/
theorem face_card {n : Nat} {m : Nat} (L : (Fin n → ℝ) →ₗ[ℝ] EuclideanSpace ℝ (Fin m)) (S : Finset (Fin n))
    (h : LinearMap.ker (L.comp (supp S).subtype) = ⊥) : S.card ≤ m := by
  let e : (S → ℝ) →ₗ[ℝ] (Fin n → ℝ) :=
    { toFun := fun x j => if hj : j ∈ S then x ⟨j, hj⟩ else 0
      map_add' := fun x y => by ext j; by_cases hj : j ∈ S <;> simp [hj]
      map_smul' := fun c x => by ext j; by_cases hj : j ∈ S <;> simp [hj] }
  have hinj : Function.Injective (L.comp e) := by
    rw [← LinearMap.ker_eq_bot, LinearMap.ker_eq_bot']
    intro x hx
    have hmem : e x ∈ supp S := fun j hj => by simp [e, hj]
    have h0 : (⟨e x, hmem⟩ : supp S) = 0 := (LinearMap.ker_eq_bot'.mp h) _ hx
    have h1 : e x = 0 := congrArg Subtype.val h0
    ext j
    have := congrFun h1 j
    simpa [e] using this
  have := LinearMap.finrank_le_finrank_of_injective hinj
  simpa using this

theorem filter_ofFn_card {n : Nat} (x : Fin n → ℝ) (S : Finset (Fin n)) (hx : x ∈ face S) : ((List.ofFn x).filter (fun v => decide (v ≠ 0))).length ≤ S.card := by
  rw [← List.countP_eq_length_filter]
  have e : List.ofFn x = (List.finRange n).map x := List.ofFn_eq_map
  rw [e, List.countP_map, List.countP_eq_length_filter]
  have hnd : ((List.finRange n).filter ((fun v => decide (v ≠ 0)) ∘ x)).Nodup := (List.nodup_finRange n).filter _
  rw [← List.toFinset_card_of_nodup hnd]
  refine Finset.card_le_card fun j hj => ?_
  by_contra h
  simp [hx.2 j h] at hj

/-- There is a best nonnegative solution, whatever the matrix and the right-hand side, and one with at most as many nonzero
entries as there are equations. -/
theorem nnls_exists (n : Nat) (A : List (List ℝ)) (b : List ℝ) : ∃ x : List ℝ, x.length = n ∧ (∀ v ∈ x, 0 ≤ v) ∧
    (∀ y : List ℝ, y.length = n → (∀ v ∈ y, 0 ≤ v) → resid A x b ≤ resid A y b) ∧ (x.filter (fun v => decide (v ≠ 0))).length ≤ (A.zip b).length := by
  obtain ⟨x, hx, hmin, S, hS, hker⟩ := face_min (model n (A.zip b)) (LinearMap.continuous_of_finiteDimensional _) (WithLp.toLp 2 (fun i => ((A.zip b)[i]).2)) _ Finset.univ rfl
  refine ⟨List.ofFn x, by simp, ?_, ?_, (filter_ofFn_card x S hS).trans (face_card _ S hker)⟩
  · intro v hv
    obtain ⟨j, rfl⟩ := List.mem_ofFn.mp hv
    exact hx.1 j
  · intro y hy hy0
    subst hy
    have e : y = List.ofFn (fun j : Fin y.length => y[j]) := by simp
    conv_rhs => rw [e]
    rw [resid_norm, resid_norm]
    refine pow_le_pow_left₀ (norm_nonneg _) (hmin _ ⟨fun j => hy0 _ (by simp), fun j hj => absurd (Finset.mem_univ j) hj⟩) 2

end KC
