import Verif.Props.Optimum

/-!
# Property C178: a band measured twice
-/

namespace KC
open Spec

/-! ### chi-squared with one term changed -/

theorem chi2_set_flux : ∀ (m iv r : List ℝ) (i : Nat) (x v y x' : ℝ), m[i]? = some x → iv[i]? = some v → r[i]? = some y →
    chi2 (m.set i x') iv r = chi2 m iv r - v * (x - y) ^ 2 + v * (x' - y) ^ 2
  | a :: m, b :: iv, c :: r, 0, x, v, y, x', h1, h2, h3 => by
    simp only [List.getElem?_cons_zero, Option.some.injEq] at h1 h2 h3
    subst h1 h2 h3
    simp only [chi2, List.set_cons_zero, List.zipWith_cons_cons, List.sum_cons]
    ring
  | a :: m, b :: iv, c :: r, i + 1, x, v, y, x', h1, h2, h3 => by
    simp only [List.getElem?_cons_succ] at h1 h2 h3
    have ih := chi2_set_flux m iv r i x v y x' h1 h2 h3
    simp only [chi2, List.set_cons_succ, List.zipWith_cons_cons, List.sum_cons] at ih ⊢
    rw [ih]; ring

theorem chi2_set_ivar : ∀ (m iv r : List ℝ) (i : Nat) (x v y v' : ℝ), m[i]? = some x → iv[i]? = some v → r[i]? = some y →
    chi2 m (iv.set i v') r = chi2 m iv r - v * (x - y) ^ 2 + v' * (x - y) ^ 2
  | a :: m, b :: iv, c :: r, 0, x, v, y, v', h1, h2, h3 => by
    simp only [List.getElem?_cons_zero, Option.some.injEq] at h1 h2 h3
    subst h1 h2 h3
    simp only [chi2, List.set_cons_zero, List.zipWith_cons_cons, List.sum_cons]
    ring
  | a :: m, b :: iv, c :: r, i + 1, x, v, y, v', h1, h2, h3 => by
    simp only [List.getElem?_cons_succ] at h1 h2 h3
    have ih := chi2_set_ivar m iv r i x v y v' h1 h2 h3
    simp only [chi2, List.set_cons_succ, List.zipWith_cons_cons, List.sum_cons] at ih ⊢
    rw [ih]; ring

/-- Two terms with the same model value: replacing the first by the weighted mean with the sum of the weights, and the second by weight 0, changes
chi-squared by a number that does not depend on the model. -/
theorem chi2_merge {m iv r : List ℝ} {i j : Nat} (hij : i ≠ j) {x v x' v' y : ℝ} (h1 : m[i]? = some x) (h2 : iv[i]? = some v) (h3 : m[j]? = some x')
    (h4 : iv[j]? = some v') (h5 : r[i]? = some y) (h6 : r[j]? = some y) (hv : v + v' ≠ 0) :
    chi2 m iv r = chi2 (m.set i ((v * x + v' * x') / (v + v'))) ((iv.set i (v + v')).set j 0) r + v * v' / (v + v') * (x - x') ^ 2 := by
  have li := (List.getElem?_eq_some_iff.mp h1).1
  have lv := (List.getElem?_eq_some_iff.mp h2).1
  have e1 : (m.set i ((v * x + v' * x') / (v + v')))[i]? = some ((v * x + v' * x') / (v + v')) := by simp [li]
  have e2 : (m.set i ((v * x + v' * x') / (v + v')))[j]? = some x' := by rw [List.getElem?_set_ne hij, h3]
  have e4 : (iv.set i (v + v'))[j]? = some v' := by rw [List.getElem?_set_ne hij, h4]
  rw [chi2_set_ivar _ (iv.set i (v + v')) r j x' v' y 0 e2 e4 h6, chi2_set_ivar _ iv r i _ v y _ e1 h2 h5, chi2_set_flux m iv r i x v y _ h1 h2 h5]
  field_simp
  ring

/-! ### equal bands have equal rows -/

theorem built_equal_rows {lib : Lib ℝ} {F G : Fitter ℝ} {g : Reg ℝ} (h : Built lib F G g) {i j : Nat} {n : Name} (hi : F.responses[i]? = some n)
    (hj : F.responses[j]? = some n) {A : AMat ℝ} (hA : Ready G A) {q : ℝ} {M : List (List ℝ)} (hM : A.at q = .ok M) :
    ∃ row, M[i]? = some row ∧ M[j]? = some row := by
  obtain ⟨A1, disk, w, w', hR, hG, hw, hg, hc, hx⟩ := h.ready
  obtain rfl : A = A1 := by
    have := hA.set.symm.trans hR.set
    simpa using this
  obtain ⟨M2, row, e1, e2, _, e3⟩ := C103_row lib disk disk F.redshifts F.responses F.responses w w' w w' A A hc hc
    (by rw [hw]; exact h.ne) (by rw [hw]; exact h.len) rfl rfl i j n hi hj rfl q M hM
  rw [hM] at e1
  cases e1
  exact ⟨row, e2, e3⟩

/-- **C178.** If the responses contain the same band twice, the two measurements act as one: the coefficients that fit best are exactly those that fit best
when the first measurement is replaced by the weighted mean of the two, with the sum of the two inverse variances, and the second is given weight zero. -/
theorem C178_same_band (lib : Lib ℝ) (F G : Fitter ℝ) (g : Reg ℝ) (h : Built lib F G g) (i j : Nat) (hij : i ≠ j) (n : Name)
    (hi : F.responses[i]? = some n) (hj : F.responses[j]? = some n) (z : ℝ) (m iv c : List ℝ) (x v x' v' : ℝ) (h1 : m[i]? = some x)
    (h2 : iv[i]? = some v) (h3 : m[j]? = some x') (h4 : iv[j]? = some v') (hv : v + v' ≠ 0) :
    Optimal G z m iv c ↔ Optimal G z (m.set i ((v * x + v' * x') / (v + v'))) ((iv.set i (v + v')).set j 0) c := by
  obtain ⟨A, disk, w, w', hR, hG, hw, hg, hc, hx⟩ := h.ready
  have hout : ∀ {m iv : List ℝ}, ¬ InRange A.x z → ¬ Optimal G z m iv c := by
    rintro m iv hin ⟨hc, _, rc, hv, _⟩
    unfold Fitter.reconstruct at hv
    rw [hR.set, recon_scalar G A z _ 0 hc] at hv
    have e : shiftOf (f32 z) 0 = z := by rw [real_f32, shiftOf_real]; ring
    rw [e, at_out hR.good.ne hin] at hv
    cases hv
  by_cases hin : InRange A.x z
  · obtain ⟨M, hM⟩ := (at_ok_iff hR.good.ne).mpr hin
    obtain ⟨row, r1, r2⟩ := built_equal_rows h hi hj hR hM
    have e : ∀ y, chi2 m iv (mulVec M y) = chi2 (m.set i ((v * x + v' * x') / (v + v'))) ((iv.set i (v + v')).set j 0) (mulVec M y)
        + v * v' / (v + v') * (x - x') ^ 2 := by
      intro y
      have q1 : (mulVec M y)[i]? = some (dot row y) := by simp [mulVec, r1]
      have q2 : (mulVec M y)[j]? = some (dot row y) := by simp [mulVec, r2]
      exact chi2_merge hij h1 h2 h3 h4 q1 q2 hv
    rw [optimal_iff hR hM, optimal_iff hR hM]
    simp only [e, add_le_add_iff_right]
  · exact iff_of_false (hout hin) (hout hin)

/-- **C178.** A fitter with one of its bands appended a second time, and the fitter without the repetition: the best fits to two measurements of the band are the best
fits to their weighted mean with the sum of the inverse variances. -/
theorem C178_repeated (lib : Lib ℝ) (F1 F2 G1 G2 : Fitter ℝ) (g1 g2 : Reg ℝ) (h1 : Built lib F1 G1 g1) (h2 : Built lib F2 G2 g2) (n : Name)
    (hm : MoreBands F1 F2 g1 g2 [n]) (i : Nat) (hi : F1.responses[i]? = some n) (z : ℝ) (m iv c : List ℝ) (hml : m.length = F1.responses.length)
    (hil : iv.length = F1.responses.length) (x v x' v' : ℝ) (hx : m[i]? = some x) (hv : iv[i]? = some v) (hvv : v + v' ≠ 0) :
    Optimal G2 z (m ++ [x']) (iv ++ [v']) c ↔ Optimal G1 z (m.set i ((v * x + v' * x') / (v + v'))) (iv.set i (v + v')) c := by
  have li := (List.getElem?_eq_some_iff.mp hi).1
  have hi2 : F2.responses[i]? = some n := by rw [hm.resp, List.getElem?_append_left li, hi]
  have hj2 : F2.responses[F1.responses.length]? = some n := by rw [hm.resp]; simp
  rw [C178_same_band lib F2 G2 g2 h2 i F1.responses.length (by omega) n hi2 hj2 z _ _ c x v x' v'
    (by rw [List.getElem?_append_left (by omega), hx]) (by rw [List.getElem?_append_left (by omega), hv]) (by simp [← hml]) (by simp [← hil]) hvv]
  have e1 : (m ++ [x']).set i ((v * x + v' * x') / (v + v')) = m.set i ((v * x + v' * x') / (v + v')) ++ [x'] := by
    rw [List.set_append_left _ _ (by omega)]
  have e2 : ((iv ++ [v']).set i (v + v')).set F1.responses.length 0 = iv.set i (v + v') ++ [0] := by
    rw [List.set_append_left _ _ (by omega), List.set_append_right _ _ (by simp [hil])]
    simp [hil]
  rw [e1, e2]
  exact C114_zero_weight lib F1 F2 G1 G2 g1 g2 h1 h2 [n] hm z _ _ [x'] [0] c (by simpa using hml) (by simpa using hil) (by simp)

/-- Not vacuous: the bands `x`, `y` of the example objects, and `x` again. -/
example : ∃ F1 F2 G1 G2 g1 g2, Built demoLib F1 G1 g1 ∧ Built demoLib F2 G2 g2 ∧ MoreBands F1 F2 g1 g2 [['x']] ∧
    F1.responses[0]? = some ['x'] ∧ F1.responses.length = 2 := by
  obtain ⟨g, ox, oy, hx, hy, cx, cy⟩ := demo_two
  obtain ⟨G1, g1, b1, x1, y1⟩ := demoPlain_built [['x'], ['y']] (by simp) [[1, 1, 1, 1, 1], [1, 2, 3, 4, 5]] (by simp) (by simp) false g ox oy
    hx hy cx cy
  obtain ⟨G2, g2, b2, x2, y2⟩ := demoPlain_built [['x'], ['y'], ['x']] (by simp) [[1, 1, 1, 1, 1], [1, 2, 3, 4, 5]] (by simp) (by simp) false g ox oy
    hx hy cx cy
  refine ⟨_, _, _, _, _, _, b1, b2, ⟨rfl, rfl, ?_, rfl, rfl⟩, rfl, rfl⟩
  intro n hn
  simp only [demoPlain, List.mem_cons, List.not_mem_nil, or_false] at hn
  rcases hn with rfl | rfl
  · rw [x1, x2]
  · rw [y1, y2]

end KC
