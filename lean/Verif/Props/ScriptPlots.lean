import Verif.Model.ScriptPlots
import Verif.Props.Build
import Verif.Props.Rebuild
import Verif.Props.Order
import Verif.Props.Scripts

/-!
# The other plots of the example scripts (C213–C215)
-/

namespace KC
open Spec

theorem magRatio_real {a b : ℝ} (ha : 0 < a) (hb : 0 < b) : magRatio a b = mag a - mag b := by
  have : (magRatio a b : ℝ) = -((2.5 : ℚ) : ℝ) * Real.logb 10 (a / b) := rfl
  rw [this, Real.logb_div ha.ne' hb.ne', mag, mag]
  push_cast
  ring

/-! ### C213: residuals -/

/-- C213: the magnitude residuals of a panel, galaxy by galaxy: a galaxy with positive flux and model flux is drawn at its observed minus its model magnitude, others are not drawn. -/
theorem C213_mag (gs : List (ℝ × ℝ × ℝ)) (z m r : ℝ) :
    gstMagPoints ((z, m, r) :: gs) = (if 0 < m ∧ 0 < r then [(z, mag m - mag r)] else []) ++ gstMagPoints gs := by
  unfold gstMagPoints
  by_cases h : 0 < m ∧ 0 < r
  · have : (gtb m (lit 0) && gtb r (lit 0)) = true := by simpa using h
    simp only [List.filter_cons, this, if_true, if_pos h, List.map_cons, List.singleton_append, magRatio_real h.1 h.2]
  · have : (gtb m (lit 0) && gtb r (lit 0)) = false := by
      rw [← Bool.not_eq_true]; intro e; exact h (by simpa using e)
    simp only [List.filter_cons, this, Bool.false_eq_true, if_false, if_neg h, List.nil_append]

/-- C213: the colour residual of a galaxy is the difference of its residuals in the two bands, and is drawn when both of these are. -/
theorem C213_color (gs : List (ℝ × (ℝ × ℝ) × (ℝ × ℝ))) (z m m' r r' : ℝ) :
    gstColorPoints ((z, (m, m'), (r, r')) :: gs) =
      (if 0 < m ∧ 0 < m' ∧ 0 < r ∧ 0 < r' then [(z, (mag m - mag r) - (mag m' - mag r'))] else []) ++ gstColorPoints gs := by
  unfold gstColorPoints
  by_cases h : 0 < m ∧ 0 < m' ∧ 0 < r ∧ 0 < r'
  · have : (gtb m (lit 0) && gtb m' (lit 0) && gtb r (lit 0) && gtb r' (lit 0)) = true := by simpa [and_assoc] using h
    simp only [List.filter_cons, this, if_true, if_pos h, List.map_cons, List.singleton_append, magRatio_real h.1 h.2.1, magRatio_real h.2.2.1 h.2.2.2, List.cons.injEq, Prod.mk.injEq, and_true, true_and]
    ring
  · have : (gtb m (lit 0) && gtb m' (lit 0) && gtb r (lit 0) && gtb r' (lit 0)) = false := by
      rw [← Bool.not_eq_true]; intro e; exact h (by simpa [and_assoc] using e)
    simp only [List.filter_cons, this, Bool.false_eq_true, if_false, if_neg h, List.nil_append]

/-- The observed fluxes of the SDSS script: on the AB system and corrected for extinction. -/
theorem sdssObserved_real (flux ext : List ℝ) (h1 : flux.length = 5) (h2 : ext.length = 5) :
    ∃ o, sdssObserved flux ext = .ok o ∧ o.length = 5 ∧ ∀ (j : Nat) x a φ, flux[j]? = some x → ext[j]? = some a →
      [-0.036, 0.012, 0.010, 0.028, 0.040][j]? = some φ → 0 < x → ∃ y, o[j]? = some y ∧ 0 < y ∧ mag y = mag x + φ - a := by
  obtain ⟨x0, x1, x2, x3, x4, rfl⟩ : ∃ x0 x1 x2 x3 x4, flux = [x0, x1, x2, x3, x4] := by
    match flux, h1 with
    | [x0, x1, x2, x3, x4], _ => exact ⟨x0, x1, x2, x3, x4, rfl⟩
  obtain ⟨a0, a1, a2, a3, a4, rfl⟩ : ∃ x0 x1 x2 x3 x4, ext = [x0, x1, x2, x3, x4] := by
    match ext, h2 with
    | [x0, x1, x2, x3, x4], _ => exact ⟨x0, x1, x2, x3, x4, rfl⟩
  have key : ∀ x a φ : ℝ, 0 < x → 0 < x * (10 : ℝ) ^ (0.4 * a) * (10 : ℝ) ^ (-0.4 * φ) ∧ mag (x * (10 : ℝ) ^ (0.4 * a) * (10 : ℝ) ^ (-0.4 * φ)) = mag x + φ - a := by
    intro x a φ hx
    have p1 : (0 : ℝ) < (10 : ℝ) ^ (0.4 * a) := by positivity
    have p2 : (0 : ℝ) < (10 : ℝ) ^ (-0.4 * φ) := by positivity
    refine ⟨by positivity, ?_⟩
    rw [mag, mag, Real.logb_mul (by positivity) p2.ne', Real.logb_mul hx.ne' p1.ne', Real.logb_rpow (by norm_num) (by norm_num), Real.logb_rpow (by norm_num) (by norm_num)]
    ring
  refine ⟨[x0 * (10 : ℝ) ^ (0.4 * a0) * (10 : ℝ) ^ (-0.4 * (-0.036 : ℝ)), x1 * (10 : ℝ) ^ (0.4 * a1) * (10 : ℝ) ^ (-0.4 * (0.012 : ℝ)),
    x2 * (10 : ℝ) ^ (0.4 * a2) * (10 : ℝ) ^ (-0.4 * (0.010 : ℝ)), x3 * (10 : ℝ) ^ (0.4 * a3) * (10 : ℝ) ^ (-0.4 * (0.028 : ℝ)), x4 * (10 : ℝ) ^ (0.4 * a4) * (10 : ℝ) ^ (-0.4 * (0.040 : ℝ))], ?_, rfl, ?_⟩
  · have e : ∀ x a : ℝ, f32 (x * f32 (pow10 (lit 0.4 * a))) = x * (10 : ℝ) ^ (0.4 * a) := by
      intro x a
      show x * (10 : ℝ) ^ (((0.4 : ℚ) : ℝ) * a) = _
      norm_num
    have e2 : (abFac (abfixDefault : List ℝ)) = [(10 : ℝ) ^ (-0.4 * (-0.036 : ℝ)), (10 : ℝ) ^ (-0.4 * (0.012 : ℝ)), (10 : ℝ) ^ (-0.4 * (0.010 : ℝ)), (10 : ℝ) ^ (-0.4 * (0.028 : ℝ)), (10 : ℝ) ^ (-0.4 * (0.040 : ℝ))] := by
      have p : ∀ x : ℝ, pow10 x = (10 : ℝ) ^ x := fun _ => rfl
      simp only [abFac, abfixDefault, List.map_cons, List.map_nil, real_lit, real_f32, p]
      norm_num
    have hl5 : (abfixDefault : List ℝ).length = 5 := rfl
    unfold sdssObserved
    simp only [List.zipWith_cons_cons, List.zipWith_nil_left, e]
    generalize (10 : ℝ) ^ (-0.4 * (-0.036 : ℝ)) = g0 at e2 ⊢
    generalize (10 : ℝ) ^ (-0.4 * (0.012 : ℝ)) = g1 at e2 ⊢
    generalize (10 : ℝ) ^ (-0.4 * (0.010 : ℝ)) = g2 at e2 ⊢
    generalize (10 : ℝ) ^ (-0.4 * (0.028 : ℝ)) = g3 at e2 ⊢
    generalize (10 : ℝ) ^ (-0.4 * (0.040 : ℝ)) = g4 at e2 ⊢
    simp [sdssAbCorrect, NDA.map, abApply, e2, colLoop, colWrite, zeroRows, zeros, require, ok_bind, hl5, List.range_succ, ent]
  · intro j x a φ hx ha hφ x0p
    match j with
    | 0 => cases hx; cases ha; cases hφ; exact ⟨_, rfl, key _ _ _ x0p⟩
    | 1 => cases hx; cases ha; cases hφ; exact ⟨_, rfl, key _ _ _ x0p⟩
    | 2 => cases hx; cases ha; cases hφ; exact ⟨_, rfl, key _ _ _ x0p⟩
    | 3 => cases hx; cases ha; cases hφ; exact ⟨_, rfl, key _ _ _ x0p⟩
    | 4 => cases hx; cases ha; cases hφ; exact ⟨_, rfl, key _ _ _ x0p⟩
    | (k + 5) => simp at hx

/-- C213 for the SDSS script: magnitude of the catalogue flux on the AB system, corrected for extinction, minus the model magnitude. -/
theorem C213_sdss (flux ext model : List ℝ) (h1 : flux.length = 5) (h2 : ext.length = 5) (h3 : model.length = 5) :
    ∃ y, sdssResiduals flux ext model = .ok y ∧ y.length = 5 ∧ ∀ (j : Nat) x a φ r, flux[j]? = some x → ext[j]? = some a →
      [-0.036, 0.012, 0.010, 0.028, 0.040][j]? = some φ → model[j]? = some r → 0 < x → 0 < r → y[j]? = some (mag x + φ - a - mag r) := by
  obtain ⟨o, ho, hl, hv⟩ := sdssObserved_real flux ext h1 h2
  refine ⟨List.zipWith magRatio o model, by unfold sdssResiduals; rw [ho]; rfl, by simp [hl, h3], fun j x a φ r hx ha hφ hr xp rp => ?_⟩
  obtain ⟨y, hy, yp, e⟩ := hv j x a φ hx ha hφ xp
  rw [List.getElem?_zipWith, hy, hr]
  simp only [magRatio_real yp rp, e]

/-- C213 for the colours of the SDSS script: the difference of the residuals in neighbouring bands. -/
theorem C213_sdss_color (flux ext model : List ℝ) (h1 : flux.length = 5) (h2 : ext.length = 5) (h3 : model.length = 5) :
    ∃ y, sdssColorResiduals flux ext model = .ok y ∧ y.length = 4 ∧ ∀ (j : Nat) x a φ r x' a' φ' r', flux[j]? = some x → ext[j]? = some a →
      [-0.036, 0.012, 0.010, 0.028, 0.040][j]? = some φ → model[j]? = some r → flux[j + 1]? = some x' → ext[j + 1]? = some a' →
      [-0.036, 0.012, 0.010, 0.028, 0.040][j + 1]? = some φ' → model[j + 1]? = some r' → 0 < x → 0 < r → 0 < x' → 0 < r' →
      y[j]? = some ((mag x + φ - a - mag r) - (mag x' + φ' - a' - mag r')) := by
  obtain ⟨o, ho, hl, hv⟩ := sdssObserved_real flux ext h1 h2
  refine ⟨_, by unfold sdssColorResiduals; rw [ho]; rfl, by simp [hl, h3], fun j x a φ r x' a' φ' r' hx ha hφ hr hx' ha' hφ' hr' xp rp xp' rp' => ?_⟩
  obtain ⟨y, hy, yp, e⟩ := hv j x a φ hx ha hφ xp
  obtain ⟨y', hy', yp', e'⟩ := hv (j + 1) x' a' φ' hx' ha' hφ' xp'
  simp only [List.getElem?_zipWith, List.getElem?_tail, hy, hy', hr, hr', magRatio_real yp yp', magRatio_real rp rp', e, e', Option.some.injEq]
  ring

/-- Not vacuous: the second galaxy has no flux and is not drawn; a residual in z. -/
example : gstMagPoints [((0.1 : ℝ), 2, 3), (0.2, 0, 1), (0.3, 5, 5)] = [(0.1, mag 2 - mag 3), (0.3, 0)] := by
  rw [C213_mag, C213_mag, C213_mag]
  norm_num [gstMagPoints]

example : ∃ y, sdssResiduals [1, 2, 3, 4, 5] [0, 0, 0, 0, (1 : ℝ)] [1, 1, 1, 1, 5] = .ok y ∧ y[4]? = some ((0.040 : ℝ) - 1) := by
  obtain ⟨y, h1, -, h2⟩ := C213_sdss [1, 2, 3, 4, 5] [0, 0, 0, 0, (1 : ℝ)] [1, 1, 1, 1, 5] rfl rfl rfl
  refine ⟨y, h1, ?_⟩
  rw [h2 4 5 1 0.040 5 rfl rfl rfl rfl (by norm_num) (by norm_num)]
  congr 1
  ring

example : ∃ y, sdssColorResiduals [1, 2, 3, 4, 4] [0, 0, 0, 0, (1 : ℝ)] [1, 1, 1, 5, 5] = .ok y ∧ y[3]? = some ((0.028 : ℝ) - 0.040 + 1) := by
  obtain ⟨y, h1, -, h2⟩ := C213_sdss_color [1, 2, 3, 4, 4] [0, 0, 0, 0, (1 : ℝ)] [1, 1, 1, 5, 5] rfl rfl rfl
  refine ⟨y, h1, ?_⟩
  rw [h2 3 4 0 0.028 5 4 1 0.040 5 rfl rfl rfl rfl rfl rfl rfl rfl (by norm_num) (by norm_num) (by norm_num) (by norm_num)]
  congr 1
  ring

end KC
