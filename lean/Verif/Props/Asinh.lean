import Verif.Props.Utils

/-! # Properties C11–C13: `sdss_asinh_to_maggies` -/

namespace KC
open Spec

theorem log10_pos' : 0 < Real.log 10 := Real.log_pos (by norm_num)

theorem asinhB_get (k : Fin 5) : (asinhB (α := ℝ))[(k : Nat)]? = some (sdssB k) := by
  fin_cases k <;> simp [asinhB, sdssB] <;> norm_num

theorem sdssB_pos (k : Fin 5) : 0 < sdssB k := by
  fin_cases k <;> simp [sdssB] <;> norm_num

theorem asinhFlux_real (b x e : ℝ) :
    asinhFlux b x e = 2 * b * Real.sinh (-Real.log b - 0.4 * Real.log 10 * x) * (10 : ℝ) ^ (0.4 * e) := by
  simp only [asinhFlux, asinhArg, real_f32, real_lit, real_sinh, real_log, real_pow10]
  push_cast
  norm_num

theorem asinhIvar_real (b x s : ℝ) :
    asinhIvar b x s
      = 1 / (2 * b * Real.cosh (-Real.log b - 0.4 * Real.log 10 * x) * 0.4 * Real.log 10 * s) ^ 2 := by
  simp only [asinhIvar, asinhArg, real_f32, real_lit, real_cosh, real_log]
  push_cast
  norm_num [pow_two]

/-- Extinction of entry `(r, k)`: zero when no extinction is given. -/
def extAt (ext : Option (NDA ℝ)) (r k : Nat) : Option ℝ :=
  match ext with
  | none => some 0
  | some e => entry e r k

theorem asinh_real (mag : NDA ℝ) (err ext : Option (NDA ℝ)) (hm : mag.WF) (h5 : lastAxis mag 5)
    (he : ∀ e ∈ err, e.WF ∧ e.shape = mag.shape) (hx : ∀ e ∈ ext, e.WF ∧ e.shape = mag.shape) :
    ∃ out, asinhToMaggies mag err ext = .ok out ∧ out.maggies.shape = mag.shape ∧
      (∀ r (k : Fin 5) x e, entry mag r k = some x → extAt ext r k = some e →
        entry out.maggies r k = some (asinhFlux (sdssB k) x e)) ∧
      (err = none → out.ivar = none) ∧
      (∀ ea, err = some ea → ∃ w, out.ivar = some w ∧ w.shape = mag.shape ∧
        ∀ r (k : Fin 5) x s, entry mag r k = some x → entry ea r k = some s →
          entry w r k = some (asinhIvar (sdssB k) x s)) := by
  obtain ⟨out, h1, h2, -, h3, h4, h5'⟩ := asinh_entry mag err ext hm h5 he hx
  refine ⟨out, h1, h2, ?_, h4, ?_⟩
  · intro r k x e hx' he'
    have : extEntry ext r k = some e := by
      cases ext with
      | none => simpa [extEntry, extAt] using he'
      | some a => simpa [extEntry, extAt] using he'
    rw [h3, hx', this, asinhB_get]
    simp
  · intro ea hea
    obtain ⟨w, a1, a2, -, a3⟩ := h5' ea hea
    refine ⟨w, a1, a2, ?_⟩
    intro r k x s hx' hs'
    rw [a3, hx', hs', asinhB_get]
    simp

/-- **C11.** If the catalogue magnitude is the SDSS asinh magnitude of flux `f` (any real flux, in any band, for
arrays of any rank), the returned maggies is `f`, times `10^(0.4 e)` where extinction `e` was given. -/
theorem C11_asinh_inverse (mg : NDA ℝ) (err ext : Option (NDA ℝ)) (hm : mg.WF) (h5 : lastAxis mg 5)
    (he : ∀ e ∈ err, e.WF ∧ e.shape = mg.shape) (hx : ∀ e ∈ ext, e.WF ∧ e.shape = mg.shape) :
    ∃ out, asinhToMaggies mg err ext = .ok out ∧ out.maggies.shape = mg.shape ∧
      ∀ r (k : Fin 5) f, entry mg r k = some (asinhMag (sdssB k) f) →
        (ext = none → entry out.maggies r k = some f) ∧
        (∀ ea e, ext = some ea → entry ea r k = some e →
          entry out.maggies r k = some (f * (10 : ℝ) ^ (0.4 * e))) := by
  obtain ⟨out, h1, h2, h3, -⟩ := asinh_real mg err ext hm h5 he hx
  refine ⟨out, h1, h2, ?_⟩
  intro r k f hf
  have hL := log10_pos'
  have hb := sdssB_pos k
  have harg : -Real.log (sdssB k) - 0.4 * Real.log 10 * asinhMag (sdssB k) f = Real.arsinh (f / (2 * sdssB k)) := by
    unfold asinhMag
    field_simp
    ring
  have hfl : ∀ e, asinhFlux (sdssB k) (asinhMag (sdssB k) f) e = f * (10 : ℝ) ^ (0.4 * e) := by
    intro e
    rw [asinhFlux_real, harg, Real.sinh_arsinh]
    field_simp
  constructor
  · rintro rfl
    rw [h3 r k _ 0 hf rfl, hfl]; simp
  · rintro ea e rfl hea
    rw [h3 r k _ e hf hea, hfl]

/-- a table of one object with a negative flux in g and extinction in all bands -/
example : let mg := NDA.mat 5 [[asinhMag (sdssB 0) 1e-9, asinhMag (sdssB 1) (-1e-10), 20, 20, 20]]
    mg.WF ∧ lastAxis mg 5 ∧ entry mg 0 1 = some (asinhMag (sdssB 1) (-1e-10)) ∧
    ∀ e ∈ some (NDA.mat 5 [[0.1, 0.1, 0.1, 0.1, (0.1 : ℝ)]]), e.WF ∧ e.shape = mg.shape := by
  simp [NDA.mat, NDA.WF, lastAxis, NDA.shape, entry]

/-- **C12.** Two calls with the same extinction: where the magnitude is larger the maggies is strictly smaller. -/
theorem C12_asinh_decreasing (m₁ m₂ : NDA ℝ) (ext : Option (NDA ℝ)) (hm₁ : m₁.WF) (hm₂ : m₂.WF)
    (h5 : lastAxis m₁ 5) (hs : m₁.shape = m₂.shape) (hx : ∀ e ∈ ext, e.WF ∧ e.shape = m₁.shape) :
    ∃ o₁ o₂, asinhToMaggies m₁ none ext = .ok o₁ ∧ asinhToMaggies m₂ none ext = .ok o₂ ∧
      ∀ r (k : Fin 5) x₁ x₂ e, entry m₁ r k = some x₁ → entry m₂ r k = some x₂ → extAt ext r k = some e → x₁ < x₂ →
        ∃ y₁ y₂, entry o₁.maggies r k = some y₁ ∧ entry o₂.maggies r k = some y₂ ∧ y₂ < y₁ := by
  obtain ⟨o₁, a1, -, a3, -⟩ := asinh_real m₁ none ext hm₁ h5 (by simp) hx
  obtain ⟨o₂, b1, -, b3, -⟩ := asinh_real m₂ none ext hm₂ (by rw [lastAxis, ← hs]; exact h5) (by simp)
    (by rw [← hs]; exact hx)
  refine ⟨o₁, o₂, a1, b1, ?_⟩
  intro r k x₁ x₂ e h1 h2 he hlt
  refine ⟨_, _, a3 r k x₁ e h1 he, b3 r k x₂ e h2 he, ?_⟩
  rw [asinhFlux_real, asinhFlux_real]
  have hb := sdssB_pos k
  have hL := log10_pos'
  have hsin : Real.sinh (-Real.log (sdssB k) - 0.4 * Real.log 10 * x₂)
      < Real.sinh (-Real.log (sdssB k) - 0.4 * Real.log 10 * x₁) := by
    rw [Real.sinh_lt_sinh]
    have := mul_lt_mul_of_pos_left hlt (show 0 < 0.4 * Real.log 10 by positivity)
    linarith
  have hp : (0 : ℝ) < 10 ^ (0.4 * e) := by positivity
  have := mul_lt_mul_of_pos_left hsin (show 0 < 2 * sdssB k by positivity)
  exact mul_lt_mul_of_pos_right this hp

example : let m₁ := NDA.vec [20, 20, 20, 20, (20 : ℝ)]; let m₂ := NDA.vec [20, 21, 20, 20, (25 : ℝ)]
    m₁.WF ∧ m₂.WF ∧ lastAxis m₁ 5 ∧ m₁.shape = m₂.shape ∧ entry m₁ 0 1 = some 20 ∧ entry m₂ 0 1 = some 21 := by
  simp [NDA.vec, NDA.WF, lastAxis, NDA.shape, entry]

theorem setEntry_WF {α : Type} (a : NDA α) (h : a.WF) (r j : Nat) (x : α) : (setEntry a r j x).WF := by
  cases a with
  | scalar y => trivial
  | arr l n rows =>
    refine ⟨by simp [h.1], ?_⟩
    intro row hrow
    obtain ⟨i, hi, rfl⟩ := List.mem_iff_getElem.mp hrow
    rw [List.getElem_modify]
    simp only [List.length_modify] at hi
    split
    · simp [h.2 _ (List.getElem_mem hi)]
    · exact h.2 _ (List.getElem_mem hi)

theorem setEntry_shape {α : Type} (a : NDA α) (r j : Nat) (x : α) : (setEntry a r j x).shape = a.shape := by
  cases a <;> rfl

theorem setEntry_entry {α : Type} {a : NDA α} {r j : Nat} {x y : α} (h : entry a r j = some y) :
    entry (setEntry a r j x) r j = some x := by
  cases a with
  | scalar z =>
    cases r <;> cases j <;> simp_all [entry, setEntry]
  | arr l n rows =>
    simp only [entry, Option.bind_eq_some_iff] at h
    obtain ⟨row, h1, h2⟩ := h
    have hj := (List.getElem?_eq_some_iff.mp h2).1
    simp [entry, setEntry, List.getElem?_modify, h1, hj]

/-- First-order error propagation for one call: for every entry with magnitude `x` and error `s`, let `F t` be the
maggies returned for that entry when its magnitude is `t` and nothing else changes; then the reported inverse
variance is `1/(F'(x) s)²`. -/
def firstOrder (mag err : NDA ℝ) (ext : Option (NDA ℝ)) : Prop :=
  ∃ out w, asinhToMaggies mag (some err) ext = .ok out ∧ out.ivar = some w ∧
    ∀ r (k : Fin 5) x s, entry mag r k = some x → entry err r k = some s →
      ∃ (F : ℝ → ℝ) (D : ℝ),
        (∀ t, ∃ o, asinhToMaggies (setEntry mag r k t) (some err) ext = .ok o ∧ entry o.maggies r k = some (F t)) ∧
        HasDerivAt F D x ∧ entry w r k = some (1 / (D * s) ^ 2)

theorem asinhFlux_deriv (b x e : ℝ) : HasDerivAt (fun t => asinhFlux b t e)
    (-(2 * b * Real.cosh (-Real.log b - 0.4 * Real.log 10 * x) * (0.4 * Real.log 10) * (10 : ℝ) ^ (0.4 * e))) x := by
  have h1 : HasDerivAt (fun t : ℝ => -Real.log b - 0.4 * Real.log 10 * t) (-(0.4 * Real.log 10)) x := by
    simpa using ((hasDerivAt_id x).const_mul (0.4 * Real.log 10)).const_sub (-Real.log b)
  have h2 := ((h1.sinh).const_mul (2 * b)).mul_const ((10 : ℝ) ^ (0.4 * e))
  have hf : (fun t => asinhFlux b t e)
      = fun t => 2 * b * Real.sinh (-Real.log b - 0.4 * Real.log 10 * t) * (10 : ℝ) ^ (0.4 * e) := by
    funext t; exact asinhFlux_real b t e
  rw [hf]
  have hd : -(2 * b * Real.cosh (-Real.log b - 0.4 * Real.log 10 * x) * (0.4 * Real.log 10) * (10 : ℝ) ^ (0.4 * e))
      = 2 * b * (Real.cosh (-Real.log b - 0.4 * Real.log 10 * x) * -(0.4 * Real.log 10)) * (10 : ℝ) ^ (0.4 * e) := by
    ring
  rw [hd]
  exact h2

/-- What the code does in general: the reported inverse variance is first-order propagation *divided by nothing
for extinction*, i.e. it is too large by the factor `10^(0.8 e)`. -/
theorem C13_asinh_ivar_factor (mag err : NDA ℝ) (ext : Option (NDA ℝ)) (hm : mag.WF) (h5 : lastAxis mag 5)
    (he : err.WF ∧ err.shape = mag.shape) (hx : ∀ e ∈ ext, e.WF ∧ e.shape = mag.shape) :
    ∃ out w, asinhToMaggies mag (some err) ext = .ok out ∧ out.ivar = some w ∧
      ∀ r (k : Fin 5) x s e, entry mag r k = some x → entry err r k = some s → extAt ext r k = some e →
        ∃ (F : ℝ → ℝ) (D : ℝ),
          (∀ t, ∃ o, asinhToMaggies (setEntry mag r k t) (some err) ext = .ok o ∧
            entry o.maggies r k = some (F t)) ∧
          HasDerivAt F D x ∧ D ≠ 0 ∧ entry w r k = some ((10 : ℝ) ^ (0.8 * e) * (1 / (D * s) ^ 2)) := by
  have he' : ∀ e ∈ some err, e.WF ∧ e.shape = mag.shape := by rintro _ ⟨⟩; exact he
  obtain ⟨out, h1, h2, h3, -, h4⟩ := asinh_real mag (some err) ext hm h5 he' hx
  obtain ⟨w, w1, w2, w3⟩ := h4 err rfl
  refine ⟨out, w, h1, w1, ?_⟩
  intro r k x s e hxr hsr her
  refine ⟨fun t => asinhFlux (sdssB k) t e, _, ?_, asinhFlux_deriv (sdssB k) x e, ?_, ?_⟩
  · intro t
    obtain ⟨o, o1, -, o3, -⟩ := asinh_real (setEntry mag r k t) (some err) ext (setEntry_WF _ hm _ _ _)
      (by rw [lastAxis, setEntry_shape]; exact h5) (by rw [setEntry_shape]; exact he')
      (by rw [setEntry_shape]; exact hx)
    exact ⟨o, o1, o3 r k t e (setEntry_entry hxr) her⟩
  · have hb := sdssB_pos k
    have hL := log10_pos'
    have hc := Real.cosh_pos (-Real.log (sdssB k) - 0.4 * Real.log 10 * x)
    have hp : (0 : ℝ) < 10 ^ (0.4 * e) := by positivity
    exact neg_ne_zero.mpr (by positivity)
  · rw [w3 r k x s hxr hsr, asinhIvar_real]
    congr 1
    have hp : (0 : ℝ) < 10 ^ (0.4 * e) := by positivity
    have h8 : (10 : ℝ) ^ (0.8 * e) = ((10 : ℝ) ^ (0.4 * e)) ^ 2 := by
      rw [pow_two, ← Real.rpow_add (by norm_num)]; congr 1; ring
    rw [h8]
    set c := Real.cosh (-Real.log (sdssB k) - 0.4 * Real.log 10 * x)
    have e1 : -(2 * sdssB k * c * (0.4 * Real.log 10) * (10 : ℝ) ^ (0.4 * e)) * s
        = -((10 : ℝ) ^ (0.4 * e) * (2 * sdssB k * c * 0.4 * Real.log 10 * s)) := by ring
    set q := 2 * sdssB k * c * 0.4 * Real.log 10 * s
    set p := (10 : ℝ) ^ (0.4 * e)
    have key : ∀ p q : ℝ, 0 < p → 1 / q ^ 2 = p ^ 2 * (1 / (-(p * q)) ^ 2) := by
      intro p q hp
      have h2 : p ^ 2 * (p ^ 2)⁻¹ = 1 := mul_inv_cancel₀ (pow_pos hp 2).ne'
      rw [neg_sq, mul_pow, one_div, one_div, mul_inv, ← mul_assoc, h2, one_mul]
    rw [e1]
    exact key p q hp

/-- **C13 (partial).** Without extinction the reported inverse variance is exactly first-order propagation.
Missing: calls with extinction (`C13_false`, and `C13_asinh_ivar_factor` for what they return). -/
theorem C13_asinh_errors_partial (mag err : NDA ℝ) (hm : mag.WF) (h5 : lastAxis mag 5)
    (he : err.WF ∧ err.shape = mag.shape) : firstOrder mag err none := by
  obtain ⟨out, w, h1, h2, h3⟩ := C13_asinh_ivar_factor mag err none hm h5 he (by simp)
  refine ⟨out, w, h1, h2, ?_⟩
  intro r k x s hx hs
  obtain ⟨F, D, f1, f2, -, f4⟩ := h3 r k x s 0 hx hs rfl
  exact ⟨F, D, f1, f2, by simpa using f4⟩

example : let mg := NDA.vec [20, 20, 20, 20, (20 : ℝ)]
    mg.WF ∧ lastAxis mg 5 ∧ (NDA.vec [0.1, 0.1, 0.1, 0.1, (0.1 : ℝ)]).shape = mg.shape := by
  simp [NDA.vec, NDA.WF, lastAxis, NDA.shape]

/-- **C13 is false of the code**: with extinction 2.5 mag the flux is multiplied by 10 but the inverse variance is
left as it was, so it is 100 times too large. -/
theorem C13_false : ¬ ∀ (mag err : NDA ℝ) (ext : Option (NDA ℝ)), mag.WF → lastAxis mag 5 →
    (err.WF ∧ err.shape = mag.shape) → (∀ e ∈ ext, e.WF ∧ e.shape = mag.shape) → firstOrder mag err ext := by
  intro h
  let M : NDA ℝ := NDA.vec [20, 20, 20, 20, 20]
  let E : NDA ℝ := NDA.vec [1, 1, 1, 1, 1]
  let X : NDA ℝ := NDA.vec [2.5, 2.5, 2.5, 2.5, 2.5]
  have hM : M.WF := by simp [M, NDA.vec, NDA.WF]
  have h5 : lastAxis M 5 := by simp [M, NDA.vec, lastAxis, NDA.shape]
  have hE : E.WF ∧ E.shape = M.shape := by simp [M, E, NDA.vec, NDA.WF, NDA.shape]
  have hX : ∀ e ∈ some X, e.WF ∧ e.shape = M.shape := by simp [M, X, NDA.vec, NDA.WF, NDA.shape]
  obtain ⟨out, w, h1, h2, h3⟩ := h M E (some X) hM h5 hE hX
  obtain ⟨out', w', g1, g2, g3⟩ := C13_asinh_ivar_factor M E (some X) hM h5 hE hX
  rw [h1] at g1; cases g1
  rw [h2] at g2; cases g2
  have m0 : entry M 0 (0 : Fin 5) = some 20 := by simp [M, NDA.vec, entry]
  have e0 : entry E 0 (0 : Fin 5) = some 1 := by simp [E, NDA.vec, entry]
  have x0 : extAt (some X) 0 (0 : Fin 5) = some 2.5 := by simp [extAt, X, NDA.vec, entry]
  obtain ⟨F, D, f1, f2, f3⟩ := h3 0 0 20 1 m0 e0
  obtain ⟨F', D', k1, k2, k3, k4⟩ := g3 0 0 20 1 2.5 m0 e0 x0
  have hFF : F = F' := by
    funext t
    obtain ⟨o, o1, o2⟩ := f1 t
    obtain ⟨o', p1, p2⟩ := k1 t
    rw [o1] at p1; cases p1
    rw [o2] at p2; exact Option.some.inj p2
  subst hFF
  have hD := f2.unique k2
  subst hD
  rw [f3] at k4
  have k5 := Option.some.inj k4
  have h8 : (10 : ℝ) ^ (0.8 * 2.5 : ℝ) = 100 := by
    rw [show (0.8 * 2.5 : ℝ) = ((2 : ℕ) : ℝ) by norm_num, Real.rpow_natCast]; norm_num
  rw [h8] at k5
  have hpos : 0 < 1 / (D * 1) ^ 2 := by
    have : D * 1 ≠ 0 := by simpa using k3
    positivity
  linarith

end KC
