import Verif.Lemmas.Project

/-! A library meeting every contract used as a hypothesis: piecewise linear interpolation for the spline and
bisection (by choice) for the root finder.  It shows that the contracts are consistent. -/

namespace KC
open Spec

/-- Piecewise linear interpolation, zero to the right of the last abscissa. -/
noncomputable def linInterp : List ℝ → List ℝ → ℝ → ℝ
  | x0 :: x1 :: xs, y0 :: y1 :: ys, q =>
    if q ≤ x1 then y0 + (q - x0) / (x1 - x0) * (y1 - y0) else linInterp (x1 :: xs) (y1 :: ys) q
  | _, _, _ => 0

theorem linInterp_knot (x y : List ℝ) (i : Nat) (w v : ℝ) (hx : x.Pairwise (· < ·)) (h2 : 2 ≤ x.length)
    (hl : x.length = y.length) (hw : x[i]? = some w) (hv : y[i]? = some v) : linInterp x y w = v := by
  induction x generalizing y i with
  | nil => simp at h2
  | cons x0 xs ih =>
    cases xs with
    | nil => simp at h2
    | cons x1 xs =>
      match y, hl with
      | y0 :: y1 :: ys, hl =>
        have hp := List.pairwise_cons.mp hx
        have h01 : x0 < x1 := hp.1 x1 (by simp)
        have hne : x1 - x0 ≠ 0 := by linarith
        simp only [linInterp]
        match i with
        | 0 =>
          simp only [List.getElem?_cons_zero, Option.some.injEq] at hw hv
          subst hw; subst hv
          rw [if_pos h01.le]; simp
        | 1 =>
          simp only [List.getElem?_cons_succ, List.getElem?_cons_zero, Option.some.injEq] at hw hv
          subst hw; subst hv
          rw [if_pos le_rfl, div_self hne]; ring
        | k + 2 =>
          simp only [List.getElem?_cons_succ] at hw hv
          have hgt : x1 < w := (List.pairwise_cons.mp hp.2).1 w (List.mem_of_getElem? hw)
          rw [if_neg (not_le.mpr hgt)]
          cases xs with
          | nil => simp at hw
          | cons x2 xs =>
            exact ih (y1 :: ys) (k + 1) hp.2 (by simp) (by simpa using hl) (by simpa using hw) (by simpa using hv)
      | [_], hl => simp at hl
      | [], hl => simp at hl

theorem linInterp_linear (x y1 y2 : List ℝ) (a b q : ℝ) (h1 : y1.length = x.length) (h2 : y2.length = x.length) :
    linInterp x (List.zipWith (fun u v => a * u + b * v) y1 y2) q = a * linInterp x y1 q + b * linInterp x y2 q := by
  induction x generalizing y1 y2 with
  | nil => simp [linInterp]
  | cons x0 xs ih =>
    cases xs with
    | nil => simp [linInterp]
    | cons x1 xs =>
      match y1, y2, h1, h2 with
      | u0 :: u1 :: us, v0 :: v1 :: vs, h1, h2 =>
        simp only [List.zipWith_cons_cons, linInterp]
        split
        · ring
        · have := ih (u1 :: us) (v1 :: vs) (by simpa using h1) (by simpa using h2)
          simpa using this
      | [_], _, h1, _ => simp at h1
      | [], _, h1, _ => simp at h1
      | _, [_], _, h2 => simp at h2
      | _, [], _, h2 => simp at h2

theorem linInterp_units (x y : List ℝ) (k q : ℝ) (hk : 0 < k) :
    linInterp (x.map (fun v => v * k)) y (q * k) = linInterp x y q := by
  induction x generalizing y with
  | nil => simp [linInterp]
  | cons x0 xs ih =>
    cases xs with
    | nil => simp [linInterp]
    | cons x1 xs =>
      match y with
      | y0 :: y1 :: ys =>
        have e : (q * k - x0 * k) / (x1 * k - x0 * k) = (q - x0) / (x1 - x0) := by
          rw [← sub_mul, ← sub_mul, mul_div_mul_right _ _ hk.ne']
        have ih' := ih (y1 :: ys)
        simp only [List.map_cons] at ih'
        simp only [List.map_cons, linInterp, mul_le_mul_iff_left₀ hk, e, ih']
      | [_] => simp [linInterp]
      | [] => simp [linInterp]

theorem bracket (f : ℝ → ℝ) (δ : ℝ) (hδ : 0 < δ) (n : ℕ) : ∀ a b, a ≤ b → b - a ≤ n * δ → f a * f b ≤ 0 →
    ∃ r s, r ∈ Set.Icc a b ∧ s ∈ Set.Icc a b ∧ |s - r| ≤ δ ∧ f r * f s ≤ 0 := by
  induction n with
  | zero =>
    intro a b hab h hs
    have : a = b := by
      have : b - a ≤ 0 := by simpa using h
      linarith
    subst this
    exact ⟨a, a, ⟨le_rfl, le_rfl⟩, ⟨le_rfl, le_rfl⟩, by simpa using hδ.le, hs⟩
  | succ n ih =>
    intro a b hab h hs
    by_cases hd : b - a ≤ δ
    · exact ⟨a, b, ⟨le_rfl, hab⟩, ⟨hab, le_rfl⟩, by rw [abs_of_nonneg (by linarith)]; exact hd, hs⟩
    · push Not at hd
      by_cases hc : f a * f (a + δ) ≤ 0
      · refine ⟨a, a + δ, ⟨le_rfl, hab⟩, ⟨by linarith, by linarith⟩, ?_, hc⟩
        rw [add_sub_cancel_left, abs_of_pos hδ]
      · push Not at hc
        have h2 : f (a + δ) * f b ≤ 0 := by
          by_contra hp
          push Not at hp
          have h3 := mul_pos hc hp
          have h4 : 0 ≤ f (a + δ) ^ 2 := sq_nonneg _
          have h5 : f a * f (a + δ) * (f (a + δ) * f b) = f (a + δ) ^ 2 * (f a * f b) := by ring
          rw [h5] at h3
          nlinarith
        obtain ⟨r, s, hr, hs', h3, h4⟩ := ih (a + δ) b (by linarith) (by push_cast at h; linarith) h2
        exact ⟨r, s, ⟨by linarith [hr.1], hr.2⟩, ⟨by linarith [hs'.1], hs'.2⟩, h3, h4⟩

theorem bracket_exists (f : ℝ → ℝ) (a b : ℝ) (hab : a < b) (h : f a * f b ≤ 0) :
    ∃ r, ∃ s, r ∈ Set.Icc a b ∧ s ∈ Set.Icc a b ∧ |s - r| ≤ 2e-12 + 8.9e-16 * |r| ∧ f r * f s ≤ 0 := by
  obtain ⟨n, hn⟩ := exists_nat_ge ((b - a) / 2e-12)
  obtain ⟨r, s, h1, h2, h3, h4⟩ := bracket f 2e-12 (by norm_num) n a b hab.le
    (by rwa [div_le_iff₀ (by norm_num)] at hn) h
  refine ⟨r, s, h1, h2, h3.trans ?_, h4⟩
  have := abs_nonneg r
  linarith

/-- A root finder by choice. -/
noncomputable def demoBrentq (f : ℝ → ℝ) (a b : ℝ) : Py ℝ :=
  open Classical in
  if h : a < b ∧ f a * f b ≤ 0 then .ok (Classical.choose (bracket_exists f a b h.1 h.2)) else .error .valueError

/-- A star with four samples, for the shipped reference spectra. -/
noncomputable def demoStar : Basel ℝ :=
  { modelno := [0], teff := [0], logg := [0], mh := [0], vturb := [0], xh := [0],
    wave := [0, 1, 2, 3], flux := [[1, 1, 1, 1]] }

noncomputable def demoLib : Lib ℝ :=
  { spline := linInterp, brentq := demoBrentq, sun := .ok demoStar, vega := .ok demoStar }

theorem demo_knot : KnotExact demoLib := fun x y i w v hx h4 hl hw hv =>
  linInterp_knot x y i w v hx (by omega) hl hw hv

theorem demo_linear : SplineLinear demoLib := fun x y1 y2 a b q h1 h2 => linInterp_linear x y1 y2 a b q h1 h2

theorem demo_units : SplineUnits demoLib := fun x y k q hk => linInterp_units x y k q hk

theorem demo_brentq : BrentqOK demoLib := by
  intro f a b hab h
  obtain ⟨s, hs⟩ := Classical.choose_spec (bracket_exists f a b hab h)
  refine ⟨_, s, ?_, hs⟩
  show demoBrentq f a b = _
  unfold demoBrentq
  rw [dif_pos ⟨hab, h⟩]

end KC
