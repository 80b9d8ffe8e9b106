import Verif.Model.Response
import Verif.Lemmas.Loops

/-! The trapezoid rule over the reals. -/

namespace KC
open Spec

@[simp] theorem lit2_real : (lit 2 : ℝ) = 2 := by simp

theorem trapezoid_cons (y0 y1 x0 x1 : ℝ) (ys xs : List ℝ) :
    trapezoid (y0 :: y1 :: ys) (x0 :: x1 :: xs) = (x1 - x0) * (y1 + y0) / 2 + trapezoid (y1 :: ys) (x1 :: xs) := by
  simp [trapezoid]

@[simp] theorem trapezoid_nil (x : List ℝ) : trapezoid ([] : List ℝ) x = 0 := by simp [trapezoid]
@[simp] theorem trapezoid_one (y : ℝ) (x : List ℝ) : trapezoid [y] x = 0 := by simp [trapezoid]

/-- scipy's `trapezoid(y, x)` is the trapezoid rule for `∫ y dx`. -/
theorem trapezoid_eq_trapRule (y x : List ℝ) : trapezoid y x = trapRule x y := by
  induction y generalizing x with
  | nil =>
    cases x with
    | nil => simp [trapRule]
    | cons a t => cases t <;> simp [trapRule]
  | cons y0 ys ih =>
    cases ys with
    | nil =>
      cases x with
      | nil => simp [trapRule]
      | cons a t => cases t <;> simp [trapRule]
    | cons y1 ys =>
      cases x with
      | nil => simp [trapezoid, trapRule]
      | cons x0 xs =>
        cases xs with
        | nil => simp [trapezoid, trapRule]
        | cons x1 xs =>
          rw [trapezoid_cons, trapRule, ih]
          ring

/-- Exchanging the two arguments (summation by parts). -/
theorem trapezoid_swap (w g : List ℝ) (h : w.length = g.length) :
    trapezoid w g = w.getLastD 0 * g.getLastD 0 - w.headD 0 * g.headD 0 - trapRule w g := by
  induction w generalizing g with
  | nil =>
    have : g = [] := List.length_eq_zero_iff.mp h.symm
    subst this; simp [trapRule]
  | cons w0 ws ih =>
    cases g with
    | nil => simp at h
    | cons g0 gs =>
      cases ws with
      | nil =>
        have : gs = [] := List.length_eq_zero_iff.mp (by simpa using h.symm)
        subst this
        simp [trapRule]
      | cons w1 ws =>
        cases gs with
        | nil => simp at h
        | cons g1 gs =>
          rw [trapezoid_cons, trapRule, ih (g1 :: gs) (by simpa using h)]
          simp only [List.headD_cons]
          have e1 : (w0 :: w1 :: ws).getLastD 0 = (w1 :: ws).getLastD 0 := by simp [List.getLastD]
          have e2 : (g0 :: g1 :: gs).getLastD 0 = (g1 :: gs).getLastD 0 := by simp [List.getLastD]
          rw [e1, e2]
          ring

theorem trapRule_smul (c : ℝ) (x f : List ℝ) : trapRule x (f.map (fun v => c * v)) = c * trapRule x f := by
  induction x generalizing f with
  | nil => simp [trapRule]
  | cons x0 xs ih =>
    cases xs with
    | nil => simp [trapRule]
    | cons x1 xs =>
      cases f with
      | nil => simp [trapRule]
      | cons f0 fs =>
        cases fs with
        | nil => simp [trapRule]
        | cons f1 fs =>
          have := ih (f1 :: fs)
          simp only [List.map_cons] at this ⊢
          rw [trapRule, trapRule, this]; ring

theorem trapRule_add (x f g : List ℝ) (h : f.length = g.length) :
    trapRule x (List.zipWith (fun a b => a + b) f g) = trapRule x f + trapRule x g := by
  induction x generalizing f g with
  | nil => simp [trapRule]
  | cons x0 xs ih =>
    cases xs with
    | nil => simp [trapRule]
    | cons x1 xs =>
      cases f with
      | nil =>
        have : g = [] := List.length_eq_zero_iff.mp h.symm
        subst this; simp [trapRule]
      | cons f0 fs =>
        cases g with
        | nil => simp at h
        | cons g0 gs =>
          cases fs with
          | nil =>
            have : gs = [] := List.length_eq_zero_iff.mp (by simpa using h.symm)
            subst this; simp [trapRule]
          | cons f1 fs =>
            cases gs with
            | nil => simp at h
            | cons g1 gs =>
              have := ih (f1 :: fs) (g1 :: gs) (by simpa using h)
              simp only [List.zipWith_cons_cons] at this ⊢
              rw [trapRule, trapRule, trapRule, this]; ring

theorem trapRule_scale_x (c : ℝ) (x f : List ℝ) : trapRule (x.map (fun v => v * c)) f = c * trapRule x f := by
  induction x generalizing f with
  | nil => simp [trapRule]
  | cons x0 xs ih =>
    cases xs with
    | nil => simp [trapRule]
    | cons x1 xs =>
      cases f with
      | nil => simp [trapRule]
      | cons f0 fs =>
        cases fs with
        | nil => simp [trapRule]
        | cons f1 fs =>
          have := ih (f1 :: fs)
          simp only [List.map_cons] at this ⊢
          rw [trapRule, trapRule, this]; ring

/-- The trapezoid rule is monotone in the integrand on a nondecreasing grid. -/
theorem trapRule_mono (x f g : List ℝ) (hx : x.Pairwise (· ≤ ·)) (hl : f.length = g.length)
    (h : ∀ i (hf : i < f.length) (hg : i < g.length), f[i] ≤ g[i]) : trapRule x f ≤ trapRule x g := by
  induction x generalizing f g with
  | nil => simp [trapRule]
  | cons x0 xs ih =>
    cases xs with
    | nil => simp [trapRule]
    | cons x1 xs =>
      cases f with
      | nil =>
        have : g = [] := List.length_eq_zero_iff.mp hl.symm
        subst this; simp [trapRule]
      | cons f0 fs =>
        cases g with
        | nil => simp at hl
        | cons g0 gs =>
          cases fs with
          | nil =>
            have : gs = [] := List.length_eq_zero_iff.mp (by simpa using hl.symm)
            subst this; simp [trapRule]
          | cons f1 fs =>
            cases gs with
            | nil => simp at hl
            | cons g1 gs =>
              have h0 := h 0 (by simp) (by simp)
              have h1 := h 1 (by simp) (by simp)
              simp only [List.getElem_cons_zero, List.getElem_cons_succ] at h0 h1
              have hx01 : x0 ≤ x1 := by
                rw [List.pairwise_cons] at hx; exact hx.1 x1 (by simp)
              have := ih (f1 :: fs) (g1 :: gs) (by rw [List.pairwise_cons] at hx; exact hx.2) (by simpa using hl)
                (fun i hf hg => by
                  have := h (i + 1) (by simpa using hf) (by simpa using hg)
                  simpa using this)
              rw [trapRule, trapRule]
              have : (x1 - x0) * ((f0 + f1) / 2) ≤ (x1 - x0) * ((g0 + g1) / 2) := by
                apply mul_le_mul_of_nonneg_left _ (by linarith)
                linarith
              linarith

theorem trapRule_nonneg (x f : List ℝ) (hx : x.Pairwise (· ≤ ·)) (h : ∀ v ∈ f, 0 ≤ v) : 0 ≤ trapRule x f := by
  have := trapRule_mono x (f.map (fun v => 0 * v)) f hx (by simp) (by
    intro i hf hg
    simpa using h _ (List.getElem_mem hg))
  rw [trapRule_smul] at this
  simpa using this

/-- A nonnegative integrand with a positive interior sample has a positive integral on a strictly increasing grid. -/
theorem trapRule_pos (x f : List ℝ) (hx : x.Pairwise (· < ·)) (hl : x.length = f.length) (h : ∀ v ∈ f, 0 ≤ v)
    (h2 : 2 ≤ f.length) (hp : ∃ v ∈ f, 0 < v) : 0 < trapRule x f := by
  induction x generalizing f with
  | nil => simp at hl; omega
  | cons x0 xs ih =>
    cases xs with
    | nil => simp at hl; omega
    | cons x1 xs =>
      cases f with
      | nil => simp at h2
      | cons f0 fs =>
        cases fs with
        | nil => simp at h2
        | cons f1 fs =>
          have hx01 : x0 < x1 := by
            rw [List.pairwise_cons] at hx; exact hx.1 x1 (by simp)
          have hxs : (x1 :: xs).Pairwise (· < ·) := by rw [List.pairwise_cons] at hx; exact hx.2
          have hf0 := h f0 (by simp)
          have hf1 := h f1 (by simp)
          have hrest : 0 ≤ trapRule (x1 :: xs) (f1 :: fs) :=
            trapRule_nonneg _ _ (hxs.imp le_of_lt) (fun v hv => h v (by simp only [List.mem_cons] at hv ⊢; tauto))
          rw [trapRule]
          obtain ⟨v, hv, hvp⟩ := hp
          have hd : 0 < x1 - x0 := by linarith
          by_cases h01 : 0 < f0 + f1
          · have : 0 < (x1 - x0) * ((f0 + f1) / 2) := by positivity
            linarith
          · have e0 : f0 = 0 := by linarith
            have e1 : f1 = 0 := by linarith
            have hv2 : v ∈ fs := by
              simp only [List.mem_cons] at hv
              rcases hv with rfl | rfl | hv
              · linarith
              · linarith
              · exact hv
            have hlen : 2 ≤ (f1 :: fs).length := by
              have := List.length_pos_of_mem hv2
              simp; omega
            have := ih (f1 :: fs) hxs (by simpa using hl)
              (fun v hv => h v (by simp only [List.mem_cons] at hv ⊢; tauto)) hlen ⟨v, by simp [hv2], hvp⟩
            rw [e0, e1] at *
            simpa using this

end KC
