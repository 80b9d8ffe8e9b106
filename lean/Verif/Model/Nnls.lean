import Verif.Model.Fitter
import Mathlib.LinearAlgebra.Matrix.DotProduct
import Mathlib.Data.Matrix.Mul
import Mathlib.Data.Real.Basic

/-!
`scipy.optimize.nnls` as of SciPy 1.12 (`scipy/optimize/_nnls.py`, the algorithm of Lawson and Hanson in the variant of Bro and de Jong, on the normal
equations), in exact arithmetic.  It is a dependency of `fitter.py:209–212, 226–229`, not part of the repository; it is written down here to show that the
contract `NNLSOK` is met by the algorithm, and when the second attempt of `_fit_coeffs` returns.  `tol` is the tolerance of the algorithm, which SciPy sets to
`10 max(m, n) eps ‖A‖₁`; rounding is not modelled.  SciPy's source is not at hand here:
this is written from the published algorithm and may differ in detail from an installed version.
-/

namespace KC.LH
open Matrix

variable {m n : Nat} (A : Matrix (Fin m) (Fin n) ℝ) (b : Fin m → ℝ)

/-- `Atb - AtA @ x` -/
def grad (x : Fin n → ℝ) : Fin n → ℝ := Aᵀ *ᵥ (b - A *ᵥ x)

/-- `s` vanishes outside `P` and solves the normal equations `AtA[P, P] s[P] = Atb[P]` -/
def IsLS (P : Finset (Fin n)) (s : Fin n → ℝ) : Prop := (∀ j ∉ P, s j = 0) ∧ ∀ j ∈ P, grad A b s j = 0

open Classical in
/-- `s[P] = solve(AtA[P, P], Atb[P]); s[~P] = 0`; any value if there is no solution -/
noncomputable def lsq (P : Finset (Fin n)) : Fin n → ℝ := if h : ∃ s, IsLS A b P s then h.choose else 0

/-- `alpha = (x[inds] / (x[inds] - s[inds])).min()` with `inds = P * (s < 0)`, here not empty -/
noncomputable def step (P : Finset (Fin n)) (x s : Fin n → ℝ) (h : (P.filter (fun j => s j < 0)).Nonempty) : ℝ :=
  (P.filter (fun j => s j < 0)).inf' h (fun j => x j / (x j - s j))

open Classical in
/-- the inner loop; `f` is `maxiter - iter`.  Returns the passive set, the solution `s` and what is left of `f`. -/
noncomputable def inner (tol : ℝ) : Nat → Finset (Fin n) → (Fin n → ℝ) → (Fin n → ℝ) → Finset (Fin n) × (Fin n → ℝ) × Nat
  | 0, P, _, s => (P, s, 0)
  | f + 1, P, x, s =>
    if h : (P.filter (fun j => s j < 0)).Nonempty then
      let a := step P x s h
      let x' : Fin n → ℝ := fun j => (1 - a) * x j + a * s j
      let P' := P.filter (fun j => tol < x' j)
      inner tol f P' x' (lsq A b P')
    else (P, s, f + 1)

open Classical in
/-- `np.argmax(w * ~P)`, with ties broken in any way -/
noncomputable def pick (P : Finset (Fin n)) (w : Fin n → ℝ) (h : ∃ k, k ∉ P) : Fin n :=
  if hm : ∃ k, k ∉ P ∧ ∀ j ∉ P, w j ≤ w k then hm.choose else h.choose

theorem pick_spec (P : Finset (Fin n)) (w : Fin n → ℝ) (h : ∃ k, k ∉ P) : pick P w h ∉ P ∧ ∀ j ∉ P, w j ≤ w (pick P w h) := by
  classical
  have hm : ∃ k, k ∉ P ∧ ∀ j ∉ P, w j ≤ w k := by
    obtain ⟨k, hk⟩ := h
    obtain ⟨i, hi, hmax⟩ := Finset.exists_max_image (Finset.univ.filter (fun k => k ∉ P)) w ⟨k, by simp [hk]⟩
    exact ⟨i, by simpa using hi, fun j hj => hmax j (by simpa using hj)⟩
  unfold pick
  rw [dif_pos hm]
  exact hm.choose_spec

theorem inner_left (tol : ℝ) (f : Nat) (P : Finset (Fin n)) (x s : Fin n → ℝ) :
    (inner A b tol f P x s).2.2 < f ∨ (inner A b tol f P x s).2.2 = f ∧ (inner A b tol f P x s).1 = P := by
  cases f with
  | zero => right; exact ⟨rfl, rfl⟩
  | succ f =>
    have h : ∀ (g : Nat) P x s, (inner A b tol g P x s).2.2 ≤ g := by
      intro g
      induction g with
      | zero => intro P x s; exact le_refl _
      | succ g ih =>
        intro P x s
        rw [inner]
        split
        · exact (ih _ _ _).trans (Nat.le_succ g)
        · exact le_refl _
    rw [inner]
    split
    · exact Or.inl (Nat.lt_succ_of_le (h _ _ _ _))
    · exact Or.inr ⟨rfl, rfl⟩

open Classical in
/-- the outer loop from passive set `P` with solution `x`; `f` is `maxiter - iter`.  `none`: the iteration limit is reached and `nnls` raises `RuntimeError`. -/
noncomputable def outer (tol : ℝ) (f : Nat) (P : Finset (Fin n)) (x : Fin n → ℝ) : Option (Fin n → ℝ) :=
  if h : ∃ k ∉ P, tol < grad A b x k then
    let k := pick P (grad A b x) ⟨h.choose, h.choose_spec.1⟩
    let r := inner A b tol f (insert k P) x (lsq A b (insert k P))
    if r.2.2 = 0 then none else outer tol r.2.2 r.1 r.2.1
  else some x
termination_by (f, n - P.card)
decreasing_by
  have hk : k ∉ P := (pick_spec P (grad A b x) ⟨h.choose, h.choose_spec.1⟩).1
  rcases inner_left A b tol f (insert k P) x (lsq A b (insert k P)) with h1 | ⟨h1, h2⟩
  · exact Prod.Lex.left _ _ h1
  · have e : (r.2.2, n - r.1.card) = (f, n - r.1.card) := by rw [show r.2.2 = f from h1]
    rw [e]
    refine Prod.Lex.right _ ?_
    have hr : r.1 = insert k P := h2
    have hc : (insert k P).card = P.card + 1 := Finset.card_insert_of_notMem hk
    have hle : (insert k P).card ≤ n := by simpa using Finset.card_le_univ (insert k P)
    rw [hr, hc]
    omega

/-- from the start `x = 0`, nothing passive -/
noncomputable def run (tol : ℝ) (maxiter : Nat) : Option (Fin n → ℝ) := outer A b tol maxiter ∅ 0

end KC.LH

namespace KC

/-- the matrix of a list of rows -/
def toMatrix (n : Nat) (A : List (List ℝ)) : Matrix (Fin A.length) (Fin n) ℝ := fun i j => ((A.getD i []).getD j 0)

/-- the vector of a list -/
def toVec (m : Nat) (b : List ℝ) : Fin m → ℝ := fun i => b.getD i 0

/-- `optimize.nnls(A, b, maxiter)` with tolerance `tol`: the default limit is `3 n` iterations (also for `maxiter=0`); `RuntimeError` at the limit. -/
noncomputable def lhNnls (tol : ℝ) : Nnls ℝ := fun n A b it =>
  let maxiter := match it with
    | some (k + 1) => k + 1
    | _ => 3 * n
  match LH.run (toMatrix n A) (toVec A.length b) tol maxiter with
  | some x => .ok (List.ofFn x)
  | none => .error .runtimeError

end KC
