import Verif.Lemmas.LawsonHanson
import Verif.Props.BestFitAb
import Mathlib.Tactic.IntervalCases
import Mathlib.Tactic.NormNum

/-!
# The algorithm behind `scipy.optimize.nnls` meets its contract (C184)

`NNLSOK` is an assumption on the solver in the theorems on fits.  The algorithm of Lawson and Hanson, in exact arithmetic, meets it, and with at most nine
templates the second attempt of `fit_coeffs` never runs into the iteration limit.
-/

namespace KC
open Spec Matrix

theorem sum_zip_get (l : List ℝ) : ∀ (n : Nat) (x : Fin n → ℝ), l.length = n →
    (List.zipWith (· * ·) l (List.ofFn x)).sum = ∑ j : Fin n, l.getD j 0 * x j := by
  induction l with
  | nil => intro n x h; subst h; simp
  | cons a l ih =>
    intro n x h
    obtain rfl : l.length + 1 = n := h
    rw [List.ofFn_succ, List.zipWith_cons_cons, List.sum_cons, ih _ _ rfl, Fin.sum_univ_succ]
    simp

/-- the sum of squares of the specification is that of the matrix -/
theorem resid_matrix (n : Nat) (A : List (List ℝ)) : ∀ (b : List ℝ) (x : Fin n → ℝ), (∀ row ∈ A, row.length = n) → A.length = b.length →
    resid A (List.ofFn x) b = LH.ssq (toMatrix n A) (toVec A.length b) x := by
  induction A with
  | nil => intro b x _ _; simp [resid, LH.ssq, dotProduct]
  | cons r A ih =>
    intro b x hr hl
    cases b with
    | nil => simp at hl
    | cons v b =>
      have ih' := ih b x (fun row h => hr row (List.mem_cons_of_mem _ h)) (by simpa using hl)
      have e : resid (r :: A) (List.ofFn x) (v :: b) = ((List.zipWith (· * ·) r (List.ofFn x)).sum - v) ^ 2 + resid A (List.ofFn x) b := by simp [resid]
      rw [e, ih', sum_zip_get r n x (hr r (by simp))]
      unfold LH.ssq dotProduct
      rw [show (∑ i, (toVec (r :: A).length (v :: b) - toMatrix n (r :: A) *ᵥ x) i * (toVec (r :: A).length (v :: b) - toMatrix n (r :: A) *ᵥ x) i) =
        ∑ i : Fin (A.length + 1), (toVec (r :: A).length (v :: b) - toMatrix n (r :: A) *ᵥ x) i * (toVec (r :: A).length (v :: b) - toMatrix n (r :: A) *ᵥ x) i from rfl,
        Fin.sum_univ_succ]
      congr 1
      show _ = (v - ∑ j : Fin n, r.getD j 0 * x j) * (v - ∑ j : Fin n, r.getD j 0 * x j)
      ring

theorem lh_ok {tol : ℝ} {n : Nat} {A : List (List ℝ)} {b : List ℝ} {it : Option Nat} {x : List ℝ} (h : lhNnls tol n A b it = .ok x) :
    ∃ k r, LH.run (toMatrix n A) (toVec A.length b) tol k = some r ∧ x = List.ofFn r := by
  unfold lhNnls at h
  simp only at h
  split at h
  · rename_i r hr
    cases h
    exact ⟨_, r, hr, rfl⟩
  · cases h

theorem ofFn_toVec {n : Nat} {y : List ℝ} (h : y.length = n) : List.ofFn (toVec n y) = y := by
  subst h
  apply List.ext_getElem (by simp)
  intro i h1 h2
  simp [toVec, h2]

theorem sum_toVec {n : Nat} {y : List ℝ} (h : y.length = n) : ∑ j, toVec n y j = y.sum := by
  conv_rhs => rw [← ofFn_toVec h]
  rw [List.sum_ofFn]

theorem toVec_nonneg {n : Nat} {y : List ℝ} (h : ∀ v ∈ y, 0 ≤ v) (j : Fin n) : 0 ≤ toVec n y j := by
  unfold toVec
  by_cases hj : (j : Nat) < y.length
  · simpa [List.getD, List.getElem?_eq_getElem hj] using h _ (List.getElem_mem hj)
  · simp [List.getD, List.getElem?_eq_none (not_lt.mp hj)]

/-- C184: run with tolerance `tol`, the algorithm returns, if it does not reach its iteration limit, `n` nonnegative coefficients whose sum of squares is at
most that of any other nonnegative coefficients `y` plus `2 tol ∑ y`. -/
theorem C184_tolerance {tol : ℝ} (ht : 0 ≤ tol) (n : Nat) (A : List (List ℝ)) (b : List ℝ) (it : Option Nat) (x : List ℝ)
    (h : lhNnls tol n A b it = .ok x) : x.length = n ∧ (∀ v ∈ x, 0 ≤ v) ∧ ((∀ row ∈ A, row.length = n) → A.length = b.length →
      ∀ y : List ℝ, y.length = n → (∀ v ∈ y, 0 ≤ v) → resid A x b ≤ resid A y b + 2 * tol * y.sum) := by
  obtain ⟨k, r, hr, rfl⟩ := lh_ok h
  obtain ⟨Q, hQ, hg⟩ := LH.outer_kkt ht k ∅ 0 LH.inv_start hr
  refine ⟨by simp, ?_, fun hrow hl y hy hy0 => ?_⟩
  · intro v hv
    obtain ⟨j, rfl⟩ := (List.mem_ofFn' _ _).mp hv
    exact hQ.nonneg j
  · have := LH.kkt_opt hQ hg ht (toVec n y) (toVec_nonneg hy0)
    rw [← resid_matrix n A b _ hrow hl, ← resid_matrix n A b _ hrow hl, ofFn_toVec hy, sum_toVec hy] at this
    exact this

/-- C184: in exact arithmetic and with tolerance 0 the algorithm meets the contract assumed of the solver. -/
theorem C184_contract : NNLSOK (lhNnls 0) where
  len := fun n A b it x h => (C184_tolerance (le_refl 0) n A b it x h).1
  nonneg := fun n A b it x h => (C184_tolerance (le_refl 0) n A b it x h).2.1
  opt := fun n A b it x hr hl h y hy hy0 => by
    have := (C184_tolerance (le_refl 0) n A b it x h).2.2 hr hl y hy hy0
    linarith

/-- C184: a limit of at least `2 ^ n` iterations is never reached, whatever the matrix and the right-hand side. -/
theorem C184_limit (n : Nat) (A : List (List ℝ)) (b : List ℝ) (k : Nat) (hk : 2 ^ n ≤ k) : ∃ x, lhNnls 0 n A b (some k) = .ok x := by
  obtain ⟨r, hr⟩ := LH.run_returns (A := toMatrix n A) (b := toVec A.length b) k hk
  cases k with
  | zero => exact absurd hk (by simp)
  | succ k =>
    refine ⟨List.ofFn r, ?_⟩
    unfold lhNnls
    simp only [hr]

/-- without columns there is nothing to do -/
theorem lh_zero (A : List (List ℝ)) (b : List ℝ) (it : Option Nat) : ∃ x, lhNnls 0 0 A b it = .ok x := by
  unfold lhNnls
  simp only
  rw [LH.run, LH.outer, dif_neg (by rintro ⟨k, _⟩; exact k.elim0)]
  exact ⟨_, rfl⟩

theorem lh_error {tol : ℝ} {n : Nat} {A : List (List ℝ)} {b : List ℝ} {it : Option Nat} {e : PyErr} (h : lhNnls tol n A b it = .error e) :
    e = .runtimeError := by
  unfold lhNnls at h
  simp only at h
  split at h <;> cases h
  rfl

/-- C184: the two attempts of `fit_coeffs` (limits `3 n` and `100 n`) with at most nine templates: one of them returns. -/
theorem C184_retry (n : Nat) (hn : n ≤ 9) (A : List (List ℝ)) (b : List ℝ) : ∃ x, solve (lhNnls 0) n A b = .ok x := by
  unfold solve
  cases h : lhNnls 0 n A b none with
  | ok x => exact ⟨x, rfl⟩
  | error e =>
    rw [lh_error h]
    rcases Nat.eq_zero_or_pos n with h0 | h0
    · subst h0; exact lh_zero A b _
    · exact C184_limit n A b _ (by interval_cases n <;> norm_num)

/-- C184: with at most three templates the first attempt already returns. -/
theorem C184_first (n : Nat) (hn : n ≤ 3) (A : List (List ℝ)) (b : List ℝ) : ∃ x, lhNnls 0 n A b none = .ok x := by
  rcases Nat.eq_zero_or_pos n with h0 | h0
  · subst h0; exact lh_zero A b _
  · obtain ⟨r, hr⟩ := LH.run_returns (A := toMatrix n A) (b := toVec A.length b) (3 * n) (by interval_cases n <;> norm_num)
    refine ⟨List.ofFn r, ?_⟩
    unfold lhNnls
    simp only [hr]

/-- C184: with at most nine templates, `fit_coeffs` with this solver returns a best fit to the (AB corrected) photometry, for all photometry with nonnegative
weights at all redshifts in range, in every class (more than one band; see C57).  Nothing is assumed of the solver. -/
theorem C184_fit (F : Fitter ℝ) (h9 : F.templates.nsed ≤ 9) (hr : AbReady F.abCls F.responses.length) (hnb : F.responses.length ≠ 1) (Am : AMat ℝ)
    (hR : Ready F Am) (z : ℝ) (hz : InRange Am.x z) (m iv : List ℝ) (hm : m.length = F.responses.length) (hiv : iv.length = F.responses.length)
    (hpos : ∀ v ∈ iv, 0 ≤ v) (noise : Nat → Nat → Nat → ℝ) :
    ∃ c, F.fitCoeffs (lhNnls 0) (some (.scalar z)) (some (.vec m)) (some (.vec iv)) 0 noise = .ok ⟨.vec c, none⟩ ∧
      Optimal F z (abM F.abCls m) (abIv F.abCls iv) c :=
  C161_ab _ C184_contract F (C184_retry _ h9) hr hnb Am hR z hz m iv hm hiv hpos noise

/-- C184, tables of objects. -/
theorem C184_batch (F : Fitter ℝ) (h9 : F.templates.nsed ≤ 9) (hr : AbReady F.abCls F.responses.length) (hnb : F.responses.length ≠ 1) (Am : AMat ℝ)
    (hR : Ready F Am) (zs : List ℝ) (ms ivs : List (List ℝ)) (hl : zs.length ≠ 1)
    (hz : ∀ z ∈ zs, InRange Am.x z) (hml : ms.length = zs.length) (hivl : ivs.length = zs.length)
    (hmr : ∀ r ∈ ms, r.length = F.responses.length) (hivr : ∀ r ∈ ivs, r.length = F.responses.length)
    (hpos : ∀ iv ∈ ivs, ∀ v ∈ iv, 0 ≤ v) (noise : Nat → Nat → Nat → ℝ) :
    ∃ cs : List (List ℝ), cs.length = zs.length ∧
      F.fitCoeffs (lhNnls 0) (some (.vec zs)) (some (.arr [zs.length] F.responses.length ms)) (some (.arr [zs.length] F.responses.length ivs)) 0 noise =
        .ok ⟨.arr [zs.length] F.templates.nsed cs, none⟩ ∧
      ∀ (k : Nat) (z : ℝ) (m iv c : List ℝ), zs[k]? = some z → ms[k]? = some m → ivs[k]? = some iv → cs[k]? = some c →
        Optimal F z (abM F.abCls m) (abIv F.abCls iv) c :=
  C161_batch _ C184_contract F (C184_retry _ h9) hr hnb Am hR zs ms ivs hl hz hml hivl hmr hivr hpos noise

/-- C184, Monte Carlo draws: each of them is fitted too, whatever the noise. -/
theorem C184_mc (F : Fitter ℝ) (h9 : F.templates.nsed ≤ 9) (hF : NoAb F) (hnb : F.responses.length ≠ 1) (Am : AMat ℝ) (hR : Ready F Am) (z : ℝ)
    (hz : InRange Am.x z) (m iv : List ℝ) (hm : m.length = F.responses.length) (hiv : iv.length = F.responses.length) (mc : Nat) (hmc : 0 < mc)
    (noise : Nat → Nat → Nat → ℝ) :
    ∃ c cm mm, F.fitCoeffs (lhNnls 0) (some (.scalar z)) (some (.vec m)) (some (.vec iv)) mc noise = .ok ⟨.vec c, some (cm, mm)⟩ := by
  obtain ⟨M, hM⟩ := (at_ok_iff hR.good.ne).mpr hz
  exact fit_mc_returns C184_contract.len F (C184_retry _ h9) hF hnb Am hR.set z M hM (by rw [(at_shaped hR.good hM).1, hR.rows]) m iv hm hiv mc hmc noise

example : demoFitter2.templates.nsed ≤ 9 ∧ AbReady demoFitter2.abCls demoFitter2.responses.length ∧ demoFitter2.responses.length ≠ 1 ∧
    Ready demoFitter2 demoAm2 ∧ ∀ z ∈ [(2 : ℝ), 1 / 2], InRange demoAm2.x z :=
  ⟨by decide, trivial, by decide, demo_ready, by
    intro z hz
    simp only [List.mem_cons, List.not_mem_nil, or_false] at hz
    rcases hz with rfl | rfl <;> norm_num [InRange, demoAm2]⟩

/-- the algorithm at work: of the columns `(1, 0)` and `(-1, 1)` only the second lowers the residual of `(-1, 3)` -/
example : ∃ x, lhNnls 0 2 [[1, -1], [0, 1]] [-1, 3] none = .ok x ∧ resid [[1, -1], [0, 1]] x [-1, 3] ≤ resid [[1, -1], [0, 1]] [0, 2] [-1, 3] := by
  obtain ⟨x, hx⟩ := C184_first 2 (by norm_num) [[1, -1], [0, 1]] [-1, 3]
  exact ⟨x, hx, C184_contract.opt 2 _ _ none x (by simp) rfl hx [0, 2] rfl (by simp)⟩

end KC
