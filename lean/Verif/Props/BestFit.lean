import Verif.Lemmas.Nnls
import Verif.Props.ToAb

/-!
C161: a best fit exists.  The contract `NNLSOK` of the solver can be met for every input, so the theorems that use it are about
programs that exist.
-/

namespace KC
open Spec

/-- the terms of chi-squared, band by band -/
theorem chi2_terms : ∀ (M : List (List ℝ)) (m iv c : List ℝ), chi2 m iv (mulVec M c) =
    ((M.zip (m.zip iv)).map (fun t => t.2.2 * (t.2.1 - dot t.1 c) ^ 2)).sum
  | [], m, iv, c => by simp [chi2, mulVec]
  | _ :: _, [], iv, c => by simp [chi2]
  | _ :: _, _ :: _, [], c => by simp [chi2]
  | row :: M, x :: m, v :: iv, c => by
    have ih := chi2_terms M m iv c
    simp only [chi2, mulVec, List.map_cons, List.zipWith_cons_cons, List.sum_cons, List.zip_cons_cons] at ih ⊢
    rw [ih]

/-- bands of zero weight leave chi-squared alone -/
theorem sum_keep (c : List ℝ) : ∀ T : List (List ℝ × ℝ × ℝ), (∀ t ∈ T, 0 ≤ t.2.2) → (T.map (fun t => t.2.2 * (t.2.1 - dot t.1 c) ^ 2)).sum =
    ((T.filter (fun t => decide (0 < t.2.2))).map (fun t => t.2.2 * (t.2.1 - dot t.1 c) ^ 2)).sum
  | [], _ => rfl
  | t :: T, h => by
    have ih := sum_keep c T (fun u hu => h u (List.mem_cons_of_mem _ hu))
    rcases (h t (by simp)).lt_or_eq with h0 | h0
    · rw [List.filter_cons_of_pos (by simpa using h0), List.map_cons, List.map_cons, List.sum_cons, List.sum_cons, ih]
    · rw [List.filter_cons_of_neg (by simp [← h0]), List.map_cons, List.sum_cons, ih, ← h0]
      ring

theorem dot_smul (s : ℝ) : ∀ (row c : List ℝ), (List.zipWith (· * ·) (row.map (fun a => s * a)) c).sum = s * dot row c
  | [], c => by simp [dot, sumL_real]
  | _ :: _, [] => by simp [dot, sumL_real]
  | a :: t, b :: c => by
    rw [dot_cons, List.map_cons, List.zipWith_cons_cons, List.sum_cons, dot_smul s t c]
    ring

/-- the same sum as a residual -/
theorem resid_keep (c : List ℝ) : ∀ T : List (List ℝ × ℝ × ℝ), (∀ t ∈ T, 0 ≤ t.2.2) →
    resid (T.map (fun t => t.1.map (fun a => Real.sqrt t.2.2 * a))) c (T.map (fun t => Real.sqrt t.2.2 * t.2.1)) =
    (T.map (fun t => t.2.2 * (t.2.1 - dot t.1 c) ^ 2)).sum
  | [], _ => by simp [resid]
  | t :: T, h => by
    have ih := resid_keep c T (fun u hu => h u (List.mem_cons_of_mem _ hu))
    have e := dot_smul (Real.sqrt t.2.2) t.1 c
    unfold resid at ih ⊢
    simp only [List.map_cons, List.zipWith_cons_cons, List.sum_cons]
    rw [ih, e]
    have := Real.mul_self_sqrt (h t (by simp))
    congr 1
    nlinarith

/-- C161: whatever the photometry and its weights, some nonnegative coefficients fit best, and some best fit uses at most as many
templates as there are bands with positive weight. -/
theorem C161_exists (F : Fitter ℝ) (Am : AMat ℝ) (hR : Ready F Am) (z : ℝ) (hz : InRange Am.x z) (m iv : List ℝ) (hm : m.length = F.responses.length)
    (hiv : iv.length = F.responses.length) (hpos : ∀ v ∈ iv, 0 ≤ v) :
    ∃ c, Optimal F z m iv c ∧ (c.filter (fun v => decide (v ≠ 0))).length ≤ (iv.filter (fun v => decide (0 < v))).length := by
  obtain ⟨M, hM⟩ := (at_ok_iff hR.good.ne).mpr hz
  have hMl : M.length = F.responses.length := by rw [(at_shaped hR.good hM).1, hR.rows]
  set T := (M.zip (m.zip iv)).filter (fun t => decide (0 < t.2.2)) with hT
  have hiv' : (M.zip (m.zip iv)).map (fun t => t.2.2) = iv := by
    have e : (fun t : List ℝ × ℝ × ℝ => t.2.2) = Prod.snd ∘ Prod.snd := rfl
    rw [e, ← List.map_map, List.map_snd_zip (by simp; omega), List.map_snd_zip (by omega)]
  have h0 : ∀ t ∈ M.zip (m.zip iv), 0 ≤ t.2.2 := by
    intro t ht
    refine hpos _ ?_
    rw [← hiv']
    exact List.mem_map_of_mem ht
  have h0T : ∀ t ∈ T, 0 ≤ t.2.2 := fun t ht => h0 t (List.mem_of_mem_filter ht)
  have hlen : T.length = (iv.filter (fun v => decide (0 < v))).length := by
    conv_rhs => rw [← hiv', List.filter_map, List.length_map]
    rfl
  have key : ∀ c, chi2 m iv (mulVec M c) = resid (T.map (fun t => t.1.map (fun a => Real.sqrt t.2.2 * a))) c (T.map (fun t => Real.sqrt t.2.2 * t.2.1)) := by
    intro c
    rw [chi2_terms, sum_keep c _ h0, resid_keep c T h0T]
  obtain ⟨c, hc, hc0, hopt, hcard⟩ := nnls_exists F.templates.nsed (T.map (fun t => t.1.map (fun a => Real.sqrt t.2.2 * a))) (T.map (fun t => Real.sqrt t.2.2 * t.2.1))
  refine ⟨c, (optimal_iff hR hM _ _ _).mpr ⟨hc, hc0, fun y hy hy0 => ?_⟩, hcard.trans (by simp [hlen])⟩
  rw [key, key]
  exact hopt y hy hy0

/-- C161: there is a solver that always returns and always returns a best solution. -/
theorem C161_solver : NNLSOK demoNnls ∧ NnlsReturns demoNnls := by
  refine ⟨demoNnls_ok, fun n A b it => ?_⟩
  obtain ⟨x, h1, h2, h3, _⟩ := nnls_exists n A b
  unfold demoNnls
  rw [dif_pos ⟨x, h1, h2, h3⟩]
  exact ⟨_, rfl⟩

/-- C161: with a solver that meets its contract and returns, at the first attempt or the second, `fit_coeffs` returns a best fit for all photometry with nonnegative
weights at all redshifts in range (more than one band; see C57). -/
theorem C161_fit (nnls : Nnls ℝ) (hn : NNLSOK nnls) (F : Fitter ℝ) (hret : ∀ A b, ∃ x, solve nnls F.templates.nsed A b = .ok x) (hF : NoAb F) (hnb : F.responses.length ≠ 1) (Am : AMat ℝ)
    (hR : Ready F Am) (z : ℝ) (hz : InRange Am.x z) (m iv : List ℝ) (hm : m.length = F.responses.length) (hiv : iv.length = F.responses.length)
    (hpos : ∀ v ∈ iv, 0 ≤ v) (noise : Nat → Nat → Nat → ℝ) :
    ∃ c, F.fitCoeffs nnls (some (.scalar z)) (some (.vec m)) (some (.vec iv)) 0 noise = .ok ⟨.vec c, none⟩ ∧ Optimal F z m iv c := by
  obtain ⟨M, hM⟩ := (at_ok_iff hR.good.ne).mpr hz
  have hfit := fit_scalar nnls hF hnb z m iv hm hiv 0 noise
  rw [real_f32, map_f32_list, map_f32_list, fitU_in0 hR.set hM _ (by rw [(at_shaped hR.good hM).1, hR.rows, hiv])] at hfit
  obtain ⟨c, hc⟩ := hret (weighted (iv.map Arith.sqrt) M) (rhs m (iv.map Arith.sqrt))
  rw [hc] at hfit
  obtain ⟨c', h1, h2⟩ := C49_optimal nnls hn F hF Am hR z hz m iv hm hiv hpos noise _ hfit
  refine ⟨c', ?_, h2⟩
  rw [hfit]
  exact congrArg Except.ok h1

example : Ready demoFitter2 demoAm2 ∧ InRange demoAm2.x 2 ∧ NoAb demoFitter2 ∧ demoFitter2.responses.length ≠ 1 :=
  ⟨demo_ready, by norm_num [InRange, demoAm2], Or.inl rfl, by decide⟩

end KC
