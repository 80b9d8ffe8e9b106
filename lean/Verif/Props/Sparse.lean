import Mathlib.LinearAlgebra.Matrix.ToLin
import Mathlib.LinearAlgebra.Dimension.StrongRankCondition
import Mathlib.LinearAlgebra.Dimension.Constructions
import Verif.Props.LawsonHanson
import Verif.Props.AnyBatch

/-!
# How many templates a fit uses (C201)
-/

namespace KC

/-- How many of the numbers are positive. -/
noncomputable def Spec.positive (l : List ℝ) : Nat := (l.filter (fun v => decide (0 < v))).length

open Spec Matrix

/-- Independent columns are no more than the rows that are not zero. -/
theorem LH.Indep.card_le {m n : Nat} {A : Matrix (Fin m) (Fin n) ℝ} {P : Finset (Fin n)} (h : LH.Indep A P) (R : Finset (Fin m)) (hR : ∀ i ∉ R, ∀ j, A i j = 0) :
    P.card ≤ R.card := by
  let B : Matrix R P ℝ := A.submatrix Subtype.val Subtype.val
  have hinj : Function.Injective B.mulVecLin := by
    rw [injective_iff_map_eq_zero]
    intro v hv
    let V : Fin n → ℝ := fun j => if hj : j ∈ P then v ⟨j, hj⟩ else 0
    have hsum : ∀ i, (A *ᵥ V) i = ∑ j : P, A i j.1 * v j := by
      intro i
      have e1 : (A *ᵥ V) i = ∑ j, A i j * V j := rfl
      rw [e1, ← Finset.sum_subset (Finset.subset_univ P) (fun j _ hj => by simp [V, hj]), ← Finset.sum_coe_sort P]
      exact Finset.sum_congr rfl (fun j _ => by simp [V, j.2])
    have hV : V = 0 := by
      apply h V (fun j hj => by simp [V, hj])
      funext i
      by_cases hi : i ∈ R
      · have := congrFun hv ⟨i, hi⟩
        rw [hsum]
        exact this
      · rw [hsum]
        exact Finset.sum_eq_zero (fun j _ => by rw [hR i hi, zero_mul])
    funext j
    have := congrFun hV j.1
    simpa [V, j.2] using this
  have := LinearMap.finrank_le_finrank_of_injective hinj
  simpa using this

theorem positive_ofFn {n : Nat} (r : Fin n → ℝ) : positive (List.ofFn r) = (Finset.univ.filter (fun j => 0 < r j)).card := by
  classical
  have e : (Finset.univ.filter (fun j => 0 < r j)) = ((List.finRange n).filter (fun j => decide (0 < r j))).toFinset := by
    ext j; simp
  rw [e, List.toFinset_card_of_nodup ((List.nodup_finRange n).filter _), positive, List.ofFn_eq_map, List.filter_map, List.length_map]
  rfl

theorem positive_card {n : Nat} {l : List ℝ} (h : l.length = n) : positive l = (Finset.univ.filter (fun j : Fin n => 0 < ent l j)).card := by
  have e : l = List.ofFn (fun j : Fin n => ent l j) := by
    apply List.ext_getElem (by simp [h])
    intro i h1 h2
    rw [List.getElem_ofFn, ent_some h1]
  conv_lhs => rw [e]
  exact positive_ofFn _

theorem positive_ab (cls : Cls) (iv : List ℝ) : positive (abIv cls iv) = positive iv := by
  rw [positive_card (abIv_length cls iv), positive_card rfl]
  congr 1
  ext j
  have hf := abFactor_pos cls j
  have e : ent (abIv cls iv) j = ent iv j / abFactor cls j ^ 2 := by
    simp only [ent, List.getD_eq_getElem?_getD, abIv, List.getElem?_mapIdx]
    cases iv[(j : Nat)]? <;> simp
  simp only [Finset.mem_filter, Finset.mem_univ, true_and, e]
  exact div_pos_iff_of_pos_right (by positivity)

/-- What the algorithm returns uses no more columns than there are rows with positive weight. -/
theorem lh_positive {tol : ℝ} (ht : 0 ≤ tol) {n : Nat} {M : List (List ℝ)} {iv b x : List ℝ} {it : Option Nat} (hl : iv.length = M.length)
    (h : lhNnls tol n (weighted (iv.map Arith.sqrt) M) b it = .ok x) : positive x ≤ positive iv := by
  obtain ⟨k, r, hr, rfl⟩ := lh_ok h
  obtain ⟨Q, hQ, _⟩ := LH.outer_kkt ht k ∅ 0 LH.inv_start hr
  have hw : (weighted (iv.map Arith.sqrt) M).length = iv.length := by simp [weighted, hl]
  have h1 : positive (List.ofFn r) ≤ Q.card := by
    rw [positive_ofFn]
    refine Finset.card_le_card (fun j hj => ?_)
    by_contra hn
    have := hQ.ls.1 j hn
    simp [this] at hj
  have h2 := hQ.indep.card_le (Finset.univ.filter (fun i => 0 < ent iv i)) (by
    intro i hi j
    have hz : ent iv i ≤ 0 := by simpa using hi
    have hi' : (i : Nat) < iv.length := by rw [← hw]; exact i.2
    have hm' : (i : Nat) < M.length := by rw [← hl]; exact hi'
    rw [ent_some hi'] at hz
    have hs : (Arith.sqrt (iv[(i : Nat)]) : ℝ) = 0 := Real.sqrt_eq_zero_of_nonpos hz
    simp only [toMatrix, weighted, List.getD_eq_getElem?_getD, List.getElem?_zipWith, List.getElem?_map, List.getElem?_eq_getElem hi', List.getElem?_eq_getElem hm',
      Option.map_some, Option.getD_some, hs]
    cases (M[(i : Nat)])[(j : Nat)]? <;> simp)
  rw [positive_card hw.symm]
  exact h1.trans h2

/-- C201: the coefficients that `fit_coeffs` returns with the algorithm of Lawson and Hanson are not negative, and no more of them are positive than there are
bands with positive inverse variance: for any number of templates, every tolerance and every class. -/
theorem C201_templates_used (tol : ℝ) (ht : 0 ≤ tol) (F : Fitter ℝ) (hr : AbReady F.abCls F.responses.length) (Am : AMat ℝ) (hR : Ready F Am) (z : ℝ)
    (hz : InRange Am.x z) (m iv : List ℝ) (hm : m.length = F.responses.length) (hiv : iv.length = F.responses.length) (noise : Nat → Nat → Nat → ℝ) (out : FitOut ℝ)
    (h : F.fitCoeffs (lhNnls tol) (some (.scalar z)) (some (.vec m)) (some (.vec iv)) 0 noise = .ok out) :
    ∃ c, out.coeffs = .vec c ∧ (∀ v ∈ c, 0 ≤ v) ∧ positive c ≤ positive iv := by
  obtain ⟨M, hM⟩ := (at_ok_iff hR.good.ne).mpr hz
  rw [fit_eff _ F hr z m iv hm hiv] at h
  change F.plain.fitCoeffs (lhNnls tol) (some (.scalar z)) (some (.vec (abM F.abCls m))) (some (.vec (abIv F.abCls iv))) 0 noise = .ok out at h
  have hm' : (abM F.abCls m).length = F.plain.responses.length := by rw [abM_length]; exact hm
  have hiv' : (abIv F.abCls iv).length = F.plain.responses.length := by rw [abIv_length]; exact hiv
  have hR' := ready_plain hR
  have hF : NoAb F.plain := Or.inl rfl
  rw [← positive_ab F.abCls iv]
  generalize F.plain = G at *
  generalize abM F.abCls m = m at *
  generalize abIv F.abCls iv = iv at *
  by_cases hnb : G.responses.length = 1
  · exfalso
    obtain ⟨x, rfl⟩ := List.length_eq_one_iff.mp (hm'.trans hnb)
    obtain ⟨v, rfl⟩ := List.length_eq_one_iff.mp (hiv'.trans hnb)
    rw [C57_false _ G hF Am hR'.set hnb z x v M hM 0 noise] at h
    cases h
  · have hl : iv.length = M.length := by rw [(at_shaped hR'.good hM).1, hR'.rows, hiv']
    rw [fit_scalar _ hF hnb z m iv hm' hiv', real_f32, map_f32_list, map_f32_list, fitU_in0 hR'.set hM _ hl] at h
    cases hs : solve (lhNnls tol) G.templates.nsed (weighted (iv.map Arith.sqrt) M) (rhs m (iv.map Arith.sqrt)) with
    | error e => rw [hs] at h; cases h
    | ok c =>
      rw [hs] at h; cases h
      obtain ⟨it, hit⟩ := solve_ok hs
      exact ⟨c, rfl, (C184_tolerance ht _ _ _ _ _ hit).2.1, lh_positive ht hl hit⟩

/-- C201, tables of every length. -/
theorem C201_batch (tol : ℝ) (ht : 0 ≤ tol) (F : Fitter ℝ) (hr : AbReady F.abCls F.responses.length) (hnb : F.responses.length ≠ 1) (Am : AMat ℝ) (hR : Ready F Am)
    (zs : List ℝ) (ms ivs : List (List ℝ)) (hm : ms.length = zs.length) (hiv : ivs.length = zs.length)
    (hmr : ∀ r ∈ ms, r.length = F.responses.length) (hivr : ∀ r ∈ ivs, r.length = F.responses.length) (noise : Nat → Nat → Nat → ℝ) (out : FitOut ℝ)
    (h : F.fitCoeffs (lhNnls tol) (some (.vec zs)) (some (.arr [zs.length] F.responses.length ms)) (some (.arr [zs.length] F.responses.length ivs)) 0 noise = .ok out) :
    ∃ cs, out.coeffs = .arr [zs.length] F.templates.nsed cs ∧ cs.length = zs.length ∧
      ∀ (k : Nat) (z : ℝ) (iv c : List ℝ), zs[k]? = some z → InRange Am.x z → ivs[k]? = some iv → cs[k]? = some c → (∀ v ∈ c, 0 ≤ v) ∧ positive c ≤ positive iv := by
  obtain ⟨cs, rfl, hl, hrow⟩ := (C52_every_length_partial (lhNnls tol) (fun n A b it x hx => (C184_tolerance ht n A b it x hx).1) F hr hnb zs ms ivs hm hiv hmr hivr
    noise noise).2 out h
  refine ⟨cs, rfl, hl, fun k z iv c h1 h2 h3 h4 => ?_⟩
  have hk : k < ms.length := by rw [hm]; exact (List.getElem?_eq_some_iff.mp h1).1
  have hm1 := List.getElem?_eq_getElem hk
  obtain ⟨c', e, p1, p2⟩ := C201_templates_used tol ht F hr Am hR z h2 (ms[k]) iv (hmr _ (List.getElem_mem hk)) (hivr _ (List.mem_of_getElem? h3)) noise _
    (hrow k z _ iv c h1 hm1 h3 h4)
  simp only [NDA.vec, NDA.arr.injEq, List.cons.injEq, and_true] at e
  obtain rfl := e.2.2
  exact ⟨p1, p2⟩

/-- C201: whatever the photometry, some best fit uses no more templates than there are bands with positive inverse variance. -/
theorem C201_exists (F : Fitter ℝ) (Am : AMat ℝ) (hR : Ready F Am) (z : ℝ) (hz : InRange Am.x z) (m iv : List ℝ) (hm : m.length = F.responses.length)
    (hiv : iv.length = F.responses.length) (hpos : ∀ v ∈ iv, 0 ≤ v) : ∃ c, Optimal F z m iv c ∧ positive c ≤ positive iv := by
  obtain ⟨M, hM⟩ := (at_ok_iff hR.good.ne).mpr hz
  have hsh := at_shaped hR.good hM
  obtain ⟨c, hit⟩ := C184_limit F.templates.nsed (weighted (iv.map Arith.sqrt) M) (rhs m (iv.map Arith.sqrt)) _ (le_refl _)
  have hn := C184_contract
  refine ⟨c, ?_, lh_positive (le_refl 0) (by rw [hsh.1, hR.rows, hiv]) hit⟩
  rw [optimal_iff hR hM]
  refine ⟨hn.len _ _ _ _ _ hit, hn.nonneg _ _ _ _ _ hit, ?_⟩
  intro y hy hy0
  have := hn.opt _ _ _ _ _ ?_ ?_ hit y hy hy0
  · rwa [resid_chi2 M m iv c hpos, resid_chi2 M m iv y hpos] at this
  · intro row hrow
    obtain ⟨i, hi, rfl⟩ := List.mem_iff_getElem.mp hrow
    simp only [weighted, List.getElem_zipWith, List.length_map]
    rw [← hR.cols]
    exact hsh.2 _ (List.getElem_mem _)
  · simp only [weighted, rhs, List.length_zipWith, List.length_map, hsh.1, hR.rows, hm, hiv]

/-- Not vacuous: with one of two bands measured, the fit returns and uses one of the two templates at most. -/
example : ∃ c, demoFitter2.fitCoeffs (lhNnls 0) (some (.scalar 2)) (some (.vec [1, 2])) (some (.vec [1, 0])) 0 (fun _ _ _ => 0) = .ok ⟨.vec c, none⟩ ∧
    c.length = 2 ∧ positive c ≤ 1 ∧ c ≠ [0, 0] := by
  have hin : InRange demoAm2.x 2 := by constructor <;> norm_num [demoAm2]
  obtain ⟨c, hc, hl, hc0, rc, hrc, hopt⟩ := C184_fit demoFitter2 (by show 2 ≤ 9; norm_num) trivial (by show 2 ≠ 1; norm_num) demoAm2 demo_ready 2 hin [1, 2] [1, 0] rfl rfl
    (by simp) (fun _ _ _ => 0)
  obtain ⟨c', e, _, hp⟩ := C201_templates_used 0 (le_refl 0) demoFitter2 trivial demoAm2 demo_ready 2 hin [1, 2] [1, 0] rfl rfl (fun _ _ _ => 0) _ hc
  simp only [NDA.vec, NDA.arr.injEq, List.cons.injEq, and_true] at e
  obtain rfl := e.2.2
  refine ⟨c, hc, hl, by simpa [positive] using hp, ?_⟩
  rintro rfl
  have hx : ∀ c : List ℝ, c.length = 2 → demoFitter2.reconstruct (some (.scalar 2)) (some (.vec c)) 0 = .ok (.vec (reconRow 0 [[1, 2], [3 / 2, 3 / 2]] c)) := by
    intro c hc
    refine (recon_real demoFitter2 demoAm2 2 c 0 hc).trans ?_
    rw [show ((1 : ℝ) + 2) * (1 + 0) - 1 = 2 by norm_num, demoAm2_at2]
    rfl
  obtain ⟨r1, hr1, hle⟩ := hopt [1, 0] rfl (by simp)
  have e1 := (hx [0, 0] rfl).symm.trans hrc
  have e2 := (hx [1, 0] rfl).symm.trans hr1
  simp only [Except.ok.injEq, NDA.vec, NDA.arr.injEq, List.cons.injEq, and_true] at e1 e2
  obtain rfl := e1.2.2
  obtain rfl := e2.2.2
  rw [show abM demoFitter2.abCls [1, 2] = [1, 2] from abM_base _, show abIv demoFitter2.abCls [1, 0] = [1, 0] from abIv_base _] at hle
  simp [chi2, reconRow, dot, sumL_real] at hle
  norm_num at hle

end KC
