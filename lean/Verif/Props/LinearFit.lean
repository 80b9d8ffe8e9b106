import Mathlib.LinearAlgebra.Matrix.NonsingularInverse
import Verif.Props.CoeffCont
import Verif.Props.Optimum

/-!
# The fit as a function of the photometry at fixed redshift and errors (C202)
-/

namespace KC

/-- Which templates a fit uses: the positions of the positive coefficients. -/
noncomputable def Spec.used (c : List ℝ) : Finset Nat := (Finset.range c.length).filter (fun t => 0 < c.getD t 0)

open Spec Matrix

section
variable {J N : Nat} (a : Fin J → Fin N → ℝ) (w : Fin J → ℝ) (P : Finset Nat)

/-- The normal equations of the templates in `P`; the others are set to zero. -/
noncomputable def normalMat : Matrix (Fin N) (Fin N) ℝ :=
  Matrix.of fun k t => if (k : Nat) ∈ P then (if (t : Nat) ∈ P then ∑ j, w j * (a j k * a j t) else 0) else (if k = t then 1 else 0)

/-- The right-hand side, as a function of the photometry. -/
noncomputable def normalRhs (f : Fin J → ℝ) : Matrix (Fin N) (Fin J) ℝ := Matrix.of fun k j => if (k : Nat) ∈ P then w j * (a j k * f j) else 0

theorem normalMat_apply (v : Fin N → ℝ) (hv : ∀ t : Fin N, (t : Nat) ∉ P → v t = 0) (k : Fin N) :
    (normalMat a w P *ᵥ v) k = if (k : Nat) ∈ P then ∑ j, w j * (a j k * ∑ t, a j t * v t) else v k := by
  have e : (normalMat a w P *ᵥ v) k = ∑ t, normalMat a w P k t * v t := rfl
  rw [e]
  by_cases hk : (k : Nat) ∈ P
  · simp only [normalMat, Matrix.of_apply, hk, if_true]
    have : ∀ t : Fin N, (if (t : Nat) ∈ P then ∑ j, w j * (a j k * a j t) else 0) * v t = ∑ j, w j * (a j k * (a j t * v t)) := by
      intro t
      by_cases ht : (t : Nat) ∈ P
      · simp only [ht, if_true, Finset.sum_mul]
        exact Finset.sum_congr rfl (fun j _ => by ring)
      · simp [ht, hv t ht]
    simp only [this]
    rw [Finset.sum_comm]
    refine Finset.sum_congr rfl (fun j _ => ?_)
    rw [← Finset.mul_sum, ← Finset.mul_sum]
  · simp [normalMat, hk]

theorem normalMat_unit (hw : ∀ j, 0 ≤ w j) (hi : ∀ c : Fin N → ℝ, (∀ j, 0 < w j → ∑ t, a j t * c t = 0) → c = 0) : IsUnit (normalMat a w P).det := by
  rw [← Matrix.isUnit_iff_isUnit_det, ← Matrix.mulVec_injective_iff_isUnit]
  have key : ∀ v, normalMat a w P *ᵥ v = 0 → v = 0 := by
    intro v hv
    have hoff : ∀ t : Fin N, (t : Nat) ∉ P → v t = 0 := by
      intro t ht
      have := congrFun hv t
      have e : (normalMat a w P *ᵥ v) t = ∑ s, normalMat a w P t s * v s := rfl
      rw [e] at this
      simpa [normalMat, ht] using this
    have hsum : ∑ j, w j * (∑ t, a j t * v t) ^ 2 = 0 := by
      have e1 : ∑ k, v k * (∑ j, w j * (a j k * ∑ t, a j t * v t)) = 0 := by
        refine Finset.sum_eq_zero (fun k _ => ?_)
        by_cases hk : (k : Nat) ∈ P
        · have := congrFun hv k
          rw [normalMat_apply a w P v hoff, if_pos hk] at this
          rw [this, Pi.zero_apply, mul_zero]
        · rw [hoff k hk, zero_mul]
      rw [← e1]
      simp only [Finset.mul_sum]
      rw [Finset.sum_comm]
      refine Finset.sum_congr rfl (fun j _ => ?_)
      rw [sq, Finset.sum_mul, Finset.mul_sum]
      refine Finset.sum_congr rfl (fun k _ => ?_)
      rw [Finset.mul_sum, Finset.mul_sum]
      refine Finset.sum_congr rfl (fun t _ => ?_)
      ring
    apply hi
    intro j hj
    have := (Finset.sum_eq_zero_iff_of_nonneg (fun j _ => mul_nonneg (hw j) (sq_nonneg _))).mp hsum j (Finset.mem_univ j)
    rcases mul_eq_zero.mp this with h | h
    · exact absurd h hj.ne'
    · exact pow_eq_zero_iff (two_ne_zero) |>.mp h
  intro u v huv
  have := key (u - v) (by rw [Matrix.mulVec_sub]; simpa [sub_eq_zero] using huv)
  exact sub_eq_zero.mp this

/-- The solution is a linear function of the photometry. -/
theorem normal_solution (hw : ∀ j, 0 ≤ w j) (hi : ∀ c : Fin N → ℝ, (∀ j, 0 < w j → ∑ t, a j t * c t = 0) → c = 0) (f m : Fin J → ℝ) (c : Fin N → ℝ)
    (hc : ∀ t : Fin N, (t : Nat) ∉ P → c t = 0)
    (h : ∀ k : Fin N, (k : Nat) ∈ P → ∑ j, w j * (a j k * (m j * f j - ∑ t, a j t * c t)) = 0) (t : Fin N) :
    c t = ∑ j, ((normalMat a w P)⁻¹ * normalRhs a w P f) t j * m j := by
  have e : normalMat a w P *ᵥ c = normalRhs a w P f *ᵥ m := by
    funext k
    rw [normalMat_apply a w P c hc]
    have e2 : (normalRhs a w P f *ᵥ m) k = ∑ j, normalRhs a w P f k j * m j := rfl
    rw [e2]
    by_cases hk : (k : Nat) ∈ P
    · have := h k hk
      simp only [mul_sub, Finset.sum_sub_distrib] at this
      simp only [normalRhs, Matrix.of_apply, hk, if_true]
      rw [← sub_eq_zero.mp this]
      exact Finset.sum_congr rfl (fun j _ => by ring)
    · simp [normalRhs, hk, hc k hk]
  have e3 : c = ((normalMat a w P)⁻¹ * normalRhs a w P f) *ᵥ m := by
    rw [← Matrix.mulVec_mulVec, ← e, Matrix.mulVec_mulVec, Matrix.nonsing_inv_mul _ (normalMat_unit a w P hw hi), Matrix.one_mulVec]
  conv_lhs => rw [e3]
  rfl

end

theorem ip_fin : ∀ (n : Nat) (iv a b : List ℝ), iv.length = n → a.length = n → b.length = n → ip iv a b = ∑ j : Fin n, ent iv j * (ent a j * ent b j)
  | 0, [], [], [], _, _, _ => by simp [ip]
  | n + 1, v :: iv, x :: a, y :: b, h1, h2, h3 => by
    have ih := ip_fin n iv a b (by simpa using h1) (by simpa using h2) (by simpa using h3)
    rw [Fin.sum_univ_succ]
    simp only [ip, List.zipWith_cons_cons, List.sum_cons] at ih ⊢
    rw [ih]
    rfl

theorem used_ofFn {n : Nat} (c : Fin n → ℝ) (t : Fin n) : (t : Nat) ∈ used (List.ofFn c) ↔ 0 < c t := by
  simp [used, List.getD_eq_getElem?_getD]

/-- The entries of the coupling of templates to bands, with what is used of them below. -/
theorem fit_normal {F : Fitter ℝ} {A : AMat ℝ} (hR : Ready F A) (hr : AbReady F.abCls F.responses.length) (z : ℝ) (hz : InRange A.x z) (iv : List ℝ)
    (hiv : iv.length = F.responses.length) (hpos : ∀ v ∈ iv, 0 ≤ v) (hi : Spec.Indep F z iv) :
    ∃ a : Fin F.responses.length → Fin F.templates.nsed → ℝ,
      (∀ c : List ℝ, c.length = F.templates.nsed → F.reconstruct (some (.scalar z)) (some (.vec c)) 0 = .ok (.vec (List.ofFn (fun j => ∑ t, a j t * ent c t)))) ∧
      (∀ j : Fin F.responses.length, 0 ≤ ent (abIv F.abCls iv) j) ∧
      (∀ c : Fin F.templates.nsed → ℝ, (∀ j : Fin F.responses.length, 0 < ent (abIv F.abCls iv) j → ∑ t, a j t * c t = 0) → c = 0) ∧
      ∀ (nnls : Nnls ℝ), NNLSOK nnls → ∀ (m : List ℝ), m.length = F.responses.length → ∀ (noise : Nat → Nat → Nat → ℝ) (out : FitOut ℝ),
        F.fitCoeffs nnls (some (.scalar z)) (some (.vec m)) (some (.vec iv)) 0 noise = .ok out →
        ∃ c : Fin F.templates.nsed → ℝ, out.coeffs = .vec (List.ofFn c) ∧ (∀ t, 0 ≤ c t) ∧
          ∀ k : Fin F.templates.nsed, 0 < c k → ∑ j : Fin F.responses.length, ent (abIv F.abCls iv) j * (a j k * (ent m j * abFactor F.abCls j - ∑ t, a j t * c t)) = 0 := by
  obtain ⟨a, -, am⟩ := hR.model
  refine ⟨fun j t => a j t ⟨z, hz⟩, fun c hc => am ⟨z, hz⟩ c hc, ?_, ?_, ?_⟩
  · intro j
    have hj : (j : Nat) < (abIv F.abCls iv).length := by rw [abIv_length, hiv]; exact j.2
    rw [ent_some hj]
    exact abIv_nonneg _ _ hpos _ (List.getElem_mem hj)
  · intro c hc
    have hall := hi (List.ofFn c) _ (by simp) (am ⟨z, hz⟩ (List.ofFn c) (by simp)) (by
      intro j v hv hv0
      have hj : j < F.responses.length := by rw [← hiv]; exact (List.getElem?_eq_some_iff.mp hv).1
      obtain ⟨w1, w2⟩ := abIv_pos (cls := F.abCls) hv hv0
      have := hc ⟨j, hj⟩ (by simp only [ent, List.getD_eq_getElem?_getD, w1]; exact w2)
      rw [List.getElem?_ofFn]
      simp only [hj, dif_pos, Option.some.injEq]
      rw [← this]
      refine Finset.sum_congr rfl (fun t _ => ?_)
      simp [ent])
    funext t
    exact hall _ (List.mem_ofFn.mpr ⟨t, rfl⟩)
  · intro nnls hn m hm noise out h
    obtain ⟨c, rfl, ho⟩ := C49_ab nnls hn F hr A hR z hz m iv hm hiv hpos noise out h
    have hlen := ho.1
    have hE : c = List.ofFn (fun t : Fin F.templates.nsed => ent c t) := by
      apply List.ext_getElem (by simp [hlen])
      intro i h1 h2
      rw [List.getElem_ofFn, ent_some h1]
    refine ⟨fun t => ent c t, by rw [← hE], ?_, ?_⟩
    · intro t
      have ht : (t : Nat) < c.length := by rw [hlen]; exact t.2
      show 0 ≤ ent c t
      rw [ent_some ht]
      exact ho.2.1 _ (List.getElem_mem ht)
    · intro k hk
      change 0 < ent c k at hk
      have hkl : (k : Nat) < c.length := by rw [hlen]; exact k.2
      obtain ⟨r, u, hr1, hu, _, heq⟩ := C112_templates F A hR z hz (abM F.abCls m) (abIv F.abCls iv) c (by rw [abM_length, hm]) ho k k.2
      have h0 := heq ⟨_, List.getElem?_eq_getElem hkl, by rw [ent_some hkl] at hk; exact hk⟩
      have e1 := (am ⟨z, hz⟩ c hlen).symm.trans hr1
      have e2 := (am ⟨z, hz⟩ (unit F.templates.nsed k 1) (by simp [unit])).symm.trans hu
      simp only [Except.ok.injEq, NDA.vec, NDA.arr.injEq, List.cons.injEq, and_true] at e1 e2
      obtain rfl := e1.2.2
      obtain rfl := e2.2.2
      rw [ip_fin F.responses.length _ _ _ (by rw [abIv_length, hiv]) (by simp [sub, abM_length, hm]) (by simp)] at h0
      rw [← h0]
      refine Finset.sum_congr rfl (fun j _ => ?_)
      have hj : (j : Nat) < (abM F.abCls m).length := by rw [abM_length, hm]; exact j.2
      have eu : ent (List.ofFn (fun j => ∑ t, a j t ⟨z, hz⟩ * ent (unit F.templates.nsed k 1) t)) (j : Nat) = a j k ⟨z, hz⟩ := by
        rw [ent_some (by simp), List.getElem_ofFn]
        have : ∀ t : Fin F.templates.nsed, ent (unit F.templates.nsed k 1) t = if t = k then (1 : ℝ) else 0 := by
          intro t
          rw [ent_some (by simp [unit])]
          simp [unit, Fin.ext_iff]
        simp [this]
      have es : ent (sub (abM F.abCls m) (List.ofFn (fun j => ∑ t, a j t ⟨z, hz⟩ * ent c t))) j = ent m j * abFactor F.abCls j - ∑ t, a j t ⟨z, hz⟩ * ent c t := by
        rw [← ab_ent, ent_some (by simp [sub, abM_length, hm]), ent_some hj]
        simp [sub]
      rw [eu, es]
      ring

/-- C202: at a fixed redshift and fixed inverse variances the coefficients are a linear function of the photometry for each set of templates that the fit uses: the fit is
piecewise linear, with one piece per set at most, whatever the solver. -/
theorem C202_piecewise (F : Fitter ℝ) (A : AMat ℝ) (hR : Ready F A) (hr : AbReady F.abCls F.responses.length) (z : ℝ) (hz : InRange A.x z) (iv : List ℝ)
    (hiv : iv.length = F.responses.length) (hpos : ∀ v ∈ iv, 0 ≤ v) (hi : Spec.Indep F z iv) :
    ∃ L : Finset Nat → Nat → Nat → ℝ, ∀ (nnls : Nnls ℝ), NNLSOK nnls → ∀ (m : List ℝ), m.length = F.responses.length → ∀ (noise : Nat → Nat → Nat → ℝ) (out : FitOut ℝ),
      F.fitCoeffs nnls (some (.scalar z)) (some (.vec m)) (some (.vec iv)) 0 noise = .ok out →
      ∃ c, out.coeffs = .vec c ∧ c.length = F.templates.nsed ∧ ∀ (t : Nat) (x : ℝ), c[t]? = some x → x = ∑ j : Fin F.responses.length, L (used c) t j * m.getD j 0 := by
  obtain ⟨a, -, hw, hind, hfit⟩ := fit_normal hR hr z hz iv hiv hpos hi
  let w : Fin F.responses.length → ℝ := fun j => ent (abIv F.abCls iv) j
  refine ⟨fun P t j => if ht : t < F.templates.nsed then if hj : j < F.responses.length then
    ((normalMat a w P)⁻¹ * normalRhs a w P (fun j => abFactor F.abCls j)) ⟨t, ht⟩ ⟨j, hj⟩ else 0 else 0, ?_⟩
  intro nnls hn m hm noise out h
  obtain ⟨c, hc, hc0, hk⟩ := hfit nnls hn m hm noise out h
  refine ⟨_, hc, by simp, fun t x hx => ?_⟩
  obtain ⟨ht, rfl⟩ := List.getElem?_eq_some_iff.mp hx
  have ht' : t < F.templates.nsed := by simpa using ht
  rw [List.getElem_ofFn]
  have := normal_solution a w (used (List.ofFn c)) hw hind (fun j => abFactor F.abCls j) (fun j => ent m j) c
    (fun t ht => le_antisymm (not_lt.mp (fun h => ht ((used_ofFn c t).mpr h))) (hc0 t)) (fun k hk' => hk k ((used_ofFn c k).mp hk')) ⟨t, ht'⟩
  rw [this]
  refine Finset.sum_congr rfl (fun j _ => ?_)
  simp only [ht', j.2, dif_pos]
  congr 1
  simp [ent]

/-- C202: where all coefficients of a fit are positive, the coefficients of the fits to photometry near it are an affine function of the photometry. -/
theorem C202_local (nnls nnls' : Nnls ℝ) (hn : NNLSOK nnls) (hn' : NNLSOK nnls') (F : Fitter ℝ) (A : AMat ℝ) (hR : Ready F A) (hr : AbReady F.abCls F.responses.length)
    (m iv : List ℝ) (hm : m.length = F.responses.length) (hiv : iv.length = F.responses.length) (hpos : ∀ v ∈ iv, 0 ≤ v) (z : ℝ) (hz : InRange A.x z)
    (hi : Spec.Indep F z iv) (noise0 : Nat → Nat → Nat → ℝ) (c0 : List ℝ)
    (h0 : F.fitCoeffs nnls (some (.scalar z)) (some (.vec m)) (some (.vec iv)) 0 noise0 = .ok ⟨.vec c0, none⟩) (hc0 : ∀ v ∈ c0, 0 < v) :
    ∃ (L : Nat → Nat → ℝ) (δ : ℝ), 0 < δ ∧ ∀ (m' : List ℝ) (noise : Nat → Nat → Nat → ℝ) (out : FitOut ℝ), Near δ m m' →
      F.fitCoeffs nnls' (some (.scalar z)) (some (.vec m')) (some (.vec iv)) 0 noise = .ok out →
      ∃ c, out.coeffs = .vec c ∧ c.length = c0.length ∧ (∀ v ∈ c, 0 < v) ∧
        ∀ (t : Nat) (x y : ℝ), c0[t]? = some x → c[t]? = some y → y - x = ∑ j : Fin F.responses.length, L t j * (m'.getD j 0 - m.getD j 0) := by
  have vinj : ∀ a b : List ℝ, NDA.vec a = NDA.vec b → a = b := by
    intro a b h
    simp only [NDA.vec, NDA.arr.injEq, List.cons.injEq, and_true] at h
    exact h.2.2
  obtain ⟨L, hL⟩ := C202_piecewise F A hR hr z hz iv hiv hpos hi
  obtain ⟨c1, e1, hl1, hr1⟩ := hL nnls hn m hm noise0 _ h0
  obtain rfl := vinj _ _ e1
  have hused : ∀ c : List ℝ, (∀ v ∈ c, 0 < v) → used c = Finset.range c.length := by
    intro c hc
    refine Finset.filter_true_of_mem (fun t ht => ?_)
    have ht' := Finset.mem_range.mp ht
    rw [List.getD_eq_getElem?_getD, List.getElem?_eq_getElem ht', Option.getD_some]
    exact hc _ (List.getElem_mem ht')
  -- a bound below on the coefficients
  obtain ⟨ε, hε, hlow⟩ : ∃ ε : ℝ, 0 < ε ∧ ∀ v ∈ c0, ε ≤ v := by
    clear h0 hr1 e1 hl1
    induction c0 with
    | nil => exact ⟨1, one_pos, by simp⟩
    | cons x c ih =>
      obtain ⟨ε, h1, h2⟩ := ih (fun v hv => hc0 v (List.mem_cons_of_mem _ hv))
      refine ⟨min x ε, lt_min (hc0 x List.mem_cons_self) h1, fun v hv => ?_⟩
      rcases List.mem_cons.mp hv with rfl | hv
      · exact min_le_left _ _
      · exact (min_le_right _ _).trans (h2 v hv)
  obtain ⟨c2, δ, e2, hδ, hnear⟩ := C200_coefficients nnls nnls' hn hn' F A hR hr m iv hm hiv hpos z hz hi noise0 _ h0 ε hε
  obtain rfl := vinj _ _ e2
  refine ⟨L (Finset.range c0.length), δ, hδ, fun m' noise out hm' hf => ?_⟩
  obtain ⟨c, ec, hcn⟩ := hnear z m' iv noise out hz (by simpa using hδ) hm' ⟨rfl, fun j x y hx hy => by
    obtain rfl := Option.some.inj (hx.symm.trans hy)
    simpa using hδ⟩ hpos hf
  obtain ⟨c', ec', hl', hr'⟩ := hL nnls' hn' m' (hm'.1.trans hm) noise out hf
  obtain rfl := vinj _ _ (ec.symm.trans ec')
  have hcpos : ∀ v ∈ c, 0 < v := by
    intro v hv
    obtain ⟨t, ht, rfl⟩ := List.mem_iff_getElem.mp hv
    have ht0 : t < c0.length := by rw [← hcn.1]; exact ht
    have := abs_lt.mp (hcn.2 t _ _ (List.getElem?_eq_getElem ht0) (List.getElem?_eq_getElem ht))
    have := hlow _ (List.getElem_mem ht0)
    linarith
  refine ⟨c, ec, hcn.1, hcpos, fun t x y hx hy => ?_⟩
  have e3 := hr1 t x hx
  have e4 := hr' t y hy
  rw [hused _ hc0] at e3
  rw [hused _ hcpos, hcn.1] at e4
  rw [e3, e4, ← Finset.sum_sub_distrib]
  exact Finset.sum_congr rfl (fun j _ => by ring)

/-- C202, the Hessian: between two fits with all coefficients positive, the change of the photometry and the change of the model fluxes agree in the inner product of the inverse
variances with the fluxes of every template. -/
theorem C202_hessian (nnls nnls' : Nnls ℝ) (hn : NNLSOK nnls) (hn' : NNLSOK nnls') (F : Fitter ℝ) (A : AMat ℝ) (hR : Ready F A) (hr : AbReady F.abCls F.responses.length)
    (m m' iv : List ℝ) (hm : m.length = F.responses.length) (hm' : m'.length = F.responses.length) (hiv : iv.length = F.responses.length) (hpos : ∀ v ∈ iv, 0 ≤ v) (z : ℝ)
    (hz : InRange A.x z) (noise noise' : Nat → Nat → Nat → ℝ) (c c' : List ℝ)
    (h : F.fitCoeffs nnls (some (.scalar z)) (some (.vec m)) (some (.vec iv)) 0 noise = .ok ⟨.vec c, none⟩)
    (h' : F.fitCoeffs nnls' (some (.scalar z)) (some (.vec m')) (some (.vec iv)) 0 noise' = .ok ⟨.vec c', none⟩) (hc : ∀ v ∈ c, 0 < v) (hc' : ∀ v ∈ c', 0 < v) :
    ∃ r r', F.reconstruct (some (.scalar z)) (some (.vec c)) 0 = .ok (.vec r) ∧ F.reconstruct (some (.scalar z)) (some (.vec c')) 0 = .ok (.vec r') ∧
      ∀ k < F.templates.nsed, ∃ a, F.reconstruct (some (.scalar z)) (some (.vec (unit F.templates.nsed k 1))) 0 = .ok (.vec a) ∧
        ip (abIv F.abCls iv) (sub r' r) a = ip (abIv F.abCls iv) (sub (abM F.abCls m') (abM F.abCls m)) a := by
  have vinj : ∀ a b : List ℝ, NDA.vec a = NDA.vec b → a = b := by
    intro a b h
    simp only [NDA.vec, NDA.arr.injEq, List.cons.injEq, and_true] at h
    exact h.2.2
  obtain ⟨d, e, ho⟩ := C49_ab nnls hn F hr A hR z hz m iv hm hiv hpos noise _ h
  obtain ⟨d', e', ho'⟩ := C49_ab nnls' hn' F hr A hR z hz m' iv hm' hiv hpos noise' _ h'
  obtain rfl := vinj _ _ (congrArg FitOut.coeffs e)
  obtain rfl := vinj _ _ (congrArg FitOut.coeffs e')
  obtain ⟨M, hM⟩ := (at_ok_iff hR.good.ne).mpr hz
  have hMl : M.length = F.responses.length := by rw [(at_shaped hR.good hM).1, hR.rows]
  refine ⟨_, _, recon_ready hR hM ho.1, recon_ready hR hM ho'.1, fun k hk => ⟨_, recon_ready hR hM (by simp [unit]), ?_⟩⟩
  have key : ∀ (m c : List ℝ), m.length = F.responses.length → Optimal F z (abM F.abCls m) (abIv F.abCls iv) c → (∀ v ∈ c, 0 < v) →
      ip (abIv F.abCls iv) (sub (abM F.abCls m) (mulVec M c)) (mulVec M (unit F.templates.nsed k 1)) = 0 := by
    intro m c hm ho hc
    obtain ⟨r, a, e1, e2, _, e3⟩ := C112_templates F A hR z hz (abM F.abCls m) (abIv F.abCls iv) c (by rw [abM_length, hm]) ho k hk
    rw [recon_ready hR hM ho.1] at e1
    rw [recon_ready hR hM (by simp [unit])] at e2
    obtain rfl := vinj _ _ (Except.ok.inj e1)
    obtain rfl := vinj _ _ (Except.ok.inj e2)
    have hkc : k < c.length := by rw [ho.1]; exact hk
    exact e3 ⟨_, List.getElem?_eq_getElem hkc, hc _ (List.getElem_mem hkc)⟩
  have k1 := key m c hm ho hc
  have k2 := key m' c' hm' ho' hc'
  have lm : ∀ c, (mulVec M c).length = F.responses.length := by intro c; simp [mulVec, hMl]
  have ls : ∀ a b : List ℝ, a.length = F.responses.length → b.length = F.responses.length → (sub a b).length = F.responses.length := by
    intro a b h1 h2; simp [sub, h1, h2]
  have es : ∀ (a b : List ℝ) (j : Fin F.responses.length), a.length = F.responses.length → b.length = F.responses.length → ent (sub a b) j = ent a j - ent b j := by
    intro a b j h1 h2
    rw [ent_some (by rw [ls a b h1 h2]; exact j.2), ent_some (by rw [h1]; exact j.2), ent_some (by rw [h2]; exact j.2)]
    simp [sub]
  have la : ∀ m : List ℝ, m.length = F.responses.length → (abM F.abCls m).length = F.responses.length := by intro m h; rw [abM_length, h]
  have li : (abIv F.abCls iv).length = F.responses.length := by rw [abIv_length, hiv]
  rw [ip_fin _ _ _ _ li (ls _ _ (la _ hm) (lm _)) (lm _)] at k1
  rw [ip_fin _ _ _ _ li (ls _ _ (la _ hm') (lm _)) (lm _)] at k2
  rw [ip_fin _ _ _ _ li (ls _ _ (lm _) (lm _)) (lm _), ip_fin _ _ _ _ li (ls _ _ (la _ hm') (la _ hm)) (lm _), ← sub_eq_zero, ← Finset.sum_sub_distrib]
  rw [show (0 : ℝ) = 0 - 0 by ring]
  nth_rewrite 1 [← k1]
  rw [← k2, ← Finset.sum_sub_distrib]
  refine Finset.sum_congr rfl (fun j _ => ?_)
  rw [es _ _ j (lm _) (lm _), es _ _ j (la _ hm') (la _ hm), es _ _ j (la _ hm) (lm _), es _ _ j (la _ hm') (lm _)]
  ring

/-- C202, not where coefficients are pinned at zero: near zero photometry, which all coefficients zero fit, no affine rule gives the coefficients. -/
theorem C202_pinned (nnls : Nnls ℝ) (hn : NNLSOK nnls) (F : Fitter ℝ) (hret : ∀ A b, ∃ x, solve nnls F.templates.nsed A b = .ok x) (A : AMat ℝ) (hR : Ready F A)
    (hr : AbReady F.abCls F.responses.length) (hnb : F.responses.length ≠ 1) (hT : 0 < F.templates.nsed) (iv : List ℝ) (hiv : iv.length = F.responses.length)
    (hpos : ∀ v ∈ iv, 0 ≤ v) (z : ℝ) (hz : InRange A.x z) (hi : Spec.Indep F z iv) (noise : Nat → Nat → Nat → ℝ) :
    F.fitCoeffs nnls (some (.scalar z)) (some (.vec (List.replicate F.responses.length 0))) (some (.vec iv)) 0 noise =
        .ok ⟨.vec (List.replicate F.templates.nsed 0), none⟩ ∧
      ∀ (L : Nat → Nat → ℝ) (δ : ℝ), 0 < δ → ∃ m' c, Near δ (List.replicate F.responses.length 0) m' ∧
        F.fitCoeffs nnls (some (.scalar z)) (some (.vec m')) (some (.vec iv)) 0 noise = .ok ⟨.vec c, none⟩ ∧
        ¬ ∀ (t : Nat) (y : ℝ), c[t]? = some y → y = ∑ j : Fin F.responses.length, L t j * m'.getD j 0 := by
  obtain ⟨a, am, -, -, -⟩ := fit_normal hR hr z hz iv hiv hpos hi
  let f : Fin F.responses.length → ℝ := fun j => abFactor F.abCls j
  have hf : ∀ j, f j ≠ 0 := fun j => (abFactor_pos F.abCls j).ne'
  -- photometry that the coefficients `c` fit exactly gives back `c`
  have hexact : ∀ c : List ℝ, c.length = F.templates.nsed → (∀ v ∈ c, 0 ≤ v) →
      F.fitCoeffs nnls (some (.scalar z)) (some (.vec (List.ofFn (fun j => (∑ t, a j t * ent c t) / f j)))) (some (.vec iv)) 0 noise = .ok ⟨.vec c, none⟩ := by
    intro c hl h0
    obtain ⟨c', hfit, ho⟩ := C161_ab nnls hn F hret hr hnb A hR z hz (List.ofFn (fun j => (∑ t, a j t * ent c t) / f j)) iv (by simp) hiv hpos noise
    obtain ⟨m, _, hm, hom⟩ := exact_optimal hR hz hl h0 (iv := abIv F.abCls iv) (abIv_nonneg _ _ hpos)
    rw [am c hl] at hm
    simp only [Except.ok.injEq, NDA.vec, NDA.arr.injEq, List.cons.injEq, and_true] at hm
    obtain rfl := hm.2.2
    have e : abM F.abCls (List.ofFn (fun j => (∑ t, a j t * ent c t) / f j)) = List.ofFn (fun j => ∑ t, a j t * ent c t) := by
      apply List.ext_getElem (by simp [abM_length])
      intro i h1 h2
      simp only [abM, List.getElem_mapIdx, List.getElem_ofFn]
      exact div_mul_cancel₀ _ (hf ⟨i, by simpa using h2⟩)
    rw [e] at ho
    rw [hfit, optimal_eq F A hR z hz _ _ (by simp) (by rw [abIv_length, hiv]) (abIv_nonneg _ _ hpos) (indep_ab _ hi) c' c ho hom]
  refine ⟨?_, fun L δ hδ => ?_⟩
  · have := hexact (List.replicate F.templates.nsed 0) (by simp) (by intro v hv; rw [List.eq_of_mem_replicate hv])
    rw [← this]
    congr 3
    apply List.ext_getElem (by simp)
    intro i h1 h2
    simp only [List.getElem_replicate, List.getElem_ofFn]
    symm
    rw [div_eq_zero_iff]
    left
    refine Finset.sum_eq_zero (fun t _ => ?_)
    rw [ent_some (by simp), List.getElem_replicate, mul_zero]
  · by_contra hcon
    push Not at hcon
    let g : Fin F.responses.length → ℝ := fun j => a j ⟨0, hT⟩ / f j
    let S := ∑ j, |g j|
    have hS : 0 ≤ S := Finset.sum_nonneg (fun j _ => abs_nonneg _)
    let s := δ / (1 + S)
    have hs : 0 < s := by positivity
    have hsg : ∀ j, |s * g j| < δ := by
      intro j
      have h1 : |g j| ≤ S := Finset.single_le_sum (f := fun j => |g j|) (fun j _ => abs_nonneg _) (Finset.mem_univ j)
      rw [abs_mul, abs_of_pos hs]
      have : s * |g j| < s * (1 + S) := mul_lt_mul_of_pos_left (by linarith) hs
      have e : s * (1 + S) = δ := div_mul_cancel₀ _ (by positivity)
      linarith
    have hnear : ∀ h : Fin F.responses.length → ℝ, (∀ j, |h j| < δ) → Near δ (List.replicate F.responses.length 0) (List.ofFn h) := by
      intro h hh
      refine ⟨by simp, fun j x y hx hy => ?_⟩
      obtain ⟨h1, rfl⟩ := List.getElem?_eq_some_iff.mp hx
      obtain ⟨h2, rfl⟩ := List.getElem?_eq_some_iff.mp hy
      rw [List.getElem_ofFn, List.getElem_replicate, sub_zero]
      exact hh _
    have hu : ∀ v ∈ unit F.templates.nsed 0 s, 0 ≤ v := by
      intro v hv
      simp only [unit, List.mem_map, List.mem_range] at hv
      obtain ⟨j, _, rfl⟩ := hv
      split
      · exact hs.le
      · exact le_refl 0
    have h1 := hexact (unit F.templates.nsed 0 s) (by simp [unit]) hu
    have e1 : (fun j => (∑ t, a j t * ent (unit F.templates.nsed 0 s) t) / f j) = fun j => s * g j := by
      funext j
      have : ∀ t : Fin F.templates.nsed, a j t * ent (unit F.templates.nsed 0 s) t = if t = ⟨0, hT⟩ then a j ⟨0, hT⟩ * s else 0 := by
        intro t
        rw [ent_some (by simp [unit])]
        by_cases ht : t = ⟨0, hT⟩
        · simp [unit, ht]
        · have : (t : Nat) ≠ 0 := fun h => ht (Fin.ext h)
          simp [unit, ht, this]
      simp only [this, Finset.sum_ite_eq', Finset.mem_univ, if_true, g]
      ring
    rw [e1] at h1
    have r1 := hcon _ _ (hnear _ hsg) h1 0 s (by simp [unit, hT])
    obtain ⟨c', h2, ho⟩ := C161_ab nnls hn F hret hr hnb A hR z hz (List.ofFn (fun j => -(s * g j))) iv (by simp) hiv hpos noise
    have hc' : 0 < c'.length := by rw [ho.1]; exact hT
    have r2 := hcon _ _ (hnear _ (fun j => by rw [abs_neg]; exact hsg j)) h2 0 _ (List.getElem?_eq_getElem hc')
    have r3 := ho.2.1 _ (List.getElem_mem hc')
    have e : ∑ j : Fin F.responses.length, L 0 j * (List.ofFn (fun j => -(s * g j))).getD j 0 = -∑ j : Fin F.responses.length, L 0 j * (List.ofFn (fun j => s * g j)).getD j 0 := by
      rw [← Finset.sum_neg_distrib]
      refine Finset.sum_congr rfl (fun j _ => ?_)
      simp [List.getD_eq_getElem?_getD]
    rw [e, ← r1] at r2
    rw [r2] at r3
    linarith

/-- Not vacuous: two templates, both used by the fit to the photometry of their sum. -/
theorem demo_used : ∃ c0, Ready demoKc2.toFitter demoAm2 ∧ InRange demoAm2.x 2 ∧ Spec.Indep demoKc2.toFitter 2 [1, 1 / 2] ∧
    demoKc2.toFitter.fitCoeffs (lhNnls 0) (some (.scalar 2)) (some (.vec [3, 3])) (some (.vec [1, 1 / 2])) 0 (fun _ _ _ => 0) = .ok ⟨.vec c0, none⟩ ∧
    c0.length = 2 ∧ ∀ v ∈ c0, 0 < v := by
  have hin : InRange demoAm2.x 2 := by constructor <;> norm_num [demoAm2]
  have h0 : demoAm2.at 0 = .ok [[1, 2], [3, 1]] := at_node (k := 0) demo_ready.good (by simp [demoAm2])
  have hx : ∀ c : List ℝ, c.length = 2 → demoKc2.reconstruct (some (.scalar 2)) (some (.vec c)) 0 = .ok (.vec (reconRow 0 [[1, 2], [3 / 2, 3 / 2]] c)) := by
    intro c hc
    refine (recon_real demoKc2.toFitter demoAm2 2 c 0 hc).trans ?_
    rw [show ((1 : ℝ) + 2) * (1 + 0) - 1 = 2 by norm_num, demoAm2_at2]
    rfl
  have hy : ∀ c : List ℝ, c.length = 2 → demoKc2.reconstructOut (some (.scalar 0)) (some (.vec c)) 0 = .ok (.arr [] 2 [reconRow 0 [[1, 2], [3, 1]] c]) := by
    intro c hc
    refine (recon_real demoKc2.toFitter demoAm2 0 c 0 hc).trans ?_
    rw [show ((1 : ℝ) + 0) * (1 + 0) - 1 = 0 by norm_num, h0]
    rfl
  have hind : Spec.Indep demoKc2.toFitter 2 [1, 1 / 2] := by
    intro x r hl hr hz
    obtain ⟨p, q, rfl⟩ : ∃ p q, x = [p, q] := by
      match x, hl with
      | [p, q], _ => exact ⟨p, q, rfl⟩
    have hr' := hx [p, q] rfl
    rw [hr] at hr'
    simp only [Except.ok.injEq, NDA.vec, NDA.arr.injEq, List.cons.injEq, and_true] at hr'
    obtain rfl := hr'.2.2
    have z1 := hz 0 1 rfl (by norm_num)
    have z2 := hz 1 (1 / 2) rfl (by norm_num)
    simp [reconRow, dot, sumL_real] at z1 z2
    have e1 : p = 0 := by linarith
    have e2 : q = 0 := by linarith
    simp [e1, e2]
  obtain ⟨c, hc, hl, hc0, rc, hrc, hopt⟩ := C184_fit demoKc2.toFitter (by show 2 ≤ 9; norm_num) trivial (by show 2 ≠ 1; norm_num) demoAm2 demo_ready 2 hin [3, 3] [1, 1 / 2] rfl rfl
    (by intro v hv; simp only [List.mem_cons, List.not_mem_nil, or_false] at hv; rcases hv with rfl | rfl <;> norm_num) (fun _ _ _ => 0)
  obtain ⟨p, q, rfl⟩ : ∃ p q, c = [p, q] := by
    match c, hl with
    | [p, q], _ => exact ⟨p, q, rfl⟩
  obtain ⟨r1, hr1, hle⟩ := hopt [1, 1] rfl (by simp)
  have e1 := (hx [p, q] rfl).symm.trans hrc
  have e2 := (hx [1, 1] rfl).symm.trans hr1
  simp only [Except.ok.injEq, NDA.vec, NDA.arr.injEq, List.cons.injEq, and_true] at e1 e2
  obtain rfl := e1.2.2
  obtain rfl := e2.2.2
  have hab : abM demoKc2.abCls [3, 3] = [3, 3] ∧ abIv demoKc2.abCls [1, 1 / 2] = [1, 1 / 2] := ⟨abM_base _, abIv_base _⟩
  rw [show abM demoKc2.toFitter.abCls [3, 3] = [3, 3] from hab.1, show abIv demoKc2.toFitter.abCls [1, 1 / 2] = [1, 1 / 2] from hab.2] at hle
  simp [chi2, reconRow, dot, sumL_real] at hle
  have q1 : 3 - (p + 2 * q) = 0 := by nlinarith [sq_nonneg (3 - (p + 2 * q)), sq_nonneg (3 - (3 / 2 * p + 3 / 2 * q))]
  have q2 : 3 - (3 / 2 * p + 3 / 2 * q) = 0 := by nlinarith [sq_nonneg (3 - (p + 2 * q)), sq_nonneg (3 - (3 / 2 * p + 3 / 2 * q))]
  obtain rfl : p = 1 := by linarith
  obtain rfl : q = 1 := by linarith
  exact ⟨_, demo_ready, hin, hind, hc, rfl, by simp⟩

end KC
