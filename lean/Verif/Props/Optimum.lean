import Verif.Props.Order

/-! What an optimal fit satisfies, and fits with more templates or more bands. -/

namespace KC
open Spec

/-- Weighted inner product `Σ iv a b` over the bands. -/
noncomputable def ip (iv a b : List ℝ) : ℝ := (List.zipWith (fun v x => v * x) iv (List.zipWith (fun x y => x * y) a b)).sum

/-- difference of two lists of numbers, entry by entry -/
noncomputable def sub (a b : List ℝ) : List ℝ := List.zipWith (fun x y => x - y) a b

/-- `a + t b`, entry by entry -/
noncomputable def along (a : List ℝ) (t : ℝ) (b : List ℝ) : List ℝ := List.zipWith (fun x y => x + t * y) a b

theorem dot_along (t : ℝ) : ∀ (row a b : List ℝ), a.length = b.length → dot row (along a t b) = dot row a + t * dot row b
  | [], a, b, _ => by simp [dot, sumL_real]
  | _ :: _, [], [], _ => by simp [along, dot, sumL_real]
  | _ :: _, [], _ :: _, h => by simp at h
  | _ :: _, _ :: _, [], h => by simp at h
  | r :: row, x :: a, y :: b, h => by
    have ih := dot_along t row a b (by simpa using h)
    rw [along] at ih ⊢
    rw [List.zipWith_cons_cons, dot_cons, dot_cons, dot_cons, ih]; ring

theorem mulVec_along (M : List (List ℝ)) (t : ℝ) (a b : List ℝ) (h : a.length = b.length) :
    mulVec M (along a t b) = along (mulVec M a) t (mulVec M b) := by
  unfold mulVec along
  rw [List.zipWith_map, List.zipWith_self]
  exact List.map_congr_left (fun row _ => dot_along t row a b h)

/-- Chi-squared on a line. -/
theorem chi2_along (t : ℝ) : ∀ (m iv r d : List ℝ), r.length = d.length → r.length = m.length →
    chi2 m iv (along r t d) = chi2 m iv r - 2 * t * ip iv (sub m r) d + t ^ 2 * ip iv d d
  | [], iv, [], [], _, _ => by simp [chi2, ip, sub, along]
  | x :: m, [], y :: r, u :: d, _, _ => by simp [chi2, ip, sub, along]
  | x :: m, v :: iv, y :: r, u :: d, h1, h2 => by
    have ih := chi2_along t m iv r d (by simpa using h1) (by simpa using h2)
    simp only [chi2, ip, sub, along, List.zipWith_cons_cons, List.sum_cons] at ih ⊢
    rw [ih]; ring
  | [], _, _ :: _, _, _, h => by simp at h
  | _ :: _, _, [], _, _, h => by simp at h
  | _, _, _ :: _, [], h, _ => by simp at h
  | _, _, [], _ :: _, h, _ => by simp at h

theorem ip_sub_right : ∀ (iv a b c : List ℝ), b.length = c.length → a.length = b.length → ip iv a (sub b c) = ip iv a b - ip iv a c
  | iv, [], [], [], _, _ => by simp [ip, sub]
  | [], _ :: _, _ :: _, _ :: _, _, _ => by simp [ip, sub]
  | v :: iv, x :: a, y :: b, z :: c, h1, h2 => by
    have ih := ip_sub_right iv a b c (by simpa using h1) (by simpa using h2)
    simp only [ip, sub, List.zipWith_cons_cons, List.sum_cons] at ih ⊢
    rw [ih]; ring
  | _, [], _ :: _, _, _, h => by simp at h
  | _, _ :: _, [], _, _, h => by simp at h
  | _, _, _ :: _, [], h, _ => by simp at h
  | _, _, [], _ :: _, h, _ => by simp at h

theorem ip_self_nonneg (iv d : List ℝ) (h : ∀ v ∈ iv, 0 ≤ v) : 0 ≤ ip iv d d := by
  unfold ip
  rw [List.zipWith_self]
  apply List.sum_nonneg
  intro x hx
  obtain ⟨i, hi, rfl⟩ := List.mem_iff_getElem.mp hx
  simp only [List.getElem_zipWith, List.getElem_map]
  exact mul_nonneg (h _ (List.getElem_mem _)) (mul_self_nonneg _)

theorem along_sub : ∀ (r y : List ℝ), r.length = y.length → along r 1 (sub y r) = y
  | [], [], _ => by simp [along, sub]
  | x :: r, u :: y, h => by
    have ih := along_sub r y (by simpa using h)
    simp only [along, sub, List.zipWith_cons_cons] at ih ⊢
    rw [ih]; simp
  | [], _ :: _, h => by simp at h
  | _ :: _, [], h => by simp at h

/-- chi-squared expressed by inner products -/
theorem chi2_ip : ∀ (m iv r : List ℝ), r.length = m.length → chi2 m iv r = ip iv m m - 2 * ip iv (sub m r) r - ip iv r r
  | [], iv, [], _ => by simp [chi2, ip, sub]
  | x :: m, [], y :: r, _ => by simp [chi2, ip, sub]
  | x :: m, v :: iv, y :: r, h => by
    have ih := chi2_ip m iv r (by simpa using h)
    simp only [chi2, ip, sub, List.zipWith_cons_cons, List.sum_cons] at ih ⊢
    rw [ih]; ring
  | [], _, _ :: _, h => by simp at h
  | _ :: _, _, [], h => by simp at h

theorem slope_nonpos {g q ε : ℝ} (hε : 0 < ε) (h : ∀ t, 0 < t → t ≤ ε → 0 ≤ -2 * t * g + t ^ 2 * q) : g ≤ 0 := by
  by_contra hg
  push Not at hg
  set t := min ε (g / (|q| + 1)) with ht
  have hq : 0 < |q| + 1 := by positivity
  have t0 : 0 < t := lt_min hε (div_pos hg hq)
  have t1 : t * (|q| + 1) ≤ g := by
    have := min_le_right ε (g / (|q| + 1))
    rwa [← ht, le_div_iff₀ hq] at this
  have h1 := h t t0 (min_le_left _ _)
  have h2 : t * q ≤ t * |q| := mul_le_mul_of_nonneg_left (le_abs_self q) t0.le
  have h3 : -2 * g + t * q < 0 := by nlinarith
  have : -2 * t * g + t ^ 2 * q = t * (-2 * g + t * q) := by ring
  rw [this] at h1
  nlinarith

/-- An optimal fit cannot be improved along any direction that stays nonnegative for a while. -/
theorem optimal_slope {n : Nat} {M : List (List ℝ)} {m iv c : List ℝ} (hM : M.length = m.length)
    (hc : c.length = n) (ho : ∀ y : List ℝ, y.length = n → (∀ v ∈ y, 0 ≤ v) → chi2 m iv (mulVec M c) ≤ chi2 m iv (mulVec M y))
    {d : List ℝ} (hd : d.length = n) {ε : ℝ} (hε : 0 < ε) (hdir : ∀ t, 0 < t → t ≤ ε → ∀ v ∈ along c t d, 0 ≤ v) :
    ip iv (sub m (mulVec M c)) (mulVec M d) ≤ 0 := by
  apply slope_nonpos (q := ip iv (mulVec M d) (mulVec M d)) hε
  intro t t0 t1
  have := ho (along c t d) (by simp [along, hc, hd]) (hdir t t0 t1)
  rw [mulVec_along M t c d (by rw [hc, hd]), chi2_along t _ _ _ _ (by simp [mulVec]) (by simp [mulVec, hM])] at this
  linarith

/-- C112: with nonnegative weights, a nonnegative coefficient vector with model maggies `r` is optimal exactly if the weighted residuals `m - r` are
orthogonal to `r` and have a nonpositive inner product with the maggies of every nonnegative coefficient vector. -/
theorem C112_optimal_iff (F : Fitter ℝ) (Am : AMat ℝ) (hR : Ready F Am) (z : ℝ) (hz : InRange Am.x z) (m iv c : List ℝ)
    (hm : m.length = F.responses.length) (hiv : ∀ v ∈ iv, 0 ≤ v) (hc : c.length = F.templates.nsed) (hc0 : ∀ v ∈ c, 0 ≤ v) (r : List ℝ)
    (hr : F.reconstruct (some (.scalar z)) (some (.vec c)) 0 = .ok (.vec r)) :
    Optimal F z m iv c ↔ ip iv (sub m r) r = 0 ∧ ∀ y : List ℝ, y.length = F.templates.nsed → (∀ v ∈ y, 0 ≤ v) →
      ∀ ry, F.reconstruct (some (.scalar z)) (some (.vec y)) 0 = .ok (.vec ry) → ip iv (sub m r) ry ≤ 0 := by
  have inj : ∀ a b : List ℝ, (Except.ok (NDA.vec a) : Py (NDA ℝ)) = .ok (.vec b) → a = b := by
    intro a b h
    simp only [Except.ok.injEq, NDA.vec, NDA.arr.injEq, List.cons.injEq, and_true] at h
    exact h.2.2
  obtain ⟨M, hM⟩ := (at_ok_iff hR.good.ne).mpr hz
  rw [recon_ready hR hM hc] at hr
  obtain rfl := inj _ _ hr
  have hlen : M.length = m.length := by rw [(at_shaped hR.good hM).1, hR.rows, hm]
  have hl : ∀ y, (mulVec M y).length = m.length := by intro y; simp [mulVec, hlen]
  rw [optimal_iff hR hM]
  constructor
  · rintro ⟨_, _, ho⟩
    have h1 : ∀ y : List ℝ, y.length = F.templates.nsed → (∀ v ∈ y, 0 ≤ v) → ip iv (sub m (mulVec M c)) (mulVec M y) ≤ 0 := by
      intro y hy hy0
      refine optimal_slope hlen hc ho hy one_pos ?_
      intro t t0 _ v hv
      obtain ⟨i, hi, rfl⟩ := List.mem_iff_getElem.mp hv
      simp only [along, List.getElem_zipWith]
      exact add_nonneg (hc0 _ (List.getElem_mem _)) (mul_nonneg t0.le (hy0 _ (List.getElem_mem _)))
    refine ⟨le_antisymm (h1 c hc hc0) ?_, ?_⟩
    · have h2 : ip iv (sub m (mulVec M c)) (mulVec M (c.map (fun v => -1 * v))) ≤ 0 := by
        refine optimal_slope hlen hc ho (by simpa using hc) one_pos ?_
        intro t t0 t1 v hv
        obtain ⟨i, hi, rfl⟩ := List.mem_iff_getElem.mp hv
        simp only [along, List.getElem_zipWith, List.getElem_map]
        have := hc0 _ (List.getElem_mem (l := c) (n := i) (by simp [along] at hi; exact hi))
        nlinarith
      rw [mulVec_scale] at h2
      have e : ∀ (iv a b : List ℝ), ip iv a (b.map (fun v => -1 * v)) = - ip iv a b := by
        intro iv a b
        unfold ip
        induction iv generalizing a b with
        | nil => simp
        | cons v iv ih =>
          cases a with
          | nil => simp
          | cons x a =>
            cases b with
            | nil => simp
            | cons y b =>
              have := ih a b
              simp only [List.map_cons, List.zipWith_cons_cons, List.sum_cons, this]
              ring
      rw [e] at h2
      linarith
    · intro y hy hy0 ry hry
      rw [recon_ready hR hM hy] at hry
      rw [← inj _ _ hry]
      exact h1 y hy hy0
  · rintro ⟨h0, h1⟩
    refine ⟨hc, hc0, fun y hy hy0 => ?_⟩
    have h2 := h1 y hy hy0 _ (recon_ready hR hM hy)
    have h3 := chi2_along 1 m iv (mulVec M c) (sub (mulVec M y) (mulVec M c)) (by simp [sub, mulVec]) (hl c)
    rw [along_sub _ _ (by simp [mulVec]), ip_sub_right _ _ _ _ (by simp [mulVec]) (by simp [sub, hl]), h0] at h3
    have h4 := ip_self_nonneg iv (sub (mulVec M y) (mulVec M c)) hiv
    linarith

/-- C112: chi-squared of an optimal fit is `Σ ivar m² - Σ ivar r²`. -/
theorem C112_chi2 (F : Fitter ℝ) (Am : AMat ℝ) (hR : Ready F Am) (z : ℝ) (hz : InRange Am.x z) (m iv c : List ℝ)
    (hm : m.length = F.responses.length) (hiv : ∀ v ∈ iv, 0 ≤ v) (ho : Optimal F z m iv c) :
    ∃ r, F.reconstruct (some (.scalar z)) (some (.vec c)) 0 = .ok (.vec r) ∧ ip iv (sub m r) r = 0 ∧
      chi2 m iv r = ip iv m m - ip iv r r ∧ ip iv r r ≤ ip iv m m := by
  have ho' := ho
  obtain ⟨hc, hc0, r, hr, _⟩ := ho'
  have h := (C112_optimal_iff F Am hR z hz m iv c hm hiv hc hc0 r hr).mp ho
  obtain ⟨M, hM⟩ := (at_ok_iff hR.good.ne).mpr hz
  have hlen : r.length = m.length := by
    rw [recon_ready hR hM hc] at hr
    simp only [Except.ok.injEq, NDA.vec, NDA.arr.injEq, List.cons.injEq, and_true] at hr
    rw [← hr.2.2, mulVec, List.length_map, (at_shaped hR.good hM).1, hR.rows, hm]
  have e := chi2_ip m iv r hlen
  rw [h.1] at e
  have := chi2_nonneg m iv r hiv
  exact ⟨r, hr, h.1, by linarith, by linarith⟩

/-- C112: a template used by an optimal fit (positive coefficient) has maggies orthogonal to the weighted residuals; any other template has a nonpositive
inner product with them. -/
theorem C112_templates (F : Fitter ℝ) (Am : AMat ℝ) (hR : Ready F Am) (z : ℝ) (hz : InRange Am.x z) (m iv c : List ℝ)
    (hm : m.length = F.responses.length) (ho : Optimal F z m iv c) (k : Nat) (hk : k < F.templates.nsed) :
    ∃ r a, F.reconstruct (some (.scalar z)) (some (.vec c)) 0 = .ok (.vec r) ∧
      F.reconstruct (some (.scalar z)) (some (.vec (unit F.templates.nsed k 1))) 0 = .ok (.vec a) ∧
      ip iv (sub m r) a ≤ 0 ∧ ((∃ x, c[k]? = some x ∧ 0 < x) → ip iv (sub m r) a = 0) := by
  obtain ⟨M, hM⟩ := (at_ok_iff hR.good.ne).mpr hz
  have hlen : M.length = m.length := by rw [(at_shaped hR.good hM).1, hR.rows, hm]
  obtain ⟨hc, hc0, h⟩ := (optimal_iff hR hM m iv c).mp ho
  have hu : ∀ s, (unit F.templates.nsed k s).length = F.templates.nsed := by simp [unit]
  have hup : ∀ s i (hi : i < (unit F.templates.nsed k s).length), (unit F.templates.nsed k s)[i] = if i = k then s else 0 := by
    intro s i hi; simp [unit]
  have h1 : ip iv (sub m (mulVec M c)) (mulVec M (unit F.templates.nsed k 1)) ≤ 0 := by
    refine optimal_slope hlen hc h (hu 1) one_pos ?_
    intro t t0 _ v hv
    obtain ⟨i, hi, rfl⟩ := List.mem_iff_getElem.mp hv
    simp only [along, List.getElem_zipWith, hup]
    have := hc0 _ (List.getElem_mem (l := c) (n := i) (by simp [along] at hi; exact hi.1))
    split <;> linarith
  refine ⟨_, _, recon_ready hR hM hc, recon_ready hR hM (hu 1), h1, ?_⟩
  rintro ⟨x, hx, hx0⟩
  refine le_antisymm h1 ?_
  have h2 : ip iv (sub m (mulVec M c)) (mulVec M (unit F.templates.nsed k (-1))) ≤ 0 := by
    refine optimal_slope hlen hc h (hu (-1)) hx0 ?_
    intro t t0 t1 v hv
    obtain ⟨i, hi, rfl⟩ := List.mem_iff_getElem.mp hv
    simp only [along, List.getElem_zipWith, hup]
    have hic : i < c.length := by simp [along] at hi; exact hi.1
    have := hc0 _ (List.getElem_mem (l := c) (n := i) hic)
    split
    · rename_i e
      subst e
      obtain ⟨_, rfl⟩ := List.getElem?_eq_some_iff.mp hx
      linarith
    · linarith
  have e : mulVec M (unit F.templates.nsed k (-1)) = (mulVec M (unit F.templates.nsed k 1)).map (fun v => -1 * v) := by
    rw [← mulVec_scale]
    congr 1
    unfold unit
    rw [List.map_map]
    apply List.map_congr_left
    intro j _
    simp only [Function.comp_apply]
    split <;> ring
  have e2 : ∀ (iv a b : List ℝ), ip iv a (b.map (fun v => -1 * v)) = - ip iv a b := by
    intro iv a b
    unfold ip
    induction iv generalizing a b with
    | nil => simp
    | cons v iv ih =>
      cases a with
      | nil => simp
      | cons x a =>
        cases b with
        | nil => simp
        | cons y b =>
          have := ih a b
          simp only [List.map_cons, List.zipWith_cons_cons, List.sum_cons, this]
          ring
  rw [e, e2] at h2
  linarith

/-! ### more templates -/

/-- C113: if every template of the second fitter is a mixture with nonnegative weights of the templates of the first, the best fit with the first is at
least as good as the best fit with the second. -/
theorem C113_mixtures (lib : Lib ℝ) (hlin : SplineLinear lib) (F1 F2 G1 G2 : Fitter ℝ) (g1 g2 : Reg ℝ) (h1 : Built lib F1 G1 g1)
    (h2 : Built lib F2 G2 g2) (W : List (List ℝ)) (hm : MixedTemplates F1 F2 g1 g2 W) (hW : ∀ a ∈ W, ∀ v ∈ a, 0 ≤ v) (z : ℝ) (m iv c1 c2 : List ℝ)
    (o1 : Optimal G1 z m iv c1) (o2 : Optimal G2 z m iv c2) :
    ∃ r1 r2, G1.reconstruct (some (.scalar z)) (some (.vec c1)) 0 = .ok (.vec r1) ∧
      G2.reconstruct (some (.scalar z)) (some (.vec c2)) 0 = .ok (.vec r2) ∧ chi2 m iv r1 ≤ chi2 m iv r2 := by
  obtain ⟨A1, A2, hR1, hR2, hx, q1, q2, n1, n2, hA⟩ := mixed_matrix hlin h1 h2 hm
  obtain ⟨_, _, r1, hr1, opt⟩ := o1
  obtain ⟨l2, p2, r2, hr2, _⟩ := o2
  refine ⟨r1, r2, hr1, hr2, ?_⟩
  have e := C104_reconstruct lib hlin F1 F2 G1 G2 g1 g2 h1 h2 W hm z 0 c2 (by rw [l2, n2])
  obtain ⟨ry, hy, hle⟩ := opt (mix F1.templates.nsed c2 W) (by rw [n1]; exact mix_length _ _ _ hm.wlen) (mix_nonneg _ _ _ p2 hW)
  rw [← e, hr2] at hy
  simp only [Except.ok.injEq, NDA.vec, NDA.arr.injEq, List.cons.injEq, and_true] at hy
  rw [hy.2.2]; exact hle

/-- `F1` has at least the templates of `F2`, namely `F2` those of `F1` with indices `idx`; everything else is the same. -/
structure MoreTemplates (F1 F2 : Fitter ℝ) (g1 g2 : Reg ℝ) (idx : List Nat) : Prop where
  resp : F2.responses = F1.responses
  grid : F2.redshifts = F1.redshifts
  reg : ∀ n ∈ F1.responses, g1 n = g2 n
  wave : F2.templates.toSed.restWave = F1.templates.toSed.restWave
  ne : idx ≠ []
  lt : ∀ k ∈ idx, k < F1.templates.nsed
  flux : F2.templates.toSed.restFlux = idx.map (fun k => F1.templates.toSed.restFlux.getD k [])

/-- C113: adding templates never makes the best fit worse. -/
theorem C113_more_templates (lib : Lib ℝ) (hlin : SplineLinear lib) (F1 F2 G1 G2 : Fitter ℝ) (g1 g2 : Reg ℝ) (h1 : Built lib F1 G1 g1)
    (h2 : Built lib F2 G2 g2) (idx : List Nat) (hm : MoreTemplates F1 F2 g1 g2 idx) (z : ℝ) (m iv c1 c2 : List ℝ)
    (o1 : Optimal G1 z m iv c1) (o2 : Optimal G2 z m iv c2) :
    ∃ r1 r2, G1.reconstruct (some (.scalar z)) (some (.vec c1)) 0 = .ok (.vec r1) ∧
      G2.reconstruct (some (.scalar z)) (some (.vec c2)) 0 = .ok (.vec r2) ∧ chi2 m iv r1 ≤ chi2 m iv r2 := by
  refine C113_mixtures lib hlin F1 F2 G1 G2 g1 g2 h1 h2 (idx.map (fun k => unit F1.templates.nsed k 1))
    ⟨hm.resp, hm.grid, hm.reg, hm.wave, by simpa using hm.ne, ?_, ?_⟩ ?_ z m iv c1 c2 o1 o2
  · intro a ha
    obtain ⟨k, _, rfl⟩ := List.mem_map.mp ha
    simp [unit]
  · rw [hm.flux, List.map_map]
    apply List.map_congr_left
    intro k hk
    simp only [Function.comp_apply]
    rw [mix_unit _ _ _ (hm.lt k hk) _ _ rfl h1.len]
    simp
  · intro a ha v hv
    obtain ⟨k, _, rfl⟩ := List.mem_map.mp ha
    obtain ⟨j, _, rfl⟩ := List.mem_map.mp hv
    split <;> norm_num

/-! ### more bands -/

/-- `F2` has the responses of `F1` followed by `extra`; everything else is the same. -/
structure MoreBands (F1 F2 : Fitter ℝ) (g1 g2 : Reg ℝ) (extra : List Name) : Prop where
  resp : F2.responses = F1.responses ++ extra
  grid : F2.redshifts = F1.redshifts
  reg : ∀ n ∈ F1.responses, g1 n = g2 n
  wave : F2.templates.toSed.restWave = F1.templates.toSed.restWave
  flux : F2.templates.toSed.restFlux = F1.templates.toSed.restFlux

theorem moreBands_matrix {lib : Lib ℝ} {F1 F2 G1 G2 : Fitter ℝ} {g1 g2 : Reg ℝ} (h1 : Built lib F1 G1 g1)
    (h2 : Built lib F2 G2 g2) {extra : List Name} (hm : MoreBands F1 F2 g1 g2 extra) :
    ∃ A1 A2, Ready G1 A1 ∧ Ready G2 A2 ∧ A2.x = A1.x ∧ G1.responses = F1.responses ∧ G2.responses = F2.responses ∧
      G1.templates.nsed = F1.templates.nsed ∧ G2.templates.nsed = F1.templates.nsed ∧
      ∀ q M1, A1.at q = .ok M1 → ∃ N, N.length = extra.length ∧ A2.at q = .ok (M1 ++ N) := by
  obtain ⟨A1, disk1, w1, w1', hR1, hG1, hw1, hg1, hc1, hx1⟩ := h1.ready
  obtain ⟨A2, disk2, w2, w2', hR2, hG2, hw2, hg2, hc2, hx2⟩ := h2.ready
  have hx : A2.x = A1.x := by rw [hx1, hx2, hm.grid]
  refine ⟨A1, A2, hR1, hR2, hx, by rw [hG1], by rw [hG2], by rw [hG1], ?_, ?_⟩
  · rw [hG2]
    show F2.templates.nsed = _
    rw [Tpl.nsed, Sed.nsed, hm.flux]; rfl
  · intro q M1 hM1
    rw [hm.grid] at hc2
    have hs1 := at_shaped hR1.good hM1
    obtain ⟨M2, hM2⟩ := (at_ok_iff hR2.good.ne).mpr (by rw [hx]; exact (at_ok_iff hR1.good.ne).mp ⟨M1, hM1⟩ : InRange A2.x q)
    have hs2 := at_shaped hR2.good hM2
    have l1 : M1.length = F1.responses.length := by rw [hs1.1, hR1.rows, hG1]
    have l2 : M2.length = F1.responses.length + extra.length := by
      rw [hs2.1, hR2.rows, hG2]
      show F2.responses.length = _
      rw [hm.resp, List.length_append]
    refine ⟨M2.drop F1.responses.length, by rw [List.length_drop, l2]; omega, ?_⟩
    rw [hM2]
    congr 1
    conv_lhs => rw [← List.take_append_drop F1.responses.length M2]
    congr 1
    apply List.ext_getElem (by rw [List.length_take, l1, l2]; omega)
    intro i hi2 hi1
    have hi : i < F1.responses.length := by rw [← l1]; exact hi1
    have hn1 := List.getElem?_eq_getElem hi
    have hn2 : F2.responses[i]? = some F1.responses[i] := by rw [hm.resp, List.getElem?_append_left hi, hn1]
    obtain ⟨M2', row, e1, e2, _, e3⟩ := C103_row lib disk1 disk2 F1.redshifts F1.responses F2.responses w1 w1' w2 w2' A1 A2 hc1 hc2
      (by rw [hw1]; exact h1.ne) (by rw [hw1]; exact h1.len) (by rw [hw1, hw2]; exact hm.wave)
      (by rw [hw1, hw2]; exact hm.flux) i i _ hn1 hn2 (by rw [hg1, hg2]; exact hm.reg _ (List.getElem_mem _)) q M1 hM1
    rw [hM2] at e1
    cases e1
    rw [List.getElem?_eq_getElem (by omega)] at e3
    rw [List.getElem?_eq_getElem hi1] at e2
    simp only [Option.some.injEq] at e2 e3
    rw [List.getElem_take, e3, e2]

theorem chi2_append : ∀ (m iv r m' iv' r' : List ℝ), m.length = iv.length → r.length = iv.length →
    chi2 (m ++ m') (iv ++ iv') (r ++ r') = chi2 m iv r + chi2 m' iv' r'
  | [], [], [], m', iv', r', _, _ => by simp [chi2]
  | x :: m, v :: iv, y :: r, m', iv', r', h1, h2 => by
    have ih := chi2_append m iv r m' iv' r' (by simpa using h1) (by simpa using h2)
    simp only [chi2, List.cons_append, List.zipWith_cons_cons, List.sum_cons] at ih ⊢
    rw [ih]; ring
  | [], _ :: _, _, _, _, _, h, _ => by simp at h
  | _ :: _, [], _, _, _, _, h, _ => by simp at h
  | _, [], _ :: _, _, _, _, _, h => by simp at h
  | _, _ :: _, [], _, _, _, _, h => by simp at h

theorem chi2_zero_weight : ∀ (m iv r : List ℝ), (∀ v ∈ iv, v = 0) → chi2 m iv r = 0
  | m, [], r, _ => by simp [chi2]
  | [], _ :: _, r, _ => by simp [chi2]
  | _ :: _, _ :: _, [], _ => by simp [chi2]
  | x :: m, v :: iv, y :: r, h => by
    have ih := chi2_zero_weight m iv r (fun v hv => h v (by simp [hv]))
    simp only [chi2, List.zipWith_cons_cons, List.sum_cons] at ih ⊢
    rw [ih, h v (by simp)]; ring

/-- C114: adding bands, with any nonnegative weights, never lowers the chi-squared of the best fit. -/
theorem C114_more_bands (lib : Lib ℝ) (F1 F2 G1 G2 : Fitter ℝ) (g1 g2 : Reg ℝ) (h1 : Built lib F1 G1 g1) (h2 : Built lib F2 G2 g2)
    (extra : List Name) (hm : MoreBands F1 F2 g1 g2 extra) (z : ℝ) (m iv m' iv' c1 c2 : List ℝ) (hml : m.length = F1.responses.length)
    (hil : iv.length = F1.responses.length) (hiv' : ∀ v ∈ iv', 0 ≤ v) (o1 : Optimal G1 z m iv c1) (o2 : Optimal G2 z (m ++ m') (iv ++ iv') c2) :
    ∃ r1 r2, G1.reconstruct (some (.scalar z)) (some (.vec c1)) 0 = .ok (.vec r1) ∧
      G2.reconstruct (some (.scalar z)) (some (.vec c2)) 0 = .ok (.vec r2) ∧ chi2 m iv r1 ≤ chi2 (m ++ m') (iv ++ iv') r2 := by
  obtain ⟨A1, A2, hR1, hR2, hx, q1, q2, n1, n2, hA⟩ := moreBands_matrix h1 h2 hm
  have hin : InRange A1.x z := by
    by_contra hin
    obtain ⟨hc, _, rc, hv, _⟩ := o1
    unfold Fitter.reconstruct at hv
    rw [hR1.set, recon_scalar G1 A1 z _ 0 hc] at hv
    have e : shiftOf (f32 z) 0 = z := by rw [real_f32, shiftOf_real]; ring
    rw [e, at_out hR1.good.ne hin] at hv
    cases hv
  obtain ⟨M1, hM1⟩ := (at_ok_iff hR1.good.ne).mpr hin
  obtain ⟨N, _, hM2⟩ := hA _ _ hM1
  have l1 : M1.length = F1.responses.length := by rw [(at_shaped hR1.good hM1).1, hR1.rows, q1]
  obtain ⟨a1, a2, a3⟩ := (optimal_iff hR1 hM1 m iv c1).mp o1
  obtain ⟨b1, b2, b3⟩ := (optimal_iff hR2 hM2 _ _ c2).mp o2
  refine ⟨_, _, recon_ready hR1 hM1 a1, recon_ready hR2 hM2 b1, ?_⟩
  have e : mulVec (M1 ++ N) c2 = mulVec M1 c2 ++ mulVec N c2 := by simp [mulVec]
  rw [e, chi2_append _ _ _ _ _ _ (by rw [hml, hil]) (by rw [mulVec, List.length_map, l1, hil])]
  have := a3 c2 (by rw [b1, n2, n1]) b2
  have := chi2_nonneg m' iv' (mulVec N c2) hiv'
  linarith

/-- C114: adding bands with weight zero changes nothing: the same coefficients are optimal. -/
theorem C114_zero_weight (lib : Lib ℝ) (F1 F2 G1 G2 : Fitter ℝ) (g1 g2 : Reg ℝ) (h1 : Built lib F1 G1 g1) (h2 : Built lib F2 G2 g2)
    (extra : List Name) (hm : MoreBands F1 F2 g1 g2 extra) (z : ℝ) (m iv m' iv' c : List ℝ) (hml : m.length = F1.responses.length)
    (hil : iv.length = F1.responses.length) (hiv' : ∀ v ∈ iv', v = 0) :
    Optimal G2 z (m ++ m') (iv ++ iv') c ↔ Optimal G1 z m iv c := by
  obtain ⟨A1, A2, hR1, hR2, hx, q1, q2, n1, n2, hA⟩ := moreBands_matrix h1 h2 hm
  have hout : ∀ {G : Fitter ℝ} {A : AMat ℝ} {m iv : List ℝ}, Ready G A → ¬ InRange A.x z → ¬ Optimal G z m iv c := by
    rintro G A m iv hR hin ⟨hc, _, rc, hv, _⟩
    unfold Fitter.reconstruct at hv
    rw [hR.set, recon_scalar G A z _ 0 hc] at hv
    have e : shiftOf (f32 z) 0 = z := by rw [real_f32, shiftOf_real]; ring
    rw [e, at_out hR.good.ne hin] at hv
    cases hv
  by_cases hin : InRange A1.x z
  · obtain ⟨M1, hM1⟩ := (at_ok_iff hR1.good.ne).mpr hin
    obtain ⟨N, _, hM2⟩ := hA _ _ hM1
    have l1 : M1.length = F1.responses.length := by rw [(at_shaped hR1.good hM1).1, hR1.rows, q1]
    have e : ∀ y, chi2 (m ++ m') (iv ++ iv') (mulVec (M1 ++ N) y) = chi2 m iv (mulVec M1 y) := by
      intro y
      have e : mulVec (M1 ++ N) y = mulVec M1 y ++ mulVec N y := by simp [mulVec]
      rw [e, chi2_append _ _ _ _ _ _ (by rw [hml, hil]) (by rw [mulVec, List.length_map, l1, hil]), chi2_zero_weight _ _ _ hiv', add_zero]
    rw [optimal_iff hR1 hM1, optimal_iff hR2 hM2, n1, n2]
    simp only [e]
  · exact iff_of_false (hout hR2 (by rw [hx]; exact hin)) (hout hR1 hin)

/-! ### the hypotheses can be met -/

/-- Not vacuous (C112): noise-free photometry, for which the true coefficients are optimal. -/
example : ∃ m, m.length = demoFitter2.responses.length ∧ InRange demoAm2.x 2 ∧ Optimal demoFitter2 2 m [1, 2] [1, 5] := by
  have hin : InRange demoAm2.x 2 := by constructor <;> norm_num [demoAm2]
  obtain ⟨M, hM⟩ := (at_ok_iff demo_ready.good.ne).mpr hin
  refine ⟨mulVec M [1, 5], ?_, hin, ?_⟩
  · rw [mulVec, List.length_map, (at_shaped demo_ready.good hM).1, demo_ready.rows]
  · rw [optimal_iff demo_ready hM]
    refine ⟨rfl, by simp, fun y _ _ => ?_⟩
    rw [chi2_self]
    exact chi2_nonneg _ _ _ (by simp)

/-- Noise-free photometry has an optimal fit. -/
theorem exact_optimal {F : Fitter ℝ} {A : AMat ℝ} (hR : Ready F A) {z : ℝ} (hz : InRange A.x z) {c : List ℝ} (hc : c.length = F.templates.nsed)
    (hc0 : ∀ v ∈ c, 0 ≤ v) {iv : List ℝ} (hiv : ∀ v ∈ iv, 0 ≤ v) :
    ∃ m, m.length = F.responses.length ∧ F.reconstruct (some (.scalar z)) (some (.vec c)) 0 = .ok (.vec m) ∧ Optimal F z m iv c := by
  obtain ⟨M, hM⟩ := (at_ok_iff hR.good.ne).mpr hz
  refine ⟨mulVec M c, ?_, recon_ready hR hM hc, ?_⟩
  · rw [mulVec, List.length_map, (at_shaped hR.good hM).1, hR.rows]
  · rw [optimal_iff hR hM]
    refine ⟨hc, hc0, fun y _ _ => ?_⟩
    rw [chi2_self]
    exact chi2_nonneg _ _ _ hiv

theorem demo_in_grid : InRange (gather (redshiftGrid (0 : ℝ) 2 10) (argsort (redshiftGrid (0 : ℝ) 2 10))) 1 := by
  obtain ⟨hl, h0, hN, hp, _⟩ := C43_grid 0 2 10 (by norm_num) (by norm_num)
  rw [argsort_of_sorted _ (hp.imp le_of_lt), gather_range _ _ rfl]
  have hne : redshiftGrid (0 : ℝ) 2 10 ≠ [] := by intro e; rw [e] at hl; simp at hl
  refine ⟨?_, ?_⟩
  · rw [headD_eq_ent, ent_some (by rw [hl]; norm_num), (List.getElem?_eq_some_iff.mp h0).2]; norm_num
  · rw [getLastD_eq_ent _ hne, ent_some (by rw [hl]; norm_num)]
    have := (List.getElem?_eq_some_iff.mp hN).2
    simp only [hl]; rw [this]; norm_num

/-- Not vacuous (C113): two templates against the second of them. -/
example : ∃ F1 F2 G1 G2 g1 g2, Built demoLib F1 G1 g1 ∧ Built demoLib F2 G2 g2 ∧ MoreTemplates F1 F2 g1 g2 [1] ∧ F1.templates.nsed = 2 ∧
    ∃ m c1 c2, Optimal G1 1 m [1, 1] c1 ∧ Optimal G2 1 m [1, 1] c2 := by
  obtain ⟨g, ox, oy, hx, hy, cx, cy⟩ := demo_two
  obtain ⟨G1, g1, b1, x1, y1⟩ := demoPlain_built [['x'], ['y']] (by simp) [[1, 1, 1, 1, 1], [1, 2, 3, 4, 5]] (by simp) (by simp) false g ox oy
    hx hy cx cy
  obtain ⟨G2, g2, b2, x2, y2⟩ := demoPlain_built [['x'], ['y']] (by simp) [[1, 2, 3, 4, 5]] (by simp) (by simp) false g ox oy hx hy cx cy
  have hm : MoreTemplates (demoPlain [['x'], ['y']] [[1, 1, 1, 1, 1], [1, 2, 3, 4, 5]] false) (demoPlain [['x'], ['y']] [[1, 2, 3, 4, 5]] false) g1 g2
      [1] := by
    refine ⟨rfl, rfl, ?_, rfl, by simp, ?_, rfl⟩
    · intro n hn
      simp only [demoPlain, List.mem_cons, List.not_mem_nil, or_false] at hn
      rcases hn with rfl | rfl
      · rw [x1, x2]
      · rw [y1, y2]
    · intro k hk
      simp only [List.mem_singleton] at hk
      subst hk
      show 1 < 2
      norm_num
  refine ⟨_, _, G1, G2, g1, g2, b1, b2, hm, rfl, ?_⟩
  obtain ⟨A2, _, _, _, hR2, hG2, _, _, _, hx2⟩ := b2.ready
  obtain ⟨A1, _, _, _, hR1, hG1, _, _, _, hx1⟩ := b1.ready
  obtain ⟨m, m1, m2, m3⟩ := exact_optimal hR2 (z := 1) (by rw [hx2]; exact demo_in_grid) (c := [3]) (by rw [hG2]; rfl) (by simp) (iv := [1, 1])
    (by simp)
  refine ⟨m, [0, 3], [3], ?_, m3⟩
  have h3 := C104_reconstruct demoLib demo_linear _ _ G1 G2 g1 g2 b1 b2 [unit 2 1 1] ⟨hm.resp, hm.grid, hm.reg, hm.wave, by simp,
    by simp [unit, demoPlain, Tpl.nsed, Tpl.toSed, Sed.nsed], by
      rw [hm.flux]
      simp only [List.map_cons, List.map_nil]
      rw [mix_unit _ 2 1 (by norm_num) 1 _ rfl (by simp [demoPlain, Tpl.toSed])]
      simp⟩ 1 0 [3] rfl
  rw [m2] at h3
  have e : mix (demoPlain [['x'], ['y']] [[1, 1, 1, 1, 1], [1, 2, 3, 4, 5]] false).templates.nsed [3] [unit 2 1 1] = [0, 3] := by
    simp [demoPlain, Tpl.nsed, Tpl.toSed, Sed.nsed, mix, unit, List.range_succ]
  rw [e] at h3
  obtain ⟨M, hM⟩ := (at_ok_iff hR1.good.ne).mpr (by rw [hx1]; exact demo_in_grid : InRange A1.x 1)
  rw [recon_ready hR1 hM (by rw [hG1]; rfl)] at h3
  simp only [Except.ok.injEq, NDA.vec, NDA.arr.injEq, List.cons.injEq, and_true] at h3
  rw [optimal_iff hR1 hM]
  refine ⟨by rw [hG1]; rfl, by simp, fun y _ _ => ?_⟩
  rw [← h3.2.2, chi2_self]
  exact chi2_nonneg _ _ _ (by simp)

/-- Not vacuous (C114): band `y` added to band `x`, photometry without noise. -/
example : ∃ F1 F2 G1 G2 g1 g2, Built demoLib F1 G1 g1 ∧ Built demoLib F2 G2 g2 ∧ MoreBands F1 F2 g1 g2 [['y']] ∧
    F1.responses = [['x']] ∧ ∃ m m', m.length = 1 ∧ Optimal G1 1 m [1] [1, 2] ∧ Optimal G2 1 (m ++ m') ([1] ++ [1]) [1, 2] := by
  obtain ⟨g, ox, oy, hx, hy, cx, cy⟩ := demo_two
  obtain ⟨G1, g1, b1, x1, y1⟩ := demoPlain_built [['x']] (by simp) [[1, 1, 1, 1, 1], [1, 2, 3, 4, 5]] (by simp) (by simp) false g ox oy
    hx hy cx cy
  obtain ⟨G2, g2, b2, x2, y2⟩ := demoPlain_built [['x'], ['y']] (by simp) [[1, 1, 1, 1, 1], [1, 2, 3, 4, 5]] (by simp) (by simp) false g ox oy
    hx hy cx cy
  have hm : MoreBands (demoPlain [['x']] [[1, 1, 1, 1, 1], [1, 2, 3, 4, 5]] false)
      (demoPlain [['x'], ['y']] [[1, 1, 1, 1, 1], [1, 2, 3, 4, 5]] false) g1 g2 [['y']] := by
    refine ⟨rfl, rfl, ?_, rfl, rfl⟩
    intro n hn
    simp only [demoPlain, List.mem_cons, List.not_mem_nil, or_false] at hn
    rw [hn, x1, x2]
  refine ⟨_, _, _, _, _, _, b1, b2, hm, rfl, ?_⟩
  obtain ⟨A1, A2, hR1, hR2, _, q1, _, n1, n2, hA⟩ := moreBands_matrix b1 b2 hm
  obtain ⟨A1', _, _, _, hR1', _, _, _, _, hx1⟩ := b1.ready
  obtain rfl : A1 = A1' := by
    have := hR1.set.symm.trans hR1'.set
    simpa using this
  obtain ⟨M, hM⟩ := (at_ok_iff hR1.good.ne).mpr (by rw [hx1]; exact demo_in_grid : InRange A1.x 1)
  obtain ⟨N, _, hN⟩ := hA _ _ hM
  have hl : M.length = 1 := by rw [(at_shaped hR1.good hM).1, hR1.rows, q1]; rfl
  refine ⟨mulVec M [1, 2], mulVec N [1, 2], by simp [mulVec, hl], ?_, ?_⟩
  · rw [optimal_iff hR1 hM]
    refine ⟨by rw [n1]; rfl, by simp, fun y _ _ => ?_⟩
    rw [chi2_self]
    exact chi2_nonneg _ _ _ (by simp)
  · rw [optimal_iff hR2 hN]
    refine ⟨by rw [n2]; rfl, by simp, fun y _ _ => ?_⟩
    have e : mulVec (M ++ N) [1, 2] = mulVec M [1, 2] ++ mulVec N [1, 2] := by simp [mulVec]
    rw [e, chi2_self]
    exact chi2_nonneg _ _ _ (by simp)

end KC
