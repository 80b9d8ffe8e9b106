import Verif.Props.Optimum
import Verif.Props.AbClasses

/-!
# Noise in the photometry is not amplified by the fit (C153)
-/

namespace KC
open Spec

/-- The squared distance of two photometries, split into that of the models, that of the residuals and the inner products of residuals and models. -/
theorem chi2_split : ∀ (iv m r m' r' : List ℝ), m.length = r.length → m'.length = r.length → r'.length = r.length →
    chi2 m iv m' = chi2 r iv r' + chi2 (sub m r) iv (sub m' r') +
      2 * (ip iv (sub m r) r + ip iv (sub m' r') r' - ip iv (sub m r) r' - ip iv (sub m' r') r)
  | [], _, _, _, _, _, _, _ => by simp [chi2, ip]
  | _ :: _, [], [], [], [], _, _, _ => by simp [chi2, ip, sub]
  | v :: iv, a :: m, b :: r, a' :: m', b' :: r', h1, h2, h3 => by
    have ih := chi2_split iv m r m' r' (by simpa using h1) (by simpa using h2) (by simpa using h3)
    simp only [chi2, ip, sub, List.zipWith_cons_cons, List.sum_cons] at ih ⊢
    linarith [ih]

theorem chi2_band : ∀ (iv r r' : List ℝ), (∀ v ∈ iv, 0 ≤ v) → ∀ (j : Nat) v x x', iv[j]? = some v → r[j]? = some x → r'[j]? = some x' →
    v * (x - x') ^ 2 ≤ chi2 r iv r' := by
  intro iv
  induction iv with
  | nil => intro r r' _ j v x x' h; simp at h
  | cons w iv ih =>
    intro r r' h j v x x' hv hx hx'
    match r, r', hx, hx' with
    | [], _, hx, _ => simp at hx
    | _ :: _, [], _, hx' => simp at hx'
    | a :: r, a' :: r', hx, hx' =>
      have h0 : 0 ≤ w * (a - a') ^ 2 := mul_nonneg (h w (by simp)) (sq_nonneg _)
      have h1 : 0 ≤ chi2 r iv r' := chi2_nonneg _ _ _ (fun v hv => h v (by simp [hv]))
      have e : chi2 (a :: r) (w :: iv) (a' :: r') = w * (a - a') ^ 2 + chi2 r iv r' := by simp [chi2]
      rw [e]
      match j with
      | 0 => simp at hv hx hx'; subst hv hx hx'; linarith
      | j + 1 =>
        have := ih r r' (fun v hv => h v (by simp [hv])) j v x x' (by simpa using hv) (by simpa using hx) (by simpa using hx')
        linarith

/-- C153, best fits: the model maggies of the best fits to two photometries of the same galaxy (same redshift, same weights) differ by no more than the
photometries do, in the weighted sum of squares; and so do the residuals. -/
theorem C153_nonexpansive (F : Fitter ℝ) (Am : AMat ℝ) (hR : Ready F Am) (z : ℝ) (hz : InRange Am.x z) (m m' iv c c' : List ℝ)
    (hm : m.length = F.responses.length) (hm' : m'.length = F.responses.length) (hiv : ∀ v ∈ iv, 0 ≤ v)
    (ho : Optimal F z m iv c) (ho' : Optimal F z m' iv c') :
    ∃ r r', F.reconstruct (some (.scalar z)) (some (.vec c)) 0 = .ok (.vec r) ∧ F.reconstruct (some (.scalar z)) (some (.vec c')) 0 = .ok (.vec r') ∧
      chi2 r iv r' + chi2 (sub m r) iv (sub m' r') ≤ chi2 m iv m' := by
  obtain ⟨M, hM⟩ := (at_ok_iff hR.good.ne).mpr hz
  have hsh := at_shaped hR.good hM
  have hr := recon_ready hR hM ho.1
  have hr' := recon_ready hR hM ho'.1
  have hl : ∀ c, (mulVec M c).length = F.responses.length := by intro c; rw [mulVec, List.length_map, hsh.1, hR.rows]
  obtain ⟨e1, e2⟩ := (C112_optimal_iff F Am hR z hz m iv c hm hiv ho.1 ho.2.1 _ hr).mp ho
  obtain ⟨e3, e4⟩ := (C112_optimal_iff F Am hR z hz m' iv c' hm' hiv ho'.1 ho'.2.1 _ hr').mp ho'
  have k1 := e2 c' ho'.1 ho'.2.1 _ hr'
  have k2 := e4 c ho.1 ho.2.1 _ hr
  refine ⟨_, _, hr, hr', ?_⟩
  have := chi2_split iv m (mulVec M c) m' (mulVec M c') (by rw [hm, hl]) (by rw [hm', hl]) (by rw [hl, hl])
  linarith

/-- The AB correction does not change the weighted distance of two photometries. -/
theorem chi2_ab (cls : Cls) (m iv m' : List ℝ) : chi2 (abM cls m) (abIv cls iv) (abM cls m') = chi2 m iv m' := by
  unfold chi2
  congr 1
  apply List.ext_getElem?
  intro j
  simp only [List.getElem?_zipWith, abM, abIv, List.getElem?_mapIdx]
  have hp := abFactor_pos cls j
  cases iv[j]? <;> cases m[j]? <;> cases m'[j]? <;> simp
  field_simp

/-- C153: noise in the photometry is not amplified.  The model maggies of the coefficients that `fit_coeffs` returns for two photometries of the same galaxy differ, in the
sum of squares weighted with the (AB corrected) inverse variances, by no more than the photometries given do.  For every class, and for any two solvers that keep
their contract. -/
theorem C153_fit (nnls nnls' : Nnls ℝ) (hn : NNLSOK nnls) (hn' : NNLSOK nnls') (F : Fitter ℝ) (hr : AbReady F.abCls F.responses.length) (Am : AMat ℝ)
    (hR : Ready F Am) (z : ℝ) (hz : InRange Am.x z) (m m' iv : List ℝ) (hm : m.length = F.responses.length) (hm' : m'.length = F.responses.length)
    (hiv : iv.length = F.responses.length) (hpos : ∀ v ∈ iv, 0 ≤ v) (noise noise' : Nat → Nat → Nat → ℝ) (out out' : FitOut ℝ)
    (h : F.fitCoeffs nnls (some (.scalar z)) (some (.vec m)) (some (.vec iv)) 0 noise = .ok out)
    (h' : F.fitCoeffs nnls' (some (.scalar z)) (some (.vec m')) (some (.vec iv)) 0 noise' = .ok out') :
    ∃ r r', F.reconstruct (some (.scalar z)) (some out.coeffs) 0 = .ok (.vec r) ∧ F.reconstruct (some (.scalar z)) (some out'.coeffs) 0 = .ok (.vec r') ∧
      chi2 r (abIv F.abCls iv) r' ≤ chi2 m iv m' ∧
      ∀ (j : Nat) v x x', (abIv F.abCls iv)[j]? = some v → 0 < v → r[j]? = some x → r'[j]? = some x' → |x - x'| ≤ Real.sqrt (chi2 m iv m' / v) := by
  obtain ⟨c, rfl, ho⟩ := C49_ab nnls hn F hr Am hR z hz m iv hm hiv hpos noise out h
  obtain ⟨c', rfl, ho'⟩ := C49_ab nnls' hn' F hr Am hR z hz m' iv hm' hiv hpos noise' out' h'
  have hp := abIv_nonneg F.abCls iv hpos
  obtain ⟨r, r', h1, h2, h3⟩ := C153_nonexpansive F Am hR z hz (abM F.abCls m) (abM F.abCls m') (abIv F.abCls iv) c c' (by rw [abM_length]; exact hm)
    (by rw [abM_length]; exact hm') hp ho ho'
  rw [chi2_ab] at h3
  have h4 := chi2_nonneg (sub (abM F.abCls m) r) (abIv F.abCls iv) (sub (abM F.abCls m') r') hp
  have h5 : chi2 r (abIv F.abCls iv) r' ≤ chi2 m iv m' := by linarith
  refine ⟨r, r', h1, h2, h5, ?_⟩
  intro j v x x' hv hv0 hx hx'
  refine Real.abs_le_sqrt ?_
  rw [le_div_iff₀ hv0]
  have := chi2_band _ r r' hp j v x x' hv hx hx'
  linarith

/-- the chi-squared of a photometry that differs from `m` by `e j / √iv` in the bands with positive `iv` -/
theorem chi2_deviates : ∀ (iv m mk : List ℝ) (e : Nat → ℝ), (∀ v ∈ iv, 0 ≤ v) → m.length = iv.length → mk.length = iv.length →
    (∀ (j : Nat) x v y, m[j]? = some x → iv[j]? = some v → 0 < v → mk[j]? = some y → y = x + e j / Real.sqrt v) →
    chi2 m iv mk = ((List.range iv.length).map (fun j => if 0 < ent iv j then e j ^ 2 else 0)).sum
  | [], _, _, _, _, _, _, _ => by simp [chi2]
  | v :: iv, x :: m, y :: mk, e, h0, h1, h2, h => by
    have ih := chi2_deviates iv m mk (fun j => e (j + 1)) (fun v hv => h0 v (by simp [hv])) (by simpa using h1) (by simpa using h2)
      (fun j x v y a b c d => h (j + 1) x v y (by simpa using a) (by simpa using b) c (by simpa using d))
    have hs : chi2 (x :: m) (v :: iv) (y :: mk) = v * (x - y) ^ 2 + chi2 m iv mk := by simp [chi2]
    rw [hs, ih, List.length_cons, List.range_succ_eq_map, List.map_cons, List.sum_cons, List.map_map]
    have hv : 0 ≤ v := h0 v (by simp)
    congr 1
    have e0 : ent (v :: iv) 0 = v := rfl
    rw [e0]
    split
    · rename_i hp
      rw [h 0 x v y rfl rfl hp rfl]
      have hsq : Real.sqrt v ≠ 0 := (Real.sqrt_pos.mpr hp).ne'
      have hq : v = Real.sqrt v ^ 2 := (Real.sq_sqrt hv).symm
      have : x - (x + e 0 / Real.sqrt v) = -(e 0 / Real.sqrt v) := by ring
      rw [this, neg_sq, div_pow, ← hq]
      field_simp
    · rename_i hp
      have : v = 0 := le_antisymm (not_lt.mp hp) hv
      rw [this, zero_mul]

/-- C153, Monte Carlo: the model maggies of each Monte Carlo fit differ from those of the fit to the photometry, in units of the errors, by no more than the
normal deviates that were added: the sum of the squares of the deviates of the bands with positive inverse variance. -/
theorem C153_mc (nnls : Nnls ℝ) (hn : NNLSOK nnls) (F : Fitter ℝ) (hr : AbReady F.abCls F.responses.length) (hnb : F.responses.length ≠ 1) (Am : AMat ℝ)
    (hR : Ready F Am) (z : ℝ) (hz : InRange Am.x z) (m iv : List ℝ) (hm : m.length = F.responses.length)
    (hiv : iv.length = F.responses.length) (hpos : ∀ v ∈ iv, 0 ≤ v) :
    ∃ p : Nat → Nat, (∀ i j a b, iv[i]? = some a → iv[j]? = some b → 0 < a → 0 < b → p i = p j → i = j) ∧
      ∀ (mc : Nat) (_ : 0 < mc) (noise : Nat → Nat → Nat → ℝ) (out : FitOut ℝ)
        (_ : F.fitCoeffs nnls (some (.scalar z)) (some (.vec m)) (some (.vec iv)) mc noise = .ok out),
        ∃ cm mm r, out.mc = some (.arr [F.templates.nsed] mc cm, .arr [F.responses.length] mc mm) ∧
          F.reconstruct (some (.scalar z)) (some out.coeffs) 0 = .ok (.vec r) ∧
          ∀ k < mc, ∃ rk, F.reconstruct (some (.scalar z)) (some (.vec (column cm k))) 0 = .ok (.vec rk) ∧
            chi2 r (abIv F.abCls iv) rk ≤ ((List.range iv.length).map (fun j => if 0 < ent iv j then noise 0 k (p j) ^ 2 else 0)).sum := by
  obtain ⟨p, hp, hall⟩ := C55_ab nnls hn.len F hr hnb Am hR.set z m iv hm hiv hpos
  refine ⟨p, hp, fun mc hmc noise out hout => ?_⟩
  obtain ⟨hfit, cm, mm, hmc', hcl, hml, _, _, hk⟩ := hall mc hmc noise out hout
  obtain ⟨c, hc, ho⟩ := C49_ab nnls hn F hr Am hR z hz m iv hm hiv hpos noise _ hfit
  have hcc : out.coeffs = .vec c := congrArg FitOut.coeffs hc
  have hpp := abIv_nonneg F.abCls iv hpos
  obtain ⟨-, -, r, hr1, -⟩ := id ho
  refine ⟨cm, mm, r, hmc', by rw [hcc]; exact hr1, fun k hk' => ?_⟩
  obtain ⟨h1, h2, h3⟩ := hk k hk'
  have hcol : (column mm k).length = F.responses.length := by rw [column, List.length_map, hml]
  have hl : (column mm k).length = F.plain.responses.length := hcol
  obtain ⟨ck, hck, ho2⟩ := C49_optimal nnls hn F.plain (Or.inl rfl) Am (ready_plain hR) z hz (column mm k) (abIv F.abCls iv) hl (by rw [abIv_length]; exact hiv) hpp noise _ h1
  have hck' : column cm k = ck := by
    have := congrArg FitOut.coeffs hck
    simp only [NDA.vec, NDA.arr.injEq, List.cons.injEq, and_true] at this
    exact this.2.2
  subst hck'
  have ho2' : Optimal F z (column mm k) (abIv F.abCls iv) (column cm k) := by rw [← optimal_plain]; exact ho2
  obtain ⟨r2, rk, g1, g2, g3⟩ := C153_nonexpansive F Am hR z hz (abM F.abCls m) (column mm k) (abIv F.abCls iv) c (column cm k) (by rw [abM_length]; exact hm)
    hcol hpp ho ho2'
  rw [hr1] at g1
  have hrr : r2 = r := by
    simp only [Except.ok.injEq, NDA.vec, NDA.arr.injEq, List.cons.injEq, and_true] at g1
    exact g1.2.2.symm
  subst hrr
  refine ⟨rk, g2, ?_⟩
  have h4 := chi2_nonneg (sub (abM F.abCls m) r2) (abIv F.abCls iv) (sub (column mm k) rk) hpp
  let mk : List ℝ := (column mm k).mapIdx (fun j x => x / abFactor F.abCls j)
  have hmk : abM F.abCls mk = column mm k := by
    unfold abM
    apply List.ext_getElem?
    intro j
    simp only [mk, List.getElem?_mapIdx]
    have hp := (abFactor_pos F.abCls j).ne'
    cases (column mm k)[j]? with
    | none => rfl
    | some x => simp only [Option.map_some, Option.some.injEq]; field_simp
  rw [← hmk, chi2_ab] at g3
  rw [hmk] at g3
  have hd := chi2_deviates iv m mk (fun j => noise 0 k (p j)) hpos (by rw [hm, hiv]) (by simp only [mk]; rw [List.length_mapIdx, hcol, hiv]) (by
    intro j x v y hx hv hv0 hy
    simp only [mk, List.getElem?_mapIdx, h3 j x v hx hv hv0, Option.map_some, Option.some.injEq] at hy
    rw [← hy]
    exact mul_div_cancel_right₀ _ (abFactor_pos F.abCls j).ne')
  rw [← hd]
  linarith

/-- non-vacuity: two photometries of two bands at redshift 2 that both have a best fit, of different models. -/
example : ∃ m m' : List ℝ, m.length = 2 ∧ m'.length = 2 ∧ Ready demoFitter2 demoAm2 ∧ InRange demoAm2.x 2 ∧ Optimal demoFitter2 2 m [1, 4] [1, 5] ∧
    Optimal demoFitter2 2 m' [1, 4] [3, 2] := by
  have hin : InRange demoAm2.x 2 := by norm_num [InRange, demoAm2]
  obtain ⟨m, h1, _, h2⟩ := exact_optimal demo_ready hin (c := [1, 5]) rfl (by simp) (iv := [1, 4]) (by simp)
  obtain ⟨m', h1', _, h2'⟩ := exact_optimal demo_ready hin (c := [3, 2]) rfl (by simp) (iv := [1, 4]) (by simp)
  exact ⟨m, m', h1, h1', demo_ready, hin, h2, h2'⟩

end KC
