import Verif.Props.Fit

/-!
# Fitting, real arithmetic (C49, C50, C55, C61, C62)
-/

namespace KC
open Spec

/-- Chi-squared of model maggies `r` against maggies `m` with inverse variances `iv`. -/
noncomputable def chi2 (m iv r : List ℝ) : ℝ :=
  (List.zipWith (fun v d => v * d ^ 2) iv (List.zipWith (fun x y => x - y) m r)).sum

/-- A fitter ready to fit: the matrix has a row per band and a column per template. -/
structure Ready (F : Fitter ℝ) (Am : AMat ℝ) : Prop where
  set : F.Amatrix = some Am
  good : Am.Good
  rows : Am.nrow = F.responses.length
  cols : Am.ncol = F.templates.nsed

/-- `c` is a nonnegative coefficient vector whose reconstructed maggies have the least chi-squared among all nonnegative ones. -/
def Optimal (F : Fitter ℝ) (z : ℝ) (m iv c : List ℝ) : Prop :=
  c.length = F.templates.nsed ∧ (∀ v ∈ c, 0 ≤ v) ∧
  ∃ rc, F.reconstruct (some (.scalar z)) (some (.vec c)) 0 = .ok (.vec rc) ∧
    ∀ y : List ℝ, y.length = F.templates.nsed → (∀ v ∈ y, 0 ≤ v) →
      ∃ ry, F.reconstruct (some (.scalar z)) (some (.vec y)) 0 = .ok (.vec ry) ∧ chi2 m iv rc ≤ chi2 m iv ry

theorem map_f32_list (l : List ℝ) : l.map f32 = l := List.map_id l

theorem map_f32_rows (l : List (List ℝ)) : l.map (List.map (f32 : ℝ → ℝ)) = l := by
  have : (List.map (f32 : ℝ → ℝ)) = id := by funext l; exact List.map_id l
  rw [this, List.map_id]

/-- matrix times vector -/
noncomputable def mulVec (M : List (List ℝ)) (c : List ℝ) : List ℝ := M.map (fun row => dot row c)

theorem reconRow_zero (M : List (List ℝ)) (c : List ℝ) : reconRow 0 M c = mulVec M c := by
  simp [reconRow, mulVec]

theorem recon_ready {F : Fitter ℝ} {Am : AMat ℝ} (h : Ready F Am) {z : ℝ} {M : List (List ℝ)} (hM : Am.at z = .ok M)
    {c : List ℝ} (hc : c.length = F.templates.nsed) :
    F.reconstruct (some (.scalar z)) (some (.vec c)) 0 = .ok (.vec (mulVec M c)) := by
  unfold Fitter.reconstruct
  rw [h.set, recon_scalar F Am z c 0 hc, real_f32, shiftOf_real, map_f32_list]
  have e : (1 + z) * (1 + 0) - 1 = z := by ring
  rw [e, hM]
  have hl : (mulVec M c).length = Am.nrow := by
    rw [mulVec, List.length_map]; exact (at_shaped h.good hM).1
  simp only [Except.map, reconRow_zero, NDA.vec, hl]

theorem resid_chi2 : ∀ (M : List (List ℝ)) (m iv c : List ℝ), (∀ v ∈ iv, 0 ≤ v) →
    resid (weighted (iv.map Arith.sqrt) M) c (rhs m (iv.map Arith.sqrt)) = chi2 m iv (mulVec M c)
  | [], m, iv, c, _ => by simp [resid, weighted, chi2, mulVec]
  | _ :: _, [], iv, c, _ => by simp [resid, rhs, chi2]
  | _ :: _, _ :: _, [], c, _ => by simp [resid, weighted, chi2]
  | row :: M, x :: m, v :: iv, c, h => by
    have ih := resid_chi2 M m iv c (fun u hu => h u (List.mem_cons_of_mem _ hu))
    have hv : 0 ≤ v := h v (by simp)
    have e : (List.zipWith (· * ·) (row.map (fun a => Real.sqrt v * a)) c).sum = Real.sqrt v * dot row c := by
      clear ih
      induction row generalizing c with
      | nil => simp [dot, sumL_real]
      | cons a t iht =>
        cases c with
        | nil => simp [dot, sumL_real]
        | cons b c =>
          rw [dot_cons, List.map_cons, List.zipWith_cons_cons, List.sum_cons, iht c]
          ring
    have hs : Real.sqrt v ^ 2 = v := Real.sq_sqrt hv
    have e1 : resid (weighted ((v :: iv).map Arith.sqrt) (row :: M)) c (rhs (x :: m) ((v :: iv).map Arith.sqrt)) =
        ((List.zipWith (· * ·) (row.map (fun a => Real.sqrt v * a)) c).sum - x * Real.sqrt v) ^ 2 +
        resid (weighted (iv.map Arith.sqrt) M) c (rhs m (iv.map Arith.sqrt)) := by
      simp only [resid, weighted, rhs, List.map_cons, List.zipWith_cons_cons, List.sum_cons]; rfl
    have e2 : chi2 (x :: m) (v :: iv) (mulVec (row :: M) c) = v * (x - dot row c) ^ 2 + chi2 m iv (mulVec M c) := by
      simp only [chi2, mulVec, List.map_cons, List.zipWith_cons_cons, List.sum_cons]
    rw [e1, e2, ih, e]
    congr 1
    calc (Real.sqrt v * dot row c - x * Real.sqrt v) ^ 2 = Real.sqrt v ^ 2 * (x - dot row c) ^ 2 := by ring
      _ = _ := by rw [hs]

theorem solve_ok {nnls : Nnls ℝ} {n : Nat} {A : List (List ℝ)} {b x : List ℝ} (h : solve nnls n A b = .ok x) :
    ∃ it, nnls n A b it = .ok x := by
  unfold solve at h
  split at h <;> exact ⟨_, h⟩

/-- `Optimal` in terms of the matrix. -/
theorem optimal_iff {F : Fitter ℝ} {Am : AMat ℝ} (h : Ready F Am) {z : ℝ} {M : List (List ℝ)} (hM : Am.at z = .ok M) (m iv c : List ℝ) :
    Optimal F z m iv c ↔ c.length = F.templates.nsed ∧ (∀ v ∈ c, 0 ≤ v) ∧
      ∀ y : List ℝ, y.length = F.templates.nsed → (∀ v ∈ y, 0 ≤ v) → chi2 m iv (mulVec M c) ≤ chi2 m iv (mulVec M y) := by
  have inj : ∀ a b : List ℝ, (Except.ok (NDA.vec a) : Py (NDA ℝ)) = .ok (.vec b) → a = b := by
    intro a b h
    simp only [Except.ok.injEq, NDA.vec, NDA.arr.injEq, List.cons.injEq, and_true] at h
    exact h.2.2
  constructor
  · rintro ⟨h1, h2, rc, h3, h4⟩
    refine ⟨h1, h2, fun y hy hy0 => ?_⟩
    obtain ⟨ry, h5, h6⟩ := h4 y hy hy0
    rw [recon_ready h hM h1] at h3
    rw [recon_ready h hM hy] at h5
    rw [inj _ _ h3, inj _ _ h5]; exact h6
  · rintro ⟨h1, h2, h3⟩
    exact ⟨h1, h2, _, recon_ready h hM h1, fun y hy hy0 => ⟨_, recon_ready h hM hy, h3 y hy hy0⟩⟩

/-- C49: what `fit_coeffs` returns for an object on the grid is the nonnegative chi-squared optimum. -/
theorem C49_optimal (nnls : Nnls ℝ) (hn : NNLSOK nnls) (F : Fitter ℝ) (hF : NoAb F) (Am : AMat ℝ) (hR : Ready F Am) (z : ℝ)
    (hz : InRange Am.x z) (m iv : List ℝ) (hm : m.length = F.responses.length) (hiv : iv.length = F.responses.length)
    (hpos : ∀ v ∈ iv, 0 ≤ v) (noise : Nat → Nat → Nat → ℝ) (out : FitOut ℝ)
    (h : F.fitCoeffs nnls (some (.scalar z)) (some (.vec m)) (some (.vec iv)) 0 noise = .ok out) :
    ∃ c, out = ⟨.vec c, none⟩ ∧ Optimal F z m iv c := by
  obtain ⟨M, hM⟩ := (at_ok_iff hR.good.ne).mpr hz
  by_cases hnb : F.responses.length = 1
  · exfalso
    obtain ⟨x, rfl⟩ := List.length_eq_one_iff.mp (hm.trans hnb)
    obtain ⟨v, rfl⟩ := List.length_eq_one_iff.mp (hiv.trans hnb)
    rw [C57_false nnls F hF Am hR.set hnb z x v M hM 0 noise] at h
    cases h
  · rw [fit_scalar nnls hF hnb z m iv hm hiv, real_f32, map_f32_list, map_f32_list, fitU_in0 hR.set hM _ (by rw [(at_shaped hR.good hM).1, hR.rows, hiv])] at h
    cases hs : solve nnls F.templates.nsed (weighted (iv.map Arith.sqrt) M) (rhs m (iv.map Arith.sqrt)) with
    | error e => rw [hs] at h; cases h
    | ok c =>
      rw [hs] at h; cases h
      refine ⟨c, rfl, ?_⟩
      rw [optimal_iff hR hM]
      obtain ⟨it, hit⟩ := solve_ok hs
      refine ⟨hn.len _ _ _ _ _ hit, hn.nonneg _ _ _ _ _ hit, ?_⟩
      intro y hy hy0
      have hsh := at_shaped hR.good hM
      have := hn.opt _ _ _ _ _ ?_ ?_ hit y hy hy0
      · rwa [resid_chi2 M m iv c hpos, resid_chi2 M m iv y hpos] at this
      · intro row hrow
        obtain ⟨i, hi, rfl⟩ := List.mem_iff_getElem.mp hrow
        simp only [weighted, List.getElem_zipWith, List.length_map]
        rw [← hR.cols]
        exact hsh.2 _ (List.getElem_mem _)
      · simp only [weighted, rhs, List.length_zipWith, List.length_map, hsh.1, hR.rows, hm, hiv]

/-- C49 for every object of a batch (`C52_batch_partial` carries it over). -/
theorem C49_optimal_batch (nnls : Nnls ℝ) (hn : NNLSOK nnls) (F : Fitter ℝ) (hF : NoAb F) (hnb : F.responses.length ≠ 1) (Am : AMat ℝ)
    (hR : Ready F Am) (zs : List ℝ) (ms ivs : List (List ℝ)) (hl : zs.length ≠ 1) (hm : ms.length = zs.length)
    (hiv : ivs.length = zs.length) (hmr : ∀ r ∈ ms, r.length = F.responses.length) (hivr : ∀ r ∈ ivs, r.length = F.responses.length)
    (hpos : ∀ r ∈ ivs, ∀ v ∈ r, 0 ≤ v) (noise : Nat → Nat → Nat → ℝ) (out : FitOut ℝ)
    (h : F.fitCoeffs nnls (some (.vec zs)) (some (.arr [zs.length] F.responses.length ms))
      (some (.arr [zs.length] F.responses.length ivs)) 0 noise = .ok out) :
    ∃ cs, out = ⟨.arr [zs.length] F.templates.nsed cs, none⟩ ∧ cs.length = zs.length ∧
      ∀ (k : Nat) z m iv c, zs[k]? = some z → ms[k]? = some m → ivs[k]? = some iv → cs[k]? = some c → InRange Am.x z →
        Optimal F z m iv c := by
  obtain ⟨cs, hcl, hcs, hco, hmc⟩ := (C52_batch_partial nnls hn.len F hF hnb zs ms ivs hl hm hiv hmr hivr 0 noise).2 out h
  have e : cs.map (fun r => r.1.map f32) = cs.map (fun r => r.1) := List.map_congr_left (fun r _ => map_f32_list r.1)
  rw [e] at hco
  refine ⟨cs.map (fun r => r.1), ?_, by simpa using hcl, ?_⟩
  · cases out; simp only at hco hmc; rw [hco, hmc]; rfl
  · intro k z m iv c hz hm' hiv' hc hin
    rw [List.getElem?_map] at hc
    cases hck : cs[k]? with
    | none => rw [hck] at hc; cases hc
    | some r =>
      rw [hck] at hc
      cases hc
      have := hcs k r hck
      have e1 : ent zs k = z := ent_eq hz
      have e2 : ms.getD k [] = m := by simp [List.getD, hm']
      have e3 : ivs.getD k [] = iv := by simp [List.getD, hiv']
      simp only [e1, e2, e3] at this
      obtain ⟨c', hc', ho⟩ := C49_optimal nnls hn F hF Am hR z hin m iv (hmr m (List.mem_of_getElem? hm'))
        (hivr iv (List.mem_of_getElem? hiv')) (hpos iv (List.mem_of_getElem? hiv')) _ _ this
      simp only [if_true, FitOut.mk.injEq, NDA.vec, NDA.arr.injEq, List.cons.injEq, and_true] at hc'
      show Optimal F z m iv r.1; rw [hc'.2.2]; exact ho

/-! ### C50 -/

theorem rhs_congr : ∀ (m m' iv : List ℝ), m.length = m'.length →
    (∀ (j : Nat) v, iv[j]? = some v → v ≠ 0 → m[j]? = m'[j]?) → rhs m (iv.map Arith.sqrt) = rhs m' (iv.map Arith.sqrt)
  | [], [], _, _, _ => rfl
  | x :: m, y :: m', [], _, _ => rfl
  | x :: m, y :: m', v :: iv, hl, h => by
    have ih := rhs_congr m m' iv (by simpa using hl) (fun j v hv h0 => by simpa using h (j + 1) v (by simpa using hv) h0)
    have e : x * Real.sqrt v = y * Real.sqrt v := by
      by_cases hv : v = 0
      · simp [hv]
      · have := h 0 v (by simp) hv
        simp only [List.getElem?_cons_zero, Option.some.injEq] at this
        rw [this]
    simp only [rhs, List.map_cons, List.zipWith_cons_cons] at ih ⊢
    rw [ih]
    congr 1

/-- C50 for finite maggies: maggies in bands of zero inverse variance do not matter to the fit, its failures included. -/
theorem C50_zero_ivar_partial (nnls : Nnls ℝ) (F : Fitter ℝ) (hF : NoAb F) (hnb : F.responses.length ≠ 1) (z : ℝ) (m m' iv : List ℝ)
    (hm : m.length = F.responses.length) (hm' : m'.length = F.responses.length) (hiv : iv.length = F.responses.length)
    (h : ∀ (j : Nat) v, iv[j]? = some v → v ≠ 0 → m[j]? = m'[j]?) (noise : Nat → Nat → Nat → ℝ) :
    F.fitCoeffs nnls (some (.scalar z)) (some (.vec m)) (some (.vec iv)) 0 noise =
    F.fitCoeffs nnls (some (.scalar z)) (some (.vec m')) (some (.vec iv)) 0 noise := by
  rw [fit_scalar nnls hF hnb z m iv hm hiv, fit_scalar nnls hF hnb z m' iv hm' hiv]
  simp only [real_f32, map_f32_list]
  congr 1
  exact fitU_congr nnls F z (rhs_congr m m' iv (by omega) h) _

/-- C50 in a batch. -/
theorem C50_zero_ivar_batch_partial (nnls : Nnls ℝ) (F : Fitter ℝ) (hF : NoAb F) (zs : List ℝ)
    (ms ms' ivs : List (List ℝ)) (hl : zs.length ≠ 1) (hm : ms.length = zs.length) (hm' : ms'.length = zs.length)
    (hiv : ivs.length = zs.length) (hmr : ∀ r ∈ ms, r.length = F.responses.length) (hmr' : ∀ r ∈ ms', r.length = F.responses.length)
    (h : ∀ (k j : Nat) iv v, ivs[k]? = some iv → iv[j]? = some v → v ≠ 0 →
      (ms[k]?).bind (fun r => r[j]?) = (ms'[k]?).bind (fun r => r[j]?)) (noise : Nat → Nat → Nat → ℝ) :
    F.fitCoeffs nnls (some (.vec zs)) (some (.arr [zs.length] F.responses.length ms)) (some (.arr [zs.length] F.responses.length ivs)) 0 noise =
    F.fitCoeffs nnls (some (.vec zs)) (some (.arr [zs.length] F.responses.length ms')) (some (.arr [zs.length] F.responses.length ivs)) 0 noise := by
  rw [fit_array nnls hF zs ms ivs hl hm hiv, fit_array nnls hF zs ms' ivs hl hm' hiv]
  congr 1
  apply mapM_congr
  intro k hk
  have hk' := List.mem_range.mp hk
  have k1 : k < ms.length := by omega
  have k2 : k < ms'.length := by omega
  have k3 : k < ivs.length := by omega
  rw [getD_lt k1, getD_lt k2, getD_lt k3]
  unfold passU
  simp only [map_f32_list]
  have hr : rhs ms[k] (ivs[k].map Arith.sqrt) = rhs ms'[k] (ivs[k].map Arith.sqrt) := by
    apply rhs_congr
    · rw [hmr _ (List.getElem_mem _), hmr' _ (List.getElem_mem _)]
    · intro j v hv h0
      simpa [k1, k2] using h k j ivs[k] v (List.getElem?_eq_getElem k3) hv h0
  have : fitU nnls F (f32 (ent zs k)) ms[k] ivs[k] 0 (noise k) = fitU nnls F (f32 (ent zs k)) ms'[k] ivs[k] 0 (noise k) :=
    fitU_congr nnls F _ hr _
  rw [this]

/-- C50 is false for NaN: a NaN in a band is not ignored even if its inverse variance is 0.  For every solver that refuses
NaN with `ValueError` (scipy checks its arguments for finiteness) the fit raises. -/
theorem C50_false_nan (nnls : Nnls XR) (hs : ∀ n A b it, XR.nan ∈ b → nnls n A b it = .error .valueError) (F : Fitter XR) (hF : NoAb F)
    (hnb : F.responses.length ≠ 1) (Am : AMat XR) (hA : F.Amatrix = some Am) (z : XR) (M : List (List XR))
    (hz : Am.at (f32 z) = .ok M) (hM : M.length = F.responses.length) (m iv : List XR) (hm : m.length = F.responses.length) (hiv : iv.length = F.responses.length)
    (j : Nat) (hj : m[j]? = some .nan) (noise : Nat → Nat → Nat → XR) :
    F.fitCoeffs nnls (some (.scalar z)) (some (.vec m)) (some (.vec iv)) 0 noise = .error .valueError := by
  rw [fit_scalar nnls hF hnb z m iv hm hiv, fitU_in0 hA hz _ (by simp [hiv, hM])]
  have hb : XR.nan ∈ rhs (m.map f32) ((iv.map f32).map Arith.sqrt) := by
    have hjl : j < iv.length := by
      have := (List.getElem?_eq_some_iff.mp hj).1
      omega
    apply List.mem_of_getElem? (i := j)
    simp only [rhs, List.getElem?_zipWith, List.getElem?_map, hj, List.getElem?_eq_getElem hjl, Option.map_some]
    rfl
  simp only [solve, hs _ _ _ _ hb]
  rfl

/-! ### C61 -/

theorem chi2_nonneg (m iv r : List ℝ) (h : ∀ v ∈ iv, 0 ≤ v) : 0 ≤ chi2 m iv r := by
  unfold chi2
  apply List.sum_nonneg
  intro x hx
  obtain ⟨i, hi, rfl⟩ := List.mem_iff_getElem.mp hx
  simp only [List.getElem_zipWith]
  exact mul_nonneg (h _ (List.getElem_mem _)) (sq_nonneg _)

theorem chi2_self (m iv : List ℝ) : chi2 m iv m = 0 := by
  unfold chi2
  apply List.sum_eq_zero
  intro x hx
  obtain ⟨i, hi, rfl⟩ := List.mem_iff_getElem.mp hx
  simp

theorem chi2_zero : ∀ (m iv r : List ℝ), (∀ v ∈ iv, 0 ≤ v) → chi2 m iv r ≤ 0 → ∀ (j : Nat) v x y, iv[j]? = some v → 0 < v →
    m[j]? = some x → r[j]? = some y → x = y
  | [], _, _, _, _, j, v, x, y, _, _, hx, _ => by simp at hx
  | _ :: _, [], _, _, _, j, v, x, y, hv, _, _, _ => by simp at hv
  | _ :: _, _ :: _, [], _, _, j, v, x, y, _, _, _, hy => by simp at hy
  | a :: m, b :: iv, c :: r, h, hle, j, v, x, y, hv, hp, hx, hy => by
    have e : chi2 (a :: m) (b :: iv) (c :: r) = b * (a - c) ^ 2 + chi2 m iv r := by
      simp only [chi2, List.zipWith_cons_cons, List.sum_cons]
    have h1 : 0 ≤ b * (a - c) ^ 2 := mul_nonneg (h b (by simp)) (sq_nonneg _)
    have h2 := chi2_nonneg m iv r (fun u hu => h u (List.mem_cons_of_mem _ hu))
    rw [e] at hle
    cases j with
    | zero =>
      simp only [List.getElem?_cons_zero, Option.some.injEq] at hv hx hy
      subst hv hx hy
      have : b * (a - c) ^ 2 = 0 := by linarith
      rcases mul_eq_zero.mp this with h | h
      · linarith
      · have := pow_eq_zero_iff (n := 2) (by norm_num) |>.mp h
        linarith
    | succ j =>
      simp only [List.getElem?_cons_succ] at hv hx hy
      exact chi2_zero m iv r (fun u hu => h u (List.mem_cons_of_mem _ hu)) (by linarith) j v x y hv hp hx hy

/-- C61: maggies reconstructed from some nonnegative coefficients are reproduced by the fitted coefficients in every band with
positive inverse variance. -/
theorem C61_recovered (nnls : Nnls ℝ) (hn : NNLSOK nnls) (F : Fitter ℝ) (hF : NoAb F) (Am : AMat ℝ) (hR : Ready F Am) (z : ℝ)
    (hz : InRange Am.x z) (m iv c0 : List ℝ) (hc0 : c0.length = F.templates.nsed) (hc0p : ∀ v ∈ c0, 0 ≤ v)
    (hm : F.reconstruct (some (.scalar z)) (some (.vec c0)) 0 = .ok (.vec m)) (hiv : iv.length = F.responses.length)
    (hpos : ∀ v ∈ iv, 0 ≤ v) (noise : Nat → Nat → Nat → ℝ) (out : FitOut ℝ)
    (h : F.fitCoeffs nnls (some (.scalar z)) (some (.vec m)) (some (.vec iv)) 0 noise = .ok out) :
    ∃ r, F.reconstruct (some (.scalar z)) (some out.coeffs) 0 = .ok (.vec r) ∧
      ∀ (j : Nat) v, iv[j]? = some v → 0 < v → r[j]? = m[j]? := by
  obtain ⟨M, hM⟩ := (at_ok_iff hR.good.ne).mpr hz
  have hsh := at_shaped hR.good hM
  have hmm : m = mulVec M c0 := by
    rw [recon_ready hR hM hc0] at hm
    simp only [Except.ok.injEq, NDA.vec, NDA.arr.injEq, List.cons.injEq, and_true] at hm
    exact hm.2.2.symm
  have hml : m.length = F.responses.length := by rw [hmm, mulVec, List.length_map, hsh.1, hR.rows]
  obtain ⟨c, rfl, ho⟩ := C49_optimal nnls hn F hF Am hR z hz m iv hml hiv hpos noise out h
  rw [optimal_iff hR hM] at ho
  obtain ⟨hcl, _, hopt⟩ := ho
  refine ⟨_, recon_ready hR hM hcl, ?_⟩
  intro j v hv hvp
  have h0 := hopt c0 hc0 hc0p
  rw [← hmm, chi2_self] at h0
  have hj : j < iv.length := (List.getElem?_eq_some_iff.mp hv).1
  have hjm : j < m.length := by omega
  have hjr : j < (mulVec M c).length := by rw [mulVec, List.length_map, hsh.1, hR.rows]; omega
  rw [List.getElem?_eq_getElem hjm, List.getElem?_eq_getElem hjr]
  exact congrArg some (chi2_zero m iv _ hpos h0 j v _ _ hv hvp (List.getElem?_eq_getElem hjm) (List.getElem?_eq_getElem hjr)).symm

/-! ### C62 -/

theorem mulVec_scale (s : ℝ) (M : List (List ℝ)) (c : List ℝ) : mulVec M (c.map (fun v => s * v)) = (mulVec M c).map (fun v => s * v) := by
  have : ∀ (row c : List ℝ), dot row (c.map (fun v => s * v)) = s * dot row c := by
    intro row
    induction row with
    | nil => intro c; simp [dot, sumL_real]
    | cons a t ih =>
      intro c
      cases c with
      | nil => simp [dot, sumL_real]
      | cons b c => rw [List.map_cons, dot_cons, dot_cons, ih]; ring
  simp [mulVec, this, Function.comp_def]

theorem chi2_scale (s : ℝ) : ∀ (m iv r : List ℝ), chi2 (m.map (fun v => s * v)) iv (r.map (fun v => s * v)) = s ^ 2 * chi2 m iv r
  | [], iv, r => by simp [chi2]
  | _ :: _, [], r => by simp [chi2]
  | _ :: _, _ :: _, [] => by simp [chi2]
  | a :: m, b :: iv, c :: r => by
    have ih := chi2_scale s m iv r
    simp only [chi2, List.map_cons, List.zipWith_cons_cons, List.sum_cons] at ih ⊢
    rw [ih]; ring

theorem chi2_weight (k : ℝ) : ∀ (m iv r : List ℝ), chi2 m (iv.map (fun v => k * v)) r = k * chi2 m iv r
  | [], iv, r => by simp [chi2]
  | _ :: _, [], r => by simp [chi2]
  | _ :: _, _ :: _, [] => by simp [chi2]
  | a :: m, b :: iv, c :: r => by
    have ih := chi2_weight k m iv r
    simp only [chi2, List.map_cons, List.zipWith_cons_cons, List.sum_cons] at ih ⊢
    rw [ih]; ring

/-- C62: scaling the maggies by `s > 0` scales the optimal coefficients by `s`. -/
theorem C62_flux_scale (F : Fitter ℝ) (Am : AMat ℝ) (hR : Ready F Am) (z : ℝ) (hz : InRange Am.x z) (m iv c : List ℝ) (s : ℝ) (hs : 0 < s) :
    Optimal F z (m.map (fun v => s * v)) iv (c.map (fun v => s * v)) ↔ Optimal F z m iv c := by
  obtain ⟨M, hM⟩ := (at_ok_iff hR.good.ne).mpr hz
  have key : ∀ (s : ℝ), 0 < s → ∀ m c, Optimal F z m iv c → Optimal F z (m.map (fun v => s * v)) iv (c.map (fun v => s * v)) := by
    intro s hs m c h
    rw [optimal_iff hR hM] at h ⊢
    obtain ⟨h1, h2, h3⟩ := h
    refine ⟨by simpa using h1, ?_, ?_⟩
    · intro v hv
      obtain ⟨u, hu, rfl⟩ := List.mem_map.mp hv
      exact mul_nonneg hs.le (h2 u hu)
    · intro y hy hy0
      have hy' := h3 (y.map (fun v => s⁻¹ * v)) (by simpa using hy) (by
        intro v hv
        obtain ⟨u, hu, rfl⟩ := List.mem_map.mp hv
        exact mul_nonneg (inv_nonneg.mpr hs.le) (hy0 u hu))
      have e : y = (y.map (fun v => s⁻¹ * v)).map (fun v => s * v) := by
        rw [List.map_map]
        conv_lhs => rw [← List.map_id y]
        apply List.map_congr_left
        intro v _
        simp [hs.ne']
      rw [e, mulVec_scale, mulVec_scale, chi2_scale, chi2_scale]
      exact mul_le_mul_of_nonneg_left hy' (sq_nonneg s)
  constructor
  · intro h
    have := key s⁻¹ (inv_pos.mpr hs) _ _ h
    have e : ∀ l : List ℝ, (l.map (fun v => s * v)).map (fun v => s⁻¹ * v) = l := by
      intro l
      rw [List.map_map]
      conv_rhs => rw [← List.map_id l]
      apply List.map_congr_left
      intro v _
      simp [hs.ne']
    rwa [e, e] at this
  · exact key s hs m c

/-- C62: multiplying all inverse variances by `k > 0` leaves the optimal coefficients unchanged. -/
theorem C62_weight_scale (F : Fitter ℝ) (Am : AMat ℝ) (hR : Ready F Am) (z : ℝ) (hz : InRange Am.x z) (m iv c : List ℝ) (k : ℝ) (hk : 0 < k) :
    Optimal F z m (iv.map (fun v => k * v)) c ↔ Optimal F z m iv c := by
  obtain ⟨M, hM⟩ := (at_ok_iff hR.good.ne).mpr hz
  rw [optimal_iff hR hM, optimal_iff hR hM]
  simp only [chi2_weight]
  constructor
  · rintro ⟨h1, h2, h3⟩
    exact ⟨h1, h2, fun y hy hy0 => le_of_mul_le_mul_left (h3 y hy hy0) hk⟩
  · rintro ⟨h1, h2, h3⟩
    exact ⟨h1, h2, fun y hy hy0 => mul_le_mul_of_nonneg_left (h3 y hy hy0) hk.le⟩

/-- C62 for what `fit_coeffs` returns: the fit to scaled maggies and weights, divided by the scale, is optimal for the original data. -/
theorem C62_fit_scale (nnls : Nnls ℝ) (hn : NNLSOK nnls) (F : Fitter ℝ) (hF : NoAb F) (Am : AMat ℝ) (hR : Ready F Am) (z : ℝ)
    (hz : InRange Am.x z) (m iv : List ℝ) (hm : m.length = F.responses.length) (hiv : iv.length = F.responses.length)
    (hpos : ∀ v ∈ iv, 0 ≤ v) (s k : ℝ) (hs : 0 < s) (hk : 0 < k) (noise : Nat → Nat → Nat → ℝ) (out : FitOut ℝ)
    (h : F.fitCoeffs nnls (some (.scalar z)) (some (.vec (m.map (fun v => s * v)))) (some (.vec (iv.map (fun v => k * v)))) 0 noise = .ok out) :
    ∃ c, out = ⟨.vec (c.map (fun v => s * v)), none⟩ ∧ Optimal F z m iv c := by
  obtain ⟨c, rfl, ho⟩ := C49_optimal nnls hn F hF Am hR z hz _ _ (by simpa using hm) (by simpa using hiv) (by
    intro v hv
    obtain ⟨u, hu, rfl⟩ := List.mem_map.mp hv
    exact mul_nonneg hk.le (hpos u hu)) noise out h
  rw [C62_weight_scale F Am hR z hz _ _ _ k hk] at ho
  have e : (c.map (fun v => s⁻¹ * v)).map (fun v => s * v) = c := by
    rw [List.map_map]
    conv_rhs => rw [← List.map_id c]
    apply List.map_congr_left
    intro v _
    simp [hs.ne']
  refine ⟨c.map (fun v => s⁻¹ * v), by rw [e], ?_⟩
  rw [← C62_flux_scale F Am hR z hz _ _ _ s hs, e]
  exact ho

/-! ### C55 -/

/-- Column `k` of a table. -/
def column (rows : List (List ℝ)) (k : Nat) : List ℝ := rows.map (fun r => r.getD k 0)

theorem column_fromCols (n : Nat) (cols : List (List ℝ)) (k : Nat) (c : List ℝ) (hk : cols[k]? = some c) (hc : c.length = n) :
    column (fromCols n cols) k = c := by
  apply List.ext_getElem
  · simp [column, fromCols, hc]
  · intro i h1 h2
    simp [column, fromCols, hk, ent, h2]

/-- C55: with Monte Carlo the coefficients are those without, sample `k` of the coefficients is the fit to sample `k` of the
maggies, and sample `k` of the maggies is the maggies plus noise over the square root of ivar in every band with positive ivar, and
the maggies themselves in the bands with zero ivar.  Different bands use different deviates of the stream, which ones depends on ivar only. -/
theorem C55_monte_carlo (nnls : Nnls ℝ) (hlen : NnlsLen nnls) (F : Fitter ℝ) (hF : NoAb F) (hnb : F.responses.length ≠ 1) (Am : AMat ℝ)
    (hA : F.Amatrix = some Am) (z : ℝ) (m iv : List ℝ) (hm : m.length = F.responses.length) (hiv : iv.length = F.responses.length)
    (hpos : ∀ v ∈ iv, 0 ≤ v) :
    ∃ p : Nat → Nat, (∀ i j a b, iv[i]? = some a → iv[j]? = some b → 0 < a → 0 < b → p i = p j → i = j) ∧
      ∀ (mc : Nat) (_ : 0 < mc) (noise : Nat → Nat → Nat → ℝ) (out : FitOut ℝ)
        (_ : F.fitCoeffs nnls (some (.scalar z)) (some (.vec m)) (some (.vec iv)) mc noise = .ok out),
        F.fitCoeffs nnls (some (.scalar z)) (some (.vec m)) (some (.vec iv)) 0 noise = .ok ⟨out.coeffs, none⟩ ∧
        ∃ cm mm, out.mc = some (.arr [F.templates.nsed] mc cm, .arr [F.responses.length] mc mm) ∧
          cm.length = F.templates.nsed ∧ mm.length = F.responses.length ∧ (∀ r ∈ cm, r.length = mc) ∧ (∀ r ∈ mm, r.length = mc) ∧
          ∀ k < mc,
            F.fitCoeffs nnls (some (.scalar z)) (some (.vec (column mm k))) (some (.vec iv)) 0 noise = .ok ⟨.vec (column cm k), none⟩ ∧
            (∀ (j : Nat) x, m[j]? = some x → iv[j]? = some 0 → (column mm k)[j]? = some x) ∧
            ∀ (j : Nat) x v, m[j]? = some x → iv[j]? = some v → 0 < v →
              (column mm k)[j]? = some (x + noise 0 k (p j) / Real.sqrt v) := by
  refine ⟨(maskIdx ((iv.map Arith.sqrt).map (fun e => gtb e (lit 0)))).idxOf, ?_, ?_⟩
  · intro i j a b ha hb hap hbp hij
    have hmem : ∀ (i : Nat) a, iv[i]? = some a → 0 < a →
        i ∈ maskIdx ((iv.map Arith.sqrt).map (fun e => gtb e (lit (0 : ℚ)) : ℝ → Bool)) := by
      intro i a ha hap
      have hil := (List.getElem?_eq_some_iff.mp ha).1
      have hia := (List.getElem?_eq_some_iff.mp ha).2
      simp only [maskIdx, List.mem_filter, List.mem_range, List.length_map, hil, true_and]
      simp [gtb, ha, hap]
    exact (List.idxOf_inj (hmem i a ha hap)).mp hij
  intro mc hmc noise out h
  rw [fit_scalar nnls hF hnb z m iv hm hiv] at h
  rw [fit_scalar nnls hF hnb z m iv hm hiv]
  simp only [real_f32, map_f32_list] at h ⊢
  unfold fitU at h
  cases hz : weighAt Am iv z with
  | error e =>
    by_cases he : e = .valueError
    · subst he
      rw [fit1_out' hA hz, if_neg (by omega)] at h; cases h
    · rw [fit1_error hA hz he] at h
      cases h
  | ok M =>
    by_cases hMl : M.length = iv.length
    swap
    · rw [fit1_rows hA hz hMl] at h; cases h
    rw [fit1_in' hA hz hMl] at h
    rw [fitU_in0' hA hz hMl]
    cases hs : solve nnls F.templates.nsed M (rhs m (iv.map Arith.sqrt)) with
    | error e => rw [hs] at h; cases h
    | ok c =>
      rw [hs, ok_bind, if_neg (by omega)] at h
      simp only at h
      generalize hmm : (List.range mc).map (fun k => mcMaggies (noise 0 k) m (iv.map Arith.sqrt)) = mm at h
      cases hcs : mm.mapM (fun mk => do
          storeRow F.templates.nsed (.vec (← solve nnls F.templates.nsed M (rhs mk (iv.map Arith.sqrt))))) with
      | error e => rw [hcs] at h; cases h
      | ok cs =>
        rw [hcs] at h
        simp only [ok_bind, pure_py, unpack, Except.map, outOne, if_neg (show ¬ mc = 0 by omega), Except.ok.injEq] at h
        subst h
        have hf := mapM_ok_iff.mp hcs
        have hmml : mm.length = mc := by rw [← hmm]; simp
        have hcsl : cs.length = mc := by rw [← hf.length_eq, hmml]
        refine ⟨rfl, fromCols F.templates.nsed cs, fromCols m.length mm, rfl, by simp [fromCols], by simp [fromCols, hm], ?_, ?_, ?_⟩
        · intro r hr
          simp only [fromCols, List.mem_map] at hr
          obtain ⟨_, _, rfl⟩ := hr
          simp [hcsl]
        · intro r hr
          simp only [fromCols, List.mem_map] at hr
          obtain ⟨_, _, rfl⟩ := hr
          simp [hmml]
        · intro k hk
          have hk1 : k < mm.length := by omega
          have hk2 : k < cs.length := by omega
          have hmk : mm[k] = mcMaggies (noise 0 k) m (iv.map Arith.sqrt) := by
            subst hmm; simp
          have hmkl : mm[k].length = m.length := by rw [hmk]; simp [mcMaggies]
          have hpass := (List.forall₂_iff_get.mp hf).2 k hk1 hk2
          simp only [List.get_eq_getElem] at hpass
          cases hsk : solve nnls F.templates.nsed M (rhs mm[k] (iv.map Arith.sqrt)) with
          | error e => rw [hsk] at hpass; cases hpass
          | ok ck =>
            rw [hsk, ok_bind, storeRow_vec (solve_len hlen hsk), map_f32_list] at hpass
            have hck : cs[k] = ck := by cases hpass; rfl
            have e1 : column (fromCols F.templates.nsed cs) k = ck :=
              column_fromCols _ _ _ _ (by rw [List.getElem?_eq_getElem hk2, hck]) (solve_len hlen hsk)
            have e2 : column (fromCols m.length mm) k = mm[k] :=
              column_fromCols _ _ _ _ (List.getElem?_eq_getElem hk1) hmkl
            rw [e1, e2]
            have hentry : ∀ (j : Nat) x v, m[j]? = some x → iv[j]? = some v → mm[k][j]? =
                some (if 0 < Real.sqrt v then x + noise 0 k ((maskIdx ((iv.map Arith.sqrt).map (fun e => gtb e (lit 0)))).idxOf j) * (1 / Real.sqrt v) else x) := by
              intro j x v hx hv
              rw [hmk]
              unfold mcMaggies
              have : ent (iv.map Arith.sqrt) j = Real.sqrt v := ent_eq (by rw [List.getElem?_map, hv]; rfl)
              simp only [List.getElem?_mapIdx, List.getElem?_map, hx, Option.map_some, this, gtb, real_ltb, real_lit, Rat.cast_zero,
                Rat.cast_one, real_f32, decide_eq_true_eq]
            refine ⟨?_, ?_, ?_⟩
            · rw [fit_scalar nnls hF hnb z _ iv (by rw [hmkl, hm]) hiv]
              simp only [real_f32, map_f32_list]
              rw [fitU_in0' hA hz hMl, hsk]; rfl
            · intro j x hx hv
              rw [hentry j x 0 hx hv]; simp
            · intro j x v hx hv hvp
              rw [hentry j x v hx hv, if_pos (Real.sqrt_pos.mpr hvp)]
              congr 2; ring

/-! ### The contract is consistent, and the theorems are not vacuous -/

/-- A solver by choice: the optimum if there is one. -/
noncomputable def demoNnls : Nnls ℝ := fun n A b _ =>
  open Classical in
  if h : ∃ x : List ℝ, x.length = n ∧ (∀ v ∈ x, 0 ≤ v) ∧ ∀ y : List ℝ, y.length = n → (∀ v ∈ y, 0 ≤ v) → resid A x b ≤ resid A y b
  then .ok (Classical.choose h) else .error .runtimeError

theorem demoNnls_ok : NNLSOK demoNnls := by
  have key : ∀ n A b it x, demoNnls n A b it = .ok x → x.length = n ∧ (∀ v ∈ x, 0 ≤ v) ∧
      ∀ y : List ℝ, y.length = n → (∀ v ∈ y, 0 ≤ v) → resid A x b ≤ resid A y b := by
    intro n A b it x h
    unfold demoNnls at h
    split at h
    · rename_i hx
      cases h
      exact Classical.choose_spec hx
    · cases h
  exact ⟨fun n A b it x h => (key n A b it x h).1, fun n A b it x h => (key n A b it x h).2.1,
    fun n A b it x _ _ h => (key n A b it x h).2.2⟩

/-- Two bands, two templates, three redshifts. -/
noncomputable def demoAm2 : AMat ℝ := ⟨[0, 1, 3], [[[1, 2], [3, 1]], [[2, 0], [1, 1]], [[0, 4], [2, 2]]], 2, 2⟩

noncomputable def demoFitter2 : Fitter ℝ :=
  { Fitter.mk' .base [['x'], ['y']] (.sed ⟨[], [[], []], [], [[], []], 0, false, none, false⟩) 0 3 3 false with Amatrix := some demoAm2 }

theorem demo_ready : Ready demoFitter2 demoAm2 :=
  ⟨rfl, ⟨by simp [demoAm2], by simp [demoAm2], by simp [demoAm2], by simp [demoAm2, Shaped]⟩, rfl, rfl⟩

/-- The fit of noise-free photometry returns with this solver, so the hypotheses of C49, C61 and C62 are met. -/
theorem demo_fit_returns : ∃ m out, demoFitter2.reconstruct (some (.scalar 2)) (some (.vec [1, 5])) 0 = .ok (.vec m) ∧
    m.length = 2 ∧
    demoFitter2.fitCoeffs demoNnls (some (.scalar 2)) (some (.vec m)) (some (.vec [1, 4])) 0 (fun _ _ _ => 0) = .ok out := by
  have hin : InRange demoAm2.x 2 := by norm_num [InRange, demoAm2]
  obtain ⟨M, hM⟩ := (at_ok_iff demo_ready.good.ne).mpr hin
  have hsh := at_shaped demo_ready.good hM
  have hl : (mulVec M [1, 5]).length = 2 := by rw [mulVec, List.length_map]; exact hsh.1
  have hx : ∃ x : List ℝ, x.length = 2 ∧ (∀ v ∈ x, 0 ≤ v) ∧ ∀ y : List ℝ, y.length = 2 → (∀ v ∈ y, 0 ≤ v) →
      resid (weighted ([1, 4].map Arith.sqrt) M) x (rhs (mulVec M [1, 5]) ([1, 4].map Arith.sqrt)) ≤
      resid (weighted ([1, 4].map Arith.sqrt) M) y (rhs (mulVec M [1, 5]) ([1, 4].map Arith.sqrt)) := by
    refine ⟨[1, 5], rfl, by simp, ?_⟩
    intro y _ _
    rw [resid_chi2 _ _ _ _ (by simp), resid_chi2 _ _ _ _ (by simp), chi2_self]
    exact chi2_nonneg _ _ _ (by simp)
  refine ⟨mulVec M [1, 5], ⟨.vec (Classical.choose hx), none⟩, recon_ready demo_ready hM rfl, hl, ?_⟩
  rw [fit_scalar demoNnls (F := demoFitter2) (Or.inl rfl) (by simp [demoFitter2, Fitter.mk']) 2 _ _ hl rfl]
  simp only [real_f32, map_f32_list]
  rw [fitU_in0 (F := demoFitter2) (Am := demoAm2) rfl hM _ (iv := [1, 4]) hsh.1.symm]
  have : solve demoNnls demoFitter2.templates.nsed (weighted ([1, 4].map Arith.sqrt) M) (rhs (mulVec M [1, 5]) ([1, 4].map Arith.sqrt)) =
      .ok (Classical.choose hx) := by
    have hd : demoNnls 2 (weighted ([1, 4].map Arith.sqrt) M) (rhs (mulVec M [1, 5]) ([1, 4].map Arith.sqrt)) none =
        .ok (Classical.choose hx) := by
      unfold demoNnls; rw [dif_pos hx]
    unfold solve
    have e : demoFitter2.templates.nsed = 2 := rfl
    rw [e, hd]
  rw [this]; rfl

/-- The hypotheses of C49, C61 and C62 hold for this fitter, at a redshift between nodes, with one band weighted 4. -/
example : NNLSOK demoNnls ∧ NoAb demoFitter2 ∧ Ready demoFitter2 demoAm2 ∧ InRange demoAm2.x 2 ∧ demoFitter2.responses.length = 2 ∧
    demoFitter2.templates.nsed = 2 := ⟨demoNnls_ok, Or.inl rfl, demo_ready, by norm_num [InRange, demoAm2], rfl, rfl⟩

/-- A solver that always answers: the hypothesis on the solver in C51, C52, C55 and C57 is met. -/
def zeroNnls {α : Type} [Arith α] : Nnls α := fun n _ _ _ => .ok (zeros n)

theorem zeroNnls_len {α : Type} [Arith α] : NnlsLen (zeroNnls (α := α)) := by
  intro n A b it x h; cases h; simp [zeros]

/-- C55: a Monte Carlo fit that returns, with one band of zero ivar. -/
example (noise : Nat → Nat → Nat → ℝ) : ∃ out, demoFitter2.fitCoeffs zeroNnls (some (.scalar 2)) (some (.vec [3, 7])) (some (.vec [0, 4])) 5 noise = .ok out := by
  obtain ⟨M, hM⟩ := (at_ok_iff demo_ready.good.ne).mpr (show InRange demoAm2.x 2 by norm_num [InRange, demoAm2])
  rw [fit_scalar zeroNnls (F := demoFitter2) (Or.inl rfl) (by simp [demoFitter2, Fitter.mk']) 2 _ _ rfl rfl]
  simp only [real_f32, map_f32_list]
  unfold fitU
  rw [fit1_in (F := demoFitter2) (Am := demoAm2) rfl hM _ (iv := [0, 4]) (at_shaped demo_ready.good hM).1.symm]
  exact ⟨_, rfl⟩

/-- C51: a redshift above the grid. -/
example : OffGrid demoAm2 (f32 4) ∧ OffGrid demoAm2 (f32 (-1)) ∧ ¬ OffGrid demoAm2 (f32 2) := by
  refine ⟨⟨by simp [demoAm2], Or.inr ?_⟩, ⟨by simp [demoAm2], Or.inl ?_⟩, ?_⟩ <;> norm_num [demoAm2, OffGrid]

/-- C51 and C52 on a batch: one object on the grid and one off. -/
example (noise : Nat → Nat → Nat → ℝ) : ∃ rows, demoFitter2.fitCoeffs zeroNnls (some (.vec [2, 4])) (some (.arr [2] 2 [[3, 7], [1, 1]]))
    (some (.arr [2] 2 [[0, 4], [1, 1]])) 0 noise = .ok ⟨.arr [2] 2 rows, none⟩ := by
  have hnb : demoFitter2.responses.length ≠ 1 := by simp [demoFitter2, Fitter.mk']
  obtain ⟨M, hM⟩ := (at_ok_iff demo_ready.good.ne).mpr (show InRange demoAm2.x 2 by norm_num [InRange, demoAm2])
  obtain ⟨rows, h, _⟩ := C51_batch_partial zeroNnls zeroNnls_len demoFitter2 (Or.inl rfl) hnb demoAm2 rfl [2, 4]
    [[3, 7], [1, 1]] [[0, 4], [1, 1]] (by simp) rfl rfl (by simp [demoFitter2, Fitter.mk']) (by simp [demoFitter2, Fitter.mk']) noise (by
      intro k hk ho
      have hk' : k = 0 ∨ k = 1 := by
        have : k < 2 := hk
        omega
      rcases hk' with rfl | rfl
      · refine ⟨⟨.vec (zeros 2), none⟩, ?_⟩
        show demoFitter2.fitCoeffs zeroNnls (some (.scalar 2)) (some (.vec [3, 7])) (some (.vec [0, 4])) 0 noise = _
        rw [fit_scalar zeroNnls (F := demoFitter2) (Or.inl rfl) hnb 2 _ _ rfl rfl]
        simp only [real_f32, map_f32_list]
        rw [fitU_in0 (F := demoFitter2) (Am := demoAm2) rfl hM _ (iv := [0, 4]) (at_shaped demo_ready.good hM).1.symm]; rfl
      · exfalso
        apply ho
        refine ⟨by simp [demoAm2], Or.inr ?_⟩
        show decide (_ < _) = true
        norm_num [demoAm2, ent])
  exact ⟨rows, h⟩

/-- C57, C54 and the one-band counterexamples: a one-band fitter with a redshift on its grid. -/
example : NoAb demoFitter ∧ demoFitter.Amatrix = some demoAm ∧ demoFitter.responses.length = 1 ∧ ∃ M, demoAm.at (f32 (2 : ℝ)) = .ok M :=
  ⟨Or.inl rfl, rfl, rfl, (at_ok_iff demoAm_good.ne).mpr (by norm_num [InRange, demoAm])⟩

/-- A solver that fails once: C54's retry is reached. -/
example : ∃ nnls : Nnls ℝ, (∀ n A b, nnls n A b none = .error .runtimeError) ∧ ∀ n A b k, nnls n A b (some k) = .ok (zeros n) :=
  ⟨fun n _ _ it => match it with
    | none => .error .runtimeError
    | some _ => .ok (zeros n), fun _ _ _ => rfl, fun _ _ _ _ => rfl⟩

/-- C50_false_nan: a solver refusing NaN, a redshift on the grid, a NaN in the band of zero ivar. -/
example : ∃ (nnls : Nnls XR) (Am : AMat XR) (M : List (List XR)),
    (∀ n A b it, XR.nan ∈ b → nnls n A b it = .error .valueError) ∧ (∀ n A b it, XR.nan ∉ b → nnls n A b it = .ok (zeros n)) ∧
    Am.at (f32 (.fin 0)) = .ok M ∧ Am.nrow = 2 := by
  classical
  have hat : ∃ M, AMat.at (⟨[.fin 0, .fin 1], [[[.fin 1], [.fin 2]], [[.fin 3], [.fin 4]]], 2, 1⟩ : AMat XR) (f32 (.fin 0)) = .ok M := by
    unfold AMat.at
    have h1 : (ltb (XR.fin 0) (XR.fin 0) : Bool) = false := by show decide ((0 : ℝ) < 0) = false; simp
    have h2 : (ltb (XR.fin 1) (XR.fin 0) : Bool) = false := by show decide ((1 : ℝ) < 0) = false; norm_num
    have h3 : (ltb (XR.fin 0) (XR.fin 0) || ltb (XR.fin 1) (XR.fin 0)) = false := by rw [h1, h2]; rfl
    rw [show (f32 (XR.fin 0) : XR) = XR.fin 0 from rfl, if_neg (by simp), if_neg (by simpa using h3)]
    exact ⟨_, rfl⟩
  obtain ⟨M, hM⟩ := hat
  refine ⟨fun n _ b _ => if XR.nan ∈ b then .error .valueError else .ok (zeros n), _, M, ?_, ?_, hM, rfl⟩
  · intro n A b it h; simp [h]
  · intro n A b it h; simp [h]

end KC
