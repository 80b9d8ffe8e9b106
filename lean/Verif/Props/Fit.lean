import Verif.Lemmas.Fit
import Verif.Props.Inputs

/-!
# Fitting (C49–C52, C54–C57, C61, C62)
-/

namespace KC
open Spec

/-! ### Contract of the solver -/

/-- The solver returns one number per column. -/
def NnlsLen {α : Type} (nnls : Nnls α) : Prop := ∀ n A b it x, nnls n A b it = .ok x → x.length = n

/-- Sum of squared residuals of `A x - b`. -/
noncomputable def resid (A : List (List ℝ)) (x b : List ℝ) : ℝ :=
  (List.zipWith (fun row v => ((List.zipWith (· * ·) row x).sum - v) ^ 2) A b).sum

/-- What is assumed of `scipy.optimize.nnls`: a returned vector has one nonnegative entry per column and minimises the residual over
all nonnegative vectors.  Nothing is assumed about when it raises. -/
structure NNLSOK (nnls : Nnls ℝ) : Prop where
  len : NnlsLen nnls
  nonneg : ∀ n A b it x, nnls n A b it = .ok x → ∀ v ∈ x, 0 ≤ v
  opt : ∀ n A b it x, (∀ row ∈ A, row.length = n) → A.length = b.length → nnls n A b it = .ok x →
    ∀ y : List ℝ, y.length = n → (∀ v ∈ y, 0 ≤ v) → resid A x b ≤ resid A y b

section generic
variable {α : Type} [Arith α]

theorem solve_len {nnls : Nnls α} (h : NnlsLen nnls) {n : Nat} {A : List (List α)} {b x : List α} (hs : solve nnls n A b = .ok x) :
    x.length = n := by
  unfold solve at hs
  split at hs
  · exact h _ _ _ _ _ hs
  · exact h _ _ _ _ _ hs

theorem fitU_len {nnls : Nnls α} (h : NnlsLen nnls) {F : Fitter α} {z : α} {m iv : List α} {mc : Nat} {noise : Nat → Nat → α}
    {r : List α × List (List α) × List (List α)} (hr : fitU nnls F z m iv mc noise = .ok r) : r.1.length = F.templates.nsed := by
  unfold fitU at hr
  cases hA : F.Amatrix with
  | none => simp [fit1, hA] at hr
  | some Am =>
    cases hz : weighAt Am iv z with
    | error e =>
      by_cases he : e = .valueError
      · subst he
        rw [fit1_out' hA hz] at hr
        split at hr
        · cases hr; simp [zeros]
        · cases hr
      · rw [fit1_error hA hz he] at hr
        cases hr
    | ok M =>
      by_cases hMl : M.length = iv.length
      swap
      · rw [fit1_rows hA hz hMl] at hr; cases hr
      rw [fit1_in' hA hz hMl] at hr
      cases hs : solve nnls F.templates.nsed M (rhs m (iv.map Arith.sqrt)) with
      | error e => rw [hs] at hr; cases hr
      | ok c =>
        rw [hs, ok_bind] at hr
        have hl := solve_len h hs
        split at hr
        · cases hr; exact hl
        · simp only at hr
          cases hm : ((List.range mc).map (fun k => mcMaggies (noise k) m (iv.map Arith.sqrt))).mapM (fun mk => do
            storeRow F.templates.nsed (.vec (← solve nnls F.templates.nsed M (rhs mk (iv.map Arith.sqrt))))) with
          | error e => rw [hm] at hr; cases hr
          | ok cs => rw [hm] at hr; cases hr; exact hl

/-- without Monte Carlo the deviates do not matter -/
theorem fitU_noise (nnls : Nnls α) (F : Fitter α) (z : α) (m iv : List α) (n' noise : Nat → Nat → α) :
    fitU nnls F z m iv 0 n' = fitU nnls F z m iv 0 noise := by
  unfold fitU fit1
  rfl

theorem storeRow_vec {n : Nat} {c : List α} (h : c.length = n) : storeRow n (.vec c) = .ok (c.map f32) := by
  simp [storeRow, NDA.vec, h]

theorem passU_eq {nnls : Nnls α} (h : NnlsLen nnls) (F : Fitter α) (mc : Nat) (noise : Nat → Nat → α) (o : α × List α × List α) :
    passU nnls F mc noise o = (fitU nnls F (f32 o.1) (o.2.1.map f32) (o.2.2.map f32) mc noise).map
      (fun r => (r.1.map f32, r.2.1, r.2.2)) := by
  unfold passU
  cases hr : fitU nnls F (f32 o.1) (o.2.1.map f32) (o.2.2.map f32) mc noise with
  | error e => rfl
  | ok r =>
    rw [ok_bind, storeRow_vec (fitU_len h hr)]; rfl

/-! ### C52 -/

/-- C52: a batch of `n /= 1` objects is fitted exactly when every object alone is, and the result stacks the results of the
objects alone (given the same normal deviates), the best-fit coefficients in single precision.  Any arithmetic, any `mc`.
Missing: one band (then an object alone is refused) and the batch of one with `mc > 0`; see `C52_false_one_band` and `C56_false`. -/
theorem C52_batch_partial (nnls : Nnls α) (hlen : NnlsLen nnls) (F : Fitter α) (hF : NoAb F) (hnb : F.responses.length ≠ 1)
    (zs : List α) (ms ivs : List (List α)) (hn : zs.length ≠ 1) (hm : ms.length = zs.length) (hiv : ivs.length = zs.length)
    (hmr : ∀ r ∈ ms, r.length = F.responses.length) (hivr : ∀ r ∈ ivs, r.length = F.responses.length)
    (mc : Nat) (noise : Nat → Nat → Nat → α) :
    let batch := F.fitCoeffs nnls (some (.vec zs)) (some (.arr [zs.length] F.responses.length ms))
      (some (.arr [zs.length] F.responses.length ivs)) mc noise
    let alone := fun k => F.fitCoeffs nnls (some (.scalar (ent zs k))) (some (.vec (ms.getD k []))) (some (.vec (ivs.getD k []))) mc
      (fun _ => noise k)
    ((∃ out, batch = .ok out) ↔ ∀ k < zs.length, ∃ o, alone k = .ok o) ∧
    ∀ out, batch = .ok out → ∃ cs : List (List α × List (List α) × List (List α)), cs.length = zs.length ∧
      (∀ (k : Nat) (r : List α × List (List α) × List (List α)), cs[k]? = some r → alone k = .ok ⟨.vec r.1,
        if mc = 0 then none else some (.arr [F.templates.nsed] mc r.2.1, .arr [F.responses.length] mc r.2.2)⟩) ∧
      out.coeffs = .arr [zs.length] F.templates.nsed (cs.map (fun r => r.1.map f32)) ∧
      out.mc = if mc = 0 then none else some (.arr [zs.length, F.templates.nsed] mc (cs.map (fun r => r.2.1)).flatten,
        .arr [zs.length, F.responses.length] mc (cs.map (fun r => r.2.2)).flatten) := by
  intro batch alone
  have halone : ∀ k < zs.length, alone k =
      (fitU nnls F (f32 (ent zs k)) ((ms.getD k []).map f32) ((ivs.getD k []).map f32) mc (noise k)).map (outOne F mc) := by
    intro k hk
    apply fit_scalar nnls hF hnb
    · have h1 : k < ms.length := by omega
      rw [getD_lt h1]; exact hmr _ (List.getElem_mem _)
    · have h1 : k < ivs.length := by omega
      rw [getD_lt h1]; exact hivr _ (List.getElem_mem _)
  have hbatch : batch = ((List.range zs.length).mapM (fun k => (fitU nnls F (f32 (ent zs k)) ((ms.getD k []).map f32)
      ((ivs.getD k []).map f32) mc (noise k)).map (fun r => (r.1.map f32, r.2.1, r.2.2)))).map (outMany F mc zs.length) := by
    have := fit_array nnls hF zs ms ivs hn hm hiv mc noise
    simp only [passU_eq hlen] at this
    exact this
  have hout : ∀ out, batch = .ok out → ∃ cs : List (List α × List (List α) × List (List α)), cs.length = zs.length ∧
      (∀ (k : Nat) (r : List α × List (List α) × List (List α)), cs[k]? = some r → alone k = .ok ⟨.vec r.1,
        if mc = 0 then none else some (.arr [F.templates.nsed] mc r.2.1, .arr [F.responses.length] mc r.2.2)⟩) ∧
      out.coeffs = .arr [zs.length] F.templates.nsed (cs.map (fun r => r.1.map f32)) ∧
      out.mc = if mc = 0 then none else some (.arr [zs.length, F.templates.nsed] mc (cs.map (fun r => r.2.1)).flatten,
        .arr [zs.length, F.responses.length] mc (cs.map (fun r => r.2.2)).flatten) := by
    intro out h
    rw [hbatch] at h
    cases hM : (List.range zs.length).mapM (fun k => (fitU nnls F (f32 (ent zs k)) ((ms.getD k []).map f32)
      ((ivs.getD k []).map f32) mc (noise k)).map (fun r => (r.1.map f32, r.2.1, r.2.2))) with
    | error e => rw [hM] at h; cases h
    | ok rs =>
      rw [hM] at h; cases h
      have hall : ∀ k ∈ List.range zs.length, ∃ r, fitU nnls F (f32 (ent zs k)) ((ms.getD k []).map f32)
          ((ivs.getD k []).map f32) mc (noise k) = .ok r := by
        intro k hk
        cases hr : fitU nnls F (f32 (ent zs k)) ((ms.getD k []).map f32) ((ivs.getD k []).map f32) mc (noise k) with
        | ok r => exact ⟨r, rfl⟩
        | error e =>
          obtain ⟨e', he'⟩ := mapM_error_of (f := fun k => (fitU nnls F (f32 (ent zs k)) ((ms.getD k []).map f32)
            ((ivs.getD k []).map f32) mc (noise k)).map (fun r => (r.1.map f32, r.2.1, r.2.2))) hk (e := e) (by simp only [hr]; rfl)
          rw [he'] at hM; cases hM
      obtain ⟨cs, hcs⟩ := mapM_exists hall
      have hcs' := mapM_ok_iff.mp hcs
      have hl : cs.length = zs.length := by simpa using hcs'.length_eq.symm
      have hrs : rs = cs.map (fun r => (r.1.map f32, r.2.1, r.2.2)) := by
        have : (List.range zs.length).mapM (fun k => (fitU nnls F (f32 (ent zs k)) ((ms.getD k []).map f32)
            ((ivs.getD k []).map f32) mc (noise k)).map (fun r => (r.1.map f32, r.2.1, r.2.2))) =
            .ok (cs.map (fun r => (r.1.map f32, r.2.1, r.2.2))) := by
          apply mapM_ok
          rw [List.forall₂_map_right_iff]
          exact hcs'.imp (fun k r hr => by simp only [hr]; rfl)
        rw [this] at hM; cases hM; rfl
      refine ⟨cs, hl, ?_, ?_, ?_⟩
      · intro k r hk
        obtain ⟨hk1, hk2⟩ := List.getElem?_eq_some_iff.mp hk
        have hkz : k < zs.length := by omega
        rw [halone k hkz]
        have := (List.forall₂_iff_get.mp hcs').2 k (by simpa using hkz) hk1
        simp only [List.get_eq_getElem, List.getElem_range, hk2] at this
        rw [this]
        simp only [Except.map, outOne]
        split <;> rfl
      · rw [hrs]; unfold outMany; split <;> simp [Function.comp_def]
      · rw [hrs]; unfold outMany; split <;> simp [Function.comp_def]
  refine ⟨⟨?_, ?_⟩, hout⟩
  · rintro ⟨out, h⟩ k hk
    obtain ⟨cs, hl, hcs, _⟩ := hout out h
    exact ⟨_, hcs k cs[k] (List.getElem?_eq_getElem (by omega))⟩
  · intro h
    rw [hbatch]
    have : ∃ rs, (List.range zs.length).mapM (fun k => (fitU nnls F (f32 (ent zs k)) ((ms.getD k []).map f32)
      ((ivs.getD k []).map f32) mc (noise k)).map (fun r => (r.1.map f32, r.2.1, r.2.2))) = .ok rs := by
      apply mapM_exists
      intro k hk
      obtain ⟨o, ho⟩ := h k (List.mem_range.mp hk)
      rw [halone k (List.mem_range.mp hk)] at ho
      cases hr : fitU nnls F (f32 (ent zs k)) ((ms.getD k []).map f32) ((ivs.getD k []).map f32) mc (noise k) with
      | error e => rw [hr] at ho; cases ho
      | ok r => exact ⟨_, rfl⟩
    obtain ⟨rs, hrs⟩ := this
    rw [hrs]; exact ⟨_, rfl⟩

/-- C52 for the batch of one without Monte Carlo: the same coefficients as the object alone, as a table of one row. -/
theorem C52_batch_of_one_partial (nnls : Nnls α) (F : Fitter α) (hF : NoAb F) (hnb : F.responses.length ≠ 1) (z : α) (m iv : List α)
    (hm : m.length = F.responses.length) (hiv : iv.length = F.responses.length) (noise : Nat → Nat → Nat → α) :
    (∀ e, F.fitCoeffs nnls (some (.vec [z])) (some (.arr [1] F.responses.length [m])) (some (.arr [1] F.responses.length [iv])) 0 noise = .error e ↔
      F.fitCoeffs nnls (some (.scalar z)) (some (.vec m)) (some (.vec iv)) 0 noise = .error e) ∧
    ∀ c, F.fitCoeffs nnls (some (.vec [z])) (some (.arr [1] F.responses.length [m])) (some (.arr [1] F.responses.length [iv])) 0 noise =
        .ok ⟨.arr [1] c.length [c], none⟩ ↔
      F.fitCoeffs nnls (some (.scalar z)) (some (.vec m)) (some (.vec iv)) 0 noise = .ok ⟨.vec c, none⟩ := by
  rw [fit_array1 nnls hF hnb, fit_scalar nnls hF hnb z m iv hm hiv]
  cases fitU nnls F (f32 z) (m.map f32) (iv.map f32) 0 (noise 0) with
  | error e => exact ⟨fun _ => ⟨fun h => (by cases h; rfl), fun h => (by cases h; rfl)⟩, fun _ => ⟨fun h => (by cases h), fun h => (by cases h)⟩⟩
  | ok r =>
    refine ⟨fun _ => ⟨fun h => (by cases h), fun h => (by cases h)⟩, fun c => ⟨fun h => ?_, fun h => ?_⟩⟩
    · simp only [Except.map, Except.ok.injEq, FitOut.mk.injEq, NDA.arr.injEq, List.cons.injEq, and_true] at h
      obtain ⟨_, rfl⟩ := h.2
      rfl
    · simp only [Except.map, outOne, if_true, Except.ok.injEq, FitOut.mk.injEq, NDA.vec, NDA.arr.injEq, List.cons.injEq, and_true] at h
      obtain ⟨_, rfl⟩ := h.2
      rfl

/-! ### C57: one band -/

/-- C57 is false: with one band, one object (scalar redshift) whose redshift is on the grid is refused with `ValueError`,
whatever the solver does. -/
theorem C57_false (nnls : Nnls α) (F : Fitter α) (hF : NoAb F) (Am : AMat α) (hA : F.Amatrix = some Am)
    (hnb : F.responses.length = 1) (z m iv : α) (M : List (List α)) (hz : Am.at (f32 z) = .ok M) (mc : Nat)
    (noise : Nat → Nat → Nat → α) :
    F.fitCoeffs nnls (some (.scalar z)) (some (.vec [m])) (some (.vec [iv])) mc noise = .error .valueError := by
  unfold Fitter.fitCoeffs Fitter.fitCoeffsI
  rw [processInputs_scalar hF z _ _ _ (by simp [NDA.vec, NDA.shape, hnb]) (by simp [NDA.vec, NDA.shape, hnb]) (by simp)]
  simp only [ok_bind, Option.map_some, rowsF_vec, Option.map_none, List.length_singleton, if_true, Option.isNone_some]
  unfold fitOne
  have hb : (F.responses.length == 1) = true := by simp [hnb]
  simp only [hb, Option.map_some, List.headD_cons]
  simp only [Bool.false_eq_true, if_false]
  rw [fit1_zeroD hA hz _ (by simp)]; rfl

/-- C57 for any other number of bands: the fit returns whenever the solver does. -/
theorem C57_partial (nnls : Nnls α) (F : Fitter α) (hF : NoAb F) (Am : AMat α) (hA : F.Amatrix = some Am)
    (hnb : F.responses.length ≠ 1) (z : α) (m iv : List α) (hm : m.length = F.responses.length)
    (hiv : iv.length = F.responses.length) (M : List (List α)) (hz : Am.at (f32 z) = .ok M) (hM : M.length = F.responses.length)
    (hs : ∀ A b, ∃ x, nnls F.templates.nsed A b none = .ok x) (noise : Nat → Nat → Nat → α) :
    ∃ c, F.fitCoeffs nnls (some (.scalar z)) (some (.vec m)) (some (.vec iv)) 0 noise = .ok ⟨.vec c, none⟩ := by
  rw [fit_scalar nnls hF hnb z m iv hm hiv, fitU_in0 hA hz _ (by simp [hiv, hM])]
  obtain ⟨x, hx⟩ := hs (weighted ((iv.map f32).map Arith.sqrt) M) (rhs (m.map f32) ((iv.map f32).map Arith.sqrt))
  refine ⟨x, ?_⟩
  simp only [solve, hx]
  rfl

/-- C52 is false with one band: two objects are fitted together although each alone is refused. -/
theorem C52_false_one_band (nnls : Nnls α) (hlen : NnlsLen nnls) (F : Fitter α) (hF : NoAb F) (Am : AMat α) (hA : F.Amatrix = some Am)
    (hnb : F.responses.length = 1) (z m iv : α) (M : List (List α)) (hz : Am.at (f32 z) = .ok M) (hM : M.length = F.responses.length)
    (hs : ∀ A b, ∃ x, nnls F.templates.nsed A b none = .ok x) (noise : Nat → Nat → Nat → α) :
    (∃ out, F.fitCoeffs nnls (some (.vec [z, z])) (some (.arr [2] 1 [[m], [m]])) (some (.arr [2] 1 [[iv], [iv]])) 0 noise = .ok out) ∧
    F.fitCoeffs nnls (some (.scalar z)) (some (.vec [m])) (some (.vec [iv])) 0 noise = .error .valueError := by
  refine ⟨?_, C57_false nnls F hF Am hA hnb z m iv M hz 0 noise⟩
  have := fit_array nnls hF [z, z] [[m], [m]] [[iv], [iv]] (by simp) rfl rfl 0 noise
  rw [hnb] at this
  have hex : ∃ rs, (List.range 2).mapM (fun k => passU nnls F 0 (noise k) (ent [z, z] k, [[m], [m]].getD k [], [[iv], [iv]].getD k [])) =
      .ok rs := by
    apply mapM_exists
    intro k hk
    have hk2 : k = 0 ∨ k = 1 := by
      have := List.mem_range.mp hk
      omega
    have hent : ent [z, z] k = z := by rcases hk2 with rfl | rfl <;> rfl
    obtain ⟨x, hx⟩ := hs (weighted ((([[iv], [iv]].getD k []).map f32).map Arith.sqrt) M)
      (rhs (([[m], [m]].getD k []).map f32) ((([[iv], [iv]].getD k []).map f32).map Arith.sqrt))
    refine ⟨(x.map f32, [], []), ?_⟩
    rw [passU_eq hlen]
    simp only [hent]
    rw [fitU_in0 hA hz _ (by rcases hk2 with rfl | rfl <;> simp [hM, hnb])]
    simp only [solve, hx]
    rfl
  obtain ⟨rs, hrs⟩ := hex
  exact ⟨_, this.trans (by simp only [List.length_cons, List.length_nil, Nat.zero_add, Nat.reduceAdd]; rw [hrs]; rfl)⟩

/-! ### C56: one-element arrays with Monte Carlo -/

theorem flat_fromCols (n : Nat) (cols : List (List α)) : (fromCols n cols).flatten.length = n * cols.length := by
  simp [fromCols, List.length_flatten, Function.comp_def]

/-- C56 is false: `fit_coeffs` with a one-element redshift array and `mc > 0` never returns, whatever the data, the solver, the
numbers of bands and templates. -/
theorem C56_false (nnls : Nnls α) (F : Fitter α) (hF : NoAb F) (z : α) (m iv : List α) (hm : m.length = F.responses.length)
    (hiv : iv.length = F.responses.length) (mc : Nat) (hmc : 0 < mc) (noise : Nat → Nat → Nat → α) :
    ∃ e, F.fitCoeffs nnls (some (.vec [z])) (some (.arr [1] F.responses.length [m])) (some (.arr [1] F.responses.length [iv])) mc noise =
      .error e := by
  unfold Fitter.fitCoeffs Fitter.fitCoeffsI
  rw [processInputs_array hF [z] _ _ _ (by simp [NDA.shape]) (by simp [NDA.shape]) (by simp)]
  simp only [ok_bind, Option.map_some, rowsF_mat, Option.map_none, List.length_map, List.length_singleton, if_true, Option.isNone_some]
  unfold fitOne
  simp only [Option.map_some, List.headD_cons, List.map_cons, List.map_nil, Bool.false_eq_true, if_false, if_true]
  cases hA : F.Amatrix with
  | none => exact ⟨.typeError, by simp [fit1, hA]⟩
  | some Am =>
    cases hz : weighAt Am (iv.map f32) (f32 z) with
    | error e =>
      by_cases he : e = .valueError
      · subst he
        rw [fit1_out' hA hz, if_neg (by omega)]
        exact ⟨_, rfl⟩
      · exact ⟨e, by rw [fit1_error hA hz he]; rfl⟩
    | ok M =>
      by_cases hnb : F.responses.length = 1
      · have hb : (F.responses.length == 1) = true := by simp [hnb]
        refine ⟨.valueError, ?_⟩
        rw [hb]
        unfold fit1
        simp only [hA, hz]
        rfl
      · have hb : (F.responses.length == 1) = false := by simpa using hnb
        by_cases hMl : M.length = (iv.map f32).length
        swap
        · exact ⟨.valueError, by rw [hb, fit1_rows hA hz hMl]; rfl⟩
        rw [hb, fit1_in' hA hz hMl]
        cases hs : solve nnls F.templates.nsed M (rhs (m.map f32) ((iv.map f32).map Arith.sqrt)) with
        | error e => exact ⟨e, rfl⟩
        | ok c =>
          simp only [ok_bind]
          rw [if_neg (by omega)]
          cases hcs : ((List.range mc).map (fun k => mcMaggies (noise 0 k) (m.map f32) ((iv.map f32).map Arith.sqrt))).mapM (fun mk => do
            storeRow F.templates.nsed (.vec (← solve nnls F.templates.nsed M
              (rhs mk ((iv.map f32).map Arith.sqrt))))) with
          | error e => exact ⟨e, rfl⟩
          | ok cs =>
            simp only [ok_bind, pure_py, unpack]
            rw [if_neg (by omega)]
            cases ha : (NDA.arr [F.templates.nsed] mc (fromCols F.templates.nsed cs)).reshape [1, 1] mc with
            | error e => exact ⟨e, rfl⟩
            | ok a =>
              simp only [ok_bind]
              have : (NDA.arr [F.responses.length] mc (fromCols (m.map f32).length ((List.range mc).map
                  (fun k => mcMaggies (noise 0 k) (m.map f32) ((iv.map f32).map Arith.sqrt))))).reshape [1, 1] mc = .error .valueError := by
                unfold NDA.reshape
                rw [if_neg]
                simp only [NDA.flat, flat_fromCols, List.length_map, List.length_range, List.prod_cons, List.prod_nil, Nat.one_mul, hm]
                intro h
                apply hnb
                exact Nat.eq_of_mul_eq_mul_right hmc (by omega)
              rw [this]; exact ⟨_, rfl⟩

/-! ### C51: redshift off the grid -/

/-- The redshift is below the first or above the last redshift of the grid. -/
def OffGrid (Am : AMat α) (z : α) : Prop :=
  Am.x ≠ [] ∧ (ltb z (Am.x.headD (lit 0)) = true ∨ ltb (Am.x.getLastD (lit 0)) z = true)

theorem offGrid_at {Am : AMat α} {z : α} (h : OffGrid Am z) : Am.at z = .error .valueError := by
  unfold AMat.at
  rw [if_neg (by simpa using h.1), if_pos (by simpa using h.2)]

/-- C51, one object without Monte Carlo: zero coefficients. -/
theorem C51_scalar_partial (nnls : Nnls α) (F : Fitter α) (hF : NoAb F) (Am : AMat α) (hA : F.Amatrix = some Am) (z : α)
    (hz : OffGrid Am (f32 z)) (m iv : List α) (hm : m.length = F.responses.length) (hiv : iv.length = F.responses.length)
    (noise : Nat → Nat → Nat → α) :
    F.fitCoeffs nnls (some (.scalar z)) (some (.vec m)) (some (.vec iv)) 0 noise =
      .ok ⟨.vec (List.replicate F.templates.nsed (lit 0)), none⟩ := by
  unfold Fitter.fitCoeffs Fitter.fitCoeffsI
  rw [processInputs_scalar hF z _ _ _ (by simp [NDA.vec, NDA.shape, hm]) (by simp [NDA.vec, NDA.shape, hiv]) (by simp)]
  simp only [ok_bind, Option.map_some, rowsF_vec, Option.map_none, List.length_singleton, if_true, Option.isNone_some]
  unfold fitOne
  simp only [Option.map_some, List.headD_cons, Bool.false_eq_true, if_false]
  rw [fit1_out hA (offGrid_at hz)]; rfl

/-- C51, in a batch without Monte Carlo: zero coefficients in that row; the batch returns whenever the other objects alone do, and
their rows are what they are alone. -/
theorem C51_batch_partial (nnls : Nnls α) (hlen : NnlsLen nnls) (F : Fitter α) (hF : NoAb F) (hnb : F.responses.length ≠ 1)
    (Am : AMat α) (hA : F.Amatrix = some Am)
    (zs : List α) (ms ivs : List (List α)) (hn : zs.length ≠ 1) (hm : ms.length = zs.length) (hiv : ivs.length = zs.length)
    (hmr : ∀ r ∈ ms, r.length = F.responses.length) (hivr : ∀ r ∈ ivs, r.length = F.responses.length)
    (noise : Nat → Nat → Nat → α)
    (hothers : ∀ k < zs.length, ¬ OffGrid Am (f32 (ent zs k)) → ∃ o, F.fitCoeffs nnls (some (.scalar (ent zs k)))
      (some (.vec (ms.getD k []))) (some (.vec (ivs.getD k []))) 0 noise = .ok o) :
    ∃ rows, F.fitCoeffs nnls (some (.vec zs)) (some (.arr [zs.length] F.responses.length ms))
        (some (.arr [zs.length] F.responses.length ivs)) 0 noise = .ok ⟨.arr [zs.length] F.templates.nsed rows, none⟩ ∧
      rows.length = zs.length ∧
      (∀ k < zs.length, OffGrid Am (f32 (ent zs k)) → rows[k]? = some (List.replicate F.templates.nsed (f32 (lit 0)))) ∧
      (∀ k < zs.length, ¬ OffGrid Am (f32 (ent zs k)) → ∃ c, F.fitCoeffs nnls (some (.scalar (ent zs k)))
        (some (.vec (ms.getD k []))) (some (.vec (ivs.getD k []))) 0 noise = .ok ⟨.vec c, none⟩ ∧ rows[k]? = some (c.map f32)) := by
  have hnoise : ∀ (k : Nat) (n' : Nat → Nat → Nat → α), k < zs.length → F.fitCoeffs nnls (some (.scalar (ent zs k)))
      (some (.vec (ms.getD k []))) (some (.vec (ivs.getD k []))) 0 n' = F.fitCoeffs nnls (some (.scalar (ent zs k)))
      (some (.vec (ms.getD k []))) (some (.vec (ivs.getD k []))) 0 noise := by
    intro k n' hk
    have h1 : (ms.getD k []).length = F.responses.length := by
      rw [getD_lt (by omega)]; exact hmr _ (List.getElem_mem _)
    have h2 : (ivs.getD k []).length = F.responses.length := by
      rw [getD_lt (by omega)]; exact hivr _ (List.getElem_mem _)
    rw [fit_scalar nnls hF hnb _ _ _ h1 h2, fit_scalar nnls hF hnb _ _ _ h1 h2]
    rw [fitU_noise]
  have hoff : ∀ k < zs.length, OffGrid Am (f32 (ent zs k)) → F.fitCoeffs nnls (some (.scalar (ent zs k)))
      (some (.vec (ms.getD k []))) (some (.vec (ivs.getD k []))) 0 noise = .ok ⟨.vec (List.replicate F.templates.nsed (lit 0)), none⟩ := by
    intro k hk ho
    apply C51_scalar_partial nnls F hF Am hA _ ho
    · rw [getD_lt (by omega)]; exact hmr _ (List.getElem_mem _)
    · rw [getD_lt (by omega)]; exact hivr _ (List.getElem_mem _)
  obtain ⟨h1, h2⟩ := C52_batch_partial nnls hlen F hF hnb zs ms ivs hn hm hiv hmr hivr 0 noise
  have hex : ∃ out, F.fitCoeffs nnls (some (.vec zs)) (some (.arr [zs.length] F.responses.length ms))
        (some (.arr [zs.length] F.responses.length ivs)) 0 noise = .ok out := by
    apply h1.mpr
    intro k hk
    show ∃ o, F.fitCoeffs nnls _ _ _ 0 (fun _ => noise k) = .ok o
    rw [hnoise k _ hk]
    by_cases ho : OffGrid Am (f32 (ent zs k))
    · exact ⟨_, hoff k hk ho⟩
    · exact hothers k hk ho
  obtain ⟨out, hout⟩ := hex
  obtain ⟨cs, hl, hcs, hco, hmco⟩ := h2 out hout
  have hrow : ∀ k < zs.length, ∃ c, F.fitCoeffs nnls (some (.scalar (ent zs k)))
        (some (.vec (ms.getD k []))) (some (.vec (ivs.getD k []))) 0 noise = .ok ⟨.vec c, none⟩ ∧
        (cs.map (fun r => r.1.map f32))[k]? = some (c.map f32) := by
    intro k hk
    have hk' : k < cs.length := by omega
    have := (hnoise k (fun _ => noise k) hk).symm.trans (hcs k cs[k] (List.getElem?_eq_getElem hk'))
    exact ⟨cs[k].1, by simpa using this, by simp [hk']⟩
  refine ⟨cs.map (fun r => r.1.map f32), ?_, by simpa using hl, ?_, ?_⟩
  · rw [hout]
    cases out
    simp only at hco hmco
    rw [hco, hmco]; rfl
  · intro k hk ho
    obtain ⟨c, hc, hr⟩ := hrow k hk
    rw [hoff k hk ho] at hc
    simp only [Except.ok.injEq, FitOut.mk.injEq, NDA.vec, NDA.arr.injEq, List.cons.injEq, and_true] at hc
    rw [hr, ← hc.2.2]; simp
  · intro k hk _
    exact hrow k hk

/-- C51 is false with Monte Carlo: an object off the grid makes the call raise `ValueError`. -/
theorem C51_false_mc (nnls : Nnls α) (F : Fitter α) (hF : NoAb F) (Am : AMat α) (hA : F.Amatrix = some Am) (z : α)
    (hz : OffGrid Am (f32 z)) (m iv : List α) (hm : m.length = F.responses.length) (hiv : iv.length = F.responses.length)
    (mc : Nat) (hmc : 0 < mc) (noise : Nat → Nat → Nat → α) :
    F.fitCoeffs nnls (some (.scalar z)) (some (.vec m)) (some (.vec iv)) mc noise = .error .valueError := by
  unfold Fitter.fitCoeffs Fitter.fitCoeffsI
  rw [processInputs_scalar hF z _ _ _ (by simp [NDA.vec, NDA.shape, hm]) (by simp [NDA.vec, NDA.shape, hiv]) (by simp)]
  simp only [ok_bind, Option.map_some, rowsF_vec, Option.map_none, List.length_singleton, if_true, Option.isNone_some]
  unfold fitOne
  simp only [Option.map_some, List.headD_cons, Bool.false_eq_true, if_false]
  rw [fit1_out hA (offGrid_at hz), if_neg (by omega)]; rfl

/-- The same in a batch: one object off the grid and the results of all objects are lost. -/
theorem C51_false_mc_batch (nnls : Nnls α) (F : Fitter α) (hF : NoAb F) (Am : AMat α) (hA : F.Amatrix = some Am)
    (zs : List α) (ms ivs : List (List α)) (hn : zs.length ≠ 1) (hm : ms.length = zs.length) (hiv : ivs.length = zs.length)
    (k : Nat) (hk : k < zs.length) (hz : OffGrid Am (f32 (ent zs k))) (mc : Nat) (hmc : 0 < mc) (noise : Nat → Nat → Nat → α) :
    ∃ e, F.fitCoeffs nnls (some (.vec zs)) (some (.arr [zs.length] F.responses.length ms))
        (some (.arr [zs.length] F.responses.length ivs)) mc noise = .error e := by
  rw [fit_array nnls hF zs ms ivs hn hm hiv]
  obtain ⟨e, he⟩ := mapM_error_of (f := fun k => passU nnls F mc (noise k) (ent zs k, ms.getD k [], ivs.getD k []))
    (l := List.range zs.length) (a := k) (e := .valueError) (List.mem_range.mpr hk) (by
      unfold passU
      rw [fitU_outmc hA (offGrid_at hz) _ _ hmc]; rfl)
  exact ⟨e, by rw [he]; rfl⟩

/-! ### C54: one retry -/

/-- C54: there are a matrix and a right-hand side, not depending on the solver, such that for every solver behaviour the fit of one
object returns the solver's answer, or after an iteration failure the answer of a second call with limit `100 * ntemplates`; every
other failure, and a failure of the second call, is raised. -/
theorem C54_retry (F : Fitter α) (hF : NoAb F) (Am : AMat α) (hA : F.Amatrix = some Am) (hnb : F.responses.length ≠ 1) (z : α)
    (m iv : List α) (hm : m.length = F.responses.length) (hiv : iv.length = F.responses.length) (M : List (List α))
    (hz : Am.at (f32 z) = .ok M) (hM : M.length = F.responses.length) :
    ∃ A b, ∀ (nnls : Nnls α) noise,
      (∀ c, nnls F.templates.nsed A b none = .ok c →
        F.fitCoeffs nnls (some (.scalar z)) (some (.vec m)) (some (.vec iv)) 0 noise = .ok ⟨.vec c, none⟩) ∧
      (∀ e, e ≠ .runtimeError → nnls F.templates.nsed A b none = .error e →
        F.fitCoeffs nnls (some (.scalar z)) (some (.vec m)) (some (.vec iv)) 0 noise = .error e) ∧
      (nnls F.templates.nsed A b none = .error .runtimeError →
        (∀ c, nnls F.templates.nsed A b (some (F.templates.nsed * 100)) = .ok c →
          F.fitCoeffs nnls (some (.scalar z)) (some (.vec m)) (some (.vec iv)) 0 noise = .ok ⟨.vec c, none⟩) ∧
        (∀ e, nnls F.templates.nsed A b (some (F.templates.nsed * 100)) = .error e →
          F.fitCoeffs nnls (some (.scalar z)) (some (.vec m)) (some (.vec iv)) 0 noise = .error e)) := by
  refine ⟨weighted ((iv.map f32).map Arith.sqrt) M, rhs (m.map f32) ((iv.map f32).map Arith.sqrt), ?_⟩
  intro nnls noise
  rw [fit_scalar nnls hF hnb z m iv hm hiv, fitU_in0 hA hz _ (by simp [hiv, hM])]
  refine ⟨?_, ?_, ?_⟩
  · intro c hc; simp only [solve, hc]; rfl
  · intro e he hc
    simp only [solve, hc]
    cases e <;> simp at he ⊢ <;> rfl
  · intro h
    refine ⟨?_, ?_⟩
    · intro c hc; simp only [solve, h, hc]; rfl
    · intro e hc; simp only [solve, h, hc]; rfl

end generic

end KC
