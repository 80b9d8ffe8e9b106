import Verif.Lemmas.XR
import Verif.Props.FitReal

/-! C146: which photometry can be fitted (NaN, infinities, negative inverse variances). -/

namespace KC
open Spec

/-- A number, not NaN and not infinite. -/
def XR.Finite (x : XR) : Prop := ∃ r : ℝ, x = .fin r

/-- A solver that checks its arguments, as `scipy.optimize.nnls` does (`asarray_chkfinite`), and finds the solution of every system of
finite numbers at the default iteration limit or at the larger one. -/
structure ChecksFinite (nnls : Nnls XR) : Prop where
  refuses : ∀ n A b it, ((∃ row ∈ A, ∃ x ∈ row, ¬ x.Finite) ∨ ∃ x ∈ b, ¬ x.Finite) → nnls n A b it = .error .valueError
  solves : ∀ n A b, (∀ row ∈ A, ∀ x ∈ row, x.Finite) → (∀ x ∈ b, x.Finite) →
    ∃ c, c.length = n ∧ (nnls n A b none = .ok c ∨ nnls n A b none = .error .runtimeError ∧ nnls n A b (some (n * 100)) = .ok c)

/-- The redshift is a number in the range of the nodes `x`. -/
def Inside (x : List ℝ) (z : XR) : Prop := ∃ q, z = .fin q ∧ x.headD 0 ≤ q ∧ q ≤ x.getLastD 0

/-- The redshift is below or above the nodes, possibly infinite. -/
def Outside (x : List ℝ) (z : XR) : Prop := z = .pinf ∨ z = .ninf ∨ ∃ q, z = .fin q ∧ (q < x.headD 0 ∨ x.getLastD 0 < q)

/-- Fluxes that are numbers, inverse variances that are nonnegative numbers. -/
def GoodPhot (m iv : List XR) : Prop := (∀ v ∈ m, v.Finite) ∧ ∀ v ∈ iv, ∃ r : ℝ, v = .fin r ∧ 0 ≤ r

/-- What can be fitted: a good object, or, without Monte Carlo samples, one of a redshift outside of the range. -/
def CanFit (mc : Nat) (x : List ℝ) (z : XR) (m iv : List XR) : Prop := mc = 0 ∧ Outside x z ∨ Inside x z ∧ GoodPhot m iv

/-- The matrices of the object are the finite numbers `A`. -/
def AMat.toXR (A : AMat ℝ) : AMat XR := ⟨A.x.map .fin, A.ys.map (List.map (List.map .fin)), A.nrow, A.ncol⟩

/-! ### The interpolated matrix -/

theorem ent_fin (x : List ℝ) (k : Nat) : ent (x.map XR.fin) k = .fin (ent x k) := by
  unfold ent
  rw [List.getD, List.getD, List.getElem?_map]
  cases x[k]? with
  | none => show XR.fin ((0 : ℚ) : ℝ) = .fin ((0 : ℚ) : ℝ); rfl
  | some a => rfl

theorem headD_fin (x : List ℝ) : (x.map XR.fin).headD (lit 0) = .fin (x.headD 0) := by
  cases x with
  | nil => show XR.fin ((0 : ℚ) : ℝ) = _; simp
  | cons a l => rfl

theorem getLastD_fin (x : List ℝ) : (x.map XR.fin).getLastD (lit 0) = .fin (x.getLastD 0) := by
  rw [List.getLastD_eq_getLast?, List.getLastD_eq_getLast?, List.getLast?_map]
  cases x.getLast? with
  | none => show XR.fin ((0 : ℚ) : ℝ) = _; simp
  | some a => rfl

theorem searchLeft_fin (x : List ℝ) (q : ℝ) : searchLeft (x.map XR.fin) (.fin q) = searchLeft x q := by
  rw [searchLeft_real]
  unfold searchLeft
  rw [List.takeWhile_map, List.length_map]
  congr 2
  funext a
  have : isNan (XR.fin q) = false := by
    show (!decide (q ≤ q)) = false
    simp
  simp [this]

theorem linEntry_fin {xlo xhi q a b : ℝ} (h : xlo < xhi) : linEntry (XR.fin xlo) (.fin xhi) (.fin q) (.fin a) (.fin b) = .fin (linEntry xlo xhi q a b) := by
  unfold linEntry
  rw [XR.sub_ff, XR.sub_ff, XR.sub_ff, XR.div_ff_of_ne (sub_ne_zero.mpr h.ne'), XR.mul_ff, XR.add_ff]

theorem linBetween_fin {xlo xhi q : ℝ} (h : xlo < xhi) (A B : List (List ℝ)) :
    linBetween (XR.fin xlo) (.fin xhi) (.fin q) (A.map (List.map .fin)) (B.map (List.map .fin)) = (linBetween xlo xhi q A B).map (List.map .fin) := by
  unfold linBetween
  rw [List.zipWith_map, List.map_zipWith]
  congr 1
  funext a b
  rw [List.zipWith_map, List.map_zipWith]
  congr 1
  funext u v
  exact linEntry_fin h

theorem toXR_getD (A : AMat ℝ) (k : Nat) : A.toXR.ys.getD k [] = (A.ys.getD k []).map (List.map .fin) := by
  unfold AMat.toXR
  simp only [List.getD, List.getElem?_map]
  cases A.ys[k]? <;> rfl

theorem at_fin_in {A : AMat ℝ} (hg : A.Good) {q : ℝ} (hq : InRange A.x q) : ∃ M, A.at q = .ok M ∧ A.toXR.at (.fin q) = .ok (M.map (List.map .fin)) := by
  obtain ⟨h1, h2, -, -⟩ := bracket_idx hg.incr hg.two hq
  refine ⟨_, at_in hg.ne hq, ?_⟩
  have e : A.toXR.x = A.x.map .fin := rfl
  have hl : (A.toXR.x).length = A.x.length := by rw [e, List.length_map]
  unfold AMat.at
  rw [if_neg (by rw [hl]; simpa using hg.ne), if_neg]
  · dsimp only
    rw [hl, e, searchLeft_fin, ent_fin, ent_fin, toXR_getD, toXR_getD, linBetween_fin (ent_lt hg.incr (by omega) h2)]
  · rw [e, headD_fin, getLastD_fin, XR.ltb_ff, XR.ltb_ff]
    simpa [InRange] using hq

theorem at_fin_out {A : AMat ℝ} (hg : A.Good) {z : XR} (hz : Outside A.x z) : A.toXR.at z = .error .valueError := by
  have e : A.toXR.x = A.x.map .fin := rfl
  unfold AMat.at
  rw [if_neg (by rw [e, List.length_map]; simpa using hg.ne), if_pos]
  rw [e, headD_fin, getLastD_fin]
  obtain rfl | rfl | ⟨q, rfl, h⟩ := hz
  · simp
  · simp
  · simpa using h

theorem at_nan {A : AMat ℝ} (hg : A.Good) (h2 : 0 < A.ncol) :
    ∃ M, A.toXR.at .nan = .ok M ∧ M.length = A.nrow ∧ ∀ row ∈ M, ∃ x ∈ row, x = XR.nan := by
  have e : A.toXR.x = A.x.map .fin := rfl
  have hl : (A.toXR.x).length = A.x.length := by rw [e, List.length_map]
  have two := hg.two
  have hc : clipIdx A.x.length (searchLeft A.toXR.x .nan) < A.x.length := by unfold clipIdx; omega
  have s1 := hg.ys_shaped (k := clipIdx A.x.length (searchLeft A.toXR.x .nan)) hc
  have s2 := hg.ys_shaped (k := clipIdx A.x.length (searchLeft A.toXR.x .nan) - 1) (by omega)
  refine ⟨linBetween (ent A.toXR.x (clipIdx A.toXR.x.length (searchLeft A.toXR.x .nan) - 1)) (ent A.toXR.x (clipIdx A.toXR.x.length (searchLeft A.toXR.x .nan)))
    .nan (A.toXR.ys.getD (clipIdx A.toXR.x.length (searchLeft A.toXR.x .nan) - 1) []) (A.toXR.ys.getD (clipIdx A.toXR.x.length (searchLeft A.toXR.x .nan)) []), ?_, ?_⟩
  · unfold AMat.at
    rw [if_neg (by rw [hl]; simpa using hg.ne), if_neg]
    simp
  · rw [hl, toXR_getD, toXR_getD]
    unfold linBetween
    constructor
    · simp only [List.length_zipWith, List.length_map, s1.1, s2.1, min_self]
    · intro row hrow
      obtain ⟨i, hi, rfl⟩ := List.mem_iff_getElem.mp hrow
      simp only [List.length_zipWith, List.length_map] at hi
      simp only [List.getElem_zipWith, List.getElem_map]
      have l1 := s1.2 _ (List.getElem_mem (show i < _ by omega))
      have l2 := s2.2 _ (List.getElem_mem (show i < _ by omega))
      refine ⟨_, List.getElem_mem (n := 0) (by simp only [List.length_zipWith, List.length_map, l1, l2, min_self]; exact h2), ?_⟩
      simp only [List.getElem_zipWith, List.getElem_map]
      unfold linEntry
      show (_ / _ * (XR.add .nan _) + _ : XR) = _
      have : ∀ y, XR.add .nan y = .nan := fun y => by cases y <;> rfl
      rw [this, XR.mul_nan, XR.nan_add]

/-! ### Finiteness of the weighted system -/

theorem wflux_finite_iff (m v : XR) : (m * Arith.sqrt v).Finite ↔ m.Finite ∧ ∃ r : ℝ, v = .fin r ∧ 0 ≤ r := by
  have inf_not : ∀ a : ℝ, ¬ (XR.infMul a).Finite := by
    intro a ⟨r, h⟩
    unfold XR.infMul at h
    split at h
    · cases h
    · split at h <;> cases h
  constructor
  · intro h
    cases v with
    | nan => obtain ⟨r, hr⟩ := h; rw [show (Arith.sqrt XR.nan : XR) = .nan from rfl, XR.mul_nan] at hr; cases hr
    | ninf => obtain ⟨r, hr⟩ := h; rw [show (Arith.sqrt XR.ninf : XR) = .nan from rfl, XR.mul_nan] at hr; cases hr
    | pinf =>
      exfalso
      rw [XR.sqrt_p] at h
      cases m with
      | fin a => exact inf_not a h
      | nan => obtain ⟨r, hr⟩ := h; cases hr
      | pinf => obtain ⟨r, hr⟩ := h; cases hr
      | ninf => obtain ⟨r, hr⟩ := h; cases hr
    | fin r =>
      by_cases hr : r < 0
      · exfalso
        obtain ⟨s, hs⟩ := h
        rw [show (Arith.sqrt (XR.fin r) : XR) = .nan from if_pos hr, XR.mul_nan] at hs
        cases hs
      · have hr' := not_lt.mp hr
        rw [XR.sqrt_f hr'] at h
        refine ⟨?_, r, rfl, hr'⟩
        cases m with
        | fin a => exact ⟨a, rfl⟩
        | nan => obtain ⟨s, hs⟩ := h; cases hs
        | pinf => exact absurd h (inf_not _)
        | ninf => exact absurd h (inf_not _)
  · rintro ⟨⟨a, rfl⟩, r, rfl, hr⟩
    rw [XR.sqrt_f hr]
    exact ⟨_, rfl⟩

theorem rhs_finite_iff {m iv : List XR} (h : m.length = iv.length) : (∀ x ∈ rhs m (iv.map Arith.sqrt), x.Finite) ↔ GoodPhot m iv := by
  have he : ∀ i (hi : i < m.length), (rhs m (iv.map Arith.sqrt))[i]? = some (m[i] * Arith.sqrt (iv[i]'(by omega))) := by
    intro i hi
    have : i < iv.length := by omega
    simp [rhs, hi, this]
  constructor
  · intro hx
    have key : ∀ i (hi : i < m.length), m[i].Finite ∧ ∃ r : ℝ, iv[i]'(by omega) = .fin r ∧ 0 ≤ r := fun i hi =>
      (wflux_finite_iff _ _).mp (hx _ (List.mem_of_getElem? (he i hi)))
    constructor
    · intro v hv
      obtain ⟨i, hi, rfl⟩ := List.mem_iff_getElem.mp hv
      exact (key i hi).1
    · intro v hv
      obtain ⟨i, hi, rfl⟩ := List.mem_iff_getElem.mp hv
      exact (key i (by omega)).2
  · rintro ⟨h1, h2⟩ x hx
    obtain ⟨i, hi, rfl⟩ := List.mem_iff_getElem.mp hx
    have hi' : i < m.length := by simp [rhs] at hi; omega
    have := he i hi'
    rw [List.getElem?_eq_getElem hi, Option.some.injEq] at this
    rw [this]
    exact (wflux_finite_iff _ _).mpr ⟨h1 _ (List.getElem_mem _), h2 _ (List.getElem_mem _)⟩

theorem weighted_finite {iv : List XR} (hiv : ∀ v ∈ iv, ∃ r : ℝ, v = .fin r ∧ 0 ≤ r) (M : List (List ℝ)) :
    ∀ row ∈ weighted (iv.map Arith.sqrt) (M.map (List.map .fin)), ∀ x ∈ row, x.Finite := by
  intro row hrow x hx
  obtain ⟨i, hi, rfl⟩ := List.mem_iff_getElem.mp hrow
  simp only [weighted, List.getElem_zipWith, List.getElem_map, List.map_map, List.mem_map] at hx
  obtain ⟨a, -, rfl⟩ := hx
  obtain ⟨r, hr, h0⟩ := hiv (iv[i]'(by simp [weighted] at hi; omega)) (List.getElem_mem _)
  rw [hr, XR.sqrt_f h0]
  exact ⟨_, rfl⟩

theorem solve_finite {nnls : Nnls XR} (hs : ChecksFinite nnls) {n : Nat} {A : List (List XR)} {b : List XR} (hA : ∀ row ∈ A, ∀ x ∈ row, x.Finite)
    (hb : ∀ x ∈ b, x.Finite) : ∃ c, c.length = n ∧ solve nnls n A b = .ok c := by
  obtain ⟨c, hc, h | ⟨h, h'⟩⟩ := hs.solves n A b hA hb
  · exact ⟨c, hc, by simp only [solve, h]⟩
  · exact ⟨c, hc, by simp only [solve, h, h']⟩

theorem mc_finite {m iv : List XR} (h : GoodPhot m iv) (hl : m.length = iv.length) {noise : Nat → XR} (hn : ∀ p, (noise p).Finite) :
    ∀ x ∈ mcMaggies noise m (iv.map Arith.sqrt), x.Finite := by
  intro x hx
  obtain ⟨i, hi, rfl⟩ := List.mem_iff_getElem.mp hx
  have hi' : i < m.length := by simpa [mcMaggies] using hi
  obtain ⟨r, hr, h0⟩ := h.2 (iv[i]'(by omega)) (List.getElem_mem _)
  obtain ⟨a, ha⟩ := h.1 m[i] (List.getElem_mem _)
  have he : ent (iv.map Arith.sqrt) i = .fin (Real.sqrt r) := by
    apply ent_eq
    rw [List.getElem?_map, List.getElem?_eq_getElem (by omega), Option.map_some, hr, XR.sqrt_f h0]
  simp only [mcMaggies, List.getElem_mapIdx, List.getElem_map, he, ha, XR.f32_x]
  split
  · rename_i hp
    rw [XR.lit_x, XR.gtb_ff] at hp
    have hp' : (0 : ℝ) < Real.sqrt r := by simpa using hp
    obtain ⟨e, hne⟩ := hn ((maskIdx ((iv.map Arith.sqrt).map (fun e => gtb e (lit 0)))).idxOf i)
    rw [hne, XR.lit_x, XR.div_ff_of_ne hp'.ne', XR.mul_ff, XR.add_ff]
    exact ⟨_, rfl⟩
  · exact ⟨a, rfl⟩

/-! ### The fit of one object -/

theorem fitU_can {nnls : Nnls XR} (hs : ChecksFinite nnls) {F : Fitter XR} {A : AMat ℝ} (hA : F.Amatrix = some A.toXR) (hg : A.Good) {z : XR}
    {m iv : List XR} (hl : m.length = iv.length) (hi : iv.length = A.nrow) {mc : Nat} {noise : Nat → Nat → XR} (hn : ∀ k p, (noise k p).Finite) (h : CanFit mc A.x z m iv) :
    ∃ r, r.1.length = F.templates.nsed ∧ fitU nnls F z m iv mc noise = .ok r := by
  obtain ⟨rfl, hz⟩ | ⟨⟨q, rfl, hq⟩, hp⟩ := h
  · exact ⟨_, by simp [zeros], fitU_out0 hA (at_fin_out hg hz) m iv noise⟩
  · obtain ⟨M, hM0, hM⟩ := at_fin_in hg hq
    have hW := weighted_finite hp.2 M
    obtain ⟨c, hc, hsol⟩ := solve_finite hs (n := F.templates.nsed) hW ((rhs_finite_iff hl).mpr hp)
    unfold fitU
    rw [fit1_in hA hM _ (by rw [List.length_map, (at_shaped hg hM0).1, hi]), hsol, ok_bind]
    by_cases h0 : mc = 0
    · rw [if_pos h0]
      exact ⟨(c, [], []), hc, rfl⟩
    · rw [if_neg h0]
      obtain ⟨cs, hcs⟩ := mapM_exists (l := (List.range mc).map (fun k => mcMaggies (noise k) m (iv.map Arith.sqrt))) (f := fun mk => do
          storeRow F.templates.nsed (.vec (← solve nnls F.templates.nsed (weighted (iv.map Arith.sqrt) (M.map (List.map .fin))) (rhs mk (iv.map Arith.sqrt))))) (by
        intro mk hmk
        obtain ⟨k, -, rfl⟩ := List.mem_map.mp hmk
        have hl' : (mcMaggies (noise k) m (iv.map Arith.sqrt)).length = iv.length := by simp [mcMaggies, hl]
        obtain ⟨d, hd, hsd⟩ := solve_finite hs (n := F.templates.nsed) hW ((rhs_finite_iff hl').mpr ⟨mc_finite hp hl (hn k), hp.2⟩)
        refine ⟨d.map f32, ?_⟩
        rw [hsd, ok_bind]
        show (if d.length = F.templates.nsed then _ else _) = _
        rw [if_pos hd])
      dsimp only
      rw [hcs]
      exact ⟨_, hc, rfl⟩

theorem fitU_cannot {nnls : Nnls XR} (hs : ChecksFinite nnls) {F : Fitter XR} {A : AMat ℝ} (hA : F.Amatrix = some A.toXR) (hg : A.Good)
    (hr : 0 < A.nrow) (hc : 0 < A.ncol) {z : XR} {m iv : List XR} (hm : m.length = A.nrow) (hi : iv.length = A.nrow) {mc : Nat}
    {noise : Nat → Nat → XR} (h : ¬ CanFit mc A.x z m iv) : fitU nnls F z m iv mc noise = .error .valueError := by
  by_cases ho : Outside A.x z
  · have h0 : 0 < mc := by
      by_contra h0
      exact h (Or.inl ⟨by omega, ho⟩)
    exact fitU_outmc hA (at_fin_out hg ho) m iv h0 noise
  · have key : ∀ M, A.toXR.at z = .ok M → M.length = A.nrow → ((∃ row ∈ weighted (iv.map Arith.sqrt) M, ∃ x ∈ row, ¬ x.Finite) ∨ ∃ x ∈ rhs m (iv.map Arith.sqrt), ¬ x.Finite) →
        fitU nnls F z m iv mc noise = .error .valueError := by
      intro M hM hMl hbad
      unfold fitU
      rw [fit1_in hA hM _ (hi.trans hMl.symm)]
      simp only [solve, hs.refuses _ _ _ _ hbad]
      rfl
    cases z with
    | pinf => exact absurd (Or.inl rfl) ho
    | ninf => exact absurd (Or.inr (Or.inl rfl)) ho
    | nan =>
      obtain ⟨M, hM, hlen, hnan⟩ := at_nan hg hc
      refine key M hM hlen (Or.inl ?_)
      obtain ⟨x, hx, rfl⟩ := hnan (M[0]'(by omega)) (List.getElem_mem _)
      have h0 : 0 < (weighted (iv.map Arith.sqrt) M).length := by simp [weighted]; omega
      refine ⟨_, List.getElem_mem h0, Arith.sqrt (iv[0]'(by omega)) * XR.nan, ?_, ?_⟩
      · simp only [weighted, List.getElem_zipWith, List.getElem_map, List.mem_map]
        exact ⟨XR.nan, hx, rfl⟩
      · rw [XR.mul_nan]; rintro ⟨r, hr⟩; cases hr
    | fin q =>
      have hq : InRange A.x q := by
        by_contra hq
        refine ho (Or.inr (Or.inr ⟨q, rfl, ?_⟩))
        simp only [InRange, not_and_or, not_le] at hq
        exact hq
      obtain ⟨M, hM0, hM⟩ := at_fin_in hg hq
      refine key _ hM (by rw [List.length_map, (at_shaped hg hM0).1]) (Or.inr ?_)
      by_contra hall
      have : ∀ x ∈ rhs m (iv.map Arith.sqrt), x.Finite := fun x hx => by
        by_contra hx'
        exact hall ⟨x, hx, hx'⟩
      exact h (Or.inr ⟨⟨q, rfl, hq⟩, (rhs_finite_iff (by omega)).mp this⟩)

theorem map_f32_xr (l : List XR) : l.map f32 = l := by
  have : (f32 : XR → XR) = id := rfl
  rw [this, List.map_id]

/-- C146, one object.  `F` is any fitter of at least two bands without AB correction whose matrices are numbers.  The fit returns exactly when
the redshift is a number in the range and all fluxes and inverse variances are numbers, the latter not negative; or when the redshift is out of
the range and no Monte Carlo samples are asked for.  In every other case it raises `ValueError`. -/
theorem C146_single (nnls : Nnls XR) (hs : ChecksFinite nnls) (F : Fitter XR) (hF : NoAb F) (A : AMat ℝ) (hA : F.Amatrix = some A.toXR)
    (hg : A.Good) (hnr : A.nrow = F.responses.length) (hnb : 2 ≤ F.responses.length) (hnc : 0 < A.ncol) (z : XR) (m iv : List XR)
    (hm : m.length = F.responses.length) (hiv : iv.length = F.responses.length) (mc : Nat) (noise : Nat → Nat → Nat → XR)
    (hn : ∀ i k p, (noise i k p).Finite) :
    ((∃ out, F.fitCoeffs nnls (some (.scalar z)) (some (.vec m)) (some (.vec iv)) mc noise = .ok out) ↔ CanFit mc A.x z m iv) ∧
    (¬ CanFit mc A.x z m iv → F.fitCoeffs nnls (some (.scalar z)) (some (.vec m)) (some (.vec iv)) mc noise = .error .valueError) := by
  rw [fit_scalar nnls hF (by omega) z m iv hm hiv, map_f32_xr, map_f32_xr, XR.f32_x]
  have bad : ¬ CanFit mc A.x z m iv → (fitU nnls F z m iv mc (noise 0)).map (outOne F mc) = .error .valueError := fun h => by
    rw [fitU_cannot hs hA hg (by omega) hnc (by omega) (by omega) h]; rfl
  refine ⟨⟨fun ⟨out, h⟩ => ?_, fun h => ?_⟩, bad⟩
  · by_contra hc
    rw [bad hc] at h
    cases h
  · obtain ⟨r, -, hr⟩ := fitU_can hs hA hg (hm.trans hiv.symm) (hiv.trans hnr.symm) (hn 0) h
    exact ⟨_, by rw [hr]; rfl⟩

/-- C146, a batch: it can be fitted exactly when each of its objects can; one object that cannot makes the call raise `ValueError` and no
coefficients are returned for any of them. -/
theorem C146_batch (nnls : Nnls XR) (hs : ChecksFinite nnls) (F : Fitter XR) (hF : NoAb F) (A : AMat ℝ) (hA : F.Amatrix = some A.toXR)
    (hg : A.Good) (hnr : A.nrow = F.responses.length) (hnb : 0 < F.responses.length) (hnc : 0 < A.ncol) (zs : List XR) (ms ivs : List (List XR))
    (hz : zs.length ≠ 1) (hm : ms.length = zs.length) (hiv : ivs.length = zs.length) (hmr : ∀ r ∈ ms, r.length = F.responses.length)
    (hivr : ∀ r ∈ ivs, r.length = F.responses.length) (mc : Nat) (noise : Nat → Nat → Nat → XR) (hn : ∀ i k p, (noise i k p).Finite) :
    ((∃ out, F.fitCoeffs nnls (some (.vec zs)) (some (.arr [zs.length] F.responses.length ms)) (some (.arr [zs.length] F.responses.length ivs)) mc noise = .ok out) ↔
      ∀ (k : Nat) z m iv, zs[k]? = some z → ms[k]? = some m → ivs[k]? = some iv → CanFit mc A.x z m iv) ∧
    (∀ (k : Nat) z m iv, zs[k]? = some z → ms[k]? = some m → ivs[k]? = some iv → ¬ CanFit mc A.x z m iv →
      F.fitCoeffs nnls (some (.vec zs)) (some (.arr [zs.length] F.responses.length ms)) (some (.arr [zs.length] F.responses.length ivs)) mc noise =
        .error .valueError) := by
  rw [fit_array nnls hF zs ms ivs hz hm hiv]
  have pass : ∀ k (hk : k < zs.length), (CanFit mc A.x zs[k] (ms[k]'(by omega)) (ivs[k]'(by omega)) →
      ∃ r, passU nnls F mc (noise k) (ent zs k, ms.getD k [], ivs.getD k []) = .ok r) ∧
      (¬ CanFit mc A.x zs[k] (ms[k]'(by omega)) (ivs[k]'(by omega)) →
        passU nnls F mc (noise k) (ent zs k, ms.getD k [], ivs.getD k []) = .error .valueError) := by
    intro k hk
    have k1 : k < ms.length := by omega
    have k2 : k < ivs.length := by omega
    have l1 := hmr _ (List.getElem_mem k1)
    have l2 := hivr _ (List.getElem_mem k2)
    have e1 : ent zs k = zs[k] := ent_eq (by simp [hk])
    rw [getD_lt k1, getD_lt k2, e1]
    unfold passU
    simp only [map_f32_xr, XR.f32_x]
    constructor
    · intro h
      obtain ⟨r, hr, he⟩ := fitU_can hs hA hg (by omega) (by omega) (hn k) h
      refine ⟨(r.1.map f32, r.2.1, r.2.2), ?_⟩
      rw [he, ok_bind]
      have : storeRow F.templates.nsed (.vec r.1) = .ok (r.1.map f32) := by
        show (if r.1.length = F.templates.nsed then _ else _) = _
        rw [if_pos hr]
      rw [this]; rfl
    · intro h
      rw [fitU_cannot hs hA hg (by omega) hnc (by omega) (by omega) h]; rfl
  have bad : ∀ k (hk : k < zs.length), ¬ CanFit mc A.x zs[k] (ms[k]'(by omega)) (ivs[k]'(by omega)) →
      (List.range zs.length).mapM (fun k => passU nnls F mc (noise k) (ent zs k, ms.getD k [], ivs.getD k [])) = .error .valueError := by
    intro k hk h
    refine mapM_error_uniq (a := k) (List.mem_range.mpr hk) ((pass k hk).2 h) ?_
    intro b hb e' he'
    have hb' := List.mem_range.mp hb
    by_cases hc : CanFit mc A.x zs[b] (ms[b]'(by omega)) (ivs[b]'(by omega))
    · obtain ⟨r, hr⟩ := (pass b hb').1 hc
      rw [hr] at he'; cases he'
    · rw [(pass b hb').2 hc] at he'
      cases he'; rfl
  have get : ∀ (k : Nat) z m iv, zs[k]? = some z → ms[k]? = some m → ivs[k]? = some iv →
      ∃ (hk : k < zs.length), zs[k] = z ∧ ms[k]'(by omega) = m ∧ ivs[k]'(by omega) = iv := by
    intro k z m iv h1 h2 h3
    obtain ⟨hk, e1⟩ := List.getElem?_eq_some_iff.mp h1
    obtain ⟨_, e2⟩ := List.getElem?_eq_some_iff.mp h2
    obtain ⟨_, e3⟩ := List.getElem?_eq_some_iff.mp h3
    exact ⟨hk, e1, e2, e3⟩
  have bad' : ∀ (k : Nat) z m iv, zs[k]? = some z → ms[k]? = some m → ivs[k]? = some iv → ¬ CanFit mc A.x z m iv →
      (List.range zs.length).mapM (fun k => passU nnls F mc (noise k) (ent zs k, ms.getD k [], ivs.getD k [])) = .error .valueError := by
    intro k z m iv h1 h2 h3 h
    obtain ⟨hk, rfl, rfl, rfl⟩ := get k z m iv h1 h2 h3
    exact bad k hk h
  refine ⟨⟨?_, ?_⟩, fun k z m iv h1 h2 h3 h => (by rw [bad' k z m iv h1 h2 h3 h]; rfl)⟩
  · rintro ⟨out, h⟩ k z m iv h1 h2 h3
    by_contra hc
    rw [bad' k z m iv h1 h2 h3 hc] at h
    cases h
  · intro h
    obtain ⟨rs, hrs⟩ := mapM_exists (l := List.range zs.length) (f := fun k => passU nnls F mc (noise k) (ent zs k, ms.getD k [], ivs.getD k [])) (by
      intro k hk
      have hk' := List.mem_range.mp hk
      exact (pass k hk').1 (h k _ _ _ (List.getElem?_eq_getElem hk') (List.getElem?_eq_getElem (by omega)) (List.getElem?_eq_getElem (by omega))))
    exact ⟨_, by rw [hrs]; rfl⟩

/-! ### Examples -/

/-- A solver as required. -/
example : ∃ nnls : Nnls XR, ChecksFinite nnls := by
  classical
  refine ⟨fun n A b _ => if (∃ row ∈ A, ∃ x ∈ row, ¬ x.Finite) ∨ ∃ x ∈ b, ¬ x.Finite then .error .valueError else .ok (zeros n), ?_, ?_⟩
  · intro n A b it h
    exact if_pos h
  · intro n A b hA hb
    refine ⟨zeros n, by simp [zeros], Or.inl (if_neg ?_)⟩
    rintro (⟨row, hr, x, hx, h⟩ | ⟨x, hx, h⟩)
    · exact h (hA row hr x hx)
    · exact h (hb x hx)

/-- A fitter of two bands as required, an object it can fit and three it cannot: NaN in a band of zero inverse variance, negative inverse
variance, NaN redshift. -/
example : ∃ F : Fitter XR, NoAb F ∧ F.Amatrix = some demoAm2.toXR ∧ demoAm2.Good ∧ demoAm2.nrow = F.responses.length ∧ F.responses.length = 2 ∧
    CanFit 3 demoAm2.x (.fin 2) [.fin 3, .fin (-1)] [.fin 4, .fin 0] ∧ ¬ CanFit 0 demoAm2.x (.fin 2) [.fin 3, .nan] [.fin 4, .fin 0] ∧
    ¬ CanFit 0 demoAm2.x (.fin 2) [.fin 3, .fin 1] [.fin 4, .fin (-1)] ∧ ¬ CanFit 0 demoAm2.x .nan [.fin 3, .fin 1] [.fin 4, .fin 1] := by
  have hin : Inside demoAm2.x (.fin 2) := ⟨2, rfl, by norm_num [demoAm2], by norm_num [demoAm2]⟩
  have hno : ¬ Outside demoAm2.x (.fin 2) := by
    rintro (h | h | ⟨q, h, h'⟩)
    · cases h
    · cases h
    · cases h; norm_num [demoAm2] at h'
  refine ⟨⟨.base, false, [['x'], ['y']], .sed ⟨[], [[], []], [], [[], []], .fin 0, false, none, true⟩, 3, (.fin 0, .fin 3), [], some demoAm2.toXR⟩, Or.inl rfl, rfl, demo_ready.good, rfl, rfl,
    Or.inr ⟨hin, ?_, ?_⟩, ?_, ?_, ?_⟩
  · intro v hv
    simp only [List.mem_cons, List.not_mem_nil, or_false] at hv
    rcases hv with rfl | rfl <;> exact ⟨_, rfl⟩
  · intro v hv
    simp only [List.mem_cons, List.not_mem_nil, or_false] at hv
    rcases hv with rfl | rfl
    · exact ⟨4, rfl, by norm_num⟩
    · exact ⟨0, rfl, le_rfl⟩
  · rintro (⟨-, h⟩ | ⟨-, h, -⟩)
    · exact hno h
    · obtain ⟨r, hr⟩ := h .nan (by simp)
      cases hr
  · rintro (⟨-, h⟩ | ⟨-, -, h⟩)
    · exact hno h
    · obtain ⟨r, hr, h0⟩ := h (.fin (-1)) (by simp)
      cases hr; norm_num at h0
  · rintro (⟨-, h | h | ⟨q, h, -⟩⟩ | ⟨⟨q, h, -⟩, -⟩) <;> cases h

end KC
