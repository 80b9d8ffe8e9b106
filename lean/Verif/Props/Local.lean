import Verif.Lemmas.Local

/-! Each entry of the matrix depends on its response, its template and the redshift only, and linearly on the template. -/

namespace KC
open Spec

/-! ### linear combinations of templates -/

theorem gather_zipWith {n : Nat} {y1 y2 : List ℝ} (f : ℝ → ℝ → ℝ) (h1 : y1.length = n) (h2 : y2.length = n) {idx : List Nat}
    (hi : ∀ i ∈ idx, i < n) : gather (List.zipWith f y1 y2) idx = List.zipWith f (gather y1 idx) (gather y2 idx) := by
  unfold gather
  rw [List.zipWith_map, List.zipWith_self]
  apply List.map_congr_left
  intro i hm
  have := hi i hm
  rw [getD_lt (by simp [h1, h2, this]), getD_lt (by rw [h1]; exact this), getD_lt (by rw [h2]; exact this), List.getElem_zipWith]

theorem band1_zero {lib : Lib ℝ} (hlin : SplineLinear lib) (c : Curve ℝ) (w : List ℝ) :
    band1 lib c w (List.replicate w.length 0) = 0 := by
  unfold band1
  cases projGrid w c.wave with
  | none => rfl
  | some grid =>
    simp only
    have e : gather (List.replicate w.length (0 : ℝ)) (argsort w) = (gather w (argsort w)).map (fun v => 0 * v) := by
      unfold gather
      rw [List.map_map]
      apply List.map_congr_left
      intro i hi
      rw [getD_lt (by simpa using argsort_lt w i hi)]
      simp
    have e2 : grid.map (interpRow lib (gather w (argsort w)) (gather (List.replicate w.length (0 : ℝ)) (argsort w))) =
        grid.map (fun q => (0 : ℝ) * 0 + 0 * 0) := by
      apply List.map_congr_left
      intro q _
      rw [interpRow_real, e, curveFn_smul hlin _ _ _ rfl]
      ring
    rw [e2, bandIntegral_linear grid (fun _ => 0) (fun _ => 0)]
    simp

theorem band1_step {lib : Lib ℝ} (hlin : SplineLinear lib) (c : Curve ℝ) (w y1 y2 : List ℝ) (a : ℝ) (h1 : y1.length = w.length)
    (h2 : y2.length = w.length) :
    band1 lib c w (List.zipWith (fun u v => a * u + v) y1 y2) = a * band1 lib c w y1 + band1 lib c w y2 := by
  unfold band1
  cases projGrid w c.wave with
  | none => simp
  | some grid =>
    simp only
    have e2 : grid.map (interpRow lib (gather w (argsort w)) (gather (List.zipWith (fun u v => a * u + v) y1 y2) (argsort w))) =
        grid.map (fun q => a * interpRow lib (gather w (argsort w)) (gather y1 (argsort w)) q +
          1 * interpRow lib (gather w (argsort w)) (gather y2 (argsort w)) q) := by
      apply List.map_congr_left
      intro q _
      rw [gather_zipWith _ h1 h2 (fun i hi => argsort_lt w i hi), interpRow_real, interpRow_real, interpRow_real,
        ← curveFn_linear hlin _ _ _ _ _ (by simp [gather_length]) (by simp [gather_length])]
      simp
    rw [e2, bandIntegral_linear]
    ring

theorem band1_mix {lib : Lib ℝ} (hlin : SplineLinear lib) (c : Curve ℝ) (w : List ℝ) : ∀ (as : List ℝ) (ys : List (List ℝ)),
    (∀ y ∈ ys, y.length = w.length) → band1 lib c w (mix w.length as ys) = dot as (ys.map (band1 lib c w))
  | [], ys, _ => by simp [mix_nil, band1_zero hlin, dot, sumL]
  | _ :: _, [], _ => by simp [mix, band1_zero hlin, dot, sumL]
  | a :: as, y :: ys, h => by
    have h' : ∀ y ∈ ys, y.length = w.length := fun y hy => h y (by simp [hy])
    rw [mix, band1_step hlin c w _ _ _ (h y (by simp)) (mix_length _ _ _ h'), band1_mix hlin c w as ys h', List.map_cons, dot_cons]

theorem mix_map_div (n : Nat) (d : ℝ) : ∀ (as : List ℝ) (ys : List (List ℝ)),
    (mix n as ys).map (fun f => f / d) = mix n as (ys.map (List.map (fun f => f / d)))
  | [], ys => by simp [mix_nil]
  | _ :: _, [] => by simp [mix]
  | a :: as, y :: ys => by
    rw [List.map_cons, mix, mix, ← mix_map_div n d as ys, List.zipWith_map, List.map_zipWith]
    congr 1
    funext u v
    ring

theorem cell_mix {lib : Lib ℝ} (hlin : SplineLinear lib) (c : Curve ℝ) (w : List ℝ) (z : ℝ) (as : List ℝ) (ys : List (List ℝ))
    (h : ∀ y ∈ ys, y.length = w.length) : cell lib c w z (mix w.length as ys) = dot as (ys.map (cell lib c w z)) := by
  unfold cell
  have e : w.length = (w.map (fun v => v * (1 + z))).length := by simp
  rw [mix_map_div]
  conv_lhs => rw [e]
  rw [band1_mix hlin, List.map_map]
  · rfl
  · intro y hy
    obtain ⟨y0, h0, rfl⟩ := List.mem_map.mp hy
    simp [h y0 h0]

theorem dot_linEntry (xlo xhi q : ℝ) : ∀ (as a b : List ℝ), a.length = as.length → b.length = as.length →
    linEntry xlo xhi q (dot as a) (dot as b) = dot as (List.zipWith (linEntry xlo xhi q) a b)
  | [], a, b, _, _ => by simp [dot, linEntry]
  | x :: as, [], _, h, _ => by simp at h
  | x :: as, _ :: _, [], _, h => by simp at h
  | x :: as, u :: a, v :: b, h1, h2 => by
    rw [List.zipWith_cons_cons, dot_cons, dot_cons, dot_cons, ← dot_linEntry xlo xhi q as a b (by simpa using h1) (by simpa using h2)]
    unfold linEntry
    ring

/-- C103: two constructions on the same redshift grid and rest-frame wavelengths.  If the templates of the second are linear combinations
(weights `W`) of the templates of the first, then at every redshift every row of the second matrix is made of the same linear combinations of the row of
the first that belongs to the same response, whatever other responses and templates the two constructions have. -/
theorem C103_linear (lib : Lib ℝ) (hlin : SplineLinear lib) (disk1 disk2 : Disk ℝ) (zs : List ℝ) (R1 R2 : List Name) (w1 w1' w2 w2' : Shared ℝ)
    (A1 A2 : AMat ℝ) (h1 : calcAmatrix lib disk1 zs R1 w1 = (w1', .ok A1)) (h2 : calcAmatrix lib disk2 zs R2 w2 = (w2', .ok A2))
    (hne : w1.sed.restFlux ≠ []) (hw : ∀ row ∈ w1.sed.restFlux, row.length = w1.sed.restWave.length)
    (hwave : w2.sed.restWave = w1.sed.restWave) (W : List (List ℝ)) (hWne : W ≠ []) (hW : ∀ a ∈ W, a.length = w1.sed.nsed)
    (hflux : w2.sed.restFlux = W.map (fun a => mix w1.sed.restWave.length a w1.sed.restFlux))
    (i1 i2 : Nat) (n : Name) (hi1 : R1[i1]? = some n) (hi2 : R2[i2]? = some n) (hsame : w1'.reg n = w2'.reg n)
    (q : ℝ) (M1 : List (List ℝ)) (hM1 : A1.at q = .ok M1) :
    ∃ M2 row, A2.at q = .ok M2 ∧ M1[i1]? = some row ∧ row.length = w1.sed.nsed ∧ M2[i2]? = some (W.map (fun a => dot a row)) := by
  have hne2 : w2.sed.restFlux ≠ [] := by rw [hflux]; simpa using hWne
  have hw2 : ∀ row ∈ w2.sed.restFlux, row.length = w2.sed.restWave.length := by
    intro row hrow
    rw [hflux] at hrow
    obtain ⟨a, _, rfl⟩ := List.mem_map.mp hrow
    rw [mix_length _ _ _ hw, hwave]
  obtain ⟨ms1, hm1, hall1⟩ := calc_cells hne hw h1
  obtain ⟨ms2, hm2, hall2⟩ := calc_cells hne2 hw2 h2
  refine at_row hm1 hm2 (g := fun row => W.map (fun a => dot a row)) ?_ ?_ hM1
  · intro xlo xhi q a b ha hb
    rw [List.zipWith_map, List.zipWith_self]
    apply List.map_congr_left
    intro v hv
    exact dot_linEntry _ _ _ _ _ _ (ha.trans (hW v hv).symm) (hb.trans (hW v hv).symm)
  · intro k N1 N2 hk1 hk2
    obtain ⟨hk1', rfl⟩ := List.getElem?_eq_some_iff.mp hk1
    obtain ⟨hk2', rfl⟩ := List.getElem?_eq_some_iff.mp hk2
    have hz : k < zs.length := by rw [hall1.length_eq]; exact hk1'
    obtain ⟨_, c1⟩ := (List.forall₂_iff_get.mp hall1).2 k hz hk1'
    obtain ⟨_, c2⟩ := (List.forall₂_iff_get.mp hall2).2 k hz hk2'
    simp only [List.get_eq_getElem] at c1 c2
    obtain ⟨o1, k1, ho1, hk1, e1⟩ := c1 i1 n hi1
    obtain ⟨o2, k2, ho2, hk2, e2⟩ := c2 i2 n hi2
    rw [hsame, ho2] at ho1
    cases ho1
    rw [hk1] at hk2
    cases hk2
    refine ⟨_, e1, by simp [Sed.nsed], ?_⟩
    rw [e2, hflux, List.map_map, hwave]
    congr 1
    apply List.map_congr_left
    intro a _
    exact cell_mix hlin k1 _ _ a _ hw

/-- C103: with the same templates, the row of a response is the same in every construction that uses the response. -/
theorem C103_row (lib : Lib ℝ) (disk1 disk2 : Disk ℝ) (zs : List ℝ) (R1 R2 : List Name) (w1 w1' w2 w2' : Shared ℝ)
    (A1 A2 : AMat ℝ) (h1 : calcAmatrix lib disk1 zs R1 w1 = (w1', .ok A1)) (h2 : calcAmatrix lib disk2 zs R2 w2 = (w2', .ok A2))
    (hne : w1.sed.restFlux ≠ []) (hw : ∀ row ∈ w1.sed.restFlux, row.length = w1.sed.restWave.length)
    (hwave : w2.sed.restWave = w1.sed.restWave) (hflux : w2.sed.restFlux = w1.sed.restFlux)
    (i1 i2 : Nat) (n : Name) (hi1 : R1[i1]? = some n) (hi2 : R2[i2]? = some n) (hsame : w1'.reg n = w2'.reg n)
    (q : ℝ) (M1 : List (List ℝ)) (hM1 : A1.at q = .ok M1) :
    ∃ M2 row, A2.at q = .ok M2 ∧ M1[i1]? = some row ∧ row.length = w1.sed.nsed ∧ M2[i2]? = some row := by
  obtain ⟨ms1, hm1, hall1⟩ := calc_cells hne hw h1
  obtain ⟨ms2, hm2, hall2⟩ := calc_cells (by rw [hflux]; exact hne) (by rw [hflux, hwave]; exact hw) h2
  refine at_row hm1 hm2 (g := fun row => row) (fun _ _ _ _ _ _ _ => rfl) ?_ hM1
  intro k N1 N2 hk1 hk2
  obtain ⟨hk1', rfl⟩ := List.getElem?_eq_some_iff.mp hk1
  obtain ⟨hk2', rfl⟩ := List.getElem?_eq_some_iff.mp hk2
  have hz : k < zs.length := by rw [hall1.length_eq]; exact hk1'
  obtain ⟨_, c1⟩ := (List.forall₂_iff_get.mp hall1).2 k hz hk1'
  obtain ⟨_, c2⟩ := (List.forall₂_iff_get.mp hall2).2 k hz hk2'
  simp only [List.get_eq_getElem] at c1 c2
  obtain ⟨o1, k1, ho1, hk1, e1⟩ := c1 i1 n hi1
  obtain ⟨o2, k2, ho2, hk2, e2⟩ := c2 i2 n hi2
  rw [hsame, ho2] at ho1
  cases ho1
  rw [hk1] at hk2
  cases hk2
  exact ⟨_, e1, by simp [Sed.nsed], by rw [e2, hflux, hwave]⟩

end KC
