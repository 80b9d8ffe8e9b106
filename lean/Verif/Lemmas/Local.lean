import Verif.Props.Build
import Verif.Props.Response2
import Verif.Props.FitReal

/-! What a single entry of the matrix depends on. -/

namespace KC
open Spec

/-- Linear combination of spectra of `n` samples: sample `j` of `mix n a ys` is the sum over `k` of `a[k] * ys[k][j]`. -/
noncomputable def mix (n : Nat) : List ℝ → List (List ℝ) → List ℝ
  | a :: as, y :: ys => List.zipWith (fun u v => a * u + v) y (mix n as ys)
  | _, _ => List.replicate n 0

theorem mix_nil (n : Nat) (ys : List (List ℝ)) : mix n [] ys = List.replicate n 0 := by
  cases ys <;> simp [mix]

theorem mix_length (n : Nat) : ∀ (as : List ℝ) (ys : List (List ℝ)), (∀ y ∈ ys, y.length = n) → (mix n as ys).length = n
  | [], ys, _ => by simp [mix_nil]
  | _ :: _, [], _ => by simp [mix]
  | a :: as, y :: ys, h => by
    simp only [mix, List.length_zipWith]
    rw [h y (by simp), mix_length n as ys (fun y hy => h y (by simp [hy])), min_self]

/-- The projection of one spectrum through a response. -/
noncomputable def band1 (lib : Lib ℝ) (c : Curve ℝ) (w y : List ℝ) : ℝ :=
  match projGrid w c.wave with
  | none => 0
  | some grid => bandIntegral grid (grid.map (interpRow lib (gather w (argsort w)) (gather y (argsort w)))) (grid.map (c.at lib)) /
      bandIntegral grid (grid.map abFlux) (grid.map (c.at lib))

theorem projList_band1 (lib : Lib ℝ) (c : Curve ℝ) (w : List ℝ) (rows : List (List ℝ)) :
    projList lib c w (gather w (argsort w)) (argsort w) rows = rows.map (band1 lib c w) := by
  unfold projList band1
  cases projGrid w c.wave <;> rfl

theorem mkInterp_eq {x : List ℝ} {ys : List (List ℝ)} {itp : Interp ℝ} (h : mkInterp x ys = .ok itp) :
    itp = ⟨gather x (argsort x), ys.map (fun row => gather row (argsort x))⟩ ∧ (∀ row ∈ ys, row.length = x.length) ∧
      4 ≤ x.length ∧ noDup (gather x (argsort x)) = true := by
  unfold mkInterp at h
  split at h
  · rename_i h1
    split at h
    · rename_i h2
      split at h
      · rename_i h3
        cases h; exact ⟨rfl, h1, h2, h3⟩
      · cases h
    · cases h
  · cases h

/-- A row of the matrix: every template is projected by itself. -/
theorem respRow_band1 {lib : Lib ℝ} {g : Reg ℝ} {t : Sed ℝ} {n : Name} {row : List ℝ}
    (hi : t.interpolate = true → ∃ itp, t.interp = some itp ∧ mkInterp t.wave t.flux = .ok itp)
    (hf : t.flux.length = t.nsed) (hne : t.flux ≠ []) (hw : ∀ row ∈ t.flux, row.length = t.wave.length) :
    respRow lib g t n = .ok row ↔ ∃ o c itp, g n = some o ∧ o.curve = .ok c ∧ mkInterp t.wave t.flux = .ok itp ∧
      row = t.flux.map (band1 lib c t.wave) := by
  unfold respRow
  cases hg : g n with
  | none => simp
  | some o =>
    simp only [ok_bind, Option.some.injEq]
    cases hc : o.curve with
    | error e =>
      constructor
      · intro h; simp at h
      · rintro ⟨_, _, _, rfl, h, _⟩; rw [hc] at h; cases h
    | ok c =>
      simp only [ok_bind]
      have key : ∀ itp, mkInterp t.wave t.flux = .ok itp →
          storeRow t.flux.length (projectWith lib c t.wave itp) = .ok (t.flux.map (band1 lib c t.wave)) := by
        intro itp h
        obtain ⟨rfl, _⟩ := mkInterp_eq h
        rw [storeRow_projectWith, projList_band1]
      have fin : ∀ itp, mkInterp t.wave t.flux = .ok itp → ((Except.ok (t.flux.map (band1 lib c t.wave)) : Py (List ℝ)) = .ok row ↔
          ∃ o' c' itp, o = o' ∧ o'.curve = .ok c' ∧ mkInterp t.wave t.flux = .ok itp ∧ row = t.flux.map (band1 lib c' t.wave)) := by
        intro itp h
        constructor
        · intro h'; cases h'; exact ⟨o, c, itp, rfl, hc, h, rfl⟩
        · rintro ⟨_, c', _, rfl, hc', _, rfl⟩
          rw [hc] at hc'; cases hc'; rfl
      cases hip : t.interpolate with
      | true =>
        obtain ⟨itp, h1, h2⟩ := hi hip
        simp only [if_true]
        rw [projectSed, h1]
        simp only [ok_bind]
        rw [← hf, key itp h2]
        exact fin itp h2
      | false =>
        simp only [Bool.false_eq_true, if_false]
        rw [C48_chunks lib c 1000 (by norm_num) t hne hw, projectArr_real]
        cases hm : mkInterp t.wave t.flux with
        | error e =>
          simp only [Except.map]
          constructor
          · intro h; cases h
          · rintro ⟨_, _, _, _, _, h, _⟩; cases h
        | ok itp =>
          simp only [Except.map, ok_bind]
          rw [key itp hm]
          have := fin itp hm
          rw [hm] at this
          exact this

theorem setRedshift_ready {s t : Sed ℝ} {z : ℝ} (hne : s.restFlux ≠ []) (hw : ∀ row ∈ s.restFlux, row.length = s.restWave.length)
    (h : s.setRedshift z = (t, .ok ())) :
    (t.interpolate = true → ∃ itp, t.interp = some itp ∧ mkInterp t.wave t.flux = .ok itp) ∧ t.flux.length = t.nsed ∧ t.flux ≠ [] ∧
      (∀ row ∈ t.flux, row.length = t.wave.length) ∧ t.wave = s.restWave.map (fun w => w * (1 + z)) ∧
      t.flux = s.restFlux.map (List.map (fun f => f / (1 + z))) ∧ t.interpolate = s.interpolate := by
  obtain ⟨_, h2, h3, h4, _, h6, _⟩ := setRedshift_fields s z
  rw [h] at h2 h3 h4 h6
  simp only [real_lit, Rat.cast_one] at h2 h3 h4 h6
  refine ⟨?_, by rw [h4, Sed.nsed, h2]; simp, by rw [h4]; simpa using hne, ?_, h3, h4, h6⟩
  · intro hip
    rw [hip] at h6
    unfold Sed.setRedshift at h
    simp only [← h6, if_true] at h
    unfold Sed.setInterp at h
    simp only at h
    split at h
    · rename_i i hm
      cases h
      exact ⟨i, rfl, hm⟩
    · cases h
  · intro row hrow
    rw [h4] at hrow
    obtain ⟨r0, hr0, rfl⟩ := List.mem_map.mp hrow
    rw [h3]; simp [hw r0 hr0]

/-- Maggies of the spectrum `y` (on rest-frame wavelengths `w`) at redshift `z` through the response. -/
noncomputable def cell (lib : Lib ℝ) (c : Curve ℝ) (w : List ℝ) (z : ℝ) (y : List ℝ) : ℝ :=
  band1 lib c (w.map (fun v => v * (1 + z))) (y.map (fun f => f / (1 + z)))

/-- The matrices at the nodes, entry by entry. -/
theorem calc_cells {lib : Lib ℝ} {disk : Disk ℝ} {zs : List ℝ} {rs : List Name} {w w' : Shared ℝ} {A : AMat ℝ}
    (hne : w.sed.restFlux ≠ []) (hw : ∀ row ∈ w.sed.restFlux, row.length = w.sed.restWave.length)
    (h : calcAmatrix lib disk zs rs w = (w', .ok A)) :
    ∃ ms, mkAMat zs ms rs.length w.sed.nsed = .ok A ∧
      List.Forall₂ (fun z M => M.length = rs.length ∧ ∀ (i : Nat) n, rs[i]? = some n → ∃ o c, w'.reg n = some o ∧ o.curve = .ok c ∧
        M[i]? = some (w.sed.restFlux.map (cell lib c w.sed.restWave z))) zs ms := by
  obtain ⟨_, _, ms, hmk, hall⟩ := calcAmatrix_ok h
  refine ⟨ms, hmk, hall.imp ?_⟩
  rintro z M ⟨t, ht, hM⟩
  obtain ⟨h1, h2, h3, h4, h5, h6, _⟩ := setRedshift_ready hne hw ht
  rw [mapM_ok_iff] at hM
  refine ⟨hM.length_eq.symm, fun i n hn => ?_⟩
  obtain ⟨hi, hin⟩ := List.getElem?_eq_some_iff.mp hn
  have hi' : i < M.length := by rw [← hM.length_eq]; exact hi
  have := (List.forall₂_iff_get.mp hM).2 i hi hi'
  simp only [List.get_eq_getElem, hin] at this
  obtain ⟨o, c, _, ho, hc, _, hrow⟩ := (respRow_band1 h1 h2 h3 h4).mp this
  refine ⟨o, c, ho, hc, ?_⟩
  rw [List.getElem?_eq_getElem hi', hrow, h6, h5, List.map_map]
  rfl

theorem mkAMat_eq {x : List ℝ} {ys : List (List (List ℝ))} {r c : Nat} {m : AMat ℝ} (h : mkAMat x ys r c = .ok m) :
    m.x = gather x (argsort x) ∧ m.ys = (argsort x).map (fun i => ys.getD i []) ∧ x.length = ys.length := by
  unfold mkAMat at h
  split at h
  · rename_i hl
    cases h
    exact ⟨rfl, rfl, hl⟩
  · cases h

/-- Rows related at the nodes are related at every redshift, if the relation is a function that commutes with the interpolation. -/
theorem at_row {x : List ℝ} {ys ys' : List (List (List ℝ))} {r c r' c' : Nat} {m m' : AMat ℝ} (hm : mkAMat x ys r c = .ok m)
    (hm' : mkAMat x ys' r' c' = .ok m') {i i' n : Nat} {g : List ℝ → List ℝ}
    (hg : ∀ (xlo xhi q : ℝ) (a b : List ℝ), a.length = n → b.length = n →
      List.zipWith (linEntry xlo xhi q) (g a) (g b) = g (List.zipWith (linEntry xlo xhi q) a b))
    (hn : ∀ (k : Nat) M M', ys[k]? = some M → ys'[k]? = some M' →
      ∃ row, M[i]? = some row ∧ row.length = n ∧ M'[i']? = some (g row))
    {q : ℝ} {M : List (List ℝ)} (hM : m.at q = .ok M) :
    ∃ M' row, m'.at q = .ok M' ∧ M[i]? = some row ∧ row.length = n ∧ M'[i']? = some (g row) := by
  obtain ⟨hx, hy, hl⟩ := mkAMat_eq hm
  obtain ⟨hx', hy', hl'⟩ := mkAMat_eq hm'
  have hxx : m'.x = m.x := by rw [hx, hx']
  have h0 : m.x ≠ [] := by
    intro h
    unfold AMat.at at hM
    rw [h] at hM
    simp at hM
  have hr := (at_ok_iff h0).mp ⟨M, hM⟩
  have hml : m.x.length = x.length := by rw [hx]; simp [gather_length, argsort_length]
  have hpos : 0 < m.x.length := List.length_pos_of_ne_nil h0
  have hc : clipIdx m.x.length (searchLeft m.x q) < m.x.length := by unfold clipIdx; omega
  rw [at_in h0 hr] at hM
  cases hM
  have hr' : InRange m'.x q := by rw [hxx]; exact hr
  rw [at_in (by rw [hxx]; exact h0) hr', hxx]
  set hi := clipIdx m.x.length (searchLeft m.x q) with hhi
  have node : ∀ k, k < m.x.length → ∃ row, (m.ys.getD k [])[i]? = some row ∧ row.length = n ∧ (m'.ys.getD k [])[i']? = some (g row) := by
    intro k hk
    have hka : k < (argsort x).length := by rw [argsort_length, ← hml]; exact hk
    have hlt : (argsort x)[k] < x.length := argsort_lt x _ (List.getElem_mem _)
    obtain ⟨row, h1, h2, h3⟩ := hn ((argsort x)[k]) _ _ (List.getElem?_eq_getElem (by rw [← hl]; exact hlt))
      (List.getElem?_eq_getElem (by rw [← hl']; exact hlt))
    refine ⟨row, ?_, h2, ?_⟩
    · rw [hy, getD_lt (by simpa using hka), List.getElem_map, getD_lt (by rw [← hl]; exact hlt)]; exact h1
    · rw [hy', getD_lt (by simpa using hka), List.getElem_map, getD_lt (by rw [← hl']; exact hlt)]; exact h3
  obtain ⟨ra, a1, a2, a3⟩ := node (hi - 1) (by omega)
  obtain ⟨rb, b1, b2, b3⟩ := node hi hc
  refine ⟨_, List.zipWith (linEntry (ent m.x (hi - 1)) (ent m.x hi) q) ra rb, rfl, ?_, by simp [a2, b2], ?_⟩
  · unfold linBetween
    rw [List.getElem?_zipWith, a1, b1]
  · unfold linBetween
    rw [List.getElem?_zipWith, a3, b3]
    simp only [Option.some.injEq]
    exact hg _ _ _ _ _ a2 b2

end KC
