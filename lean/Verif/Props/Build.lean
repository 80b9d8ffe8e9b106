import Verif.Lemmas.Build
import Verif.Props.Flambda

/-!
# Building the A matrix (C43–C45, C47, C48, C93)
-/

namespace KC
open Spec

/-! ### C43 -/

/-- C43: the grid starts at `lo`, ends at `hi`, increases, and has constant spacing. -/
theorem C43_grid (lo hi : ℝ) (n : Nat) (h : lo < hi) (hn : 2 ≤ n) :
    (redshiftGrid lo hi n).length = n ∧ (redshiftGrid lo hi n)[0]? = some lo ∧ (redshiftGrid lo hi n)[n - 1]? = some hi ∧
    (redshiftGrid lo hi n).Pairwise (· < ·) ∧
    ∀ i a b, (redshiftGrid lo hi n)[i]? = some a → (redshiftGrid lo hi n)[i + 1]? = some b →
      b - a = (hi - lo) / ((n : ℝ) - 1) := by
  have hn1 : (0 : ℝ) < (n : ℝ) - 1 := by
    have : (2 : ℝ) ≤ n := by exact_mod_cast hn
    linarith
  have hget : ∀ i, i < n → (redshiftGrid lo hi n)[i]? = some (lo + (hi - lo) * (i : ℝ) / ((n : ℝ) - 1)) := by
    intro i hi'
    simp [redshiftGrid, hi']
  refine ⟨by simp [redshiftGrid], ?_, ?_, ?_, ?_⟩
  · rw [hget 0 (by omega)]; simp
  · rw [hget (n - 1) (by omega), Nat.cast_sub (by omega)]
    congr 1
    push_cast
    field_simp
    ring
  · rw [redshiftGrid, List.pairwise_map]
    refine List.pairwise_lt_range.imp ?_
    intro a b hab
    simp only [real_f32, real_lit]
    have : (a : ℝ) < b := by exact_mod_cast hab
    push_cast
    have h3 : (hi - lo) * (a : ℝ) < (hi - lo) * b := mul_lt_mul_of_pos_left this (sub_pos.mpr h)
    have h4 := div_lt_div_of_pos_right h3 hn1
    linarith
  · intro i a b ha hb
    have hib : i + 1 < n := by
      have := (List.getElem?_eq_some_iff.mp hb).1
      simpa [redshiftGrid] using this
    rw [hget i (by omega)] at ha
    rw [hget (i + 1) hib] at hb
    simp only [Option.some.injEq] at ha hb
    rw [← ha, ← hb]
    push_cast
    field_simp
    ring

/-- Why `n >= 2`: with one redshift the grid is not a number. -/
theorem C43_one_redshift_nan : (redshiftGrid (XR.fin 0) (XR.fin 1) 1) = [XR.nan] := by
  simp only [redshiftGrid, List.range_one, List.map_cons, List.map_nil]
  show [XR.add (XR.fin 0) (XR.div (XR.mul (XR.add (XR.fin 1) (XR.neg (XR.fin 0))) (XR.fin ((0 : ℕ) : ℚ))) (XR.fin (((1 : ℕ) : ℚ) - 1 : ℚ)))] = _
  simp [XR.add, XR.neg, XR.mul, XR.div, XR.infMul]

/-- The default range of `Kcorrect`. -/
example : (0 : ℝ) < 2 ∧ 2 ≤ 4000 := by norm_num

/-! ### C48 -/

/-- storing a projection over the reals -/
theorem storeRow_projOnGrid (g : List ℝ) (seds : List (List ℝ)) (r : List ℝ) :
    storeRow seds.length (projOnGrid g seds r) = .ok (projOnGrid g seds r).flat := by
  unfold projOnGrid
  split
  · simp [storeRow, NDA.flat]
  · simp [storeRow, NDA.vec, NDA.flat]

theorem projOnGrid_append (g : List ℝ) (s1 s2 : List (List ℝ)) (r : List ℝ) :
    (projOnGrid g (s1 ++ s2) r).flat = (projOnGrid g s1 r).flat ++ (projOnGrid g s2 r).flat := by
  rw [projOnGrid_flat, projOnGrid_flat, projOnGrid_flat, List.map_append]

/-- The stored projections of the rows, in one list (the value 0 for every row when the band is empty). -/
noncomputable def projList (lib : Lib ℝ) (c : Curve ℝ) (sw x : List ℝ) (idx : List Nat) (rows : List (List ℝ)) : List ℝ :=
  match projGrid sw c.wave with
  | none => rows.map (fun _ => 0)
  | some grid => rows.map (fun y => bandIntegral grid (grid.map (interpRow lib x (gather y idx))) (grid.map (c.at lib)) /
      bandIntegral grid (grid.map abFlux) (grid.map (c.at lib)))

theorem storeRow_projectWith (lib : Lib ℝ) (c : Curve ℝ) (sw x : List ℝ) (idx : List Nat) (rows : List (List ℝ)) :
    storeRow rows.length (projectWith lib c sw ⟨x, rows.map (fun row => gather row idx)⟩) = .ok (projList lib c sw x idx rows) := by
  unfold projectWith projList
  cases hg : projGrid sw c.wave with
  | none => simp [storeRow]
  | some grid =>
    simp only [Interp.eval]
    have := storeRow_projOnGrid grid ((rows.map (fun row => gather row idx)).map (fun y => grid.map (interpRow lib x y))) (grid.map (c.at lib))
    rw [projOnGrid_flat] at this
    simp only [List.length_map, List.map_map] at this
    simpa [Function.comp_def] using this

theorem projList_append (lib : Lib ℝ) (c : Curve ℝ) (sw x : List ℝ) (idx : List Nat) (r1 r2 : List (List ℝ)) :
    projList lib c sw x idx (r1 ++ r2) = projList lib c sw x idx r1 ++ projList lib c sw x idx r2 := by
  unfold projList; split <;> simp

theorem projList_flatten (lib : Lib ℝ) (c : Curve ℝ) (sw x : List ℝ) (idx : List Nat) (ps : List (List (List ℝ))) :
    (ps.map (projList lib c sw x idx)).flatten = projList lib c sw x idx ps.flatten := by
  induction ps with
  | nil => unfold projList; cases projGrid sw c.wave <;> rfl
  | cons a t ih => simp [projList_append, ih]

theorem projectArr_real (lib : Lib ℝ) (c : Curve ℝ) (wave : List ℝ) (rows : List (List ℝ)) (n : Nat) :
    projectArr lib c wave (.arr [n] wave.length rows) = (mkInterp wave rows).map (fun itp => projectWith lib c wave itp) := by
  have e1 : wave.map (f32 : ℝ → ℝ) = wave := List.map_id wave
  have e2 : rows.map (List.map (f32 : ℝ → ℝ)) = rows := by
    have : (List.map (f32 : ℝ → ℝ)) = id := by funext l; exact List.map_id l
    rw [this, List.map_id]
  unfold projectArr
  simp only [NDA.map, e1, e2]
  simp only [ne_eq, not_true_eq_false, if_false, List.length_singleton, lt_irrefl, ok_bind]
  cases mkInterp wave rows <;> rfl

/-- C48: projecting a template set in groups of `k` gives the same row (or the same exception) as storing the projection of
all templates at once. -/
theorem C48_chunks (lib : Lib ℝ) (c : Curve ℝ) (k : Nat) (hk : 0 < k) (s : Sed ℝ) (hne : s.flux ≠ [])
    (hw : ∀ row ∈ s.flux, row.length = s.wave.length) :
    chunkRow lib c k s =
      (do storeRow s.flux.length (← projectArr lib c s.wave (.arr [s.flux.length] s.wave.length s.flux))) := by
  have hmem : ∀ p ∈ piecesOf k s.flux, ∀ row ∈ p, row ∈ s.flux := by
    intro p hp row hrow
    have := piecesOf_flatten k hk s.flux
    rw [← this, List.mem_flatten]; exact ⟨p, hp, hrow⟩
  have hpne : piecesOf k s.flux ≠ [] := by
    intro h
    have := piecesOf_flatten k hk s.flux
    rw [h] at this; exact hne (by simpa using this.symm)
  have hmk : ∀ rows : List (List ℝ), (∀ row ∈ rows, row.length = s.wave.length) → mkInterp s.wave rows =
      if 4 ≤ s.wave.length then
        if noDup (gather s.wave (argsort s.wave)) then
          .ok ⟨gather s.wave (argsort s.wave), rows.map (fun row => gather row (argsort s.wave))⟩
        else .error .valueError
      else .error .valueError := by
    intro rows hr; unfold mkInterp; rw [if_pos hr]
  unfold chunkRow
  have hstep : ∀ p ∈ piecesOf k s.flux,
      (do storeRow p.length (← projectArr lib c s.wave (.arr [p.length] s.wave.length p))) =
      (if 4 ≤ s.wave.length ∧ noDup (gather s.wave (argsort s.wave)) then
        .ok (projList lib c s.wave (gather s.wave (argsort s.wave)) (argsort s.wave) p) else .error .valueError : Py (List ℝ)) := by
    intro p hp
    rw [projectArr_real, hmk p (fun row hrow => hw row (hmem p hp row hrow))]
    by_cases h4 : 4 ≤ s.wave.length
    · by_cases hd : noDup (gather s.wave (argsort s.wave))
      · rw [if_pos h4, if_pos hd, if_pos ⟨h4, hd⟩]
        exact storeRow_projectWith lib c s.wave _ _ p
      · rw [if_pos h4, if_neg hd, if_neg (by tauto)]; rfl
    · rw [if_neg h4, if_neg (by tauto)]; rfl
  rw [mapM_congr hstep, projectArr_real, hmk s.flux hw]
  by_cases h4 : 4 ≤ s.wave.length
  · by_cases hd : noDup (gather s.wave (argsort s.wave))
    · simp only [h4, hd, and_self, if_true]
      rw [mapM_pure, ok_bind, pure_py, projList_flatten, piecesOf_flatten k hk]
      exact (storeRow_projectWith lib c s.wave _ _ s.flux).symm
    · rw [if_pos h4, if_neg hd]
      simp only [h4, hd, and_false, if_false]
      obtain ⟨p, ps, hp⟩ := List.exists_cons_of_ne_nil hpne
      rw [hp]; rfl
  · rw [if_neg h4]
    simp only [h4, false_and, if_false]
    obtain ⟨p, ps, hp⟩ := List.exists_cons_of_ne_nil hpne
    rw [hp]; rfl

/-- Not vacuous: three templates, groups of two. -/
example : ∃ s : Sed ℝ, s.flux ≠ [] ∧ (∀ row ∈ s.flux, row.length = s.wave.length) ∧ s.flux.length = 3 :=
  ⟨⟨[], [], [1, 2, 3, 4], [[1, 1, 1, 1], [1, 2, 3, 4], [0, 1, 0, 1]], 0, false, none, false⟩, by simp, by simp, rfl⟩

/-! ### C44 -/

/-- `row` lists the projections of all templates of `t` through `c` as `project` gives them (a scalar counts for every
template). -/
def ProjRow (lib : Lib ℝ) (c : Curve ℝ) (t : Sed ℝ) (row : List ℝ) : Prop :=
  ∃ v, (if t.interpolate then projectSed lib c t else projectArr lib c t.wave (.arr [t.flux.length] t.wave.length t.flux)) = .ok v ∧
    ((∃ x, v = .scalar x ∧ row = List.replicate t.nsed x) ∨ v = .vec row)

/-- `project` never gives a vector of one element. -/
theorem projectWith_shape (lib : Lib ℝ) (c : Curve ℝ) (sw : List ℝ) (itp : Interp ℝ) :
    (∃ x, projectWith lib c sw itp = .scalar x) ∨ ∃ r, projectWith lib c sw itp = .vec r ∧ r.length ≠ 1 := by
  unfold projectWith
  cases projGrid sw c.wave with
  | none => exact Or.inl ⟨_, rfl⟩
  | some grid =>
    simp only
    unfold projOnGrid
    split
    · exact Or.inl ⟨_, rfl⟩
    · rename_i h
      refine Or.inr ⟨_, rfl, ?_⟩
      intro h1
      simp only [List.length_map] at h1
      obtain ⟨a, ha⟩ := List.length_eq_one_iff.mp h1
      exact h a ha

theorem storeRow_shape {n : Nat} {v : NDA ℝ} {row : List ℝ} (h : storeRow n v = .ok row)
    (hv : (∃ x, v = .scalar x) ∨ ∃ r, v = .vec r ∧ r.length ≠ 1) :
    (∃ x, v = .scalar x ∧ row = List.replicate n x) ∨ v = .vec row := by
  rcases hv with ⟨x, rfl⟩ | ⟨r, rfl, hr⟩
  · left; refine ⟨x, rfl, ?_⟩
    simp [storeRow] at h; exact h.symm
  · right
    unfold storeRow NDA.vec at h
    simp only at h
    split at h
    · cases h
      have : (f32 : ℝ → ℝ) = id := rfl
      simp [this, NDA.vec]
    · split at h
      · simp at hr
      · cases h

theorem projectSed_shape {lib : Lib ℝ} {c : Curve ℝ} {s : Sed ℝ} {v : NDA ℝ} (h : projectSed lib c s = .ok v) :
    (∃ x, v = .scalar x) ∨ ∃ r, v = .vec r ∧ r.length ≠ 1 := by
  unfold projectSed at h
  split at h
  · cases h; exact projectWith_shape _ _ _ _
  · split at h
    · cases h; exact Or.inl ⟨_, rfl⟩
    · cases h

theorem respRow_proj {lib : Lib ℝ} {g : Reg ℝ} {t : Sed ℝ} {n : Name} {row : List ℝ} (hf : t.flux.length = t.nsed)
    (hne : t.flux ≠ []) (hw : ∀ row ∈ t.flux, row.length = t.wave.length) (h : respRow lib g t n = .ok row) :
    ∃ o c, g n = some o ∧ o.curve = .ok c ∧ ProjRow lib c t row := by
  unfold respRow at h
  cases hg : g n with
  | none => rw [hg] at h; simp at h
  | some o =>
    simp only [hg, ok_bind] at h
    cases hc : o.curve with
    | error e => rw [hc] at h; simp at h
    | ok c =>
      rw [hc, ok_bind] at h
      refine ⟨o, c, rfl, hc, ?_⟩
      unfold ProjRow
      split at h
      · rename_i hi
        cases hp : projectSed lib c t with
        | error e => rw [hp] at h; simp at h
        | ok v =>
          rw [hp, ok_bind] at h
          rw [if_pos hi]
          exact ⟨v, rfl, storeRow_shape h (projectSed_shape hp)⟩
      · rename_i hi
        rw [if_neg hi]
        rw [C48_chunks lib c 1000 (by norm_num) t hne hw] at h
        cases hp : projectArr lib c t.wave (.arr [t.flux.length] t.wave.length t.flux) with
        | error e => rw [hp] at h; simp at h
        | ok v =>
          rw [hp, ok_bind] at h
          refine ⟨v, rfl, ?_⟩
          rw [← hf]
          apply storeRow_shape h
          rw [projectArr_real] at hp
          cases hm : mkInterp t.wave t.flux with
          | error e => rw [hm] at hp; cases hp
          | ok itp => rw [hm] at hp; cases hp; exact projectWith_shape _ _ _ _

/-- C44: at every redshift of the grid the interpolated matrix is exactly the matrix of projections of the templates, shifted to
that redshift, through the responses. -/
theorem C44_exact_at_grid (lib : Lib ℝ) (disk : Disk ℝ) (lo hi : ℝ) (n : Nat) (hlo : lo < hi) (hn : 2 ≤ n)
    (responses : List Name) (w w' : Shared ℝ) (A : AMat ℝ) (hne : w.sed.restFlux ≠ [])
    (hw : ∀ row ∈ w.sed.restFlux, row.length = w.sed.restWave.length)
    (h : calcAmatrix lib disk (redshiftGrid lo hi n) responses w = (w', .ok A)) (z : ℝ) (hz : z ∈ redshiftGrid lo hi n) :
    ∃ M t, A.at z = .ok M ∧ M.length = responses.length ∧ w.sed.setRedshift z = (t, .ok ()) ∧
      ∀ (i : Nat) name row, responses[i]? = some name → M[i]? = some row →
        ∃ o c, w'.reg name = some o ∧ o.curve = .ok c ∧ ProjRow lib c t row := by
  obtain ⟨hlen, _, _, hp, _⟩ := C43_grid lo hi n hlo hn
  obtain ⟨_, _, ms, hmk, hall⟩ := calcAmatrix_ok h
  have hfields : ∀ z t, w.sed.setRedshift z = (t, .ok ()) → t.flux.length = t.nsed ∧ t.flux ≠ [] ∧
      (∀ row ∈ t.flux, row.length = t.wave.length) ∧ t.nsed = w.sed.nsed := by
    intro z t ht
    obtain ⟨h1, h2, h3, h4, _⟩ := setRedshift_fields w.sed z
    rw [ht] at h1 h2 h3 h4
    simp only at h1 h2 h3 h4
    refine ⟨by rw [h4, Sed.nsed, h2]; simp, by rw [h4]; simpa using hne, ?_, by rw [Sed.nsed, Sed.nsed, h2]⟩
    intro row hrow
    rw [h4] at hrow
    obtain ⟨r0, hr0, rfl⟩ := List.mem_map.mp hrow
    rw [h3]; simp [hw r0 hr0]
  have hshape : ∀ M ∈ ms, Shaped responses.length w.sed.nsed M := by
    intro M hM
    obtain ⟨i, hi, rfl⟩ := List.mem_iff_getElem.mp hM
    have := (List.forall₂_iff_get.mp hall).2 i (by rw [hall.length_eq]; exact hi) hi
    obtain ⟨t, ht, hrow⟩ := this
    obtain ⟨hf, _, _, hns⟩ := hfields _ t ht
    rw [mapM_ok_iff] at hrow
    refine ⟨hrow.length_eq.symm, ?_⟩
    intro row hr
    obtain ⟨j, hj, rfl⟩ := List.mem_iff_getElem.mp hr
    have := (List.forall₂_iff_get.mp hrow).2 j (by rw [hrow.length_eq]; exact hj) hj
    rw [← hns]
    exact respRow_length hf this
  obtain ⟨k, hk, hkz⟩ := List.mem_iff_getElem.mp hz
  have hk' : k < ms.length := by rw [← hall.length_eq]; exact hk
  have hat := mkAMat_node hmk (hp.imp ne_of_lt) (by omega) hshape (k := k) (z := z) (M := ms[k])
    (by rw [List.getElem?_eq_getElem hk, hkz]) (List.getElem?_eq_getElem hk')
  obtain ⟨t, ht, hrow⟩ := (List.forall₂_iff_get.mp hall).2 k hk hk'
  simp only [List.get_eq_getElem] at ht hrow
  rw [hkz] at ht
  obtain ⟨hf, hfn, hfw, _⟩ := hfields _ t ht
  rw [mapM_ok_iff] at hrow
  refine ⟨ms[k], t, hat, hrow.length_eq.symm, ht, ?_⟩
  intro i name row hi hr
  obtain ⟨hi1, hi2⟩ := List.getElem?_eq_some_iff.mp hi
  obtain ⟨hr1, hr2⟩ := List.getElem?_eq_some_iff.mp hr
  have := (List.forall₂_iff_get.mp hrow).2 i hi1 hr1
  simp only [List.get_eq_getElem, hi2, hr2] at this
  exact respRow_proj hf hfn hfw this

/-! ### C45 -/

/-- C45: at a redshift in range every entry lies between the entries at two neighbouring grid redshifts that bracket it. -/
theorem C45_bracketed (A : AMat ℝ) (hA : A.Good) (q : ℝ) (hq : InRange A.x q) :
    ∃ M k zlo zhi Mlo Mhi, A.at q = .ok M ∧ A.x[k]? = some zlo ∧ A.x[k + 1]? = some zhi ∧ zlo ≤ q ∧ q ≤ zhi ∧
      A.at zlo = .ok Mlo ∧ A.at zhi = .ok Mhi ∧
      ∀ r j : Nat, ∀ v, (M[r]?).bind (fun row => row[j]?) = some v →
        ∃ a b, (Mlo[r]?).bind (fun row => row[j]?) = some a ∧ (Mhi[r]?).bind (fun row => row[j]?) = some b ∧
          min a b ≤ v ∧ v ≤ max a b := by
  obtain ⟨h1, h2, h3, h4⟩ := bracket_idx hA.incr hA.two hq
  have hat := at_in hA.ne hq
  set k := clipIdx A.x.length (searchLeft A.x q) with hkdef
  have hk1 : k - 1 < A.x.length := by omega
  have hx : ∀ i, i < A.x.length → A.x[i]? = some (ent A.x i) := by
    intro i hi; simp [ent, List.getD, hi]
  refine ⟨_, k - 1, ent A.x (k - 1), ent A.x k, _, _, hat, hx _ hk1, ?_, h3, h4, at_node hA hk1, at_node hA h2, ?_⟩
  · have : k - 1 + 1 = k := by omega
    rw [this]; exact hx _ h2
  · intro r j v hv
    rw [linBetween_entry] at hv
    cases ha : ((A.ys.getD (k - 1) [])[r]?).bind (fun row => row[j]?) with
    | none => rw [ha] at hv; simp at hv
    | some a =>
      rw [ha] at hv
      cases hb : ((A.ys.getD k [])[r]?).bind (fun row => row[j]?) with
      | none => rw [hb] at hv; simp at hv
      | some b =>
        rw [hb] at hv
        simp only [Option.bind_some, Option.map_some, Option.some.injEq] at hv
        refine ⟨a, b, rfl, rfl, ?_⟩
        rw [← hv]
        exact linEntry_between (ent_lt hA.incr (by omega) h2) h3 h4

/-- C45, nonnegative projections interpolate to nonnegative entries. -/
theorem C45_nonneg (A : AMat ℝ) (hA : A.Good) (hpos : ∀ M ∈ A.ys, ∀ row ∈ M, ∀ v ∈ row, 0 ≤ v) (q : ℝ) (M : List (List ℝ))
    (hM : A.at q = .ok M) : ∀ row ∈ M, ∀ v ∈ row, 0 ≤ v := by
  have hq := (at_ok_iff hA.ne).mp ⟨M, hM⟩
  obtain ⟨M', k, zlo, zhi, Mlo, Mhi, h1, hk, hk1, _, _, hlo, hhi, hb⟩ := C45_bracketed A hA q hq
  rw [h1] at hM; cases hM
  have hget : ∀ (i : Nat) z N, A.x[i]? = some z → A.at z = .ok N → ∀ row ∈ N, ∀ v ∈ row, 0 ≤ v := by
    intro i z N hi hN
    have hil : i < A.x.length := (List.getElem?_eq_some_iff.mp hi).1
    have := at_node hA hil
    rw [ent_eq hi] at this
    rw [this] at hN; cases hN
    apply hpos
    rw [getD_lt (by rw [hA.len]; exact hil)]
    exact List.getElem_mem _
  intro row hrow v hv
  obtain ⟨r, hr, rfl⟩ := List.mem_iff_getElem.mp hrow
  obtain ⟨j, hj, rfl⟩ := List.mem_iff_getElem.mp hv
  obtain ⟨a, b, ha, hb', h5, _⟩ := hb r j M[r][j] (by rw [List.getElem?_eq_getElem hr, Option.bind_some, List.getElem?_eq_getElem hj])
  have mem : ∀ (N : List (List ℝ)) x, (N[r]?).bind (fun row => row[j]?) = some x → ∃ row ∈ N, x ∈ row := by
    intro N x hx
    cases hN : N[r]? with
    | none => rw [hN] at hx; simp at hx
    | some row0 =>
      rw [hN] at hx
      exact ⟨row0, List.mem_of_getElem? hN, List.mem_of_getElem? hx⟩
  obtain ⟨ra, hra, ha'⟩ := mem _ _ ha
  obtain ⟨rb, hrb, hb''⟩ := mem _ _ hb'
  exact le_trans (le_min (hget k zlo Mlo hk hlo ra hra a ha') (hget (k + 1) zhi Mhi hk1 hhi rb hrb b hb'')) h5

/-- Not vacuous: three nodes, one band, two templates. -/
theorem demoA_good : (⟨[0, 1, 3], [[[1, 2]], [[2, 0]], [[0, 4]]], 1, 2⟩ : AMat ℝ).Good :=
  ⟨by norm_num, by simp, by simp, by simp [Shaped]⟩

example : ∃ A : AMat ℝ, A.Good ∧ InRange A.x 2 ∧ ∀ M ∈ A.ys, ∀ row ∈ M, ∀ v ∈ row, 0 ≤ v :=
  ⟨_, demoA_good, by norm_num [InRange], by simp⟩

/-! ### C47 -/

/-- A history of matrix builds (grid and responses), by any number of fitters, on one shared template set and registry.
Builds that raise are included: the caller may catch the exception. -/
def builds {α : Type} [Arith α] (lib : Lib α) (disk : Disk α) (w : Shared α) (l : List (List α × List Name)) : Shared α :=
  l.foldl (fun w p => (calcAmatrix lib disk p.1 p.2 w).1) w

theorem builds_rest {α : Type} [Arith α] (lib : Lib α) (disk : Disk α) (l : List (List α × List Name)) : ∀ w : Shared α,
    SameRest w.sed (builds lib disk w l).sed := by
  induction l with
  | nil => intro w; exact SameRest.refl _
  | cons p t ih =>
    intro w
    exact (calcAmatrix_rest lib disk p.1 p.2 w).trans (ih _)

/-- C47, any arithmetic: after any history of builds followed by one that returns, the template object is what `set_redshift(0)`
makes of it. -/
theorem C47_restored {α : Type} [Arith α] (lib : Lib α) (disk : Disk α) (w w' : Shared α) (l : List (List α × List Name))
    (zs : List α) (rs : List Name) (A : AMat α) (h : calcAmatrix lib disk zs rs (builds lib disk w l) = (w', .ok A)) :
    w.sed.setRedshift (lit 0) = (w'.sed, .ok ()) :=
  (builds_rest lib disk l w).setRedshift _ (calcAmatrix_ok h).2.1

/-- C47 over the reals: wavelengths and fluxes are those of the rest frame, and the interpolator is that of the rest frame. -/
theorem C47_rest_frame (lib : Lib ℝ) (disk : Disk ℝ) (w w' : Shared ℝ) (l : List (List ℝ × List Name))
    (zs : List ℝ) (rs : List Name) (A : AMat ℝ) (h : calcAmatrix lib disk zs rs (builds lib disk w l) = (w', .ok A)) :
    w'.sed.redshift = 0 ∧ w'.sed.restWave = w.sed.restWave ∧ w'.sed.restFlux = w.sed.restFlux ∧
    w'.sed.wave = w.sed.restWave ∧ w'.sed.flux = w.sed.restFlux ∧
    (w.sed.interpolate = true → ∃ i, mkInterp w.sed.restWave w.sed.restFlux = .ok i ∧ w'.sed.interp = some i) := by
  have h0 := C47_restored lib disk w w' l zs rs A h
  obtain ⟨h1, h2, h3, h4, h5, _⟩ := setRedshift_fields w.sed (lit 0)
  have hon := setRedshift_interp_on w.sed (lit 0)
  rw [h0] at h1 h2 h3 h4 h5 hon
  simp only [real_lit, Rat.cast_zero, Rat.cast_one, add_zero, mul_one, div_one, List.map_id', List.map_id_fun', id_eq] at h3 h4 h5
  have h3' : w'.sed.wave = w.sed.restWave := by simpa using h3
  have h4' : w'.sed.flux = w.sed.restFlux := by simpa using h4
  refine ⟨h5, h1, h2, h3', h4', ?_⟩
  intro hi
  obtain ⟨ho, he⟩ := hon hi
  simp only [h3', h4'] at ho he
  cases hm : mkInterp w.sed.restWave w.sed.restFlux with
  | ok i => exact ⟨i, rfl, (ho i hm).2⟩
  | error e => have := (he e hm).1; cases this

/-- C47, the failing build: when a response in the registry is incomplete (left by an earlier failed load) the build raises and
the shared templates stay at the first grid redshift. -/
theorem C47_failed_build_shifted : ∃ (lib : Lib ℝ) (disk : Disk ℝ) (w w' : Shared ℝ) (zs : List ℝ) (rs : List Name) (e : PyErr),
    w.sed.redshift = 0 ∧ w.sed.wave = w.sed.restWave ∧ calcAmatrix lib disk zs rs w = (w', .error e) ∧
    w'.sed.redshift = 1 ∧ w'.sed.wave ≠ w'.sed.restWave := by
  let s : Sed ℝ := ⟨[1, 2, 3, 4], [[1, 1, 1, 1]], [1, 2, 3, 4], [[1, 1, 1, 1]], 0, false, none, false⟩
  have h : calcAmatrix demoLib (fun _ => .error .valueError) [1, 2] [['x']] ⟨fun _ => some RespObj.empty, s⟩ =
      (⟨fun _ => some RespObj.empty, (s.setRedshift 1).1⟩, .error .typeError) := by
    unfold calcAmatrix
    simp only [loadMissing, loadResponse, Option.isSome_some, Bool.not_false, Bool.and_self, if_true]
    unfold gridLoop
    have : s.setRedshift 1 = ((s.setRedshift 1).1, .ok ()) := by simp [Sed.setRedshift, s]
    rw [this]
    simp only [List.mapM_cons, respRow, ok_bind]
    simp [RespObj.curve, RespObj.empty]
  refine ⟨demoLib, _, ⟨_, s⟩, _, _, _, _, rfl, rfl, h, ?_, ?_⟩
  · simp [Sed.setRedshift, s]
  · simp [Sed.setRedshift, s]

/-! ### C93: building succeeds on valid input -/

/-- C93: with loadable responses, increasing template wavelengths (four or more), fluxes of matching length and a grid
above redshift -1, the matrix is built. -/
theorem C93_build_succeeds (lib : Lib ℝ) (disk : Disk ℝ) (zs : List ℝ) (responses : List Name) (w : Shared ℝ)
    (hz : ∀ z ∈ zs, -1 < z) (hwv : w.sed.restWave.Pairwise (· < ·)) (h4 : 4 ≤ w.sed.restWave.length)
    (hfl : ∀ row ∈ w.sed.restFlux, row.length = w.sed.restWave.length) (hne : w.sed.restFlux ≠ [])
    (hr : ∀ n ∈ responses, (∃ o, w.reg n = some o ∧ Complete lib o) ∨ (w.reg n = none ∧ ∃ R, FileGives lib disk n R)) :
    ∃ w' A, calcAmatrix lib disk zs responses w = (w', .ok A) ∧ A.nrow = responses.length ∧ A.ncol = w.sed.nsed ∧
      (∀ z, z ∈ A.x ↔ z ∈ zs) := by
  obtain ⟨g', hl, _, hcomp⟩ := loadMissing_spec lib disk responses w.reg hr
  -- interpolators exist at every redshift
  have hmk : ∀ z, -1 < z → mkInterp (w.sed.restWave.map (fun w => w * (1 + z)))
      (w.sed.restFlux.map (List.map (fun f => f / (1 + z)))) =
      .ok ⟨w.sed.restWave.map (fun w => w * (1 + z)), w.sed.restFlux.map (List.map (fun f => f / (1 + z)))⟩ := by
    intro z hz
    apply mkInterp_strict
    · rw [List.pairwise_map]
      exact hwv.imp (fun h => mul_lt_mul_of_pos_right h (by linarith))
    · simpa using h4
    · intro row hrow
      obtain ⟨r0, hr0, rfl⟩ := List.mem_map.mp hrow
      simp [hfl r0 hr0]
  have hset : ∀ (s : Sed ℝ) z, SameRest w.sed s → -1 < z → ∃ t, s.setRedshift z = (t, .ok ()) ∧ SameRest w.sed t ∧
      t.wave = w.sed.restWave.map (fun w => w * (1 + z)) ∧
      t.flux = w.sed.restFlux.map (List.map (fun f => f / (1 + z))) ∧
      (t.interpolate = true → ∃ i, t.interp = some i ∧ i.ys.length = t.nsed) := by
    intro s z hs hz
    obtain ⟨h1, h2, h3, h4', h5, h6, h7⟩ := setRedshift_fields s z
    have hsr := hs.trans (sameRest_setRedshift s z)
    rw [hs.wave] at h3
    rw [hs.flux] at h4'
    simp only [real_lit, Rat.cast_one] at h3 h4'
    cases hi : s.interpolate with
    | false =>
      refine ⟨(s.setRedshift z).1, ?_, hsr, h3, h4', ?_⟩
      · exact Prod.ext rfl (setRedshift_interp_off s z hi).2
      · intro h; rw [h6, hi] at h; cases h
    | true =>
      have := (setRedshift_interp_on s z hi).1 _ (by rw [h3, h4']; exact hmk z hz)
      refine ⟨(s.setRedshift z).1, Prod.ext rfl this.1, hsr, h3, h4', fun _ => ⟨_, this.2, ?_⟩⟩
      simp [Sed.nsed, h2, hs.flux]
  have hrow : ∀ (t : Sed ℝ) z, -1 < z → SameRest w.sed t → t.wave = w.sed.restWave.map (fun w => w * (1 + z)) →
      t.flux = w.sed.restFlux.map (List.map (fun f => f / (1 + z))) →
      (t.interpolate = true → ∃ i, t.interp = some i ∧ i.ys.length = t.nsed) →
      ∃ M, responses.mapM (respRow lib g' t) = .ok M := by
    intro t z hz hs htw htf hint
    have hone : ∀ n ∈ responses, ∃ row, respRow lib g' t n = .ok row := by
      intro n hn
      obtain ⟨o, ho, w0, r0, R, hR, rfl⟩ := hcomp n hn
      unfold respRow
      simp only [ho, RespObj.curve, RespObj.full, ok_bind]
      cases hi : t.interpolate with
      | true =>
        obtain ⟨i, hii, hlen⟩ := hint hi
        simp only [if_true, projectSed, hii, ok_bind]
        unfold projectWith
        cases projGrid t.wave R.wave with
        | none => exact ⟨_, rfl⟩
        | some grid =>
          simp only
          have := storeRow_projOnGrid grid (i.eval lib grid) (grid.map (Curve.at lib ⟨R.wave, R.resp, R.itp⟩))
          simp only [Interp.eval, List.length_map, hlen] at this
          exact ⟨_, this⟩
      | false =>
        simp only [Bool.false_eq_true, if_false]
        have hflen : ∀ row ∈ t.flux, row.length = t.wave.length := by
          intro row hrow
          rw [htf] at hrow
          obtain ⟨r1, hr1, rfl⟩ := List.mem_map.mp hrow
          rw [htw]; simp [hfl r1 hr1]
        rw [C48_chunks lib _ 1000 (by norm_num) t (by rw [htf]; simpa using hne) hflen, projectArr_real, htw, htf, hmk z hz]
        simp only [Except.map, ok_bind]
        unfold projectWith
        cases projGrid (w.sed.restWave.map (fun w => w * (1 + z))) R.wave with
        | none => exact ⟨_, rfl⟩
        | some grid =>
          simp only
          have := storeRow_projOnGrid grid (Interp.eval lib ⟨w.sed.restWave.map (fun w => w * (1 + z)),
            w.sed.restFlux.map (List.map (fun f => f / (1 + z)))⟩ grid) (grid.map (Curve.at lib ⟨R.wave, R.resp, R.itp⟩))
          simp only [Interp.eval, List.length_map] at this
          simp only [List.length_map]
          exact ⟨_, this⟩
    have : ∃ M, List.Forall₂ (fun a b => respRow lib g' t a = .ok b) responses M := by
      clear hcomp hl hr
      induction responses with
      | nil => exact ⟨[], .nil⟩
      | cons a l ih =>
        obtain ⟨M, hM⟩ := ih (fun n hn => hone n (List.mem_cons_of_mem _ hn))
        obtain ⟨row, hrow⟩ := hone a (List.mem_cons_self)
        exact ⟨row :: M, .cons hrow hM⟩
    obtain ⟨M, hM⟩ := this
    exact ⟨M, mapM_ok hM⟩
  have hloop : ∀ (l : List ℝ) (s : Sed ℝ), (∀ z ∈ l, -1 < z) → SameRest w.sed s →
      ∃ s' ms, gridLoop lib g' responses l s = (s', .ok ms) ∧ ms.length = l.length ∧ SameRest w.sed s' := by
    intro l
    induction l with
    | nil => intro s _ hs; exact ⟨s, [], rfl, rfl, hs⟩
    | cons z l ih =>
      intro s hl' hs
      obtain ⟨t, ht, hst, h1, h2, h3⟩ := hset s z hs (hl' z (List.mem_cons_self))
      obtain ⟨M, hM⟩ := hrow t z (hl' z (List.mem_cons_self)) hst h1 h2 h3
      obtain ⟨s', ms, hg, hlen, hs'⟩ := ih t (fun y hy => hl' y (List.mem_cons_of_mem _ hy)) hst
      refine ⟨s', M :: ms, ?_, by simp [hlen], hs'⟩
      unfold gridLoop
      simp only [ht, hM, hg]
  obtain ⟨s', ms, hg, hlen, hs'⟩ := hloop zs w.sed hz (SameRest.refl _)
  obtain ⟨t, ht, _⟩ := hset s' 0 hs' (by norm_num)
  have hmkA : mkAMat zs ms responses.length w.sed.nsed =
      .ok ⟨gather zs (argsort zs), (argsort zs).map (fun i => ms.getD i []), responses.length, w.sed.nsed⟩ := by
    unfold mkAMat; rw [if_pos hlen.symm]
  refine ⟨⟨g', t⟩, ⟨gather zs (argsort zs), (argsort zs).map (fun i => ms.getD i []), responses.length, w.sed.nsed⟩, ?_, rfl, rfl,
    fun z => (gather_perm zs).mem_iff⟩
  unfold calcAmatrix
  simp only [hl, hg, hmkA]
  have ht' : s'.setRedshift (lit 0) = (t, .ok ()) := by simpa using ht
  rw [ht']

/-- A shared state with one response on disk and two templates. -/
noncomputable def demoShared : Shared ℝ :=
  ⟨fun _ => none, ⟨[1, 2, 3, 4], [[1, 1, 1, 1], [1, 2, 3, 4]], [1, 2, 3, 4], [[1, 1, 1, 1], [1, 2, 3, 4]], 0, false, none, false⟩⟩

/-- Not vacuous (C44, C47, C93): a build on the grid of ten redshifts from 0 to 2 that returns. -/
theorem demo_build : ∃ w' A, calcAmatrix demoLib demoDisk (redshiftGrid 0 2 10) [['x']] demoShared = (w', .ok A) := by
  obtain ⟨w', A, h, _⟩ := C93_build_succeeds demoLib demoDisk (redshiftGrid 0 2 10) [['x']] demoShared
    (by
      intro z hz
      simp only [redshiftGrid, List.mem_map, List.mem_range] at hz
      obtain ⟨i, _, rfl⟩ := hz
      simp only [real_f32, real_lit]
      push_cast
      have : (0 : ℝ) ≤ (2 - 0) * (i : ℝ) / ((10 : ℝ) - 1) := div_nonneg (by positivity) (by norm_num)
      linarith)
    (by simp [demoShared]; norm_num) (by simp [demoShared]) (by simp [demoShared]) (by simp [demoShared])
    (by
      intro n hn
      simp only [List.mem_singleton] at hn
      subst hn
      exact Or.inr ⟨rfl, demo_file⟩)
  exact ⟨w', A, h⟩

example : ∃ w' A, calcAmatrix demoLib demoDisk (redshiftGrid 0 2 10) [['x']] demoShared = (w', .ok A) := demo_build

end KC
