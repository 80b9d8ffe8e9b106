import Verif.Props.KInit
import Verif.Props.KFiles
import Verif.Props.Basis

/-! The matrices of a constructed object in terms of projections of spectra. -/

namespace KC
open Spec

theorem loadMissing_keeps (lib : Lib ℝ) (disk : Disk ℝ) : ∀ (l : List Name) (g : Reg ℝ) (m : Name), (g m).isSome →
    (loadMissing lib disk l g).1 m = g m := by
  intro l
  induction l with
  | nil => intro g m _; rfl
  | cons a t ih =>
    intro g m hm
    unfold loadMissing
    have h1 : (loadResponse lib disk a false g).1 m = g m := by
      by_cases e : m = a
      · subst e
        rw [loadResponse_cached lib disk m g hm]
      · exact loadResponse_other lib disk a m false g e
    cases hl : loadResponse lib disk a false g with
    | mk g1 r =>
      rw [hl] at h1
      cases r with
      | error e => exact h1
      | ok u =>
        simp only at h1
        rw [ih g1 m (by rw [h1]; exact hm), h1]

/-- What the matrix interpolator of the responses `rs` and the templates with rest-frame arrays `W`, `Y` is: on the grid `zs` every row is made of
projections of the single templates. -/
structure Nodes (lib : Lib ℝ) (W : List ℝ) (Y : List (List ℝ)) (zs : List ℝ) (rs : List Name) (g : Reg ℝ) (A : AMat ℝ) : Prop where
  good : A.Good
  rows : A.nrow = rs.length
  cols : A.ncol = Y.length
  x : A.x = zs
  node : ∀ z ∈ zs, ∃ M, A.at z = .ok M ∧ M.length = rs.length ∧ ∀ (i : Nat) n, rs[i]? = some n → ∃ o c itp, g n = some o ∧
    o.curve = .ok c ∧ mkInterp (W.map (fun v => v * (1 + z))) (Y.map (List.map (fun f => f / (1 + z)))) = .ok itp ∧
    M[i]? = some (Y.map (cell lib c W z))

theorem calc_nodes {lib : Lib ℝ} {disk : Disk ℝ} {lo hi : ℝ} {n : Nat} (hlo : lo < hi) (hn : 2 ≤ n) {rs : List Name} {w w' : Shared ℝ}
    {A : AMat ℝ} (hne : w.sed.restFlux ≠ []) (hw : ∀ row ∈ w.sed.restFlux, row.length = w.sed.restWave.length)
    (h : calcAmatrix lib disk (redshiftGrid lo hi n) rs w = (w', .ok A)) :
    Nodes lib w.sed.restWave w.sed.restFlux (redshiftGrid lo hi n) rs w'.reg A := by
  obtain ⟨hl, _, _, hp, _⟩ := C43_grid lo hi n hlo hn
  obtain ⟨_, _, ms, hmk, hall⟩ := calcAmatrix_ok h
  have hcell : ∀ k (hk : k < ms.length) (hz : k < (redshiftGrid lo hi n).length), (ms[k]).length = rs.length ∧ ∀ (i : Nat) nm, rs[i]? = some nm →
      ∃ o c itp, w'.reg nm = some o ∧ o.curve = .ok c ∧
        mkInterp (w.sed.restWave.map (fun v => v * (1 + (redshiftGrid lo hi n)[k]))) (w.sed.restFlux.map (List.map (fun f => f / (1 + (redshiftGrid lo hi n)[k])))) = .ok itp ∧
        (ms[k])[i]? = some (w.sed.restFlux.map (cell lib c w.sed.restWave (redshiftGrid lo hi n)[k])) := by
    intro k hk hz
    obtain ⟨t, ht, hM⟩ := (List.forall₂_iff_get.mp hall).2 k hz hk
    simp only [List.get_eq_getElem] at ht hM
    obtain ⟨h1, h2, h3, h4, h5, h6, _⟩ := setRedshift_ready hne hw ht
    rw [mapM_ok_iff] at hM
    refine ⟨hM.length_eq.symm, fun i nm hnm => ?_⟩
    obtain ⟨hi, hin⟩ := List.getElem?_eq_some_iff.mp hnm
    have hi' : i < (ms[k]).length := by rw [← hM.length_eq]; exact hi
    have := (List.forall₂_iff_get.mp hM).2 i hi hi'
    simp only [List.get_eq_getElem, hin] at this
    obtain ⟨o, c, itp, ho, hc, hit, hrow⟩ := (respRow_band1 h1 h2 h3 h4).mp this
    refine ⟨o, c, itp, ho, hc, by rw [← h5, ← h6]; exact hit, ?_⟩
    rw [List.getElem?_eq_getElem hi', hrow, h6, h5, List.map_map]
    rfl
  have hshape : ∀ M ∈ ms, Shaped rs.length w.sed.nsed M := by
    intro M hM
    obtain ⟨k, hk, rfl⟩ := List.mem_iff_getElem.mp hM
    obtain ⟨h1, h2⟩ := hcell k hk (by rw [hall.length_eq]; exact hk)
    refine ⟨h1, ?_⟩
    intro row hrow
    obtain ⟨i, hi, rfl⟩ := List.mem_iff_getElem.mp hrow
    obtain ⟨_, _, _, _, _, _, h3⟩ := h2 i _ (List.getElem?_eq_getElem (by rw [← h1]; exact hi))
    rw [List.getElem?_eq_getElem hi] at h3
    simp only [Option.some.injEq] at h3
    rw [h3]; simp [Sed.nsed]
  have hgood := (mkAMat_good hmk (hp.imp ne_of_lt) (by rw [hl]; exact hn) hshape).1
  have hxx : A.x = gather (redshiftGrid lo hi n) (argsort (redshiftGrid lo hi n)) ∧ A.nrow = rs.length ∧ A.ncol = w.sed.nsed := by
    have hm := hmk
    unfold mkAMat at hm
    split at hm
    · cases hm; exact ⟨rfl, rfl, rfl⟩
    · cases hm
  refine ⟨hgood, hxx.2.1, by rw [hxx.2.2, Sed.nsed], ?_, ?_⟩
  · rw [hxx.1, argsort_of_sorted _ (hp.imp le_of_lt), gather_range _ _ rfl]
  · intro z hz
    obtain ⟨k, hk, rfl⟩ := List.mem_iff_getElem.mp hz
    have hk' : k < ms.length := by rw [← hall.length_eq]; exact hk
    obtain ⟨h1, h2⟩ := hcell k hk' hk
    exact ⟨ms[k], mkAMat_node hmk (hp.imp ne_of_lt) (by rw [hl]; exact hn) hshape (List.getElem?_eq_getElem hk) (List.getElem?_eq_getElem hk'), h1, h2⟩

theorem Nodes.mono {lib : Lib ℝ} {W : List ℝ} {Y : List (List ℝ)} {zs : List ℝ} {rs : List Name} {g g' : Reg ℝ} {A : AMat ℝ}
    (h : Nodes lib W Y zs rs g A) (hg : ∀ n, (g n).isSome → g' n = g n) : Nodes lib W Y zs rs g' A := by
  refine ⟨h.good, h.rows, h.cols, h.x, fun z hz => ?_⟩
  obtain ⟨M, h1, h2, h3⟩ := h.node z hz
  refine ⟨M, h1, h2, fun i n hn => ?_⟩
  obtain ⟨o, c, itp, h4, h5, h6, h7⟩ := h3 i n hn
  exact ⟨o, c, itp, by rw [hg n (by rw [h4]; rfl)]; exact h4, h5, h6, h7⟩

/-- The matrices of an object made by the constructor. -/
theorem init_nodes {lib : Lib ℝ} {disk : Disk ℝ} {cls : Cls} {R : List Name} {T : Tpl ℝ} {out rmap : Option (List Name)} {lo hi : ℝ}
    {n : Nat} {ab : Bool} {dm : ℝ → ℝ} {w w' : Shared ℝ} {K : Kc ℝ} (hlo : lo < hi) (hn : 2 ≤ n) (hT : w.sed = T.toSed)
    (hne : T.toSed.restFlux ≠ []) (hlen : ∀ row ∈ T.toSed.restFlux, row.length = T.toSed.restWave.length)
    (h : Kc.init lib disk cls R T out rmap lo hi n ab dm w = (w', .ok K)) :
    ∃ A Ao, K.Amatrix = some A ∧ K.AmatrixOut = some Ao ∧ K.templates = T ∧ K.responses = R ∧ K.responsesOut = out.getD R ∧
      K.redshifts = redshiftGrid lo hi n ∧
      Nodes lib T.toSed.restWave T.toSed.restFlux (redshiftGrid lo hi n) R w'.reg A ∧
      Nodes lib T.toSed.restWave T.toSed.restFlux (redshiftGrid lo hi n) (out.getD R) w'.reg Ao := by
  obtain ⟨w1, A, hA, hF, h1, h2, hl, him, _, hO⟩ := init_ok h
  have hN := calc_nodes hlo hn (by rw [hT]; exact hne) (by rw [hT]; exact hlen) hA
  rw [hT] at hN
  have hK : K.Amatrix = some A ∧ K.templates = T ∧ K.responses = R ∧ K.redshifts = redshiftGrid lo hi n := by
    rw [hF]; exact ⟨rfl, rfl, rfl, rfl⟩
  obtain ⟨_, hs1, _⟩ := calcAmatrix_ok hA
  obtain ⟨f1, f2, _⟩ := setRedshift_fields w.sed (lit 0)
  rw [hs1] at f1 f2
  simp only at f1 f2
  rw [hT] at f1 f2
  rcases hO with ⟨ho, hAo, rfl⟩ | ⟨ho, Ao, hB, hAo⟩
  · exact ⟨A, A, hK.1, hAo, hK.2.1, hK.2.2.1, h1, hK.2.2.2, hN, by rw [ho]; exact hN⟩
  · have hN2 := calc_nodes hlo hn (by rw [f2]; exact hne) (by rw [f1, f2]; exact hlen) hB
    rw [f1, f2] at hN2
    obtain ⟨hld, _⟩ := calcAmatrix_ok hB
    refine ⟨A, Ao, hK.1, hAo, hK.2.1, hK.2.2.1, h1, hK.2.2.2, hN.mono ?_, hN2⟩
    intro m hm
    have := loadMissing_keeps lib disk (out.getD R) w1.reg m hm
    rw [hld] at this
    exact this

/-- Between two neighbouring nodes, ends included, the matrix is the straight line between them. -/
theorem at_cell {m : AMat ℝ} (h : m.Good) {k : Nat} (hk : k + 1 < m.x.length) {q : ℝ} (h1 : ent m.x k ≤ q) (h2 : q ≤ ent m.x (k + 1)) :
    m.at q = .ok (linBetween (ent m.x k) (ent m.x (k + 1)) q (m.ys.getD k []) (m.ys.getD (k + 1) [])) := by
  rcases eq_or_lt_of_le h1 with rfl | h1'
  · rw [at_node h (by omega), linBetween_lo (h.ys_shaped (by omega)) (h.ys_shaped hk)]
  · have hin : InRange m.x q := by
      have hne := h.ne
      refine ⟨?_, ?_⟩
      · rw [headD_eq_ent]; exact (ent_le h.incr (by omega) (by omega)).trans h1
      · rw [getLastD_eq_ent m.x hne]; exact h2.trans (ent_le h.incr (by omega) (by omega))
    have hs : searchLeft m.x q = k + 1 := by
      apply le_antisymm
      · by_contra hlt
        have := ent_before m.x q (i := k + 1) (by omega)
        exact absurd h2 (not_le.mpr this)
      · by_contra hlt
        have h3 := ent_at_search m.x q (by omega)
        have h4 := ent_le h.incr (i := searchLeft m.x q) (j := k) (by omega) (by omega)
        linarith
    have e : clipIdx m.x.length (k + 1) = k + 1 := by unfold clipIdx; omega
    rw [at_in h.ne hin, hs, e, Nat.add_sub_cancel]

end KC
