import Verif.Props.Basis

/-! Bands in another order; template interpolation switched on or off; the demonstration for these theorems. -/

namespace KC
open Spec

/-! ### C105: order of the bands -/

theorem sum_zip3 (m iv r : List ℝ) (n : Nat) (hm : m.length = n) (hiv : iv.length = n) (hr : r.length = n) :
    chi2 m iv r = ((List.range n).map (fun k => ent iv k * (ent m k - ent r k) ^ 2)).sum := by
  unfold chi2
  congr 1
  apply List.ext_getElem (by simp [hm, hiv, hr])
  intro i h1 h2
  have hi : i < n := by simpa using h2
  simp only [List.getElem_zipWith, List.getElem_map, List.getElem_range]
  rw [ent_some (by rw [hiv]; exact hi), ent_some (by rw [hm]; exact hi), ent_some (by rw [hr]; exact hi)]

/-- Chi-squared does not depend on the order of the bands. -/
theorem chi2_order (m iv r : List ℝ) (n : Nat) (hm : m.length = n) (hiv : iv.length = n) (hr : r.length = n) {idx : List Nat}
    (hp : idx.Perm (List.range n)) : chi2 (gather m idx) (gather iv idx) (gather r idx) = chi2 m iv r := by
  rw [sum_zip3 m iv r n hm hiv hr, ← (hp.map _).sum_eq]
  unfold chi2 gather
  rw [List.zipWith_map, List.zipWith_self, List.zipWith_map, List.zipWith_self]
  rfl

/-- `F2` has the responses of `F1` in the order `idx`; everything else is the same. -/
structure Reordered (F1 F2 : Fitter ℝ) (g1 g2 : Reg ℝ) (idx : List Nat) : Prop where
  order : idx.Perm (List.range F1.responses.length)
  resp : F2.responses = idx.map (fun k => F1.responses.getD k [])
  grid : F2.redshifts = F1.redshifts
  reg : ∀ n ∈ F1.responses, g1 n = g2 n
  wave : F2.templates.toSed.restWave = F1.templates.toSed.restWave
  flux : F2.templates.toSed.restFlux = F1.templates.toSed.restFlux

theorem reordered_matrix {lib : Lib ℝ} {F1 F2 G1 G2 : Fitter ℝ} {g1 g2 : Reg ℝ} (h1 : Built lib F1 G1 g1)
    (h2 : Built lib F2 G2 g2) {idx : List Nat} (hm : Reordered F1 F2 g1 g2 idx) :
    ∃ A1 A2, Ready G1 A1 ∧ Ready G2 A2 ∧ A2.x = A1.x ∧ G1.responses = F1.responses ∧ G2.responses.length = F1.responses.length ∧
      G1.templates.nsed = F1.templates.nsed ∧ G2.templates.nsed = F1.templates.nsed ∧
      ∀ q M1, A1.at q = .ok M1 → A2.at q = .ok (idx.map (fun k => M1.getD k [])) := by
  obtain ⟨A1, disk1, w1, w1', hR1, hG1, hw1, hg1, hc1, hx1⟩ := h1.ready
  obtain ⟨A2, disk2, w2, w2', hR2, hG2, hw2, hg2, hc2, hx2⟩ := h2.ready
  have hx : A2.x = A1.x := by rw [hx1, hx2, hm.grid]
  have hil : idx.length = F1.responses.length := by simpa using hm.order.length_eq
  have hr2 : F2.responses.length = F1.responses.length := by rw [hm.resp, List.length_map, hil]
  refine ⟨A1, A2, hR1, hR2, hx, by rw [hG1], by rw [hG2]; exact hr2, by rw [hG1], ?_, ?_⟩
  · rw [hG2]
    show F2.templates.nsed = _
    rw [Tpl.nsed, Sed.nsed, hm.flux]; rfl
  · intro q M1 hM1
    rw [hm.grid] at hc2
    have hs1 := at_shaped hR1.good hM1
    obtain ⟨M2, hM2⟩ := (at_ok_iff hR2.good.ne).mpr (by rw [hx]; exact (at_ok_iff hR1.good.ne).mp ⟨M1, hM1⟩ : InRange A2.x q)
    have hs2 := at_shaped hR2.good hM2
    rw [hM2]
    congr 1
    have l1 : M1.length = F1.responses.length := by rw [hs1.1, hR1.rows, hG1]
    have l2 : M2.length = F1.responses.length := by rw [hs2.1, hR2.rows, hG2]; exact hr2
    apply List.ext_getElem (by rw [List.length_map, hil, l2])
    intro i hi2 hi1
    have hi : i < idx.length := by simpa using hi1
    have hlt : idx[i] < F1.responses.length := List.mem_range.mp (hm.order.mem_iff.mp (List.getElem_mem hi))
    have hn1 := List.getElem?_eq_getElem hlt
    have hn2 : F2.responses[i]? = some F1.responses[idx[i]] := by
      rw [hm.resp, List.getElem?_map, List.getElem?_eq_getElem hi, Option.map_some, getD_lt hlt]
    obtain ⟨M2', row, e1, e2, _, e3⟩ := C103_row lib disk1 disk2 F1.redshifts F1.responses F2.responses w1 w1' w2 w2' A1 A2 hc1 hc2
      (by rw [hw1]; exact h1.ne) (by rw [hw1]; exact h1.len) (by rw [hw1, hw2]; exact hm.wave)
      (by rw [hw1, hw2]; exact hm.flux) idx[i] i _ hn1 hn2 (by rw [hg1, hg2]; exact hm.reg _ (List.getElem_mem _)) q M1 hM1
    rw [hM2] at e1
    cases e1
    rw [List.getElem?_eq_getElem hi2] at e3
    rw [List.getElem?_eq_getElem (by rw [l1]; exact hlt)] at e2
    simp only [Option.some.injEq] at e2 e3
    rw [e3, List.getElem_map, getD_lt (by rw [l1]; exact hlt), e2]

/-- C105: with the bands, and with them the columns of the photometry, in another order, the reconstructed maggies are the same in that order, at
every redshift and band shift (or both calls raise the same exception), and the same coefficients are optimal. -/
theorem C105_order (lib : Lib ℝ) (F1 F2 G1 G2 : Fitter ℝ) (g1 g2 : Reg ℝ) (h1 : Built lib F1 G1 g1) (h2 : Built lib F2 G2 g2) (idx : List Nat)
    (hm : Reordered F1 F2 g1 g2 idx) (z : ℝ) (c : List ℝ) (hc : c.length = F1.templates.nsed) :
    (∀ bs, (∃ r, G1.reconstruct (some (.scalar z)) (some (.vec c)) bs = .ok (.vec r) ∧ r.length = F1.responses.length ∧
        G2.reconstruct (some (.scalar z)) (some (.vec c)) bs = .ok (.vec (gather r idx))) ∨
      (∃ e, G1.reconstruct (some (.scalar z)) (some (.vec c)) bs = .error e ∧ G2.reconstruct (some (.scalar z)) (some (.vec c)) bs = .error e)) ∧
    ((∃ v, G1.reconstruct (some (.scalar z)) (some (.vec c)) 0 = .ok v) → ∀ m iv : List ℝ, m.length = F1.responses.length →
      iv.length = F1.responses.length → (Optimal G2 z (gather m idx) (gather iv idx) c ↔ Optimal G1 z m iv c)) := by
  obtain ⟨A1, A2, hR1, hR2, hx, r1, r2, n1, n2, hA⟩ := reordered_matrix h1 h2 hm
  have hlt : ∀ k ∈ idx, k < F1.responses.length := fun k hk => List.mem_range.mp (hm.order.mem_iff.mp hk)
  have hil : idx.length = F1.responses.length := by simpa using hm.order.length_eq
  have emap : ∀ (M1 : List (List ℝ)) (f : List ℝ → ℝ), M1.length = F1.responses.length →
      (idx.map (fun k => M1.getD k [])).map f = gather (M1.map f) idx := by
    intro M1 f hl
    unfold gather
    rw [List.map_map]
    apply List.map_congr_left
    intro k hk
    have := hlt k hk
    simp only [Function.comp_apply]
    rw [getD_lt (by rw [hl]; exact this), getD_lt (by rw [List.length_map, hl]; exact this), List.getElem_map]
  constructor
  · intro bs
    unfold Fitter.reconstruct
    rw [hR1.set, hR2.set, recon_scalar G2 A2 z c bs (by rw [n2]; exact hc), recon_scalar G1 A1 z _ bs (by rw [n1]; exact hc), map_f32_list]
    by_cases hin : InRange A1.x (shiftOf (f32 z) bs)
    · obtain ⟨M1, hM1⟩ := (at_ok_iff hR1.good.ne).mpr hin
      have l1 : M1.length = F1.responses.length := by rw [(at_shaped hR1.good hM1).1, hR1.rows, r1]
      rw [hA _ _ hM1, hM1]
      refine Or.inl ⟨reconRow bs M1 c, ?_, by rw [reconRow, List.length_map, l1], ?_⟩
      · simp only [Except.map, NDA.vec, hR1.rows, r1]
        rw [reconRow, List.length_map, l1]
      · simp only [Except.map, NDA.vec, hR2.rows, r2]
        rw [gather_length, hil]
        unfold reconRow
        rw [emap _ _ l1]
    · exact Or.inr ⟨.valueError, by rw [at_out hR1.good.ne hin]; rfl, by rw [at_out hR2.good.ne (by rw [hx]; exact hin)]; rfl⟩
  · intro hz m iv hml hivl
    have hin : InRange A1.x z := by
      by_contra hin
      obtain ⟨v, hv⟩ := hz
      unfold Fitter.reconstruct at hv
      rw [hR1.set, recon_scalar G1 A1 z _ 0 (by rw [n1]; exact hc)] at hv
      have e : shiftOf (f32 z) 0 = z := by rw [real_f32, shiftOf_real]; ring
      rw [e, at_out hR1.good.ne hin] at hv
      cases hv
    obtain ⟨M1, hM1⟩ := (at_ok_iff hR1.good.ne).mpr hin
    have l1 : M1.length = F1.responses.length := by rw [(at_shaped hR1.good hM1).1, hR1.rows, r1]
    have echi : ∀ y : List ℝ, chi2 (gather m idx) (gather iv idx) (mulVec (idx.map (fun k => M1.getD k [])) y) = chi2 m iv (mulVec M1 y) := by
      intro y
      unfold mulVec
      rw [emap _ _ l1]
      exact chi2_order m iv _ _ hml hivl (by simpa using l1) hm.order
    rw [optimal_iff hR1 hM1, optimal_iff hR2 (hA _ _ hM1), n1, n2]
    simp only [echi]

/-! ### C106: template interpolation on or off -/

theorem SameRest.symm {α : Type} [Arith α] {s t : Sed α} (h : SameRest s t) : SameRest t s :=
  ⟨h.wave.symm, h.flux.symm, h.ip.symm, h.bi.symm, fun h0 => (h.off (h.ip.symm.trans h0)).symm⟩

theorem gridLoop_of {α : Type} [Arith α] (lib : Lib α) (g : Reg α) (rs : List Name) : ∀ (zs : List α) (ms : List (List (List α))) (s : Sed α),
    List.Forall₂ (fun z M => ∃ t, s.setRedshift z = (t, .ok ()) ∧ rs.mapM (respRow lib g t) = .ok M) zs ms →
    ∃ s', gridLoop lib g rs zs s = (s', .ok ms) ∧ SameRest s s'
  | _, _, s, .nil => ⟨s, rfl, SameRest.refl s⟩
  | z :: zs, M :: ms, s, .cons ⟨t, ht, hM⟩ h => by
    have hst : SameRest s t := by have := sameRest_setRedshift s z; rwa [ht] at this
    obtain ⟨s', hs', hr⟩ := gridLoop_of lib g rs zs ms t (h.imp (fun z' M' ⟨t', h1, h2⟩ => ⟨t', hst.symm.setRedshift z' h1, h2⟩))
    refine ⟨s', ?_, hst.trans hr⟩
    unfold gridLoop
    rw [ht]
    simp only [hM, hs']

theorem calc_of {α : Type} [Arith α] {lib : Lib α} {disk : Disk α} {zs : List α} {rs : List Name} {w : Shared α} {g' : Reg α} {s0 : Sed α}
    {A : AMat α} {ms : List (List (List α))} (hl : loadMissing lib disk rs w.reg = (g', .ok ())) (h0 : w.sed.setRedshift (lit 0) = (s0, .ok ()))
    (hm : mkAMat zs ms rs.length w.sed.nsed = .ok A)
    (hall : List.Forall₂ (fun z M => ∃ t, w.sed.setRedshift z = (t, .ok ()) ∧ rs.mapM (respRow lib g' t) = .ok M) zs ms) :
    calcAmatrix lib disk zs rs w = (⟨g', s0⟩, .ok A) := by
  obtain ⟨s', hs', hr⟩ := gridLoop_of lib g' rs zs ms w.sed hall
  unfold calcAmatrix
  simp only [hl, hs', hm, hr.symm.setRedshift _ h0]

/-- The same templates with `interpolate` set to `b` (and whatever interpolator `i` is left in the object). -/
def Sed.withInterp (s : Sed ℝ) (b : Bool) (i : Option (Interp ℝ)) : Sed ℝ := { s with interpolate := b, interp := i }

theorem nodup_gather {x : List ℝ} : noDup (gather x (argsort x)) = true ↔ x.Nodup := by
  rw [noDup_iff _ (gather_sorted x), ← (gather_perm x).nodup_iff]
  constructor
  · intro h; exact h.imp ne_of_lt
  · intro h
    have hp := gather_sorted x
    exact List.pairwise_iff_getElem.mpr (fun i j hi hj hij =>
      lt_of_le_of_ne (List.pairwise_iff_getElem.mp hp i j hi hj hij)
        (fun e => by have := (List.Nodup.getElem_inj_iff h).mp e; omega))

/-- C106: on a nonempty grid, for one or more responses, the construction with template interpolation returns exactly if the construction without
it returns, and the matrices are the same. -/
theorem C106_interpolation (lib : Lib ℝ) (disk : Disk ℝ) (zs : List ℝ) (hz : zs ≠ []) (rs : List Name) (hrs : rs ≠ []) (g : Reg ℝ) (s : Sed ℝ)
    (hne : s.restFlux ≠ []) (hw : ∀ row ∈ s.restFlux, row.length = s.restWave.length) (i j : Option (Interp ℝ)) (A : AMat ℝ) :
    (∃ w', calcAmatrix lib disk zs rs ⟨g, s.withInterp true i⟩ = (w', .ok A)) ↔
      (∃ w', calcAmatrix lib disk zs rs ⟨g, s.withInterp false j⟩ = (w', .ok A)) := by
  have key : ∀ (b b' : Bool) (i i' : Option (Interp ℝ)), (∃ w', calcAmatrix lib disk zs rs ⟨g, s.withInterp b i⟩ = (w', .ok A)) →
      ∃ w', calcAmatrix lib disk zs rs ⟨g, s.withInterp b' i'⟩ = (w', .ok A) := by
    rintro b b' i i' ⟨w', h⟩
    obtain ⟨hl, h0, ms, hm, hall⟩ := calcAmatrix_ok h
    -- the interpolators exist at every redshift of the grid
    have hmk : ∀ z ∈ zs, ∃ itp, mkInterp (s.restWave.map (fun v => v * (1 + z))) (s.restFlux.map (List.map (fun f => f / (1 + z)))) = .ok itp := by
      intro z hz
      obtain ⟨k, hk, rfl⟩ := List.mem_iff_getElem.mp hz
      obtain ⟨t, ht, hM⟩ := (List.forall₂_iff_get.mp hall).2 k hk (by rw [← hall.length_eq]; exact hk)
      simp only [List.get_eq_getElem] at ht hM
      obtain ⟨h1, h2, h3, h4, h5, h6, _⟩ := setRedshift_ready (s := s.withInterp b i) hne hw ht
      rw [mapM_ok_iff] at hM
      obtain ⟨n, rs', rfl⟩ := List.exists_cons_of_ne_nil hrs
      cases hM' : ms[k]'(by rw [← hall.length_eq]; exact hk) with
      | nil => rw [hM'] at hM; cases hM
      | cons row rows =>
        rw [hM'] at hM
        cases hM with
        | cons a _ =>
          obtain ⟨_, _, itp, _, _, hi, _⟩ := (respRow_band1 h1 h2 h3 h4).mp a
          rw [h5, h6] at hi
          exact ⟨itp, hi⟩
    have hset : ∀ z, (∃ itp, mkInterp (s.restWave.map (fun v => v * (1 + z))) (s.restFlux.map (List.map (fun f => f / (1 + z)))) = .ok itp) →
        ∃ t, (s.withInterp b' i').setRedshift z = (t, .ok ()) := by
      rintro z ⟨itp, hi⟩
      unfold Sed.setRedshift Sed.setInterp Sed.withInterp
      simp only [real_lit, Rat.cast_one, hi]
      cases b' <;> exact ⟨_, rfl⟩
    obtain ⟨z0, zs', hzs⟩ := List.exists_cons_of_ne_nil hz
    have hmk0 : ∃ itp, mkInterp (s.restWave.map (fun v => v * (1 + 0))) (s.restFlux.map (List.map (fun f => f / (1 + (0 : ℝ))))) = .ok itp := by
      obtain ⟨itp, hi⟩ := hmk z0 (by rw [hzs]; simp)
      obtain ⟨_, _, e3, e4⟩ := mkInterp_eq hi
      rw [nodup_gather] at e4
      unfold mkInterp
      rw [if_pos, if_pos (by simpa using e3), if_pos]
      · exact ⟨_, rfl⟩
      · rw [nodup_gather]
        have := List.Nodup.of_map _ e4
        simpa using this
      · intro row hrow
        obtain ⟨r0, hr0, rfl⟩ := List.mem_map.mp hrow
        simp [hw r0 hr0]
    obtain ⟨s0, hs0⟩ := hset 0 hmk0
    refine ⟨⟨w'.reg, s0⟩, calc_of (ms := ms) (w := ⟨g, s.withInterp b' i'⟩) hl (by simpa using hs0) hm ?_⟩
    refine List.forall₂_iff_get.mpr ⟨hall.length_eq, ?_⟩
    intro k hk hk'
    obtain ⟨t, ht, hM⟩ := (List.forall₂_iff_get.mp hall).2 k hk hk'
    simp only [List.get_eq_getElem] at ht hM ⊢
    obtain ⟨t', ht'⟩ := hset zs[k] (hmk _ (List.getElem_mem _))
    refine ⟨t', ht', ?_⟩
    obtain ⟨a1, a2, a3, a4, a5, a6, _⟩ := setRedshift_ready (s := s.withInterp b i) hne hw ht
    obtain ⟨b1, b2, b3, b4, b5, b6, _⟩ := setRedshift_ready (s := s.withInterp b' i') hne hw ht'
    have ew : t'.wave = t.wave := by rw [a5, b5]; rfl
    have ef : t'.flux = t.flux := by rw [a6, b6]; rfl
    rw [mapM_ok_iff] at hM ⊢
    refine hM.imp ?_
    intro n row h
    rw [respRow_band1 a1 a2 a3 a4] at h
    rw [respRow_band1 b1 b2 b3 b4, ew, ef]
    exact h
  exact ⟨key _ _ _ _, key _ _ _ _⟩

/-! ### The hypotheses are met -/

/-- Valid templates, responses that are in the dictionary, and a grid above redshift -1 give a built fitter; the dictionary keeps its responses. -/
theorem built_of_valid (lib : Lib ℝ) (F : Fitter ℝ) (lo hi : ℝ) (n : Nat) (hlo : -1 < lo) (hhi : lo < hi) (hn : 2 ≤ n)
    (hgrid : F.redshifts = redshiftGrid lo hi n) (hwv : F.templates.toSed.restWave.Pairwise (· < ·)) (h4 : 4 ≤ F.templates.toSed.restWave.length)
    (hfl : ∀ row ∈ F.templates.toSed.restFlux, row.length = F.templates.toSed.restWave.length) (hne : F.templates.toSed.restFlux ≠ [])
    (g : Reg ℝ) (hr : ∀ r ∈ F.responses, ∃ o, g r = some o ∧ Complete lib o) :
    ∃ G g', Built lib F G g' ∧ ∀ r o, g r = some o → g' r = some o := by
  have hpos : ∀ z ∈ F.redshifts, -1 < z := by
    intro z hz
    rw [hgrid] at hz
    simp only [redshiftGrid, List.mem_map, List.mem_range] at hz
    obtain ⟨i, _, rfl⟩ := hz
    simp only [real_f32, real_lit]
    push_cast
    have hn1 : (0 : ℝ) < (n : ℝ) - 1 := by
      have : (2 : ℝ) ≤ n := by exact_mod_cast hn
      linarith
    have : (0 : ℝ) ≤ (hi - lo) * (i : ℝ) / ((n : ℝ) - 1) := div_nonneg (mul_nonneg (by linarith) (Nat.cast_nonneg _)) hn1.le
    linarith
  have hr' : ∀ r ∈ F.responses, (∃ o, g r = some o ∧ Complete lib o) ∨ (g r = none ∧ ∃ R, FileGives lib (fun _ => .error .osError) r R) :=
    fun r h => Or.inl (hr r h)
  obtain ⟨w', A, hc, _⟩ := C93_build_succeeds lib (fun _ => .error .osError) F.redshifts F.responses ⟨g, F.templates.toSed⟩ hpos hwv h4 hfl hne hr'
  obtain ⟨g', hl, hk, _⟩ := loadMissing_spec lib (fun _ => .error .osError) F.responses g hr'
  have hl' := (calcAmatrix_ok hc).1
  simp only at hl'
  rw [hl] at hl'
  cases hl'
  refine ⟨{ F with Amatrix := some A }, w'.reg, ⟨hne, hfl, ⟨lo, hi, n, hhi, hn, hgrid⟩, (fun _ => .error .osError), ⟨g, F.templates.toSed⟩, w', rfl, ?_, rfl⟩, hk⟩
  unfold Fitter.setAmatrix
  rw [hc]

/-- Two responses in the dictionary. -/
theorem demo_two : ∃ (g : Reg ℝ) (ox oy : RespObj ℝ), g ['x'] = some ox ∧ g ['y'] = some oy ∧ Complete demoLib ox ∧ Complete demoLib oy := by
  obtain ⟨Rx, hx⟩ := demo_response (wave := [1, 2, 3, 4]) (resp := [0, 1, 1, 0]) (by norm_num) (by simp) rfl ⟨1, by simp, by norm_num⟩
  obtain ⟨Ry, hy⟩ := demo_response (wave := [2, 3, 4, 5]) (resp := [0, 1, 1, 0]) (by norm_num) (by simp) rfl ⟨1, by simp, by norm_num⟩
  exact ⟨fun n => if n = ['x'] then some (.full Rx) else some (.full Ry), .full Rx, .full Ry, by simp, by simp, ⟨_, _, Rx, hx, rfl⟩,
    ⟨_, _, Ry, hy, rfl⟩⟩

/-- A fitter before `set_Amatrix`. -/
noncomputable def demoPlain (rs : List Name) (flux : List (List ℝ)) (b : Bool) : Fitter ℝ :=
  ⟨.base, false, rs, .sed ⟨[1, 2, 3, 4, 5], flux, [1, 2, 3, 4, 5], flux, 0, b, none, false⟩, 10, (0, 2), redshiftGrid 0 2 10, none⟩

theorem demoPlain_built (rs : List Name) (hrs : ∀ r ∈ rs, r = ['x'] ∨ r = ['y']) (flux : List (List ℝ)) (hf : ∀ row ∈ flux, row.length = 5)
    (hne : flux ≠ []) (b : Bool) (g : Reg ℝ) (ox oy : RespObj ℝ) (hx : g ['x'] = some ox) (hy : g ['y'] = some oy) (cx : Complete demoLib ox)
    (cy : Complete demoLib oy) :
    ∃ G g', Built demoLib (demoPlain rs flux b) G g' ∧ g' ['x'] = some ox ∧ g' ['y'] = some oy := by
  obtain ⟨G, g', h1, h2⟩ := built_of_valid demoLib (demoPlain rs flux b) 0 2 10 (by norm_num) (by norm_num) (by norm_num) rfl
    (by simp [demoPlain, Tpl.toSed]; norm_num) (by simp [demoPlain, Tpl.toSed]) (by simpa [demoPlain, Tpl.toSed] using hf)
    (by simpa [demoPlain, Tpl.toSed] using hne) g (by
      intro r hr
      rcases hrs r hr with rfl | rfl
      · exact ⟨ox, hx, cx⟩
      · exact ⟨oy, hy, cy⟩)
  exact ⟨G, g', h1, h2 _ _ hx, h2 _ _ hy⟩

/-- Not vacuous (C103, C104): two templates exchanged, one doubled and one halved, two bands. -/
example : ∃ F1 F2 G1 G2 g1 g2, Built demoLib F1 G1 g1 ∧ Built demoLib F2 G2 g2 ∧ Rescaled F1 F2 g1 g2 [(1, 2), (0, 1 / 2)] ∧
    F1.templates.nsed = 2 ∧ F1.responses.length = 2 := by
  obtain ⟨g, ox, oy, hx, hy, cx, cy⟩ := demo_two
  obtain ⟨G1, g1, b1, x1, y1⟩ := demoPlain_built [['x'], ['y']] (by simp) [[1, 1, 1, 1, 1], [1, 2, 3, 4, 5]] (by simp) (by simp) false g ox oy
    hx hy cx cy
  obtain ⟨G2, g2, b2, x2, y2⟩ := demoPlain_built [['x'], ['y']] (by simp)
    [[1, 2, 3, 4, 5].map (fun v => 2 * v), [1, 1, 1, 1, 1].map (fun v => 1 / 2 * v)] (by simp) (by simp) true g ox oy hx hy cx cy
  refine ⟨_, _, _, _, _, _, b1, b2, ⟨rfl, rfl, ?_, rfl, ?_, ?_, ?_⟩, rfl, rfl⟩
  · intro n hn
    simp only [demoPlain, List.mem_cons, List.not_mem_nil, or_false] at hn
    rcases hn with rfl | rfl
    · rw [x1, x2]
    · rw [y1, y2]
  · show [1, 0].Perm [0, 1]
    exact List.Perm.swap _ _ _
  · simp
  · rfl

/-- Not vacuous (C105): two bands exchanged. -/
example : ∃ F1 F2 G1 G2 g1 g2, Built demoLib F1 G1 g1 ∧ Built demoLib F2 G2 g2 ∧ Reordered F1 F2 g1 g2 [1, 0] ∧
    F1.responses = [['x'], ['y']] := by
  obtain ⟨g, ox, oy, hx, hy, cx, cy⟩ := demo_two
  obtain ⟨G1, g1, b1, x1, y1⟩ := demoPlain_built [['x'], ['y']] (by simp) [[1, 1, 1, 1, 1], [1, 2, 3, 4, 5]] (by simp) (by simp) false g ox oy
    hx hy cx cy
  obtain ⟨G2, g2, b2, x2, y2⟩ := demoPlain_built [['y'], ['x']] (by simp) [[1, 1, 1, 1, 1], [1, 2, 3, 4, 5]] (by simp) (by simp) false g ox oy
    hx hy cx cy
  refine ⟨_, _, _, _, _, _, b1, b2, ⟨?_, rfl, rfl, ?_, rfl, rfl⟩, rfl⟩
  · show [1, 0].Perm [0, 1]
    exact List.Perm.swap _ _ _
  · intro n hn
    simp only [demoPlain, List.mem_cons, List.not_mem_nil, or_false] at hn
    rcases hn with rfl | rfl
    · rw [x1, x2]
    · rw [y1, y2]

/-- Not vacuous (C106): a construction that returns. -/
example : ∃ w' A, calcAmatrix demoLib demoDisk (redshiftGrid 0 2 10) [['x']] ⟨demoShared.reg, demoShared.sed.withInterp false none⟩ = (w', .ok A) ∧
    demoShared.sed.restFlux ≠ [] ∧ (∀ row ∈ demoShared.sed.restFlux, row.length = demoShared.sed.restWave.length) := by
  obtain ⟨w', A, h⟩ := demo_build
  exact ⟨w', A, h, by simp [demoShared], by simp [demoShared]⟩

end KC
