import Verif.Props.Local

/-! Fits with equivalent template sets, and with the bands in another order. -/

namespace KC
open Spec

/-- `G` is the fitter `F` after `set_Amatrix`, with well-formed templates and a grid of two or more redshifts; `g` is the response dictionary
afterwards. -/
structure Built (lib : Lib ℝ) (F G : Fitter ℝ) (g : Reg ℝ) : Prop where
  ne : F.templates.toSed.restFlux ≠ []
  len : ∀ row ∈ F.templates.toSed.restFlux, row.length = F.templates.toSed.restWave.length
  grid : ∃ lo hi n, lo < hi ∧ 2 ≤ n ∧ F.redshifts = redshiftGrid lo hi n
  built : ∃ disk w w', w.sed = F.templates.toSed ∧ F.setAmatrix lib disk w = (w', .ok G) ∧ w'.reg = g

/-- A built fitter is ready to fit. -/
theorem Built.ready {lib : Lib ℝ} {F G : Fitter ℝ} {g : Reg ℝ} (h : Built lib F G g) :
    ∃ A disk w w', Ready G A ∧ G = { F with Amatrix := some A } ∧ w.sed = F.templates.toSed ∧ w'.reg = g ∧
      calcAmatrix lib disk F.redshifts F.responses w = (w', .ok A) ∧ A.x = gather F.redshifts (argsort F.redshifts) := by
  obtain ⟨disk, w, w', hw, hs, hg⟩ := h.built
  unfold Fitter.setAmatrix at hs
  cases hc : calcAmatrix lib disk F.redshifts F.responses w with
  | mk w1 r =>
    rw [hc] at hs
    cases r with
    | error e => cases hs
    | ok A =>
      simp only [Prod.mk.injEq, Except.ok.injEq] at hs
      obtain ⟨rfl, rfl⟩ := hs
      obtain ⟨ms, hm, hall⟩ := calc_cells (by rw [hw]; exact h.ne) (by rw [hw]; exact h.len) hc
      have hx : A.x = gather F.redshifts (argsort F.redshifts) ∧ A.nrow = F.responses.length ∧ A.ncol = w.sed.nsed := by
        unfold mkAMat at hm
        split at hm
        · cases hm; exact ⟨rfl, rfl, rfl⟩
        · cases hm
      obtain ⟨lo, hi, n, hlo, hn, hgr⟩ := h.grid
      obtain ⟨hl, _, _, hp, _⟩ := C43_grid lo hi n hlo hn
      have hgood := (mkAMat_good hm (by rw [hgr]; exact hp.imp ne_of_lt) (by rw [hgr, hl]; exact hn) (by
        intro M hM
        obtain ⟨k, hk, rfl⟩ := List.mem_iff_getElem.mp hM
        obtain ⟨h1, h2⟩ := (List.forall₂_iff_get.mp hall).2 k (by rw [hall.length_eq]; exact hk) hk
        simp only [List.get_eq_getElem] at h1 h2
        refine ⟨h1, ?_⟩
        intro row hrow
        obtain ⟨i, hi, rfl⟩ := List.mem_iff_getElem.mp hrow
        obtain ⟨_, _, _, _, h3⟩ := h2 i _ (List.getElem?_eq_getElem (by rw [← h1]; exact hi))
        rw [List.getElem?_eq_getElem hi] at h3
        simp only [Option.some.injEq] at h3
        rw [h3]; simp [Sed.nsed])).1
      exact ⟨A, disk, w, w1, ⟨rfl, hgood, hx.2.1, by rw [hx.2.2, Fitter.templates, Tpl.nsed, hw]⟩, rfl, hw, hg, hc, hx.1⟩

theorem dot_zip (x : ℝ) : ∀ (row a v : List ℝ), a.length = v.length →
    dot row (List.zipWith (fun u w => x * u + w) a v) = x * dot row a + dot row v
  | [], a, v, _ => by simp [dot, sumL_real]
  | _ :: _, [], [], _ => by simp [dot, sumL_real]
  | _ :: _, [], _ :: _, h => by simp at h
  | _ :: _, _ :: _, [], h => by simp at h
  | r :: row, u :: a, w :: v, h => by
    rw [List.zipWith_cons_cons, dot_cons, dot_cons, dot_cons, dot_zip x row a v (by simpa using h)]
    ring

theorem dot_zeros (n : Nat) : ∀ row : List ℝ, dot row (List.replicate n 0) = 0 := by
  induction n with
  | zero => intro row; simp [dot, sumL_real]
  | succ n ih =>
    intro row
    cases row with
    | nil => simp [dot, sumL_real]
    | cons r row => rw [List.replicate_succ, dot_cons, ih row]; ring

theorem dot_comm : ∀ a b : List ℝ, dot a b = dot b a
  | [], b => by simp [dot, sumL_real]
  | _ :: _, [] => by simp [dot, sumL_real]
  | x :: a, y :: b => by rw [dot_cons, dot_cons, dot_comm a b]; ring

/-- Coefficients of mixtures, in terms of the templates that are mixed. -/
theorem dot_mix (n : Nat) (row : List ℝ) : ∀ (W : List (List ℝ)) (c : List ℝ), (∀ a ∈ W, a.length = n) →
    dot (W.map (fun a => dot a row)) c = dot row (mix n c W)
  | [], c, _ => by
    cases c <;> simp [mix, dot_zeros] <;> simp [dot, sumL_real]
  | a :: W, [], _ => by rw [mix_nil, dot_zeros]; simp [dot, sumL_real]
  | a :: W, x :: c, h => by
    have h' : ∀ a ∈ W, a.length = n := fun b hb => h b (by simp [hb])
    rw [List.map_cons, dot_cons, mix, dot_zip x row a _ (by rw [h a (by simp), mix_length n c W h']), dot_mix n row W c h', dot_comm a row]
    ring

/-- The templates of `F2` are linear combinations, with weights `W`, of the templates of `F1`; everything else is the same. -/
structure MixedTemplates (F1 F2 : Fitter ℝ) (g1 g2 : Reg ℝ) (W : List (List ℝ)) : Prop where
  resp : F2.responses = F1.responses
  grid : F2.redshifts = F1.redshifts
  reg : ∀ n ∈ F1.responses, g1 n = g2 n
  wave : F2.templates.toSed.restWave = F1.templates.toSed.restWave
  ne : W ≠ []
  wlen : ∀ a ∈ W, a.length = F1.templates.nsed
  flux : F2.templates.toSed.restFlux = W.map (fun a => mix F1.templates.toSed.restWave.length a F1.templates.toSed.restFlux)

/-- The whole matrix of the second fitter. -/
theorem mixed_matrix {lib : Lib ℝ} (hlin : SplineLinear lib) {F1 F2 G1 G2 : Fitter ℝ} {g1 g2 : Reg ℝ} (h1 : Built lib F1 G1 g1)
    (h2 : Built lib F2 G2 g2) {W : List (List ℝ)} (hm : MixedTemplates F1 F2 g1 g2 W) :
    ∃ A1 A2, Ready G1 A1 ∧ Ready G2 A2 ∧ A2.x = A1.x ∧ G1.responses = F1.responses ∧ G2.responses = F1.responses ∧
      G1.templates.nsed = F1.templates.nsed ∧ G2.templates.nsed = W.length ∧
      ∀ q M1, A1.at q = .ok M1 → A2.at q = .ok (M1.map (fun row => W.map (fun a => dot a row))) := by
  obtain ⟨A1, disk1, w1, w1', hR1, hG1, hw1, hg1, hc1, hx1⟩ := h1.ready
  obtain ⟨A2, disk2, w2, w2', hR2, hG2, hw2, hg2, hc2, hx2⟩ := h2.ready
  have hx : A2.x = A1.x := by rw [hx1, hx2, hm.grid]
  refine ⟨A1, A2, hR1, hR2, hx, by rw [hG1], by rw [hG2]; exact hm.resp, by rw [hG1], ?_, ?_⟩
  · rw [hG2]
    show F2.templates.nsed = _
    rw [Tpl.nsed, Sed.nsed, hm.flux, List.length_map]
  · intro q M1 hM1
    rw [hm.grid, hm.resp] at hc2
    have hs1 := at_shaped hR1.good hM1
    obtain ⟨M2, hM2⟩ := (at_ok_iff hR2.good.ne).mpr (by rw [hx]; exact (at_ok_iff hR1.good.ne).mp ⟨M1, hM1⟩ : InRange A2.x q)
    have hs2 := at_shaped hR2.good hM2
    rw [hM2]
    congr 1
    have l1 : M1.length = F1.responses.length := by rw [hs1.1, hR1.rows, hG1]
    have l2 : M2.length = F1.responses.length := by rw [hs2.1, hR2.rows, hG2]; exact congrArg List.length hm.resp
    apply List.ext_getElem (by rw [List.length_map, l1, l2])
    intro i hi2 hi1
    have hi : i < F1.responses.length := by rw [← l2]; exact hi2
    have hn := List.getElem?_eq_getElem hi
    obtain ⟨M2', row, e1, e2, _, e3⟩ := C103_linear lib hlin disk1 disk2 F1.redshifts F1.responses F1.responses w1 w1' w2 w2' A1 A2 hc1 hc2
      (by rw [hw1]; exact h1.ne) (by rw [hw1]; exact h1.len) (by rw [hw1, hw2]; exact hm.wave) W hm.ne (by rw [hw1]; exact hm.wlen)
      (by rw [hw1, hw2]; exact hm.flux) i i _ hn hn (by rw [hg1, hg2]; exact hm.reg _ (List.getElem_mem _)) q M1 hM1
    rw [hM2] at e1
    cases e1
    rw [List.getElem?_eq_getElem hi2] at e3
    rw [List.getElem?_eq_getElem (by rw [l1]; exact hi)] at e2
    simp only [Option.some.injEq] at e2 e3
    rw [e3, List.getElem_map, e2]

/-- C104: the maggies that the mixed templates give with coefficients `c` are those that the original templates give with the coefficients `c`
mixed by the same weights, at every redshift and band shift (or both calls raise the same exception). -/
theorem C104_reconstruct (lib : Lib ℝ) (hlin : SplineLinear lib) (F1 F2 G1 G2 : Fitter ℝ) (g1 g2 : Reg ℝ) (h1 : Built lib F1 G1 g1)
    (h2 : Built lib F2 G2 g2) (W : List (List ℝ)) (hm : MixedTemplates F1 F2 g1 g2 W) (z bs : ℝ) (c : List ℝ) (hc : c.length = W.length) :
    G2.reconstruct (some (.scalar z)) (some (.vec c)) bs =
      G1.reconstruct (some (.scalar z)) (some (.vec (mix F1.templates.nsed c W))) bs := by
  obtain ⟨A1, A2, hR1, hR2, hx, r1, r2, n1, n2, hA⟩ := mixed_matrix hlin h1 h2 hm
  unfold Fitter.reconstruct
  rw [hR1.set, hR2.set, recon_scalar G2 A2 z c bs (by rw [n2]; exact hc),
    recon_scalar G1 A1 z _ bs (by rw [n1]; exact mix_length _ _ _ hm.wlen), map_f32_list, map_f32_list]
  by_cases hin : InRange A1.x (shiftOf (f32 z) bs)
  · obtain ⟨M1, hM1⟩ := (at_ok_iff hR1.good.ne).mpr hin
    rw [hA _ _ hM1, hM1]
    have e : reconRow bs (M1.map (fun row => W.map (fun a => dot a row))) c = reconRow bs M1 (mix F1.templates.nsed c W) := by
      unfold reconRow
      rw [List.map_map]
      apply List.map_congr_left
      intro row _
      simp only [Function.comp_apply]
      rw [dot_mix _ row W c hm.wlen]
    simp only [Except.map, e, hR1.rows, hR2.rows, r1, r2]
  · rw [at_out hR1.good.ne hin, at_out hR2.good.ne (by rw [hx]; exact hin)]
    rfl

/-- C104: if moreover the nonnegative mixtures of the new templates are all the nonnegative mixtures of the old ones, then the coefficients `c` are
optimal for the new templates exactly if the mixed coefficients are optimal for the old ones. -/
theorem C104_optimal (lib : Lib ℝ) (hlin : SplineLinear lib) (F1 F2 G1 G2 : Fitter ℝ) (g1 g2 : Reg ℝ) (h1 : Built lib F1 G1 g1)
    (h2 : Built lib F2 G2 g2) (W : List (List ℝ)) (hm : MixedTemplates F1 F2 g1 g2 W)
    (hW : ∀ y : List ℝ, y.length = W.length → (∀ v ∈ y, 0 ≤ v) → ∀ v ∈ mix F1.templates.nsed y W, 0 ≤ v)
    (hsur : ∀ x : List ℝ, x.length = F1.templates.nsed → (∀ v ∈ x, 0 ≤ v) →
      ∃ y, y.length = W.length ∧ (∀ v ∈ y, 0 ≤ v) ∧ mix F1.templates.nsed y W = x)
    (z : ℝ) (hz : ∃ v, G1.reconstruct (some (.scalar z)) (some (.vec (List.replicate F1.templates.nsed 0))) 0 = .ok v) (m iv c : List ℝ)
    (hc : c.length = W.length) (hc0 : ∀ v ∈ c, 0 ≤ v) :
    Optimal G2 z m iv c ↔ Optimal G1 z m iv (mix F1.templates.nsed c W) := by
  obtain ⟨A1, A2, hR1, hR2, hx, r1, r2, n1, n2, hA⟩ := mixed_matrix hlin h1 h2 hm
  have hin : InRange A1.x z := by
    by_contra hin
    obtain ⟨v, hv⟩ := hz
    unfold Fitter.reconstruct at hv
    rw [hR1.set, recon_scalar G1 A1 z _ 0 (by rw [n1]; simp)] at hv
    have e : shiftOf (f32 z) 0 = z := by rw [real_f32, shiftOf_real]; ring
    rw [e, at_out hR1.good.ne hin] at hv
    cases hv
  obtain ⟨M1, hM1⟩ := (at_ok_iff hR1.good.ne).mpr hin
  have emul : ∀ y : List ℝ, mulVec (M1.map (fun row => W.map (fun a => dot a row))) y = mulVec M1 (mix F1.templates.nsed y W) := by
    intro y
    unfold mulVec
    rw [List.map_map]
    apply List.map_congr_left
    intro row _
    simp only [Function.comp_apply]
    exact dot_mix _ row W y hm.wlen
  rw [optimal_iff hR1 hM1, optimal_iff hR2 (hA _ _ hM1), n1, n2, emul]
  constructor
  · rintro ⟨_, _, h3⟩
    refine ⟨mix_length _ _ _ hm.wlen, hW c hc hc0, fun x hx hx0 => ?_⟩
    obtain ⟨y, hy, hy0, rfl⟩ := hsur x hx hx0
    have := h3 y hy hy0
    rwa [emul] at this
  · rintro ⟨_, _, h3⟩
    refine ⟨hc, hc0, fun y hy hy0 => ?_⟩
    rw [emul]
    exact h3 _ (mix_length _ _ _ hm.wlen) (hW y hy hy0)

/-! ### reordered and rescaled templates -/

/-- vector of length `n` with `s` at index `k`, zero elsewhere -/
noncomputable def unit (n k : Nat) (s : ℝ) : List ℝ := (List.range n).map (fun j => if j = k then s else 0)

theorem mix_ent (n : Nat) : ∀ (as : List ℝ) (ys : List (List ℝ)) (j : Nat), (∀ y ∈ ys, y.length = n) → j < n →
    ent (mix n as ys) j = dot as (ys.map (fun y => ent y j))
  | [], ys, j, _, hj => by rw [mix_nil, ent_some (by simpa using hj)]; simp [dot, sumL_real]
  | _ :: _, [], j, _, hj => by rw [mix, ent_some (by simpa using hj)] <;> simp [dot, sumL_real]
  | a :: as, y :: ys, j, h, hj => by
    have h' : ∀ y ∈ ys, y.length = n := fun b hb => h b (by simp [hb])
    have hy := h y (by simp)
    have hl := mix_length n as ys h'
    rw [List.map_cons, dot_cons, ← mix_ent n as ys j h' hj, mix, ent_some (by simp [hy, hl, hj]), ent_some (by rw [hy]; exact hj),
      ent_some (by rw [hl]; exact hj), List.getElem_zipWith]

theorem sum_pick (n k : Nat) (hk : k < n) (f : Nat → ℝ) : ((List.range n).map (fun j => if j = k then f j else 0)).sum = f k := by
  induction n with
  | zero => omega
  | succ n ih =>
    rw [List.range_succ, List.map_append, List.sum_append]
    by_cases h : k = n
    · subst h
      have : (List.range k).map (fun j => if j = k then f j else 0) = (List.range k).map (fun _ => (0 : ℝ)) := by
        apply List.map_congr_left
        intro j hj
        rw [if_neg (by have := List.mem_range.mp hj; omega)]
      rw [this]; simp
    · rw [ih (by omega)]
      simp [Ne.symm h]

theorem list_eq_range (l : List ℝ) : l = (List.range l.length).map (fun j => ent l j) := by
  apply List.ext_getElem (by simp)
  intro i h1 h2
  rw [List.getElem_map, List.getElem_range, ent_some h1]

theorem dot_unit (n k : Nat) (hk : k < n) (s : ℝ) (l : List ℝ) (hl : l.length = n) : dot (unit n k s) l = s * ent l k := by
  conv_lhs => rw [list_eq_range l, hl]
  unfold unit dot
  rw [sumL_real, List.zipWith_map, List.zipWith_self, ← sum_pick n k hk (fun j => s * ent l j)]
  congr 1
  apply List.map_congr_left
  intro j _
  split <;> simp

theorem mix_unit (N n k : Nat) (hk : k < n) (s : ℝ) (ys : List (List ℝ)) (hn : ys.length = n) (hy : ∀ y ∈ ys, y.length = N) :
    mix N (unit n k s) ys = (ys.getD k []).map (fun v => s * v) := by
  have hk' : k < ys.length := by rw [hn]; exact hk
  have hyk : (ys.getD k []).length = N := by rw [getD_lt hk']; exact hy _ (List.getElem_mem _)
  apply List.ext_getElem (by rw [mix_length _ _ _ hy, List.length_map, hyk])
  intro j h1 h2
  have hj : j < N := by rw [← mix_length N (unit n k s) ys hy]; exact h1
  rw [← ent_some h1, mix_ent N _ _ j hy hj, dot_unit n k hk s _ (by simpa using hn), ent_some (by simpa using hk'), List.getElem_map,
    List.getElem_map, ent_some (by rw [← getD_lt (d := []) hk', hyk]; exact hj)]
  simp only [getD_lt hk']

/-- The templates of `F2` are those of `F1` in the order, and each multiplied by the positive factor, that `P` gives; everything else is the
same. -/
structure Rescaled (F1 F2 : Fitter ℝ) (g1 g2 : Reg ℝ) (P : List (Nat × ℝ)) : Prop where
  resp : F2.responses = F1.responses
  grid : F2.redshifts = F1.redshifts
  reg : ∀ n ∈ F1.responses, g1 n = g2 n
  wave : F2.templates.toSed.restWave = F1.templates.toSed.restWave
  order : (P.map (fun p => p.1)).Perm (List.range F1.templates.nsed)
  pos : ∀ p ∈ P, 0 < p.2
  flux : F2.templates.toSed.restFlux = P.map (fun p => (F1.templates.toSed.restFlux.getD p.1 []).map (fun v => p.2 * v))

theorem Rescaled.mixed {lib : Lib ℝ} {F1 F2 G1 : Fitter ℝ} {g1 g2 : Reg ℝ} {P : List (Nat × ℝ)} (h : Rescaled F1 F2 g1 g2 P)
    (h1 : Built lib F1 G1 g1) : MixedTemplates F1 F2 g1 g2 (P.map (fun p => unit F1.templates.nsed p.1 p.2)) := by
  have hlen : P.length = F1.templates.nsed := by
    have := h.order.length_eq
    simpa using this
  have hlt : ∀ p ∈ P, p.1 < F1.templates.nsed := fun p hp =>
    List.mem_range.mp (h.order.mem_iff.mp (List.mem_map.mpr ⟨p, hp, rfl⟩))
  refine ⟨h.resp, h.grid, h.reg, h.wave, ?_, ?_, ?_⟩
  · intro h0
    have h0' : P = [] := by simpa using h0
    rw [h0'] at hlen
    exact h1.ne (List.length_eq_zero_iff.mp hlen.symm)
  · intro a ha
    obtain ⟨p, _, rfl⟩ := List.mem_map.mp ha
    simp [unit]
  · rw [h.flux, List.map_map]
    apply List.map_congr_left
    intro p hp
    simp only [Function.comp_apply]
    rw [mix_unit _ _ _ (hlt p hp) _ _ rfl h1.len]

/-- The coefficients for the reordered and rescaled templates. -/
noncomputable def rescaleCoeffs (P : List (Nat × ℝ)) (c : List ℝ) : List ℝ := P.map (fun p => ent c p.1 / p.2)

theorem mix_rescale {n : Nat} {P : List (Nat × ℝ)} (ho : (P.map (fun p => p.1)).Perm (List.range n)) (hp : ∀ p ∈ P, 0 < p.2) (c : List ℝ)
    (hc : c.length = n) : mix n (rescaleCoeffs P c) (P.map (fun p => unit n p.1 p.2)) = c := by
  have hu : ∀ y ∈ P.map (fun p => unit n p.1 p.2), y.length = n := by
    intro y hy
    obtain ⟨p, _, rfl⟩ := List.mem_map.mp hy
    simp [unit]
  apply List.ext_getElem (by rw [mix_length _ _ _ hu, hc])
  intro j h1 h2
  have hj : j < n := by rw [← hc]; exact h2
  rw [← ent_some h1, mix_ent n _ _ j hu hj, rescaleCoeffs, List.map_map]
  have e : dot (P.map (fun p => ent c p.1 / p.2)) (P.map ((fun y => ent y j) ∘ fun p => unit n p.1 p.2)) =
      ((P.map (fun p => p.1)).map (fun k => if k = j then ent c k else 0)).sum := by
    unfold dot
    rw [sumL_real, List.zipWith_map, List.zipWith_self, List.map_map]
    congr 1
    apply List.map_congr_left
    intro p hpm
    have := hp p hpm
    have eu : ent (unit n p.1 p.2) j = if j = p.1 then p.2 else 0 := by
      rw [ent_some (by simpa [unit] using hj)]
      simp [unit]
    simp only [Function.comp_apply, eu]
    by_cases h : p.1 = j
    · subst h; simp [this.ne']
    · rw [if_neg (Ne.symm h), if_neg h, mul_zero]
  rw [e, (ho.map _).sum_eq, sum_pick n j hj, ent_some h2]

theorem mix_nonneg (n : Nat) : ∀ (as : List ℝ) (ys : List (List ℝ)), (∀ a ∈ as, 0 ≤ a) → (∀ y ∈ ys, ∀ v ∈ y, 0 ≤ v) → ∀ v ∈ mix n as ys, 0 ≤ v
  | [], ys, _, _ => by rw [mix_nil]; intro v hv; rw [List.eq_of_mem_replicate hv]
  | _ :: _, [], _, _ => by
    intro v hv
    simp only [mix] at hv
    rw [List.eq_of_mem_replicate hv]
  | a :: as, y :: ys, ha, hy => by
    intro v hv
    rw [mix] at hv
    obtain ⟨i, hi, rfl⟩ := List.mem_iff_getElem.mp hv
    rw [List.getElem_zipWith]
    exact add_nonneg (mul_nonneg (ha a (by simp)) (hy y (by simp) _ (List.getElem_mem _)))
      (mix_nonneg n as ys (fun b hb => ha b (by simp [hb])) (fun b hb => hy b (by simp [hb])) _ (List.getElem_mem _))

/-- C104: reordering the templates and multiplying each by a positive number changes nothing but the coefficients, which are reordered in the same
way and divided by the numbers: the reconstructed maggies are the same at every redshift and band shift, and coefficients are optimal
for the new templates exactly if they are optimal for the old ones. -/
theorem C104_rescaled (lib : Lib ℝ) (hlin : SplineLinear lib) (F1 F2 G1 G2 : Fitter ℝ) (g1 g2 : Reg ℝ) (h1 : Built lib F1 G1 g1)
    (h2 : Built lib F2 G2 g2) (P : List (Nat × ℝ)) (hm : Rescaled F1 F2 g1 g2 P) (z : ℝ) (c : List ℝ) (hc : c.length = F1.templates.nsed) :
    (∀ bs, G2.reconstruct (some (.scalar z)) (some (.vec (rescaleCoeffs P c))) bs =
      G1.reconstruct (some (.scalar z)) (some (.vec c)) bs) ∧
    ((∀ v ∈ c, 0 ≤ v) → (∃ v, G1.reconstruct (some (.scalar z)) (some (.vec c)) 0 = .ok v) → ∀ m iv,
      (Optimal G2 z m iv (rescaleCoeffs P c) ↔ Optimal G1 z m iv c)) := by
  have hmix := hm.mixed h1
  have hr : ∀ x : List ℝ, x.length = F1.templates.nsed →
      mix F1.templates.nsed (rescaleCoeffs P x) (P.map (fun p => unit F1.templates.nsed p.1 p.2)) = x :=
    fun x hx => mix_rescale hm.order hm.pos x hx
  have hl : ∀ x : List ℝ, (rescaleCoeffs P x).length = (P.map (fun p => unit F1.templates.nsed p.1 p.2)).length := by
    intro x; simp [rescaleCoeffs]
  have hnn : ∀ x : List ℝ, (∀ v ∈ x, 0 ≤ v) → ∀ v ∈ rescaleCoeffs P x, 0 ≤ v := by
    intro x hx v hv
    obtain ⟨p, hp, rfl⟩ := List.mem_map.mp hv
    refine div_nonneg ?_ (hm.pos p hp).le
    unfold ent
    by_cases h : p.1 < x.length
    · rw [getD_lt h]; exact hx _ (List.getElem_mem _)
    · rw [List.getD_eq_getElem?_getD, List.getElem?_eq_none (by omega)]; simp
  constructor
  · intro bs
    rw [C104_reconstruct lib hlin F1 F2 G1 G2 g1 g2 h1 h2 _ hmix z bs _ (hl c), hr c hc]
  · intro hc0 hz m iv
    have hz' : ∃ v, G1.reconstruct (some (.scalar z)) (some (.vec (List.replicate F1.templates.nsed 0))) 0 = .ok v := by
      obtain ⟨A1, _, _, _, hR1, hG1, _⟩ := h1.ready
      have n1 : G1.templates.nsed = F1.templates.nsed := by rw [hG1]
      obtain ⟨v, hv⟩ := hz
      unfold Fitter.reconstruct at hv ⊢
      rw [hR1.set, recon_scalar G1 A1 z _ 0 (by rw [n1]; exact hc)] at hv
      rw [hR1.set, recon_scalar G1 A1 z _ 0 (by rw [n1]; simp)]
      cases hA : A1.at (shiftOf (f32 z) 0) with
      | error e => rw [hA] at hv; cases hv
      | ok M => exact ⟨_, rfl⟩
    rw [C104_optimal lib hlin F1 F2 G1 G2 g1 g2 h1 h2 _ hmix ?_ ?_ z hz' m iv _ (hl c) (hnn c hc0), hr c hc]
    · intro y _ hy0
      refine mix_nonneg _ _ _ hy0 ?_
      intro a ha v hv
      obtain ⟨p, hp, rfl⟩ := List.mem_map.mp ha
      obtain ⟨j, _, rfl⟩ := List.mem_map.mp hv
      split
      · exact (hm.pos p hp).le
      · exact le_rfl
    · intro x hx hx0
      exact ⟨rescaleCoeffs P x, hl x, hnn x hx0, hr x hx⟩

end KC
