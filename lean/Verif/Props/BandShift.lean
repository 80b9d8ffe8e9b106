import Verif.Props.Consistent

/-!
# What depends on the band shift and on the output bands (C172, C173)
-/

namespace KC
open Spec

/-! ### C172 -/

/-- C172: changing the band shift changes a K-correction by the difference of the model's rest-frame magnitudes in the two shifted bands.  The change is made of
`y` and `y'`, which do not depend on the redshift. -/
theorem C172_kcorrect (K : Kc ℝ) (A Ao : AMat ℝ) (hA : K.Amatrix = some A) (hAo : K.AmatrixOut = some Ao) (z bs bs' : ℝ) (c : List ℝ)
    (hc : c.length = K.templates.nsed) (hs : 0 < c.sum) (k k' : NDA ℝ)
    (hk : K.kcorrect (some (.scalar z)) (some (.vec c)) bs = .ok k) (hk' : K.kcorrect (some (.scalar z)) (some (.vec c)) bs' = .ok k') :
    ∃ x y y', K.reconstruct (some (.scalar z)) (some (.vec c)) 0 = .ok x ∧ K.reconstructOut (some (.scalar 0)) (some (.vec c)) bs = .ok y ∧
      K.reconstructOut (some (.scalar 0)) (some (.vec c)) bs' = .ok y' ∧
      ∀ (j i : Nat) fa fb fb', K.imap[j]? = some i → entry x 0 i = some fa → entry y 0 j = some fb → entry y' 0 j = some fb' → 0 < fa → 0 < fb → 0 < fb' →
        ∃ v v', entry k 0 j = some v ∧ entry k' 0 j = some v' ∧ v' - v = mag fb - mag fb' := by
  obtain ⟨h1, f1⟩ := C67_model_magnitudes K A Ao hA hAo z bs c hc
  obtain ⟨h2, f2⟩ := C67_model_magnitudes K A Ao hA hAo z bs' c hc
  obtain ⟨⟨x, hx⟩, ⟨y, hy⟩⟩ := h1.mp ⟨k, hk⟩
  obtain ⟨-, ⟨y', hy'⟩⟩ := h2.mp ⟨k', hk'⟩
  refine ⟨x, y, y', hx, hy, hy', fun j i fa fb fb' hj e1 e2 e3 p1 p2 p3 => ?_⟩
  exact ⟨_, _, (f1 k x y hk hx hy).2.2 hs j i fa fb hj e1 e2 p1 p2, (f2 k' x y' hk' hx hy').2.2 hs j i fa fb' hj e1 e3 p1 p3, by ring⟩

/-- C172: changing the band shift changes an absolute magnitude by the difference of the model's rest-frame magnitudes in the two shifted bands, whatever the
photometry, redshift and distance; entries without photometry stay -9999. -/
theorem C172_absmag (K : Kc ℝ) (hr : AbReady K.abCls K.responses.length) (A Ao : AMat ℝ) (hA : K.Amatrix = some A) (hAo : K.AmatrixOut = some Ao)
    (z bs bs' : ℝ) (m iv c : List ℝ) (hm : m.length = K.responses.length) (hiv : iv.length = K.responses.length) (hc : c.length = K.templates.nsed)
    (hs : 0 < c.sum) (dist : Option ℝ) (hd : ∀ d ∈ dist, 0 < d) (a a' : NDA ℝ)
    (ha : K.absmag (some (.vec m)) (some (.vec iv)) (some (.scalar z)) (some (.vec c)) bs (dist.map .scalar) false false false = .ok (.one a))
    (ha' : K.absmag (some (.vec m)) (some (.vec iv)) (some (.scalar z)) (some (.vec c)) bs' (dist.map .scalar) false false false = .ok (.one a')) :
    ∃ x y y', K.reconstruct (some (.scalar z)) (some (.vec c)) 0 = .ok x ∧ K.reconstructOut (some (.scalar 0)) (some (.vec c)) bs = .ok y ∧
      K.reconstructOut (some (.scalar 0)) (some (.vec c)) bs' = .ok y' ∧
      ∀ (j i : Nat) mv v fa fb fb', K.imap[j]? = some i → m[i]? = some mv → iv[i]? = some v → entry x 0 i = some fa → entry y 0 j = some fb →
        entry y' 0 j = some fb' → 0 < fa → 0 < fb → 0 < fb' →
        ∃ M M', entry a 0 j = some M ∧ entry a' 0 j = some M' ∧ (0 < mv ∧ 0 < v → M' - M = mag fb' - mag fb) ∧ (¬(0 < mv ∧ 0 < v) → M = -9999 ∧ M' = -9999) := by
  obtain ⟨e1, f1⟩ := C70_corrected_partial K hr A Ao hA hAo z m iv c hm hiv hc bs dist hd
  obtain ⟨e2, f2⟩ := C70_corrected_partial K hr A Ao hA hAo z m iv c hm hiv hc bs' dist hd
  obtain ⟨k, hk⟩ := e1.mp ⟨a, ha⟩
  obtain ⟨k', hk'⟩ := e2.mp ⟨a', ha'⟩
  obtain ⟨x, y, y', hx, hy, hy', h⟩ := C172_kcorrect K A Ao hA hAo z bs bs' c hc hs k k' hk hk'
  refine ⟨x, y, y', hx, hy, hy', fun j i mv v fa fb fb' hj q1 q2 q3 q4 q5 p1 p2 p3 => ?_⟩
  obtain ⟨u, u', g1, g2, g3⟩ := h j i fa fb fb' hj q3 q4 q5 p1 p2 p3
  refine ⟨_, _, (f1 a k ha hk).2 j i mv v u hj q1 q2 g1, (f2 a' k' ha' hk').2 j i mv v u' hj q1 q2 g2, ?_, ?_⟩
  · intro hp
    rw [if_pos hp, if_pos hp]; linarith
  · intro hp
    rw [if_neg hp, if_neg hp]; exact ⟨rfl, rfl⟩

/-- C172, tables: the same for every galaxy of a table. -/
theorem C172_batch (K : Kc ℝ) (hr : AbReady K.abCls K.responses.length) (A Ao : AMat ℝ) (hA : K.Amatrix = some A) (hAo : K.AmatrixOut = some Ao)
    (bs bs' : ℝ) (zs : List ℝ) (ms ivs cs : List (List ℝ)) (hm : ms.length = zs.length) (hiv : ivs.length = zs.length) (hcs : cs.length = zs.length)
    (hml : ∀ m ∈ ms, m.length = K.responses.length) (hivl : ∀ m ∈ ivs, m.length = K.responses.length)
    (hcl : ∀ c ∈ cs, c.length = K.templates.nsed) (dist : Option (List ℝ)) (hd : ∀ ds ∈ dist, ds.length = zs.length ∧ ∀ d ∈ ds, 0 < d)
    (a a' : NDA ℝ)
    (ha : K.absmag (some (.arr [zs.length] K.responses.length ms)) (some (.arr [zs.length] K.responses.length ivs)) (some (.vec zs))
        (some (.arr [zs.length] K.templates.nsed cs)) bs (dist.map .vec) false false false = .ok (.one a))
    (ha' : K.absmag (some (.arr [zs.length] K.responses.length ms)) (some (.arr [zs.length] K.responses.length ivs)) (some (.vec zs))
        (some (.arr [zs.length] K.templates.nsed cs)) bs' (dist.map .vec) false false false = .ok (.one a'))
    (t : Nat) (z : ℝ) (m iv c : List ℝ) (hz : zs[t]? = some z) (hmt : ms[t]? = some m) (hivt : ivs[t]? = some iv) (hct : cs[t]? = some c) (hs : 0 < c.sum) :
    ∃ x y y', K.reconstruct (some (.scalar z)) (some (.vec c)) 0 = .ok x ∧ K.reconstructOut (some (.scalar 0)) (some (.vec c)) bs = .ok y ∧
      K.reconstructOut (some (.scalar 0)) (some (.vec c)) bs' = .ok y' ∧
      ∀ (j i : Nat) mv v fa fb fb', K.imap[j]? = some i → m[i]? = some mv → iv[i]? = some v → entry x 0 i = some fa → entry y 0 j = some fb →
        entry y' 0 j = some fb' → 0 < fa → 0 < fb → 0 < fb' →
        ∃ M M', entry a t j = some M ∧ entry a' t j = some M' ∧ (0 < mv ∧ 0 < v → M' - M = mag fb' - mag fb) ∧ (¬(0 < mv ∧ 0 < v) → M = -9999 ∧ M' = -9999) := by
  have hi : t < zs.length := (List.getElem?_eq_some_iff.mp hz).1
  obtain ⟨r1, h1, _, h3⟩ := absmag_row K hr A Ao hA hAo zs ms ivs cs hm hiv hcs hml hivl hcl bs dist (fun ds hds => (hd ds hds).1) false false false _ ha
    t z m iv c hz hmt hivt hct
  obtain ⟨r2, h1', _, h3'⟩ := absmag_row K hr A Ao hA hAo zs ms ivs cs hm hiv hcs hml hivl hcl bs' dist (fun ds hds => (hd ds hds).1) false false false _ ha'
    t z m iv c hz hmt hivt hct
  obtain ⟨a1, rfl⟩ := ret_shape h1
  obtain ⟨a2, rfl⟩ := ret_shape h1'
  obtain ⟨x, y, y', hx, hy, hy', h⟩ := C172_absmag K hr A Ao hA hAo z bs bs' m iv c (hml m (List.mem_of_getElem? hmt)) (hivl iv (List.mem_of_getElem? hivt))
    (hcl c (List.mem_of_getElem? hct)) hs _ (dist_pos hd hi) a1 a2 h1 h1'
  refine ⟨x, y, y', hx, hy, hy', fun j i mv v fa fb fb' hj q1 q2 q3 q4 q5 p1 p2 p3 => ?_⟩
  rw [(h3 0 a a1 rfl rfl).2 j, (h3' 0 a' a2 rfl rfl).2 j]
  exact h j i mv v fa fb fb' hj q1 q2 q3 q4 q5 p1 p2 p3

/-! ### C173 -/

section generic
variable {α : Type} [Arith α]

theorem process_bands {F F' : Fitter α} (h : F.templates = F'.templates) (z c : Option (NDA α)) :
    processInputs F z none none c = processInputs F' z none none c := by
  unfold processInputs
  rw [h]
  generalize F.abcorrect = b, F'.abcorrect = b', F.cls = k, F'.cls = k'
  cases b <;> cases b' <;> rfl

/-- C173: masses, star-formation fractions and metallicity depend on the templates, the coefficients, the redshifts and the cosmology only: not on the input or
output bands, the class, the band shift or the loaded responses. -/
theorem C173_masses {K K' : Kc α} (ht : K.templates = K'.templates) (hc : K.distmod = K'.distmod) (g g' : Reg α) (z c : Option (NDA α)) (bs bs' : α)
    (d : Option (NDA α)) (D D' : Derived α) (h : K.derived g z c bs d = .ok D) (h' : K'.derived g' z c bs' d = .ok D') :
    D.mremain = D'.mremain ∧ D.intsfh = D'.intsfh ∧ D.b50 = D'.b50 ∧ D.b300 = D'.b300 ∧ D.b1000 = D'.b1000 ∧ D.metallicity = D'.metallicity := by
  unfold Kc.derived at h h'
  rw [process_bands (F' := K.toFitter) (show K'.toFitter.templates = K.toFitter.templates from ht.symm)] at h'
  obtain ⟨i, hi, h⟩ := bind_ok_iff.mp h
  obtain ⟨i', hi', h'⟩ := bind_ok_iff.mp h'
  rw [hi] at hi'; cases hi'
  unfold Kc.derivedI at h h'
  rw [← hc, ← ht] at h'
  cases hco : i.coeffs with
  | none =>
    rw [hco] at h
    cases d with
    | none => simp only [pure_py, ok_bind] at h; cases h
    | some d =>
      obtain ⟨x, hx, h⟩ := bind_ok_iff.mp h
      cases h
  | some cs =>
    rw [hco] at h h'
    cases d with
    | none =>
      simp only [pure_py, ok_bind] at h h'
      simp only [bind_ok_iff] at h h'
      obtain ⟨t, e0, a1, ⟨x1, e1, y1⟩, a2, ⟨x2, e2, y2⟩, a3, e3, a4, ⟨x4, e4, y4⟩, a5, ⟨x5, e5, y5⟩, a6, ⟨x6, e6, y6⟩, a7, ⟨x7, e7, y7⟩, a8, e8, a9, e9, a10, e10, e⟩ := h
      obtain ⟨t', f0, b1, ⟨v1, f1, w1⟩, b2, ⟨v2, f2, w2⟩, b3, f3, b4, ⟨v4, f4, w4⟩, b5, ⟨v5, f5, w5⟩, b6, ⟨v6, f6, w6⟩, b7, ⟨v7, f7, w7⟩, b8, f8, b9, f9, b10, f10, f⟩ := h'
      rw [e0] at f0; cases f0
      rw [e1] at f1; cases f1
      rw [e2] at f2; cases f2
      rw [e4] at f4; cases f4
      rw [e5] at f5; cases f5
      rw [e6] at f6; cases f6
      rw [e7] at f7; cases f7
      cases y1; cases y2; cases y4; cases y5; cases y6; cases y7
      cases w1; cases w2; cases w4; cases w5; cases w6; cases w7
      cases e; cases f
      exact ⟨rfl, rfl, rfl, rfl, rfl, rfl⟩
    | some d =>
      obtain ⟨j, hj, h⟩ := bind_ok_iff.mp h
      obtain ⟨j', hj', h'⟩ := bind_ok_iff.mp h'
      rw [process_bands (F' := K.toFitter) (show K'.toFitter.templates = K.toFitter.templates from ht.symm), hj] at hj'
      cases hj'
      simp only [pure_py, ok_bind] at h h'
      simp only [bind_ok_iff] at h h'
      obtain ⟨t, e0, a1, ⟨x1, e1, y1⟩, a2, ⟨x2, e2, y2⟩, a3, e3, a4, ⟨x4, e4, y4⟩, a5, ⟨x5, e5, y5⟩, a6, ⟨x6, e6, y6⟩, a7, ⟨x7, e7, y7⟩, a8, e8, a9, e9, a10, e10, e⟩ := h
      obtain ⟨t', f0, b1, ⟨v1, f1, w1⟩, b2, ⟨v2, f2, w2⟩, b3, f3, b4, ⟨v4, f4, w4⟩, b5, ⟨v5, f5, w5⟩, b6, ⟨v6, f6, w6⟩, b7, ⟨v7, f7, w7⟩, b8, f8, b9, f9, b10, f10, f⟩ := h'
      rw [e0] at f0; cases f0
      rw [e1] at f1; cases f1
      rw [e2] at f2; cases f2
      rw [e4] at f4; cases f4
      rw [e5] at f5; cases f5
      rw [e6] at f6; cases f6
      rw [e7] at f7; cases f7
      cases y1; cases y2; cases y4; cases y5; cases y6; cases y7
      cases w1; cases w2; cases w4; cases w5; cases w6; cases w7
      cases e; cases f
      exact ⟨rfl, rfl, rfl, rfl, rfl, rfl⟩

theorem solarOf_congr {g g' : Reg α} {n : Name} (h : (g n).map (·.solarMag) = (g' n).map (·.solarMag)) (dm : Option (List α)) : solarOf g dm n = solarOf g' dm n := by
  unfold solarOf
  cases e : g n <;> cases e' : g' n <;> rw [e, e'] at h <;> simp at h
  simp only [ok_bind, h]

/-- C173: of the loaded responses, `derived` uses the solar magnitudes of the output bands and nothing else. -/
theorem C173_solar (K : Kc α) (g g' : Reg α) (h : ∀ n ∈ K.responsesOut, (g n).map (·.solarMag) = (g' n).map (·.solarMag)) (z c : Option (NDA α)) (bs : α)
    (d : Option (NDA α)) : K.derived g z c bs d = K.derived g' z c bs d := by
  have hm : ∀ dm, K.responsesOut.mapM (solarOf g dm) = K.responsesOut.mapM (solarOf g' dm) := fun dm =>
    mapM_congr (fun n hn => solarOf_congr (h n hn) dm)
  unfold Kc.derived Kc.derivedI
  simp only [hm]

end generic

/-- C172: the mass-to-light ratios with two band shifts are inversely as the model's rest-frame fluxes in the shifted bands. -/
theorem C172_mass_to_light (K : Kc ℝ) (t : Tmpl ℝ) (Ao : AMat ℝ) (h : MassKc K t Ao) (hg : AMat.Good Ao) (g : Reg ℝ) (z : ℝ) (c : List ℝ)
    (hc : c.length = K.templates.nsed) (bs bs' : ℝ) (D D' : Derived ℝ) (hD : K.derived g (some (.scalar z)) (some (.vec c)) bs none = .ok D)
    (hD' : K.derived g (some (.scalar z)) (some (.vec c)) bs' none = .ok D') :
    ∃ y y', K.reconstructOut (some (.scalar 0)) (some (.vec c)) bs = .ok y ∧ K.reconstructOut (some (.scalar 0)) (some (.vec c)) bs' = .ok y' ∧
      ∀ (j : Nat) n r s v v' q q', K.responsesOut[j]? = some n → g n = some r → r.solarMag = some s → entry y 0 j = some v → entry y' 0 j = some v' →
        0 < v → 0 < v' → entry D.mtol 0 j = some q → entry D'.mtol 0 j = some q' → q' * v' = q * v := by
  obtain ⟨y, mass, hy, hm, h1⟩ := C101_mass_light K t Ao h hg g z c hc bs D hD
  obtain ⟨y', mass', hy', hm', h2⟩ := C101_mass_light K t Ao h hg g z c hc bs' D' hD'
  have hmm : mass = mass' := by
    have := (C173_masses rfl rfl g g _ _ bs bs' none D D' hD hD').1
    rw [hm, hm'] at this
    exact (NDA.scalar.injEq _ _).mp this
  refine ⟨y, y', hy, hy', fun j n r s v v' q q' e1 e2 e3 e4 e5 p1 p2 e6 e7 => ?_⟩
  have k1 := h1 j n r s v q e1 e2 e3 e4 p1 e6
  have k2 := h2 j n r s v' q' e1 e2 e3 e5 p2 e7
  have fl : ∀ x : ℝ, 0 < x → (10 : ℝ) ^ (-0.4 * (mag x - K.distmod z - s)) = x * 10 ^ (0.4 * (K.distmod z + s)) := by
    intro x hx
    rw [show -0.4 * (mag x - K.distmod z - s) = Real.logb 10 x + 0.4 * (K.distmod z + s) by unfold mag; ring, Real.rpow_add (by norm_num),
      Real.rpow_logb (by norm_num) (by norm_num) hx]
  rw [fl v p1] at k1
  rw [fl v' p2] at k2
  have hp : (0 : ℝ) < 10 ^ (0.4 * (K.distmod z + s)) := Real.rpow_pos_of_pos (by norm_num) _
  refine mul_right_cancel₀ hp.ne' ?_
  rw [mul_assoc, mul_assoc, ← k2, ← k1, hmm]

/-! ### Examples -/

/-- Not vacuous (C172): absolute magnitudes with the band shifts 0 and 1, from positive model fluxes. -/
example : ∃ a a' x y y', demoKc2.absmag (some (.vec [5, 6])) (some (.vec [1, 1])) (some (.scalar 2)) (some (.vec [1, 1])) 0 none false false false = .ok (.one a) ∧
    demoKc2.absmag (some (.vec [5, 6])) (some (.vec [1, 1])) (some (.scalar 2)) (some (.vec [1, 1])) 1 none false false false = .ok (.one a') ∧
    demoKc2.reconstruct (some (.scalar 2)) (some (.vec [1, 1])) 0 = .ok x ∧
    demoKc2.reconstructOut (some (.scalar 0)) (some (.vec [1, 1])) 0 = .ok y ∧ demoKc2.reconstructOut (some (.scalar 0)) (some (.vec [1, 1])) 1 = .ok y' ∧
    entry x 0 0 = some 3 ∧ entry y 0 0 = some 3 ∧ entry y' 0 0 = some 1 := by
  have h0 : demoAm2.at 0 = .ok [[1, 2], [3, 1]] := at_node (k := 0) demo_ready.good (by simp [demoAm2])
  have h1 : demoAm2.at 1 = .ok [[2, 0], [1, 1]] := at_node (k := 1) demo_ready.good (by simp [demoAm2])
  have hx : demoKc2.reconstruct (some (.scalar 2)) (some (.vec [1, 1])) 0 = .ok (.arr [] 2 [[3, 3]]) := by
    refine (recon_real demoKc2.toFitter demoAm2 2 [1, 1] 0 rfl).trans ?_
    rw [show ((1 : ℝ) + 2) * (1 + 0) - 1 = 2 by norm_num, demoAm2_at2]
    simp [Except.map, reconRow, demoAm2, dot, sumL_real]; norm_num
  have hy : demoKc2.reconstructOut (some (.scalar 0)) (some (.vec [1, 1])) 0 = .ok (.arr [] 2 [[3, 4]]) := by
    refine (recon_real demoKc2.toFitter demoAm2 0 [1, 1] 0 rfl).trans ?_
    rw [show ((1 : ℝ) + 0) * (1 + 0) - 1 = 0 by norm_num, h0]
    simp [Except.map, reconRow, demoAm2, dot, sumL_real]; norm_num
  have hy' : demoKc2.reconstructOut (some (.scalar 0)) (some (.vec [1, 1])) 1 = .ok (.arr [] 2 [[1, 1]]) := by
    refine (recon_real demoKc2.toFitter demoAm2 0 [1, 1] 1 rfl).trans ?_
    rw [show ((1 : ℝ) + 0) * (1 + 1) - 1 = 1 by norm_num, h1]
    simp [Except.map, reconRow, demoAm2, dot, sumL_real]; norm_num
  obtain ⟨e1, -⟩ := C70_corrected_partial demoKc2 trivial demoAm2 demoAm2 rfl rfl 2 [5, 6] [1, 1] [1, 1] rfl rfl rfl 0 none (by simp)
  obtain ⟨e2, -⟩ := C70_corrected_partial demoKc2 trivial demoAm2 demoAm2 rfl rfl 2 [5, 6] [1, 1] [1, 1] rfl rfl rfl 1 none (by simp)
  obtain ⟨a, ha⟩ := e1.mpr ((C67_model_magnitudes demoKc2 demoAm2 demoAm2 rfl rfl 2 0 [1, 1] rfl).1.mpr ⟨⟨_, hx⟩, ⟨_, hy⟩⟩)
  obtain ⟨a', ha'⟩ := e2.mpr ((C67_model_magnitudes demoKc2 demoAm2 demoAm2 rfl rfl 2 1 [1, 1] rfl).1.mpr ⟨⟨_, hx⟩, ⟨_, hy'⟩⟩)
  exact ⟨a, a', _, _, _, ha, ha', hx, hy, hy', rfl, rfl, rfl⟩

/-- Not vacuous (C172, C173): quantities with two band shifts. -/
example : (∃ D, demoMass.derived demoReg (some (.scalar 1)) (some (.vec [2, 1])) 0 none = .ok D) ∧
    ∃ D', demoMass.derived demoReg (some (.scalar 1)) (some (.vec [2, 1])) 1 none = .ok D' :=
  ⟨demo_derived, (derived_returns demoMass_ok demoReg 1 [2, 1] rfl 1).mpr ⟨⟨_, demoAm_at1⟩, _, demoSolar⟩⟩

/-- Not vacuous (C173): a dictionary that differs in what `derived` does not use. -/
example : ∃ g' : Reg ℝ, (∀ n ∈ demoMass.responsesOut, (demoReg n).map (·.solarMag) = (g' n).map (·.solarMag)) ∧ g' ['q'] ≠ demoReg ['q'] := by
  refine ⟨fun n => if n = ['q'] then some ⟨none, none, none, none, none, none, none⟩ else demoReg n, ?_, by simp [demoReg]⟩
  intro n hn
  have : n = ['y'] := by simpa [demoMass] using hn
  subst this
  rfl

end KC
