import Verif.Model.Scripts
import Verif.Props.CoeffMass
import Verif.Props.ToAb

/-!
# The plots of mass-to-light ratio against colour of the example scripts (C212)

One galaxy goes through `derived` and `absmag` of a class with output bands B (0) and V (1), as in the scripts, and then
to the plot.
-/

namespace KC

/-- Luminosity in units of that of the Sun, from the absolute magnitudes of the galaxy and of the Sun on the same system. -/
noncomputable def Spec.solarLum (m s : ℝ) : ℝ := (10 : ℝ) ^ (-0.4 * (m - s))

open Spec

/-- the two magnitude systems give the same luminosity in solar units -/
theorem solarLum_vega (m s v : ℝ) : solarLum (m - v) (s - v) = solarLum m s := by
  unfold solarLum
  congr 1
  ring

theorem solarLum_model {v : ℝ} (hv : 0 < v) (dm s : ℝ) : solarLum (mag v - dm) s = v * lumFactor dm * lumFactor s := by
  unfold solarLum lumFactor mag
  rw [show -0.4 * (-2.5 * Real.logb 10 v - dm - s) = Real.logb 10 v + 0.4 * dm + 0.4 * s by ring, Real.rpow_add (by norm_num), Real.rpow_add (by norm_num),
    Real.rpow_logb (by norm_num) (by norm_num) hv]

theorem points_one (vB vV q MB MV : ℝ) : mtolPoints (some vB) (some vV) [(q, MB, MV)] =
    .ok (if 0 < q then [((MB - vB) - (MV - vV), Real.logb 10 q - 0.4 * vV)] else []) := by
  have e : ∀ q : ℝ, 0 < q → Arith.log10 (q / pow10 (lit (2 / 5) * vV)) = Real.logb 10 q - 0.4 * vV := by
    intro q hq
    rw [pow10_lum]
    show Real.logb 10 (q / lumFactor vV) = _
    rw [Real.logb_div hq.ne' (lumFactor_pos _).ne', lumFactor, Real.logb_rpow (by norm_num) (by norm_num)]
  show (Except.ok (List.map _ (List.filter _ _)) : Py (List (ℝ × ℝ))) = _
  by_cases hq : 0 < q
  · rw [if_pos hq]
    have : gtb q (lit 0) = true := by simpa using hq
    simp only [List.filter_cons, this, if_true, List.filter_nil, List.map_cons, List.map_nil, Except.ok.injEq, List.cons.injEq, Prod.mk.injEq, and_true]
    refine ⟨by ring, ?_⟩
    have := e q hq
    rw [← this]
    norm_num
  · rw [if_neg hq]
    have : gtb q (lit 0) = false := by simpa using hq
    simp only [List.filter_cons, this, Bool.false_eq_true, if_false, List.filter_nil, List.map_nil]

/-- Galaxies are drawn one by one, in the order of the catalogue. -/
theorem C212_each (vB vV : ℝ) (gs hs : List (ℝ × ℝ × ℝ)) : ∃ p q, mtolPoints (some vB) (some vV) gs = .ok p ∧ mtolPoints (some vB) (some vV) hs = .ok q ∧
    mtolPoints (some vB) (some vV) (gs ++ hs) = .ok (p ++ q) := by
  refine ⟨_, _, rfl, rfl, ?_⟩
  show (Except.ok (List.map _ (List.filter _ _)) : Py (List (ℝ × ℝ))) = _
  rw [List.filter_append, List.map_append]

theorem mtol_V {K : Kc ℝ} {t : Tmpl ℝ} {Ao : AMat ℝ} (hK : MassKc K t Ao) (hg : AMat.Good Ao) (g : Reg ℝ) (z : ℝ) (c : List ℝ)
    (hc : c.length = K.templates.nsed) (bs : ℝ) (D : Derived ℝ) (hD : K.derived g (some (.scalar z)) (some (.vec c)) bs none = .ok D) (M : ℝ) (hM : D.mremain = .scalar M)
    (ss f : List ℝ) (hs : SolarMags K g ss) (hf : K.reconstructOut (some (.scalar 0)) (some (.vec c)) bs = .ok (.vec f)) (j : Nat) (s v : ℝ) (hsj : ss[j]? = some s) (hv : f[j]? = some v) :
    entry D.mtol 0 j = some (if 0 < v then M / solarLum (mag v - K.distmod z) s else 0) := by
  obtain ⟨ss', f', hs', hf', V⟩ := derived_vals hK hg g z c hc bs D hD
  have e1 : ss' = ss := by
    have := ((solarMags_iff K g ss').mpr hs').symm.trans ((solarMags_iff K g ss).mpr hs)
    simpa using this
  have e2 : f' = f := by
    have := hf'.symm.trans hf
    simp only [Except.ok.injEq, NDA.vec, NDA.arr.injEq, List.cons.injEq, and_true] at this
    exact this.2.2
  subst e1 e2
  obtain ⟨row, hr, -, hrow⟩ := V.mtol
  have hM' := hM.symm.trans V.mremain
  simp only [NDA.scalar.injEq] at hM'
  have : entry D.mtol 0 j = row[j]? := by rw [hr]; rfl
  rw [this, hrow j s v hsj hv]
  by_cases h : 0 < v
  · rw [if_pos h, if_pos h, hM', solarLum_model h]
    have := (lumFactor_pos (K.distmod z)).ne'
    have := (lumFactor_pos s).ne'
    field_simp
  · rw [if_neg h, if_neg h]

/-- C212, what holds: a galaxy with positive mass and positive model flux in V is drawn at the difference of its two magnitudes on the Vega system and at the logarithm of its mass per
solar V luminosity less 0.4 times the AB magnitude of Vega in V; others are not drawn.  Missing: the last term should not be there, and galaxies without a magnitude should not be drawn. -/
theorem C212_partial {K : Kc ℝ} {t : Tmpl ℝ} {Ao : AMat ℝ} (hK : MassKc K t Ao) (hg : AMat.Good Ao) (g : Reg ℝ) (z : ℝ) (c : List ℝ)
    (hc : c.length = K.templates.nsed) (bs : ℝ) (D : Derived ℝ) (hD : K.derived g (some (.scalar z)) (some (.vec c)) bs none = .ok D) (M : ℝ) (hM : D.mremain = .scalar M)
    (ss f : List ℝ) (hs : SolarMags K g ss) (hf : K.reconstructOut (some (.scalar 0)) (some (.vec c)) bs = .ok (.vec f)) (s v : ℝ) (hs1 : ss[1]? = some s) (hv : f[1]? = some v)
    (vB vV MB MV : ℝ) :
    ∃ q, entry D.mtol 0 1 = some q ∧
      (0 < v → 0 < M → mtolPoints (some vB) (some vV) [(q, MB, MV)] =
        .ok [((MB - vB) - (MV - vV), Real.logb 10 (M / solarLum (mag v - K.distmod z - vV) (s - vV)) - 0.4 * vV)]) ∧
      (v ≤ 0 ∨ M ≤ 0 → mtolPoints (some vB) (some vV) [(q, MB, MV)] = .ok []) := by
  refine ⟨_, mtol_V hK hg g z c hc bs D hD M hM ss f hs hf 1 s v hs1 hv, fun h1 h2 => ?_, fun h => ?_⟩
  · have hL : 0 < solarLum (mag v - K.distmod z) s := by unfold solarLum; positivity
    rw [points_one, if_pos h1, if_pos (div_pos h2 hL), solarLum_vega]
  · rw [points_one, if_neg]
    split
    · have hL : 0 < solarLum (mag v - K.distmod z) s := by unfold solarLum; positivity
      rcases h with h | h
      · linarith
      · exact not_lt.mpr (div_nonpos_of_nonpos_of_nonneg h hL.le)
    · exact lt_irrefl _

/-- C212 is false.  Whenever Vega does not have AB magnitude zero in V, no galaxy is drawn at its mass per solar V luminosity, on whichever of the two systems the luminosity is computed.
And a galaxy with positive model flux but no positive flux and inverse variance in the bands nearest to B and V is drawn, at a colour that depends on the filters only. -/
theorem C212_false {K : Kc ℝ} {t : Tmpl ℝ} {A Ao : AMat ℝ} (hK : MassKc K t Ao) (hA : K.Amatrix = some A) (hg : AMat.Good Ao) (hr : AbReady K.abCls K.responses.length) (g : Reg ℝ)
    (z : ℝ) (m iv c : List ℝ) (hm : m.length = K.responses.length) (hiv : iv.length = K.responses.length)
    (hc : c.length = K.templates.nsed) (bs : ℝ) (D : Derived ℝ) (hD : K.derived g (some (.scalar z)) (some (.vec c)) bs none = .ok D) (M : ℝ) (hM : D.mremain = .scalar M)
    (ss f : List ℝ) (hs : SolarMags K g ss) (hf : K.reconstructOut (some (.scalar 0)) (some (.vec c)) bs = .ok (.vec f)) (s v : ℝ) (hs1 : ss[1]? = some s) (hv : f[1]? = some v)
    (hv0 : 0 < v) (hM0 : 0 < M) (k a : NDA ℝ) (hk : K.kcorrect (some (.scalar z)) (some (.vec c)) bs = .ok k)
    (ha : K.absmag (some (.vec m)) (some (.vec iv)) (some (.scalar z)) (some (.vec c)) bs none false false false = .ok (.one a))
    (q MB MV : ℝ) (hq : entry D.mtol 0 1 = some q) (hB : entry a 0 0 = some MB) (hV : entry a 0 1 = some MV) (vB vV : ℝ) :
    ∃ x y, mtolPoints (some vB) (some vV) [(q, MB, MV)] = .ok [(x, y)] ∧
      (vV ≠ 0 → y ≠ Real.logb 10 (M / solarLum (mag v - K.distmod z) s) ∧ y ≠ Real.logb 10 (M / solarLum (mag v - K.distmod z - vV) (s - vV))) ∧
      ((∀ (j i : Nat), j < 2 → K.imap[j]? = some i → ∃ x w kv, m[i]? = some x ∧ iv[i]? = some w ∧ entry k 0 j = some kv ∧ (x ≤ 0 ∨ w ≤ 0)) → 2 ≤ K.imap.length → x = vV - vB) := by
  obtain ⟨q', hq', hd, -⟩ := C212_partial hK hg g z c hc bs D hD M hM ss f hs hf s v hs1 hv vB vV MB MV
  obtain rfl : q = q' := by rw [hq] at hq'; simpa using hq'
  refine ⟨_, _, hd hv0 hM0, fun h => ?_, fun h hl => ?_⟩
  · rw [solarLum_vega]
    have : Real.logb 10 (M / solarLum (mag v - K.distmod z) s) - 0.4 * vV ≠ Real.logb 10 (M / solarLum (mag v - K.distmod z) s) := by
      intro e
      apply h
      linarith
    exact ⟨this, this⟩
  · obtain ⟨-, h2⟩ := (C70_corrected_partial K hr A Ao hA hK.out z m iv c hm hiv hc bs none (by simp)).2 a k ha hk
    have key : ∀ (j : Nat), j < 2 → entry a 0 j = some (-9999) := by
      intro j hj
      obtain ⟨x, w, kv, e1, e2, e3, e4⟩ := h j _ hj (List.getElem?_eq_getElem (by omega))
      rw [h2 j _ x w kv (List.getElem?_eq_getElem (by omega)) e1 e2 e3, if_neg]
      rintro ⟨g1, g2⟩
      rcases e4 with e4 | e4 <;> linarith
    have k0 := key 0 (by norm_num)
    have k1 := key 1 (by norm_num)
    rw [hB] at k0
    rw [hV] at k1
    simp only [Option.some.injEq] at k0 k1
    rw [k0, k1]
    ring

/-- Not vacuous: `demoBoth` at redshift 2, a galaxy made of both templates whose fluxes are not positive. -/
example : ∃ D M f k a q MB MV, MassKc demoBoth demoTmpl demoAm2 ∧ demoBoth.Amatrix = some demoAm2 ∧ AMat.Good demoAm2 ∧ AbReady demoBoth.abCls demoBoth.responses.length ∧
    demoBoth.derived demoReg (some (.scalar 2)) (some (.vec [1, 1])) 0 none = .ok D ∧ D.mremain = .scalar M ∧ 0 < M ∧ SolarMags demoBoth demoReg [4, 4] ∧
    demoBoth.reconstructOut (some (.scalar 0)) (some (.vec [1, 1])) 0 = .ok (.vec f) ∧ f[1]? = some (4 : ℝ) ∧
    demoBoth.kcorrect (some (.scalar 2)) (some (.vec [1, 1])) 0 = .ok k ∧
    demoBoth.absmag (some (.vec [-1, 0])) (some (.vec [1, 1])) (some (.scalar 2)) (some (.vec [1, 1])) 0 none false false false = .ok (.one a) ∧
    entry D.mtol 0 1 = some q ∧ entry a 0 0 = some MB ∧ entry a 0 1 = some MV := by
  have hin : InRange demoAm2.x 2 := by constructor <;> norm_num [demoAm2]
  have hK : MassKc demoBoth demoTmpl demoAm2 := ⟨rfl, ⟨rfl, rfl, rfl, rfl, rfl, rfl⟩, rfl⟩
  have h0 : demoAm2.at 0 = .ok [[1, 2], [3, 1]] := at_node (k := 0) demo_ready.good (by simp [demoAm2])
  have hs : SolarMags demoBoth demoReg [4, 4] := .cons ⟨⟨none, none, none, none, some 4, none, none⟩, by simp [demoReg], rfl⟩
    (.cons ⟨⟨none, none, none, none, some 4, none, none⟩, by simp [demoReg], rfl⟩ .nil)
  obtain ⟨D, hD⟩ := (derived_returns hK demoReg 2 [1, 1] rfl 0).mpr ⟨⟨_, h0⟩, ⟨_, hs⟩⟩
  obtain ⟨_, _, _, _, v⟩ := derived_vals hK demo_ready.good demoReg 2 [1, 1] rfl 0 D hD
  have ho : demoBoth.reconstructOut (some (.scalar 0)) (some (.vec [1, 1])) 0 = .ok (.vec (reconRow 0 [[1, 2], [3, 1]] [1, 1])) := by
    have := recon_real ({ demoBoth.toFitter with Amatrix := some demoAm2 }) demoAm2 0 [1, 1] 0 rfl
    rw [show ((1 : ℝ) + 0) * (1 + 0) - 1 = 0 by norm_num, h0] at this
    exact this
  have hx : demoBoth.reconstruct (some (.scalar 2)) (some (.vec [1, 1])) 0 = .ok (.vec (reconRow 0 [[1, 2], [3 / 2, 3 / 2]] [1, 1])) := by
    refine (recon_real demoBoth.toFitter demoAm2 2 _ 0 rfl).trans ?_
    rw [show ((1 : ℝ) + 2) * (1 + 0) - 1 = 2 by norm_num, demoAm2_at2]
    rfl
  obtain ⟨k, hk⟩ := (C67_model_magnitudes demoBoth demoAm2 demoAm2 rfl rfl 2 0 [1, 1] rfl).1.mpr ⟨⟨_, hx⟩, ⟨_, ho⟩⟩
  have C := C70_corrected_partial demoBoth trivial demoAm2 demoAm2 rfl rfl 2 [-1, 0] [1, 1] [1, 1] rfl rfl rfl 0 none (by simp)
  obtain ⟨a, ha⟩ := C.1.mpr ⟨k, hk⟩
  obtain ⟨-, h2, h3⟩ := (C67_model_magnitudes demoBoth demoAm2 demoAm2 rfl rfl 2 0 [1, 1] rfl).2 k _ _ hk hx ho
  have hk0 := h3 (by norm_num) 0 0 _ _ rfl rfl rfl (by norm_num [reconRow, dot, sumL_real]) (by norm_num [reconRow, dot, sumL_real])
  have hk1 := h3 (by norm_num) 1 1 _ _ rfl rfl rfl (by norm_num [reconRow, dot, sumL_real]) (by norm_num [reconRow, dot, sumL_real])
  have a0 := (C.2 a k ha hk).2 0 0 _ _ _ rfl rfl rfl hk0
  have a1 := (C.2 a k ha hk).2 1 1 _ _ _ rfl rfl rfl hk1
  have f1 : (reconRow (0 : ℝ) [[1, 2], [3, 1]] [1, 1])[1]? = some (4 : ℝ) := by norm_num [reconRow, dot, sumL_real]
  exact ⟨D, _, _, k, a, _, _, _, hK, rfl, demo_ready.good, trivial, hD, v.mremain, mul_pos (by norm_num [total, demoTmpl]) (lumFactor_pos _), hs, ho, f1, hk, ha,
    mtol_V hK demo_ready.good demoReg 2 [1, 1] rfl 0 D hD _ v.mremain [4, 4] _ hs ho 1 4 4 rfl f1, a0, a1⟩

end KC
