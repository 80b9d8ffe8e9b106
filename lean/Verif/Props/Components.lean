import Verif.Props.Between

/-!
# Galaxies made of two components (C198)
-/

namespace KC

namespace Spec

/-- The coefficients of two galaxies seen as one: coefficient by coefficient, the sum. -/
noncomputable def together (c1 c2 : List ℝ) : List ℝ := List.zipWith (· + ·) c1 c2

end Spec

open Spec

theorem together_eq (c1 c2 : List ℝ) : together c1 c2 = lincomb 1 1 c1 c2 := by
  simp only [together, lincomb, one_mul]

theorem together_length {c1 c2 : List ℝ} {n : Nat} (h1 : c1.length = n) (h2 : c2.length = n) : (together c1 c2).length = n := by
  simp [together, h1, h2]

theorem total_together {c1 c2 : List ℝ} (v : List ℝ) (h : c1.length = c2.length) : total (together c1 c2) v = total c1 v + total c2 v := by
  rw [together_eq, total_lincomb 1 1 c1 c2 v h]; ring

theorem sum_together : ∀ {c1 c2 : List ℝ}, c1.length = c2.length → (together c1 c2).sum = c1.sum + c2.sum
  | [], [], _ => by simp [together]
  | x :: c1, y :: c2, h => by
    have := sum_together (c1 := c1) (c2 := c2) (by simpa using h)
    simp only [together] at this
    simp only [together, List.zipWith_cons_cons, List.sum_cons, this]; ring

/-- A mean of `x` and `y` with the weights `T1` and `T2`. -/
theorem weighted_means {X1 X2 T1 T2 L : ℝ} (h1 : 0 < T1) (h2 : 0 < T2) :
    (X1 + X2) / (T1 + T2) * (T1 * L + T2 * L) = X1 / T1 * (T1 * L) + X2 / T2 * (T2 * L) := by
  have := (add_pos h1 h2).ne'
  field_simp

theorem entry_together {n : Nat} {v1 v2 : List ℝ} {j : Nat} {x y : ℝ} (h1 : entry (.arr [] n [v1]) 0 j = some x)
    (h2 : entry (.arr [] n [v2]) 0 j = some y) : entry (.arr [] n [lincomb 1 1 v1 v2]) 0 j = some (x + y) := by
  simp only [entry, List.getElem?_cons_zero, Option.bind_some] at h1 h2 ⊢
  simp [lincomb, List.getElem?_zipWith, h1, h2]

/-- C198: the model fluxes of two components add up, in the input bands and in the output bands. -/
theorem C198_fluxes (K : Kc ℝ) (A Ao : AMat ℝ) (hA : K.Amatrix = some A) (hAo : K.AmatrixOut = some Ao) (z bs : ℝ) (c1 c2 : List ℝ)
    (h1 : c1.length = K.templates.nsed) (h2 : c2.length = K.templates.nsed) :
    (∀ r1 r2, K.reconstruct (some (.scalar z)) (some (.vec c1)) bs = .ok r1 → K.reconstruct (some (.scalar z)) (some (.vec c2)) bs = .ok r2 →
      ∃ r, K.reconstruct (some (.scalar z)) (some (.vec (together c1 c2))) bs = .ok r ∧
        ∀ (j : Nat) x y, entry r1 0 j = some x → entry r2 0 j = some y → entry r 0 j = some (x + y)) ∧
    (∀ r1 r2, K.reconstructOut (some (.scalar z)) (some (.vec c1)) bs = .ok r1 → K.reconstructOut (some (.scalar z)) (some (.vec c2)) bs = .ok r2 →
      ∃ r, K.reconstructOut (some (.scalar z)) (some (.vec (together c1 c2))) bs = .ok r ∧
        ∀ (j : Nat) x y, entry r1 0 j = some x → entry r2 0 j = some y → entry r 0 j = some (x + y)) := by
  rw [together_eq]
  constructor
  · intro r1 r2 e1 e2
    unfold Fitter.reconstruct at e1 e2 ⊢
    rw [hA] at e1 e2 ⊢
    obtain ⟨v1, v2, rfl, rfl, -, e⟩ := C58_linear K.toFitter A z bs 1 1 c1 c2 h1 h2 r1 r2 e1 e2
    exact ⟨_, e, fun j x y hx hy => entry_together hx hy⟩
  · intro r1 r2 e1 e2
    unfold Kc.reconstructOut at e1 e2 ⊢
    rw [hAo] at e1 e2 ⊢
    obtain ⟨v1, v2, rfl, rfl, -, e⟩ := C58_linear K.toFitter Ao z bs 1 1 c1 c2 h1 h2 r1 r2 e1 e2
    exact ⟨_, e, fun j x y hx hy => entry_together hx hy⟩

/-- C198: masses and integrated star formation of two components add up, the metallicity is the mean weighted with the masses, the star-formation
fractions are the means weighted with the integrated star formation. -/
theorem C198_derived (K : Kc ℝ) (t : Tmpl ℝ) (Ao : AMat ℝ) (h : MassKc K t Ao) (hg : AMat.Good Ao) (g : Reg ℝ) (z : ℝ) (c1 c2 : List ℝ)
    (h1 : c1.length = K.templates.nsed) (h2 : c2.length = K.templates.nsed) (bs : ℝ) (D1 D2 : Derived ℝ)
    (hD1 : K.derived g (some (.scalar z)) (some (.vec c1)) bs none = .ok D1)
    (hD2 : K.derived g (some (.scalar z)) (some (.vec c2)) bs none = .ok D2) :
    ∃ D m1 m2 i1 i2, K.derived g (some (.scalar z)) (some (.vec (together c1 c2))) bs none = .ok D ∧
      D1.mremain = .scalar m1 ∧ D2.mremain = .scalar m2 ∧ D.mremain = .scalar (m1 + m2) ∧
      D1.intsfh = .scalar i1 ∧ D2.intsfh = .scalar i2 ∧ D.intsfh = .scalar (i1 + i2) ∧
      (0 < m1 → 0 < m2 →
        (∃ x x1 x2, D.metallicity = .scalar x ∧ D1.metallicity = .scalar x1 ∧ D2.metallicity = .scalar x2 ∧ x * (m1 + m2) = x1 * m1 + x2 * m2) ∧
        (0 < i1 → 0 < i2 →
          (∃ x x1 x2, D.b50 = .scalar x ∧ D1.b50 = .scalar x1 ∧ D2.b50 = .scalar x2 ∧ x * (i1 + i2) = x1 * i1 + x2 * i2) ∧
          (∃ x x1 x2, D.b300 = .scalar x ∧ D1.b300 = .scalar x1 ∧ D2.b300 = .scalar x2 ∧ x * (i1 + i2) = x1 * i1 + x2 * i2) ∧
          (∃ x x1 x2, D.b1000 = .scalar x ∧ D1.b1000 = .scalar x1 ∧ D2.b1000 = .scalar x2 ∧ x * (i1 + i2) = x1 * i1 + x2 * i2))) := by
  have hl := together_length h1 h2
  have hlen : c1.length = c2.length := h1.trans h2.symm
  obtain ⟨D, hD⟩ := (derived_returns h g z _ hl bs).mpr ((derived_returns h g z c1 h1 bs).mp ⟨D1, hD1⟩)
  obtain ⟨_, _, _, _, v1⟩ := derived_vals h hg g z c1 h1 bs D1 hD1
  obtain ⟨_, _, _, _, v2⟩ := derived_vals h hg g z c2 h2 bs D2 hD2
  obtain ⟨_, _, _, _, v⟩ := derived_vals h hg g z _ hl bs D hD
  have L := lumFactor_pos (K.distmod z)
  refine ⟨D, _, _, _, _, hD, v1.mremain, v2.mremain, ?_, v1.intsfh, v2.intsfh, ?_, fun hm1 hm2 => ⟨?_, fun hi1 hi2 => ⟨?_, ?_, ?_⟩⟩⟩
  · rw [v.mremain, total_together _ hlen, add_mul]
  · rw [v.intsfh, total_together _ hlen, add_mul]
  all_goals
    have p1 : 0 < total c1 t.mremain := pos_of_mul_pos_left hm1 L.le
    have p2 : 0 < total c2 t.mremain := pos_of_mul_pos_left hm2 L.le
    have p : 0 < total (together c1 c2) t.mremain := by rw [total_together _ hlen]; exact add_pos p1 p2
  · refine ⟨_, _, _, v.metallicity, v1.metallicity, v2.metallicity, ?_⟩
    rw [if_pos p, if_pos p1, if_pos p2, total_together _ hlen, total_together _ hlen]
    exact weighted_means p1 p2
  all_goals
    have q1 : 0 < total c1 t.intsfh := pos_of_mul_pos_left hi1 L.le
    have q2 : 0 < total c2 t.intsfh := pos_of_mul_pos_left hi2 L.le
  · refine ⟨_, _, _, v.b50, v1.b50, v2.b50, ?_⟩
    rw [if_pos p, if_pos p1, if_pos p2, total_together _ hlen, total_together _ hlen]
    exact weighted_means q1 q2
  · refine ⟨_, _, _, v.b300, v1.b300, v2.b300, ?_⟩
    rw [if_pos p, if_pos p1, if_pos p2, total_together _ hlen, total_together _ hlen]
    exact weighted_means q1 q2
  · refine ⟨_, _, _, v.b1000, v1.b1000, v2.b1000, ?_⟩
    rw [if_pos p, if_pos p1, if_pos p2, total_together _ hlen, total_together _ hlen]
    exact weighted_means q1 q2

/-- C198: in every output band the mass-to-light ratio of two components together is the mean of theirs, weighted with their rest-frame fluxes. -/
theorem C198_mass_to_light (K : Kc ℝ) (t : Tmpl ℝ) (Ao : AMat ℝ) (h : MassKc K t Ao) (hg : AMat.Good Ao) (g : Reg ℝ) (z : ℝ) (c1 c2 : List ℝ)
    (h1 : c1.length = K.templates.nsed) (h2 : c2.length = K.templates.nsed) (bs : ℝ) (D1 D2 : Derived ℝ)
    (hD1 : K.derived g (some (.scalar z)) (some (.vec c1)) bs none = .ok D1)
    (hD2 : K.derived g (some (.scalar z)) (some (.vec c2)) bs none = .ok D2) (r1 r2 : NDA ℝ)
    (hr1 : K.reconstructOut (some (.scalar 0)) (some (.vec c1)) bs = .ok r1)
    (hr2 : K.reconstructOut (some (.scalar 0)) (some (.vec c2)) bs = .ok r2) (j : Nat) (hj : j < K.responsesOut.length) (f1 f2 : ℝ)
    (e1 : entry r1 0 j = some f1) (e2 : entry r2 0 j = some f2) (p1 : 0 < f1) (p2 : 0 < f2) :
    ∃ D x x1 x2, K.derived g (some (.scalar z)) (some (.vec (together c1 c2))) bs none = .ok D ∧
      entry D.mtol 0 j = some x ∧ entry D1.mtol 0 j = some x1 ∧ entry D2.mtol 0 j = some x2 ∧ x * (f1 + f2) = x1 * f1 + x2 * f2 := by
  have hl := together_length h1 h2
  have hlen : c1.length = c2.length := h1.trans h2.symm
  obtain ⟨hM, ss, hss⟩ := (derived_returns h g z c1 h1 bs).mp ⟨D1, hD1⟩
  obtain ⟨D, hD⟩ := (derived_returns h g z _ hl bs).mpr ⟨hM, ss, hss⟩
  obtain ⟨n, hn⟩ : ∃ n, K.responsesOut[j]? = some n := ⟨_, List.getElem?_eq_getElem hj⟩
  obtain ⟨r, s, hr, hsol⟩ : ∃ r s, g n = some r ∧ r.solarMag = some s := by
    obtain ⟨_, hje⟩ := List.getElem?_eq_some_iff.mp hn
    obtain ⟨r', hr', hs'⟩ := (List.forall₂_iff_get.mp hss).2 j hj (by rw [← hss.length_eq]; exact hj)
    simp only [List.get_eq_getElem] at hr' hs'
    rw [hje] at hr'
    exact ⟨r', _, hr', hs'⟩
  have L : (0 : ℝ) < 10 ^ (0.4 * s) := Real.rpow_pos_of_pos (by norm_num) _
  obtain ⟨o1, ho1, -, F1⟩ := C78_formula K t Ao h hg g z c1 h1 bs D1 hD1
  obtain ⟨o2, ho2, -, F2⟩ := C78_formula K t Ao h hg g z c2 h2 bs D2 hD2
  obtain ⟨o, ho, -, F⟩ := C78_formula K t Ao h hg g z _ hl bs D hD
  rw [hr1] at ho1; cases ho1
  rw [hr2] at ho2; cases ho2
  have e : entry o 0 j = some (f1 + f2) := by
    unfold Kc.reconstructOut at hr1 hr2 ho
    rw [h.out] at hr1 hr2 ho
    obtain ⟨v1, v2, rfl, rfl, -, e⟩ := C58_linear K.toFitter Ao 0 bs 1 1 c1 c2 h1 h2 r1 r2 hr1 hr2
    rw [together_eq] at ho
    cases ho.symm.trans e
    exact entry_together e1 e2
  refine ⟨D, _, _, _, hD, F j n r s _ hn hr hsol e, F1 j n r s _ hn hr hsol e1, F2 j n r s _ hn hr hsol e2, ?_⟩
  rw [if_pos p1, if_pos p2, if_pos (add_pos p1 p2), total_together _ hlen]
  have := (add_pos p1 p2).ne'
  field_simp

theorem pow_mag {a b : ℝ} (ha : 0 < a) (hb : 0 < b) : (10 : ℝ) ^ (-0.4 * (mag a - mag b)) = a / b := by
  rw [mag, mag, show -0.4 * (-2.5 * Real.logb 10 a - -2.5 * Real.logb 10 b) = Real.logb 10 a - Real.logb 10 b by ring,
    Real.rpow_sub (by norm_num), Real.rpow_logb (by norm_num) (by norm_num) ha, Real.rpow_logb (by norm_num) (by norm_num) hb]

/-- C198: the K-correction of two components together is the mean of theirs, taken of `10 ** (-0.4 k)` and weighted with the fluxes in the output band at
rest; so it lies between the two. -/
theorem C198_kcorrect (K : Kc ℝ) (A Ao : AMat ℝ) (hA : K.Amatrix = some A) (hAo : K.AmatrixOut = some Ao) (z bs : ℝ) (c1 c2 : List ℝ)
    (h1 : c1.length = K.templates.nsed) (h2 : c2.length = K.templates.nsed) (s1 : 0 < c1.sum) (s2 : 0 < c2.sum) (k1 k2 a1 a2 b1 b2 : NDA ℝ)
    (hk1 : K.kcorrect (some (.scalar z)) (some (.vec c1)) bs = .ok k1) (hk2 : K.kcorrect (some (.scalar z)) (some (.vec c2)) bs = .ok k2)
    (ha1 : K.reconstruct (some (.scalar z)) (some (.vec c1)) 0 = .ok a1) (ha2 : K.reconstruct (some (.scalar z)) (some (.vec c2)) 0 = .ok a2)
    (hb1 : K.reconstructOut (some (.scalar 0)) (some (.vec c1)) bs = .ok b1) (hb2 : K.reconstructOut (some (.scalar 0)) (some (.vec c2)) bs = .ok b2)
    (j i : Nat) (hj : K.imap[j]? = some i) (fa1 fa2 fb1 fb2 : ℝ) (ea1 : entry a1 0 i = some fa1) (ea2 : entry a2 0 i = some fa2)
    (eb1 : entry b1 0 j = some fb1) (eb2 : entry b2 0 j = some fb2) (pa1 : 0 < fa1) (pa2 : 0 < fa2) (pb1 : 0 < fb1) (pb2 : 0 < fb2) :
    ∃ k v v1 v2, K.kcorrect (some (.scalar z)) (some (.vec (together c1 c2))) bs = .ok k ∧
      entry k 0 j = some v ∧ entry k1 0 j = some v1 ∧ entry k2 0 j = some v2 ∧
      (10 : ℝ) ^ (-0.4 * v) * (fb1 + fb2) = 10 ^ (-0.4 * v1) * fb1 + 10 ^ (-0.4 * v2) * fb2 ∧ min v1 v2 ≤ v ∧ v ≤ max v1 v2 := by
  have hl := together_length h1 h2
  have hlen : c1.length = c2.length := h1.trans h2.symm
  obtain ⟨a, ha, ea⟩ := (C198_fluxes K A Ao hA hAo z 0 c1 c2 h1 h2).1 a1 a2 ha1 ha2
  obtain ⟨b, hb, eb⟩ := (C198_fluxes K A Ao hA hAo 0 bs c1 c2 h1 h2).2 b1 b2 hb1 hb2
  obtain ⟨g, G⟩ := C67_model_magnitudes K A Ao hA hAo z bs _ hl
  obtain ⟨k, hk⟩ := g.mpr ⟨⟨a, ha⟩, ⟨b, hb⟩⟩
  have pa := add_pos pa1 pa2
  have pb := add_pos pb1 pb2
  refine ⟨k, _, _, _, hk, (G k a b hk ha hb).2.2 (by rw [sum_together hlen]; exact add_pos s1 s2) j i _ _ hj (ea i _ _ ea1 ea2) (eb j _ _ eb1 eb2) pa pb,
    ((C67_model_magnitudes K A Ao hA hAo z bs c1 h1).2 k1 a1 b1 hk1 ha1 hb1).2.2 s1 j i _ _ hj ea1 eb1 pa1 pb1,
    ((C67_model_magnitudes K A Ao hA hAo z bs c2 h2).2 k2 a2 b2 hk2 ha2 hb2).2.2 s2 j i _ _ hj ea2 eb2 pa2 pb2, ?_, ?_, ?_⟩
  · rw [pow_mag pa pb, pow_mag pa1 pb1, pow_mag pa2 pb2, div_mul_cancel₀ _ pb.ne', div_mul_cancel₀ _ pb1.ne', div_mul_cancel₀ _ pb2.ne']
  · rcases le_total (fa1 / fb1) (fa2 / fb2) with q | q
    · refine (min_le_right _ _).trans (mag_sub_le pa2 pb2 pa pb ?_)
      rw [div_le_div_iff₀ pb1 pb2] at q
      rw [div_le_div_iff₀ pb pb2]; nlinarith
    · refine (min_le_left _ _).trans (mag_sub_le pa1 pb1 pa pb ?_)
      rw [div_le_div_iff₀ pb2 pb1] at q
      rw [div_le_div_iff₀ pb pb1]; nlinarith
  · rcases le_total (fa1 / fb1) (fa2 / fb2) with q | q
    · refine (mag_sub_le pa pb pa1 pb1 ?_).trans (le_max_left _ _)
      rw [div_le_div_iff₀ pb1 pb2] at q
      rw [div_le_div_iff₀ pb1 pb]; nlinarith
    · refine (mag_sub_le pa pb pa2 pb2 ?_).trans (le_max_right _ _)
      rw [div_le_div_iff₀ pb2 pb1] at q
      rw [div_le_div_iff₀ pb2 pb]; nlinarith

/-- Not vacuous (`C198_derived`, `C198_mass_to_light`). -/
example : (∃ D, demoMass.derived demoReg (some (.scalar 1)) (some (.vec [2, 1])) 0 none = .ok D) ∧
    (∃ D, demoMass.derived demoReg (some (.scalar 1)) (some (.vec [0, 3])) 0 none = .ok D) ∧
    (∀ c ∈ [[(2 : ℝ), 1], [0, 3]], 0 < total c demoTmpl.mremain ∧ 0 < total c demoTmpl.intsfh ∧ ∃ b fb,
      demoMass.reconstructOut (some (.scalar 0)) (some (.vec c)) 0 = .ok b ∧ entry b 0 0 = some fb ∧ 0 < fb) := by
  have hy : ∀ c : List ℝ, c.length = 2 → demoMass.reconstructOut (some (.scalar 0)) (some (.vec c)) 0 = .ok (.arr [] 1 [reconRow 0 [[1, 2]] c]) := by
    intro c hc
    refine (recon_real demoMass.toFitter demoAm 0 c 0 hc).trans ?_
    rw [show ((1 : ℝ) + 0) * (1 + 0) - 1 = 0 by norm_num, demoAm_at0]
    rfl
  refine ⟨demo_derived, (derived_returns demoMass_ok demoReg 1 [0, 3] rfl 0).mpr ((derived_returns demoMass_ok demoReg 1 [2, 1] rfl 0).mp demo_derived), ?_⟩
  intro c hc
  simp only [List.mem_cons, List.not_mem_nil, or_false] at hc
  rcases hc with rfl | rfl
  · exact ⟨by norm_num [total, demoTmpl], by norm_num [total, demoTmpl], _, _, hy _ rfl, rfl, by norm_num [dot, sumL_real]⟩
  · exact ⟨by norm_num [total, demoTmpl], by norm_num [total, demoTmpl], _, _, hy _ rfl, rfl, by norm_num [dot, sumL_real]⟩

/-- Not vacuous (`C198_fluxes`, `C198_kcorrect`): components [1, 1] and [2, 0] of a galaxy at redshift 2, in the second band. -/
example : ∀ c ∈ [[(1 : ℝ), 1], [2, 0]], 0 < c.sum ∧ (∃ k, demoKc2.kcorrect (some (.scalar 2)) (some (.vec c)) 0 = .ok k) ∧ ∃ a b fa fb,
      demoKc2.reconstruct (some (.scalar 2)) (some (.vec c)) 0 = .ok a ∧
      demoKc2.reconstructOut (some (.scalar 0)) (some (.vec c)) 0 = .ok b ∧ entry a 0 1 = some fa ∧ entry b 0 1 = some fb ∧
      0 < fa ∧ 0 < fb := by
  have h0 : demoAm2.at 0 = .ok [[1, 2], [3, 1]] := at_node (k := 0) demo_ready.good (by simp [demoAm2])
  have hx : ∀ c : List ℝ, c.length = 2 → demoKc2.reconstruct (some (.scalar 2)) (some (.vec c)) 0 = .ok (.arr [] 2 [reconRow 0 [[1, 2], [3 / 2, 3 / 2]] c]) := by
    intro c hc
    refine (recon_real demoKc2.toFitter demoAm2 2 c 0 hc).trans ?_
    rw [show ((1 : ℝ) + 2) * (1 + 0) - 1 = 2 by norm_num, demoAm2_at2]
    rfl
  have hy : ∀ c : List ℝ, c.length = 2 → demoKc2.reconstructOut (some (.scalar 0)) (some (.vec c)) 0 = .ok (.arr [] 2 [reconRow 0 [[1, 2], [3, 1]] c]) := by
    intro c hc
    refine (recon_real demoKc2.toFitter demoAm2 0 c 0 hc).trans ?_
    rw [show ((1 : ℝ) + 0) * (1 + 0) - 1 = 0 by norm_num, h0]
    rfl
  intro c hc
  simp only [List.mem_cons, List.not_mem_nil, or_false] at hc
  rcases hc with rfl | rfl
  · exact ⟨by norm_num, (C67_model_magnitudes demoKc2 demoAm2 demoAm2 rfl rfl 2 0 [1, 1] rfl).1.mpr ⟨⟨_, hx _ rfl⟩, ⟨_, hy _ rfl⟩⟩,
      _, _, _, _, hx _ rfl, hy _ rfl, rfl, rfl, by norm_num [dot, sumL_real], by norm_num [dot, sumL_real]⟩
  · exact ⟨by norm_num, (C67_model_magnitudes demoKc2 demoAm2 demoAm2 rfl rfl 2 0 [2, 0] rfl).1.mpr ⟨⟨_, hx _ rfl⟩, ⟨_, hy _ rfl⟩⟩,
      _, _, _, _, hx _ rfl, hy _ rfl, rfl, rfl, by norm_num [dot, sumL_real], by norm_num [dot, sumL_real]⟩

end KC
