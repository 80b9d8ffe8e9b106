import Verif.Props.SampleErrors

/-!
# Errors without a contribution of the K-corrections (C217)
-/

namespace KC
open Spec

/-- C217, matched band shift: with the default bands and the band shift equal to the redshift of a galaxy, the documented error of its absolute magnitude is the
scatter of the observed magnitudes of its samples, whatever the coefficients fitted to the samples (as long as the fits have flux in the band). -/
theorem C217_matched (K : Kc ℝ) (hr : AbReady K.abCls K.responses.length) (A : AMat ℝ) (hK : DefaultBands K A) (hG : A.Good)
    (hn : A.nrow = K.responses.length) (hi : K.imap.length = A.nrow) (mc : Nat) (maggies coeffs : Nat → Nat → Nat → ℝ) (zs : List ℝ) (hz : zs ≠ []) (ivs : List (List ℝ))
    (hiv : ivs.length = zs.length) (hivl : ∀ iv ∈ ivs, iv.length = K.responses.length) (dist : Option (List ℝ))
    (hd : ∀ ds ∈ dist, ds.length = zs.length ∧ ∀ d ∈ ds, 0 < d) (x : NDA ℝ) (z : ℝ) (hz1 : -1 < z)
    (h : K.absmagMc (cubeOf zs.length K.responses.length mc maggies) (some (.arr [zs.length] K.responses.length ivs)) (some (.vec zs))
        (cubeOf zs.length K.templates.nsed mc coeffs) z (dist.map .vec) false false = .ok (.one x))
    (g j i : Nat) (v : ℝ) (iv : List ℝ) (hg : zs[g]? = some z) (hgi : ivs[g]? = some iv) (hj : K.imap[j]? = some i) (hv : iv[i]? = some v) (hv0 : 0 < v)
    (hpos : ∃ k < mc, 0 < maggies g i k) (hmiss : ∀ k < mc, 0 < maggies g i k → entry x (g * K.responses.length + j) k ≠ some (-9999))
    (hfit : ∀ k < mc, 0 < ((List.range K.templates.nsed).map (fun t => coeffs g t k)).sum ∧
      ∃ r f, K.reconstruct (some (.scalar z)) (some (.vec ((List.range K.templates.nsed).map (fun t => coeffs g t k)))) 0 = .ok r ∧ entry r 0 j = some f ∧ f ≠ 0) :
    (mcErrors x)[g * K.responses.length + j]? =
      some (scatter ((Finset.range mc).filter (fun k => 0 < maggies g i k)) (fun k => mag (maggies g i k))) := by
  obtain ⟨kv, h1, h2⟩ := C216_errors K hr A A hK.inp hK.out hG hn hi mc maggies coeffs zs hz ivs hiv hivl z dist hd x h g j i z v iv hg hgi hj hv hv0 hpos hmiss
  rw [h2]
  congr 1
  obtain ⟨k0, hk0, hm0⟩ := hpos
  rw [← scatter_shift _ ⟨k0, by simp [hk0, hm0]⟩ (fun k => mag (maggies g i k)) (2.5 * Real.logb 10 (1 + z))]
  apply scatter_congr
  intro k hk
  simp only [Finset.mem_filter, Finset.mem_range] at hk
  obtain ⟨kc, a1, a2⟩ := h1 k hk.1
  obtain ⟨hs, r, f, b1, b2, b3⟩ := hfit k hk.1
  obtain ⟨kc', c1, _, c2⟩ := C65_bands K A hK z hz1 _ (by rw [List.length_map, List.length_range]) hs r b1
  rw [a1] at c1
  cases c1
  have := c2 j f (by rw [← hK.len]; exact (List.getElem?_eq_some_iff.mp hj).1) b2 b3
  rw [a2] at this
  rw [Option.some.inj this]
  ring

/-- C217, one mix of templates: if the coefficients of all samples of a galaxy are positive multiples of the same coefficients, its error is the scatter of the
observed magnitudes, in every output band, whatever the redshift and the band shift. -/
theorem C217_mix (K : Kc ℝ) (hr : AbReady K.abCls K.responses.length) (A Ao : AMat ℝ) (hA : K.Amatrix = some A) (hAo : K.AmatrixOut = some Ao) (hG : Ao.Good)
    (hn : Ao.nrow = K.responses.length) (hi : K.imap.length = Ao.nrow) (mc : Nat) (maggies coeffs : Nat → Nat → Nat → ℝ) (zs : List ℝ) (hz : zs ≠ []) (ivs : List (List ℝ))
    (hiv : ivs.length = zs.length) (hivl : ∀ iv ∈ ivs, iv.length = K.responses.length) (bs : ℝ) (dist : Option (List ℝ))
    (hd : ∀ ds ∈ dist, ds.length = zs.length ∧ ∀ d ∈ ds, 0 < d) (x : NDA ℝ)
    (h : K.absmagMc (cubeOf zs.length K.responses.length mc maggies) (some (.arr [zs.length] K.responses.length ivs)) (some (.vec zs))
        (cubeOf zs.length K.templates.nsed mc coeffs) bs (dist.map .vec) false false = .ok (.one x))
    (g j i : Nat) (z v : ℝ) (iv : List ℝ) (hg : zs[g]? = some z) (hgi : ivs[g]? = some iv) (hj : K.imap[j]? = some i) (hv : iv[i]? = some v) (hv0 : 0 < v)
    (hpos : ∃ k < mc, 0 < maggies g i k) (hmiss : ∀ k < mc, 0 < maggies g i k → entry x (g * K.responses.length + j) k ≠ some (-9999))
    (c : Nat → ℝ) (s : Nat → ℝ) (hmix : ∀ k < mc, 0 < s k ∧ ∀ t < K.templates.nsed, coeffs g t k = s k * c t) :
    (mcErrors x)[g * K.responses.length + j]? =
      some (scatter ((Finset.range mc).filter (fun k => 0 < maggies g i k)) (fun k => mag (maggies g i k))) := by
  obtain ⟨kv, h1, h2⟩ := C216_errors K hr A Ao hA hAo hG hn hi mc maggies coeffs zs hz ivs hiv hivl bs dist hd x h g j i z v iv hg hgi hj hv hv0 hpos hmiss
  rw [h2]
  congr 1
  obtain ⟨k0, hk0, hm0⟩ := hpos
  rw [← scatter_shift _ ⟨k0, by simp [hk0, hm0]⟩ (fun k => mag (maggies g i k)) (-kv k0)]
  apply scatter_congr
  intro k hk
  simp only [Finset.mem_filter, Finset.mem_range] at hk
  have hb : ∀ k < mc, K.kcorrect (some (.scalar z)) (some (.vec ((List.range K.templates.nsed).map (fun t => coeffs g t k)))) bs =
      K.kcorrect (some (.scalar z)) (some (.vec ((List.range K.templates.nsed).map c))) bs := by
    intro k hk
    obtain ⟨h0, hm⟩ := hmix k hk
    rw [← C66_brightness K A Ao hA hAo z bs (s k) h0 ((List.range K.templates.nsed).map c) (by rw [List.length_map, List.length_range]), List.map_map]
    congr 3
    apply List.map_congr_left
    intro t ht
    exact hm t (List.mem_range.mp ht)
  obtain ⟨kc, a1, a2⟩ := h1 k hk.1
  obtain ⟨kc0, b1, b2⟩ := h1 k0 hk0
  rw [hb k hk.1] at a1
  rw [hb k0 hk0, a1] at b1
  cases b1
  rw [a2] at b2
  rw [Option.some.inj b2]
  ring

/-- three samples with fluxes 1, 10 and -1 of a galaxy at rest: both theorems apply -/
example : ∃ x, demoKc.absmagMc (cubeOf 1 1 3 demoSamples) (some (.arr [1] 1 [[1]])) (some (.vec [0])) (cubeOf 1 2 3 (fun _ _ _ => 1)) 0 none false false =
        .ok (.one x) ∧ (mcErrors x)[0]? = some (scatter ((Finset.range 3).filter (fun k => 0 < demoSamples 0 0 k)) (fun k => mag (demoSamples 0 0 k))) := by
  obtain ⟨x, hret, hmiss⟩ := demo_samples none (Or.inl rfl)
  refine ⟨x, hret, ?_⟩
  have h := C217_matched demoKc trivial demoAm demoKc_default demoAm_good rfl rfl 3 demoSamples (fun _ _ _ => 1) [0] (by simp) [[1]] rfl
    (by intro iv h; fin_cases h; rfl) none (by simp) x 0 (by norm_num) hret 0 0 0 1 [1] rfl rfl rfl rfl one_pos ⟨0, by norm_num, by norm_num [demoSamples]⟩
    (by simpa using hmiss) (by
      intro k _
      refine ⟨?_, _, 3, demo_flux.1, rfl, by norm_num⟩
      rw [show (List.range demoKc.templates.nsed).map (fun _ => (1 : ℝ)) = [1, 1] from rfl]
      norm_num)
  exact h

example : ∃ x, demoKc.absmagMc (cubeOf 1 1 3 demoSamples) (some (.arr [1] 1 [[1]])) (some (.vec [0])) (cubeOf 1 2 3 (fun _ _ _ => 1)) 0 (some (.vec [10])) false false =
        .ok (.one x) ∧ (mcErrors x)[0]? = some (scatter ((Finset.range 3).filter (fun k => 0 < demoSamples 0 0 k)) (fun k => mag (demoSamples 0 0 k))) := by
  obtain ⟨x, hret, hmiss⟩ := demo_samples (some [10]) (Or.inr rfl)
  refine ⟨x, hret, ?_⟩
  have h := C217_mix demoKc trivial demoAm demoAm rfl rfl demoAm_good rfl rfl 3 demoSamples (fun _ _ _ => 1) [0] (by simp) [[1]] rfl
    (by intro iv h; fin_cases h; rfl) 0 (some [10]) (by simp) x hret 0 0 0 0 1 [1] rfl rfl rfl rfl one_pos ⟨0, by norm_num, by norm_num [demoSamples]⟩
    (by simpa using hmiss) (fun _ => 1) (fun _ => 1) (by intro k _; simp)
  exact h

end KC
