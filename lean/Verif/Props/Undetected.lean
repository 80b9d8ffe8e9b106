import Verif.Props.BestRedshift
import Verif.Props.CoeffMass
import Verif.Props.NoisyFit

/-!
# Galaxies without positive flux (C209)
-/

namespace KC
open Spec

namespace Spec

/-- No band with positive inverse variance has positive flux. -/
def Undetected (m iv : List ℝ) : Prop :=
  ∀ (j : Nat) (x v : ℝ), m[j]? = some x → iv[j]? = some v → 0 < v → x ≤ 0

/-- Fluxes `a` times photometry `m`, weighted with the inverse variances, summed over the bands. -/
noncomputable def matched (iv m a : List ℝ) : ℝ := ∑ j ∈ Finset.range iv.length, ent iv j * ent m j * ent a j

end Spec

/-- Photometry without positive flux is at least as far from nonnegative fluxes as it is from zero and they are from zero. -/
theorem chi2_dark : ∀ a iv r : List ℝ, a.length = r.length → (∀ v ∈ iv, 0 ≤ v) → Undetected a iv → (∀ x ∈ r, 0 ≤ x) →
    chi2 a iv (List.replicate a.length 0) + chi2 r iv (List.replicate a.length 0) ≤ chi2 a iv r
  | [], _, [], _, _, _, _ => by simp [chi2]
  | _ :: _, [], _ :: _, _, _, _, _ => by simp [chi2]
  | x :: a, v :: iv, y :: r, hl, h, hu, hr => by
    have ih := chi2_dark a iv r (by simpa using hl) (fun u hu => h u (List.mem_cons_of_mem _ hu)) (fun j p q hp hq => hu (j + 1) p q (by simpa using hp) (by simpa using hq))
      (fun u hu => hr u (List.mem_cons_of_mem _ hu))
    have hv := h v List.mem_cons_self
    have hy := hr y List.mem_cons_self
    rw [List.length_cons, List.replicate_succ, chi2_cons, chi2_cons, chi2_cons]
    have : 0 ≤ v * y * -x := by
      rcases hv.eq_or_lt with rfl | hv
      · simp
      · have := hu 0 x v rfl rfl hv
        exact mul_nonneg (mul_nonneg hv.le hy) (by linarith)
    nlinarith

theorem undetected_ab (cls : Cls) {m iv : List ℝ} (h : Undetected m iv) : Undetected (abM cls m) (abIv cls iv) := by
  intro j x v hx hv hv0
  rw [abM_get] at hx
  rw [abIv_get] at hv
  obtain ⟨x', hx', rfl⟩ := Option.map_eq_some_iff.mp hx
  obtain ⟨v', hv', rfl⟩ := Option.map_eq_some_iff.mp hv
  have hf := abFactor_pos cls j
  have h1 : 0 < v' := by
    by_contra hc
    have := div_nonpos_of_nonpos_of_nonneg (not_lt.mp hc) (pow_pos hf 2).le
    linarith
  exact mul_nonpos_of_nonpos_of_nonneg (h j x' v' hx' hv' h1) hf.le

/-- C209: if no band with positive inverse variance has positive flux, no template has negative flux at the redshift and each has flux in one of these bands, then every fit has coefficients zero. -/
theorem C209_fit (nnls : Nnls ℝ) (hn : NNLSOK nnls) (F : Fitter ℝ) (A : AMat ℝ) (hR : Ready F A) (hr : AbReady F.abCls F.responses.length) (z : ℝ) (hz : InRange A.x z)
    (m iv : List ℝ) (hm : m.length = F.responses.length) (hiv : iv.length = F.responses.length) (hpos : ∀ v ∈ iv, 0 ≤ v) (hu : Undetected m iv)
    (hnn : ∀ t < F.templates.nsed, ∀ a, F.reconstruct (some (.scalar z)) (some (.vec (alone F.templates.nsed t))) 0 = .ok (.vec a) → ∀ x ∈ a, 0 ≤ x)
    (hfl : ∀ t < F.templates.nsed, ∃ (a : List ℝ) (j : Nat) (v x : ℝ),
      F.reconstruct (some (.scalar z)) (some (.vec (alone F.templates.nsed t))) 0 = .ok (.vec a) ∧ iv[j]? = some v ∧ a[j]? = some x ∧ 0 < v ∧ 0 < x)
    (noise : Nat → Nat → Nat → ℝ) (out : FitOut ℝ) (h : F.fitCoeffs nnls (some (.scalar z)) (some (.vec m)) (some (.vec iv)) 0 noise = .ok out) :
    out = ⟨.vec (List.replicate F.templates.nsed 0), none⟩ := by
  have vinj : ∀ a b : List ℝ, (Except.ok (NDA.vec a) : Py (NDA ℝ)) = .ok (.vec b) → a = b := by
    intro a b h
    simp only [Except.ok.injEq, NDA.vec, NDA.arr.injEq, List.cons.injEq, and_true] at h
    exact h.2.2
  have hIV := abIv_nonneg F.abCls iv hpos
  obtain ⟨a, -, am⟩ := hR.model
  obtain ⟨c, rfl, hl, hc0, rc, hrc, hopt⟩ := C49_ab nnls hn F hr A hR z hz m iv hm hiv hpos noise out h
  obtain rfl := vinj _ _ ((am ⟨z, hz⟩ c hl).symm.trans hrc)
  obtain ⟨r0, hr0, hle⟩ := hopt (List.replicate F.templates.nsed 0) (by simp) (by simp)
  obtain rfl := vinj _ _ ((am ⟨z, hz⟩ _ (by simp)).symm.trans hr0)
  have alone_val : ∀ t : Fin F.templates.nsed, F.reconstruct (some (.scalar z)) (some (.vec (alone F.templates.nsed t))) 0 = .ok (.vec (List.ofFn (fun j => a j t ⟨z, hz⟩))) := by
    intro t
    refine (am ⟨z, hz⟩ _ (alone_length _ _)).trans ?_
    congr 3
    funext j
    rw [Finset.sum_eq_single t]
    · simp [ent, alone]
    · intro s _ hs
      have : (s : Nat) ≠ t := fun e => hs (Fin.ext e)
      simp [ent, alone, this]
    · simp
  have hn0 : ∀ j t, 0 ≤ a j t ⟨z, hz⟩ := fun j t => hnn t t.2 _ (alone_val t) _ (List.mem_ofFn.mpr ⟨j, rfl⟩)
  have hce : ∀ t, 0 ≤ ent c t := by
    intro t
    unfold ent
    rw [List.getD_eq_getElem?_getD]
    cases e : c[t]? with
    | none => simp
    | some v => exact hc0 v (List.mem_of_getElem? e)
  have hz0 : (List.ofFn (fun j => ∑ t, a j t ⟨z, hz⟩ * ent (List.replicate F.templates.nsed 0) t)) = List.replicate (abM F.abCls m).length 0 := by
    rw [abM_length, hm]
    refine (congrArg List.ofFn (funext fun j => Finset.sum_eq_zero fun t _ => ?_)).trans (List.ofFn_const F.responses.length (0 : ℝ))
    simp [ent]
  rw [hz0] at hle
  have h1 := chi2_dark (abM F.abCls m) (abIv F.abCls iv) (List.ofFn (fun j => ∑ t, a j t ⟨z, hz⟩ * ent c t)) (by rw [abM_length, hm, List.length_ofFn]) hIV
    (undetected_ab _ hu) (by
      intro x hx
      obtain ⟨j, rfl⟩ := List.mem_ofFn.mp hx
      exact Finset.sum_nonneg fun t _ => mul_nonneg (hn0 j t) (hce t))
  have h2 := chi2_zero _ _ _ hIV (show chi2 (List.ofFn (fun j => ∑ t, a j t ⟨z, hz⟩ * ent c t)) (abIv F.abCls iv) (List.replicate (abM F.abCls m).length 0) ≤ 0 by linarith)
  congr 2
  refine List.eq_replicate_iff.mpr ⟨hl, fun x hx => ?_⟩
  obtain ⟨t, ht, rfl⟩ := List.getElem_of_mem hx
  obtain ⟨b, j, v, y, b1, b2, b3, b4, b5⟩ := hfl t (hl ▸ ht)
  obtain rfl := vinj _ _ ((alone_val ⟨t, hl ▸ ht⟩).symm.trans b1)
  obtain ⟨hj, e⟩ := List.getElem?_eq_some_iff.mp b3
  rw [List.getElem_ofFn] at e
  have hj' : j < F.responses.length := by simpa using hj
  obtain ⟨hw1, hw2⟩ := abIv_pos (cls := F.abCls) b2 b4
  have h3 := h2 j _ _ _ hw1 hw2 (List.getElem?_eq_getElem (by simpa using hj')) (List.getElem?_eq_getElem (by simpa [abM_length, hm] using hj'))
  rw [List.getElem_ofFn, List.getElem_replicate] at h3
  have h4 := (Finset.sum_eq_zero_iff_of_nonneg (fun s _ => mul_nonneg (hn0 _ s) (hce s))).mp h3 ⟨t, hl ▸ ht⟩ (Finset.mem_univ _)
  have h5 : ent c t = c[t] := ent_some ht
  rcases mul_eq_zero.mp h4 with h6 | h6
  · rw [e] at h6
    exact absurd h6 b5.ne'
  · rw [← h5]; exact h6

theorem total_none (n : Nat) (v : List ℝ) : total (List.replicate n 0) v = 0 := by
  have := total_scale 0 (List.replicate n 0) v
  simpa using this

/-- C209, exactly when: the coefficients of the fit are zero if and only if the flux of no template has a positive weighted product with the photometry. -/
theorem C209_iff (nnls : Nnls ℝ) (hn : NNLSOK nnls) (F : Fitter ℝ) (A : AMat ℝ) (hR : Ready F A) (hr : AbReady F.abCls F.responses.length) (z : ℝ) (hz : InRange A.x z)
    (m iv : List ℝ) (hm : m.length = F.responses.length) (hiv : iv.length = F.responses.length) (hpos : ∀ v ∈ iv, 0 ≤ v)
    (hnn : ∀ t < F.templates.nsed, ∀ a, F.reconstruct (some (.scalar z)) (some (.vec (alone F.templates.nsed t))) 0 = .ok (.vec a) → ∀ x ∈ a, 0 ≤ x)
    (hfl : ∀ t < F.templates.nsed, ∃ (a : List ℝ) (j : Nat) (v x : ℝ),
      F.reconstruct (some (.scalar z)) (some (.vec (alone F.templates.nsed t))) 0 = .ok (.vec a) ∧ iv[j]? = some v ∧ a[j]? = some x ∧ 0 < v ∧ 0 < x)
    (noise : Nat → Nat → Nat → ℝ) (out : FitOut ℝ) (h : F.fitCoeffs nnls (some (.scalar z)) (some (.vec m)) (some (.vec iv)) 0 noise = .ok out) :
    out.coeffs = .vec (List.replicate F.templates.nsed 0) ↔
      ∀ t < F.templates.nsed, ∀ a, F.reconstruct (some (.scalar z)) (some (.vec (alone F.templates.nsed t))) 0 = .ok (.vec a) →
        matched (abIv F.abCls iv) (abM F.abCls m) a ≤ 0 := by
  have vinj : ∀ a b : List ℝ, (Except.ok (NDA.vec a) : Py (NDA ℝ)) = .ok (.vec b) → a = b := by
    intro a b h
    simp only [Except.ok.injEq, NDA.vec, NDA.arr.injEq, List.cons.injEq, and_true] at h
    exact h.2.2
  obtain ⟨a, -, am⟩ := hR.model
  obtain ⟨c, r, hc, hc0, -, -, hv, hopt⟩ := hR.optimal am nnls hn hr m iv hm hiv hpos ⟨z, hz⟩ noise out h
  rw [hv] at hopt
  have alone_val : ∀ t : Fin F.templates.nsed, F.reconstruct (some (.scalar z)) (some (.vec (alone F.templates.nsed t))) 0 = .ok (.vec (List.ofFn (fun j => a j t ⟨z, hz⟩))) := by
    intro t
    refine (am ⟨z, hz⟩ _ (alone_length _ _)).trans ?_
    congr 3
    funext j
    rw [Finset.sum_eq_single t]
    · simp [ent, alone]
    · intro s _ hs
      have : (s : Nat) ≠ t := fun e => hs (Fin.ext e)
      simp [ent, alone, this]
    · simp
  have hn0 : ∀ j t, 0 ≤ a j t ⟨z, hz⟩ := fun j t => hnn t t.2 _ (alone_val t) _ (List.mem_ofFn.mpr ⟨j, rfl⟩)
  have hw : ∀ j : Fin F.responses.length, 0 ≤ ent (abIv F.abCls iv) j := by
    intro j
    have : (j : Nat) < (abIv F.abCls iv).length := by rw [abIv_length, hiv]; exact j.2
    rw [ent_some this]
    exact abIv_nonneg _ _ hpos _ (List.getElem_mem this)
  have hW : ∀ t : Fin F.templates.nsed, matched (abIv F.abCls iv) (abM F.abCls m) (List.ofFn (fun j => a j t ⟨z, hz⟩)) =
      ∑ j : Fin F.responses.length, ent (abIv F.abCls iv) j * ent (abM F.abCls m) j * a j t ⟨z, hz⟩ := by
    intro t
    unfold matched
    rw [abIv_length, hiv, Finset.sum_range]
    refine Finset.sum_congr rfl fun j _ => ?_
    congr 1
    rw [ent_some (by simp)]
    simp
  generalize hwd : (fun j : Fin F.responses.length => ent (abIv F.abCls iv) j) = w at *
  generalize hmd : (fun j : Fin F.responses.length => ent (abM F.abCls m) j) = d at *
  have hexp : ∀ y : Fin F.templates.nsed → ℝ, chiAt a w d ⟨z, hz⟩ y = ∑ j, w j * d j ^ 2 - 2 * ∑ t, y t * (∑ j, w j * d j * a j t ⟨z, hz⟩) + ∑ j, w j * (∑ t, a j t ⟨z, hz⟩ * y t) ^ 2 := by
    intro y
    have : ∑ t, y t * (∑ j, w j * d j * a j t ⟨z, hz⟩) = ∑ j, w j * d j * ∑ t, a j t ⟨z, hz⟩ * y t := by
      simp_rw [Finset.mul_sum]
      rw [Finset.sum_comm]
      exact Finset.sum_congr rfl fun j _ => Finset.sum_congr rfl fun t _ => by ring
    unfold chiAt
    rw [this, Finset.mul_sum, ← Finset.sum_sub_distrib, ← Finset.sum_add_distrib]
    exact Finset.sum_congr rfl fun j _ => by ring
  have hw' : ∀ j, 0 ≤ w j := fun j => by rw [← hwd]; exact hw j
  have hW' : ∀ t : Fin F.templates.nsed, matched (abIv F.abCls iv) (abM F.abCls m) (List.ofFn (fun j => a j t ⟨z, hz⟩)) = ∑ j, w j * d j * a j t ⟨z, hz⟩ := fun t => by
    rw [hW t, ← hwd, ← hmd]
  constructor
  · intro h0 t ht b hb
    obtain rfl := vinj _ _ ((alone_val ⟨t, ht⟩).symm.trans hb)
    rw [hW']
    have hc' : c = 0 := by
      rw [hc] at h0
      have h1 := vinj _ _ (congrArg Except.ok h0)
      rw [← List.ofFn_const] at h1
      exact List.ofFn_injective h1
    by_contra hS
    have hS' := not_le.mp hS
    set S := ∑ j, w j * d j * a j ⟨t, ht⟩ ⟨z, hz⟩
    set T := ∑ j, w j * a j ⟨t, ht⟩ ⟨z, hz⟩ ^ 2
    have hT : 0 ≤ T := Finset.sum_nonneg fun j _ => mul_nonneg (hw' j) (sq_nonneg _)
    have h1 := hopt (Pi.single ⟨t, ht⟩ (S / (T + 1))) (fun s => by
      by_cases e : s = ⟨t, ht⟩
      · subst e; rw [Pi.single_eq_same]; positivity
      · rw [Pi.single_eq_of_ne e])
    rw [hc', hexp, hexp] at h1
    have e1 : ∑ s, (Pi.single ⟨t, ht⟩ (S / (T + 1)) : Fin F.templates.nsed → ℝ) s * (∑ j, w j * d j * a j s ⟨z, hz⟩) = S / (T + 1) * S := by
      rw [Finset.sum_eq_single ⟨t, ht⟩ (fun s _ hs => by rw [Pi.single_eq_of_ne hs, zero_mul]) (by simp), Pi.single_eq_same]
    have e2 : ∑ j, w j * (∑ s, a j s ⟨z, hz⟩ * (Pi.single ⟨t, ht⟩ (S / (T + 1)) : Fin F.templates.nsed → ℝ) s) ^ 2 = (S / (T + 1)) ^ 2 * T := by
      rw [Finset.mul_sum]
      refine Finset.sum_congr rfl fun j _ => ?_
      rw [Finset.sum_eq_single ⟨t, ht⟩ (fun s _ hs => by rw [Pi.single_eq_of_ne hs, mul_zero]) (by simp), Pi.single_eq_same]
      ring
    rw [e1, e2] at h1
    simp only [Pi.zero_apply, zero_mul, mul_zero, Finset.sum_const_zero, ne_eq, OfNat.ofNat_ne_zero, not_false_eq_true, zero_pow, sub_zero, add_zero] at h1
    have e3 : (S / (T + 1)) ^ 2 * T ≤ S / (T + 1) * S := by
      have : S / (T + 1) * T ≤ S := by
        rw [div_mul_eq_mul_div, div_le_iff₀ (by positivity)]
        nlinarith
      have h2 : 0 ≤ S / (T + 1) := by positivity
      nlinarith
    have e4 : 0 < S / (T + 1) * S := by positivity
    linarith
  · intro hS
    have h1 := hopt 0 (fun _ => le_refl _)
    rw [hexp, hexp] at h1
    simp only [Pi.zero_apply, zero_mul, mul_zero, Finset.sum_const_zero, ne_eq, OfNat.ofNat_ne_zero, not_false_eq_true, zero_pow, sub_zero, add_zero] at h1
    have h2 : ∑ t, c t * (∑ j, w j * d j * a j t ⟨z, hz⟩) ≤ 0 :=
      Finset.sum_nonpos fun t _ => mul_nonpos_of_nonneg_of_nonpos (hc0 t) (by rw [← hW']; exact hS t t.2 _ (alone_val t))
    have h3 : ∑ j, w j * (∑ t, a j t ⟨z, hz⟩ * c t) ^ 2 = 0 :=
      le_antisymm (by linarith) (Finset.sum_nonneg fun j _ => mul_nonneg (hw' j) (sq_nonneg _))
    have h4 := (Finset.sum_eq_zero_iff_of_nonneg (fun j _ => mul_nonneg (hw' j) (sq_nonneg _))).mp h3
    have hc' : c = fun _ => 0 := by
      funext t
      obtain ⟨b, j, v, y, b1, b2, b3, b4, b5⟩ := hfl t t.2
      obtain rfl := vinj _ _ ((alone_val t).symm.trans b1)
      obtain ⟨hj, e⟩ := List.getElem?_eq_some_iff.mp b3
      rw [List.getElem_ofFn] at e
      have hj' : j < F.responses.length := by simpa using hj
      obtain ⟨hw1, hw2⟩ := abIv_pos (cls := F.abCls) b2 b4
      have hwj : 0 < w ⟨j, hj'⟩ := by
        rw [← hwd]
        simp only [ent, List.getD_eq_getElem?_getD, hw1]
        exact hw2
      have h5 := h4 ⟨j, hj'⟩ (Finset.mem_univ _)
      have h6 : ∑ t, a ⟨j, hj'⟩ t ⟨z, hz⟩ * c t = 0 := by
        rcases mul_eq_zero.mp h5 with h | h
        · exact absurd h hwj.ne'
        · exact pow_eq_zero_iff (two_ne_zero) |>.mp h
      have h7 := (Finset.sum_eq_zero_iff_of_nonneg (fun s _ => mul_nonneg (hn0 _ s) (hc0 s))).mp h6 t (Finset.mem_univ _)
      rcases mul_eq_zero.mp h7 with h8 | h8
      · rw [e] at h8
        exact absurd h8 b5.ne'
      · exact h8
    rw [hc, hc', List.ofFn_const]

/-- C209 for the quantities derived from the fit: K-corrections zero, no absolute magnitudes, no mass in stars. -/
theorem C209_used (nnls : Nnls ℝ) (hn : NNLSOK nnls) (K : Kc ℝ) (A Ao : AMat ℝ) (hR : Ready K.toFitter A) (hAo : K.AmatrixOut = some Ao) (hr : AbReady K.abCls K.responses.length) (z : ℝ)
    (hz : InRange A.x z) (m iv : List ℝ) (hm : m.length = K.responses.length) (hiv : iv.length = K.responses.length) (hpos : ∀ v ∈ iv, 0 ≤ v) (hu : Undetected m iv)
    (hnn : ∀ t < K.templates.nsed, ∀ a, K.reconstruct (some (.scalar z)) (some (.vec (alone K.templates.nsed t))) 0 = .ok (.vec a) → ∀ x ∈ a, 0 ≤ x)
    (hfl : ∀ t < K.templates.nsed, ∃ (a : List ℝ) (j : Nat) (v x : ℝ),
      K.reconstruct (some (.scalar z)) (some (.vec (alone K.templates.nsed t))) 0 = .ok (.vec a) ∧ iv[j]? = some v ∧ a[j]? = some x ∧ 0 < v ∧ 0 < x)
    (noise : Nat → Nat → Nat → ℝ) (out : FitOut ℝ) (h : K.toFitter.fitCoeffs nnls (some (.scalar z)) (some (.vec m)) (some (.vec iv)) 0 noise = .ok out) (bs : ℝ) :
    (∀ k, K.kcorrect (some (.scalar z)) (some out.coeffs) bs = .ok k → ∀ (j : Nat) (b : NDA ℝ) (v : ℝ), K.reconstructOut (some (.scalar 0)) (some out.coeffs) bs = .ok b → entry b 0 j = some v → entry k 0 j = some 0) ∧
    (∀ (dist : Option ℝ) (a k : NDA ℝ), (∀ d ∈ dist, 0 < d) →
      K.absmag (some (.vec m)) (some (.vec iv)) (some (.scalar z)) (some out.coeffs) bs (dist.map .scalar) false false false = .ok (.one a) →
      K.kcorrect (some (.scalar z)) (some out.coeffs) bs = .ok k → ∀ (j i : Nat) x, K.imap[j]? = some i → i < K.responses.length → entry k 0 j = some x → entry a 0 j = some (-9999)) ∧
    ∀ (t : Tmpl ℝ) (g : Reg ℝ) (D : Derived ℝ), MassKc K t Ao → AMat.Good Ao → K.derived g (some (.scalar z)) (some out.coeffs) bs none = .ok D →
      D.mremain = .scalar 0 ∧ D.intsfh = .scalar 0 ∧ D.b50 = .scalar 0 ∧ D.b300 = .scalar 0 ∧ D.b1000 = .scalar 0 ∧ D.metallicity = .scalar 0 ∧
      ∀ j < K.responsesOut.length, ∀ x, entry D.mtol 0 j = some x → x = 0 := by
  obtain rfl := C209_fit nnls hn K.toFitter A hR hr z hz m iv hm hiv hpos hu hnn hfl noise out h
  have hc : (List.replicate K.templates.nsed (0 : ℝ)).length = K.templates.nsed := by simp
  refine ⟨fun k hk j b v hb hv => ?_, fun dist a k hd ha hk j i x hi hil hx => ?_, fun t g D ht hg hD => ?_⟩
  · obtain ⟨h1, h2⟩ := C67_model_magnitudes K A Ao hR.set hAo z bs _ hc
    obtain ⟨⟨a, ha⟩, _⟩ := h1.mp ⟨k, hk⟩
    exact (h2 k a b hk ha hb).2.1 (by simp) j v hv
  · have h1 := ((C70_corrected_partial K hr A Ao hR.set hAo z m iv _ hm hiv hc bs dist hd).2 a k ha hk).2 j i _ _ x hi
      (List.getElem?_eq_getElem (by rw [hm]; exact hil)) (List.getElem?_eq_getElem (by rw [hiv]; exact hil)) hx
    rw [h1, if_neg]
    rintro ⟨h3, h4⟩
    have := hu i _ _ (List.getElem?_eq_getElem (by rw [hm]; exact hil)) (List.getElem?_eq_getElem (by rw [hiv]; exact hil)) h4
    linarith
  · obtain ⟨ss, f, hss, hf, V⟩ := derived_vals ht hg g z _ hc bs D hD
    refine ⟨?_, ?_, ?_, ?_, ?_, ?_, fun j hjr x hx => ?_⟩
    · rw [V.mremain, total_none, zero_mul]
    · rw [V.intsfh, total_none, zero_mul]
    · rw [V.b50, total_none, if_neg (lt_irrefl _)]
    · rw [V.b300, total_none, if_neg (lt_irrefl _)]
    · rw [V.b1000, total_none, if_neg (lt_irrefl _)]
    · rw [V.metallicity, total_none, if_neg (lt_irrefl _)]
    · obtain ⟨row, e, hl, hrow⟩ := V.mtol
      rw [e] at hx
      have hx' : row[j]? = some x := by simpa [entry] using hx
      obtain ⟨hj, rfl⟩ := List.getElem?_eq_some_iff.mp hx'
      have hs : j < ss.length := by rw [← hss.length_eq]; exact hjr
      have h1 := hrow j _ _ (List.getElem?_eq_getElem hs) (List.getElem?_eq_getElem (hl ▸ hj))
      rw [total_none, zero_div, ite_self, hx'] at h1
      simpa using h1

/-- Not vacuous: fluxes -1 and 0 in two bands, at a redshift between two nodes of the grid. -/
example : ∃ out k a D, NNLSOK (lhNnls 0) ∧ Ready demoBoth.toFitter demoAm2 ∧ MassKc demoBoth demoTmpl demoAm2 ∧ AMat.Good demoAm2 ∧ InRange demoAm2.x 2 ∧ Undetected [-1, 0] [1, 1] ∧
    (∀ t < demoBoth.templates.nsed, ∀ a, demoBoth.reconstruct (some (.scalar 2)) (some (.vec (alone demoBoth.templates.nsed t))) 0 = .ok (.vec a) → ∀ x ∈ a, 0 ≤ x) ∧
    (∀ t < demoBoth.templates.nsed, ∃ (a : List ℝ) (j : Nat) (v x : ℝ),
      demoBoth.reconstruct (some (.scalar 2)) (some (.vec (alone demoBoth.templates.nsed t))) 0 = .ok (.vec a) ∧ ([1, 1] : List ℝ)[j]? = some v ∧ a[j]? = some x ∧ 0 < v ∧ 0 < x) ∧
    demoBoth.toFitter.fitCoeffs (lhNnls 0) (some (.scalar 2)) (some (.vec [-1, 0])) (some (.vec [1, 1])) 0 (fun _ _ _ => 0) = .ok out ∧
    demoBoth.kcorrect (some (.scalar 2)) (some out.coeffs) 0 = .ok k ∧
    demoBoth.absmag (some (.vec [-1, 0])) (some (.vec [1, 1])) (some (.scalar 2)) (some out.coeffs) 0 none false false false = .ok (.one a) ∧
    demoBoth.derived demoReg (some (.scalar 2)) (some out.coeffs) 0 none = .ok D := by
  have hin : InRange demoAm2.x 2 := by constructor <;> norm_num [demoAm2]
  have hR : Ready demoBoth.toFitter demoAm2 := ⟨rfl, demo_ready.good, rfl, rfl⟩
  have hK : MassKc demoBoth demoTmpl demoAm2 := ⟨rfl, ⟨rfl, rfl, rfl, rfl, rfl, rfl⟩, rfl⟩
  obtain ⟨c, hc, hl, -⟩ := C184_fit demoBoth.toFitter (by show 2 ≤ 9; norm_num) trivial (by show 2 ≠ 1; norm_num) demoAm2 hR 2 hin [-1, 0] [1, 1] rfl rfl (by simp) (fun _ _ _ => 0)
  have h0 : demoAm2.at 0 = .ok [[1, 2], [3, 1]] := at_node (k := 0) demo_ready.good (by simp [demoAm2])
  have hx : demoBoth.reconstruct (some (.scalar 2)) (some (.vec c)) 0 = .ok (.vec (reconRow 0 [[1, 2], [3 / 2, 3 / 2]] c)) := by
    refine (recon_real demoBoth.toFitter demoAm2 2 c 0 hl).trans ?_
    rw [show ((1 : ℝ) + 2) * (1 + 0) - 1 = 2 by norm_num, demoAm2_at2]
    rfl
  have hy : demoBoth.reconstructOut (some (.scalar 0)) (some (.vec c)) 0 = .ok (.arr [] 2 [reconRow 0 [[1, 2], [3, 1]] c]) := by
    refine (recon_real demoBoth.toFitter demoAm2 0 c 0 hl).trans ?_
    rw [show ((1 : ℝ) + 0) * (1 + 0) - 1 = 0 by norm_num, h0]
    rfl
  obtain ⟨k, hk⟩ := (C67_model_magnitudes demoBoth demoAm2 demoAm2 rfl rfl 2 0 c hl).1.mpr ⟨⟨_, hx⟩, ⟨_, hy⟩⟩
  obtain ⟨a, ha⟩ := (C70_corrected_partial demoBoth trivial demoAm2 demoAm2 rfl rfl 2 [-1, 0] [1, 1] c rfl rfl hl 0 none (by simp)).1.mpr ⟨k, hk⟩
  have hs : SolarMags demoBoth demoReg [4, 4] := .cons ⟨⟨none, none, none, none, some 4, none, none⟩, by simp [demoReg], rfl⟩
    (.cons ⟨⟨none, none, none, none, some 4, none, none⟩, by simp [demoReg], rfl⟩ .nil)
  obtain ⟨D, hD⟩ := (derived_returns hK demoReg 2 c hl 0).mpr ⟨⟨_, h0⟩, ⟨_, hs⟩⟩
  refine ⟨_, k, a, D, C184_contract, hR, hK, demo_ready.good, hin, ?_, fun t ht a => demo_two_flux.1 t ht 2 a hin, demo_two_flux.2 2 hin, hc, hk, ha, hD⟩
  intro j x v hx hv _
  match j, hx with
  | 0, h => cases h; norm_num
  | 1, h => cases h; norm_num

end KC
