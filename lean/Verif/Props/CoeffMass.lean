import Verif.Props.CoeffCont
import Verif.Props.Components

/-!
# Masses and star-formation histories as functions of redshift, photometry and errors (C200)
-/

namespace KC

/-- Two numbers that differ by less than `ε`. -/
def Spec.CloseTo (ε : ℝ) (a b : NDA ℝ) : Prop := ∃ x y, a = .scalar x ∧ b = .scalar y ∧ |y - x| < ε

open Spec
open Topology

theorem total_continuous {N : Nat} (v : List ℝ) : Continuous (fun c : Fin N → ℝ => total (List.ofFn c) v) := by
  have : ∀ c : Fin N → ℝ, total (List.ofFn c) v = ∑ t : Fin N, ent v t * c t := by
    intro c
    have h := dot_ofFn N v c
    rw [← h, total]
    congr 1
    rw [List.zipWith_comm]
    simp only [mul_comm]
  simp only [this]
  exact continuous_finsetSum _ (fun t _ => continuous_const.mul (continuous_apply t))

theorem lumFactor_continuous : Continuous lumFactor := by
  unfold lumFactor
  exact Continuous.rpow continuous_const (continuous_const.mul continuous_id) (fun x => Or.inl (by norm_num))

/-- C200: where the bands that enter the fit tell the templates apart, mass, integrated star formation, star-formation fractions and metallicity of the fitted
model are continuous in redshift, photometry and inverse variances together, for a cosmology with continuous distance modulus. -/
theorem C200_derived (nnls nnls' : Nnls ℝ) (hn : NNLSOK nnls) (hn' : NNLSOK nnls') (K : Kc ℝ) (t : Tmpl ℝ) (A Ao : AMat ℝ) (hR : Ready K.toFitter A)
    (hK : MassKc K t Ao) (hg : AMat.Good Ao) (g : Reg ℝ)
    (hr : AbReady K.abCls K.responses.length) (m iv : List ℝ) (hm : m.length = K.responses.length)
    (hiv : iv.length = K.responses.length) (hpos : ∀ v ∈ iv, 0 ≤ v) (z0 : ℝ) (hz0 : InRange A.x z0) (hdm : ContinuousAt K.distmod z0) (hi : Spec.Indep K.toFitter z0 iv)
    (noise0 : Nat → Nat → Nat → ℝ) (out0 : FitOut ℝ)
    (h0 : K.toFitter.fitCoeffs nnls (some (.scalar z0)) (some (.vec m)) (some (.vec iv)) 0 noise0 = .ok out0) (bs : ℝ) (D0 : Derived ℝ)
    (hD0 : K.derived g (some (.scalar z0)) (some out0.coeffs) bs none = .ok D0) (m0 i0 : ℝ) (hm0 : D0.mremain = .scalar m0) (hi0 : D0.intsfh = .scalar i0)
    (pm : 0 < m0) (pi : 0 < i0) (ε : ℝ) (hε : 0 < ε) :
    ∃ δ > 0, ∀ (z : ℝ) (m' iv' : List ℝ) (noise : Nat → Nat → Nat → ℝ) (out : FitOut ℝ), InRange A.x z →
      |z - z0| < δ → Near δ m m' → Near δ iv iv' → (∀ v ∈ iv', 0 ≤ v) →
      K.toFitter.fitCoeffs nnls' (some (.scalar z)) (some (.vec m')) (some (.vec iv')) 0 noise = .ok out →
      ∃ D, K.derived g (some (.scalar z)) (some out.coeffs) bs none = .ok D ∧ CloseTo ε D0.mremain D.mremain ∧ CloseTo ε D0.intsfh D.intsfh ∧
        CloseTo ε D0.b50 D.b50 ∧ CloseTo ε D0.b300 D.b300 ∧ CloseTo ε D0.b1000 D.b1000 ∧ CloseTo ε D0.metallicity D.metallicity := by
  obtain ⟨c0, e0, p0, hP⟩ := fit_near nnls nnls' hn hn' K.toFitter A hR hr m iv hm hiv hpos z0 hz0 hi noise0 out0 h0
  rw [e0] at hD0
  have l0 : (List.ofFn c0).length = K.templates.nsed := by simp
  obtain ⟨_, _, _, _, v0⟩ := derived_vals hK hg g z0 _ l0 bs D0 hD0
  have q1 : 0 < total (List.ofFn c0) t.mremain := by
    have := hm0.symm.trans v0.mremain
    simp only [NDA.scalar.injEq] at this
    rw [this] at pm
    exact pos_of_mul_pos_left pm (lumFactor_pos _).le
  have q2 : 0 < total (List.ofFn c0) t.intsfh := by
    have := hi0.symm.trans v0.intsfh
    simp only [NDA.scalar.injEq] at this
    rw [this] at pi
    exact pos_of_mul_pos_left pi (lumFactor_pos _).le
  let Q := {z : ℝ // InRange A.x z} × (Fin K.templates.nsed → ℝ)
  let q0 : Q := (⟨z0, hz0⟩, c0)
  have ct : ∀ v : List ℝ, ContinuousAt (fun q : Q => total (List.ofFn q.2) v) q0 := fun v => ((total_continuous v).comp continuous_snd).continuousAt
  have cd : ContinuousAt (fun q : Q => lumFactor (K.distmod q.1.1)) q0 := by
    have h1 : ContinuousAt (fun q : Q => q.1.1) q0 := (continuous_subtype_val.comp continuous_fst).continuousAt
    have h2 : ContinuousAt (fun q : Q => K.distmod q.1.1) q0 := ContinuousAt.comp (f := fun q : Q => q.1.1) (g := K.distmod) hdm h1
    exact lumFactor_continuous.continuousAt.comp h2
  have cm : ∀ v : List ℝ, ContinuousAt (fun q : Q => total (List.ofFn q.2) v * lumFactor (K.distmod q.1.1)) q0 := fun v => (ct v).mul cd
  have cf : ∀ v w : List ℝ, 0 < total (List.ofFn c0) w → ContinuousAt (fun q : Q => total (List.ofFn q.2) v / total (List.ofFn q.2) w) q0 :=
    fun v w hw => (ct v).div (ct w) hw.ne'
  have near : ∀ f : Q → ℝ, ContinuousAt f q0 → ∀ᶠ q in 𝓝 q0, |f q - f q0| < ε := by
    intro f hf
    exact hf.eventually (Metric.ball_mem_nhds _ hε)
  obtain ⟨δ, hδ, hd⟩ := hP _ (((ct t.mremain).eventually_const_lt q1).and ((near _ (cm t.mremain)).and ((near _ (cm t.intsfh)).and ((near _ (cf t.m50 t.intsfh q2)).and
    ((near _ (cf t.m300 t.intsfh q2)).and ((near _ (cf t.m1000 t.intsfh q2)).and (near _ (cf (List.zipWith (· * ·) t.mremain t.mets) t.mremain q1))))))))
  refine ⟨δ, hδ, fun z m' iv' noise out hz h1 h2 h3 h4 h5 => ?_⟩
  obtain ⟨c, k, hc, r1, r2, r3, r4, r5, r6, r7⟩ := hd z m' iv' noise out hz h1 h2 h3 h4 h5
  have l : (List.ofFn c).length = K.templates.nsed := by simp
  rw [k]
  obtain ⟨D, hD⟩ := (derived_returns hK g z _ l bs).mpr ((derived_returns hK g z0 _ l0 bs).mp ⟨D0, hD0⟩)
  obtain ⟨_, _, _, _, v⟩ := derived_vals hK hg g z _ l bs D hD
  refine ⟨D, hD, ⟨_, _, v0.mremain, v.mremain, r2⟩, ⟨_, _, v0.intsfh, v.intsfh, r3⟩, ⟨_, _, v0.b50, v.b50, ?_⟩, ⟨_, _, v0.b300, v.b300, ?_⟩, ⟨_, _, v0.b1000, v.b1000, ?_⟩,
    ⟨_, _, v0.metallicity, v.metallicity, ?_⟩⟩
  all_goals
    rw [if_pos (show 0 < total (List.ofFn c) t.mremain from r1), if_pos q1]
    assumption

/-- Two bands, two templates with star-formation histories; the distance modulus is the redshift. -/
noncomputable def demoBoth : Kc ℝ :=
  ⟨{ demoFitter2 with templates := .template demoTmpl }, [['y'], ['y']], [['x'], ['y']], some demoAm2, [0, 1], fun z => z⟩

/-- Not vacuous: redshift 2, between the nodes 1 and 3 of the grid; the galaxy is made of both templates. -/
example : ∃ out D m0 i0, NNLSOK (lhNnls 0) ∧ Ready demoBoth.toFitter demoAm2 ∧ MassKc demoBoth demoTmpl demoAm2 ∧ AMat.Good demoAm2 ∧ InRange demoAm2.x 2 ∧
    ContinuousAt demoBoth.distmod 2 ∧ Spec.Indep demoBoth.toFitter 2 [1, 1 / 2] ∧
    demoBoth.toFitter.fitCoeffs (lhNnls 0) (some (.scalar 2)) (some (.vec [3, 3])) (some (.vec [1, 1 / 2])) 0 (fun _ _ _ => 0) = .ok out ∧
    demoBoth.derived demoReg (some (.scalar 2)) (some out.coeffs) 0 none = .ok D ∧ D.mremain = .scalar m0 ∧ D.intsfh = .scalar i0 ∧ 0 < m0 ∧ 0 < i0 := by
  have hin : InRange demoAm2.x 2 := by constructor <;> norm_num [demoAm2]
  have hR : Ready demoBoth.toFitter demoAm2 := ⟨rfl, demo_ready.good, rfl, rfl⟩
  have hK : MassKc demoBoth demoTmpl demoAm2 := ⟨rfl, ⟨rfl, rfl, rfl, rfl, rfl, rfl⟩, rfl⟩
  have hx : ∀ c : List ℝ, c.length = 2 → demoBoth.reconstruct (some (.scalar 2)) (some (.vec c)) 0 = .ok (.vec (reconRow 0 [[1, 2], [3 / 2, 3 / 2]] c)) := by
    intro c hc
    refine (recon_real demoBoth.toFitter demoAm2 2 c 0 hc).trans ?_
    rw [show ((1 : ℝ) + 2) * (1 + 0) - 1 = 2 by norm_num, demoAm2_at2]
    rfl
  have hind : Spec.Indep demoBoth.toFitter 2 [1, 1 / 2] := by
    intro x r hl hr hz
    obtain ⟨p, q, rfl⟩ : ∃ p q, x = [p, q] := by
      match x, hl with
      | [p, q], _ => exact ⟨p, q, rfl⟩
    have hr' := hx [p, q] rfl
    rw [hr] at hr'
    simp only [Except.ok.injEq, NDA.vec, NDA.arr.injEq, List.cons.injEq, and_true] at hr'
    obtain rfl := hr'.2.2
    have z1 := hz 0 1 rfl (by norm_num)
    have z2 := hz 1 (1 / 2) rfl (by norm_num)
    simp [reconRow, dot, sumL_real] at z1 z2
    have e1 : p = 0 := by linarith
    have e2 : q = 0 := by linarith
    simp [e1, e2]
  obtain ⟨c, hc, hl, hc0, rc, hrc, hopt⟩ := C184_fit demoBoth.toFitter (by show 2 ≤ 9; norm_num) trivial (by show 2 ≠ 1; norm_num) demoAm2 hR 2 hin [3, 3] [1, 1 / 2] rfl rfl
    (by intro v hv; simp only [List.mem_cons, List.not_mem_nil, or_false] at hv; rcases hv with rfl | rfl <;> norm_num) (fun _ _ _ => 0)
  obtain ⟨p, q, rfl⟩ : ∃ p q, c = [p, q] := by
    match c, hl with
    | [p, q], _ => exact ⟨p, q, rfl⟩
  obtain ⟨r1, hr1, hle⟩ := hopt [1, 1] rfl (by simp)
  have e1 := (hx [p, q] rfl).symm.trans hrc
  have e2 := (hx [1, 1] rfl).symm.trans hr1
  simp only [Except.ok.injEq, NDA.vec, NDA.arr.injEq, List.cons.injEq, and_true] at e1 e2
  obtain rfl := e1.2.2
  obtain rfl := e2.2.2
  have hab : abM demoBoth.abCls [3, 3] = [3, 3] ∧ abIv demoBoth.abCls [1, 1 / 2] = [1, 1 / 2] := ⟨abM_base _, abIv_base _⟩
  rw [show abM demoBoth.toFitter.abCls [3, 3] = [3, 3] from hab.1, show abIv demoBoth.toFitter.abCls [1, 1 / 2] = [1, 1 / 2] from hab.2] at hle
  simp [chi2, reconRow, dot, sumL_real] at hle
  have q1 : 3 - (p + 2 * q) = 0 := by nlinarith [sq_nonneg (3 - (p + 2 * q)), sq_nonneg (3 - (3 / 2 * p + 3 / 2 * q))]
  have q2 : 3 - (3 / 2 * p + 3 / 2 * q) = 0 := by nlinarith [sq_nonneg (3 - (p + 2 * q)), sq_nonneg (3 - (3 / 2 * p + 3 / 2 * q))]
  obtain rfl : p = 1 := by linarith
  obtain rfl : q = 1 := by linarith
  have h0 : demoAm2.at 0 = .ok [[1, 2], [3, 1]] := at_node (k := 0) demo_ready.good (by simp [demoAm2])
  have hs : SolarMags demoBoth demoReg [4, 4] := .cons ⟨⟨none, none, none, none, some 4, none, none⟩, by simp [demoReg], rfl⟩
    (.cons ⟨⟨none, none, none, none, some 4, none, none⟩, by simp [demoReg], rfl⟩ .nil)
  obtain ⟨D, hD⟩ := (derived_returns hK demoReg 2 [1, 1] rfl 0).mpr ⟨⟨_, h0⟩, ⟨_, hs⟩⟩
  obtain ⟨_, _, _, _, v⟩ := derived_vals hK demo_ready.good demoReg 2 [1, 1] rfl 0 D hD
  refine ⟨_, D, _, _, C184_contract, hR, hK, demo_ready.good, hin, continuous_id.continuousAt, hind, hc, hD, v.mremain, v.intsfh, ?_, ?_⟩
  · exact mul_pos (by norm_num [total, demoTmpl]) (lumFactor_pos _)
  · exact mul_pos (by norm_num [total, demoTmpl]) (lumFactor_pos _)

end KC
