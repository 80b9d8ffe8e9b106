import Verif.Props.AnyBatch
import Verif.Props.Derived
import Verif.Props.BestFitAb

/-!
# Masses from photometry without noise (C192)
-/

namespace KC
open Spec

/-- The photometry `m`, in the bands where `iv` is positive, fixes the total of `v` (an amount per unit of each template, a mass for instance): every nonnegative
mixture of the templates with the same maggies in these bands has the same total as `c0`. -/
def Fixes (F : Fitter ℝ) (z : ℝ) (m iv c0 v : List ℝ) : Prop :=
  ∀ c r : List ℝ, c.length = F.templates.nsed → (∀ x ∈ c, 0 ≤ x) → F.reconstruct (some (.scalar z)) (some (.vec c)) 0 = .ok (.vec r) →
    (∀ (j : Nat) w, iv[j]? = some w → 0 < w → r[j]? = m[j]?) → total c v = total c0 v

/-- Photometry that determines the mixture fixes everything. -/
theorem Determined.fixes {F : Fitter ℝ} {z : ℝ} {m iv c0 : List ℝ} (h : Determined F z m iv c0) (v : List ℝ) : Fixes F z m iv c0 v :=
  fun c r h1 h2 h3 h4 => by rw [h c r h1 h2 h3 h4]

/-- What is fixed by photometry without noise is the same for the fitted coefficients as for the true ones. -/
theorem fit_total (nnls : Nnls ℝ) (hn : NNLSOK nnls) (F : Fitter ℝ) (hr : AbReady F.abCls F.responses.length) (A : AMat ℝ) (hR : Ready F A) (z : ℝ)
    (hz : InRange A.x z) (m iv c0 : List ℝ) (hml : m.length = F.responses.length) (hc0 : c0.length = F.templates.nsed) (hc0p : ∀ v ∈ c0, 0 ≤ v)
    (hm : F.reconstruct (some (.scalar z)) (some (.vec c0)) 0 = .ok (.vec (abM F.abCls m))) (hiv : iv.length = F.responses.length)
    (hpos : ∀ v ∈ iv, 0 ≤ v) (noise : Nat → Nat → Nat → ℝ) (c : List ℝ)
    (h : F.fitCoeffs nnls (some (.scalar z)) (some (.vec m)) (some (.vec iv)) 0 noise = .ok ⟨.vec c, none⟩) :
    c.length = F.templates.nsed ∧ ∀ v, Fixes F z (abM F.abCls m) iv c0 v → total c v = total c0 v := by
  obtain ⟨c', e, ho⟩ := C49_ab nnls hn F hr A hR z hz m iv hml hiv hpos noise _ h
  simp only [FitOut.mk.injEq, NDA.vec, NDA.arr.injEq, List.cons.injEq, and_true] at e
  obtain ⟨_, _, rfl⟩ := e
  obtain ⟨r, hrec, hj⟩ := C61_ab nnls hn F hr A hR z hz m iv c0 hml hc0 hc0p hm hiv hpos noise _ h
  exact ⟨ho.1, fun v hv => hv c r ho.1 ho.2.1 hrec hj⟩

/-- What `derived` says of a galaxy at luminosity distance `d` (in Mpc) that is the mixture `c0` of the templates, of the quantities that the photometry fixes. -/
structure TrueValues (t : Tmpl ℝ) (fixed : List ℝ → Prop) (d : ℝ) (c0 : List ℝ) (mremain intsfh b50 b300 b1000 metallicity : ℝ) : Prop where
  mremain : fixed t.mremain → mremain = total c0 t.mremain * (d * 10 ^ 5) ^ 2
  intsfh : fixed t.intsfh → intsfh = total c0 t.intsfh * (d * 10 ^ 5) ^ 2
  b50 : fixed t.mremain → fixed t.intsfh → fixed t.m50 → 0 < total c0 t.mremain → b50 = total c0 t.m50 / total c0 t.intsfh
  b300 : fixed t.mremain → fixed t.intsfh → fixed t.m300 → 0 < total c0 t.mremain → b300 = total c0 t.m300 / total c0 t.intsfh
  b1000 : fixed t.mremain → fixed t.intsfh → fixed t.m1000 → 0 < total c0 t.mremain → b1000 = total c0 t.m1000 / total c0 t.intsfh
  metallicity : fixed t.mremain → fixed (List.zipWith (· * ·) t.mremain t.mets) → 0 < total c0 t.mremain →
    metallicity = total c0 (List.zipWith (· * ·) t.mremain t.mets) / total c0 t.mremain

/-- C192, one galaxy, every class: from photometry without noise of the mixture `c0`, `derived` of the fitted coefficients gives the true masses, star formation
fractions and metallicity, each whenever the photometry fixes it, even if it does not determine the mixture. -/
theorem C192_one (nnls : Nnls ℝ) (hn : NNLSOK nnls) (K : Kc ℝ) (hr : AbReady K.abCls K.responses.length) (A Ao : AMat ℝ) (hR : Ready K.toFitter A)
    (t : Tmpl ℝ) (hM : MassKc K t Ao) (hg : Ao.Good) (z : ℝ) (hz : InRange A.x z) (m iv c0 : List ℝ) (hml : m.length = K.responses.length)
    (hc0 : c0.length = K.templates.nsed) (hc0p : ∀ v ∈ c0, 0 ≤ v)
    (hm : K.reconstruct (some (.scalar z)) (some (.vec c0)) 0 = .ok (.vec (abM K.abCls m))) (hiv : iv.length = K.responses.length)
    (hpos : ∀ v ∈ iv, 0 ≤ v) (noise : Nat → Nat → Nat → ℝ) (out : FitOut ℝ)
    (hfit : K.toFitter.fitCoeffs nnls (some (.scalar z)) (some (.vec m)) (some (.vec iv)) 0 noise = .ok out)
    (reg : Reg ℝ) (bs d : ℝ) (hd : 0 < d) (hdm : K.distmod z = distanceModulus d) (D : Derived ℝ)
    (hD : K.derived reg (some (.scalar z)) (some out.coeffs) bs none = .ok D) :
    ∃ x1 x2 x3 x4 x5 x6, D.mremain = .scalar x1 ∧ D.intsfh = .scalar x2 ∧ D.b50 = .scalar x3 ∧ D.b300 = .scalar x4 ∧ D.b1000 = .scalar x5 ∧
      D.metallicity = .scalar x6 ∧ TrueValues t (Fixes K.toFitter z (abM K.abCls m) iv c0) d c0 x1 x2 x3 x4 x5 x6 := by
  obtain ⟨c, rfl, _⟩ := C49_ab nnls hn K.toFitter hr A hR z hz m iv hml hiv hpos noise out hfit
  obtain ⟨hcl, ht⟩ := fit_total nnls hn K.toFitter hr A hR z hz m iv c0 hml hc0 hc0p hm hiv hpos noise c hfit
  obtain ⟨ss, f, _, _, hv⟩ := derived_vals hM hg reg z c hcl bs D hD
  have hl := lumFactor_distance d hd
  rw [← hdm] at hl
  refine ⟨_, _, _, _, _, _, hv.mremain, hv.intsfh, hv.b50, hv.b300, hv.b1000, hv.metallicity, ⟨?_, ?_, ?_, ?_, ?_, ?_⟩⟩
  · intro h; rw [ht _ h, hl]
  · intro h; rw [ht _ h, hl]
  · intro h1 h2 h3 h0; rw [ht _ h1, ht _ h2, ht _ h3, if_pos h0]
  · intro h1 h2 h3 h0; rw [ht _ h1, ht _ h2, ht _ h3, if_pos h0]
  · intro h1 h2 h3 h0; rw [ht _ h1, ht _ h2, ht _ h3, if_pos h0]
  · intro h1 h2 h0; rw [ht _ h1, ht _ h2, if_pos h0]

/-- C192, tables of any number of galaxies, every class: entry `k` of every array of `derived` has the true value of galaxy `k`. -/
theorem C192_table (nnls : Nnls ℝ) (hn : NNLSOK nnls) (K : Kc ℝ) (hr : AbReady K.abCls K.responses.length) (hnb : K.responses.length ≠ 1) (A Ao : AMat ℝ)
    (hR : Ready K.toFitter A) (t : Tmpl ℝ) (hM : MassKc K t Ao) (hg : Ao.Good) (hlen : K.responses.length = K.responsesOut.length)
    (zs : List ℝ) (ms ivs : List (List ℝ)) (hms : ms.length = zs.length) (hivs : ivs.length = zs.length)
    (hml : ∀ m ∈ ms, m.length = K.responses.length) (hivl : ∀ m ∈ ivs, m.length = K.responses.length) (hpos : ∀ iv ∈ ivs, ∀ v ∈ iv, 0 ≤ v)
    (noise : Nat → Nat → Nat → ℝ) (out : FitOut ℝ)
    (hfit : K.toFitter.fitCoeffs nnls (some (.vec zs)) (some (.arr [zs.length] K.responses.length ms)) (some (.arr [zs.length] K.responses.length ivs)) 0 noise =
      .ok out)
    (reg : Reg ℝ) (ss : List ℝ) (hss : SolarMags K reg ss) (bs : ℝ) (D : Derived ℝ)
    (hD : K.derived reg (some (.vec zs)) (some out.coeffs) bs none = .ok D) :
    ∃ v1 v2 v3 v4 v5 v6, D.mremain = .vec v1 ∧ D.intsfh = .vec v2 ∧ D.b50 = .vec v3 ∧ D.b300 = .vec v4 ∧ D.b1000 = .vec v5 ∧ D.metallicity = .vec v6 ∧
      ∀ (k : Nat) z m iv c0 d, zs[k]? = some z → ms[k]? = some m → ivs[k]? = some iv → InRange A.x z → c0.length = K.templates.nsed → (∀ v ∈ c0, 0 ≤ v) →
        K.reconstruct (some (.scalar z)) (some (.vec c0)) 0 = .ok (.vec (abM K.abCls m)) → 0 < d → K.distmod z = distanceModulus d →
        ∃ x1 x2 x3 x4 x5 x6, v1[k]? = some x1 ∧ v2[k]? = some x2 ∧ v3[k]? = some x3 ∧ v4[k]? = some x4 ∧ v5[k]? = some x5 ∧ v6[k]? = some x6 ∧
          TrueValues t (Fixes K.toFitter z (abM K.abCls m) iv c0) d c0 x1 x2 x3 x4 x5 x6 := by
  obtain ⟨cs, rfl, hl, hk⟩ := (C52_every_length_partial nnls hn.len K.toFitter hr hnb zs ms ivs hms hivs hml hivl noise noise).2 out hfit
  have hcl : ∀ c ∈ cs, c.length = K.templates.nsed := by
    intro c hc
    obtain ⟨k, hc'⟩ := List.mem_iff_getElem?.mp hc
    have hkl : k < cs.length := (List.getElem?_eq_some_iff.mp hc').1
    have b := List.getElem?_eq_getElem (by omega : k < ms.length)
    have c' := List.getElem?_eq_getElem (by omega : k < ivs.length)
    obtain ⟨c1, e, h1⟩ := (fit_one_out hn.len hr hnb (hml _ (List.mem_of_getElem? b)) (hivl _ (List.mem_of_getElem? c')) noise noise).2 _
      (hk k _ _ _ c (List.getElem?_eq_getElem (by omega)) b c' hc')
    simp only [FitOut.mk.injEq, NDA.vec, NDA.arr.injEq, List.cons.injEq, and_true] at e
    rw [e.2.2]; exact h1
  obtain ⟨ds, hds, w1, w2, rows, w3, w4, w5, w6, rfl, e1, e2, _, e3, e4, e5, e6⟩ :=
    (C95_batch K t Ao hM hlen reg ss hss zs cs hl hcl bs D).mp hD
  refine ⟨w1, w2, w3, w4, w5, w6, rfl, rfl, rfl, rfl, rfl, rfl, fun k z m iv c0 d hz hm hiv hin hc0 hc0p hrec hd hdm => ?_⟩
  have hkz : k < zs.length := (List.getElem?_eq_some_iff.mp hz).1
  have hkc : cs[k]? = some (cs[k]'(by omega)) := List.getElem?_eq_getElem _
  obtain ⟨D', hD', hDk⟩ : ∃ D', ds[k]? = some D' ∧ K.derived reg (some (.scalar z)) (some (.vec (cs[k]'(by omega)))) bs none = .ok D' := by
    have hzl : (List.zip zs cs)[k]? = some (z, cs[k]'(by omega)) := by
      rw [List.getElem?_zip_eq_some]; exact ⟨hz, hkc⟩
    have hkd : k < ds.length := by
      rw [← hds.length_eq]; exact (List.getElem?_eq_some_iff.mp hzl).1
    refine ⟨ds[k], List.getElem?_eq_getElem hkd, ?_⟩
    have := List.Forall₂.get hds (i := k) (List.getElem?_eq_some_iff.mp hzl).1 hkd
    simp only [List.get_eq_getElem] at this
    rw [(List.getElem?_eq_some_iff.mp hzl).2] at this
    exact this
  have hivm := List.mem_of_getElem? hiv
  obtain ⟨x1, x2, x3, x4, x5, x6, g1, g2, g3, g4, g5, g6, hT⟩ := C192_one nnls hn K hr A Ao hR t hM hg z hin m iv c0 (hml m (List.mem_of_getElem? hm)) hc0 hc0p
    hrec (hivl iv hivm) (hpos iv hivm) noise _ (hk k z m iv _ hz hm hiv hkc) reg bs d hd hdm D' hDk
  have pick : ∀ (key : Derived ℝ → NDA ℝ) (w : List ℝ) (x : ℝ), ds.map key = w.map .scalar → key D' = .scalar x → w[k]? = some x := by
    intro key w x he hx
    have := congrArg (fun l => l[k]?) he
    simp only [List.getElem?_map, hD', Option.map_some, hx] at this
    cases hw : w[k]? with
    | none => rw [hw] at this; simp at this
    | some y =>
      rw [hw] at this
      simp only [Option.map_some, Option.some.injEq, NDA.scalar.injEq] at this
      rw [this]
  exact ⟨x1, x2, x3, x4, x5, x6, pick _ _ _ e1 g1, pick _ _ _ e2 g2, pick _ _ _ e3 g3, pick _ _ _ e4 g4, pick _ _ _ e5 g5, pick _ _ _ e6 g6, hT⟩

/-- Two templates of equal mass and different star formation. -/
noncomputable def demoTwin : Tmpl ℝ :=
  ⟨⟨[1, 2], [[1, 1], [1, 2]], [1, 2], [[1, 1], [1, 2]], 0, false, none, false⟩, [4, 5], [3, 3], [1 / 50, 1 / 100], [1, 1], [1, 2], [0, 1]⟩

noncomputable def demoTwinKc : Kc ℝ :=
  ⟨{ demoFitter2 with templates := .template demoTwin }, [['x'], ['y']], [['x'], ['y']], some demoAm2, [0, 1], fun _ => distanceModulus 1⟩

/-- Not vacuous: only the second band is observed, which does not determine the mixture of the two templates of `demoTwin` but does fix the mass.  Whatever the
solver returns, the mass is the true one, 18 (1 + 5 units of templates of mass 3) times the squared distance. -/
example : ∃ (m : List ℝ) (out : FitOut ℝ) (D : Derived ℝ), demoTwinKc.reconstruct (some (.scalar 2)) (some (.vec [1, 5])) 0 = .ok (.vec m) ∧
    demoTwinKc.toFitter.fitCoeffs demoNnls (some (.scalar 2)) (some (.vec m)) (some (.vec [0, 4])) 0 (fun _ _ _ => 0) = .ok out ∧
    demoTwinKc.derived (fun _ => some ⟨none, none, none, none, some 4, none, none⟩) (some (.scalar 2)) (some out.coeffs) 0 none = .ok D ∧
    ¬ Determined demoTwinKc.toFitter 2 m [0, 4] [1, 5] ∧ Fixes demoTwinKc.toFitter 2 m [0, 4] [1, 5] demoTwin.mremain ∧
    D.mremain = .scalar (18 * (1 * 10 ^ 5) ^ 2) := by
  have hR : Ready demoTwinKc.toFitter demoAm2 := ⟨rfl, demo_ready.good, rfl, rfl⟩
  have hz : InRange demoAm2.x 2 := by norm_num [InRange, demoAm2]
  have hrec : ∀ c : List ℝ, c.length = 2 → demoTwinKc.toFitter.reconstruct (some (.scalar 2)) (some (.vec c)) 0 =
      .ok (.vec (mulVec [[1, 2], [3 / 2, 3 / 2]] c)) := fun c hc => recon_ready hR demoAm2_at2 hc
  have h15 : mulVec [[1, 2], [3 / 2, 3 / 2]] [1, 5] = ([11, 9] : List ℝ) := by simp [mulVec, dot, sumL_real]; norm_num
  have hm : demoTwinKc.toFitter.reconstruct (some (.scalar 2)) (some (.vec [1, 5])) 0 = .ok (.vec [11, 9]) := by rw [hrec _ rfl, h15]
  have hM : MassKc demoTwinKc demoTwin demoAm2 := ⟨rfl, ⟨rfl, rfl, rfl, rfl, rfl, rfl⟩, rfl⟩
  have hpos : ∀ v ∈ ([0, 4] : List ℝ), 0 ≤ v := by simp
  obtain ⟨c, hfit, ho⟩ := C161_ab demoNnls demoNnls_ok demoTwinKc.toFitter (fun A b => solve_returns C161_solver.2 _ A b) trivial (by decide) demoAm2 hR 2 hz
    [11, 9] [0, 4] rfl rfl hpos (fun _ _ _ => 0)
  obtain ⟨D, hD⟩ := (derived_returns hM (fun _ => some ⟨none, none, none, none, some 4, none, none⟩) 2 c ho.1 0).mpr
    ⟨(at_ok_iff demo_ready.good.ne).mpr (by norm_num [InRange, demoAm2]), [4, 4], .cons ⟨_, rfl, rfl⟩ (.cons ⟨_, rfl, rfl⟩ .nil)⟩
  have hfx : Fixes demoTwinKc.toFitter 2 [11, 9] [0, 4] [1, 5] demoTwin.mremain := by
    intro c r hc _ hcr hj
    match c, hc with
    | [x, y], _ =>
      rw [hrec _ rfl] at hcr
      simp only [Except.ok.injEq, NDA.vec, NDA.arr.injEq, List.cons.injEq, and_true] at hcr
      have b := hj 1 4 rfl (by norm_num)
      rw [← hcr.2.2] at b
      simp [mulVec, dot, sumL_real] at b
      simp [total, demoTwin]
      linarith
  refine ⟨[11, 9], _, D, hm, hfit, hD, fun hdet => ?_, hfx, ?_⟩
  · have := hdet [6, 0] _ rfl (by simp) (hrec _ rfl) (by
      intro j v hj hv
      match j, hj with
      | 0, hj => simp at hj; rw [← hj] at hv; exact absurd hv (lt_irrefl _)
      | 1, _ => simp [mulVec, dot, sumL_real]; norm_num)
    norm_num at this
  · have hab : abM demoTwinKc.abCls [11, 9] = [11, 9] := abM_base _
    obtain ⟨x1, x2, x3, x4, x5, x6, e1, _, _, _, _, _, hT⟩ := C192_one demoNnls demoNnls_ok demoTwinKc trivial demoAm2 demoAm2 hR demoTwin hM demo_ready.good 2 hz
      [11, 9] [0, 4] [1, 5] rfl rfl (by simp) (by rw [hab]; exact hm) rfl hpos (fun _ _ _ => 0) _ hfit _ 0 1 one_pos rfl D hD
    rw [e1, hT.mremain (by rw [hab]; exact hfx)]
    norm_num [total, demoTwin]

end KC
