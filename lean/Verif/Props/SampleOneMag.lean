import Verif.Props.SampleOne

/-!
# Absolute magnitudes and masses of the Monte Carlo samples of one galaxy (C221, C222)
-/

namespace KC
open Spec MeasureTheory ProbabilityTheory Filter Topology

/-- the absolute magnitudes of the samples of one galaxy -/
theorem mc_entries_one (K : Kc ℝ) (hr : AbReady K.abCls K.responses.length) (A Ao : AMat ℝ) (hA : K.Amatrix = some A) (hAo : K.AmatrixOut = some Ao) (hG : Ao.Good)
    (hn : Ao.nrow = K.responses.length) (hi : K.imap.length = Ao.nrow) (mc : Nat) (mrows crows : List (List ℝ)) (hm : mrows.length = K.responses.length)
    (hc : crows.length = K.templates.nsed) (z : ℝ) (iv : List ℝ) (hiv : iv.length = K.responses.length) (bs : ℝ) (dist : Option ℝ) (hd : ∀ d ∈ dist, 0 < d) (x : NDA ℝ)
    (h : K.absmagMc (.arr [K.responses.length] mc mrows) (some (.vec iv)) (some (.scalar z)) (.arr [K.templates.nsed] mc crows) bs (dist.map .scalar) false false = .ok (.one x))
    (j i : Nat) (v : ℝ) (hj : K.imap[j]? = some i) (hv : iv[i]? = some v) (hv0 : 0 < v) :
    ∀ k < mc, ∀ mv, (column mrows k)[i]? = some mv → ∃ kc kv, K.kcorrect (some (.scalar z)) (some (.vec (column crows k))) bs = .ok kc ∧ entry kc 0 j = some kv ∧
      entry x j k = some (if 0 < mv then mag mv - kv + (abOffset K.abCls i - dmSpec K.distmod z dist) else -9999) := by
  have hjn : j < K.responses.length := by
    rw [← hn, ← hi]
    exact (List.getElem?_eq_some_iff.mp hj).1
  intro k hk mv hmv
  have hml : (column mrows k).length = K.responses.length := by simpa [column] using hm
  have hcl : (column crows k).length = K.templates.nsed := by simpa [column] using hc
  obtain ⟨out, ho, hlen, hout⟩ := (C75_corrected_partial K hr A Ao hA hAo hn mc mrows crows hm hc z iv hiv bs dist false false).2 _ h k hk
  obtain ⟨y, rfl⟩ : ∃ y, out = .one y := by
    cases out with
    | one y => exact ⟨y, rfl⟩
    | tuple l =>
      rw [absmag_eff K hr z _ iv _ hml hiv hcl,
        absmag_scalar (K := K.plain) (Or.inl rfl) hA hAo z _ _ _ (by rw [List.length_mapIdx]; exact hml) (by rw [List.length_mapIdx]; exact hiv) hcl] at ho
      obtain ⟨L, ho⟩ : ∃ L : List (NDA ℝ), Ret.tuple l = mkRet L := by
        cases hO : absOne K.plain.imap A Ao id false false false bs (dm1 K.plain (f32 z) dist) (f32 z)
            (((column mrows k).mapIdx (fun j x => x * abFactor K.abCls j)).map f32)
            ((iv.mapIdx (fun j x => x / abFactor K.abCls j ^ 2)).map f32) ((column crows k).map f32) with
        | error e => rw [hO] at ho; cases ho
        | ok rows => rw [hO] at ho; exact ⟨_, (Except.ok.inj ho).symm⟩
      have hL := congrArg (fun r => r.list.length) ho
      simp only [ret_list] at hL
      have h1 : (Ret.tuple l : Ret ℝ).list.length = 1 := hlen
      rw [h1] at hL
      obtain ⟨a, ha⟩ := List.length_eq_one_iff.mp hL.symm
      rw [ha] at ho
      cases ho
  obtain ⟨_, hent⟩ := hout 0 x y rfl rfl
  obtain ⟨hex, hf⟩ := C70_corrected_partial K hr A Ao hA hAo z (column mrows k) iv (column crows k) hml hiv hcl bs dist hd
  obtain ⟨kc, hkc⟩ := hex.mp ⟨y, ho⟩
  obtain ⟨kv, hkv⟩ := kcorrect_entry hA hAo hG hi hcl hkc (j := j) (by omega)
  refine ⟨kc, kv, hkc, hkv, ?_⟩
  rw [hent j _ hjn ((hf y kc ho hkc).2 j i mv v kv hj hmv hv hkv)]
  simp only [hv0, and_true]
  congr 1
  split
  · ring
  · rfl

/-- C221 for the absolute magnitudes of one galaxy; samples without positive flux have -9999. -/
theorem C221_absmag_one {Ω : Type} [MeasurableSpace Ω] (P : Measure Ω) (noise : Ω → Nat → Nat → Nat → ℝ) (hdev : Deviates P noise) (nnls : Nnls ℝ) (hok : NNLSOK nnls)
    (K : Kc ℝ) (hr : AbReady K.abCls K.responses.length) (hnb : K.responses.length ≠ 1) (A Ao : AMat ℝ) (hR : Ready K.toFitter A) (hAo : K.AmatrixOut = some Ao) (hG : Ao.Good)
    (hn : Ao.nrow = K.responses.length) (him : K.imap.length = Ao.nrow) (hs : 0 < K.templates.nsed) (z : ℝ) (m iv : List ℝ)
    (hml : m.length = K.responses.length) (hivl : iv.length = K.responses.length) (hip : ∀ v ∈ iv, 0 ≤ v) (out : Ω → Nat → FitOut ℝ)
    (hfit : ∀ ω mc, 0 < mc → K.toFitter.fitCoeffs nnls (some (.scalar z)) (some (.vec m)) (some (.vec iv)) mc (noise ω) = .ok (out ω mc))
    (hz : InRange A.x z) (hind : Indep K.toFitter z iv)
    (bs : ℝ) (dist : Option ℝ) (hd : ∀ d ∈ dist, 0 < d) (x : Ω → Nat → NDA ℝ) (hx : ∀ ω mc cm mm, 0 < mc → (out ω mc).mc = some (cm, mm) →
      K.absmagMc mm (some (.vec iv)) (some (.scalar z)) cm bs (dist.map .scalar) false false = .ok (.one (x ω mc)))
    (j : Nat) (q : {l : Fin K.responses.length // 0 < ent iv l}) (hj : K.imap[j]? = some (q.1 : Nat))
    (hflux : ∀ t < K.templates.nsed, ∃ a b fa fb, K.reconstruct (some (.scalar z)) (some (.vec (alone K.templates.nsed t))) 0 = .ok a ∧
      K.reconstructOut (some (.scalar 0)) (some (.vec (alone K.templates.nsed t))) bs = .ok b ∧ entry a 0 q.1 = some fa ∧ entry b 0 j = some fb ∧ 0 < fa ∧ 0 < fb) :
    ∃ κ : ({l : Fin K.responses.length // 0 < ent iv l} → ℝ) → ℝ,
      (∀ (w : {l : Fin K.responses.length // 0 < ent iv l} → ℝ) (d c : List ℝ), d.length = K.responses.length → (∀ l : {l : Fin K.responses.length // 0 < ent iv l}, d[(l.1 : Nat)]? = some (w l)) →
        Optimal K.toFitter z d (abIv K.abCls iv) c → ∃ kc, K.kcorrect (some (.scalar z)) (some (.vec c)) bs = .ok kc ∧ entry kc 0 j = some (κ w)) ∧
      (∀ w : {l : Fin K.responses.length // 0 < ent iv l} → ℝ, ∃ d c : List ℝ, d.length = K.responses.length ∧ (∀ l : {l : Fin K.responses.length // 0 < ent iv l}, d[(l.1 : Nat)]? = some (w l)) ∧
        Optimal K.toFitter z d (abIv K.abCls iv) c) ∧
      ∀ B, MeasurableSet B → ∀ᵐ ω ∂P, Tendsto (fun mc => fraction mc (fun k => ∃ v ∈ B, entry (x ω mc) j k = some v)) atTop
        (𝓝 ((fluxLaw K.abCls K.responses.length m iv).real {w | (if 0 < w q then mag (w q) - κ w + (abOffset K.abCls q.1 - dmSpec K.distmod z dist) else -9999) ∈ B})) := by
  obtain ⟨W, cf, hW, hWl, c1, c2, c3, c4, c5, hc⟩ := sample_fits_one P noise hdev nnls hok K hr hnb A hR z m iv hml hivl hip out hfit hz hind
  have hie : iv[(q.1 : Nat)]? = some (ent iv q.1) := by
    have h1 : (q.1 : Nat) < iv.length := by rw [hivl]; exact q.1.2
    rw [List.getElem?_eq_getElem h1, ent_some h1]
  obtain ⟨kf, _, k1, _, _, k4⟩ := kcorrect_fn K A Ao hR hAo z bs hz hs j q.1 hj hflux
  refine ⟨fun w => kf (cf w), ?_, fun w => ?_, fun B hB => ?_⟩
  · intro w d c h1 h2 h3
    rw [c5 w d h1 h2 c h3]
    exact k4 (cf w) (c2 w)
  · obtain ⟨d, h1, h2, h3⟩ := c4 w
    exact ⟨d, _, h1, h2, h3⟩
  have hmm : Measurable mag := by
    unfold mag Real.logb
    fun_prop
  have hκ : Measurable (fun w => kf (cf w)) := k1.comp c1.measurable
  have hM : Measurable (fun w : {l : Fin K.responses.length // 0 < ent iv l} → ℝ =>
      if 0 < w q then mag (w q) - kf (cf w) + (abOffset K.abCls q.1 - dmSpec K.distmod z dist) else -9999) :=
    Measurable.ite (measurableSet_lt measurable_const (measurable_pi_apply q)) (((hmm.comp (measurable_pi_apply q)).sub hκ).add measurable_const) measurable_const
  filter_upwards [fraction_limit hW hWl _ (hM hB)] with ω hω
  refine hω.congr fun mc => ?_
  refine fraction_congr fun k hkm => ?_
  obtain ⟨cm, mm, h1, h3, h4, _, h2⟩ := hc ω mc (by omega)
  obtain ⟨kc, kv, b1, b2, b3⟩ := mc_entries_one K hr A Ao hR.set hAo hG hn him mc mm cm h4 h3 z iv hivl bs dist hd (x ω mc) (hx ω mc _ _ (by omega) h1) j q.1 _ hj hie q.2 k hkm _ ((h2 k hkm).2 q)
  obtain ⟨kc', d1, d2⟩ := k4 (cf (W k ω)) (c2 _)
  rw [(h2 k hkm).1, d1] at b1
  cases b1
  rw [d2] at b2
  rw [← Option.some.inj b2] at b3
  constructor
  · intro h
    exact ⟨_, h, b3⟩
  · rintro ⟨v, h, e⟩
    rw [b3] at e
    cases e
    exact h

/-- C222 for the stellar mass (key 0) and the integrated star formation (key 1) of the samples of one galaxy. -/
theorem C222_mass_one {Ω : Type} [MeasurableSpace Ω] (P : Measure Ω) (noise : Ω → Nat → Nat → Nat → ℝ) (hdev : Deviates P noise) (nnls : Nnls ℝ) (hok : NNLSOK nnls)
    (K : Kc ℝ) (hr : AbReady K.abCls K.responses.length) (hnb : K.responses.length ≠ 1) (A : AMat ℝ) (hR : Ready K.toFitter A) (z : ℝ) (m iv : List ℝ)
    (hml : m.length = K.responses.length) (hivl : iv.length = K.responses.length) (hip : ∀ v ∈ iv, 0 ≤ v) (out : Ω → Nat → FitOut ℝ)
    (hfit : ∀ ω mc, 0 < mc → K.toFitter.fitCoeffs nnls (some (.scalar z)) (some (.vec m)) (some (.vec iv)) mc (noise ω) = .ok (out ω mc))
    (hz : InRange A.x z) (hind : Indep K.toFitter z iv)
    (t : Tmpl ℝ) (Ao : AMat ℝ) (hK : MassKc K t Ao) (hG : Ao.Good) (reg : Reg ℝ) (bs : ℝ) (R : Ω → Nat → Derived ℝ)
    (hder : ∀ ω mc cm mm, 0 < mc → (out ω mc).mc = some (cm, mm) → K.derivedMc reg (some (.scalar z)) cm bs none = .ok (some (R ω mc))) (q : Nat) (hq : q = 0 ∨ q = 1) :
    ∃ f : ({l : Fin K.responses.length // 0 < ent iv l} → ℝ) → ℝ,
      (∀ w (d c : List ℝ), d.length = K.responses.length → (∀ l : {l : Fin K.responses.length // 0 < ent iv l}, d[(l.1 : Nat)]? = some (w l)) →
        Optimal K.toFitter z d (abIv K.abCls iv) c → ∃ E, K.derived reg (some (.scalar z)) (some (.vec c)) bs none = .ok E ∧ E.keys[q]? = some (.scalar (f w))) ∧
      (∀ w : {l : Fin K.responses.length // 0 < ent iv l} → ℝ, ∃ d c : List ℝ, d.length = K.responses.length ∧ (∀ l : {l : Fin K.responses.length // 0 < ent iv l}, d[(l.1 : Nat)]? = some (w l)) ∧ Optimal K.toFitter z d (abIv K.abCls iv) c) ∧
      MemLp f 2 (fluxLaw K.abCls K.responses.length m iv) ∧
      ∀ᵐ ω ∂P, Tendsto (fun mc => (∑ k ∈ Finset.range mc, keySample (R ω mc) q 0 k) / mc) atTop (𝓝 (∫ w, f w ∂fluxLaw K.abCls K.responses.length m iv)) ∧
        Tendsto (fun mc => scatter (Finset.range mc) (keySample (R ω mc) q 0)) atTop (𝓝 √(Var[f; fluxLaw K.abCls K.responses.length m iv])) := by
  obtain ⟨W, cf, hW, hWl, c1, c2, c3, c4, c5, hc⟩ := sample_fits_one P noise hdev nnls hok K hr hnb A hR z m iv hml hivl hip out hfit hz hind
  have hval : ∀ c : Fin K.templates.nsed → ℝ, ∀ E, K.derived reg (some (.scalar z)) (some (.vec (List.ofFn c))) bs none = .ok E →
      E.keys[q]? = some (.scalar (total (List.ofFn c) (if q = 0 then t.mremain else t.intsfh) * lumFactor (K.distmod z))) := by
    intro c E hE
    obtain ⟨ss, fl, _, _, hV⟩ := derived_vals hK hG reg z _ (by simp) bs E hE
    rcases hq with rfl | rfl
    · exact congrArg some hV.mremain
    · exact congrArg some hV.intsfh
  have hfc : Continuous (fun w => total (List.ofFn (cf w)) (if q = 0 then t.mremain else t.intsfh) * lumFactor (K.distmod z)) := by
    simp only [total_ofFn]
    exact (continuous_finsetSum _ fun i _ => ((continuous_apply i).comp c1).mul continuous_const).mul continuous_const
  have hL := homogeneous_memLp K.abCls K.responses.length m iv _ hfc (fun w s hs => by
    simp only [total_ofFn, c3 w s hs, mul_assoc, ← Finset.mul_sum])
  -- the values of one sample
  have cell : ∀ ω mc k, k < mc → (∃ E, K.derived reg (some (.scalar z)) (some (.vec (List.ofFn (cf (W k ω))))) bs none = .ok E) ∧
      keySample (R ω mc) q 0 k = total (List.ofFn (cf (W k ω))) (if q = 0 then t.mremain else t.intsfh) * lumFactor (K.distmod z) := by
    intro ω mc k hk
    obtain ⟨cm, mm, h1, h3, _, _, h2⟩ := hc ω mc (by omega)
    obtain ⟨R', E, e1, e2, e3⟩ := ((C82_one hK.tpl hK.mass hK.out reg z mc cm h3 bs).2 _ (hder ω mc _ _ (by omega) h1)).2 k hk
    cases e1
    rw [← column_ent, (h2 k hk).1] at e2
    obtain ⟨x, hx⟩ : ∃ x, (R ω mc).keys[q]? = some x := ⟨_, List.getElem?_eq_getElem (by rcases hq with rfl | rfl <;> simp [Derived.keys])⟩
    have e4 := (e3 q x _ hx (hval _ E e2)).2 0 _ (by simp [NDA.shape]) rfl
    rw [real_f32] at e4
    refine ⟨⟨E, e2⟩, ?_⟩
    unfold keySample
    rw [hx, Option.bind_some, e4]
    rfl
  have hP : IsProbabilityMeasure P := hdev.indep.isProbabilityMeasure
  obtain ⟨ω0⟩ : Nonempty Ω := nonempty_of_isProbabilityMeasure P
  have hall := (derived_returns hK reg z _ (by simp) bs).mp (cell ω0 1 0 one_pos).1
  refine ⟨_, fun w d c h1 h2 h3 => ?_, fun w => ?_, hL, moments_limit hW hWl _ hfc hL _ (fun ω mc k hk => (cell ω mc k hk).2)⟩
  · rw [c5 w d h1 h2 c h3]
    obtain ⟨E, hE⟩ := (derived_returns hK reg z (List.ofFn (cf w)) (by simp) bs).mpr hall
    exact ⟨E, hE, hval _ E hE⟩
  · obtain ⟨d, h1, h2, h3⟩ := c4 w
    exact ⟨d, _, h1, h2, h3⟩

/-- the fit of one galaxy at redshift 2 with Monte Carlo samples, and the absolute magnitudes of the samples -/
theorem demo_one_mags {Ω : Type} (noise : Ω → Nat → Nat → Nat → ℝ) : ∃ (out : Ω → Nat → FitOut ℝ) (x : Ω → Nat → NDA ℝ),
    (∀ ω mc, 0 < mc → demoKc2.toFitter.fitCoeffs (lhNnls 0) (some (.scalar 2)) (some (.vec [3, 3])) (some (.vec [1, 1 / 2])) mc (noise ω) = .ok (out ω mc)) ∧
    ∀ ω mc cm mm, 0 < mc → (out ω mc).mc = some (cm, mm) → demoKc2.absmagMc mm (some (.vec [1, 1 / 2])) (some (.scalar 2)) cm 0 none false false = .ok (.one (x ω mc)) := by
  have hin : InRange demoAm2.x 2 := by constructor <;> norm_num [demoAm2]
  have hf : ∀ ω mc, ∃ cm mm : List (List ℝ), ∃ out : FitOut ℝ, 0 < mc → cm.length = 2 ∧ mm.length = 2 ∧ out.mc = some (.arr [2] mc cm, .arr [2] mc mm) ∧
      demoKc2.toFitter.fitCoeffs (lhNnls 0) (some (.scalar 2)) (some (.vec [3, 3])) (some (.vec [1, 1 / 2])) mc (noise ω) = .ok out := by
    intro ω mc
    by_cases h0 : 0 < mc
    · obtain ⟨c, cm, mm, h⟩ := C184_mc demoKc2.toFitter (by decide) (Or.inl rfl) (by decide) demoAm2 demo_ready 2 hin [3, 3] [1, 1 / 2] rfl rfl mc h0 (noise ω)
      obtain ⟨p, _, hp⟩ := C55_monte_carlo (lhNnls 0) C184_contract.len demoKc2.toFitter (Or.inl rfl) (by decide) demoAm2 rfl 2 [3, 3] [1, 1 / 2] rfl rfl (by simp)
      obtain ⟨_, cm', mm', h1, g1, g2, _⟩ := hp mc h0 (noise ω) _ h
      exact ⟨cm', mm', _, fun _ => ⟨g1, g2, h1, h⟩⟩
    · exact ⟨[], [], ⟨.scalar 0, none⟩, fun h => absurd h h0⟩
  choose cm mm out hout using hf
  have hx : ∀ ω mc, ∃ x, 0 < mc → demoKc2.absmagMc (.arr [2] mc (mm ω mc)) (some (.vec [1, 1 / 2])) (some (.scalar 2)) (.arr [2] mc (cm ω mc)) 0 none false false = .ok (.one x) := by
    intro ω mc
    by_cases h0 : 0 < mc
    · obtain ⟨hl, hl', _⟩ := hout ω mc h0
      obtain ⟨ret, hret⟩ := (C75_corrected_partial demoKc2 trivial demoAm2 demoAm2 rfl rfl rfl mc (mm ω mc) (cm ω mc) hl' hl 2 [1, 1 / 2] rfl 0 none false false).1.mpr (by
        intro k _
        have hcl : (column (cm ω mc) k).length = demoKc2.templates.nsed := by rw [column, List.length_map]; exact hl
        obtain ⟨kc, hkc⟩ : ∃ kc, demoKc2.kcorrect (some (.scalar 2)) (some (.vec (column (cm ω mc) k))) 0 = .ok kc := by
          rw [kcorrect_real (K := demoKc2) (A := demoAm2) (Ao := demoAm2) rfl rfl 2 _ hcl]
          unfold kReal
          rw [demoAm2_at0', demoAm2_at2]
          exact ⟨_, rfl⟩
        obtain ⟨a, ha⟩ := (C70_corrected_partial demoKc2 trivial demoAm2 demoAm2 rfl rfl 2 (column (mm ω mc) k) [1, 1 / 2] (column (cm ω mc) k)
          (by rw [column, List.length_map]; exact hl') rfl hcl 0 none (by simp)).1.mpr ⟨_, hkc⟩
        exact ⟨_, ha⟩)
      obtain ⟨x, rfl⟩ := absmagMc_single _ _ _ _ _ _ _ _ hret
      exact ⟨x, fun _ => hret⟩
    · exact ⟨.scalar 0, fun h => absurd h h0⟩
  choose x hx using hx
  refine ⟨out, x, fun ω mc h0 => (hout ω mc h0).2.2.2, fun ω mc c m h0 h => ?_⟩
  rw [(hout ω mc h0).2.2.1] at h
  cases h
  exact hx ω mc h0

/-- Not vacuous: one galaxy at redshift 2 in the second band, fainter than absolute magnitude 0. -/
example : ∃ (Ω : Type) (_ : MeasurableSpace Ω) (P : Measure Ω) (x : Ω → Nat → NDA ℝ) (L : ℝ), IsProbabilityMeasure P ∧
    ∀ᵐ ω ∂P, Tendsto (fun mc => fraction mc (fun k => ∃ v ∈ Set.Ioi 0, entry (x ω mc) 1 k = some v)) atTop (𝓝 L) := by
  have hdev := deviates_exist
  generalize (fun (ω : ℕ × ℕ × ℕ → ℝ) i k p => ω (i, k, p)) = noise at hdev
  generalize Measure.infinitePi (fun _ : ℕ × ℕ × ℕ => gaussianReal 0 1) = P at hdev
  have hP : IsProbabilityMeasure P := hdev.indep.isProbabilityMeasure
  obtain ⟨_, hrd, hin, hind, _⟩ := demo_used
  obtain ⟨out, x, hout, hx⟩ := demo_one_mags noise
  obtain ⟨κ, _, _, h⟩ := C221_absmag_one P noise hdev (lhNnls 0) C184_contract demoKc2 trivial (by decide) demoAm2 demoAm2 hrd rfl demo_ready.good rfl rfl (by decide) 2 [3, 3]
    [1, 1 / 2] rfl rfl (by simp) out hout hin hind 0 none (by simp) x (fun ω mc cm mm h1 h2 => hx ω mc cm mm h1 h2) 1 ⟨⟨1, by decide⟩, by simp [ent]⟩ rfl demo_alone_flux
  exact ⟨_, _, P, x, _, hP, h _ measurableSet_Ioi⟩

/-- Not vacuous: the stellar mass of the galaxy of `demo_one_draws`. -/
example : ∃ (Ω : Type) (_ : MeasurableSpace Ω) (P : Measure Ω) (R : Ω → Nat → Derived ℝ) (μ σ : ℝ), IsProbabilityMeasure P ∧
    ∀ᵐ ω ∂P, Tendsto (fun mc => (∑ k ∈ Finset.range mc, keySample (R ω mc) 0 0 k) / mc) atTop (𝓝 μ) ∧
      Tendsto (fun mc => scatter (Finset.range mc) (keySample (R ω mc) 0 0)) atTop (𝓝 σ) := by
  have hdev := deviates_exist
  generalize (fun (ω : ℕ × ℕ × ℕ → ℝ) i k p => ω (i, k, p)) = noise at hdev
  generalize Measure.infinitePi (fun _ : ℕ × ℕ × ℕ => gaussianReal 0 1) = P at hdev
  have hP : IsProbabilityMeasure P := hdev.indep.isProbabilityMeasure
  have hin : InRange demoAm2.x 2 := by constructor <;> norm_num [demoAm2]
  obtain ⟨out, R, hout, hR⟩ := demo_one_draws noise
  obtain ⟨f, _, _, _, h⟩ := C222_mass_one P noise hdev (lhNnls 0) C184_contract demoBoth trivial (by decide) demoAm2 demo_both_ready 2 [3, 3] [1, 1 / 2] rfl rfl (by simp) out hout hin
    demo_both_indep demoTmpl demoAm2 demo_both_mass demo_ready.good demoReg 0 R hR 0 (Or.inl rfl)
  exact ⟨_, _, P, R, _, _, hP, h⟩

end KC
