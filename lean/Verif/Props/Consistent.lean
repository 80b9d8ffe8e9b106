import Verif.Props.Batches
import Verif.Props.Spectrum

/-!
# Absolute magnitudes as model plus residual, order of the derived quantities, K-corrections as functions of redshift (C154–C156)
-/

namespace KC
open Spec

/-- C154: an absolute magnitude is that of the model plus the residual of the photometry in the mapped band.  `fa` and `fb` are the model maggies in the mapped input
band at the redshift and in the output band at rest. -/
theorem C154_residual (K : Kc ℝ) (hr : AbReady K.abCls K.responses.length) (A Ao : AMat ℝ) (hA : K.Amatrix = some A)
    (hAo : K.AmatrixOut = some Ao) (z : ℝ) (m iv c : List ℝ) (hm : m.length = K.responses.length) (hiv : iv.length = K.responses.length)
    (hc : c.length = K.templates.nsed) (hs : 0 < c.sum) (bs : ℝ) (dist : Option ℝ) (hd : ∀ d ∈ dist, 0 < d) (a : NDA ℝ)
    (ha : K.absmag (some (.vec m)) (some (.vec iv)) (some (.scalar z)) (some (.vec c)) bs (dist.map .scalar) false false false = .ok (.one a)) :
    ∃ x y, K.reconstruct (some (.scalar z)) (some (.vec c)) 0 = .ok x ∧ K.reconstructOut (some (.scalar 0)) (some (.vec c)) bs = .ok y ∧
      ∀ (j i : Nat) mv v fa fb, K.imap[j]? = some i → m[i]? = some mv → iv[i]? = some v → 0 < mv → 0 < v → entry x 0 i = some fa → entry y 0 j = some fb →
        0 < fa → 0 < fb → entry a 0 j = some ((mag fb - dmSpec K.distmod z dist) + (mag mv + abOffset K.abCls i - mag fa)) := by
  obtain ⟨hex, hf⟩ := C70_corrected_partial K hr A Ao hA hAo z m iv c hm hiv hc bs dist hd
  obtain ⟨k, hk⟩ := hex.mp ⟨a, ha⟩
  obtain ⟨h67, h67f⟩ := C67_model_magnitudes K A Ao hA hAo z bs c hc
  obtain ⟨⟨x, hx⟩, ⟨y, hy⟩⟩ := h67.mp ⟨k, hk⟩
  refine ⟨x, y, hx, hy, ?_⟩
  intro j i mv v fa fb hj hmi hvi hmv hv hfa hfb ha0 hb0
  have hkv := (h67f k x y hk hx hy).2.2 hs j i fa fb hj hfa hfb ha0 hb0
  rw [(hf a k ha hk).2 j i mv v _ hj hmi hvi hkv, if_pos ⟨hmv, hv⟩]
  congr 1; ring

/-- C154: output bands that are mapped to the same input band have the rest-frame colour of the model, whatever was measured. -/
theorem C154_colour (K : Kc ℝ) (hr : AbReady K.abCls K.responses.length) (A Ao : AMat ℝ) (hA : K.Amatrix = some A)
    (hAo : K.AmatrixOut = some Ao) (z : ℝ) (m iv c : List ℝ) (hm : m.length = K.responses.length) (hiv : iv.length = K.responses.length)
    (hc : c.length = K.templates.nsed) (hs : 0 < c.sum) (bs : ℝ) (dist : Option ℝ) (hd : ∀ d ∈ dist, 0 < d) (a y x : NDA ℝ)
    (ha : K.absmag (some (.vec m)) (some (.vec iv)) (some (.scalar z)) (some (.vec c)) bs (dist.map .scalar) false false false = .ok (.one a))
    (hx : K.reconstruct (some (.scalar z)) (some (.vec c)) 0 = .ok x)
    (hy : K.reconstructOut (some (.scalar 0)) (some (.vec c)) bs = .ok y) (j j' i : Nat) (hj : K.imap[j]? = some i) (hj' : K.imap[j']? = some i)
    (mv v fa fb fb' : ℝ) (hmi : m[i]? = some mv) (hvi : iv[i]? = some v) (hmv : 0 < mv) (hv : 0 < v) (hfa : entry x 0 i = some fa)
    (hfb : entry y 0 j = some fb) (hfb' : entry y 0 j' = some fb') (h0 : 0 < fa) (h1 : 0 < fb) (h2 : 0 < fb') :
    ∃ M M', entry a 0 j = some M ∧ entry a 0 j' = some M' ∧ M - M' = mag fb - mag fb' := by
  obtain ⟨x', y', hx', hy', h⟩ := C154_residual K hr A Ao hA hAo z m iv c hm hiv hc hs bs dist hd a ha
  rw [hx] at hx'; cases hx'
  rw [hy] at hy'; cases hy'
  exact ⟨_, _, h j i mv v fa fb hj hmi hvi hmv hv hfa hfb h0 h1, h j' i mv v fa fb' hj' hmi hvi hmv hv hfa hfb' h0 h2, by ring⟩

/-! ### C155 -/

theorem total_mono : ∀ (c a b : List ℝ), (∀ v ∈ c, 0 ≤ v) → List.Forall₂ (· ≤ ·) a b → total c a ≤ total c b
  | [], _, _, _, _ => by simp [total]
  | _ :: _, _, _, _, .nil => by simp [total]
  | x :: c, _, _, hc, .cons h hs => by
    have := total_mono c _ _ (fun v hv => hc v (by simp [hv])) hs
    simp only [total, List.zipWith_cons_cons, List.sum_cons] at this ⊢
    have h1 := mul_le_mul_of_nonneg_left h (hc x (by simp))
    linarith

theorem total_nonneg (c a : List ℝ) (hc : ∀ v ∈ c, 0 ≤ v) (ha : ∀ v ∈ a, 0 ≤ v) : 0 ≤ total c a := by
  refine List.sum_nonneg ?_
  intro x hx
  obtain ⟨i, hi, rfl⟩ := List.mem_iff_getElem.mp hx
  simp only [List.getElem_zipWith]
  exact mul_nonneg (hc _ (List.getElem_mem _)) (ha _ (List.getElem_mem _))

/-- What the masses of a template have in common with any star formation history: younger stars are some of the older ones, and what remains was formed. -/
structure SfHistory (t : Tmpl ℝ) : Prop where
  m50 : ∀ v ∈ t.m50, 0 ≤ v
  le300 : List.Forall₂ (· ≤ ·) t.m50 t.m300
  le1000 : List.Forall₂ (· ≤ ·) t.m300 t.m1000
  leAll : List.Forall₂ (· ≤ ·) t.m1000 t.intsfh
  rem : ∀ v ∈ t.mremain, 0 ≤ v
  leFormed : List.Forall₂ (· ≤ ·) t.mremain t.intsfh

/-- the order of the quantities of one galaxy -/
def Ordered (b50 b300 b1000 mr is : ℝ) : Prop := 0 ≤ b50 ∧ b50 ≤ b300 ∧ b300 ≤ b1000 ∧ b1000 ≤ 1 ∧ 0 ≤ mr ∧ mr ≤ is

/-- C155: for nonnegative coefficients, `0 ≤ b50 ≤ b300 ≤ b1000 ≤ 1` and `0 ≤ mremain ≤ intsfh`. -/
theorem C155_ordered (K : Kc ℝ) (t : Tmpl ℝ) (Ao : AMat ℝ) (h : MassKc K t Ao) (hg : AMat.Good Ao) (ht : SfHistory t) (g : Reg ℝ) (z : ℝ) (c : List ℝ)
    (hc : c.length = K.templates.nsed) (hc0 : ∀ v ∈ c, 0 ≤ v) (bs : ℝ) (D : Derived ℝ)
    (hD : K.derived g (some (.scalar z)) (some (.vec c)) bs none = .ok D) :
    ∃ b50 b300 b1000 mr is, D.b50 = .scalar b50 ∧ D.b300 = .scalar b300 ∧ D.b1000 = .scalar b1000 ∧ D.mremain = .scalar mr ∧ D.intsfh = .scalar is ∧
      Ordered b50 b300 b1000 mr is := by
  obtain ⟨ss, f, _, _, v⟩ := derived_vals h hg g z c hc bs D hD
  refine ⟨_, _, _, _, _, v.b50, v.b300, v.b1000, v.mremain, v.intsfh, ?_⟩
  have hL := lumFactor_pos (K.distmod z)
  have h1 := total_mono c _ _ hc0 ht.le300
  have h2 := total_mono c _ _ hc0 ht.le1000
  have h3 := total_mono c _ _ hc0 ht.leAll
  have h4 := total_mono c _ _ hc0 ht.leFormed
  have h5 := total_nonneg c _ hc0 ht.m50
  have h6 := total_nonneg c _ hc0 ht.rem
  have hm : 0 ≤ total c t.mremain * lumFactor (K.distmod z) ∧ total c t.mremain * lumFactor (K.distmod z) ≤ total c t.intsfh * lumFactor (K.distmod z) :=
    ⟨mul_nonneg h6 hL.le, mul_le_mul_of_nonneg_right h4 hL.le⟩
  by_cases hp : 0 < total c t.mremain
  · have hi : 0 < total c t.intsfh := lt_of_lt_of_le hp h4
    simp only [if_pos hp]
    exact ⟨div_nonneg h5 hi.le, div_le_div_of_nonneg_right h1 hi.le, div_le_div_of_nonneg_right h2 hi.le, (div_le_one hi).mpr h3, hm.1, hm.2⟩
  · simp only [if_neg hp]
    exact ⟨le_refl _, le_refl _, le_refl _, by norm_num, hm.1, hm.2⟩

/-- C155, batches. -/
theorem C155_batch (K : Kc ℝ) (t : Tmpl ℝ) (Ao : AMat ℝ) (h : MassKc K t Ao) (hg : AMat.Good Ao) (ht : SfHistory t) (hlen : K.responses.length = K.responsesOut.length)
    (g : Reg ℝ) (ss : List ℝ) (hss : SolarMags K g ss) (zs : List ℝ) (cs : List (List ℝ)) (hcs : cs.length = zs.length)
    (hc : ∀ c ∈ cs, c.length = K.templates.nsed) (hc0 : ∀ c ∈ cs, ∀ v ∈ c, 0 ≤ v) (bs : ℝ) (D : Derived ℝ)
    (hD : K.derived g (some (.vec zs)) (some (.arr [zs.length] K.templates.nsed cs)) bs none = .ok D) (i : Nat) (hi : i < zs.length) :
    ∃ b50 b300 b1000 mr is, entry D.b50 0 i = some b50 ∧ entry D.b300 0 i = some b300 ∧ entry D.b1000 0 i = some b1000 ∧ entry D.mremain 0 i = some mr ∧
      entry D.intsfh 0 i = some is ∧ Ordered b50 b300 b1000 mr is := by
  obtain ⟨ds, hall, ms, is, rows, r1, r2, r3, r4, rfl, e1, e2, e3, e4, e5, e6, e7⟩ := (C95_batch K t Ao h hlen g ss hss zs cs hcs hc bs D).mp hD
  have hi' : i < cs.length := by omega
  have hzl : (List.zip zs cs).length = zs.length := by rw [List.length_zip]; omega
  have hdl : ds.length = zs.length := by rw [← hall.length_eq, hzl]
  have hone := (List.forall₂_iff_get.mp hall).2 i (by omega) (by omega)
  simp only [List.get_eq_getElem, List.getElem_zip] at hone
  obtain ⟨b50, b300, b1000, mr, im, d1, d2, d3, d4, d5, ho⟩ := C155_ordered K t Ao h hg ht g _ _ (hc _ (List.getElem_mem hi')) (hc0 _ (List.getElem_mem hi')) bs _ hone
  have back : ∀ (q : Derived ℝ → NDA ℝ) (l : List ℝ) (x : ℝ), ds.map q = l.map .scalar → q (ds[i]'(by omega)) = .scalar x → entry (.vec l) 0 i = some x := by
    intro q l x hq hx
    have k := congrArg (fun l => l[i]?) hq
    simp only [List.getElem?_map, List.getElem?_eq_getElem (show i < ds.length by omega), Option.map_some] at k
    rw [hx] at k
    obtain ⟨y, hy, hye⟩ := Option.map_eq_some_iff.mp k.symm
    cases hye
    simpa [entry, NDA.vec] using hy
  exact ⟨b50, b300, b1000, mr, im, back _ _ _ e4 d1, back _ _ _ e5 d2, back _ _ _ e6 d3, back _ _ _ e1 d4, back _ _ _ e2 d5, ho⟩

/-! ### C156 -/

/-- C156: the K-corrections of fixed coefficients are continuous functions of the redshift, wherever the model has flux in the mapped input band (and in the output
band at rest): no jumps at the grid redshifts or at the ends of the range. -/
theorem C156_continuous (lib : Lib ℝ) (hlin : SplineLinear lib) (T : Tpl ℝ) (lo hi : ℝ) (n : Nat) (K : Kc ℝ) (g : Reg ℝ)
    (h : Made lib T lo hi n K g) (bs : ℝ) (hlo : lo ≤ bs) (hhi : bs ≤ hi) (c : List ℝ) (hc : c.length = K.templates.nsed) (hs : 0 < c.sum) (j i : Nat)
    (hj : K.imap[j]? = some i) (hi' : i < K.responses.length) (hjo : j < K.responsesOut.length) :
    ∃ f k : ℝ → ℝ, ∃ b fb, K.reconstructOut (some (.scalar 0)) (some (.vec c)) bs = .ok b ∧ entry b 0 j = some fb ∧
      (∀ z, lo ≤ z → z ≤ hi → ∃ m, K.reconstruct (some (.scalar z)) (some (.vec c)) 0 = .ok m ∧ entry m 0 i = some (f z)) ∧
      (0 < fb → (∀ z, lo ≤ z → z ≤ hi → 0 < f z → ∃ kk, K.kcorrect (some (.scalar z)) (some (.vec c)) bs = .ok kk ∧ entry kk 0 j = some (k z)) ∧
        ContinuousOn k {z | lo ≤ z ∧ z ≤ hi ∧ 0 < f z}) := by
  obtain ⟨A, Ao, e1, e2, _⟩ := h.nodes
  obtain ⟨f, hfc, hf⟩ := (C111_continuous lib hlin T lo hi n K g h 0 c hc).1 i hi'
  obtain ⟨fo, _, hfo⟩ := (C111_continuous lib hlin T lo hi n K g h bs c hc).2 j hjo
  have hs0 : ∀ z : ℝ, (1 + z) * (1 + 0) - 1 = z := fun z => by ring
  have hb0 : (1 + (0 : ℝ)) * (1 + bs) - 1 = bs := by ring
  simp only [hs0] at hfc hf
  obtain ⟨b, hb, hfb⟩ := hfo 0 (by rw [hb0]; exact hlo) (by rw [hb0]; exact hhi)
  refine ⟨f, fun z => mag (f z) - mag (fo 0), b, fo 0, hb, hfb, hf, fun hp => ⟨?_, ?_⟩⟩
  · intro z h1 h2 hz
    obtain ⟨m, hm, hme⟩ := hf z h1 h2
    obtain ⟨hex, hk⟩ := C67_model_magnitudes K A Ao e1 e2 z bs c hc
    obtain ⟨kk, hkk⟩ := hex.mpr ⟨⟨m, hm⟩, ⟨b, hb⟩⟩
    exact ⟨kk, hkk, (hk kk m b hkk hm hb).2.2 hs j i _ _ hj hme hfb hz hp⟩
  · have hc1 : ContinuousOn f {z | lo ≤ z ∧ z ≤ hi ∧ 0 < f z} := hfc.mono (fun z hz => ⟨hz.1, hz.2.1⟩)
    have hl : ContinuousOn (fun z => Real.log (f z)) {z | lo ≤ z ∧ z ≤ hi ∧ 0 < f z} := hc1.log (fun z hz => (ne_of_gt hz.2.2))
    unfold mag
    simp only [Real.logb]
    exact (continuousOn_const.mul (hl.div_const _)).sub continuousOn_const

/-! ### the hypotheses can be met -/

/-- Not vacuous (C154): one input band and two output bands mapped to it; the rest-frame colour of the model is `mag 3 - mag 4`. -/
example : ∃ a M M', demoKcTwo.absmag (some (.vec [5])) (some (.vec [1])) (some (.scalar 1)) (some (.vec [1, 1])) 0 none false false false = .ok (.one a) ∧
    entry a 0 0 = some M ∧ entry a 0 1 = some M' ∧ M - M' = mag 3 - mag 4 := by
  have hx : demoKcTwo.reconstruct (some (.scalar 1)) (some (.vec [1, 1])) 0 = .ok (.arr [] 1 [[2]]) := by
    refine (recon_real demoKcTwo.toFitter demoAm 1 [1, 1] 0 rfl).trans ?_
    rw [show ((1 : ℝ) + 1) * (1 + 0) - 1 = 1 by norm_num, demoAm_at1]
    simp [Except.map, reconRow, demoAm, dot, sumL_real]
  have h0 : demoAm2.at 0 = .ok [[1, 2], [3, 1]] := at_node (k := 0) demo_ready.good (by simp [demoAm2])
  have hy : demoKcTwo.reconstructOut (some (.scalar 0)) (some (.vec [1, 1])) 0 = .ok (.arr [] 2 [[3, 4]]) := by
    refine (recon_real demoKcTwo.toFitter demoAm2 0 [1, 1] 0 rfl).trans ?_
    rw [show ((1 : ℝ) + 0) * (1 + 0) - 1 = 0 by norm_num, h0]
    simp [Except.map, reconRow, demoAm2, dot, sumL_real]; norm_num
  obtain ⟨hex, _⟩ := C70_corrected_partial demoKcTwo trivial demoAm demoAm2 rfl rfl 1 [5] [1] [1, 1] rfl rfl rfl 0 none (by simp)
  obtain ⟨a, ha⟩ := hex.mpr ((C67_model_magnitudes demoKcTwo demoAm demoAm2 rfl rfl 1 0 [1, 1] rfl).1.mpr ⟨⟨_, hx⟩, ⟨_, hy⟩⟩)
  obtain ⟨M, M', q⟩ := C154_colour demoKcTwo trivial demoAm demoAm2 rfl rfl 1 [5] [1] [1, 1] rfl rfl rfl (by norm_num) 0 none (by simp) a _ _ ha hx hy 0 1 0 rfl rfl
    5 1 2 3 4 rfl rfl (by norm_num) (by norm_num) rfl rfl rfl (by norm_num) (by norm_num) (by norm_num)
  exact ⟨a, M, M', ha, q⟩

/-- Not vacuous (C155): two templates, of which the second is younger. -/
noncomputable def demoHist : Tmpl ℝ :=
  ⟨⟨[1, 2], [[1, 1], [1, 2]], [1, 2], [[1, 1], [1, 2]], 0, false, none, false⟩, [2, 4], [1, 3], [1 / 50, 1 / 100], [0, 2], [1, 4], [0, 1]⟩

example : SfHistory demoHist ∧ MassKc { demoMass with templates := .template demoHist } demoHist demoAm ∧
    ∃ D, Kc.derived { demoMass with templates := .template demoHist } demoReg (some (.scalar 1)) (some (.vec [2, 1])) 0 none = .ok D := by
  have hk : MassKc { demoMass with templates := .template demoHist } demoHist demoAm := ⟨rfl, ⟨rfl, rfl, rfl, rfl, rfl, rfl⟩, rfl⟩
  refine ⟨⟨by simp [demoHist], ?_, ?_, ?_, by simp [demoHist], ?_⟩, hk, (derived_returns hk demoReg 1 [2, 1] rfl 0).mpr ⟨⟨_, demoAm_at0⟩, _, demoSolar⟩⟩ <;>
    · simp only [demoHist]
      exact .cons (by norm_num) (.cons (by norm_num) .nil)

/-- Not vacuous (C156): an object made by the constructor. -/
example : ∃ K g, Made demoLib (.sed demoShared.sed) 0 2 10 K g ∧ SplineLinear demoLib ∧ [(1 : ℝ), 1].length = K.templates.nsed ∧ K.imap[0]? = some 0 ∧
    0 < K.responses.length ∧ 0 < K.responsesOut.length := by
  obtain ⟨K, g, R, h, h0, h1, h2, h3, h4, hn⟩ := demo_made
  refine ⟨K, g, h, demo_linear, by rw [hn]; rfl, ?_, by rw [h0]; simp, by rw [h1]; simp⟩
  obtain ⟨_, _, Rs, _, _, _, _, _, _, _, hi, _⟩ := h.init
  obtain ⟨_, _, _, hF, _, hm, _, him, _⟩ := init_ok hi
  have hR := congrArg Fitter.responses hF
  have hR' : K.responses = Rs := hR
  rw [← hm, h2, ← hR', h0] at him
  have e : imapOf [['x']] [['x']] = .ok [0] := rfl
  rw [e] at him
  rw [← Except.ok.inj him]; rfl

end KC
