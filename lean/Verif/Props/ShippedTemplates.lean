import Verif.Model.TemplateFiles
import Verif.Props.Consistent
import Verif.Props.FloatDerived

/-!
# Galaxies made of the shipped templates (C183)
-/

namespace KC
open Spec

theorem no_m50 [Arith α] {f : FitsFile α} (h : f.has .m50 = false) : f.vec .m50 = .error .keyError := by
  have : f.find? (fun h => h.1 == Ext.m50) = none := by
    rw [List.find?_eq_none]
    intro x hx hc
    have := List.any_eq_false.mp h x hx
    exact this hc
  simp only [FitsFile.vec, FitsFile.image, FitsFile.get, this]
  rfl

/-- what is read from a file with the images of `h` and without `M50` -/
theorem read_hist [Arith α] {h : Hist} {f : FitsFile α} (hf : h.InFile f) {interp : Bool} {t : Tmpl α} (ht : Tmpl.fromfits f interp = .ok t) :
    t.intsfh = h.intsfh.map (fun q => f32 (lit q)) ∧ t.mremain = h.mremain.map (fun q => f32 (lit q)) ∧ t.mets = h.mets.map (fun q => f32 (lit q)) ∧
      t.m300 = h.m300.map (fun q => f32 (lit q)) ∧ t.m1000 = h.m1000.map (fun q => f32 (lit q)) ∧ t.m50 = t.m300.map (fun m => m * lit 0) := by
  obtain ⟨h1, h2, h3, h4, h5, h6⟩ := hf
  unfold Tmpl.fromfits at ht
  rw [h1, h2, h3, h4, h5, no_m50 h6] at ht
  obtain ⟨s, _, ht⟩ := bind_ok_iff.mp ht
  simp only [ok_bind, pure_py] at ht
  cases ht
  exact ⟨rfl, rfl, rfl, rfl, rfl, rfl⟩

/-- the order of the masses in a file -/
structure HistOrder (h : Hist) : Prop where
  m300 : ∀ q ∈ h.m300, 0 ≤ q
  le1000 : List.Forall₂ (· ≤ ·) h.m300 h.m1000
  leAll : List.Forall₂ (· ≤ ·) h.m1000 h.intsfh
  rem : ∀ q ∈ h.mremain, 0 ≤ q
  leFormed : List.Forall₂ (· ≤ ·) h.mremain h.intsfh

theorem defaultHist_order : HistOrder defaultHist := by
  constructor <;> simp only [defaultHist, List.forall₂_cons, List.forall₂_nil_left_iff, List.forall_mem_cons, List.not_mem_nil] <;> norm_num

theorem lrg1Hist_order : HistOrder lrg1Hist := by
  constructor <;> simp only [lrg1Hist, List.forall₂_cons, List.forall₂_nil_left_iff, List.forall_mem_cons, List.not_mem_nil] <;> norm_num

/-! ### exact arithmetic -/

theorem sfHistory {h : Hist} (ho : HistOrder h) {f : FitsFile ℝ} (hf : h.InFile f) {interp : Bool} {t : Tmpl ℝ} (ht : Tmpl.fromfits f interp = .ok t) :
    SfHistory t := by
  obtain ⟨e1, e2, _, e4, e5, e6⟩ := read_hist hf ht
  simp only [real_f32, real_lit, Rat.cast_zero, mul_zero] at e1 e2 e4 e5 e6
  have cast : ∀ {a b : List ℚ}, List.Forall₂ (· ≤ ·) a b → List.Forall₂ (· ≤ ·) (a.map (fun q : ℚ => (q : ℝ))) (b.map (fun q : ℚ => (q : ℝ))) := by
    intro a b h
    rw [List.forall₂_map_left_iff, List.forall₂_map_right_iff]
    exact h.imp fun _ _ h => by exact_mod_cast h
  have cast0 : ∀ {a : List ℚ}, (∀ q ∈ a, 0 ≤ q) → ∀ v ∈ a.map (fun q : ℚ => (q : ℝ)), 0 ≤ v := by
    intro a h v hv
    obtain ⟨q, hq, rfl⟩ := List.mem_map.mp hv
    exact_mod_cast h q hq
  refine ⟨?_, ?_, ?_, ?_, ?_, ?_⟩
  · rw [e6]
    intro v hv
    obtain ⟨_, _, rfl⟩ := List.mem_map.mp hv
    exact le_refl _
  · rw [e6, List.forall₂_map_left_iff, List.forall₂_same, e4]
    exact cast0 ho.m300
  · rw [e4, e5]; exact cast ho.le1000
  · rw [e5, e1]; exact cast ho.leAll
  · rw [e2]; exact cast0 ho.rem
  · rw [e2, e1]; exact cast ho.leFormed

/-- without `M50` the mass formed in the last 50 Myr is always zero -/
theorem total_m50 {t : Tmpl ℝ} (h : t.m50 = t.m300.map (fun m => m * lit 0)) (c : List ℝ) : total c t.m50 = 0 := by
  rw [h]
  unfold total
  refine List.sum_eq_zero fun x hx => ?_
  obtain ⟨i, hi, rfl⟩ := List.mem_iff_getElem.mp hx
  simp

theorem total_scale_v (c v : List ℝ) (k : ℝ) : total c (v.map (fun x => k * x)) = k * total c v := by
  induction c generalizing v with
  | nil => simp [total]
  | cons a c ih =>
    cases v with
    | nil => simp [total]
    | cons b v =>
      have := ih v
      simp only [total, List.map_cons, List.zipWith_cons_cons, List.sum_cons] at this ⊢
      rw [this]
      ring

/-- **C183.** A galaxy made of the default templates: the mass that remains is between 52 and 95 per cent of the mass formed, the metallicity between 0.0056 and 0.051,
the fractions formed in the last 300 and 1000 Myr are in order and at most 1, and the fraction formed in the last 50 Myr is 0, whatever the galaxy. -/
theorem C183_default (f : FitsFile ℝ) (hf : defaultHist.InFile f) (interp : Bool) (t : Tmpl ℝ) (ht : Tmpl.fromfits f interp = .ok t) (K : Kc ℝ) (Ao : AMat ℝ)
    (h : MassKc K t Ao) (hg : AMat.Good Ao) (g : Reg ℝ) (z : ℝ) (c : List ℝ) (hc : c.length = K.templates.nsed) (hc0 : ∀ v ∈ c, 0 ≤ v) (bs : ℝ) (D : Derived ℝ)
    (hD : K.derived g (some (.scalar z)) (some (.vec c)) bs none = .ok D) :
    ∃ b300 b1000 mr is Z, D.b50 = .scalar 0 ∧ D.b300 = .scalar b300 ∧ D.b1000 = .scalar b1000 ∧ D.mremain = .scalar mr ∧ D.intsfh = .scalar is ∧
      D.metallicity = .scalar Z ∧ 0 ≤ b300 ∧ b300 ≤ b1000 ∧ b1000 ≤ 1 ∧ 0.52 * is ≤ mr ∧ mr ≤ 0.95 * is ∧ (0 < mr → 0.0056 ≤ Z ∧ Z ≤ 0.051) := by
  obtain ⟨e1, e2, e3, e4, e5, e6⟩ := read_hist hf ht
  obtain ⟨b50, b300, b1000, mr, is, d1, d2, d3, d4, d5, o1, o2, o3, o4, o5, o6⟩ :=
    C155_ordered K t Ao h hg (sfHistory defaultHist_order hf ht) g z c hc hc0 bs D hD
  obtain ⟨ss, fl, _, _, v⟩ := derived_vals h hg g z c hc bs D hD
  have hL := lumFactor_pos (K.distmod z)
  have e0 := total_m50 e6 c
  simp only [real_f32, real_lit] at e1 e2 e3
  have q1 : 0.52 * total c t.intsfh ≤ total c t.mremain := by
    rw [← total_scale_v]
    refine total_mono c _ _ hc0 ?_
    rw [e1, e2]
    simp only [defaultHist, List.map_cons, List.map_nil, List.forall₂_cons, List.forall₂_nil_left_iff]
    norm_num
  have q2 : total c t.mremain ≤ 0.95 * total c t.intsfh := by
    rw [← total_scale_v]
    refine total_mono c _ _ hc0 ?_
    rw [e1, e2]
    simp only [defaultHist, List.map_cons, List.map_nil, List.forall₂_cons, List.forall₂_nil_left_iff]
    norm_num
  have hmr : mr = total c t.mremain * lumFactor (K.distmod z) := by
    have := d4.symm.trans v.mremain
    injection this
  have his : is = total c t.intsfh * lumFactor (K.distmod z) := by
    have := d5.symm.trans v.intsfh
    injection this
  have hb : D.b50 = .scalar 0 := by
    rw [v.b50, e0]
    simp
  have hZ : 0 < mr → ∃ Z, D.metallicity = .scalar Z ∧ 0.0056 ≤ Z ∧ Z ≤ 0.051 := by
    intro hm
    refine C77_metallicity_range K t Ao h hg g z c hc bs mr 0.0056 0.051 hm hc0 (sfHistory defaultHist_order hf ht).rem ?_ D hD d4
    rw [e3]
    simp only [defaultHist, List.map_cons, List.map_nil, List.forall_mem_cons, List.not_mem_nil]
    norm_num
  have b1 : 0.52 * is ≤ mr := by rw [hmr, his, ← mul_assoc]; exact mul_le_mul_of_nonneg_right q1 hL.le
  have b2 : mr ≤ 0.95 * is := by rw [hmr, his, ← mul_assoc]; exact mul_le_mul_of_nonneg_right q2 hL.le
  refine ⟨b300, b1000, mr, is, _, hb, d2, d3, d4, d5, v.metallicity, o1.trans o2, o3, o4, b1, b2, fun hm => ?_⟩
  obtain ⟨Z, hZ1, hZ2⟩ := hZ hm
  have := hZ1.symm.trans v.metallicity
  injection this with this
  rw [← this]
  exact hZ2

/-- **C183.** A galaxy made of the luminous red galaxy template: no star formation in the last Gyr, and always the same ratio of remaining to formed mass and the same
metallicity. -/
theorem C183_lrg1 (f : FitsFile ℝ) (hf : lrg1Hist.InFile f) (interp : Bool) (t : Tmpl ℝ) (ht : Tmpl.fromfits f interp = .ok t) (K : Kc ℝ) (Ao : AMat ℝ)
    (h : MassKc K t Ao) (hg : AMat.Good Ao) (g : Reg ℝ) (z a : ℝ) (ha : 0 < a) (bs : ℝ) (D : Derived ℝ)
    (hD : K.derived g (some (.scalar z)) (some (.vec [a])) bs none = .ok D) :
    ∃ mr is, D.b50 = .scalar 0 ∧ D.b300 = .scalar 0 ∧ D.b1000 = .scalar 0 ∧ D.mremain = .scalar mr ∧ D.intsfh = .scalar is ∧
      mr = 270487 / 2 ^ 19 * is ∧ D.metallicity = .scalar (8854255 / 2 ^ 28) := by
  obtain ⟨e1, e2, e3, e4, e5, e6⟩ := read_hist hf ht
  have hn : K.templates.nsed = 1 := by
    rw [← h.mass.intsfh, e1]
    rfl
  obtain ⟨ss, fl, _, _, v⟩ := derived_vals h hg g z [a] (by rw [hn]; rfl) bs D hD
  rw [e4] at e6
  simp only [real_f32, real_lit, lrg1Hist, List.map_cons, List.map_nil, Rat.cast_zero, mul_zero] at e1 e2 e3 e4 e5 e6
  refine ⟨_, _, ?_, ?_, ?_, v.mremain, v.intsfh, ?_, ?_⟩
  · rw [v.b50, e6]; simp [total]
  · rw [v.b300, e4]; simp [total]
  · rw [v.b1000, e5]; simp [total]
  · rw [e1, e2]
    simp [total]
    ring
  · rw [v.metallicity, e2, e3]
    have : 0 < total [a] [(((270487 / 2 ^ 19 : ℚ)) : ℝ)] := by
      simp [total]
      positivity
    rw [if_pos this]
    congr 1
    simp [total]
    field_simp

/-! ### floating point -/

theorem flHistory {h : Hist} (ho : HistOrder h) {f : FitsFile Fl} (hf : h.InFile f) {interp : Bool} {t : Tmpl Fl} (ht : Tmpl.fromfits f interp = .ok t) :
    FlHistory t := by
  obtain ⟨e1, e2, _, e4, e5, e6⟩ := read_hist hf ht
  have mono : ∀ {a b : ℚ}, a ≤ b → (f32 (lit a) : Fl).Le (f32 (lit b)) := by
    intro a b h
    refine f32_le ⟨rfl, ?_⟩
    rw [fl_lit, fl_lit]
    exact rd_mono (by norm_num) (by exact_mod_cast h)
  have nn : ∀ {a : ℚ}, 0 ≤ a → 0 ≤ (f32 (lit a) : Fl).val := by
    intro a h
    rw [fl_f32, fl_lit]
    exact rd_nonneg (rd_nonneg (by exact_mod_cast h))
  have cast : ∀ {a b : List ℚ}, List.Forall₂ (· ≤ ·) a b → List.Forall₂ Fl.Le (a.map (fun q => f32 (lit q))) (b.map (fun q => f32 (lit q))) := by
    intro a b h
    rw [List.forall₂_map_left_iff, List.forall₂_map_right_iff]
    exact h.imp fun _ _ h => mono h
  have cast0 : ∀ {a : List ℚ}, (∀ q ∈ a, 0 ≤ q) → ∀ v ∈ a.map (fun q => (f32 (lit q) : Fl)), 0 ≤ v.val := by
    intro a h v hv
    obtain ⟨q, hq, rfl⟩ := List.mem_map.mp hv
    exact nn (h q hq)
  have zero : ∀ m : Fl, m.dt = .f32 → m * lit 0 = ⟨0, .f32⟩ := by
    intro m hm
    rw [fl_mul, lit_zero]
    simp [Fl.op2, hm]
    rfl
  refine ⟨?_, ?_, ?_, ?_, ?_, ?_⟩
  · rw [e6, e4]
    intro v hv
    obtain ⟨m, hm, rfl⟩ := List.mem_map.mp hv
    obtain ⟨q, _, rfl⟩ := List.mem_map.mp hm
    rw [zero _ rfl]
  · rw [e6, e4, List.forall₂_map_left_iff, List.forall₂_same]
    intro m hm
    have := cast0 ho.m300 m hm
    obtain ⟨q, _, rfl⟩ := List.mem_map.mp hm
    rw [zero _ rfl]
    exact ⟨rfl, this⟩
  · rw [e4, e5]; exact cast ho.le1000
  · rw [e5, e1]; exact cast ho.leAll
  · rw [e2]; exact cast0 ho.rem
  · rw [e2, e1]; exact cast ho.leFormed

/-- **C183.** The order holds exactly in floating point, for both sets of templates. -/
theorem C183_rounded (hist : Hist) (hs : hist = defaultHist ∨ hist = lrg1Hist) (f : FitsFile Fl) (hf : hist.InFile f) (interp : Bool) (t : Tmpl Fl)
    (ht : Tmpl.fromfits f interp = .ok t) (K : Kc Fl) (hK : K.templates = .template t) (hm : MassOK t K.templates.nsed) (Ao : AMat Fl)
    (hAo : K.AmatrixOut = some Ao) (g : Reg Fl) (z : Fl) (c : List Fl) (hc : c.length = K.templates.nsed) (hc0 : ∀ v ∈ c, 0 ≤ v.val) (bs : Fl) (D : Derived Fl)
    (hD : K.derived g (some (.scalar z)) (some (.vec c)) bs none = .ok D) :
    ∃ b50 b300 b1000 mr is, D.b50 = .scalar b50 ∧ D.b300 = .scalar b300 ∧ D.b1000 = .scalar b1000 ∧ D.mremain = .scalar mr ∧ D.intsfh = .scalar is ∧
      Ordered b50.val b300.val b1000.val mr.val is.val := by
  refine C157_ordered K t hK hm Ao hAo (flHistory (h := hist) ?_ hf ht) g z c hc hc0 bs D hD
  rcases hs with rfl | rfl
  · exact defaultHist_order
  · exact lrg1Hist_order

/-! ### the hypotheses can be met -/

/-- a file with the images of `h` -/
def Hist.file [Arith α] (h : Hist) (wave : List α) (rows : List (List α)) : FitsFile α :=
  [(.primary, .empty), (.flux, .sedTable wave rows), (.intsfh, .image (.vec (h.intsfh.map (fun q => f32 (lit q))))),
    (.mremain, .image (.vec (h.mremain.map (fun q => f32 (lit q))))), (.mets, .image (.vec (h.mets.map (fun q => f32 (lit q))))),
    (.m300, .image (.vec (h.m300.map (fun q => f32 (lit q))))), (.m1000, .image (.vec (h.m1000.map (fun q => f32 (lit q)))))]

theorem hist_inFile [Arith α] (h : Hist) (wave : List α) (rows : List (List α)) : h.InFile (h.file wave rows) := ⟨rfl, rfl, rfl, rfl, rfl, rfl⟩

noncomputable def demoRows : List (List ℝ) := [[1, 1], [1, 2], [1, 3], [1, 4], [1, 5]]

theorem demo_tmpl5 : ∃ t, Tmpl.fromfits (defaultHist.file [1, 2] demoRows) false = .ok t ∧ t.toSed.nsed = 5 := ⟨_, rfl, rfl⟩

noncomputable def demoAmS : AMat ℝ := ⟨[0, 1, 3], [[[1, 2, 1, 1, 1]], [[2, 0, 1, 1, 1]], [[0, 4, 1, 1, 1]]], 1, 5⟩

theorem demoAmS_good : demoAmS.Good := ⟨by simp [demoAmS], by simp [demoAmS], by simp [demoAmS], by simp [demoAmS, Shaped]⟩

/-- the galaxy of the third template alone, with these five histories: `derived` returns -/
example : ∃ t K D, Tmpl.fromfits (defaultHist.file [1, 2] demoRows) false = .ok t ∧ MassKc K t demoAmS ∧
    K.derived demoReg (some (.scalar 1)) (some (.vec [0, 0, 1, 0, 0])) 0 none = .ok D ∧ D.b50 = .scalar 0 := by
  obtain ⟨t, ht, hn⟩ := demo_tmpl5
  let K : Kc ℝ := ⟨{ demoFitter with templates := .template t }, [['y']], [['x']], some demoAmS, [0], fun _ => distanceModulus 1⟩
  have hK : K.templates.nsed = 5 := hn
  obtain ⟨e1, e2, e3, e4, e5, e6⟩ := read_hist (hist_inFile _ _ _) ht
  have h : MassKc K t demoAmS := by
    refine ⟨rfl, ?_, rfl⟩
    rw [hK]
    exact ⟨by rw [e1]; rfl, by rw [e2]; rfl, by rw [e3]; rfl, by rw [e6, e4]; rfl, by rw [e4]; rfl, by rw [e5]; rfl⟩
  obtain ⟨D, hD⟩ := (derived_returns h demoReg 1 [0, 0, 1, 0, 0] (by rw [hK]; rfl) 0).mpr
    ⟨⟨_, at_node demoAmS_good (k := 0) (by simp [demoAmS])⟩, [4], .cons ⟨⟨none, none, none, none, some 4, none, none⟩, by simp [demoReg], rfl⟩ .nil⟩
  obtain ⟨_, _, _, _, _, hb, _⟩ := C183_default _ (hist_inFile _ _ _) false t ht K demoAmS h demoAmS_good demoReg 1 [0, 0, 1, 0, 0] (by rw [hK]; rfl)
    (by simp) 0 D hD
  exact ⟨t, K, D, ht, h, hD, hb⟩

end KC
