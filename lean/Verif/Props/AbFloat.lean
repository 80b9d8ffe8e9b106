import Verif.Props.AbArith
import Verif.Props.FloatUtils

/-!
# Absolute magnitudes of corrected photometry in floating point (C139, C145)
-/

namespace KC
open Spec

namespace Spec

/-- `y` is `mag X + off - D - k` up to `u (30 + 7 |mag X| + 7 |D| + 3 |k|)`, `u = 2^-24` -/
def AbsCloseAb (off D X k y : ℝ) : Prop := |y - (mag X + off - D - k)| ≤ uro 24 * (30 + 7 * |mag X| + 7 * |D| + 3 * |k|)

end Spec

theorem abOffset_small (cls : Cls) (j : Nat) : |abOffset cls j| ≤ 0.04 := by
  have g : ∀ j, |gstOffset j| ≤ 0.04 := by
    intro j
    unfold gstOffset
    split_ifs <;> norm_num
  cases cls with
  | base => simp [abOffset]; norm_num
  | sdss => exact g _
  | gst => exact g _

theorem flFix (j : Nat) (hj : j < 5) : ∃ q : ℚ, (abfixDefault (α := Fl))[j]? = some (lit q) ∧ (q : ℝ) = abOffset .sdss j := by
  interval_cases j <;> refine ⟨_, rfl, ?_⟩ <;> simp [abOffset, gstOffset] <;> norm_num

theorem flFac (j : Nat) (φ : Fl) (h : (abfixDefault (α := Fl))[j]? = some φ) : (abFac (abfixDefault (α := Fl)))[j]? = some (abFac32 φ) := by
  unfold abFac
  rw [List.getElem?_map, h]; rfl

/-- a corrected flux -/
def FluxAb (off : ℝ) (x y : Fl) : Prop := (0 < y.val ↔ 0 < x.val) ∧ (0 < x.val → |mag y.val - (mag x.val + off)| ≤ 6 * uro 24)

/-- a corrected inverse variance -/
def IvarAb (off : ℝ) (v k : Fl) : Prop :=
  (0 < k.val ↔ 0 < v.val) ∧ (0 < v.val → |mag (1 / Real.sqrt k.val) - (mag (1 / Real.sqrt v.val) + off)| ≤ 6 * uro 24)

theorem lit_rel (q : ℚ) : |(lit q : Fl).val - q| ≤ uro 24 * |(q : ℝ)| := by
  have h : (lit q : Fl).val = rd 53 q := rfl
  rw [h]
  refine (rd_err 53 q).trans (mul_le_mul_of_nonneg_right ?_ (abs_nonneg _))
  unfold uro
  norm_num

/-- the magnitude of the factor, for the default offsets -/
theorem facMag (j : Nat) (hj : j < 5) (φ : Fl) (h : (abfixDefault (α := Fl))[j]? = some φ) : |mag (abFac32 φ).val - abOffset .sdss j| ≤ 1.5 * uro 24 := by
  obtain ⟨q, h1, h2⟩ := flFix j hj
  rw [h] at h1
  obtain rfl := Option.some.inj h1
  have a1 := abFac32_mag (lit q)
  have a2 := lit_rel q
  have a3 := abOffset_small .sdss j
  rw [h2] at a2
  have hu := uro_pos 24
  have hu1 : uro 24 ≤ 1e-7 := uro_small
  have a4 : |(lit q : Fl).val| ≤ 0.05 := by
    have := abs_add_le ((lit q : Fl).val - abOffset .sdss j) (abOffset .sdss j)
    rw [sub_add_cancel] at this
    have : uro 24 * |abOffset .sdss j| ≤ 1e-7 * 0.04 := mul_le_mul hu1 a3 (abs_nonneg _) (by norm_num)
    linarith
  have a5 := abs_add_le (mag (abFac32 (lit q : Fl)).val - (lit q : Fl).val) ((lit q : Fl).val - abOffset .sdss j)
  rw [sub_add_sub_cancel] at a5
  have a6 : uro 24 * |(lit q : Fl).val| ≤ uro 24 * 0.05 := mul_le_mul_of_nonneg_left a4 hu.le
  have a7 : uro 24 * |abOffset .sdss j| ≤ uro 24 * 0.04 := mul_le_mul_of_nonneg_left a3 hu.le
  linarith

theorem mag_mul {x c : ℝ} (hx : 0 < x) (hc : 0 < c) : mag (x * c) = mag x + mag c := by
  unfold mag
  rw [Real.logb_mul hx.ne' hc.ne']; ring

theorem mag_inv_sqrt {x : ℝ} (hx : 0 < x) : mag (1 / Real.sqrt x) = -(mag x / 2) := by
  unfold mag
  rw [one_div, Real.logb_inv, Real.sqrt_eq_rpow, Real.logb_rpow_eq_mul_logb_of_pos hx]; ring

theorem fluxAb_five (j : Nat) (hj : j < 5) (φ x : Fl) (h : (abfixDefault (α := Fl))[j]? = some φ) : FluxAb (abOffset .sdss j) x (f32 x * abFac32 φ) := by
  obtain ⟨-, nm⟩ := mul_num (f32_num x) (abFac32_num φ)
  have hcp := abFac32_pos φ
  have hx1 : Near 2 (x.val * (abFac32 φ).val) (f32 x * abFac32 φ).val := ((f32_near x).mul (Near.refl _)).trans nm
  refine ⟨by rw [← hx1.pos_iff, mul_pos_iff_of_pos_right hcp], fun hx => ?_⟩
  have h8 := hx1.mag (mul_pos hx hcp)
  have h9 := facMag j hj φ h
  rw [mag_mul hx hcp] at h8
  push_cast at h8
  have := abs_add_le (mag (f32 x * abFac32 φ).val - (mag x.val + mag (abFac32 φ).val)) (mag (abFac32 φ).val - abOffset .sdss j)
  have e2 : mag (f32 x * abFac32 φ).val - (mag x.val + mag (abFac32 φ).val) + (mag (abFac32 φ).val - abOffset .sdss j) =
      mag (f32 x * abFac32 φ).val - (mag x.val + abOffset .sdss j) := by ring
  rw [e2] at this
  have hu := uro_pos 24
  linarith

theorem ivarAb_five (j : Nat) (hj : j < 5) (φ v : Fl) (h : (abfixDefault (α := Fl))[j]? = some φ) :
    IvarAb (abOffset .sdss j) v (f32 v / (abFac32 φ * abFac32 φ)) := by
  obtain ⟨nn, ns⟩ := mul_num (abFac32_num φ) (abFac32_num φ)
  obtain ⟨-, nd⟩ := div_num (f32_num v) nn
  have hcp := abFac32_pos φ
  have hk : Near 3 (v.val / ((abFac32 φ).val * (abFac32 φ).val)) (f32 v / (abFac32 φ * abFac32 φ)).val := ((f32_near v).div ns).trans nd
  refine ⟨by rw [← hk.pos_iff, div_pos_iff_of_pos_right (mul_pos hcp hcp)], fun hv => ?_⟩
  have hq : 0 < v.val / ((abFac32 φ).val * (abFac32 φ).val) := div_pos hv (mul_pos hcp hcp)
  have h8 := hk.mag hq
  have h9 := facMag j hj φ h
  have hkp := hk.pos hq
  rw [mag_inv_sqrt hv, mag_inv_sqrt hkp]
  have e : mag (v.val / ((abFac32 φ).val * (abFac32 φ).val)) = mag v.val - 2 * mag (abFac32 φ).val := by
    have := mag_mul hq (mul_pos hcp hcp)
    rw [div_mul_cancel₀ _ (mul_pos hcp hcp).ne', mag_mul hcp hcp] at this
    linarith
  rw [e] at h8
  push_cast at h8
  have hu := uro_pos 24
  rw [abs_le] at h8 h9 ⊢
  constructor <;> linarith [h8.1, h8.2, h9.1, h9.2]

theorem fluxAb_id (x : Fl) : FluxAb 0 x x := ⟨Iff.rfl, fun _ => by rw [add_zero, sub_self, abs_zero]; have := uro_pos 24; linarith⟩

theorem ivarAb_id (x : Fl) : IvarAb 0 x x := ⟨Iff.rfl, fun _ => by rw [add_zero, sub_self, abs_zero]; have := uro_pos 24; linarith⟩

/-- the corrected values of one object, entry by entry -/
theorem flRow_get (cls : Cls) {m : List Fl} {w : Nat} (h : m.length = w) (hr : AbReady cls w) {j : Nat} {x : Fl} (hx : m[j]? = some x) :
    (∃ y, (abRow cls m)[j]? = some y ∧ FluxAb (abOffset cls j) x y) ∧ ∃ k, (abVRow cls m)[j]? = some k ∧ IvarAb (abOffset cls j) x k := by
  have five : ∀ (r : List Fl), r.length = 5 → ∀ j x, r[j]? = some x → (∃ y, (ugrizM r)[j]? = some y ∧ FluxAb (abOffset .sdss j) x y) ∧
      ∃ k, (ugrizV r)[j]? = some k ∧ IvarAb (abOffset .sdss j) x k := by
    intro r hr j x hx
    have hj : j < 5 := by rw [← hr]; exact (List.getElem?_eq_some_iff.mp hx).1
    obtain ⟨q, hq, _⟩ := flFix j hj
    unfold ugrizM ugrizV
    rw [List.getElem?_zipWith, List.getElem?_zipWith, hx, flFac j _ hq]
    exact ⟨⟨_, rfl, fluxAb_five j hj _ x hq⟩, ⟨_, rfl, ivarAb_five j hj _ x hq⟩⟩
  cases cls with
  | base => exact ⟨⟨x, hx, fluxAb_id x⟩, ⟨x, hx, ivarAb_id x⟩⟩
  | sdss => obtain rfl : w = 5 := hr; exact five m h j x hx
  | gst =>
    have h7 : 7 ≤ m.length := by rw [h]; exact hr
    have hl : ((m.drop 2).take 5).length = 5 := by simp; omega
    have hu := ugriz_length hl
    simp only [abRow, abVRow]
    rw [put27_get h7 hu.1, put27_get h7 hu.2]
    by_cases hj : 2 ≤ j ∧ j < 7
    · rw [if_pos hj, if_pos hj]
      have e : ((m.drop 2).take 5)[j - 2]? = some x := by
        rw [List.getElem?_take, if_pos (by omega), List.getElem?_drop, show 2 + (j - 2) = j by omega, hx]
      have := five _ hl _ x e
      rwa [show abOffset .sdss (j - 2) = abOffset .gst j by simp only [abOffset, show j - 2 + 2 = j by omega]] at this
    · rw [if_neg hj, if_neg hj]
      have e0 : abOffset .gst j = 0 := by
        simp only [abOffset, gstOffset]
        rw [if_neg (by omega), if_neg (by omega), if_neg (by omega), if_neg (by omega), if_neg (by omega)]
      rw [e0]
      exact ⟨⟨x, hx, fluxAb_id x⟩, ⟨x, hx, ivarAb_id x⟩⟩

theorem absClose_ab {off D X Y k y : ℝ} (ho : |off| ≤ 0.04) (hXY : |mag Y - (mag X + off)| ≤ 6 * uro 24) (h : AbsClose D Y k y) : AbsCloseAb off D X k y := by
  unfold AbsClose at h
  unfold AbsCloseAb
  have hu := uro_pos 24
  have hu1 : uro 24 ≤ 1e-7 := uro_small
  have e : y - (mag X + off - D - k) = (y - (mag Y - D - k)) + (mag Y - (mag X + off)) := by ring
  rw [e]
  have a1 := abs_add_le (y - (mag Y - D - k)) (mag Y - (mag X + off))
  have a2 : |mag Y| ≤ |mag X| + 0.05 := by
    have e : mag Y = mag X + (off + (mag Y - (mag X + off))) := by ring
    rw [e]
    have := abs_add_le (mag X) (off + (mag Y - (mag X + off)))
    have := abs_add_le off (mag Y - (mag X + off))
    linarith
  have a3 : uro 24 * |mag Y| ≤ uro 24 * (|mag X| + 0.05) := mul_le_mul_of_nonneg_left a2 hu.le
  linarith

/-- C139 for one object, in every class with or without its AB correction: `absmag` computes magnitude plus AB offset minus distance modulus minus
K-correction within `u (30 + 7 |m| + 7 |DM| + 3 |K|)`, and the limits likewise; what is computed from the reconstructed fluxes is not corrected. -/
theorem C139_ab {K : Kc Fl} (hab : AbReady K.abCls K.responses.length) {A Ao : AMat Fl} (hA : K.Amatrix = some A) (hAo : K.AmatrixOut = some Ao) (gAo : FlGood Ao)
    (hcol : Ao.ncol = K.templates.nsed) (z bs : Fl) (m iv c : List Fl) (hm : m.length = K.responses.length) (hiv : iv.length = K.responses.length)
    (hc : c.length = K.templates.nsed) (dist : Option Fl) (hdm : dist = none → (K.distmod (f32 z)).Num) (hd : ∀ d ∈ dist, 0 < d.val) (r l kk : Bool) {ret : Ret Fl}
    (h : K.absmag (some (.vec m)) (some (.vec iv)) (some (.scalar z)) (some (.vec c)) bs (dist.map .scalar) r l kk = .ok ret) :
    ∃ k, K.kcorrect (some (.scalar z)) (some (.vec c)) bs = .ok k ∧
      (∃ a, ret.list[0]? = some a ∧ a.shape = k.shape ∧ ∀ (j i : Nat) (mv v kv : Fl), K.imap[j]? = some i → m[i]? = some mv → iv[i]? = some v →
        entry k 0 j = some kv → ∃ y : Fl, entry a 0 j = some y ∧
          (0 < mv.val ∧ 0 < v.val → AbsCloseAb (abOffset K.abCls i) (dmReal K z dist) mv.val kv.val y.val) ∧ (¬(0 < mv.val ∧ 0 < v.val) → y.val = -9999)) ∧
      (r = true → ∃ rc o, ret.list[1]? = some rc ∧ rc.shape = k.shape ∧ K.reconstructOut (some (.scalar z)) (some (.vec c)) bs = .ok o ∧
        ∀ (j : Nat) (kv ov : Fl), entry k 0 j = some kv → entry o 0 j = some ov → ∃ y : Fl, entry rc 0 j = some y ∧
          (0 < ov.val → AbsClose (dmReal K z dist) ov.val kv.val y.val) ∧ (¬ 0 < ov.val → y.val = -9999)) ∧
      (l = true → ∃ lm, ret.list[if r then 2 else 1]? = some lm ∧ lm.shape = k.shape ∧ ∀ (j i : Nat) (v kv : Fl), K.imap[j]? = some i → iv[i]? = some v →
        entry k 0 j = some kv → ∃ y : Fl, entry lm 0 j = some y ∧
          (0 < v.val → AbsCloseAb (abOffset K.abCls i) (dmReal K z dist) (1 / Real.sqrt v.val) kv.val y.val) ∧ (¬ 0 < v.val → y.val = -9999)) := by
  rw [absmag_one_ab f32Laws_fl K hab z m iv _ hm hiv] at h
  obtain ⟨k, h1, ⟨a, h2, h3, h4⟩, h5, h6⟩ := C139_absmag_accuracy (K := K.plain) (Or.inl rfl) hA hAo gAo hcol z bs _ _ c (abRow_length K.abCls hm hab).1
    (abRow_length K.abCls hiv hab).2 hc dist hdm hd r l kk h
  rw [reconOut_plain] at h5
  refine ⟨k, by rw [← kcorrect_plain]; exact h1, ⟨a, h2, h3, ?_⟩, h5, fun hl => ?_⟩
  · intro j i mv v kv e1 e2 e3 e4
    obtain ⟨⟨x, hx, fx1, fx2⟩, -⟩ := flRow_get K.abCls hm hab e2
    obtain ⟨-, ⟨u, hu, fu1, fu2⟩⟩ := flRow_get K.abCls hiv hab e3
    obtain ⟨y, y1, y2, y3⟩ := h4 j i x u kv e1 hx hu e4
    rw [fx1, fu1] at y2 y3
    exact ⟨y, y1, fun hp => absClose_ab (abOffset_small _ _) (fx2 hp.1) (y2 hp), y3⟩
  · obtain ⟨lm, g1, g2, g3⟩ := h6 hl
    refine ⟨lm, g1, g2, fun j i v kv e1 e3 e4 => ?_⟩
    obtain ⟨-, ⟨u, hu, fu1, fu2⟩⟩ := flRow_get K.abCls hiv hab e3
    obtain ⟨y, y1, y2, y3⟩ := g3 j i u kv e1 hu e4
    rw [fu1] at y2 y3
    exact ⟨y, y1, fun hp => absClose_ab (abOffset_small _ _) (fu2 hp) (y2 hp), y3⟩

/-- C139 for tables, in every class. -/
theorem C139_ab_batch {K : Kc Fl} (hab : AbReady K.abCls K.responses.length) {A Ao : AMat Fl} (hA : K.Amatrix = some A) (hAo : K.AmatrixOut = some Ao)
    (gAo : FlGood Ao) (hcol : Ao.ncol = K.templates.nsed) (zs : List Fl) (bs : Fl) (ms ivs cs : List (List Fl)) (hm : ms.length = zs.length)
    (hiv : ivs.length = zs.length) (hmr : ∀ r ∈ ms, r.length = K.responses.length) (hivr : ∀ r ∈ ivs, r.length = K.responses.length)
    (hcs : cs.length = zs.length) (hc : ∀ c ∈ cs, c.length = K.templates.nsed) (dist : Option (List Fl)) (hdl : ∀ ds ∈ dist, ds.length = zs.length)
    (hdm : dist = none → ∀ z ∈ zs, (K.distmod (f32 z)).Num) (hd : ∀ ds ∈ dist, ∀ d ∈ ds, 0 < d.val) (r l kk : Bool) {ret : Ret Fl}
    (h : K.absmag (some (.arr [zs.length] K.responses.length ms)) (some (.arr [zs.length] K.responses.length ivs)) (some (.vec zs))
      (some (.arr [zs.length] K.templates.nsed cs)) bs (dist.map .vec) r l kk = .ok ret) :
    ∃ k, K.kcorrect (some (.vec zs)) (some (.arr [zs.length] K.templates.nsed cs)) bs = .ok k ∧
      (∃ a, ret.list[0]? = some a ∧ a.shape = k.shape ∧ ∀ (t j i : Nat) (z : Fl) (m iv : List Fl) (mv v kv : Fl), zs[t]? = some z → ms[t]? = some m →
        ivs[t]? = some iv → K.imap[j]? = some i → m[i]? = some mv → iv[i]? = some v → entry k t j = some kv →
        ∃ y : Fl, entry a t j = some y ∧ (0 < mv.val ∧ 0 < v.val → AbsCloseAb (abOffset K.abCls i) (dmReal K z (distAt dist t)) mv.val kv.val y.val) ∧
          (¬(0 < mv.val ∧ 0 < v.val) → y.val = -9999)) ∧
      (r = true → ∃ rc o, ret.list[1]? = some rc ∧ rc.shape = k.shape ∧
        K.reconstructOut (some (.vec zs)) (some (.arr [zs.length] K.templates.nsed cs)) bs = .ok o ∧
        ∀ (t j : Nat) (z kv ov : Fl), zs[t]? = some z → entry k t j = some kv → entry o t j = some ov → ∃ y : Fl, entry rc t j = some y ∧
          (0 < ov.val → AbsClose (dmReal K z (distAt dist t)) ov.val kv.val y.val) ∧ (¬ 0 < ov.val → y.val = -9999)) ∧
      (l = true → ∃ lm, ret.list[if r then 2 else 1]? = some lm ∧ lm.shape = k.shape ∧ ∀ (t j i : Nat) (z : Fl) (iv : List Fl) (v kv : Fl), zs[t]? = some z →
        ivs[t]? = some iv → K.imap[j]? = some i → iv[i]? = some v → entry k t j = some kv →
        ∃ y : Fl, entry lm t j = some y ∧ (0 < v.val → AbsCloseAb (abOffset K.abCls i) (dmReal K z (distAt dist t)) (1 / Real.sqrt v.val) kv.val y.val) ∧
          (¬ 0 < v.val → y.val = -9999)) := by
  rw [absmag_table_ab f32Laws_fl K hab (.vec zs) [zs.length] ms ivs _ hmr hivr] at h
  obtain ⟨k, h1, ⟨a, h2, h3, h4⟩, h5, h6⟩ := C139_batch (K := K.plain) (Or.inl rfl) hA hAo gAo hcol zs bs (ms.map (abRow K.abCls)) (ivs.map (abVRow K.abCls)) cs
    (by simpa using hm) (by simpa using hiv) hcs hc dist hdl hdm hd r l kk h
  rw [reconOut_plain] at h5
  refine ⟨k, by rw [← kcorrect_plain]; exact h1, ⟨a, h2, h3, ?_⟩, h5, fun hl => ?_⟩
  · intro t j i z m iv mv v kv t1 t2 t3 e1 e2 e3 e4
    obtain ⟨⟨x, hx, fx1, fx2⟩, -⟩ := flRow_get K.abCls (hmr m (List.mem_of_getElem? t2)) hab e2
    obtain ⟨-, ⟨u, hu, fu1, fu2⟩⟩ := flRow_get K.abCls (hivr iv (List.mem_of_getElem? t3)) hab e3
    obtain ⟨y, y1, y2, y3⟩ := h4 t j i z _ _ x u kv t1 (by rw [List.getElem?_map, t2]; rfl) (by rw [List.getElem?_map, t3]; rfl) e1 hx hu e4
    rw [fx1, fu1] at y2 y3
    exact ⟨y, y1, fun hp => absClose_ab (abOffset_small _ _) (fx2 hp.1) (y2 hp), y3⟩
  · obtain ⟨lm, g1, g2, g3⟩ := h6 hl
    refine ⟨lm, g1, g2, fun t j i z iv v kv t1 t3 e1 e3 e4 => ?_⟩
    obtain ⟨-, ⟨u, hu, fu1, fu2⟩⟩ := flRow_get K.abCls (hivr iv (List.mem_of_getElem? t3)) hab e3
    obtain ⟨y, y1, y2, y3⟩ := g3 t j i z _ u kv t1 (by rw [List.getElem?_map, t3]; rfl) e1 hu e4
    rw [fu1] at y2 y3
    exact ⟨y, y1, fun hp => absClose_ab (abOffset_small _ _) (fu2 hp) (y2 hp), y3⟩

/-! ### Example -/

/-- five SDSS bands in, with the AB correction, one band out: 2 maggies at rest and 1 at redshift 1 in all of them -/
noncomputable def flSdss : Kc Fl :=
  ⟨{ Fitter.mk' .sdss [['u'], ['g'], ['r'], ['i'], ['z']] (.sed ⟨[], [[]], [], [[]], lit 0, false, none, false⟩) (s32 0) (s32 1) 2 true with
      Amatrix := some ⟨[s32 0, s32 1], [List.replicate 5 [s32 2], List.replicate 5 [s32 1]], 5, 1⟩ },
    [['r']], [['r']], some (twoNodes 0 1 2 1), [2], fun _ => s32 40⟩

/-- Not vacuous: an object that corrects to AB returns all the arrays. -/
example (d : Option Fl) : flSdss.abCls = .sdss ∧ AbReady flSdss.abCls flSdss.responses.length ∧ FlGood (twoNodes 0 1 2 1) ∧ (flSdss.distmod (f32 (s32 1))).Num ∧
    ∃ ret, flSdss.absmag (some (.vec (List.replicate 5 (s32 1)))) (some (.vec (List.replicate 5 (s32 4)))) (some (.scalar (s32 1))) (some (.vec [s32 1])) (lit 0)
      (d.map .scalar) true true true = .ok ret := by
  refine ⟨rfl, rfl, flKc_good, ⟨⟨40, 0, by norm_num [flSdss], by norm_num [flSdss, DT.prec]⟩, by simp [flSdss]⟩, ?_⟩
  rw [absmag_one_ab f32Laws_fl flSdss rfl (s32 1) _ _ _ rfl rfl]
  have f1 : rd 24 (1 : ℝ) = 1 := rd_float isFloat_one
  have f2 : rd 24 (2 : ℝ) = 2 := rd_float isFloat_two
  have hq : shiftOf (f32 (s32 1)) (lit 0) = s32 1 := by
    rw [fl_f32]
    simp only [f1]
    rw [shift_float isFloat_one]
    norm_num [f2, f1]
  obtain ⟨M, hM⟩ := at_ok (A := ⟨[s32 0, s32 1], [List.replicate 5 [s32 2], List.replicate 5 [s32 1]], 5, 1⟩) (by simp) (z := shiftOf (f32 (s32 1)) (lit 0))
    (by rw [hq]; simp) (by rw [hq]; simp)
  rw [absmag_scalar (K := flSdss.plain) (Ao := twoNodes 0 1 2 1) (Or.inl rfl) rfl rfl _ _ _ _
    (abRow_length (α := Fl) flSdss.abCls (w := 5) (r := List.replicate 5 (s32 1)) rfl rfl).1 (abRow_length (α := Fl) flSdss.abCls (w := 5) (r := List.replicate 5 (s32 4)) rfl rfl).2 rfl]
  unfold absOne kOne
  rw [f32_f32, f32_f32, f32_zero_mul, hM, ok_bind, flKc_at0]
  simp only [flKc_at1, ok_bind, if_true, Except.map]
  exact ⟨_, rfl⟩

end KC
