import Verif.Lemmas.Ieee
import Verif.Props.Accept

/-!
# C144: `maggies2flambda` in IEEE-754 arithmetic
-/

namespace KC
open Spec

theorem inR_abs {x : ℝ} : InR |x| ↔ InR x := by simp [InR]

theorem inR_of {x : ℝ} (h1 : (2 : ℝ) ^ (-125 : ℤ) ≤ x) (h2 : x ≤ 2 ^ (126 : ℤ)) : InR x := ((Near.refl x).inR (by norm_num) h1 h2).1

theorem abFlux_bounds {l : ℝ} (h1 : 10 ≤ l) (h2 : l ≤ 10 ^ 7) : 1e-15 ≤ abFlux l ∧ abFlux l ≤ 2e-3 := by
  unfold abFlux
  have hl : 0 < l := by linarith
  constructor
  · rw [le_div_iff₀ (by positivity)]
    have : l ^ 2 ≤ (10 ^ 7) ^ 2 := pow_le_pow_left₀ hl.le h2 2
    nlinarith
  · rw [div_le_iff₀ (by positivity)]
    have : (10 : ℝ) ^ 2 ≤ l ^ 2 := pow_le_pow_left₀ (by norm_num) h1 2
    nlinarith

/-- the AB flux of a float32 wavelength -/
theorem sedAb_ie {a : Ie} {l : ℝ} (hv : a.v = .fin l) (h1 : 10 ≤ l) (h2 : l ≤ 10 ^ 7) :
    ∃ c, IeNum (sedAbAt (f32 a)) c ∧ Near 9 (abFlux l) c ∧ (sedAbAt (f32 a)).dt = .f32 := by
  have hl : 0 < l := by linarith
  obtain ⟨w, nw, e1, d1⟩ := ie_f32 hv (inR_of (le_trans (by norm_num) h1) (le_trans h2 (by norm_num)))
  have l2 : (100 : ℝ) ≤ l * l ∧ l * l ≤ 10 ^ 14 := ⟨by nlinarith, by nlinarith⟩
  have e2 : Near 2 (l * l) (w * w) := e1.mul e1
  obtain ⟨r2, p2⟩ := e2.inR (by norm_num) (le_trans (by norm_num) l2.1) (le_trans l2.2 (by norm_num))
  obtain ⟨w2, n2, e3, d2⟩ := ie_mul nw nw r2
  have e4 : Near 3 (l * l) w2 := e2.trans e3
  have w2p : 0 < w2 := e4.pos (by positivity)
  -- division
  have q1 : InR ((0.03631 : ℚ) : ℝ) := inR_of (by norm_num) (by norm_num)
  have q2 : InR ((2.99792 : ℚ) : ℝ) := inR_of (by norm_num) (by norm_num)
  have hd2 : (f32 a * f32 a).dt = .f32 := by rw [d2, d1]; rfl
  have e5 : Near 5 (((0.03631 : ℚ) : ℝ) / (l * l)) (rd (f32 a * f32 a).dt.prec (rd 53 ((0.03631 : ℚ) : ℝ)) / w2) := (lit_near _ _).div e4
  have b5 : (1e-16 : ℝ) ≤ ((0.03631 : ℚ) : ℝ) / (l * l) ∧ ((0.03631 : ℚ) : ℝ) / (l * l) ≤ 1 := by
    constructor
    · rw [le_div_iff₀ (by positivity)]; push_cast; nlinarith [l2.2]
    · rw [div_le_iff₀ (by positivity)]; push_cast; nlinarith [l2.1]
  obtain ⟨r5, p5⟩ := e5.inR (by norm_num) (le_trans (by norm_num) b5.1) (le_trans b5.2 (by norm_num))
  have n5 := ie_op2_lit (f := XR.div) 0.03631 q1 n2 (by simp [XR.div, w2p.ne']) r5
  have e6 := e5.trans (near_rd (DT.prec_ge (f32 a * f32 a).dt) _)
  -- multiplication by the speed of light
  have e7 := e6.mul (lit_near 2.99792 (Ie.op2 XR.div (lit 0.03631) (f32 a * f32 a)).dt)
  have hab : ((0.03631 : ℚ) : ℝ) / (l * l) * ((2.99792 : ℚ) : ℝ) = abFlux l := by unfold abFlux; push_cast; field_simp
  rw [hab] at e7
  obtain ⟨a1, a2⟩ := abFlux_bounds h1 h2
  obtain ⟨r7, p7⟩ := e7.inR (by norm_num) (le_trans (by norm_num) a1) (le_trans a2 (by norm_num))
  have n7 := ie_op2_lit' (f := XR.mul) 2.99792 q2 n5 rfl r7
  refine ⟨_, n7, e7.trans (near_rd (DT.prec_ge _) _), ?_⟩
  exact (ie_dt_lit_right _ _ n5).trans hd2

/-- a flux -/
theorem flux_ie {c m : Ie} {x y l : ℝ} (hc : IeNum c x) (hx : Near 9 (abFlux l) x) (h1 : 10 ≤ l) (h2 : l ≤ 10 ^ 7) (hm : IeNum m y)
    (hy : y = 0 ∨ 1e-20 ≤ |y| ∧ |y| ≤ 1e30) : ∃ z, IeNum (c * m) z ∧ Near 10 (abFlux l * y) z := by
  obtain ⟨a1, a2⟩ := abFlux_bounds h1 h2
  have r : InR (x * y) := by
    rcases hy with rfl | ⟨y1, y2⟩
    · simp [InR]
    · have : Near 9 (abFlux l * |y|) |x * y| := by
        rw [abs_mul, abs_of_pos (hx.pos (by linarith))]
        exact hx.mul (Near.refl |y|)
      refine inR_abs.mp (this.inR (by norm_num) ?_ ?_).1
      · exact le_trans (by norm_num) (mul_le_mul a1 y1 (by norm_num) (by linarith))
      · exact le_trans (mul_le_mul a2 y2 (by positivity) (by norm_num)) (by norm_num)
  obtain ⟨z, nz, e, -⟩ := ie_mul hc hm r
  exact ⟨z, nz, (hx.mul (Near.refl y)).trans e⟩

/-- the square of the AB flux -/
theorem sq_ie {c : Ie} {x l : ℝ} (hc : IeNum c x) (hx : Near 9 (abFlux l) x) (h1 : 10 ≤ l) (h2 : l ≤ 10 ^ 7) :
    ∃ z, IeNum (c * c) z ∧ Near 19 (abFlux l ^ 2) z ∧ (c * c).dt = c.dt := by
  obtain ⟨a1, a2⟩ := abFlux_bounds h1 h2
  have e : Near 18 (abFlux l ^ 2) (x * x) := by rw [sq]; exact hx.mul hx
  obtain ⟨r, -⟩ := e.inR (by norm_num) (le_trans (by norm_num) (pow_le_pow_left₀ (by norm_num) a1 2)) (le_trans (pow_le_pow_left₀ (by linarith) a2 2) (by norm_num))
  obtain ⟨z, nz, e', d⟩ := ie_mul hc hc r
  refine ⟨z, nz, e.trans e', d.trans ?_⟩
  have := hc.dt
  cases h : c.dt <;> simp_all [DT.join]

/-- The inverse variance of a vector's entry (`array = false`) or a table's (`array = true`). -/
noncomputable def fivar (array : Bool) (c iv : Ie) : Ie := if array then lit 1 / (c * c) * iv else iv / (c * c)

theorem fivar_parts {c iv : Ie} {x y l : ℝ} (hc : IeNum c x) (hx : Near 9 (abFlux l) x) (h1 : 10 ≤ l) (h2 : l ≤ 10 ^ 7) (hiv : IeNum iv y) (array : Bool) :
    ∃ z, Near 20 (y / abFlux l ^ 2) z ∧ (fivar array c iv).v = (XR.fin z).round (c.dt.join iv.dt) ∧ (fivar array c iv).dt = c.dt.join iv.dt := by
  obtain ⟨a1, a2⟩ := abFlux_bounds h1 h2
  obtain ⟨s, ns, es, ds⟩ := sq_ie hc hx h1 h2
  have sp : 0 < s := es.pos (by positivity)
  have jc : ∀ a b : DT, a.join b = b.join a := by intro a b; cases a <;> cases b <;> rfl
  cases array with
  | false =>
    have hj : iv.dt.join (c * c).dt = c.dt.join iv.dt := by rw [ds, jc]
    refine ⟨y / s, ((Near.refl y).div es).mono (by norm_num), ?_, hj⟩
    show (XR.div (iv.v.round (iv.dt.join (c * c).dt)) ((c * c).v.round (iv.dt.join (c * c).dt))).round (iv.dt.join (c * c).dt) = _
    rw [hiv.conv (prec_join_left hiv.dt), ns.conv (prec_join_right ns.dt), hj]
    simp [XR.div, sp.ne']
  | true =>
    have q1 : InR ((1 : ℚ) : ℝ) := inR_of (by norm_num) (by norm_num)
    have l1 : ∀ d : DT, rd d.prec (rd 53 ((1 : ℚ) : ℝ)) = 1 := by
      intro d
      have h := rd_two_zpow (p := 53) (by norm_num) 0
      have h' := rd_two_zpow (p := d.prec) (by have := d.prec_ge; omega) 0
      simp only [zpow_zero] at h h'
      rw [Rat.cast_one, h, h']
    have e1 : Near 19 (1 / abFlux l ^ 2) (1 / s) := ((Near.refl 1).div es).mono (by norm_num)
    have b1 : (1 : ℝ) ≤ 1 / abFlux l ^ 2 ∧ 1 / abFlux l ^ 2 ≤ 1e30 := by
      have s1 : (1e-15 : ℝ) ^ 2 ≤ abFlux l ^ 2 := pow_le_pow_left₀ (by norm_num) a1 2
      have s2 : abFlux l ^ 2 ≤ (2e-3 : ℝ) ^ 2 := pow_le_pow_left₀ (by linarith) a2 2
      have hp : 0 < abFlux l ^ 2 := by positivity
      constructor
      · rw [le_div_iff₀ hp]; linarith
      · rw [div_le_iff₀ hp]; linarith
    obtain ⟨r1, -⟩ := e1.inR (by norm_num) (le_trans (by norm_num) b1.1) (le_trans b1.2 (by norm_num))
    have n1 := ie_op2_lit (f := XR.div) 1 q1 ns (z := 1 / s) (by rw [l1]; simp [XR.div, sp.ne']) r1
    have e2 := e1.trans (near_rd (DT.prec_ge (c * c).dt) (1 / s))
    have hd : (Ie.op2 XR.div (lit 1) (c * c)).dt = c.dt := ds
    refine ⟨rd (c * c).dt.prec (1 / s) * y, ?_, ?_, by show (Ie.op2 XR.div (lit 1) (c * c)).dt.join iv.dt = _; rw [hd]⟩
    rotate_left
    · show (XR.mul ((Ie.op2 XR.div (lit 1) (c * c)).v.round ((Ie.op2 XR.div (lit 1) (c * c)).dt.join iv.dt))
        (iv.v.round ((Ie.op2 XR.div (lit 1) (c * c)).dt.join iv.dt))).round ((Ie.op2 XR.div (lit 1) (c * c)).dt.join iv.dt) = _
      rw [n1.conv (prec_join_left n1.dt), hiv.conv (prec_join_right hiv.dt), hd]
      rfl
    · have := e2.mul (Near.refl y)
      rw [one_div, inv_mul_eq_div] at this
      exact this.mono (by norm_num)

section generic
variable {α : Type} [Arith α]

theorem loadMissing_known (lib : Lib α) (disk : Disk α) : ∀ (l : List Name) (g : Reg α), (∀ n ∈ l, (g n).isSome) → loadMissing lib disk l g = (g, .ok ()) := by
  intro l
  induction l with
  | nil => intro g _; rfl
  | cons a t ih =>
    intro g hg
    simp only [loadMissing, loadResponse_cached lib disk a g (hg a List.mem_cons_self)]
    exact ih g (fun n hn => hg n (List.mem_cons_of_mem _ hn))

/-- `maggies2flambda` entry by entry, for bands in the dictionary and inverse variances given -/
theorem flambda_entries (lib : Lib α) (disk : Disk α) (responses : List Name) (g : Reg α) (as : List α)
    (hg : List.Forall₂ (fun n a => ∃ o, g n = some o ∧ o.lambdaEff = some a) responses as) (m v : NDA α) (hm : m.WF) (hr : m.ndim = 1 ∨ m.ndim = 2)
    (hl : lastAxis m responses.length) (hv : v.WF) (hs : v.shape = m.shape) :
    ∃ out w, maggies2flambda lib disk m (some v) responses g = (g, .ok out) ∧ out.ivar = some w ∧ out.flux.shape = m.shape ∧ w.shape = m.shape ∧
      ∀ (r j : Nat) (a x y : α), as[j]? = some a → entry m r j = some x → entry v r j = some y →
        entry out.flux r j = some (sedAbAt (f32 a) * x) ∧
        entry w r j = some (if m.ndim = 2 then lit 1 / (sedAbAt (f32 a) * sedAbAt (f32 a)) * y else y / (sedAbAt (f32 a) * sedAbAt (f32 a))) := by
  have hlen := hg.length_eq
  have hload : loadMissing lib disk responses g = (g, .ok ()) := by
    apply loadMissing_known
    intro n hn
    obtain ⟨i, hi, rfl⟩ := List.getElem_of_mem hn
    obtain ⟨o, ho, -⟩ := (List.forall₂_iff_get.mp hg).2 i hi (by omega)
    simp only [List.get_eq_getElem] at ho
    simp [ho]
  have hls : responses.mapM (lambdaEffIn g) = .ok as := by
    apply mapM_ok
    refine hg.imp ?_
    rintro n a ⟨o, ho, ha⟩
    simp [lambdaEffIn, ho, ha]
  cases m with
  | scalar x => simp [NDA.ndim] at hr
  | arr lead k rows =>
    have hk : k = (as.map (f32 (α := α))).length := by
      simp only [lastAxis, NDA.shape] at hl
      rw [List.getLast?_concat] at hl
      cases hl; simp [hlen]
    subst hk
    simp only [NDA.ndim] at hr
    obtain ⟨out, h1, h2, h3, -, h5⟩ := flambdaOf_ok (as.map f32) lead (by omega) rows (some v) hm.2 (by intro v' e; cases e; exact ⟨hv, hs⟩)
    obtain ⟨vrows, rfl, -, how⟩ := h5 v rfl
    refine ⟨out, _, by unfold maggies2flambda; simp only [hload, hls, ok_bind, h1], how, by rw [h3]; rfl, rfl, ?_⟩
    intro r j a x y ha hx hy
    have hent : ∀ (vr : List (List α)) (f : α → α → α) (x : α), (vr[r]?).bind (fun row => row[j]?) = some x →
        ((vr.map (fun row => List.zipWith f ((as.map f32).map sedAbAt) row))[r]?).bind (fun row => row[j]?) = some (f (sedAbAt (f32 a)) x) := by
      intro vr f x hx
      rw [List.getElem?_map]
      rcases hv : vr[r]? with _ | row
      · rw [hv] at hx; cases hx
      · rw [hv] at hx
        simp only [Option.bind_some] at hx
        simp only [Option.map_some, Option.bind_some, List.getElem?_zipWith, List.getElem?_map, ha, hx, Option.map_some]
    refine ⟨by rw [h3]; exact hent rows _ x hx, ?_⟩
    refine (hent vrows _ y hy).trans ?_
    have hc : (lead = []) ↔ ¬ ((NDA.arr lead (as.map (f32 (α := α))).length rows).ndim = 2) := by
      rcases lead with _ | ⟨n, _ | ⟨n', t⟩⟩ <;> simp_all [NDA.ndim]
    by_cases h : lead = []
    · rw [if_pos h, if_neg (hc.mp h)]
    · rw [if_neg h, if_pos (not_not.mp (fun hn => h (hc.mpr hn)))]

end generic

/-- The bands are in the dictionary, with effective wavelengths `ls` between 10 and 10^7 Angstrom. -/
def KnownBands (g : Reg Ie) (responses : List Name) (ls : List ℝ) : Prop :=
  List.Forall₂ (fun n l => ∃ o a, g n = some o ∧ o.lambdaEff = some a ∧ a.v = .fin l ∧ 10 ≤ l ∧ l ≤ 10 ^ 7) responses ls

theorem knownBands_split {g : Reg Ie} {responses : List Name} {ls : List ℝ} (h : KnownBands g responses ls) :
    ∃ as, List.Forall₂ (fun n a => ∃ o, g n = some o ∧ o.lambdaEff = some a) responses as ∧
      ∀ (j : Nat) l, ls[j]? = some l → ∃ a, as[j]? = some a ∧ a.v = .fin l ∧ 10 ≤ l ∧ l ≤ 10 ^ 7 := by
  unfold KnownBands at h
  induction h with
  | nil => exact ⟨[], .nil, by simp⟩
  | cons h1 _ ih =>
    obtain ⟨as, f, k⟩ := ih
    obtain ⟨o, a, e1, e2, e3, e4, e5⟩ := h1
    refine ⟨a :: as, .cons ⟨o, e1, e2⟩ f, ?_⟩
    intro j l hj
    cases j with
    | zero => simp at hj; subst hj; exact ⟨a, rfl, e3, e4, e5⟩
    | succ j => simpa using k j l (by simpa using hj)

/-- C144, what holds: fluxes between 1e-20 and 1e30 maggies in size (or 0) and inverse variances (of maggies, or 0) that are between 2^-125 and 2^126 when expressed in the
units of the result come back finite, within 2e-6 of `m` times the AB flux and of `iv` over its square, whatever the dtypes. -/
theorem C144_finite_partial (lib : Lib Ie) (disk : Disk Ie) (responses : List Name) (g : Reg Ie) (ls : List ℝ) (hg : KnownBands g responses ls)
    (m v : NDA Ie) (hm : m.WF) (hr : m.ndim = 1 ∨ m.ndim = 2) (hl : lastAxis m responses.length) (hv : v.WF) (hs : v.shape = m.shape) :
    ∃ out w, maggies2flambda lib disk m (some v) responses g = (g, .ok out) ∧ out.ivar = some w ∧ out.flux.shape = m.shape ∧ w.shape = m.shape ∧
      ∀ (r j : Nat) (l : ℝ) (a b : Ie) (x y : ℝ), ls[j]? = some l → entry m r j = some a → entry v r j = some b → IeNum a x → IeNum b y →
        ((x = 0 ∨ 1e-20 ≤ |x| ∧ |x| ≤ 1e30) → ∃ f z, entry out.flux r j = some f ∧ f.v = .fin z ∧ |z - x * abFlux l| ≤ 2e-6 * |x * abFlux l|) ∧
        ((y = 0 ∨ (2 : ℝ) ^ (-125 : ℤ) ≤ y / abFlux l ^ 2 ∧ y / abFlux l ^ 2 ≤ 2 ^ (126 : ℤ)) →
          ∃ f z, entry w r j = some f ∧ f.v = .fin z ∧ |z - y / abFlux l ^ 2| ≤ 2e-6 * |y / abFlux l ^ 2|) := by
  obtain ⟨as, has, hal⟩ := knownBands_split hg
  obtain ⟨out, w, h1, h2, h3, h4, h5⟩ := flambda_entries lib disk responses g as has m v hm hr hl hv hs
  refine ⟨out, w, h1, h2, h3, h4, ?_⟩
  intro r j l a b x y hj ha hb na nb
  obtain ⟨c, hc, hcv, l1, l2⟩ := hal j l hj
  obtain ⟨e1, e2⟩ := h5 r j c a b hc ha hb
  obtain ⟨k, nk, ek, -⟩ := sedAb_ie hcv l1 l2
  have hu : uro 24 ≤ 6e-8 := by unfold uro; norm_num
  have hu0 := uro_pos 24
  have rel : ∀ {n : Nat}, n ≤ 21 → ∀ {x a : ℝ}, Near n x a → |a - x| ≤ 2e-6 * |x| := by
    intro n hn x a h
    have h' := (h.mono hn).rel (by push_cast; linarith)
    refine h'.trans (mul_le_mul_of_nonneg_right ?_ (abs_nonneg _))
    push_cast
    rw [div_le_iff₀ (by linarith)]
    linarith
  constructor
  · intro hx
    obtain ⟨z, nz, ez⟩ := flux_ie nk ek l1 l2 na hx
    refine ⟨_, z, e1, nz.val, ?_⟩
    rw [mul_comm x]
    exact rel (by norm_num) ez
  · intro hy
    obtain ⟨z, ez, vz, -⟩ := fivar_parts nk ek l1 l2 nb (decide (m.ndim = 2))
    have hz : InR z := by
      rcases hy with rfl | ⟨y1, y2⟩
      · rw [zero_div, near_zero] at ez; exact Or.inl ez
      · exact (ez.inR (by norm_num) y1 y2).1
    refine ⟨_, _, e2, ?_, rel (n := 21) le_rfl (ez.trans (near_rd (DT.prec_ge ((sedAbAt (f32 c)).dt.join b.dt)) z))⟩
    rw [← rdIe_inR _ hz]
    have := vz
    simp only [fivar, decide_eq_true_eq] at this
    exact this

/-- C144, the range is lost: in single precision an inverse variance of more than 2^129 in the units of the result is returned as infinity. -/
theorem C144_overflow (lib : Lib Ie) (disk : Disk Ie) (responses : List Name) (g : Reg Ie) (ls : List ℝ) (hg : KnownBands g responses ls)
    (m v : NDA Ie) (hm : m.WF) (hr : m.ndim = 1 ∨ m.ndim = 2) (hl : lastAxis m responses.length) (hv : v.WF) (hs : v.shape = m.shape) :
    ∃ out w, maggies2flambda lib disk m (some v) responses g = (g, .ok out) ∧ out.ivar = some w ∧
      ∀ (r j : Nat) (l : ℝ) (a b : Ie) (y : ℝ), ls[j]? = some l → entry m r j = some a → entry v r j = some b → IeNum b y → b.dt = .f32 →
        (2 : ℝ) ^ (129 : ℤ) ≤ y / abFlux l ^ 2 → ∃ f, entry w r j = some f ∧ f.v = .pinf := by
  obtain ⟨as, has, hal⟩ := knownBands_split hg
  obtain ⟨out, w, h1, h2, h3, h4, h5⟩ := flambda_entries lib disk responses g as has m v hm hr hl hv hs
  refine ⟨out, w, h1, h2, ?_⟩
  intro r j l a b y hj ha hb nb hd hy
  obtain ⟨c, hc, hcv, l1, l2⟩ := hal j l hj
  obtain ⟨-, e2⟩ := h5 r j c a b hc ha hb
  obtain ⟨k, nk, ek, dk⟩ := sedAb_ie hcv l1 l2
  obtain ⟨z, ez, vz, -⟩ := fivar_parts nk ek l1 l2 nb (decide (m.ndim = 2))
  refine ⟨_, e2, ?_⟩
  have hp : 0 < y / abFlux l ^ 2 := lt_of_lt_of_le (two_zpow_pos _) hy
  have hz : (2 : ℝ) ^ (128 : ℤ) ≤ z := by
    have h := (ez.bounds hp.le).1
    have hom : (1 : ℝ) / 2 ≤ om ^ 20 := by
      have := one_add_mul_le_pow (a := -uro 24) (by have := uro_le_one 24; linarith) 20
      have hu : uro 24 ≤ 1e-7 := by unfold uro; norm_num
      have e : om = 1 + -uro 24 := by unfold om; ring
      rw [e]
      push_cast at this
      linarith
    have h129 : (2 : ℝ) ^ (128 : ℤ) = 2 ^ (129 : ℤ) * (1 / 2) := by norm_num
    rw [h129]
    exact (mul_le_mul hy hom (by norm_num) hp.le).trans h
  have : (if m.ndim = 2 then lit 1 / (sedAbAt (f32 c) * sedAbAt (f32 c)) * b else b / (sedAbAt (f32 c) * sedAbAt (f32 c))) = fivar (decide (m.ndim = 2)) (sedAbAt (f32 c)) b := by
    simp [fivar]
  rw [this, vz, dk, hd]
  exact rdIe_over .f32 hz

/-- C144 is false: an object with an error of 1e-11 maggies (5 sigma at magnitude 25.75) and the same in a band at 4.6 micron with an error of 5e-10 maggies. -/
theorem C144_false : ∃ (b1 b2 : Ie) (y1 y2 : ℝ), IeNum b1 y1 ∧ IeNum b2 y2 ∧ b1.dt = .f32 ∧ b2.dt = .f32 ∧ y1 ≤ 1e22 ∧ y2 ≤ 4e18 ∧
    ∀ (lib : Lib Ie) (disk : Disk Ie) (n1 n2 : Name) (g : Reg Ie), KnownBands g [n1, n2] [8000, 46000] → ∀ a1 a2 : Ie,
      ∃ out w f1 f2, maggies2flambda lib disk (.vec [a1, a2]) (some (.vec [b1, b2])) [n1, n2] g = (g, .ok out) ∧ out.ivar = some w ∧
        entry w 0 0 = some f1 ∧ entry w 0 1 = some f2 ∧ f1.v = .pinf ∧ f2.v = .pinf := by
  have mk : ∀ n : Nat, ∀ e : ℕ, 0 < n → n < 2 ^ 24 → e < 60 → IeNum ⟨.fin (n * 2 ^ e), .f32⟩ (n * 2 ^ e) := by
    intro n e h0 h1 h2
    refine ⟨rfl, by simp, ⟨n, e, by simp, by simpa using by exact_mod_cast h1⟩, ?_⟩
    have hn : (1 : ℝ) ≤ n := by exact_mod_cast h0
    have hn' : (n : ℝ) ≤ 2 ^ 24 := by exact_mod_cast h1.le
    have he : (1 : ℝ) ≤ 2 ^ e := one_le_pow₀ (by norm_num)
    have he' : (2 : ℝ) ^ e ≤ 2 ^ 60 := pow_le_pow_right₀ (by norm_num) h2.le
    apply inR_of
    · exact le_trans (by norm_num) (le_trans hn (le_mul_of_one_le_right (by linarith) he))
    · exact (mul_le_mul hn' he' (by positivity) (by positivity)).trans (by norm_num)
  have N1 := mk 16000000 49 (by norm_num) (by norm_num) (by norm_num)
  have N2 := mk 14000000 38 (by norm_num) (by norm_num) (by norm_num)
  refine ⟨_, _, _, _, N1, N2, rfl, rfl, by norm_num, by norm_num, ?_⟩
  intro lib disk n1 n2 g hg a1 a2
  obtain ⟨out, w, h1, h2, h3⟩ := C144_overflow lib disk [n1, n2] g _ hg (.vec [a1, a2])
    (.vec [⟨.fin ((16000000 : ℕ) * 2 ^ 49), .f32⟩, ⟨.fin ((14000000 : ℕ) * 2 ^ 38), .f32⟩])
    (by simp [NDA.vec, NDA.WF]) (by simp [NDA.vec, NDA.ndim]) (by simp [lastAxis, NDA.vec, NDA.shape]) (by simp [NDA.vec, NDA.WF]) (by simp [NDA.vec, NDA.shape])
  obtain ⟨f1, e1, v1⟩ := h3 0 0 8000 a1 _ _ rfl rfl rfl N1 rfl (by unfold abFlux; norm_num)
  obtain ⟨f2, e2, v2⟩ := h3 0 1 46000 a2 _ _ rfl rfl rfl N2 rfl (by unfold abFlux; norm_num)
  exact ⟨out, w, f1, f2, h1, h2, e1, e2, v1, v2⟩

/-- Two bands in the dictionary, at 8000 Angstrom and 4.6 micron; a flux and an inverse variance of the range of `C144_finite_partial`. -/
example : KnownBands (fun n => some { RespObj.empty with lambdaEff := some ⟨.fin (if n = ['i'] then 8000 else 46000), .f32⟩ }) [['i'], ['W', '2']] [8000, 46000] ∧
    ((2 : ℝ) ^ (-125 : ℤ) ≤ 1e16 / abFlux 8000 ^ 2 ∧ 1e16 / abFlux 8000 ^ 2 ≤ 2 ^ (126 : ℤ)) ∧ IeNum ⟨.fin 1, .f32⟩ 1 := by
  refine ⟨?_, ?_, ⟨rfl, by simp, ⟨1, 0, by simp, by norm_num [DT.prec]⟩, inR_of (by norm_num) (by norm_num)⟩⟩
  · refine .cons ⟨_, _, rfl, rfl, by simp, by norm_num, by norm_num⟩ (.cons ⟨_, _, rfl, rfl, by simp, by norm_num, by norm_num⟩ .nil)
  · unfold abFlux
    constructor <;> norm_num

end KC
