import Verif.Props.Fittable
import Verif.Props.Absmag

/-! C147: K-corrections and absolute magnitudes of models without flux in a band, and of NaN coefficients. -/

namespace KC
open Spec

theorem sumL_fin (c : List ℝ) : sumL (c.map XR.fin) = .fin c.sum := by
  induction c with
  | nil => show XR.fin ((0 : ℚ) : ℝ) = _; simp
  | cons a l ih =>
    show XR.fin a + sumL (l.map XR.fin) = _
    rw [ih, XR.add_ff, List.sum_cons]

theorem sumL_nan {c : List XR} (h : XR.nan ∈ c) : sumL c = .nan := by
  induction c with
  | nil => simp at h
  | cons a l ih =>
    show a + sumL l = _
    rcases List.mem_cons.mp h with rfl | h
    · exact XR.nan_add _
    · rw [ih h, XR.add_nan]

theorem log10_fin_pos {x : ℝ} (h : 0 < x) : log10 (XR.fin x) = .fin (Real.logb 10 x) := by
  show XR.logWith (Real.logb 10) (XR.fin x) = _
  unfold XR.logWith
  simp only
  rw [if_neg (by linarith), if_neg h.ne']

theorem log10_fin_zero : log10 (XR.fin 0) = .ninf := by
  show XR.logWith (Real.logb 10) (XR.fin 0) = _
  unfold XR.logWith
  simp

theorem lit_neg_half : (lit (-5 / 2) : XR) = .fin (-5 / 2) := by rw [XR.lit_x]; norm_num

theorem magOf_fin_pos {x : ℝ} (h : 0 < x) : magOf (XR.fin x) = .fin (mag x) := by
  unfold magOf
  rw [log10_fin_pos h, lit_neg_half, XR.mul_ff, mag]
  norm_num

theorem magOf_fin_zero : magOf (XR.fin 0) = .pinf := by
  unfold magOf
  rw [log10_fin_zero, lit_neg_half]
  show XR.infMul (-(-5 / 2)) = _
  exact XR.infMul_pos (by norm_num)

theorem magOf_pinf : magOf XR.pinf = .ninf := by
  unfold magOf
  rw [show log10 XR.pinf = XR.pinf from rfl, lit_neg_half]
  show XR.infMul (-5 / 2) = _
  unfold XR.infMul
  rw [if_neg (by norm_num), if_pos (by norm_num)]

theorem magOf_nan : magOf XR.nan = .nan := by
  unfold magOf
  rw [show log10 XR.nan = XR.nan from rfl, XR.mul_nan]

/-- The K-correction of nonnegative model fluxes `x` and `y`. -/
theorem kvalue {x y : ℝ} (hx : 0 ≤ x) (hy : 0 ≤ y) :
    (0 < x → 0 < y → magOf (XR.fin x / .fin y) = .fin (mag x - mag y)) ∧ (x = 0 → 0 < y → magOf (XR.fin x / .fin y) = .pinf) ∧
    (0 < x → y = 0 → magOf (XR.fin x / .fin y) = .ninf) ∧ (x = 0 → y = 0 → magOf (XR.fin x / .fin y) = .nan) := by
  refine ⟨fun h1 h2 => ?_, fun h1 h2 => ?_, fun h1 h2 => ?_, fun h1 h2 => ?_⟩
  · rw [XR.div_ff_of_ne h2.ne', magOf_fin_pos (div_pos h1 h2)]
    simp only [mag]
    rw [Real.logb_div h1.ne' h2.ne']
    congr 1; ring
  · rw [XR.div_ff_of_ne h2.ne', h1, zero_div, magOf_fin_zero]
  · rw [h2, XR.div_ff, if_pos rfl, XR.infMul_pos h1, magOf_pinf]
  · rw [h1, h2, XR.div_ff, if_pos rfl, XR.infMul_zero, magOf_nan]

/-- The K-correction in a band from the sum of the coefficients and the model flux in the input band and in the output band. -/
def KBand (s x y : ℝ) (v : XR) : Prop :=
  (s ≤ 0 → v = .fin 0) ∧
  (0 < s → (0 < x → 0 < y → v = .fin (mag x - mag y)) ∧ (x = 0 → 0 < y → v = .pinf) ∧ (0 < x → y = 0 → v = .ninf) ∧ (x = 0 → y = 0 → v = .nan))

theorem gather_getX (row : List XR) (idx : List Nat) {j i : Nat} {v : XR} (hj : idx[j]? = some i) (hi : row[i]? = some v) :
    (gather row idx)[j]? = some v := by
  simp [gather, hj, hi]

theorem kcorrect_xr {K : Kc XR} {A Ao : AMat XR} (hA : K.Amatrix = some A) (hAo : K.AmatrixOut = some Ao) (z : ℝ) (bs : XR) (c : List XR)
    (hc : c.length = K.templates.nsed) {a b k : NDA XR} (ha : K.reconstruct (some (.scalar (.fin z))) (some (.vec c)) (lit 0) = .ok a)
    (hb : K.reconstructOut (some (.scalar (.fin 0))) (some (.vec c)) bs = .ok b) (hk : K.kcorrect (some (.scalar (.fin z))) (some (.vec c)) bs = .ok k) :
    ∃ ra rb, a = .arr [] A.nrow [ra] ∧ b = .arr [] Ao.nrow [rb] ∧ k = .arr [] Ao.nrow [kRow K.imap id c ra rb] ∧
      kOne K.imap A Ao id bs (.fin z) c = .ok (kRow K.imap id c ra rb) := by
  unfold Fitter.reconstruct at ha
  unfold Kc.reconstructOut at hb
  rw [hA, recon_scalar _ _ _ _ _ hc] at ha
  rw [hAo, recon_scalar _ _ _ _ _ hc] at hb
  rw [kcorrect_scalar hA hAo _ _ hc] at hk
  rw [map_f32_xr] at ha hb hk
  simp only [XR.f32_x] at ha hb hk
  have e0 : (lit 0 * XR.fin z : XR) = .fin 0 := by rw [XR.lit_x, XR.mul_ff]; simp
  cases hM : A.at (shiftOf (XR.fin z) (lit 0)) with
  | error e => rw [hM] at ha; cases ha
  | ok M =>
    cases hMo : Ao.at (shiftOf (XR.fin 0) bs) with
    | error e => rw [hMo] at hb; cases hb
    | ok Mo =>
      rw [hM] at ha
      rw [hMo] at hb
      have h1 : kOne K.imap A Ao id bs (.fin z) c = .ok (kRow K.imap id c (reconRow (lit 0) M c) (reconRow bs Mo c)) := by
        unfold kOne
        simp only [map_f32_xr, XR.f32_x, e0, hM, hMo]
        rfl
      rw [h1] at hk
      cases ha; cases hb; cases hk
      exact ⟨_, _, rfl, rfl, rfl, h1⟩

theorem kRow_band (imap : List Nat) (c : List ℝ) (ra rb : List XR) {j i : Nat} {x y : ℝ} (hj : imap[j]? = some i) (hx : ra[i]? = some (.fin x))
    (hy : rb[j]? = some (.fin y)) (h1 : 0 ≤ x) (h2 : 0 ≤ y) : ∃ v, (kRow imap id (c.map .fin) ra rb)[j]? = some v ∧ KBand c.sum x y v := by
  have hs : gtb (sumL (c.map XR.fin)) (lit 0) = decide (0 < c.sum) := by rw [sumL_fin, XR.lit_x, XR.gtb_ff]; simp
  unfold kRow
  by_cases h : 0 < c.sum
  · rw [hs, if_pos (by simpa using h), List.getElem?_zipWith, gather_getX ra imap hj hx, hy]
    exact ⟨_, rfl, fun h' => absurd h (not_lt.mpr h'), fun _ => kvalue h1 h2⟩
  · rw [hs, if_neg (by simpa using h)]
    have hl : j < rb.length := (List.getElem?_eq_some_iff.mp hy).1
    refine ⟨.fin 0, ?_, fun _ => rfl, fun h' => absurd h' h⟩
    simp [zeros, hl]

/-- C147, `kcorrect`: what is returned in a band from the fluxes `reconstruct` and `reconstruct_out` give for it.  It is a number exactly if
the coefficients sum to zero or less or both fluxes are positive. -/
theorem C147_kcorrect_partial (K : Kc XR) (A Ao : AMat XR) (hA : K.Amatrix = some A) (hAo : K.AmatrixOut = some Ao) (z : ℝ) (bs : XR) (c : List ℝ)
    (hc : c.length = K.templates.nsed) (a b k : NDA XR)
    (ha : K.reconstruct (some (.scalar (.fin z))) (some (.vec (c.map .fin))) (lit 0) = .ok a)
    (hb : K.reconstructOut (some (.scalar (.fin 0))) (some (.vec (c.map .fin))) bs = .ok b)
    (hk : K.kcorrect (some (.scalar (.fin z))) (some (.vec (c.map .fin))) bs = .ok k) (j i : Nat) (x y : ℝ) (hj : K.imap[j]? = some i)
    (hx : entry a 0 i = some (.fin x)) (hy : entry b 0 j = some (.fin y)) (h1 : 0 ≤ x) (h2 : 0 ≤ y) :
    ∃ v, entry k 0 j = some v ∧ KBand c.sum x y v ∧ (v.Finite ↔ c.sum ≤ 0 ∨ 0 < x ∧ 0 < y) := by
  obtain ⟨ra, rb, rfl, rfl, rfl, -⟩ := kcorrect_xr hA hAo z bs _ (by simpa using hc) ha hb hk
  simp only [entry, List.getElem?_cons_zero, Option.bind_some] at hx hy ⊢
  obtain ⟨v, hv, hB⟩ := kRow_band K.imap c ra rb hj hx hy h1 h2
  refine ⟨v, hv, hB, ?_⟩
  rcases le_or_gt c.sum 0 with hs | hs
  · exact ⟨fun _ => Or.inl hs, fun _ => ⟨0, hB.1 hs⟩⟩
  · obtain ⟨b1, b2, b3, b4⟩ := hB.2 hs
    constructor
    · rintro ⟨r, hr⟩
      right
      rcases h1.eq_or_lt with e1 | e1
      · rcases h2.eq_or_lt with e2 | e2
        · rw [b4 e1.symm e2.symm] at hr; cases hr
        · rw [b2 e1.symm e2] at hr; cases hr
      · rcases h2.eq_or_lt with e2 | e2
        · rw [b3 e1 e2.symm] at hr; cases hr
        · exact ⟨e1, e2⟩
    · rintro (h | ⟨e1, e2⟩)
      · exact absurd hs (not_lt.mpr h)
      · exact ⟨_, b1 e1 e2⟩

theorem zeros_get {b : List XR} {j : Nat} {v : XR} (h : b[j]? = some v) : (zeros b.length : List XR)[j]? = some (.fin 0) := by
  have hl : j < b.length := (List.getElem?_eq_some_iff.mp h).1
  simp [zeros, hl]

/-- C147 fails for NaN: with a NaN coefficient the K-correction is 0.0 in every band, as for an object without coefficients. -/
theorem C147_false_nan (K : Kc XR) (A Ao : AMat XR) (hA : K.Amatrix = some A) (hAo : K.AmatrixOut = some Ao) (z : ℝ) (bs : XR) (c : List XR)
    (hc : c.length = K.templates.nsed) (hnan : XR.nan ∈ c) (a b k : NDA XR)
    (ha : K.reconstruct (some (.scalar (.fin z))) (some (.vec c)) (lit 0) = .ok a)
    (hb : K.reconstructOut (some (.scalar (.fin 0))) (some (.vec c)) bs = .ok b)
    (hk : K.kcorrect (some (.scalar (.fin z))) (some (.vec c)) bs = .ok k) (j : Nat) (v : XR) (hv : entry b 0 j = some v) :
    entry k 0 j = some (.fin 0) := by
  obtain ⟨ra, rb, rfl, rfl, rfl, -⟩ := kcorrect_xr hA hAo z bs _ hc ha hb hk
  simp only [entry, List.getElem?_cons_zero, Option.bind_some] at hv ⊢
  unfold kRow
  rw [sumL_nan hnan, if_neg (by simp)]
  exact zeros_get hv

/-- The absolute magnitude in a band from flux, inverse variance, distance modulus and K-correction. -/
def ABand (m iv d : ℝ) (k a : XR) : Prop :=
  (m ≤ 0 ∨ iv ≤ 0 → a = .fin (-9999)) ∧
  (0 < m → 0 < iv → (∀ r, k = .fin r → a = .fin (mag m - d - r)) ∧ (k = .pinf → a = .ninf) ∧ (k = .ninf → a = .pinf) ∧ (k = .nan → a = .nan))

theorem absEntry_band (m iv d : ℝ) (k : XR) : ABand m iv d k (absEntry (.fin d) k (.fin m) (.fin iv)) := by
  have l0 : ∀ x : ℝ, leb (XR.fin x) (lit 0) = decide (x ≤ 0) := fun x => by rw [XR.lit_x, XR.leb_ff]; simp
  have g0 : ∀ x : ℝ, gtb (XR.fin x) (lit 0) = decide (0 < x) := fun x => by rw [XR.lit_x, XR.gtb_ff]; simp
  unfold absEntry
  rw [l0, l0, g0, g0]
  constructor
  · intro h
    rw [if_pos (by simpa using h), XR.lit_x]; norm_num
  · intro h1 h2
    rw [if_neg (by simp [h1, h2]), if_pos (by simp [h1, h2]), magOf_fin_pos h1]
    simp only [XR.f32_x, XR.sub_ff]
    refine ⟨?_, ?_, ?_, ?_⟩
    · rintro r rfl; rw [XR.sub_ff]
    · rintro rfl; rfl
    · rintro rfl; rfl
    · rintro rfl; rfl

/-- C147, `absmag`: in a band with positive flux and inverse variance it is magnitude minus distance modulus minus K-correction, so infinite or
NaN exactly where the K-correction is; in the other bands -9999. -/
theorem C147_absmag_partial (K : Kc XR) (hF : NoAb K.toFitter) (A Ao : AMat XR) (hA : K.Amatrix = some A) (hAo : K.AmatrixOut = some Ao) (z : ℝ) (bs : XR)
    (m iv c : List XR) (hm : m.length = K.responses.length) (hiv : iv.length = K.responses.length) (hc : c.length = K.templates.nsed) (d : ℝ)
    (hd : K.distmod (.fin z) = .fin d) (k : NDA XR) (ret : Ret XR)
    (hk : K.kcorrect (some (.scalar (.fin z))) (some (.vec c)) bs = .ok k)
    (hr : K.absmag (some (.vec m)) (some (.vec iv)) (some (.scalar (.fin z))) (some (.vec c)) bs none false false false = .ok ret) :
    ∃ a, ret = .one a ∧ a.shape = k.shape ∧ ∀ (j i : Nat) mv v kv, K.imap[j]? = some i → m[i]? = some (.fin mv) → iv[i]? = some (.fin v) → entry k 0 j = some kv →
      ∃ av, entry a 0 j = some av ∧ ABand mv v d kv av := by
  have e := absmag_scalar hF hA hAo (.fin z) m iv c hm hiv hc bs none false false false
  rw [kcorrect_scalar hA hAo _ _ hc] at hk
  simp only [Option.map_none] at e
  rw [e] at hr
  simp only [map_f32_xr, XR.f32_x] at hr hk
  unfold absOne at hr
  simp only [map_f32_xr, XR.f32_x] at hr
  cases hK : kOne K.imap A Ao id bs (.fin z) c with
  | error e => rw [hK] at hk; cases hk
  | ok kr =>
    rw [hK] at hk hr
    cases hk
    cases hr
    refine ⟨_, rfl, rfl, ?_⟩
    intro j i mv v kv hj hmv hv hkv
    simp only [entry, List.getElem?_cons_zero, Option.bind_some] at hkv ⊢
    refine ⟨_, zip3_get _ _ _ _ hkv (gather_getX m K.imap hj hmv) (gather_getX iv K.imap hj hv), ?_⟩
    have : dm1 K (XR.fin z) none = .fin d := hd
    rw [this]
    exact absEntry_band mv v d kv

/-! ### Objects whose matrices are numbers -/

theorem dot_fin (a b : List ℝ) : dot (a.map XR.fin) (b.map .fin) = .fin (dot a b) := by
  unfold dot
  rw [List.zipWith_map]
  have : List.zipWith (fun x y => XR.fin x * XR.fin y) a b = (List.zipWith (fun x y => x * y) a b).map .fin := by
    rw [List.map_zipWith]; rfl
  rw [this, sumL_fin, sumL_real]

theorem reconRow_fin {bs : ℝ} (h : 1 + bs ≠ 0) (M : List (List ℝ)) (c : List ℝ) :
    reconRow (XR.fin bs) (M.map (List.map .fin)) (c.map .fin) = (reconRow bs M c).map .fin := by
  unfold reconRow
  rw [List.map_map, List.map_map]
  apply List.map_congr_left
  intro row _
  simp only [Function.comp, dot_fin]
  have e : (lit 1 + XR.fin bs : XR) = .fin (1 + bs) := by rw [XR.lit_x, XR.add_ff]; simp
  rw [e, XR.div_ff_of_ne h]
  show XR.fin _ = XR.fin _
  simp

theorem shiftOf_fin (z bs : ℝ) : shiftOf (XR.fin z) (.fin bs) = .fin ((1 + z) * (1 + bs) - 1) := by
  unfold shiftOf
  rw [XR.lit_x, XR.add_ff, XR.add_ff, XR.mul_ff, XR.sub_ff]
  simp

theorem at_fin_ok {A : AMat ℝ} (hg : A.Good) {q : ℝ} {M : List (List ℝ)} (h : A.at q = .ok M) : A.toXR.at (.fin q) = .ok (M.map (List.map .fin)) := by
  obtain ⟨M', h1, h2⟩ := at_fin_in hg ((at_ok_iff hg.ne).mp ⟨M, h⟩)
  rw [h] at h1
  cases h1
  exact h2

theorem kOne_fin (imap : List Nat) {A Ao : AMat ℝ} (hg : A.Good) (ho : Ao.Good) {z bs : ℝ} (hb : 1 + bs ≠ 0) {M Mo : List (List ℝ)}
    (hM : A.at z = .ok M) (hMo : Ao.at bs = .ok Mo) (c : List ℝ) :
    kOne imap A.toXR Ao.toXR id (.fin bs) (.fin z) (c.map .fin) =
      .ok (kRow imap id (c.map .fin) ((reconRow 0 M c).map .fin) ((reconRow bs Mo c).map .fin)) := by
  have l0 : (lit 0 : XR) = .fin 0 := by rw [XR.lit_x]; simp
  unfold kOne
  simp only [map_f32_xr, XR.f32_x, l0, XR.mul_ff, shiftOf_fin]
  rw [show (1 + z) * (1 + 0) - 1 = z by ring, show (1 + 0 * z) * (1 + bs) - 1 = bs by ring, at_fin_ok hg hM, at_fin_ok ho hMo, ok_bind, ok_bind,
    reconRow_fin hb, reconRow_fin (by norm_num)]
  rfl

/-- Three bands and one template: the first band has model flux at rest but none at redshift 1, the second the other way round, the third none. -/
noncomputable def dropA : AMat ℝ := ⟨[0, 1], [[[1], [0], [0]], [[0], [2], [0]]], 3, 1⟩

theorem dropA_good : dropA.Good :=
  ⟨by simp [dropA], by simp [dropA], rfl, by simp [dropA, Shaped]⟩

noncomputable def dropKc : Kc XR :=
  ⟨{ Fitter.mk' .base [['x'], ['y'], ['z']] (.sed ⟨[], [[]], [], [[]], .fin 0, false, none, false⟩) (.fin 0) (.fin 1) 2 false with
      Amatrix := some dropA.toXR }, [['x'], ['y'], ['z']], [['x'], ['y'], ['z']], some dropA.toXR, [0, 1, 2], fun z => z⟩

/-- C147 is false: positive coefficients, positive fluxes and inverse variances, and the K-corrections are +inf, -inf and NaN; `absmag` returns
-inf, +inf and NaN for these bands, not the -9999 of its documentation. -/
theorem C147_false :
    dropKc.kcorrect (some (.scalar (.fin 1))) (some (.vec [.fin 1])) (.fin 0) = .ok (.arr [] 3 [[.pinf, .ninf, .nan]]) ∧
    dropKc.absmag (some (.vec [.fin 1, .fin 1, .fin 1])) (some (.vec [.fin 1, .fin 1, .fin 1])) (some (.scalar (.fin 1))) (some (.vec [.fin 1])) (.fin 0)
      none false false false = .ok (.one (.arr [] 3 [[.ninf, .pinf, .nan]])) := by
  have a0 : dropA.at 0 = .ok [[1], [0], [0]] := at_node dropA_good (k := 0) (by simp [dropA])
  have a1 : dropA.at 1 = .ok [[0], [2], [0]] := at_node dropA_good (k := 1) (by simp [dropA])
  have hk := kOne_fin [0, 1, 2] dropA_good dropA_good (z := 1) (bs := 0) (by norm_num) a1 a0 [1]
  have r1 : reconRow (0 : ℝ) [[0], [2], [0]] [1] = [0, 2, 0] := by simp [reconRow, dot, sumL_real]
  have r0 : reconRow (0 : ℝ) [[1], [0], [0]] [1] = [1, 0, 0] := by simp [reconRow, dot, sumL_real]
  rw [r1, r0] at hk
  have hrow : kRow [0, 1, 2] id ([1].map XR.fin) ([0, 2, 0].map .fin) ([1, 0, 0].map .fin) = [.pinf, .ninf, .nan] := by
    unfold kRow
    have hs : gtb (sumL (([1] : List ℝ).map XR.fin)) (lit 0) = true := by rw [sumL_fin, XR.lit_x, XR.gtb_ff]; simp
    rw [if_pos hs]
    show [magOf (XR.fin 0 / .fin 1), magOf (XR.fin 2 / .fin 0), magOf (XR.fin 0 / .fin 0)] = _
    rw [(kvalue le_rfl zero_le_one).2.1 rfl one_pos, (kvalue (x := 2) (by norm_num) le_rfl).2.2.1 (by norm_num) rfl, (kvalue le_rfl le_rfl).2.2.2 rfl rfl]
  rw [hrow] at hk
  have hkc : dropKc.kcorrect (some (.scalar (.fin 1))) (some (.vec [.fin 1])) (.fin 0) = .ok (.arr [] 3 [[.pinf, .ninf, .nan]]) := by
    rw [kcorrect_scalar (K := dropKc) (A := dropA.toXR) (Ao := dropA.toXR) rfl rfl (.fin 1) [.fin 1] rfl (.fin 0)]
    exact (congrArg (Except.map _) hk).trans rfl
  refine ⟨hkc, ?_⟩
  have e := absmag_scalar (K := dropKc) (Or.inl rfl) (A := dropA.toXR) (Ao := dropA.toXR) rfl rfl (.fin 1) [.fin 1, .fin 1, .fin 1] [.fin 1, .fin 1, .fin 1] [.fin 1]
    rfl rfl rfl (.fin 0) none false false false
  refine e.trans ?_
  unfold absOne
  simp only [map_f32_xr, XR.f32_x]
  have hk' : kOne dropKc.imap dropA.toXR dropA.toXR id (.fin 0) (.fin 1) [.fin 1] = .ok [.pinf, .ninf, .nan] := hk
  rw [hk']
  have hb : ∀ k, ABand 1 1 1 k (absEntry (.fin 1) k (.fin 1) (.fin 1)) := fun k => absEntry_band 1 1 1 k
  have b1 := ((hb .pinf).2 one_pos one_pos).2.1 rfl
  have b2 := ((hb .ninf).2 one_pos one_pos).2.2.1 rfl
  have b3 := ((hb .nan).2 one_pos one_pos).2.2.2 rfl
  show Except.ok (Ret.one (NDA.arr [] 3 [[absEntry (XR.fin 1) XR.pinf (XR.fin 1) (XR.fin 1), absEntry (XR.fin 1) XR.ninf (XR.fin 1) (XR.fin 1),
    absEntry (XR.fin 1) XR.nan (XR.fin 1) (XR.fin 1)]])) = _
  rw [b1, b2, b3]

/-! ### Examples -/

/-- The hypotheses of `C147_kcorrect_partial` and `C147_absmag_partial` are met by this object: its reconstructions return numbers. -/
example : ∃ a b k, dropKc.reconstruct (some (.scalar (.fin 1))) (some (.vec ([3].map .fin))) (lit 0) = .ok a ∧
    dropKc.reconstructOut (some (.scalar (.fin 0))) (some (.vec ([3].map .fin))) (.fin 0) = .ok b ∧
    dropKc.kcorrect (some (.scalar (.fin 1))) (some (.vec ([3].map .fin))) (.fin 0) = .ok k ∧ entry a 0 1 = some (.fin 6) ∧ entry b 0 1 = some (.fin 0) := by
  have a0 : dropA.at 0 = .ok [[1], [0], [0]] := at_node dropA_good (k := 0) (by simp [dropA])
  have a1 : dropA.at 1 = .ok [[0], [2], [0]] := at_node dropA_good (k := 1) (by simp [dropA])
  have l0 : (lit 0 : XR) = .fin 0 := by rw [XR.lit_x]; simp
  have r1 : reconRow (0 : ℝ) [[0], [2], [0]] [3] = [0, 6, 0] := by norm_num [reconRow, dot, sumL_real]
  have r0 : reconRow (0 : ℝ) [[1], [0], [0]] [3] = [3, 0, 0] := by norm_num [reconRow, dot, sumL_real]
  have e1 : dropKc.reconstruct (some (.scalar (.fin 1))) (some (.vec ([3].map .fin))) (lit 0) = .ok (.arr [] 3 [[.fin 0, .fin 6, .fin 0]]) := by
    show reconstructWith dropKc.toFitter (some dropA.toXR) _ _ _ = _
    rw [recon_scalar _ _ _ _ _ rfl, map_f32_xr, XR.f32_x, l0, shiftOf_fin, show ((1 : ℝ) + 1) * (1 + 0) - 1 = 1 by norm_num, at_fin_ok dropA_good a1]
    show Except.ok (NDA.arr [] 3 [reconRow _ _ _]) = _
    rw [reconRow_fin (by norm_num), r1]; rfl
  have e2 : dropKc.reconstructOut (some (.scalar (.fin 0))) (some (.vec ([3].map .fin))) (.fin 0) = .ok (.arr [] 3 [[.fin 3, .fin 0, .fin 0]]) := by
    show reconstructWith dropKc.toFitter (some dropA.toXR) _ _ _ = _
    rw [recon_scalar _ _ _ _ _ rfl, map_f32_xr, XR.f32_x, shiftOf_fin, show ((1 : ℝ) + 0) * (1 + 0) - 1 = 0 by norm_num, at_fin_ok dropA_good a0]
    show Except.ok (NDA.arr [] 3 [reconRow _ _ _]) = _
    rw [reconRow_fin (by norm_num), r0]; rfl
  have e3 : ∃ k, dropKc.kcorrect (some (.scalar (.fin 1))) (some (.vec ([3].map .fin))) (.fin 0) = .ok k := by
    rw [kcorrect_scalar (K := dropKc) (A := dropA.toXR) (Ao := dropA.toXR) rfl rfl (.fin 1) ([3].map .fin) rfl (.fin 0), map_f32_xr, XR.f32_x,
      kOne_fin _ dropA_good dropA_good (by norm_num) a1 a0]
    exact ⟨_, rfl⟩
  obtain ⟨k, hk⟩ := e3
  exact ⟨_, _, k, e1, e2, hk, rfl, rfl⟩

end KC
