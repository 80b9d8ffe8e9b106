import Verif.Props.NoFlux
import Verif.Props.Derived

/-!
# C151: derived quantities and absolute magnitudes as numbers, and at redshift zero
-/

namespace KC
open Spec

/-- An object over the extended reals whose templates `u` have the finite masses of `t` and whose output matrix is finite. -/
structure MassXR (K : Kc XR) (u : Tmpl XR) (t : Tmpl ℝ) (Ao : AMat ℝ) : Prop where
  tpl : K.templates = .template u
  mass : MassOK u K.templates.nsed
  out : K.AmatrixOut = some Ao.toXR
  good : Ao.Good
  intsfh : u.intsfh = t.intsfh.map .fin
  mremain : u.mremain = t.mremain.map .fin
  mets : u.mets = t.mets.map .fin
  m50 : u.m50 = t.m50.map .fin
  m300 : u.m300 = t.m300.map .fin
  m1000 : u.m1000 = t.m1000.map .fin

/-- finite solar magnitudes of the output bands as loaded -/
def SolarXR (K : Kc XR) (g : Reg XR) (ss : List ℝ) : Prop :=
  List.Forall₂ (fun n s => ∃ o, g n = some o ∧ o.solarMag = some (XR.fin s)) K.responsesOut ss

theorem solarXR_ok {K : Kc XR} {g : Reg XR} {ss : List ℝ} (h : SolarXR K g ss) : K.responsesOut.mapM (solMag g) = .ok (ss.map .fin) := by
  apply mapM_ok
  rw [List.forall₂_map_right_iff]
  refine h.imp ?_
  rintro n s ⟨o, h1, h2⟩
  simp only [solMag, h1, h2]

theorem pow10_ninf : pow10 (lit (2 / 5) * XR.ninf) = XR.fin 0 := by
  rw [XR.lit_x]
  show XR.growth _ _ (XR.infMul (-((2 / 5 : ℚ) : ℝ))) = _
  unfold XR.infMul
  rw [if_neg (by norm_num), if_pos (by norm_num)]
  rfl

theorem pow10_pinf_of (s : ℝ) : pow10 (lit (-2 / 5) * (XR.fin s + XR.ninf)) = XR.pinf := by
  rw [XR.lit_x]
  show XR.growth _ _ (XR.infMul (-((-2 / 5 : ℚ) : ℝ))) = _
  rw [XR.infMul_pos (by norm_num)]
  rfl

theorem pow10_fin (x : ℝ) : pow10 (XR.fin x) = XR.fin (10 ^ x) := rfl

theorem lum_fin (d : ℝ) : pow10 (lit (2 / 5) * XR.fin d) = XR.fin (lumFactor d) := by
  rw [XR.lit_x, XR.mul_ff, pow10_fin, lumFactor]
  congr 2; push_cast; norm_num

theorem sol_fin (s d : ℝ) : pow10 (lit (-2 / 5) * (XR.fin s + XR.fin d)) = XR.fin (lumFactor s * lumFactor d)⁻¹ := by
  rw [XR.lit_x, XR.add_ff, XR.mul_ff, pow10_fin, ← pow10_solar]
  rfl

theorem zip_mul_fin (a b : List ℝ) : List.zipWith (fun x y => x * y) (a.map XR.fin) (b.map .fin) = (List.zipWith (· * ·) a b).map .fin := by
  rw [List.zipWith_map, List.map_zipWith]; rfl

theorem gt_lit0 (x : ℝ) : gtb (XR.fin x) (lit 0) = decide (0 < x) := by rw [XR.lit_x, XR.gtb_ff]; simp

theorem lit0_xr : (lit 0 : XR) = .fin 0 := by rw [XR.lit_x]; simp

/-- What the numbers of one galaxy are, in the extended reals.  `f` are the fluxes at rest in the output bands. -/
structure ValsX (t : Tmpl ℝ) (d : ℝ) (ss f c : List ℝ) (v : Der1 XR) : Prop where
  mremain : v.mremain = .fin (total c t.mremain * lumFactor d)
  intsfh : v.intsfh = .fin (total c t.intsfh * lumFactor d)
  b50 : v.b50 = .fin (if 0 < total c t.mremain then total c t.m50 / total c t.intsfh else 0)
  b300 : v.b300 = .fin (if 0 < total c t.mremain then total c t.m300 / total c t.intsfh else 0)
  b1000 : v.b1000 = .fin (if 0 < total c t.mremain then total c t.m1000 / total c t.intsfh else 0)
  metallicity : v.metallicity = .fin (if 0 < total c t.mremain then total c (List.zipWith (· * ·) t.mremain t.mets) / total c t.mremain else 0)
  mtol : v.mtol.length = f.length ∧ ∀ (j : Nat) s x, ss[j]? = some s → f[j]? = some x →
    v.mtol[j]? = some (.fin (if 0 < x then total c t.mremain / (x * lumFactor s) else 0))

/-- everything zero -/
structure ZeroX (v : Der1 XR) : Prop where
  mremain : v.mremain = .fin 0
  intsfh : v.intsfh = .fin 0
  b50 : v.b50 = .fin 0
  b300 : v.b300 = .fin 0
  b1000 : v.b1000 = .fin 0
  metallicity : v.metallicity = .fin 0
  mtol : ∀ x ∈ v.mtol, x = .fin 0

section
variable {K : Kc XR} {u : Tmpl XR} {t : Tmpl ℝ} {Ao : AMat ℝ}

theorem derVals_fin (h : MassXR K u t Ao) (round unit : XR → XR) (hr : ∀ x, round x = x) (hu : ∀ x, unit (XR.fin x) = .fin x) {bs : ℝ} (hb : 1 + bs ≠ 0)
    (d : ℝ) (M : List (List ℝ)) (ss c : List ℝ) (hc : 0 < total c t.mremain → total c t.intsfh ≠ 0) :
    ValsX t d ss (reconRow bs M c) c (derVals u round unit (.fin bs) (.fin d) (M.map (List.map .fin)) (ss.map .fin) (c.map .fin)) := by
  have hL := lumFactor_pos d
  have hpos : ∀ x : ℝ, 0 < x * lumFactor d ↔ 0 < x := fun x => mul_pos_iff_of_pos_right hL
  have hw : ∀ a : List ℝ, dot (c.map XR.fin) (a.map .fin) * pow10 (lit (2 / 5) * XR.fin d) = .fin (total c a * lumFactor d) := by
    intro a
    rw [dot_fin, lum_fin, XR.mul_ff, dot_total]
  have hrat : ∀ a b : List ℝ, (0 < total c t.mremain → total c b ≠ 0) → ratio round (XR.fin (total c t.mremain * lumFactor d)) (.fin (total c a * lumFactor d))
      (.fin (total c b * lumFactor d)) = .fin (if 0 < total c t.mremain then total c a / total c b else 0) := by
    intro a b hne
    unfold ratio
    rw [gt_lit0]
    by_cases hp : 0 < total c t.mremain
    · rw [if_pos (by simpa using (hpos _).mpr hp), if_pos hp, hr, XR.div_ff_of_ne (mul_ne_zero (hne hp) hL.ne'), mul_div_mul_right _ _ hL.ne']
    · rw [if_neg (by simpa using fun h => hp ((hpos _).mp h)), if_neg hp, lit0_xr]
  simp only [derVals, h.intsfh, h.mremain, h.mets, h.m50, h.m300, h.m1000, zip_mul_fin, hw, hu]
  refine ⟨rfl, rfl, hrat _ _ hc, hrat _ _ hc, hrat _ _ hc, hrat _ _ (fun h => h.ne'), ?_⟩
  simp only [map_f32_xr, reconRow_fin hb, mtolRow]
  refine ⟨by simp, ?_⟩
  intro j s x hs hx
  simp only [List.getElem?_mapIdx, List.getElem?_map, hx, hs, Option.map_some]
  have hS := lumFactor_pos s
  have hk : 0 < lumFactor s * lumFactor d := mul_pos hS hL
  rw [sol_fin, XR.div_ff_of_ne (inv_ne_zero hk.ne'), div_inv_eq_mul, XR.f32_x]
  unfold mtolEntry
  rw [gt_lit0]
  have h1 : 0 < x * (lumFactor s * lumFactor d) ↔ 0 < x := mul_pos_iff_of_pos_right hk
  by_cases hx0 : 0 < x
  · rw [if_pos (by simpa using h1.mpr hx0), if_pos hx0, XR.f32_x, XR.div_ff_of_ne (mul_pos hx0 hk).ne', ← mul_assoc, mul_div_mul_right _ _ hL.ne']
  · rw [if_neg (by simpa using fun h => hx0 (h1.mp h)), if_neg hx0, lit0_xr]

theorem derVals_zero (h : MassXR K u t Ao) (round unit : XR → XR) {bs : ℝ} (hb : 1 + bs ≠ 0) (M : List (List ℝ)) (ss c : List ℝ)
    (hl : ss.length = M.length) :
    ZeroX (derVals u round unit (.fin bs) .ninf (M.map (List.map .fin)) (ss.map .fin) (c.map .fin)) := by
  have hw : ∀ a : List ℝ, dot (c.map XR.fin) (a.map .fin) * pow10 (lit (2 / 5) * XR.ninf) = .fin 0 := by
    intro a
    rw [dot_fin, pow10_ninf, XR.mul_ff, mul_zero]
  have hrat : ∀ x y, ratio round (XR.fin 0) x y = .fin 0 := by
    intro x y
    unfold ratio
    rw [gt_lit0, if_neg (by simp), lit0_xr]
  simp only [derVals, h.intsfh, h.mremain, h.mets, h.m50, h.m300, h.m1000, zip_mul_fin, hw, hrat]
  refine ⟨rfl, rfl, rfl, rfl, rfl, rfl, ?_⟩
  simp only [map_f32_xr, reconRow_fin hb, mtolRow]
  intro y hy
  obtain ⟨j, hj, rfl⟩ := List.mem_iff_getElem.mp hy
  have hj' : j < ss.length := by simpa [reconRow, hl] using hj
  simp only [List.getElem_mapIdx, List.getElem_map, List.getElem?_map, List.getElem?_eq_getElem hj', Option.map_some, pow10_pinf_of]
  show mtolEntry _ (XR.fin 0) = _
  unfold mtolEntry
  rw [gt_lit0, if_neg (by simp), lit0_xr]

theorem total_le {c a b : List ℝ} (hc : ∀ x ∈ c, 0 ≤ x) (h : List.Forall₂ (· ≤ ·) a b) : total c a ≤ total c b := by
  unfold total
  induction h generalizing c with
  | nil => simp
  | @cons x y a b hxy hab ih =>
    cases c with
    | nil => simp
    | cons k c =>
      simp only [List.zipWith_cons_cons, List.sum_cons]
      have h1 := mul_le_mul_of_nonneg_left hxy (hc k (by simp))
      have h2 := ih (c := c) (fun x hx => hc x (by simp [hx]))
      linarith

/-- one object of the batch, or the object alone -/
theorem derOne_xr (h : MassXR K u t Ao) {g : Reg XR} {ss : List ℝ} (hs : SolarXR K g ss) {bs : ℝ} {M : List (List ℝ)} (hM : Ao.at bs = .ok M)
    (round unit : XR → XR) (dm : XR) (c : List XR) :
    derOne K g u Ao.toXR round unit (.fin bs) dm c = .ok (derVals u round unit (.fin bs) dm (M.map (List.map .fin)) (ss.map .fin) c) := by
  unfold derOne
  rw [XR.f32_x, lit0_xr, shiftOf_fin, show (1 + 0) * (1 + bs) - 1 = bs by ring, at_fin_ok h.good hM, ok_bind, solarXR_ok hs, ok_bind]
  rfl

/-- C151 where it holds, one galaxy: nonnegative coefficients, templates whose remaining mass does not exceed the mass formed, a finite distance modulus
`d`: every quantity `derived` returns is a number, the ratios are those of the population. -/
theorem C151_derived_partial (h : MassXR K u t Ao) (ht : List.Forall₂ (· ≤ ·) t.mremain t.intsfh) (g : Reg XR) (ss : List ℝ) (hs : SolarXR K g ss)
    (bs : ℝ) (hb : 1 + bs ≠ 0) (M : List (List ℝ)) (hM : Ao.at bs = .ok M) (z : XR) (d : ℝ) (hd : K.distmod z = .fin d) (c : List ℝ)
    (hc : c.length = K.templates.nsed) (hc0 : ∀ x ∈ c, 0 ≤ x) :
    ∃ v, K.derived g (some (.scalar z)) (some (.vec (c.map .fin))) (.fin bs) none =
        .ok ⟨.scalar v.mremain, .scalar v.intsfh, .arr [] Ao.nrow [v.mtol], .scalar v.b50, .scalar v.b300, .scalar v.b1000, .scalar v.metallicity⟩ ∧
      ValsX t d ss (reconRow bs M c) c v := by
  rw [derived_scalar h.tpl h.mass h.out g z _ (by simpa using hc), XR.f32_x, hd, map_f32_xr, derOne_xr h hs hM]
  refine ⟨_, rfl, derVals_fin h id id (fun _ => rfl) (fun _ => rfl) hb d M ss c (fun hp => ?_)⟩
  have := total_le hc0 ht
  linarith

/-- C151 where it holds, a batch. -/
theorem C151_derived_batch_partial (h : MassXR K u t Ao) (ht : List.Forall₂ (· ≤ ·) t.mremain t.intsfh) (g : Reg XR) (ss : List ℝ) (hs : SolarXR K g ss)
    (hout : K.responses.length = K.responsesOut.length) (bs : ℝ) (hb : 1 + bs ≠ 0) (M : List (List ℝ)) (hM : Ao.at bs = .ok M) (zs : List XR)
    (cs : List (List ℝ)) (hcs : cs.length = zs.length) (hc0 : ∀ c ∈ cs, ∀ x ∈ c, 0 ≤ x) :
    ∃ vs : List (Der1 XR), vs.length = zs.length ∧ K.derived g (some (.vec zs)) (some (.arr [zs.length] K.templates.nsed (cs.map (List.map .fin)))) (.fin bs) none =
        .ok ⟨.vec (vs.map (·.mremain)), .vec (vs.map (·.intsfh)), .arr [zs.length] Ao.nrow (vs.map (·.mtol)), .vec (vs.map (·.b50)),
          .vec (vs.map (·.b300)), .vec (vs.map (·.b1000)), .vec (vs.map (·.metallicity))⟩ ∧
      ∀ (k : Nat) z d c v, zs[k]? = some z → K.distmod z = .fin d → cs[k]? = some c → vs[k]? = some v → ValsX t d ss (reconRow bs M c) c v := by
  refine ⟨List.zipWith (fun z c => derVals u f32 (fun x => x * lit 1) (.fin bs) (K.distmod z) (M.map (List.map .fin)) (ss.map .fin) (c.map .fin)) zs cs,
    by simp [hcs], ?_, ?_⟩
  · rw [derived_array h.tpl h.mass h.out g zs _ (by simpa using hcs)]
    refine ⟨hout, ⟨_, solarXR_ok hs⟩, _, ?_, rfl⟩
    rw [List.zip_map_right, List.forall₂_map_left_iff, ← List.map_uncurry_zip_eq_zipWith, List.forall₂_map_right_iff, List.forall₂_same]
    rintro ⟨z, c⟩ _
    simp only [Prod.map_apply, id, map_f32_xr, XR.f32_x, Function.uncurry_apply_pair]
    exact derOne_xr h hs hM _ _ _ _
  · intro k z d c v hz hd hc hv
    rw [List.getElem?_zipWith, hz, hc] at hv
    cases hv
    rw [hd]
    refine derVals_fin h _ _ (fun x => XR.f32_x x) (fun x => by rw [XR.lit_x, XR.mul_ff]; simp) hb d M ss c (fun hp => ?_)
    have := total_le (hc0 c (List.mem_of_getElem? hc)) ht
    linarith

/-- C151 is false at redshift 0, where the distance modulus is -inf: whatever the coefficients, `derived` returns zero metallicity, zero b50, b300 and
b1000 and zero mass-to-light ratios. -/
theorem C151_false_derived (h : MassXR K u t Ao) (g : Reg XR) (ss : List ℝ) (hs : SolarXR K g ss) (hn : Ao.nrow = K.responsesOut.length) (bs : ℝ)
    (hb : 1 + bs ≠ 0) (M : List (List ℝ)) (hM : Ao.at bs = .ok M) (z : XR) (hd : K.distmod z = .ninf) (c : List ℝ) (hc : c.length = K.templates.nsed) :
    ∃ v, K.derived g (some (.scalar z)) (some (.vec (c.map .fin))) (.fin bs) none =
        .ok ⟨.scalar v.mremain, .scalar v.intsfh, .arr [] Ao.nrow [v.mtol], .scalar v.b50, .scalar v.b300, .scalar v.b1000, .scalar v.metallicity⟩ ∧
      ZeroX v := by
  rw [derived_scalar h.tpl h.mass h.out g z _ (by simpa using hc), XR.f32_x, hd, map_f32_xr, derOne_xr h hs hM]
  exact ⟨_, rfl, derVals_zero h id id hb M ss c (by rw [← hs.length_eq, ← hn, (at_shaped h.good hM).1])⟩

/-- C151 is false for `absmag` too: at redshift 0 a positive flux with positive inverse variance gets the absolute magnitude +inf. -/
theorem C151_false_absmag (K : Kc XR) (hF : NoAb K.toFitter) (A Ao : AMat XR) (hA : K.Amatrix = some A) (hAo : K.AmatrixOut = some Ao) (z bs : XR)
    (hd : K.distmod z = .ninf)
    (m iv c : List XR) (hm : m.length = K.responses.length) (hiv : iv.length = K.responses.length) (hc : c.length = K.templates.nsed) (k : NDA XR)
    (hk : K.kcorrect (some (.scalar z)) (some (.vec c)) bs = .ok k) :
    ∃ a, K.absmag (some (.vec m)) (some (.vec iv)) (some (.scalar z)) (some (.vec c)) bs none false false false = .ok (.one a) ∧ a.shape = k.shape ∧
      ∀ (j i : Nat) mv v kv, K.imap[j]? = some i → m[i]? = some (.fin mv) → iv[i]? = some (.fin v) → 0 < mv → 0 < v → entry k 0 j = some (.fin kv) →
        entry a 0 j = some .pinf := by
  have e := absmag_scalar hF hA hAo z m iv c hm hiv hc bs none false false false
  rw [kcorrect_scalar hA hAo _ _ hc] at hk
  simp only [Option.map_none] at e
  rw [e]
  simp only [map_f32_xr, XR.f32_x] at hk ⊢
  unfold absOne
  simp only [map_f32_xr, XR.f32_x]
  cases hK : kOne K.imap A Ao id bs z c with
  | error e => rw [hK] at hk; cases hk
  | ok kr =>
    rw [hK] at hk
    cases hk
    refine ⟨_, rfl, rfl, ?_⟩
    intro j i mv v kv hj hmv hv h1 h2 hkv
    simp only [entry, List.getElem?_cons_zero, Option.bind_some] at hkv ⊢
    rw [zip3_get _ _ _ _ hkv (gather_getX m K.imap hj hmv) (gather_getX iv K.imap hj hv)]
    have : dm1 K z none = .ninf := hd
    rw [this]
    unfold absEntry
    have l0 : ∀ x : ℝ, leb (XR.fin x) (lit 0) = decide (x ≤ 0) := fun x => by rw [XR.lit_x, XR.leb_ff]; simp
    rw [l0, l0, gt_lit0, gt_lit0, if_neg (by simp [h1, h2]), if_pos (by simp [h1, h2]), magOf_fin_pos h1]
    rfl

end

/-! ### Not vacuous -/

noncomputable def demoTmplX : Tmpl XR :=
  ⟨⟨[], [[], []], [], [[], []], .fin 0, false, none, false⟩, [2, 4].map .fin, [1, 3].map .fin, [1 / 50, 1 / 100].map .fin, [1, 1].map .fin, [1, 2].map .fin, [0, 1].map .fin⟩

/-- the object of `demoMass`; at redshift 0 the distance modulus is -inf, elsewhere that of 1 Mpc -/
noncomputable def demoMassX : Kc XR :=
  ⟨{ Fitter.mk' .base [['x']] (.template demoTmplX) (.fin 0) (.fin 3) 3 false with Amatrix := some demoAm.toXR }, [['y']], [['x']], some demoAm.toXR, [0],
    fun z => match z with | .fin r => (if r = 0 then .ninf else .fin (distanceModulus 1)) | _ => .nan⟩

theorem demoMassX_ok : MassXR demoMassX demoTmplX demoTmpl demoAm := ⟨rfl, ⟨rfl, rfl, rfl, rfl, rfl, rfl⟩, rfl, demoAm_good, rfl, rfl, rfl, rfl, rfl, rfl⟩

noncomputable def demoRegX : Reg XR := fun n => if n = ['y'] then some ⟨none, none, none, none, some (.fin 4), none, none⟩ else none

theorem demoSolarX : SolarXR demoMassX demoRegX [4] := .cons ⟨⟨none, none, none, none, some (.fin 4), none, none⟩, by simp [demoRegX], rfl⟩ .nil

/-- the metallicity of the same population at redshift 1 and at redshift 0 -/
example : (∃ D, demoMassX.derived demoRegX (some (.scalar (.fin 1))) (some (.vec [.fin 2, .fin 1])) (.fin 0) none = .ok D ∧
      D.metallicity = .scalar (.fin (7 / 500))) ∧
    ∃ D, demoMassX.derived demoRegX (some (.scalar (.fin 0))) (some (.vec [.fin 2, .fin 1])) (.fin 0) none = .ok D ∧ D.metallicity = .scalar (.fin 0) := by
  constructor
  · obtain ⟨v, h1, h2⟩ := C151_derived_partial demoMassX_ok (by norm_num [demoTmpl]) demoRegX [4] demoSolarX 0 (by norm_num) _ demoAm_at0 (.fin 1) (distanceModulus 1)
      (by simp [demoMassX]) [2, 1] rfl (by simp)
    refine ⟨_, h1, ?_⟩
    show NDA.scalar v.metallicity = _
    rw [h2.metallicity]
    norm_num [total, demoTmpl]
  · obtain ⟨v, h1, h2⟩ := C151_false_derived demoMassX_ok demoRegX [4] demoSolarX rfl 0 (by norm_num) _ demoAm_at0 (.fin 0) (by simp [demoMassX]) [2, 1] rfl
    refine ⟨_, h1, ?_⟩
    show NDA.scalar v.metallicity = _
    rw [h2.metallicity]

/-- a batch of two galaxies -/
example : demoMassX.responses.length = demoMassX.responsesOut.length ∧ demoMassX.distmod (.fin 1) = .fin (distanceModulus 1) :=
  ⟨rfl, by simp [demoMassX]⟩

/-- a K-correction at redshift 0 -/
example : ∃ k, demoMassX.kcorrect (some (.scalar (.fin 0))) (some (.vec [.fin 2, .fin 1])) (.fin 0) = .ok k := by
  have hk := kOne_fin [0] demoAm_good demoAm_good (z := 0) (bs := 0) (by norm_num) demoAm_at0 demoAm_at0 [2, 1]
  rw [kcorrect_scalar (K := demoMassX) (A := demoAm.toXR) (Ao := demoAm.toXR) rfl rfl (.fin 0) [.fin 2, .fin 1] rfl (.fin 0)]
  exact ⟨_, (congrArg (Except.map _) hk).trans rfl⟩

end KC
