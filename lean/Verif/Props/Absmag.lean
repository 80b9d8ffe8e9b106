import Verif.Lemmas.Absmag
import Verif.Props.Kcorrect

/-!
# Absolute magnitudes (C70–C74, C94, and C46 for `absmag`)
-/

namespace KC
open Spec

/-! ### Any arithmetic -/

section generic
variable {α : Type} [Arith α]

theorem absmag_array {K : Kc α} (hF : NoAb K.toFitter) {A Ao : AMat α} (hA : K.Amatrix = some A) (hAo : K.AmatrixOut = some Ao)
    (zs : List α) (ms ivs cs : List (List α)) (hm : ms.length = zs.length) (hiv : ivs.length = zs.length) (hcs : cs.length = zs.length)
    (bs : α) (dist : Option (List α)) (hd : ∀ ds ∈ dist, ds.length = zs.length) (r l kk : Bool) (ret : Ret α) :
    K.absmag (some (.arr [zs.length] K.responses.length ms)) (some (.arr [zs.length] K.responses.length ivs)) (some (.vec zs))
      (some (.arr [zs.length] K.templates.nsed cs)) bs (dist.map .vec) r l kk = .ok ret ↔
      ∃ rowss, List.Forall₂ (fun p rows => absOne K.imap A Ao f32 r l kk bs (p.1 * lit 1) p.2.1 p.2.2.1 p.2.2.2.1 p.2.2.2.2 = .ok rows)
        (objs (dms K (zs.map f32) dist) (zs.map f32) (ms.map (List.map f32)) (ivs.map (List.map f32)) (cs.map (List.map f32))) rowss ∧
        ret = mkRet ((List.range (absCount r l kk)).map (fun t => .arr [zs.length] Ao.nrow (rowss.map (fun rows => rows.getD t [])))) := by
  unfold Kc.absmag
  rw [processInputs_array hF zs (some (.arr [zs.length] K.responses.length ms)) (some (.arr [zs.length] K.responses.length ivs))
    (some (.arr [zs.length] K.templates.nsed cs)) (by intro a ha; cases ha; rfl) (by intro a ha; cases ha; rfl)
    (by intro a ha; cases ha; rfl), ok_bind]
  simp only [Option.map_some, rowsF_mat]
  have := absI_array hA hAo (zs.map f32) (ms.map (List.map f32)) (ivs.map (List.map f32)) (cs.map (List.map f32))
    (by simpa using hm) (by simpa using hiv) (by simpa using hcs) bs dist (by simpa using hd) r l kk ret
  simp only [List.length_map] at this
  exact this

/-- The documented return value for the three flags (reconstruct, limit, kcorrect). -/
def documented {β : Type} : Bool → Bool → Bool → NDA β → NDA β → NDA β → NDA β → Ret β
  | false, false, false, a, _, _, _ => .one a
  | true, false, false, a, rc, _, _ => .tuple [a, rc]
  | false, true, false, a, _, lm, _ => .tuple [a, lm]
  | false, false, true, a, _, _, k => .tuple [a, k]
  | true, true, false, a, rc, lm, _ => .tuple [a, rc, lm]
  | true, false, true, a, rc, _, k => .tuple [a, rc, k]
  | false, true, true, a, _, lm, k => .tuple [a, lm, k]
  | true, true, true, a, rc, lm, k => .tuple [a, rc, lm, k]

/-- C74: the results come in the documented order.  `a`, `rc`, `lm`, `k` are what the call returns, after the absolute
magnitudes, when only one of the flags is set. -/
theorem C74_order (K : Kc α) (maggies ivar redshift coeffs : Option (NDA α)) (bs : α) (distance : Option (NDA α)) (r l kk : Bool)
    (ret : Ret α) (h : K.absmag maggies ivar redshift coeffs bs distance r l kk = .ok ret) :
    ∃ a rc lm k, K.absmag maggies ivar redshift coeffs bs distance false false false = .ok (.one a) ∧
      (r = true → K.absmag maggies ivar redshift coeffs bs distance true false false = .ok (.tuple [a, rc])) ∧
      (l = true → K.absmag maggies ivar redshift coeffs bs distance false true false = .ok (.tuple [a, lm])) ∧
      (kk = true → K.absmag maggies ivar redshift coeffs bs distance false false true = .ok (.tuple [a, k])) ∧
      ret = documented r l kk a rc lm k := by
  unfold Kc.absmag at h ⊢
  cases hp : processInputs K.toFitter redshift maggies ivar coeffs with
  | error e => rw [hp] at h; cases h
  | ok i =>
    rw [hp, ok_bind] at h
    simp only [ok_bind]
    unfold Kc.absmagI at h ⊢
    cases hd : K.dmOf i distance with
    | error e => rw [hd] at h; cases h
    | ok dm =>
      rw [hd, ok_bind] at h
      simp only [ok_bind] at h ⊢
      cases hk : K.kcorrect (some i.zArr) (i.coeffs.map (i.tbl K.templates.nsed)) bs with
      | error e => rw [hk] at h; cases h
      | ok k =>
        rw [hk, ok_bind] at h
        simp only [ok_bind]
        cases hm : i.maggies with
        | none => rw [hm] at h; cases h
        | some ms =>
          cases hi : i.ivar with
          | none => rw [hm, hi] at h; cases h
          | some ivs =>
            rw [hm, hi] at h
            cases ho : K.reconstructOut (some i.zArr) (i.coeffs.map (i.tbl K.templates.nsed)) bs with
            | ok o =>
              rw [ho] at h
              refine ⟨_, _, _, k, rfl, fun _ => rfl, fun _ => rfl, fun _ => rfl, ?_⟩
              cases r <;> cases l <;> cases kk <;> cases h <;> rfl
            | error e =>
              rw [ho] at h
              cases r with
              | true => cases h
              | false =>
                refine ⟨_, k, _, k, rfl, fun h => (by cases h), fun _ => rfl, fun _ => rfl, ?_⟩
                cases l <;> cases kk <;> cases h <;> rfl

end generic

/-! ### Over the reals -/

/-- Distance modulus of a luminosity distance in Mpc. -/
noncomputable def distanceModulus (d : ℝ) : ℝ := 5 * Real.logb 10 (d * 10 ^ 6 / 10)

/-- Distance modulus used: from the cosmology, or from the distance if one is given. -/
noncomputable def dmSpec (distmod : ℝ → ℝ) (z : ℝ) : Option ℝ → ℝ
  | none => distmod z
  | some d => distanceModulus d

theorem dm1_real (K : Kc ℝ) (z : ℝ) (dist : Option ℝ) (hd : ∀ d ∈ dist, 0 < d) : dm1 K z dist = dmSpec K.distmod z dist := by
  cases dist with
  | none => rfl
  | some d =>
    have h0 : 0 < d := hd d (by simp)
    simp only [dm1, dmSpec, distanceModulus, dfactorOf, real_f32, real_lit]
    have e : d / ((1 / 100000 : ℚ) : ℝ) = d * 10 ^ 6 / 10 := by push_cast; ring
    rw [e]
    have hp : 0 < d * 10 ^ 6 / 10 := by positivity
    show ((5 / 2 : ℚ) : ℝ) * Real.logb 10 (d * 10 ^ 6 / 10 * (d * 10 ^ 6 / 10)) = _
    rw [Real.logb_mul hp.ne' hp.ne']
    push_cast; ring

theorem absEntry_real (dm k m iv : ℝ) : absEntry dm k m iv = if 0 < m ∧ 0 < iv then mag m - dm - k else -9999 := by
  unfold absEntry
  simp only [real_gtb, real_leb, real_lit, magOf_real, real_f32]
  by_cases h1 : 0 < m
  · by_cases h2 : 0 < iv
    · have h3 : ¬ m ≤ 0 := by linarith
      have h4 : ¬ iv ≤ 0 := by linarith
      simp [h1, h2]
    · have h4 : iv ≤ 0 := by linarith
      simp [h4]
  · have h4 : m ≤ 0 := by linarith
    simp [h4]

theorem recEntry_real (dm k o : ℝ) : recEntry dm k o = if 0 < o then mag o - dm - k else -9999 := by
  unfold recEntry
  simp only [real_gtb, real_leb, real_lit, magOf_real, real_f32]
  by_cases h1 : 0 < o
  · simp [h1]
  · simp [not_lt.mp h1]

theorem limEntry_real (dm k iv : ℝ) : limEntry dm k iv = if 0 < iv then mag (1 / Real.sqrt iv) - dm - k else -9999 := by
  unfold limEntry
  simp only [real_gtb, real_leb, real_lit, magOf_real, real_f32]
  by_cases h1 : 0 < iv
  · simp [h1]
  · simp [not_lt.mp h1]

/-- one object over the reals -/
noncomputable def absReal (imap : List Nat) (A Ao : AMat ℝ) (r l kk : Bool) (bs dm z : ℝ) (m iv c : List ℝ) : Py (List (List ℝ)) := do
  let k ← kReal imap A Ao bs z c
  let o ← if r then (Ao.at ((1 + z) * (1 + bs) - 1)).map (fun M => some (reconRow bs M c)) else .ok none
  return absRows imap l kk dm k m iv o

theorem absOne_real (imap : List Nat) (A Ao : AMat ℝ) (r l kk : Bool) (bs dm z : ℝ) (m iv c : List ℝ) :
    absOne imap A Ao id r l kk bs dm z m iv c = absReal imap A Ao r l kk bs dm z m iv c := by
  unfold absOne absReal
  simp only [map_f32_l, shiftOf_real, real_f32, kOne_real]

theorem absmag_real {K : Kc ℝ} (hF : NoAb K.toFitter) {A Ao : AMat ℝ} (hA : K.Amatrix = some A) (hAo : K.AmatrixOut = some Ao) (z : ℝ)
    (m iv c : List ℝ) (hm : m.length = K.responses.length) (hiv : iv.length = K.responses.length)
    (hc : c.length = K.templates.nsed) (bs : ℝ) (dist : Option ℝ) (hd : ∀ d ∈ dist, 0 < d) (r l kk : Bool) :
    K.absmag (some (.vec m)) (some (.vec iv)) (some (.scalar z)) (some (.vec c)) bs (dist.map .scalar) r l kk =
      (absReal K.imap A Ao r l kk bs (dmSpec K.distmod z dist) z m iv c).map
        (fun rows => mkRet (rows.map (fun row => .arr [] Ao.nrow [row]))) := by
  rw [absmag_scalar hF hA hAo z m iv c hm hiv hc, map_f32_l, map_f32_l, map_f32_l, real_f32, absOne_real, dm1_real K z dist hd]

/-- One object, whatever the sign of the distance. -/
theorem absmag_dm {K : Kc ℝ} (hF : NoAb K.toFitter) {A Ao : AMat ℝ} (hA : K.Amatrix = some A) (hAo : K.AmatrixOut = some Ao) (z : ℝ)
    (m iv c : List ℝ) (hm : m.length = K.responses.length) (hiv : iv.length = K.responses.length)
    (hc : c.length = K.templates.nsed) (bs : ℝ) (dist : Option ℝ) (r l kk : Bool) :
    K.absmag (some (.vec m)) (some (.vec iv)) (some (.scalar z)) (some (.vec c)) bs (dist.map .scalar) r l kk =
      (absReal K.imap A Ao r l kk bs (dm1 K z dist) z m iv c).map (fun rows => mkRet (rows.map (fun row => .arr [] Ao.nrow [row]))) := by
  rw [absmag_scalar hF hA hAo z m iv c hm hiv hc, map_f32_l, map_f32_l, map_f32_l, real_f32, absOne_real]

theorem zip3_get {β γ δ ε : Type} (f : β → γ → δ → ε) (a : List β) (b : List γ) (c : List δ) {j : Nat} {x : β} {y : γ} {w : δ}
    (ha : a[j]? = some x) (hb : b[j]? = some y) (hc : c[j]? = some w) : (zip3 f a b c)[j]? = some (f x y w) := by
  simp [zip3, List.getElem?_zipWith, ha, hb, hc, List.zip_eq_zipWith]

theorem gather_get (row : List ℝ) (idx : List Nat) {j i : Nat} {v : ℝ} (hj : idx[j]? = some i) (hi : row[i]? = some v) :
    (gather row idx)[j]? = some v := by
  simp [gather, hj, hi]

/-- C70, one object: the call returns exactly if the K-correction does, and each entry is magnitude minus distance modulus minus
K-correction where the mapped maggies and ivar are positive, -9999 otherwise. -/
theorem C70_formula_partial (K : Kc ℝ) (hF : NoAb K.toFitter) (A Ao : AMat ℝ) (hA : K.Amatrix = some A) (hAo : K.AmatrixOut = some Ao)
    (z : ℝ) (m iv c : List ℝ) (hm : m.length = K.responses.length) (hiv : iv.length = K.responses.length)
    (hc : c.length = K.templates.nsed) (bs : ℝ) (dist : Option ℝ) (hd : ∀ d ∈ dist, 0 < d) :
    ((∃ a, K.absmag (some (.vec m)) (some (.vec iv)) (some (.scalar z)) (some (.vec c)) bs (dist.map .scalar) false false false = .ok (.one a)) ↔
      ∃ k, K.kcorrect (some (.scalar z)) (some (.vec c)) bs = .ok k) ∧
    ∀ a k, K.absmag (some (.vec m)) (some (.vec iv)) (some (.scalar z)) (some (.vec c)) bs (dist.map .scalar) false false false = .ok (.one a) →
      K.kcorrect (some (.scalar z)) (some (.vec c)) bs = .ok k →
      a.shape = k.shape ∧ ∀ (j i : Nat) mv v kv, K.imap[j]? = some i → m[i]? = some mv → iv[i]? = some v → entry k 0 j = some kv →
        entry a 0 j = some (if 0 < mv ∧ 0 < v then mag mv - dmSpec K.distmod z dist - kv else -9999) := by
  rw [absmag_real hF hA hAo z m iv c hm hiv hc bs dist hd, kcorrect_real hA hAo z c hc]
  unfold absReal
  cases hk : kReal K.imap A Ao bs z c with
  | error e => exact ⟨⟨fun ⟨a, h⟩ => (by cases h), fun ⟨a, h⟩ => (by cases h)⟩, fun a k h => (by cases h)⟩
  | ok k =>
    refine ⟨⟨fun _ => ⟨_, rfl⟩, fun _ => ⟨_, rfl⟩⟩, ?_⟩
    intro a k' ha hk'
    cases hk'
    cases ha
    refine ⟨rfl, ?_⟩
    intro j i mv v kv hj hmi hvi hkv
    simp only [entry, List.getElem?_cons_zero, Option.bind_some] at hkv ⊢
    rw [zip3_get _ _ _ _ hkv (gather_get m K.imap hj hmi) (gather_get iv K.imap hj hvi), absEntry_real]

/-- C71, flux: scaling the maggies by `s > 0` shifts the absolute magnitudes by `-2.5 log10 s`; the entries without value stay. -/
theorem C71_flux (K : Kc ℝ) (hF : NoAb K.toFitter) (A Ao : AMat ℝ) (hA : K.Amatrix = some A) (hAo : K.AmatrixOut = some Ao)
    (z : ℝ) (m iv c : List ℝ) (hm : m.length = K.responses.length) (hiv : iv.length = K.responses.length)
    (hc : c.length = K.templates.nsed) (bs s : ℝ) (hs : 0 < s) (dist : Option ℝ) (hd : ∀ d ∈ dist, 0 < d) (a : NDA ℝ)
    (ha : K.absmag (some (.vec m)) (some (.vec iv)) (some (.scalar z)) (some (.vec c)) bs (dist.map .scalar) false false false = .ok (.one a)) :
    ∃ a', K.absmag (some (.vec (m.map (s * ·)))) (some (.vec iv)) (some (.scalar z)) (some (.vec c)) bs (dist.map .scalar) false false false =
        .ok (.one a') ∧ a'.shape = a.shape ∧
      ∀ (j i : Nat) mv v x, K.imap[j]? = some i → m[i]? = some mv → iv[i]? = some v → entry a 0 j = some x →
        entry a' 0 j = some (if 0 < mv ∧ 0 < v then x - 2.5 * Real.logb 10 s else x) := by
  rw [absmag_real hF hA hAo z m iv c hm hiv hc bs dist hd] at ha
  rw [absmag_real hF hA hAo z _ iv c (by simpa using hm) hiv hc bs dist hd]
  unfold absReal at ha ⊢
  cases hk : kReal K.imap A Ao bs z c with
  | error e => rw [hk] at ha; cases ha
  | ok k =>
    rw [hk] at ha
    cases ha
    refine ⟨_, rfl, rfl, ?_⟩
    intro j i mv v x hj hmi hvi hx
    simp only [entry, List.getElem?_cons_zero, Option.bind_some] at hx ⊢
    have hkj : ∃ kv, k[j]? = some kv := by
      have := (List.getElem?_eq_some_iff.mp hx).1
      simp [zip3] at this
      exact ⟨_, List.getElem?_eq_getElem this.1⟩
    obtain ⟨kv, hkv⟩ := hkj
    rw [zip3_get _ _ _ _ hkv (gather_get m K.imap hj hmi) (gather_get iv K.imap hj hvi), absEntry_real, Option.some.injEq] at hx
    rw [zip3_get _ _ _ _ hkv (gather_get (v := s * mv) (m.map (s * ·)) K.imap hj (by simp [hmi])) (gather_get iv K.imap hj hvi), absEntry_real, ← hx]
    by_cases h1 : 0 < mv ∧ 0 < v
    · rw [if_pos h1, if_pos ⟨mul_pos hs h1.1, h1.2⟩, if_pos h1]
      simp only [mag]
      rw [Real.logb_mul hs.ne' h1.1.ne']
      congr 1; ring
    · rw [if_neg h1, if_neg h1, if_neg]
      rintro ⟨h2, h3⟩
      exact h1 ⟨(mul_pos_iff_of_pos_left hs).mp h2, h3⟩

/-- C71, distance: scaling the distance by `s > 0` shifts the absolute magnitudes by `-5 log10 s`. -/
theorem C71_distance (K : Kc ℝ) (hF : NoAb K.toFitter) (A Ao : AMat ℝ) (hA : K.Amatrix = some A) (hAo : K.AmatrixOut = some Ao)
    (z : ℝ) (m iv c : List ℝ) (hm : m.length = K.responses.length) (hiv : iv.length = K.responses.length)
    (hc : c.length = K.templates.nsed) (bs s d : ℝ) (hs : 0 < s) (hd : 0 < d) (a : NDA ℝ)
    (ha : K.absmag (some (.vec m)) (some (.vec iv)) (some (.scalar z)) (some (.vec c)) bs (some (.scalar d)) false false false = .ok (.one a)) :
    ∃ a', K.absmag (some (.vec m)) (some (.vec iv)) (some (.scalar z)) (some (.vec c)) bs (some (.scalar (s * d))) false false false =
        .ok (.one a') ∧ a'.shape = a.shape ∧
      ∀ (j i : Nat) mv v x, K.imap[j]? = some i → m[i]? = some mv → iv[i]? = some v → entry a 0 j = some x →
        entry a' 0 j = some (if 0 < mv ∧ 0 < v then x - 5 * Real.logb 10 s else x) := by
  have ha := (absmag_real hF hA hAo z m iv c hm hiv hc bs (some d) (by simpa using hd) false false false).symm.trans ha
  have e := absmag_real hF hA hAo z m iv c hm hiv hc bs (some (s * d)) (by simpa using mul_pos hs hd) false false false
  simp only [Option.map_some] at e
  rw [e]
  unfold absReal at ha ⊢
  cases hk : kReal K.imap A Ao bs z c with
  | error e => rw [hk] at ha; cases ha
  | ok k =>
    rw [hk] at ha
    cases ha
    refine ⟨_, rfl, rfl, ?_⟩
    intro j i mv v x hj hmi hvi hx
    simp only [entry, List.getElem?_cons_zero, Option.bind_some] at hx ⊢
    have hkj : ∃ kv, k[j]? = some kv := by
      have := (List.getElem?_eq_some_iff.mp hx).1
      simp [zip3] at this
      exact ⟨_, List.getElem?_eq_getElem this.1⟩
    obtain ⟨kv, hkv⟩ := hkj
    rw [zip3_get _ _ _ _ hkv (gather_get m K.imap hj hmi) (gather_get iv K.imap hj hvi), absEntry_real, Option.some.injEq] at hx
    rw [zip3_get _ _ _ _ hkv (gather_get m K.imap hj hmi) (gather_get iv K.imap hj hvi), absEntry_real, ← hx]
    by_cases h1 : 0 < mv ∧ 0 < v
    · rw [if_pos h1, if_pos h1, if_pos h1]
      have hp : (0 : ℝ) < d * 10 ^ 6 / 10 := by positivity
      have e : s * d * 10 ^ 6 / 10 = s * (d * 10 ^ 6 / 10) := by ring
      simp only [dmSpec, distanceModulus]
      rw [e, Real.logb_mul hs.ne' hp.ne']
      congr 1; ring
    · rw [if_neg h1, if_neg h1, if_neg h1]

/-- What `absmag(reconstruct=True)` returns, in any case: the magnitude of the model in the output band at the observed redshift
(not at rest), minus distance modulus, minus K-correction. -/
theorem C72_actual (K : Kc ℝ) (hF : NoAb K.toFitter) (A Ao : AMat ℝ) (hA : K.Amatrix = some A) (hAo : K.AmatrixOut = some Ao)
    (z : ℝ) (m iv c : List ℝ) (hm : m.length = K.responses.length) (hiv : iv.length = K.responses.length)
    (hc : c.length = K.templates.nsed) (bs : ℝ) (dist : Option ℝ) (hd : ∀ d ∈ dist, 0 < d) (ret : Ret ℝ)
    (hr : K.absmag (some (.vec m)) (some (.vec iv)) (some (.scalar z)) (some (.vec c)) bs (dist.map .scalar) true false false = .ok ret) :
    ∃ a rc k o, ret = .tuple [a, rc] ∧ K.kcorrect (some (.scalar z)) (some (.vec c)) bs = .ok k ∧
      K.reconstructOut (some (.scalar z)) (some (.vec c)) bs = .ok o ∧ rc.shape = k.shape ∧
      ∀ (j : Nat) kv ov, entry k 0 j = some kv → entry o 0 j = some ov →
        entry rc 0 j = some (if 0 < ov then mag ov - dmSpec K.distmod z dist - kv else -9999) := by
  rw [absmag_real hF hA hAo z m iv c hm hiv hc bs dist hd] at hr
  unfold Kc.reconstructOut
  rw [kcorrect_real hA hAo z c hc, hAo, recon_real _ _ _ _ _ hc]
  unfold absReal at hr
  cases hk : kReal K.imap A Ao bs z c with
  | error e => rw [hk] at hr; cases hr
  | ok k =>
    rw [hk] at hr
    cases hM : Ao.at ((1 + z) * (1 + bs) - 1) with
    | error e => rw [hM] at hr; cases hr
    | ok M =>
      rw [hM] at hr
      cases hr
      refine ⟨_, _, _, _, rfl, rfl, rfl, rfl, ?_⟩
      intro j kv ov hkv hov
      simp only [entry, List.getElem?_cons_zero, Option.bind_some] at hkv hov ⊢
      rw [List.getElem?_zipWith, hkv, hov]
      simp only [recEntry_real]

/-- C72 where it holds: default output bands and no band shift.  The reconstructed absolute magnitude is then the magnitude of the
model at rest minus the distance modulus. -/
theorem C72_rest_partial (K : Kc ℝ) (hF : NoAb K.toFitter) (A : AMat ℝ) (hD : DefaultBands K A)
    (z : ℝ) (m iv c : List ℝ) (hm : m.length = K.responses.length) (hiv : iv.length = K.responses.length)
    (hc : c.length = K.templates.nsed) (hs : 0 < c.sum) (dist : Option ℝ) (hd : ∀ d ∈ dist, 0 < d) (ret : Ret ℝ)
    (hr : K.absmag (some (.vec m)) (some (.vec iv)) (some (.scalar z)) (some (.vec c)) 0 (dist.map .scalar) true false false = .ok ret) :
    ∃ a rc o o0, ret = .tuple [a, rc] ∧ K.reconstructOut (some (.scalar z)) (some (.vec c)) 0 = .ok o ∧
      K.reconstructOut (some (.scalar 0)) (some (.vec c)) 0 = .ok o0 ∧
      ∀ (j : Nat) ov fv, j < K.responsesOut.length → entry o 0 j = some ov → entry o0 0 j = some fv → 0 < ov → 0 < fv →
        entry rc 0 j = some (mag fv - dmSpec K.distmod z dist) := by
  obtain ⟨hA, hAo, hlen, hflux⟩ := hD
  obtain ⟨a, rc, k, o, h1, h2, h3, _, h5⟩ := C72_actual K hF A A hA hAo z m iv c hm hiv hc 0 dist hd ret hr
  obtain ⟨hex, hk⟩ := C67_model_magnitudes K A A hA hAo z 0 c hc
  obtain ⟨⟨ai, hai⟩, ⟨o0, ho0⟩⟩ := hex.mp ⟨k, h2⟩
  refine ⟨a, rc, o, o0, h1, h3, ho0, ?_⟩
  intro j ov fv hj hov hfv hp1 hp2
  have hsame : o = ai := by
    unfold Kc.reconstructOut at h3
    unfold Fitter.reconstruct at hai
    rw [hAo] at h3
    rw [hA, h3] at hai
    exact Except.ok.inj hai
  subst hsame
  have hji : j < K.imap.length := by rw [hlen]; exact hj
  have hrow : entry o 0 K.imap[j] = some ov := by
    unfold Kc.reconstructOut at h3
    rw [hAo, recon_real _ _ _ _ _ hc] at h3
    cases hM : A.at ((1 + z) * (1 + 0) - 1) with
    | error e => rw [hM] at h3; cases h3
    | ok M =>
      rw [hM] at h3
      cases h3
      simp only [entry, List.getElem?_cons_zero, Option.bind_some] at hov ⊢
      rw [reconRow_get] at hov ⊢
      rw [hflux _ M hM j _ (List.getElem?_eq_getElem hji)]
      exact hov
  have hkv := (hk k o o0 h2 hai ho0).2.2 hs j K.imap[j] ov fv (List.getElem?_eq_getElem hji) hrow hfv hp1 hp2
  rw [h5 j _ _ hkv hov, if_pos hp1]
  congr 1; ring

/-- C73 where it holds: the 1-sigma limit for every band with positive ivar, -9999 otherwise; the coefficients do not matter. -/
theorem C73_limit_partial (K : Kc ℝ) (hF : NoAb K.toFitter) (A Ao : AMat ℝ) (hA : K.Amatrix = some A) (hAo : K.AmatrixOut = some Ao)
    (z : ℝ) (m iv c : List ℝ) (hm : m.length = K.responses.length) (hiv : iv.length = K.responses.length)
    (hc : c.length = K.templates.nsed) (bs : ℝ) (dist : Option ℝ) (hd : ∀ d ∈ dist, 0 < d) (ret : Ret ℝ)
    (hr : K.absmag (some (.vec m)) (some (.vec iv)) (some (.scalar z)) (some (.vec c)) bs (dist.map .scalar) false true false = .ok ret) :
    ∃ a lm k, ret = .tuple [a, lm] ∧ K.kcorrect (some (.scalar z)) (some (.vec c)) bs = .ok k ∧ lm.shape = k.shape ∧
      ∀ (j i : Nat) v kv, K.imap[j]? = some i → iv[i]? = some v → entry k 0 j = some kv →
        entry lm 0 j = some (if 0 < v then mag (1 / Real.sqrt v) - dmSpec K.distmod z dist - kv else -9999) := by
  rw [absmag_real hF hA hAo z m iv c hm hiv hc bs dist hd] at hr
  rw [kcorrect_real hA hAo z c hc]
  unfold absReal at hr
  cases hk : kReal K.imap A Ao bs z c with
  | error e => rw [hk] at hr; cases hr
  | ok k =>
    rw [hk] at hr
    cases hr
    refine ⟨_, _, _, rfl, rfl, rfl, ?_⟩
    intro j i v kv hj hvi hkv
    simp only [entry, List.getElem?_cons_zero, Option.bind_some] at hkv ⊢
    rw [List.getElem?_zipWith, hkv, gather_get iv K.imap hj hvi]
    simp only [limEntry_real]

/-- C46 for `absmag`: whenever the K-correction refuses with `ValueError`, so does `absmag`, with or without distances. -/
theorem C46_absmag (K : Kc ℝ) (hF : NoAb K.toFitter) (A Ao : AMat ℝ) (hA : K.Amatrix = some A) (hAo : K.AmatrixOut = some Ao)
    (hne : A.x ≠ []) (hne' : Ao.x ≠ []) (z : ℝ) (hz : z < A.x.headD 0 ∨ A.x.getLastD 0 < z) (bs : ℝ) (r l kk : Bool) :
    (∀ m iv c (dist : Option ℝ), m.length = K.responses.length → iv.length = K.responses.length → c.length = K.templates.nsed →
      K.absmag (some (.vec m)) (some (.vec iv)) (some (.scalar z)) (some (.vec c)) bs (dist.map .scalar) r l kk = .error .valueError) ∧
    (∀ zs ms ivs cs (dist : Option (List ℝ)), z ∈ zs → ms.length = zs.length → ivs.length = zs.length → cs.length = zs.length →
      (∀ ds ∈ dist, ds.length = zs.length) →
      K.absmag (some (.arr [zs.length] K.responses.length ms)) (some (.arr [zs.length] K.responses.length ivs)) (some (.vec zs))
        (some (.arr [zs.length] K.templates.nsed cs)) bs (dist.map .vec) r l kk = .error .valueError) := by
  obtain ⟨h1, h2⟩ := C46_kcorrect K A Ao hA hAo hne hne' bs z hz
  constructor
  · intro m iv c dist hm hiv hc
    have e := absmag_dm hF hA hAo z m iv c hm hiv hc bs dist r l kk
    have hk := h1 c hc
    rw [kcorrect_real hA hAo z c hc] at hk
    rw [e]
    unfold absReal
    cases hkr : kReal K.imap A Ao bs z c with
    | error e => rw [hkr] at hk; cases hk; rfl
    | ok k => rw [hkr] at hk; cases hk
  · intro zs ms ivs cs dist hzs hm hiv hcs hd
    unfold Kc.absmag
    rw [processInputs_array hF zs (some (.arr [zs.length] K.responses.length ms)) (some (.arr [zs.length] K.responses.length ivs))
      (some (.arr [zs.length] K.templates.nsed cs)) (by intro a ha; cases ha; rfl) (by intro a ha; cases ha; rfl)
      (by intro a ha; cases ha; rfl), ok_bind]
    unfold Kc.absmagI
    simp only [map_f32_l, Option.map_some]
    rw [dmOf_array _ _ _ _ dist hd]
    simp only [ok_bind, Option.map_some, Inp.tbl, Inp.zArr, if_true, rowsF_mat, map_f32_l]
    have ez : (NDA.arr [] zs.length [zs]) = NDA.vec zs := rfl
    have ec : cs.map (List.map (f32 : ℝ → ℝ)) = cs := by
      have : (List.map (f32 : ℝ → ℝ)) = id := by funext l; exact List.map_id l
      rw [this, List.map_id]
    rw [ez, ec, h2 zs cs hzs hcs]
    rfl

/-! ### C94: batches -/

/-- Objects of a batch over the reals. -/
theorem absmag_array_real {K : Kc ℝ} (hF : NoAb K.toFitter) {A Ao : AMat ℝ} (hA : K.Amatrix = some A) (hAo : K.AmatrixOut = some Ao)
    (zs : List ℝ) (ms ivs cs : List (List ℝ)) (hm : ms.length = zs.length) (hiv : ivs.length = zs.length) (hcs : cs.length = zs.length)
    (bs : ℝ) (dist : Option (List ℝ)) (hd : ∀ ds ∈ dist, ds.length = zs.length) (r l kk : Bool) (ret : Ret ℝ) :
    K.absmag (some (.arr [zs.length] K.responses.length ms)) (some (.arr [zs.length] K.responses.length ivs)) (some (.vec zs))
      (some (.arr [zs.length] K.templates.nsed cs)) bs (dist.map .vec) r l kk = .ok ret ↔
      ∃ rowss, List.Forall₂ (fun p rows => absReal K.imap A Ao r l kk bs p.1 p.2.1 p.2.2.1 p.2.2.2.1 p.2.2.2.2 = .ok rows)
        (objs (dms K zs dist) zs ms ivs cs) rowss ∧
        ret = mkRet ((List.range (absCount r l kk)).map (fun t => .arr [zs.length] Ao.nrow (rowss.map (fun rows => rows.getD t [])))) := by
  have ec : ∀ cs : List (List ℝ), cs.map (List.map (f32 : ℝ → ℝ)) = cs := by
    intro cs
    have : (List.map (f32 : ℝ → ℝ)) = id := by funext l; exact List.map_id l
    rw [this, List.map_id]
  rw [absmag_array hF hA hAo zs ms ivs cs hm hiv hcs bs dist hd, map_f32_l, ec, ec, ec]
  have e : ∀ d z m iv c, absOne K.imap A Ao f32 r l kk bs (d * lit 1) z m iv c = absReal K.imap A Ao r l kk bs d z m iv c := by
    intro d z m iv c
    rw [← absOne_real]
    have : d * (lit 1 : ℝ) = d := by simp
    rw [this]; rfl
  simp only [e]

/-- C94: `absmag` on arrays returns exactly when the call on each object does, with its own distance
if distances are given, with as many arrays, and row `i` of each array is
what the call on object `i` alone returns. -/
theorem C94_absmag_batch_partial (K : Kc ℝ) (hF : NoAb K.toFitter) (A Ao : AMat ℝ) (hA : K.Amatrix = some A) (hAo : K.AmatrixOut = some Ao)
    (zs : List ℝ) (ms ivs cs : List (List ℝ)) (hm : ms.length = zs.length) (hiv : ivs.length = zs.length) (hcs : cs.length = zs.length)
    (hml : ∀ m ∈ ms, m.length = K.responses.length) (hivl : ∀ m ∈ ivs, m.length = K.responses.length)
    (hcl : ∀ c ∈ cs, c.length = K.templates.nsed) (bs : ℝ) (dist : Option (List ℝ))
    (hd : ∀ ds ∈ dist, ds.length = zs.length) (r l kk : Bool) :
    ((∃ ret, K.absmag (some (.arr [zs.length] K.responses.length ms)) (some (.arr [zs.length] K.responses.length ivs)) (some (.vec zs))
        (some (.arr [zs.length] K.templates.nsed cs)) bs (dist.map .vec) r l kk = .ok ret) ↔
      ∀ (i : Nat) z m iv c, zs[i]? = some z → ms[i]? = some m → ivs[i]? = some iv → cs[i]? = some c →
        ∃ ret, K.absmag (some (.vec m)) (some (.vec iv)) (some (.scalar z)) (some (.vec c)) bs (dist.map (fun ds => .scalar (ent ds i))) r l kk = .ok ret) ∧
    ∀ ret, K.absmag (some (.arr [zs.length] K.responses.length ms)) (some (.arr [zs.length] K.responses.length ivs)) (some (.vec zs))
        (some (.arr [zs.length] K.templates.nsed cs)) bs (dist.map .vec) r l kk = .ok ret →
      ∀ (i : Nat) z m iv c, zs[i]? = some z → ms[i]? = some m → ivs[i]? = some iv → cs[i]? = some c →
        ∃ ret1, K.absmag (some (.vec m)) (some (.vec iv)) (some (.scalar z)) (some (.vec c)) bs (dist.map (fun ds => .scalar (ent ds i))) r l kk = .ok ret1 ∧
          ret.list.length = ret1.list.length ∧
          ∀ (t : Nat) x, ret.list[t]? = some x → x.shape = [zs.length, Ao.nrow] ∧ ∃ y, ret1.list[t]? = some y ∧ rowOf x i = some y := by
  have hall := absmag_array_real hF hA hAo zs ms ivs cs hm hiv hcs bs dist hd r l kk
  have hone : ∀ (i : Nat) z m iv c, zs[i]? = some z → ms[i]? = some m → ivs[i]? = some iv → cs[i]? = some c →
      K.absmag (some (.vec m)) (some (.vec iv)) (some (.scalar z)) (some (.vec c)) bs (dist.map (fun ds => .scalar (ent ds i))) r l kk =
      (absReal K.imap A Ao r l kk bs (dm1 K z (dist.map (fun ds => ent ds i))) z m iv c).map (fun rows => mkRet (rows.map (fun row => .arr [] Ao.nrow [row]))) := by
    intro i z m iv c _ h2 h3 h4
    have e := absmag_dm hF hA hAo z m iv c (hml m (List.mem_of_getElem? h2)) (hivl iv (List.mem_of_getElem? h3))
      (hcl c (List.mem_of_getElem? h4)) bs (dist.map (fun ds => ent ds i)) r l kk
    rw [Option.map_map] at e
    exact e
  have hol : (objs (dms K zs dist) zs ms ivs cs).length = zs.length := by
    cases dist with
    | none => simp [objs, dms, hm, hiv, hcs]
    | some ds => simp [objs, dms, hm, hiv, hcs, hd ds rfl]
  have hget : ∀ (i : Nat) z m iv c, zs[i]? = some z → ms[i]? = some m → ivs[i]? = some iv → cs[i]? = some c →
      (objs (dms K zs dist) zs ms ivs cs)[i]? = some (dm1 K z (dist.map (fun ds => ent ds i)), z, m, iv, c) := by
    intro i z m iv c h1 h2 h3 h4
    cases dist with
    | none => simp [objs, dms, dm1, h1, h2, h3, h4, List.zip_eq_zipWith, List.getElem?_zipWith]
    | some ds =>
      have hi : i < ds.length := by
        rw [hd ds rfl]
        exact (List.getElem?_eq_some_iff.mp h1).1
      simp [objs, dms, dm1, h1, h2, h3, h4, List.zip_eq_zipWith, List.getElem?_zipWith, List.getElem?_eq_getElem hi, ent, List.getD_eq_getElem?_getD]
  have hlist : ∀ L : List (NDA ℝ), (mkRet L).list = L := by
    intro L
    match L with
    | [] => rfl
    | [_] => rfl
    | _ :: _ :: _ => rfl
  have hrow : ∀ ret, K.absmag (some (.arr [zs.length] K.responses.length ms)) (some (.arr [zs.length] K.responses.length ivs)) (some (.vec zs))
        (some (.arr [zs.length] K.templates.nsed cs)) bs (dist.map .vec) r l kk = .ok ret →
      ∀ (i : Nat) z m iv c, zs[i]? = some z → ms[i]? = some m → ivs[i]? = some iv → cs[i]? = some c →
        ∃ ret1, K.absmag (some (.vec m)) (some (.vec iv)) (some (.scalar z)) (some (.vec c)) bs (dist.map (fun ds => .scalar (ent ds i))) r l kk = .ok ret1 ∧
          ret.list.length = ret1.list.length ∧
          ∀ (t : Nat) x, ret.list[t]? = some x → x.shape = [zs.length, Ao.nrow] ∧ ∃ y, ret1.list[t]? = some y ∧ rowOf x i = some y := by
    intro ret h i z m iv c h1 h2 h3 h4
    obtain ⟨rowss, hf, rfl⟩ := (hall ret).mp h
    have hi := hget i z m iv c h1 h2 h3 h4
    obtain ⟨hil, hie⟩ := List.getElem?_eq_some_iff.mp hi
    have hir : i < rowss.length := by rw [← hf.length_eq]; exact hil
    have := (List.forall₂_iff_get.mp hf).2 i hil hir
    simp only [List.get_eq_getElem, hie] at this
    have hlen : rowss[i].length = absCount r l kk := by
      unfold absReal at this
      cases hk : kReal K.imap A Ao bs z c with
      | error e => rw [hk] at this; cases this
      | ok k =>
        rw [hk, ok_bind] at this
        cases r with
        | false =>
          simp only [if_false, Bool.false_eq_true, ok_bind, pure_py, Except.ok.injEq] at this
          rw [← this, absRows_length]; rfl
        | true =>
          cases ho : Ao.at ((1 + z) * (1 + bs) - 1) with
          | error e => rw [ho] at this; cases this
          | ok M =>
            rw [ho] at this
            simp only [if_true, Except.map, ok_bind, pure_py, Except.ok.injEq] at this
            rw [← this, absRows_length]; rfl
    refine ⟨_, by rw [hone i z m iv c h1 h2 h3 h4, this]; rfl, ?_, ?_⟩
    · simp [hlist, hlen]
    · intro t x hx
      rw [hlist] at hx ⊢
      obtain ⟨ht, hx'⟩ := List.getElem?_eq_some_iff.mp hx
      simp only [List.length_map, List.length_range] at ht
      simp only [List.getElem_map, List.getElem_range] at hx'
      subst hx'
      refine ⟨rfl, .arr [] Ao.nrow [rowss[i].getD t []], ?_, ?_⟩
      · have ht' : t < rowss[i].length := by rw [hlen]; exact ht
        rw [List.getElem?_map, List.getElem?_eq_getElem ht', getD_lt ht']; rfl
      · simp [rowOf, List.getElem?_eq_getElem hir]
  refine ⟨⟨?_, ?_⟩, hrow⟩
  · rintro ⟨ret, h⟩ i z m iv c h1 h2 h3 h4
    obtain ⟨ret1, h, _⟩ := hrow ret h i z m iv c h1 h2 h3 h4
    exact ⟨ret1, h⟩
  · intro hex
    have : ∃ rowss, (objs (dms K zs dist) zs ms ivs cs).mapM
        (fun p => absReal K.imap A Ao r l kk bs p.1 p.2.1 p.2.2.1 p.2.2.2.1 p.2.2.2.2) = .ok rowss := by
      apply mapM_exists
      intro p hp
      obtain ⟨i, hi, rfl⟩ := List.mem_iff_getElem.mp hp
      have hiz : i < zs.length := by rw [← hol]; exact hi
      have g1 := List.getElem?_eq_getElem hiz
      have g2 := List.getElem?_eq_getElem (show i < ms.length by omega)
      have g3 := List.getElem?_eq_getElem (show i < ivs.length by omega)
      have g4 := List.getElem?_eq_getElem (show i < cs.length by omega)
      obtain ⟨ret, hr⟩ := hex i _ _ _ _ g1 g2 g3 g4
      rw [hone i _ _ _ _ g1 g2 g3 g4] at hr
      have hg := hget i _ _ _ _ g1 g2 g3 g4
      rw [List.getElem?_eq_getElem hi] at hg
      simp only [Option.some.injEq] at hg
      rw [hg]
      simp only
      cases hk : absReal K.imap A Ao r l kk bs (dm1 K zs[i] (dist.map (fun ds => ent ds i))) zs[i] ms[i] ivs[i] cs[i] with
      | error e => rw [hk] at hr; cases hr
      | ok r => exact ⟨r, rfl⟩
    obtain ⟨rowss, h⟩ := this
    exact ⟨_, (hall _).mpr ⟨rowss, mapM_ok_iff.mp h, rfl⟩⟩

/-! ### Where the documented behaviour fails -/

/-- One-band, one-template object in IEEE special-value arithmetic. -/
noncomputable def kcX : Kc XR :=
  ⟨{ Fitter.mk' .base [['x']] (.sed ⟨[], [[]], [], [[]], .fin 0, false, none, false⟩) (.fin 0) (.fin 1) 2 false with
      Amatrix := some ⟨[.fin 0, .fin 1], [[[.fin 1]], [[.fin 2]]], 1, 1⟩ }, [['x']], [['x']],
    some ⟨[.fin 0, .fin 1], [[[.fin 1]], [[.fin 2]]], 1, 1⟩, [0], fun z => z⟩

theorem kcX_at : ∃ x, AMat.at (⟨[.fin 0, .fin 1], [[[.fin 1]], [[.fin 2]]], 1, 1⟩ : AMat XR) (.fin 0) = .ok [[x]] := by
  unfold AMat.at
  have h1 : (ltb (XR.fin 0) (XR.fin 0) : Bool) = false := by show decide ((0 : ℝ) < 0) = false; simp
  have h2 : (ltb (XR.fin 1) (XR.fin 0) : Bool) = false := by show decide ((1 : ℝ) < 0) = false; norm_num
  have h3 : (ltb (XR.fin 0) (XR.fin 0) || ltb (XR.fin 1) (XR.fin 0)) = false := by rw [h1, h2]; rfl
  rw [if_neg (by simp), if_neg (by simpa using h3)]
  have h4 : searchLeft ([.fin 0, .fin 1] : List XR) (.fin 0) = 0 := by
    simp [searchLeft, h1, h2]
  simp only [h4]
  exact ⟨_, rfl⟩

theorem xr_shift0 : shiftOf (f32 (XR.fin 0)) (lit 0 : XR) = XR.fin 0 := by
  show XR.add (XR.mul (XR.add (XR.fin ((1 : ℚ) : ℝ)) (XR.fin 0)) (XR.add (XR.fin ((1 : ℚ) : ℝ)) (XR.fin ((0 : ℚ) : ℝ)))) (XR.neg (XR.fin ((1 : ℚ) : ℝ))) = _
  simp [XR.add, XR.mul, XR.neg]

/-- C70 as documented fails for NaN: the code tests `> 0` and `<= 0` separately, so with NaN maggies (or NaN ivar) the entry
is 0.0, which reads as a valid absolute magnitude, not -9999. -/
theorem C70_false :
    kcX.absmag (some (.vec [.nan])) (some (.vec [.fin 1])) (some (.scalar (.fin 0))) (some (.vec [.fin 1])) (lit 0) none false false false =
      .ok (.one (.arr [] 1 [[.fin 0]])) ∧
    kcX.absmag (some (.vec [.fin 1])) (some (.vec [.nan])) (some (.scalar (.fin 0))) (some (.vec [.fin 1])) (lit 0) none false false false =
      .ok (.one (.arr [] 1 [[.fin 0]])) := by
  obtain ⟨x, hx⟩ := kcX_at
  have key : ∀ m iv : XR, kcX.absmag (some (.vec [m])) (some (.vec [iv])) (some (.scalar (.fin 0))) (some (.vec [.fin 1])) (lit 0) none
      false false false = .ok (.one (.arr [] 1 [zip3 (absEntry (.fin 0))
        (kRow [0] id [XR.fin 1] (reconRow (lit 0) [[x]] [XR.fin 1]) (reconRow (lit 0) [[x]] [XR.fin 1])) [m] [iv]])) := by
    intro m iv
    have e := absmag_scalar (K := kcX) (Or.inl rfl) rfl rfl (.fin 0) [m] [iv] [.fin 1] rfl rfl rfl (lit 0) none false false false
    refine e.trans ?_
    have hk : kOne kcX.imap (⟨[.fin 0, .fin 1], [[[.fin 1]], [[.fin 2]]], 1, 1⟩ : AMat XR)
        (⟨[.fin 0, .fin 1], [[[.fin 1]], [[.fin 2]]], 1, 1⟩ : AMat XR) id (lit 0) (f32 (f32 (XR.fin 0))) [XR.fin 1] =
        .ok (kRow [0] id [XR.fin 1] (reconRow (lit 0) [[x]] [XR.fin 1]) (reconRow (lit 0) [[x]] [XR.fin 1])) := by
      unfold kOne
      have h0 : (f32 (lit 0 * f32 (f32 (XR.fin 0))) : XR) = f32 (XR.fin 0) := by
        show XR.mul (XR.fin ((0 : ℚ) : ℝ)) (XR.fin 0) = XR.fin 0
        simp [XR.mul]
      rw [h0]
      have h1 : shiftOf (f32 (f32 (f32 (XR.fin 0)))) (lit 0 : XR) = XR.fin 0 := xr_shift0
      rw [h1, xr_shift0, hx]; rfl
    show (absOne _ _ _ _ _ _ _ _ _ _ _ _ [XR.fin 1]).map _ = _
    unfold absOne
    show (kOne kcX.imap _ _ id (lit 0) (f32 (f32 (XR.fin 0))) [XR.fin 1] >>= _).map _ = _
    rw [hk]
    rfl
  have hz : ∀ m iv k : XR, (m = .nan ∨ iv = .nan) → (m = .nan ∨ leb m (lit 0) = false) → (iv = .nan ∨ leb iv (lit 0) = false) →
      absEntry (.fin 0) k m iv = .fin 0 := by
    intro m iv k h h1 h2
    unfold absEntry
    have g1 : leb m (lit 0) = false := by rcases h1 with rfl | h1 <;> [rfl; exact h1]
    have g2 : leb iv (lit 0) = false := by rcases h2 with rfl | h2 <;> [rfl; exact h2]
    have g3 : (gtb m (lit 0) && gtb iv (lit 0)) = false := by
      rcases h with rfl | rfl
      · rfl
      · exact Bool.and_false _
    simp only [g1, g2, g3, Bool.or_self, Bool.false_eq_true, if_false]
    show XR.fin ((0 : ℚ) : ℝ) = _
    simp
  have h1 : leb (XR.fin 1) (lit 0) = false := by
    show decide ((1 : ℝ) ≤ ((0 : ℚ) : ℝ)) = false
    norm_num
  have hrow : ∀ m iv : XR, (m = .nan ∨ iv = .nan) → (m = .nan ∨ leb m (lit 0) = false) → (iv = .nan ∨ leb iv (lit 0) = false) →
      zip3 (absEntry (.fin 0)) (kRow [0] id [XR.fin 1] (reconRow (lit 0) [[x]] [XR.fin 1]) (reconRow (lit 0) [[x]] [XR.fin 1])) [m] [iv] =
        [.fin 0] := by
    intro m iv h h1 h2
    unfold kRow
    split
    · show [absEntry (.fin 0) _ m iv] = _
      rw [hz m iv _ h h1 h2]
    · show [absEntry (.fin 0) _ m iv] = _
      rw [hz m iv _ h h1 h2]
  refine ⟨(key _ _).trans ?_, (key _ _).trans ?_⟩
  · rw [hrow _ _ (Or.inl rfl) (Or.inl rfl) (Or.inr h1)]
  · rw [hrow _ _ (Or.inr rfl) (Or.inr h1) (Or.inl rfl)]

/-- demonstration object with an output band (same name, so mapped to the input band) whose matrix differs from the input band's -/
noncomputable def demoKcOut : Kc ℝ :=
  ⟨demoFitter, [['y']], [['x']], some ⟨[0, 1, 3], [[[1, 0]], [[4, 0]], [[1, 0]]], 1, 2⟩, [0], fun z => z⟩

theorem demoOut_good : AMat.Good (⟨[0, 1, 3], [[[1, 0]], [[4, 0]], [[1, 0]]], 1, 2⟩ : AMat ℝ) := by
  have g := demoAm_good
  exact ⟨g.incr, g.two, rfl, by simp [Shaped]⟩

/-- C72 as documented fails.  First with a band shift: coefficients (1, 2) at redshift 1 in the band shifted by 1 have rest flux 1
in that band, but the reconstructed absolute magnitude is that of flux 2.  Then without one: in an output band different from
the input band the rest flux is 1 and the distance modulus 1, and the result is off by the colour of the object. -/
theorem C72_false :
    (∃ a rc, demoKc.absmag (some (.vec [1])) (some (.vec [1])) (some (.scalar 1)) (some (.vec [1, 2])) 1 none true false false =
        .ok (.tuple [a, rc]) ∧ demoKc.reconstructOut (some (.scalar 0)) (some (.vec [1, 2])) 1 = .ok (.arr [] 1 [[1]]) ∧
        entry rc 0 0 = some (mag 2 - 1) ∧ mag 2 ≠ mag 1) ∧
    ∃ a rc, demoKcOut.absmag (some (.vec [1])) (some (.vec [1])) (some (.scalar 1)) (some (.vec [1, 1])) 0 none true false false =
        .ok (.tuple [a, rc]) ∧ demoKcOut.reconstructOut (some (.scalar 0)) (some (.vec [1, 1])) 0 = .ok (.arr [] 1 [[1]]) ∧
        entry rc 0 0 = some (mag 4 - 1 - mag 2) ∧ mag 4 - mag 2 ≠ mag 1 := by
  have o1 : ∀ q k, k < 3 → ent [0, 1, 3] k = q →
      AMat.at (⟨[0, 1, 3], [[[1, 0]], [[4, 0]], [[1, 0]]], 1, 2⟩ : AMat ℝ) q = .ok ([[[1, 0]], [[4, 0]], [[1, 0]]].getD k []) := by
    intro q k hk hq; rw [← hq]; exact at_node demoOut_good hk
  have l2 : Real.logb 10 2 ≠ 0 := by
    have := Real.logb_pos (b := 10) (x := 2) (by norm_num) (by norm_num)
    exact this.ne'
  have l4 : Real.logb 10 4 = 2 * Real.logb 10 2 := by
    rw [show (4 : ℝ) = 2 ^ 2 by norm_num, Real.logb_pow]; norm_num
  constructor
  · have e := absmag_real (K := demoKc) (Or.inl rfl) (A := demoAm) (Ao := demoAm) rfl rfl 1 [1] [1] [1, 2] rfl rfl rfl 1 none (by simp) true false false
    have hr : ∃ x, absReal demoKc.imap demoAm demoAm true false false 1 1 1 [1] [1] [1, 2] = .ok [x, [mag 2 - 1]] := by
      unfold absReal kReal
      rw [demoAm_at1, show ((1 : ℝ) + 1) * (1 + 1) - 1 = 3 by norm_num, demoAm_at3]
      refine ⟨_, congrArg Except.ok (congrArg (List.cons _) (congrArg (fun x => [x]) ?_))⟩
      simp [kRow, reconRow, dot, sumL_real, gather, demoKc, magOf_real, mag, real_gtb]
      norm_num
      rw [recEntry_real, if_pos (by norm_num)]
      simp only [mag, l4]; ring
    obtain ⟨x, hr⟩ := hr
    refine ⟨_, _, e.trans (by rw [show dmSpec demoKc.distmod 1 none = 1 from rfl, hr]; rfl), ?_, rfl, ?_⟩
    · refine (recon_real demoKc.toFitter demoAm 0 [1, 2] 1 rfl).trans ?_
      rw [show ((1 : ℝ) + 0) * (1 + 1) - 1 = 1 by norm_num, demoAm_at1]
      simp [Except.map, reconRow, demoAm, dot, sumL_real]; norm_num
    · norm_num [mag, l2]
  · have e := absmag_real (K := demoKcOut) (Or.inl rfl) (A := demoAm) (Ao := ⟨[0, 1, 3], [[[1, 0]], [[4, 0]], [[1, 0]]], 1, 2⟩) rfl rfl 1
      [1] [1] [1, 1] rfl rfl rfl 0 none (by simp) true false false
    have hr : ∃ x, absReal demoKcOut.imap demoAm ⟨[0, 1, 3], [[[1, 0]], [[4, 0]], [[1, 0]]], 1, 2⟩ true false false 0 1 1 [1] [1] [1, 1] =
        .ok [x, [mag 4 - 1 - mag 2]] := by
      unfold absReal kReal
      rw [demoAm_at1, show ((1 : ℝ) + 1) * (1 + 0) - 1 = 1 by norm_num, o1 1 1 (by norm_num) rfl, o1 0 0 (by norm_num) rfl]
      refine ⟨_, congrArg Except.ok (congrArg (List.cons _) (congrArg (fun x => [x]) ?_))⟩
      simp [kRow, reconRow, dot, sumL_real, gather, demoKcOut, recEntry_real, magOf_real, mag, real_gtb]
    obtain ⟨x, hr⟩ := hr
    refine ⟨_, _, e.trans (by rw [show dmSpec demoKcOut.distmod 1 none = 1 from rfl, hr]; rfl), ?_, rfl, ?_⟩
    · refine (recon_real demoKcOut.toFitter _ 0 [1, 1] 0 rfl).trans ?_
      rw [show ((1 : ℝ) + 0) * (1 + 0) - 1 = 0 by norm_num, o1 0 0 (by norm_num) rfl]
      simp [Except.map, reconRow, dot, sumL_real]
    · simp only [mag, l4, Real.logb_one]
      intro h
      apply l2
      linarith

/-- C73 as documented fails: with no fit (all coefficients zero) the limit is not -9999 but the limit with K-correction 0. -/
theorem C73_false : ∃ a lm, demoKc.absmag (some (.vec [1])) (some (.vec [1])) (some (.scalar 1)) (some (.vec [0, 0])) 0 none false true false =
    .ok (.tuple [a, lm]) ∧ entry lm 0 0 = some (-1) := by
  have e := absmag_real (K := demoKc) (Or.inl rfl) (A := demoAm) (Ao := demoAm) rfl rfl 1 [1] [1] [0, 0] rfl rfl rfl 0 none (by simp) false true false
  have hr : ∃ x, absReal demoKc.imap demoAm demoAm false true false 0 1 1 [1] [1] [0, 0] = .ok [x, [-1]] := by
    unfold absReal kReal
    rw [demoAm_at1, demoAm_at0]
    refine ⟨_, congrArg Except.ok (congrArg (List.cons _) (congrArg (fun x => [x]) ?_))⟩
    simp [kRow, reconRow, dot, sumL_real, gather, demoKc, limEntry_real, mag, real_gtb, zeros]
  obtain ⟨x, hr⟩ := hr
  exact ⟨_, _, e.trans (by rw [show dmSpec demoKc.distmod 1 none = 1 from rfl, hr]; rfl), rfl⟩

/-! ### Not vacuous -/

/-- The demonstration object at redshift 1 returns with every combination of flags, with and without a distance, alone and in a
batch (C70–C74, C94). -/
example : NoAb demoKc.toFitter ∧ (∀ r l kk, ∃ ret, demoKc.absmag (some (.vec [1])) (some (.vec [1])) (some (.scalar 1)) (some (.vec [1, 1])) 0 none r l kk = .ok ret) ∧
    (∃ a, demoKc.absmag (some (.vec [1])) (some (.vec [1])) (some (.scalar 1)) (some (.vec [1, 1])) 0 (some (.scalar 2)) false false false = .ok (.one a)) ∧
    ∃ ret, demoKc.absmag (some (.arr [1] 1 [[1]])) (some (.arr [1] 1 [[1]])) (some (.vec [1])) (some (.arr [1] 2 [[1, 1]])) 0 none true true true = .ok ret := by
  have hr : ∀ r l kk dm, ∃ rows, absReal demoKc.imap demoAm demoAm r l kk 0 dm 1 [1] [1] [1, 1] = .ok rows := by
    intro r l kk dm
    unfold absReal kReal
    rw [demoAm_at1, demoAm_at0, show ((1 : ℝ) + 1) * (1 + 0) - 1 = 1 by norm_num, demoAm_at1]
    cases r <;> exact ⟨_, rfl⟩
  have h1 : ∀ r l kk, ∃ ret, demoKc.absmag (some (.vec [1])) (some (.vec [1])) (some (.scalar 1)) (some (.vec [1, 1])) 0 none r l kk = .ok ret := by
    intro r l kk
    obtain ⟨rows, h⟩ := hr r l kk (dmSpec demoKc.distmod 1 none)
    have e := absmag_real (K := demoKc) (Or.inl rfl) (A := demoAm) (Ao := demoAm) rfl rfl 1 [1] [1] [1, 1] rfl rfl rfl 0 none (by simp) r l kk
    exact ⟨_, e.trans (by rw [h]; rfl)⟩
  refine ⟨Or.inl rfl, h1, ?_, ?_⟩
  · have e := absmag_real (K := demoKc) (Or.inl rfl) (A := demoAm) (Ao := demoAm) rfl rfl 1 [1] [1] [1, 1] rfl rfl rfl 0 (some 2) (by simp)
      false false false
    obtain ⟨rows, h⟩ := hr false false false (dmSpec demoKc.distmod 1 (some 2))
    have : (∃ a, demoKc.absmag (some (.vec [1])) (some (.vec [1])) (some (.scalar 1)) (some (.vec [1, 1])) 0 ((some 2).map .scalar) false false false = .ok (.one a)) ↔ _ :=
      (C70_formula_partial demoKc (Or.inl rfl) demoAm demoAm rfl rfl 1 [1] [1] [1, 1] rfl rfl rfl 0 (some 2) (by simp)).1
    refine this.mpr ?_
    obtain ⟨h1, h2, h3, _⟩ := demo_flux
    exact (C67_model_magnitudes demoKc demoAm demoAm rfl rfl 1 0 [1, 1] rfl).1.mpr ⟨⟨_, h2⟩, ⟨_, h3⟩⟩
  · refine ((C94_absmag_batch_partial demoKc (Or.inl rfl) demoAm demoAm rfl rfl [1] [[1]] [[1]] [[1, 1]] rfl rfl rfl ?_ ?_ ?_ 0 none (by simp) true true true).1).mpr ?_
    · intro m hm; simp at hm; subst hm; rfl
    · intro m hm; simp at hm; subst hm; rfl
    · intro m hm; simp at hm; subst hm; rfl
    · intro i z m iv c hz hm hiv hc
      match i, hz, hm, hiv, hc with
      | 0, hz, hm, hiv, hc => cases hz; cases hm; cases hiv; cases hc; exact h1 true true true

end KC
