import Verif.Props.AbClasses
import Verif.Props.KInit
import Verif.Props.Lists

/-!
# C150: from fit_coeffs to the other methods
-/

namespace KC
open Spec

/-- what the constructor says about the two matrices -/
theorem init_grids {lib : Lib ℝ} {disk : Disk ℝ} {cls : Cls} {R : List Name} {T : Tpl ℝ} {out rmap : Option (List Name)} {lo hi : ℝ}
    {n : Nat} {ab : Bool} {dm : ℝ → ℝ} {w w' : Shared ℝ} {K : Kc ℝ} (h : Kc.init lib disk cls R T out rmap lo hi n ab dm w = (w', .ok K))
    (hlo : lo < hi) (hn : 2 ≤ n) :
    ∃ A Ao, K.Amatrix = some A ∧ K.AmatrixOut = some Ao ∧ A.x ≠ [] ∧ Ao.x ≠ [] ∧ (∀ q, InRange A.x q ↔ lo ≤ q ∧ q ≤ hi) ∧
      (∀ q, InRange Ao.x q ↔ lo ≤ q ∧ q ≤ hi) := by
  obtain ⟨w1, A, hcalc, hF, _, _, _, _, _, hO⟩ := init_ok h
  have hA : K.Amatrix = some A := by rw [hF]
  obtain ⟨_, hne, hh, hg⟩ := calc_grid hlo hn hcalc
  rcases hO with ⟨_, hAo, _⟩ | ⟨_, Ao, hco, hAo⟩
  · exact ⟨A, A, hA, hAo, hne, hne, fun q => by rw [InRange, hh, hg], fun q => by rw [InRange, hh, hg]⟩
  · obtain ⟨_, hne', hh', hg'⟩ := calc_grid hlo hn hco
    exact ⟨A, Ao, hA, hAo, hne, hne', fun q => by rw [InRange, hh, hg], fun q => by rw [InRange, hh', hg']⟩

/-- the coefficients of one object are a vector with one entry per template -/
theorem fit_vec {nnls : Nnls ℝ} (hlen : NnlsLen nnls) {F : Fitter ℝ} (hr : AbReady F.abCls F.responses.length) (hnb : F.responses.length ≠ 1) {z : ℝ}
    {m iv : List ℝ} (hm : m.length = F.responses.length) (hiv : iv.length = F.responses.length) {mc : Nat} {noise : Nat → Nat → Nat → ℝ} {o : FitOut ℝ}
    (h : F.fitCoeffs nnls (some (.scalar z)) (some (.vec m)) (some (.vec iv)) mc noise = .ok o) :
    ∃ c : List ℝ, c.length = F.templates.nsed ∧ o.coeffs = .vec c := by
  rw [fit_eff nnls F hr z m iv hm hiv, fit_scalar nnls (F := F.plain) (Or.inl rfl) hnb z _ _ (by rw [List.length_mapIdx]; exact hm) (by rw [List.length_mapIdx]; exact hiv)] at h
  cases hf : fitU nnls F.plain (f32 z) ((m.mapIdx (fun j x => x * abFactor F.abCls j)).map f32)
      ((iv.mapIdx (fun j x => x / abFactor F.abCls j ^ 2)).map f32) mc (noise 0) with
  | error e => rw [hf] at h; cases h
  | ok r =>
    rw [hf] at h
    have hl := fitU_len hlen hf
    cases h
    refine ⟨r.1, hl, ?_⟩
    unfold outOne
    split <;> rfl

theorem kReal_ok {imap : List Nat} {A Ao : AMat ℝ} (hne : A.x ≠ []) (hne' : Ao.x ≠ []) {bs z : ℝ} (c : List ℝ) (hb : InRange Ao.x bs) :
    (InRange A.x z → ∃ r, kReal imap A Ao bs z c = .ok r) ∧ (¬ InRange A.x z → kReal imap A Ao bs z c = .error .valueError) := by
  unfold kReal
  constructor
  · intro h
    obtain ⟨M, hM⟩ := (at_ok_iff hne).mpr h
    obtain ⟨Mo, hMo⟩ := (at_ok_iff hne').mpr hb
    rw [hM, hMo]
    exact ⟨_, rfl⟩
  · intro h
    rw [at_out hne h]; rfl

/-- one object: reconstruct, kcorrect and absmag with one coefficient per template return inside the redshift range and raise outside -/
theorem methods_range {K : Kc ℝ} (hr : AbReady K.abCls K.responses.length) {A Ao : AMat ℝ} (hA : K.Amatrix = some A) (hAo : K.AmatrixOut = some Ao)
    (hne : A.x ≠ []) (hne' : Ao.x ≠ []) {z bs : ℝ} (hb : InRange Ao.x bs) {m iv c : List ℝ} (hm : m.length = K.responses.length)
    (hiv : iv.length = K.responses.length) (hc : c.length = K.templates.nsed) :
    (InRange A.x z → (∃ r, K.reconstruct (some (.scalar z)) (some (.vec c)) 0 = .ok r) ∧ (∃ k, K.kcorrect (some (.scalar z)) (some (.vec c)) bs = .ok k) ∧
      ∃ a, K.absmag (some (.vec m)) (some (.vec iv)) (some (.scalar z)) (some (.vec c)) bs none false false false = .ok (.one a)) ∧
    (¬ InRange A.x z → K.reconstruct (some (.scalar z)) (some (.vec c)) 0 = .error .valueError ∧
      K.kcorrect (some (.scalar z)) (some (.vec c)) bs = .error .valueError ∧
      ∀ a, K.absmag (some (.vec m)) (some (.vec iv)) (some (.scalar z)) (some (.vec c)) bs none false false false ≠ .ok a) := by
  obtain ⟨k1, k2⟩ := kReal_ok (imap := K.imap) hne hne' (z := z) c hb
  have hk := kcorrect_real hA hAo z c hc bs
  have hrec := recon_real K.toFitter A z c 0 hc
  have e : (1 + z) * (1 + 0) - 1 = z := by ring
  rw [e] at hrec
  have hre : K.reconstruct (some (.scalar z)) (some (.vec c)) 0 = (A.at z).map (fun M => .arr [] A.nrow [reconRow 0 M c]) := by
    rw [← hrec]
    unfold Fitter.reconstruct
    rw [hA]
  have habs := absmag_eff K hr z m iv c hm hiv hc bs none false false false
  have h70 := (C70_formula_partial K.plain (Or.inl rfl) A Ao hA hAo z (m.mapIdx (fun j x => x * abFactor K.abCls j))
    (iv.mapIdx (fun j x => x / abFactor K.abCls j ^ 2)) c (by rw [List.length_mapIdx]; exact hm) (by rw [List.length_mapIdx]; exact hiv) hc bs none (by simp)).1
  rw [Option.map_none, kcorrect_plain] at h70
  constructor
  · intro h
    obtain ⟨r, hr1⟩ := k1 h
    obtain ⟨M, hM⟩ := (at_ok_iff hne).mpr h
    have hkk : ∃ k, K.kcorrect (some (.scalar z)) (some (.vec c)) bs = .ok k := by rw [hk, hr1]; exact ⟨_, rfl⟩
    refine ⟨?_, hkk, ?_⟩
    · rw [hre, hM]; exact ⟨_, rfl⟩
    · rw [habs]; exact h70.mpr hkk
  · intro h
    have hkk : K.kcorrect (some (.scalar z)) (some (.vec c)) bs = .error .valueError := by rw [hk, k2 h]; rfl
    refine ⟨?_, hkk, ?_⟩
    · rw [hre, at_out hne h]; rfl
    · intro a ha
      rw [habs, ← Option.map_none (f := NDA.scalar), absmag_real (K := K.plain) (Or.inl rfl) hA hAo z _ _ c (by rw [List.length_mapIdx]; exact hm) (by rw [List.length_mapIdx]; exact hiv) hc bs none (by simp)] at ha
      unfold absReal at ha
      rw [show kReal K.plain.imap A Ao bs z c = _ from k2 h] at ha
      cases ha

/-- C150 as it holds, one object: `K` is any object the constructor returns, with redshift range `lo` to `hi`.  The coefficients `fit_coeffs` returns can be
passed to `reconstruct`, `kcorrect` and `absmag` if the redshift is in the range, and cannot otherwise. -/
theorem C150_single_partial (lib : Lib ℝ) (disk : Disk ℝ) (cls : Cls) (R : List Name) (T : Tpl ℝ) (ro rmap : Option (List Name)) (lo hi : ℝ) (n : Nat)
    (ab : Bool) (dm : ℝ → ℝ) (w w' : Shared ℝ) (K : Kc ℝ) (h : Kc.init lib disk cls R T ro rmap lo hi n ab dm w = (w', .ok K)) (hlo : lo < hi)
    (hn : 2 ≤ n) (hr : AbReady K.abCls K.responses.length) (hnb : K.responses.length ≠ 1) (nnls : Nnls ℝ) (hlen : NnlsLen nnls) (z : ℝ) (m iv : List ℝ)
    (hm : m.length = K.responses.length) (hiv : iv.length = K.responses.length) (mc : Nat) (noise : Nat → Nat → Nat → ℝ) (out : FitOut ℝ)
    (hfit : K.fitCoeffs nnls (some (.scalar z)) (some (.vec m)) (some (.vec iv)) mc noise = .ok out) (bs : ℝ) (hb : lo ≤ bs ∧ bs ≤ hi) :
    ((∃ r, K.reconstruct (some (.scalar z)) (some out.coeffs) 0 = .ok r) ↔ lo ≤ z ∧ z ≤ hi) ∧
    ((∃ k, K.kcorrect (some (.scalar z)) (some out.coeffs) bs = .ok k) ↔ lo ≤ z ∧ z ≤ hi) ∧
    ((∃ a, K.absmag (some (.vec m)) (some (.vec iv)) (some (.scalar z)) (some out.coeffs) bs none false false false = .ok a) ↔ lo ≤ z ∧ z ≤ hi) := by
  obtain ⟨A, Ao, hA, hAo, hne, hne', g, go⟩ := init_grids h hlo hn
  obtain ⟨c, hc, ho⟩ := fit_vec hlen hr hnb hm hiv hfit
  obtain ⟨h1, h2⟩ := methods_range (z := z) hr hA hAo hne hne' ((go bs).mpr hb) hm hiv hc
  rw [ho, ← g z]
  by_cases hz : InRange A.x z
  · obtain ⟨a1, a2, a, a3⟩ := h1 hz
    exact ⟨⟨fun _ => hz, fun _ => a1⟩, ⟨fun _ => hz, fun _ => a2⟩, ⟨fun _ => hz, fun _ => ⟨_, a3⟩⟩⟩
  · obtain ⟨a1, a2, a3⟩ := h2 hz
    refine ⟨⟨?_, fun x => absurd x hz⟩, ⟨?_, fun x => absurd x hz⟩, ⟨?_, fun x => absurd x hz⟩⟩
    · rintro ⟨_, x⟩; rw [a1] at x; cases x
    · rintro ⟨_, x⟩; rw [a2] at x; cases x
    · rintro ⟨_, x⟩; exact absurd x (a3 _)

/-- the coefficients of a batch are a table with one row per object -/
theorem fit_table {nnls : Nnls ℝ} (hlen : NnlsLen nnls) {F : Fitter ℝ} (hr : AbReady F.abCls F.responses.length) (hnb : F.responses.length ≠ 1) {zs : List ℝ}
    {ms ivs : List (List ℝ)} (hm : ms.length = zs.length) (hiv : ivs.length = zs.length) (hmr : ∀ r ∈ ms, r.length = F.responses.length)
    (hivr : ∀ r ∈ ivs, r.length = F.responses.length) {noise : Nat → Nat → Nat → ℝ} {out : FitOut ℝ}
    (h : F.fitCoeffs nnls (some (.vec zs)) (some (.arr [zs.length] F.responses.length ms)) (some (.arr [zs.length] F.responses.length ivs)) 0 noise = .ok out) :
    ∃ cs : List (List ℝ), cs.length = zs.length ∧ (∀ c ∈ cs, c.length = F.templates.nsed) ∧ out.coeffs = .arr [zs.length] F.templates.nsed cs := by
  by_cases h1 : zs.length = 1
  · obtain ⟨z, rfl⟩ := List.length_eq_one_iff.mp h1
    obtain ⟨m, rfl⟩ := List.length_eq_one_iff.mp (hm.trans h1)
    obtain ⟨iv, rfl⟩ := List.length_eq_one_iff.mp (hiv.trans h1)
    have hm1 := hmr m (by simp)
    have hiv1 := hivr iv (by simp)
    obtain ⟨e1, e2⟩ := C52_ab_batch_of_one_partial nnls F hr hnb z m iv hm1 hiv1 noise
    cases hs : F.fitCoeffs nnls (some (.scalar z)) (some (.vec m)) (some (.vec iv)) 0 noise with
    | error e => have := (e1 e).mpr hs; simp only [List.length_singleton] at h; rw [this] at h; cases h
    | ok o =>
      have hv : ∃ c, o = ⟨.vec c, none⟩ := by
        rw [fit_eff nnls F hr z m iv hm1 hiv1, fit_scalar nnls (F := F.plain) (Or.inl rfl) hnb z _ _ (by rw [List.length_mapIdx]; exact hm1)
          (by rw [List.length_mapIdx]; exact hiv1)] at hs
        cases hf : fitU nnls F.plain (f32 z) ((m.mapIdx (fun j x => x * abFactor F.abCls j)).map f32)
            ((iv.mapIdx (fun j x => x / abFactor F.abCls j ^ 2)).map f32) 0 (noise 0) with
        | error e => rw [hf] at hs; cases hs
        | ok r => rw [hf] at hs; cases hs; exact ⟨r.1, rfl⟩
      obtain ⟨c, rfl⟩ := hv
      obtain ⟨c', hc, hcc⟩ := fit_vec hlen hr hnb hm1 hiv1 hs
      have := (e2 c).mpr hs
      simp only [List.length_singleton] at h
      rw [this] at h
      cases h
      have hl : c.length = F.templates.nsed := by
        simp only [NDA.vec, NDA.arr.injEq] at hcc
        rw [hcc.2.1, hc]
      exact ⟨[c], rfl, by simpa using hl, by rw [hl]; rfl⟩
  · obtain ⟨cs, hl, ha, ho, -⟩ := (C52_ab_partial nnls hlen F hr hnb zs ms ivs h1 hm hiv hmr hivr 0 noise).2 out h
    refine ⟨cs.map (fun r => r.1), by simpa using hl, ?_, ho⟩
    intro c hc
    obtain ⟨r, hr1, rfl⟩ := List.mem_map.mp hc
    obtain ⟨k, hk, rfl⟩ := List.mem_iff_getElem.mp hr1
    have hk1 : k < ms.length := by omega
    have hk2 : k < ivs.length := by omega
    obtain ⟨c', hc', hcc⟩ := fit_vec hlen hr hnb (by rw [getD_lt hk1]; exact hmr _ (List.getElem_mem _)) (by rw [getD_lt hk2]; exact hivr _ (List.getElem_mem _))
      (ha k cs[k] (List.getElem?_eq_getElem hk))
    simp only [NDA.vec, NDA.arr.injEq] at hcc
    rw [hcc.2.1, hc']

/-- C150 as it holds, a batch: the coefficients of the batch can be passed on if every redshift is in the range, and cannot otherwise. -/
theorem C150_batch_partial (lib : Lib ℝ) (disk : Disk ℝ) (cls : Cls) (R : List Name) (T : Tpl ℝ) (ro rmap : Option (List Name)) (lo hi : ℝ) (n : Nat)
    (ab : Bool) (dm : ℝ → ℝ) (w w' : Shared ℝ) (K : Kc ℝ) (h : Kc.init lib disk cls R T ro rmap lo hi n ab dm w = (w', .ok K)) (hlo : lo < hi)
    (hn : 2 ≤ n) (hr : AbReady K.abCls K.responses.length) (hnb : K.responses.length ≠ 1) (nnls : Nnls ℝ) (hlen : NnlsLen nnls) (zs : List ℝ)
    (ms ivs : List (List ℝ)) (hm : ms.length = zs.length) (hiv : ivs.length = zs.length) (hmr : ∀ r ∈ ms, r.length = K.responses.length)
    (hivr : ∀ r ∈ ivs, r.length = K.responses.length) (noise : Nat → Nat → Nat → ℝ) (out : FitOut ℝ)
    (hfit : K.fitCoeffs nnls (some (.vec zs)) (some (.arr [zs.length] K.responses.length ms)) (some (.arr [zs.length] K.responses.length ivs)) 0 noise = .ok out)
    (bs : ℝ) (hb : lo ≤ bs ∧ bs ≤ hi) :
    ((∃ r, K.reconstruct (some (.vec zs)) (some out.coeffs) 0 = .ok r) ↔ ∀ z ∈ zs, lo ≤ z ∧ z ≤ hi) ∧
    ((∃ k, K.kcorrect (some (.vec zs)) (some out.coeffs) bs = .ok k) ↔ ∀ z ∈ zs, lo ≤ z ∧ z ≤ hi) ∧
    ((∃ a, K.absmag (some (.arr [zs.length] K.responses.length ms)) (some (.arr [zs.length] K.responses.length ivs)) (some (.vec zs)) (some out.coeffs) bs
      none false false false = .ok a) ↔ ∀ z ∈ zs, lo ≤ z ∧ z ≤ hi) := by
  obtain ⟨A, Ao, hA, hAo, hne, hne', g, go⟩ := init_grids h hlo hn
  obtain ⟨cs, hcl, hcn, ho⟩ := fit_table hlen hr hnb hm hiv hmr hivr hfit
  have hrange : (∀ z ∈ zs, lo ≤ z ∧ z ≤ hi) ↔ ∀ z ∈ zs, InRange A.x z := by simp only [g]
  have one : ∀ (i : Nat) z m iv c, zs[i]? = some z → ms[i]? = some m → ivs[i]? = some iv → cs[i]? = some c → _ := fun i z m iv c hz h1 h2 h3 =>
    methods_range (z := z) (m := m) (iv := iv) (c := c) hr hA hAo hne hne' ((go bs).mpr hb) (hmr _ (List.mem_of_getElem? h1)) (hivr _ (List.mem_of_getElem? h2)) (hcn _ (List.mem_of_getElem? h3))
  have full : ∀ (i : Nat) z, zs[i]? = some z → ∃ m iv c, ms[i]? = some m ∧ ivs[i]? = some iv ∧ cs[i]? = some c := by
    intro i z hz
    obtain ⟨hi', -⟩ := List.getElem?_eq_some_iff.mp hz
    exact ⟨_, _, _, List.getElem?_eq_getElem (by omega), List.getElem?_eq_getElem (by omega), List.getElem?_eq_getElem (by omega)⟩
  rw [ho, hrange]
  refine ⟨?_, ?_, ?_⟩
  · have hrec := recon_array K.toFitter A zs cs 0
    have hre : K.reconstruct (some (.vec zs)) (some (.arr [zs.length] K.templates.nsed cs)) 0 =
        (A.atAll zs).map (fun Ms => .arr [zs.length] A.nrow (List.zipWith (reconRow 0) Ms (cs.map (List.map f32)))) := by
      unfold Fitter.reconstruct
      rw [hA, hrec]
      have : zs.map (fun z => shiftOf (f32 z) 0) = zs := by
        conv_rhs => rw [← List.map_id zs]
        apply List.map_congr_left
        intro z _
        simp [shiftOf]
      rw [this]
    rw [hre]
    constructor
    · rintro ⟨r, h1⟩ z hz
      cases hM : A.atAll zs with
      | error e => rw [hM] at h1; cases h1
      | ok Ms =>
        by_contra hx
        obtain ⟨e, he⟩ := mapM_error_of hz (at_out hne hx)
        rw [show A.atAll zs = _ from he] at hM
        cases hM
    · intro h1
      obtain ⟨Ms, hMs⟩ := mapM_exists (f := A.at) (l := zs) (fun z hz => (at_ok_iff hne).mpr (h1 z hz))
      rw [show A.atAll zs = .ok Ms from hMs]
      exact ⟨_, rfl⟩
  · rw [(C68_batch rfl K A Ao hA hAo zs cs bs hcl hcn).1]
    constructor
    · intro h1 z hz
      obtain ⟨i, hi', rfl⟩ := List.mem_iff_getElem.mp hz
      have hzi := List.getElem?_eq_getElem hi'
      obtain ⟨m, iv, c, a1, a2, a3⟩ := full i _ hzi
      obtain ⟨r, hr1⟩ := h1 i _ c hzi a3
      by_contra hx
      rw [((one i _ m iv c hzi a1 a2 a3).2 hx).2.1] at hr1
      cases hr1
    · intro h1 i z c hzi a3
      obtain ⟨m, iv, c', a1, a2, a3'⟩ := full i z hzi
      exact ((one i z m iv c hzi a1 a2 a3).1 (h1 z (List.mem_of_getElem? hzi))).2.1
  · have h94 := (C94_ab_partial K hr A Ao hA hAo zs ms ivs cs hm hiv hcl hmr hivr hcn bs none (by simp) false false false).1
    rw [Option.map_none] at h94
    rw [h94]
    constructor
    · intro h1 z hz
      obtain ⟨i, hi', rfl⟩ := List.mem_iff_getElem.mp hz
      have hzi := List.getElem?_eq_getElem hi'
      obtain ⟨m, iv, c, a1, a2, a3⟩ := full i _ hzi
      obtain ⟨r, hr1⟩ := h1 i _ m iv c hzi a1 a2 a3
      by_contra hx
      exact ((one i _ m iv c hzi a1 a2 a3).2 hx).2.2 _ hr1
    · intro h1 i z m iv c hzi a1 a2 a3
      obtain ⟨a, ha⟩ := ((one i z m iv c hzi a1 a2 a3).1 (h1 z (List.mem_of_getElem? hzi))).2.2
      exact ⟨_, ha⟩

/-- C150 is false as stated: for a redshift outside the range, alone or anywhere in a batch, `fit_coeffs` returns (coefficients that are zero for that
object), and what it returns makes `kcorrect` raise. -/
theorem C150_false (lib : Lib ℝ) (disk : Disk ℝ) (cls : Cls) (R : List Name) (T : Tpl ℝ) (ro rmap : Option (List Name)) (lo hi : ℝ) (n : Nat)
    (ab : Bool) (dm : ℝ → ℝ) (w w' : Shared ℝ) (K : Kc ℝ) (h : Kc.init lib disk cls R T ro rmap lo hi n ab dm w = (w', .ok K)) (hlo : lo < hi)
    (hn : 2 ≤ n) (hr : AbReady K.abCls K.responses.length) (nnls : Nnls ℝ) (z : ℝ)
    (hz : z < lo ∨ hi < z) (m iv : List ℝ)
    (hm : m.length = K.responses.length) (hiv : iv.length = K.responses.length) (noise : Nat → Nat → Nat → ℝ) (bs : ℝ) (hb : lo ≤ bs ∧ bs ≤ hi) :
    ∃ out, K.fitCoeffs nnls (some (.scalar z)) (some (.vec m)) (some (.vec iv)) 0 noise = .ok out ∧
      K.reconstruct (some (.scalar z)) (some out.coeffs) 0 = .error .valueError ∧
      K.kcorrect (some (.scalar z)) (some out.coeffs) bs = .error .valueError ∧
      ∀ a, K.absmag (some (.vec m)) (some (.vec iv)) (some (.scalar z)) (some out.coeffs) bs none false false false ≠ .ok a := by
  obtain ⟨A, Ao, hA, hAo, hne, hne', g, go⟩ := init_grids h hlo hn
  have hx : ¬ InRange A.x z := by
    rw [g z]; rintro ⟨h1, h2⟩; rcases hz with h | h <;> linarith
  have hoff : OffGrid A z := by
    refine ⟨hne, ?_⟩
    rw [InRange, not_and_or, not_le, not_le] at hx
    rcases hx with h | h
    · left; simpa [ltb] using h
    · right; simpa [ltb] using h
  refine ⟨_, C51_ab_partial nnls K.toFitter hr A hA z hoff m iv hm hiv noise, ?_⟩
  exact (methods_range (z := z) hr hA hAo hne hne' ((go bs).mpr hb) hm hiv (by simp)).2 hx

/-- Not vacuous: a constructed object with two bands whose redshift range is 0 to 2, for which `fit_coeffs` returns inside the range (1) and outside (5). -/
example : ∃ w' K, Kc.init demoLib anyDisk .base [['x'], ['y']] (.sed demoShared.sed) none none 0 2 10 false (fun z => z) demoShared = (w', .ok K) ∧
    AbReady K.abCls K.responses.length ∧ K.responses.length = 2 ∧ ∃ nnls, NnlsLen nnls ∧ ∀ z ∈ [(1 : ℝ), 5], ∃ out,
      K.fitCoeffs nnls (some (.scalar z)) (some (.vec [1, 2])) (some (.vec [1, 1])) 0 (fun _ _ _ => 0) = .ok out := by
  obtain ⟨k, hk⟩ := any_made (LWorld.init.step (.newList [['x'], ['y']])) .base (some 2) 2 rfl
  have hl : (LWorld.init.step (.newList [['x'], ['y']]) : LWorld ℝ).lists 2 = [['x'], ['y']] := by simp [LWorld.step, LWorld.init]
  unfold LWorld.make at hk
  simp only [Option.or, hl, anyArgs, Option.map_none] at hk
  cases hi : Kc.init demoLib anyDisk .base [['x'], ['y']] (.sed demoShared.sed) none none 0 2 10 false (fun z => z) demoShared with
  | mk w' r =>
    rw [hi] at hk
    cases r with
    | error e => cases hk
    | ok K =>
      obtain ⟨w1, A, hcalc, hF, _⟩ := init_ok hi
      have hR : K.responses = [['x'], ['y']] := by rw [hF]; rfl
      have hab : K.abCls = .base := by rw [Fitter.abCls, hF]; rfl
      have hr : AbReady K.abCls K.responses.length := by rw [hab]; trivial
      refine ⟨w', K, rfl, hr, by rw [hR]; rfl, fun n _ _ _ => .ok (zeros n), ?_, ?_⟩
      · intro n A b it x h; cases h; simp [zeros]
      · intro z hz
        rw [fit_eff _ _ hr z _ _ (by rw [hR]; rfl) (by rw [hR]; rfl), fit_scalar _ (F := K.toFitter.plain) (Or.inl rfl)
          (by show K.responses.length ≠ 1; rw [hR]; simp) z _ _ (by rw [List.length_mapIdx]; show _ = K.responses.length; rw [hR]; rfl)
          (by rw [List.length_mapIdx]; show _ = K.responses.length; rw [hR]; rfl)]
        have hA : K.toFitter.plain.Amatrix = some A := by show K.Amatrix = some A; rw [hF]
        simp only [map_f32_list]
        generalize hiv : ([1, 1] : List ℝ).mapIdx (fun j x => x / abFactor K.abCls j ^ 2) = iv
        have hl : iv.length = 2 := by rw [← hiv]; rfl
        have hg : A.Good := calc_good (by norm_num) (by norm_num) hcalc
        have hrow : A.nrow = 2 := by
          obtain ⟨_, _, ms, hmk, _⟩ := calcAmatrix_ok hcalc
          unfold mkAMat at hmk
          split at hmk
          · cases hmk; rfl
          · cases hmk
        by_cases hx : InRange A.x z
        · obtain ⟨M, hM⟩ := (at_ok_iff hg.ne).mpr hx
          rw [real_f32, fitU_in0 hA hM _ (by rw [hl, (at_shaped hg hM).1, hrow])]
          exact ⟨_, rfl⟩
        · rw [real_f32, fitU_out0 hA (at_out hg.ne hx)]
          exact ⟨_, rfl⟩

end KC
