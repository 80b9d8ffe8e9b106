import Verif.Props.AnyBatch
import Verif.Props.BestFitAb
import Verif.Props.SolverChoice
import Verif.Props.LawsonHanson
import Verif.Props.AbIeee

/-!
Fits of arrays of any length, one included, without Monte Carlo (C51, C100, C145, C146, C161, C168, C184).
-/

namespace KC
open Spec

/-- C51, every class, arrays of every length: the objects outside the tabulated range get zeros and do not stop the others, whose rows are what they are alone. -/
theorem C51_every_length_partial (nnls : Nnls ℝ) (hlen : NnlsLen nnls) (F : Fitter ℝ) (hr : AbReady F.abCls F.responses.length)
    (hnb : F.responses.length ≠ 1) (Am : AMat ℝ) (hA : F.Amatrix = some Am)
    (zs : List ℝ) (ms ivs : List (List ℝ)) (hm : ms.length = zs.length) (hiv : ivs.length = zs.length)
    (hmr : ∀ r ∈ ms, r.length = F.responses.length) (hivr : ∀ r ∈ ivs, r.length = F.responses.length) (noise noise' : Nat → Nat → Nat → ℝ)
    (hothers : ∀ (k : Nat) z m iv, zs[k]? = some z → ms[k]? = some m → ivs[k]? = some iv → ¬ OffGrid Am z →
      ∃ o, F.fitCoeffs nnls (some (.scalar z)) (some (.vec m)) (some (.vec iv)) 0 noise' = .ok o) :
    ∃ cs, F.fitCoeffs nnls (some (.vec zs)) (some (.arr [zs.length] F.responses.length ms))
        (some (.arr [zs.length] F.responses.length ivs)) 0 noise = .ok ⟨.arr [zs.length] F.templates.nsed cs, none⟩ ∧
      cs.length = zs.length ∧
      ∀ (k : Nat) z m iv c, zs[k]? = some z → ms[k]? = some m → ivs[k]? = some iv → cs[k]? = some c →
        (OffGrid Am z → c = List.replicate F.templates.nsed 0) ∧
        (¬ OffGrid Am z → F.fitCoeffs nnls (some (.scalar z)) (some (.vec m)) (some (.vec iv)) 0 noise' = .ok ⟨.vec c, none⟩) := by
  have hoff : ∀ (k : Nat) z m iv, zs[k]? = some z → ms[k]? = some m → ivs[k]? = some iv → OffGrid Am z →
      F.fitCoeffs nnls (some (.scalar z)) (some (.vec m)) (some (.vec iv)) 0 noise' = .ok ⟨.vec (List.replicate F.templates.nsed 0), none⟩ :=
    fun k z m iv _ b c hz => C51_ab_partial nnls F hr Am hA z hz m iv (hmr m (List.mem_of_getElem? b)) (hivr iv (List.mem_of_getElem? c)) noise'
  obtain ⟨h1, h2⟩ := C52_every_length_partial nnls hlen F hr hnb zs ms ivs hm hiv hmr hivr noise noise'
  obtain ⟨out, hout⟩ := h1.mpr (fun k z m iv a b c => by
    by_cases hz : OffGrid Am z
    · exact ⟨_, hoff k z m iv a b c hz⟩
    · exact hothers k z m iv a b c hz)
  obtain ⟨cs, rfl, hl, hk⟩ := h2 out hout
  refine ⟨cs, hout, hl, fun k z m iv c a b c' d => ⟨fun hz => ?_, fun _ => hk k z m iv c a b c' d⟩⟩
  have e := (hk k z m iv c a b c' d).symm.trans (hoff k z m iv a b c' hz)
  simp only [Except.ok.injEq, FitOut.mk.injEq, NDA.vec, NDA.arr.injEq, List.cons.injEq, and_true] at e
  exact e.2.2

/-- C161, every class, arrays of every length: with a solver that returns, the fit of any number of objects in the range returns, one best fit per object. -/
theorem C161_every_length (nnls : Nnls ℝ) (hn : NNLSOK nnls) (F : Fitter ℝ) (hret : ∀ A b, ∃ x, solve nnls F.templates.nsed A b = .ok x)
    (hr : AbReady F.abCls F.responses.length)
    (hnb : F.responses.length ≠ 1) (Am : AMat ℝ) (hR : Ready F Am) (zs : List ℝ) (ms ivs : List (List ℝ))
    (hz : ∀ z ∈ zs, InRange Am.x z) (hm : ms.length = zs.length) (hiv : ivs.length = zs.length)
    (hmr : ∀ r ∈ ms, r.length = F.responses.length) (hivr : ∀ r ∈ ivs, r.length = F.responses.length)
    (hpos : ∀ iv ∈ ivs, ∀ v ∈ iv, 0 ≤ v) (noise : Nat → Nat → Nat → ℝ) :
    ∃ cs : List (List ℝ), cs.length = zs.length ∧
      F.fitCoeffs nnls (some (.vec zs)) (some (.arr [zs.length] F.responses.length ms)) (some (.arr [zs.length] F.responses.length ivs)) 0 noise =
        .ok ⟨.arr [zs.length] F.templates.nsed cs, none⟩ ∧
      ∀ (k : Nat) (z : ℝ) (m iv c : List ℝ), zs[k]? = some z → ms[k]? = some m → ivs[k]? = some iv → cs[k]? = some c →
        Optimal F z (abM F.abCls m) (abIv F.abCls iv) c := by
  obtain ⟨out, hout⟩ := (C52_every_length_partial nnls hn.len F hr hnb zs ms ivs hm hiv hmr hivr noise noise).1.mpr (fun k z m iv a b c => by
    obtain ⟨x, hx, _⟩ := C161_ab nnls hn F hret hr hnb Am hR z (hz z (List.mem_of_getElem? a)) m iv (hmr m (List.mem_of_getElem? b))
      (hivr iv (List.mem_of_getElem? c)) (hpos iv (List.mem_of_getElem? c)) noise
    exact ⟨_, hx⟩)
  obtain ⟨cs, rfl, hl, hk⟩ := C49_every_length nnls hn F hr hnb Am hR zs ms ivs hm hiv hmr hivr hpos noise out hout
  exact ⟨cs, hl, hout, fun k z m iv c a b c' d => hk k z m iv c a b c' d (hz z (List.mem_of_getElem? a))⟩

/-- C184, every class, arrays of every length: with the active-set method of SciPy in exact arithmetic and at most nine templates, the fit of any number of objects
in the range returns, one best fit per object. -/
theorem C184_every_length (F : Fitter ℝ) (h9 : F.templates.nsed ≤ 9) (hr : AbReady F.abCls F.responses.length)
    (hnb : F.responses.length ≠ 1) (Am : AMat ℝ) (hR : Ready F Am) (zs : List ℝ) (ms ivs : List (List ℝ))
    (hz : ∀ z ∈ zs, InRange Am.x z) (hm : ms.length = zs.length) (hiv : ivs.length = zs.length)
    (hmr : ∀ r ∈ ms, r.length = F.responses.length) (hivr : ∀ r ∈ ivs, r.length = F.responses.length)
    (hpos : ∀ iv ∈ ivs, ∀ v ∈ iv, 0 ≤ v) (noise : Nat → Nat → Nat → ℝ) :
    ∃ cs : List (List ℝ), cs.length = zs.length ∧
      F.fitCoeffs (lhNnls 0) (some (.vec zs)) (some (.arr [zs.length] F.responses.length ms)) (some (.arr [zs.length] F.responses.length ivs)) 0 noise =
        .ok ⟨.arr [zs.length] F.templates.nsed cs, none⟩ ∧
      ∀ (k : Nat) (z : ℝ) (m iv c : List ℝ), zs[k]? = some z → ms[k]? = some m → ivs[k]? = some iv → cs[k]? = some c →
        Optimal F z (abM F.abCls m) (abIv F.abCls iv) c :=
  C161_every_length _ C184_contract F (C184_retry _ h9) hr hnb Am hR zs ms ivs hz hm hiv hmr hivr hpos noise

/-- C168, every class, arrays of every length: if the bands with positive inverse variance of every object tell the templates apart, any two solvers that keep the
contract of nnls give the same coefficients. -/
theorem C168_every_length (nnls nnls' : Nnls ℝ) (hn : NNLSOK nnls) (hn' : NNLSOK nnls') (F : Fitter ℝ) (hr : AbReady F.abCls F.responses.length)
    (hnb : F.responses.length ≠ 1)
    (Am : AMat ℝ) (hR : Ready F Am) (zs : List ℝ) (ms ivs : List (List ℝ)) (hm : ms.length = zs.length) (hiv : ivs.length = zs.length)
    (hmr : ∀ r ∈ ms, r.length = F.responses.length) (hivr : ∀ r ∈ ivs, r.length = F.responses.length) (hpos : ∀ r ∈ ivs, ∀ v ∈ r, 0 ≤ v) (hz : ∀ z ∈ zs, InRange Am.x z)
    (hi : ∀ (k : Nat) z iv, zs[k]? = some z → ivs[k]? = some iv → Indep F z iv) (noise noise' : Nat → Nat → Nat → ℝ) (out out' : FitOut ℝ)
    (h : F.fitCoeffs nnls (some (.vec zs)) (some (.arr [zs.length] F.responses.length ms)) (some (.arr [zs.length] F.responses.length ivs)) 0 noise = .ok out)
    (h' : F.fitCoeffs nnls' (some (.vec zs)) (some (.arr [zs.length] F.responses.length ms)) (some (.arr [zs.length] F.responses.length ivs)) 0 noise' = .ok out') :
    out = out' := by
  obtain ⟨cs, rfl, g1, g2⟩ := (C52_every_length_partial nnls hn.len F hr hnb zs ms ivs hm hiv hmr hivr noise noise).2 out h
  obtain ⟨cs', rfl, g1', g2'⟩ := (C52_every_length_partial nnls' hn'.len F hr hnb zs ms ivs hm hiv hmr hivr noise' noise').2 out' h'
  have : cs = cs' := by
    apply List.ext_getElem (by rw [g1, g1'])
    intro k h1 h2
    have a := List.getElem?_eq_getElem (by omega : k < zs.length)
    have b := List.getElem?_eq_getElem (by omega : k < ms.length)
    have c := List.getElem?_eq_getElem (by omega : k < ivs.length)
    have e := C168_same nnls nnls' hn hn' F hr Am hR _ (hz _ (List.mem_of_getElem? a)) _ _ (hmr _ (List.mem_of_getElem? b)) (hivr _ (List.mem_of_getElem? c))
      (hpos _ (List.mem_of_getElem? c)) (hi k _ _ a c) noise noise' _ _ (g2 k _ _ _ _ a b c (List.getElem?_eq_getElem h1))
      (g2' k _ _ _ _ a b c (List.getElem?_eq_getElem h2))
    simp only [FitOut.mk.injEq, NDA.vec, NDA.arr.injEq, List.cons.injEq, and_true] at e
    exact e.2.2
  rw [this]

/-- C100, every class, arrays of every length: photometry without noise of a mixture per object.  The fit returns the mixtures, and `absmag` with what it returned
gives the absolute magnitudes of the mixtures. -/
theorem C100_every_length (nnls : Nnls ℝ) (hn : NNLSOK nnls) (K : Kc ℝ) (hr : AbReady K.abCls K.responses.length)
    (hnb : K.responses.length ≠ 1) (A Ao : AMat ℝ) (hR : Ready K.toFitter A) (hAo : K.AmatrixOut = some Ao)
    (zs : List ℝ) (ms ivs c0s : List (List ℝ)) (hm : ms.length = zs.length) (hiv : ivs.length = zs.length) (hcs : c0s.length = zs.length)
    (hml : ∀ m ∈ ms, m.length = K.responses.length) (hivl : ∀ m ∈ ivs, m.length = K.responses.length)
    (hpos : ∀ iv ∈ ivs, ∀ v ∈ iv, 0 ≤ v) (hcl : ∀ c ∈ c0s, c.length = K.templates.nsed) (hcp : ∀ c ∈ c0s, ∀ v ∈ c, 0 ≤ v)
    (hz : ∀ z ∈ zs, InRange A.x z)
    (htrue : ∀ (i : Nat) z m iv c0, zs[i]? = some z → ms[i]? = some m → ivs[i]? = some iv → c0s[i]? = some c0 →
      K.reconstruct (some (.scalar z)) (some (.vec c0)) 0 = .ok (.vec (abM K.abCls m)) ∧
      Determined K.toFitter z (abM K.abCls m) (abIv K.abCls iv) c0)
    (noise : Nat → Nat → Nat → ℝ) (out : FitOut ℝ)
    (hfit : K.toFitter.fitCoeffs nnls (some (.vec zs)) (some (.arr [zs.length] K.responses.length ms)) (some (.arr [zs.length] K.responses.length ivs)) 0 noise =
      .ok out) :
    out.coeffs = .arr [zs.length] K.templates.nsed c0s ∧
    ∀ (bs : ℝ) (dist : Option (List ℝ)) (a : NDA ℝ), (∀ ds ∈ dist, ds.length = zs.length ∧ ∀ d ∈ ds, 0 < d) →
      K.absmag (some (.arr [zs.length] K.responses.length ms)) (some (.arr [zs.length] K.responses.length ivs)) (some (.vec zs)) (some out.coeffs) bs
        (dist.map .vec) false false false = .ok (.one a) →
      ∀ (i : Nat) z m iv c0 b, zs[i]? = some z → ms[i]? = some m → ivs[i]? = some iv → c0s[i]? = some c0 →
        K.reconstructOut (some (.scalar 0)) (some (.vec c0)) bs = .ok b →
        ∀ (j q : Nat) mv v fb, K.imap[j]? = some q → m[q]? = some mv → 0 < mv → iv[q]? = some v → 0 < v → entry b 0 j = some fb → 0 < fb →
          entry a i j = some (mag fb - dmSpec K.distmod z (dist.map (fun ds => ent ds i))) := by
  obtain ⟨cs, rfl, hcsl, halone⟩ := (C52_every_length_partial nnls hn.len K.toFitter hr hnb zs ms ivs hm hiv hml hivl noise noise).2 out hfit
  have key : ∀ (i : Nat) z m iv c0 c, zs[i]? = some z → ms[i]? = some m → ivs[i]? = some iv → c0s[i]? = some c0 → cs[i]? = some c →
      c = c0 := by
    intro i z m iv c0 c h1 h2 h3 h4 h5
    obtain ⟨ht1, ht2⟩ := htrue i z m iv c0 h1 h2 h3 h4
    obtain ⟨hc, _⟩ := C100_ab nnls hn K hr A Ao hR hAo z (hz z (List.mem_of_getElem? h1)) m iv c0 (hml m (List.mem_of_getElem? h2))
      (hcl c0 (List.mem_of_getElem? h4)) (hcp c0 (List.mem_of_getElem? h4)) ht1 (hivl iv (List.mem_of_getElem? h3)) (hpos iv (List.mem_of_getElem? h3)) ht2
      noise _ (halone i z m iv c h1 h2 h3 h5)
    simp only [NDA.vec, NDA.arr.injEq, List.cons.injEq, and_true] at hc
    exact hc.2.2
  have hcs0 : cs = c0s := by
    apply List.ext_getElem (by omega)
    intro i h1 h2
    exact key i _ _ _ _ _ (List.getElem?_eq_getElem (by omega)) (List.getElem?_eq_getElem (by omega)) (List.getElem?_eq_getElem (by omega))
      (List.getElem?_eq_getElem h2) (List.getElem?_eq_getElem h1)
  subst hcs0
  refine ⟨rfl, ?_⟩
  intro bs dist a hd ha i z m iv c0 b h1 h2 h3 h4 hb j q mv v fb hj hmq hmv hvq hv hfb hfbp
  have hi : i < zs.length := (List.getElem?_eq_some_iff.mp h1).1
  obtain ⟨ret1, g1, _, g3⟩ := absmag_row K hr A Ao hR.set hAo zs ms ivs cs hm hiv hcs hml hivl hcl bs dist (fun ds hds => (hd ds hds).1) false false false _ ha
    i z m iv c0 h1 h2 h3 h4
  obtain ⟨a1, rfl⟩ := ret_shape g1
  obtain ⟨_, hrow⟩ := g3 0 a a1 rfl rfl
  obtain ⟨ht1, ht2⟩ := htrue i z m iv c0 h1 h2 h3 h4
  obtain ⟨_, hf⟩ := C100_ab nnls hn K hr A Ao hR hAo z (hz z (List.mem_of_getElem? h1)) m iv c0 (hml m (List.mem_of_getElem? h2))
    (hcl c0 (List.mem_of_getElem? h4)) (hcp c0 (List.mem_of_getElem? h4)) ht1 (hivl iv (List.mem_of_getElem? h3)) (hpos iv (List.mem_of_getElem? h3)) ht2
    noise _ (halone i z m iv c0 h1 h2 h3 h4)
  rw [hrow]
  exact hf bs (dist.map (fun ds => ent ds i)) a1 b (dist_pos hd hi) g1 hb j q mv v fb hj hmq hmv hvq hv hfb hfbp

/-- the fit of an array of one object, whatever numbers are computed with, returns exactly when that of the object does, and fails alike -/
theorem one_alike {α : Type} [Arith α] (L : F32Laws α) (nnls : Nnls α) (F : Fitter α) (hr : AbReady F.abCls F.responses.length) (hnb : F.responses.length ≠ 1)
    (z : α) (m iv : List α) (hm : m.length = F.responses.length) (hiv : iv.length = F.responses.length) (noise : Nat → Nat → Nat → α) :
    F.fitCoeffs nnls (some (.vec [z])) (some (.arr [1] F.responses.length [m])) (some (.arr [1] F.responses.length [iv])) 0 noise =
      (F.fitCoeffs nnls (some (.scalar z)) (some (.vec m)) (some (.vec iv)) 0 noise).map (fun o => match o.coeffs with
        | .arr _ w rows => ⟨.arr [1] w rows, none⟩
        | c => ⟨c, none⟩) := by
  have e := fit_table_ab L nnls F hr (.vec [z]) [1] [m] [iv] (by intro r h; rw [List.mem_singleton.mp h]; exact hm)
    (by intro r h; rw [List.mem_singleton.mp h]; exact hiv) 0 noise
  rw [e, fit_one_ab L nnls F hr z m iv hm hiv]
  have h1 := fit_array1 nnls (F := F.plain) (Or.inl rfl) hnb z (abRow F.abCls m) (abVRow F.abCls iv) noise
  have h2 := fit_scalar nnls (F := F.plain) (Or.inl rfl) hnb z (abRow F.abCls m) (abVRow F.abCls iv) (abRow_length F.abCls hm hr).1
    (abRow_length F.abCls hiv hr).2 0 noise
  rw [h2]
  refine h1.trans ?_
  cases fitU nnls F.plain (f32 z) ((abRow F.abCls m).map f32) ((abVRow F.abCls iv).map f32) 0 (noise 0) with
  | error e => rfl
  | ok r => rfl

/-- C146 for tables of every length without Monte Carlo, in every class: the fit of the table returns exactly when no redshift is NaN, and for every object in
the range all the fluxes are numbers and all the inverse variances are numbers that are not negative; otherwise it raises `ValueError`. -/
theorem C146_every_length (nnls : Nnls XR) (hs : ChecksFinite nnls) (F : Fitter XR) (hr : AbReady F.abCls F.responses.length) (A : AMat ℝ) (hA : F.Amatrix = some A.toXR)
    (hg : A.Good) (hnr : A.nrow = F.responses.length) (hnb : 2 ≤ F.responses.length) (hnc : 0 < A.ncol) (zs : List XR) (ms ivs : List (List XR))
    (hm : ms.length = zs.length) (hiv : ivs.length = zs.length) (hmr : ∀ r ∈ ms, r.length = F.responses.length)
    (hivr : ∀ r ∈ ivs, r.length = F.responses.length) (noise : Nat → Nat → Nat → XR) (hn : ∀ i k p, (noise i k p).Finite) :
    ((∃ out, F.fitCoeffs nnls (some (.vec zs)) (some (.arr [zs.length] F.responses.length ms)) (some (.arr [zs.length] F.responses.length ivs)) 0 noise = .ok out) ↔
      ∀ (k : Nat) z m iv, zs[k]? = some z → ms[k]? = some m → ivs[k]? = some iv → CanFit 0 A.x z m iv) ∧
    (∀ (k : Nat) z m iv, zs[k]? = some z → ms[k]? = some m → ivs[k]? = some iv → ¬ CanFit 0 A.x z m iv →
      F.fitCoeffs nnls (some (.vec zs)) (some (.arr [zs.length] F.responses.length ms)) (some (.arr [zs.length] F.responses.length ivs)) 0 noise =
        .error .valueError) := by
  by_cases hz : zs.length = 1
  · obtain ⟨z, rfl⟩ := List.length_eq_one_iff.mp hz
    obtain ⟨m, rfl⟩ := List.length_eq_one_iff.mp hm
    obtain ⟨iv, rfl⟩ := List.length_eq_one_iff.mp hiv
    have hm1 := hmr m (by simp)
    have hiv1 := hivr iv (by simp)
    have hone : ∀ (k : Nat) z' m' iv', [z][k]? = some z' → [m][k]? = some m' → [iv][k]? = some iv' → z' = z ∧ m' = m ∧ iv' = iv := by
      intro k z' m' iv' h1 h2 h3
      cases k with
      | zero => simp at h1 h2 h3; exact ⟨h1.symm, h2.symm, h3.symm⟩
      | succ k => simp at h1
    obtain ⟨a1, a2⟩ := C146_ab nnls hs F hr A hA hg hnr hnb hnc z m iv hm1 hiv1 0 noise hn
    simp only [List.length_singleton]
    rw [one_alike f32Laws_xr nnls F hr (by omega) z m iv hm1 hiv1 noise]
    refine ⟨⟨?_, ?_⟩, ?_⟩
    · rintro ⟨out, h⟩ k z' m' iv' e1 e2 e3
      obtain ⟨rfl, rfl, rfl⟩ := hone k z' m' iv' e1 e2 e3
      refine a1.mp ?_
      cases hf : F.fitCoeffs nnls (some (.scalar z')) (some (.vec m')) (some (.vec iv')) 0 noise with
      | error e => rw [hf] at h; cases h
      | ok o => exact ⟨o, rfl⟩
    · intro h
      obtain ⟨o, ho⟩ := a1.mpr (h 0 z m iv rfl rfl rfl)
      rw [ho]
      exact ⟨_, rfl⟩
    · intro k z' m' iv' e1 e2 e3 hnot
      obtain ⟨rfl, rfl, rfl⟩ := hone k z' m' iv' e1 e2 e3
      rw [a2 hnot]
      rfl
  · exact C146_ab_batch nnls hs F hr A hA hg hnr (by omega) hnc zs ms ivs hz hm hiv hmr hivr 0 noise hn

/-- C145 for tables of every length, in every class: the fluxes in the bands of zero inverse variance, as long as they are numbers of size up to `2^126`, have no
effect on the fit of the table. -/
theorem C145_every_length_partial (nnls : Nnls Ie) (F : Fitter Ie) (hr : AbReady F.abCls F.responses.length) (hnb : F.responses.length ≠ 1)
    (zs : List Ie) (ms ms' ivs : List (List Ie)) (hm : ms.length = zs.length) (hm' : ms'.length = zs.length) (hiv : ivs.length = zs.length)
    (hivr : ∀ r ∈ ivs, r.length = F.responses.length)
    (h : ∀ (k : Nat) iv m m', ivs[k]? = some iv → ms[k]? = some m → ms'[k]? = some m' → AgreeBelow iv m m') (noise : Nat → Nat → Nat → Ie) :
    F.fitCoeffs nnls (some (.vec zs)) (some (.arr [zs.length] F.responses.length ms)) (some (.arr [zs.length] F.responses.length ivs)) 0 noise =
    F.fitCoeffs nnls (some (.vec zs)) (some (.arr [zs.length] F.responses.length ms')) (some (.arr [zs.length] F.responses.length ivs)) 0 noise := by
  by_cases hz : zs.length = 1
  · obtain ⟨z, rfl⟩ := List.length_eq_one_iff.mp hz
    obtain ⟨m, rfl⟩ := List.length_eq_one_iff.mp hm
    obtain ⟨m', rfl⟩ := List.length_eq_one_iff.mp hm'
    obtain ⟨iv, rfl⟩ := List.length_eq_one_iff.mp hiv
    have hiv1 := hivr iv (by simp)
    have ha := h 0 iv m m' rfl rfl rfl
    simp only [List.length_singleton]
    rw [one_alike f32Laws_ie nnls F hr hnb z m iv (by rw [ha.1, hiv1]) hiv1 noise, one_alike f32Laws_ie nnls F hr hnb z m' iv (by rw [ha.2.1, hiv1]) hiv1 noise,
      C145_ab_partial nnls F hr hnb z m m' iv hiv1 ha noise]
  · exact C145_ab_batch_partial nnls F hr zs ms ms' ivs hz hm hm' hiv hivr h noise

/-- An array of one object with noise free photometry: with the active-set method the fit returns, and the coefficients are the true ones. -/
example : ∃ m, demoKc2.reconstruct (some (.scalar 2)) (some (.vec [1, 5])) 0 = .ok (.vec (abM demoKc2.abCls m)) ∧
    (∃ Ao, demoKc2.AmatrixOut = some Ao) ∧
    ∃ out, demoKc2.toFitter.fitCoeffs (lhNnls 0) (some (.vec [2])) (some (.arr [1] 2 [m])) (some (.arr [1] 2 [[1, 4]])) 0 (fun _ _ _ => 0) = .ok out ∧
      out.coeffs = .arr [1] 2 [[1, 5]] := by
  obtain ⟨m, o, hR, hz, hm, hdet, hfit, hmp⟩ := demo_noise_free
  have hml : m.length = 2 := by
    have := hm
    rw [show demoKc2.reconstruct (some (.scalar 2)) (some (.vec [1, 5])) 0 = .ok (.vec (mulVec [[1, 2], [3 / 2, 3 / 2]] [1, 5])) from
      recon_ready demo_ready demoAm2_at2 rfl] at this
    simp only [Except.ok.injEq, NDA.vec, NDA.arr.injEq, List.cons.injEq, and_true] at this
    rw [← this.2.2]; rfl
  have hab : abM demoKc2.abCls m = m := by rw [show demoKc2.abCls = .base from rfl, abM_base]
  have hab' : abIv demoKc2.abCls [1, 4] = [1, 4] := by rw [show demoKc2.abCls = .base from rfl, abIv_base]
  have h1 : ∀ r ∈ [m], r.length = demoKc2.responses.length := by
    intro r hr; rw [List.mem_singleton.mp hr]; exact hml
  have h2 : ∀ r ∈ [([1, 4] : List ℝ)], r.length = demoKc2.responses.length := by
    intro r hr; rw [List.mem_singleton.mp hr]; rfl
  have h3 : ∀ r ∈ [([1, 4] : List ℝ)], ∀ v ∈ r, 0 ≤ v := by
    intro r hr v hv
    rw [List.mem_singleton.mp hr] at hv
    simp only [List.mem_cons, List.not_mem_nil, or_false] at hv
    rcases hv with rfl | rfl <;> norm_num
  have h4 : ∀ z ∈ [(2 : ℝ)], InRange demoAm2.x z := by
    intro z hz'; rw [List.mem_singleton.mp hz']; exact hz
  obtain ⟨cs, -, hf, -⟩ := C184_every_length demoKc2.toFitter (by decide) trivial (by decide) demoAm2 hR [2] [m] [[1, 4]] h4 rfl rfl h1 h2 h3 (fun _ _ _ => 0)
  refine ⟨m, by rw [hab]; exact hm, ⟨_, rfl⟩, _, hf, ?_⟩
  exact (C100_every_length (lhNnls 0) C184_contract demoKc2 trivial (by decide) demoAm2 _ hR rfl [2] [m] [[1, 4]] [[1, 5]] rfl rfl rfl h1 h2 h3
    (by intro c hc; rw [List.mem_singleton.mp hc]; rfl)
    (by
      intro c hc v hv
      rw [List.mem_singleton.mp hc] at hv
      simp only [List.mem_cons, List.not_mem_nil, or_false] at hv
      rcases hv with rfl | rfl <;> norm_num) h4
    (by
      intro i z m' iv c0 a b c d
      cases i with
      | zero =>
        simp at a b c d
        subst a b c d
        exact ⟨by rw [hab]; exact hm, by rw [hab, hab']; exact hdet⟩
      | succ i => simp at a) _ _ hf).1

end KC
