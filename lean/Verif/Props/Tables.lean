import Verif.Props.BandShift
import Verif.Props.Between
import Verif.Props.DefaultObject
import Verif.Props.AnyBatch2

/-! # Derived quantities of tables of galaxies (C76, C77, C78, C154, C172, C175, C183, C184, C187) -/

namespace KC
open Spec

/-- entry `i` of the array `T` of a table is the number `E` of a galaxy alone -/
def IsAt (T E : NDA ℝ) (i : Nat) : Prop := ∃ x, E = .scalar x ∧ entry T 0 i = some x

/-- galaxy `i` of a table has the derived quantities `E` of a galaxy alone -/
structure RowIs (D E : Derived ℝ) (i : Nat) : Prop where
  mremain : IsAt D.mremain E.mremain i
  intsfh : IsAt D.intsfh E.intsfh i
  b50 : IsAt D.b50 E.b50 i
  b300 : IsAt D.b300 E.b300 i
  b1000 : IsAt D.b1000 E.b1000 i
  metallicity : IsAt D.metallicity E.metallicity i
  mtol : ∀ j, entry D.mtol i j = entry E.mtol 0 j

/-- `derived` of a table that returns: every galaxy has the values of the call for it alone. -/
theorem derived_row {K : Kc ℝ} {t : Tmpl ℝ} {Ao : AMat ℝ} (h : MassKc K t Ao) (g : Reg ℝ) (zs : List ℝ) (cs : List (List ℝ)) (hcs : cs.length = zs.length)
    (hc : ∀ c ∈ cs, c.length = K.templates.nsed) (bs : ℝ) (D : Derived ℝ)
    (hD : K.derived g (some (.vec zs)) (some (.arr [zs.length] K.templates.nsed cs)) bs none = .ok D) (i : Nat) (z : ℝ) (c : List ℝ)
    (hz : zs[i]? = some z) (hci : cs[i]? = some c) :
    ∃ E, K.derived g (some (.scalar z)) (some (.vec c)) bs none = .ok E ∧ RowIs D E i := by
  obtain ⟨_, _, ds, hds, rfl⟩ := (derived_array h.tpl h.mass h.out g zs cs hcs bs D).mp hD
  have hzip : (List.zip zs cs)[i]? = some (z, c) := by rw [List.getElem?_zip_eq_some]; exact ⟨hz, hci⟩
  obtain ⟨hi, hie⟩ := List.getElem?_eq_some_iff.mp hzip
  have hi' : i < ds.length := by rw [← hds.length_eq]; exact hi
  have hone := (List.forall₂_iff_get.mp hds).2 i hi hi'
  simp only [List.get_eq_getElem, hie] at hone
  rw [derOne_real] at hone
  refine ⟨_, by rw [derived_scalar h.tpl h.mass h.out g z c (hc c (List.mem_of_getElem? hci)), hone]; rfl, ?_⟩
  constructor
  all_goals first
    | exact ⟨_, rfl, by simp [entry, NDA.vec, hi']⟩
    | (intro j; simp [entry, hi'])

/-- `kcorrect` of a table that returns: every galaxy has the values of the call for it alone. -/
theorem kcorrect_row {K : Kc ℝ} {A Ao : AMat ℝ} (hA : K.Amatrix = some A) (hAo : K.AmatrixOut = some Ao) (zs : List ℝ) (cs : List (List ℝ))
    (hcs : cs.length = zs.length) (hcl : ∀ c ∈ cs, c.length = K.templates.nsed) (bs : ℝ) (out : NDA ℝ)
    (hk : K.kcorrect (some (.vec zs)) (some (.arr [zs.length] K.templates.nsed cs)) bs = .ok out) (i : Nat) (z : ℝ) (c : List ℝ) (hz : zs[i]? = some z)
    (hci : cs[i]? = some c) : ∃ r, K.kcorrect (some (.scalar z)) (some (.vec c)) bs = .ok r ∧ ∀ j, entry out i j = entry r 0 j := by
  obtain ⟨r, hr, hrow⟩ := ((C68_batch (by simp) K A Ao hA hAo zs cs bs hcs hcl).2 out hk).2 i z c hz hci
  refine ⟨r, hr, fun j => ?_⟩
  cases out with
  | scalar _ => cases hrow
  | arr lead w rows =>
    simp only [rowOf, Option.map_eq_some_iff] at hrow
    obtain ⟨row, hn, he⟩ := hrow
    rw [map_f32_real] at he
    subst he
    simp only [entry, hn, List.getElem?_cons_zero, Option.bind_some]

/-- C76, tables: galaxy `i` has the mass and the integrated star formation that its coefficients and the luminosity distance of its redshift give. -/
theorem C76_table_partial (K : Kc ℝ) (t : Tmpl ℝ) (Ao : AMat ℝ) (h : MassKc K t Ao) (hg : AMat.Good Ao) (g : Reg ℝ) (zs : List ℝ) (cs : List (List ℝ))
    (hcs : cs.length = zs.length) (hc : ∀ c ∈ cs, c.length = K.templates.nsed) (bs : ℝ) (D : Derived ℝ)
    (hD : K.derived g (some (.vec zs)) (some (.arr [zs.length] K.templates.nsed cs)) bs none = .ok D) (i : Nat) (z d : ℝ) (c : List ℝ)
    (hz : zs[i]? = some z) (hci : cs[i]? = some c) (hd : 0 < d) (hdm : K.distmod z = distanceModulus d) :
    entry D.mremain 0 i = some (total c t.mremain * (d * 10 ^ 5) ^ 2) ∧ entry D.intsfh 0 i = some (total c t.intsfh * (d * 10 ^ 5) ^ 2) := by
  obtain ⟨E, hE, hrow⟩ := derived_row h g zs cs hcs hc bs D hD i z c hz hci
  obtain ⟨e1, e2⟩ := C76_masses_partial K t Ao h hg g z c (hc c (List.mem_of_getElem? hci)) bs d hd hdm E hE
  obtain ⟨x, hx, hx'⟩ := hrow.mremain
  obtain ⟨y, hy, hy'⟩ := hrow.intsfh
  rw [e1] at hx; cases hx
  rw [e2] at hy; cases hy
  exact ⟨hx', hy'⟩

/-- C77 and C78, tables: metallicity, star-formation fractions and mass-to-light ratios of a galaxy are the same in another table, at another place, redshift and
cosmology, with its coefficients multiplied by a positive number. -/
theorem C77_table (K : Kc ℝ) (t : Tmpl ℝ) (Ao : AMat ℝ) (h : MassKc K t Ao) (hg : AMat.Good Ao) (hn : Ao.nrow = K.responsesOut.length) (g : Reg ℝ)
    (dm' : ℝ → ℝ) (zs zs' : List ℝ) (cs cs' : List (List ℝ)) (hcs : cs.length = zs.length) (hcs' : cs'.length = zs'.length)
    (hc : ∀ c ∈ cs, c.length = K.templates.nsed) (hc' : ∀ c ∈ cs', c.length = K.templates.nsed) (bs : ℝ) (D D' : Derived ℝ)
    (hD : K.derived g (some (.vec zs)) (some (.arr [zs.length] K.templates.nsed cs)) bs none = .ok D)
    (hD' : Kc.derived { K with distmod := dm' } g (some (.vec zs')) (some (.arr [zs'.length] K.templates.nsed cs')) bs none = .ok D') (i i' : Nat) (c : List ℝ)
    (s : ℝ) (hs : 0 < s) (hci : cs[i]? = some c) (hci' : cs'[i']? = some (c.map (s * ·))) :
    entry D'.metallicity 0 i' = entry D.metallicity 0 i ∧ entry D'.b50 0 i' = entry D.b50 0 i ∧ entry D'.b300 0 i' = entry D.b300 0 i ∧
      entry D'.b1000 0 i' = entry D.b1000 0 i ∧ ∀ j, entry D'.mtol i' j = entry D.mtol i j := by
  have h' : MassKc { K with distmod := dm' } t Ao := ⟨h.tpl, h.mass, h.out⟩
  obtain ⟨z, hz⟩ : ∃ z, zs[i]? = some z := ⟨_, List.getElem?_eq_getElem (by rw [← hcs]; exact (List.getElem?_eq_some_iff.mp hci).1)⟩
  obtain ⟨z', hz'⟩ : ∃ z, zs'[i']? = some z := ⟨_, List.getElem?_eq_getElem (by rw [← hcs']; exact (List.getElem?_eq_some_iff.mp hci').1)⟩
  obtain ⟨E, hE, hrow⟩ := derived_row h g zs cs hcs hc bs D hD i z c hz hci
  obtain ⟨E', hE', hrow'⟩ := derived_row h' g zs' cs' hcs' hc' bs D' hD' i' z' _ hz' hci'
  have hcl := hc c (List.mem_of_getElem? hci)
  obtain ⟨F, hF, f1, f2, f3, f4⟩ := C77_intensive K t Ao h hg g z z' dm' c hcl bs s hs E hE
  obtain ⟨G, hG, g1⟩ := C78_independent K t Ao h hg hn g z z' dm' c hcl bs s hs E hE
  rw [hE'] at hF hG
  cases hF; cases hG
  have key : ∀ {T T' x x' : NDA ℝ}, IsAt T x i → IsAt T' x' i' → x' = x → entry T' 0 i' = entry T 0 i := by
    rintro T T' x x' ⟨u, rfl, hu⟩ ⟨u', rfl, hu'⟩ e
    cases e
    rw [hu, hu']
  exact ⟨key hrow.metallicity hrow'.metallicity f1, key hrow.b50 hrow'.b50 f2, key hrow.b300 hrow'.b300 f3, key hrow.b1000 hrow'.b1000 f4,
    fun j => by rw [hrow.mtol, hrow'.mtol, g1]⟩

/-- C78, tables: the mass-to-light ratio of galaxy `i` in band `j` is its mass over its model flux at rest in solar units. -/
theorem C78_table (K : Kc ℝ) (t : Tmpl ℝ) (Ao : AMat ℝ) (h : MassKc K t Ao) (hg : AMat.Good Ao) (g : Reg ℝ) (zs : List ℝ) (cs : List (List ℝ))
    (hcs : cs.length = zs.length) (hc : ∀ c ∈ cs, c.length = K.templates.nsed) (bs : ℝ) (D : Derived ℝ)
    (hD : K.derived g (some (.vec zs)) (some (.arr [zs.length] K.templates.nsed cs)) bs none = .ok D) (i : Nat) (c : List ℝ) (hci : cs[i]? = some c) :
    ∃ o, K.reconstructOut (some (.scalar 0)) (some (.vec c)) bs = .ok o ∧
      ∀ (j : Nat) n r s v, K.responsesOut[j]? = some n → g n = some r → r.solarMag = some s → entry o 0 j = some v →
        entry D.mtol i j = some (if 0 < v then total c t.mremain / (v * 10 ^ (0.4 * s)) else 0) := by
  obtain ⟨z, hz⟩ : ∃ z, zs[i]? = some z := ⟨_, List.getElem?_eq_getElem (by rw [← hcs]; exact (List.getElem?_eq_some_iff.mp hci).1)⟩
  obtain ⟨E, hE, hrow⟩ := derived_row h g zs cs hcs hc bs D hD i z c hz hci
  obtain ⟨o, ho, _, hent⟩ := C78_formula K t Ao h hg g z c (hc c (List.mem_of_getElem? hci)) bs E hE
  exact ⟨o, ho, fun j n r s v a1 a2 a3 a4 => by rw [hrow.mtol]; exact hent j n r s v a1 a2 a3 a4⟩

/-- C154, tables: the absolute magnitude of galaxy `i` is that of its model plus the residual of its photometry in the band used. -/
theorem C154_table (K : Kc ℝ) (hr : AbReady K.abCls K.responses.length) (A Ao : AMat ℝ) (hA : K.Amatrix = some A) (hAo : K.AmatrixOut = some Ao)
    (zs : List ℝ) (ms ivs cs : List (List ℝ)) (hm : ms.length = zs.length) (hiv : ivs.length = zs.length) (hcs : cs.length = zs.length)
    (hml : ∀ m ∈ ms, m.length = K.responses.length) (hivl : ∀ m ∈ ivs, m.length = K.responses.length)
    (hcl : ∀ c ∈ cs, c.length = K.templates.nsed) (bs : ℝ) (dist : Option (List ℝ)) (hd : ∀ ds ∈ dist, ds.length = zs.length ∧ ∀ d ∈ ds, 0 < d) (a : NDA ℝ)
    (ha : K.absmag (some (.arr [zs.length] K.responses.length ms)) (some (.arr [zs.length] K.responses.length ivs)) (some (.vec zs))
        (some (.arr [zs.length] K.templates.nsed cs)) bs (dist.map .vec) false false false = .ok (.one a))
    (i : Nat) (z : ℝ) (m iv c : List ℝ) (hz : zs[i]? = some z) (hmi : ms[i]? = some m) (hivi : ivs[i]? = some iv) (hci : cs[i]? = some c) (hs : 0 < c.sum) :
    ∃ x y, K.reconstruct (some (.scalar z)) (some (.vec c)) 0 = .ok x ∧ K.reconstructOut (some (.scalar 0)) (some (.vec c)) bs = .ok y ∧
      ∀ (j q : Nat) mv v fa fb, K.imap[j]? = some q → m[q]? = some mv → iv[q]? = some v → 0 < mv → 0 < v → entry x 0 q = some fa → entry y 0 j = some fb →
        0 < fa → 0 < fb →
        entry a i j = some ((mag fb - dmSpec K.distmod z (dist.map (fun ds => ent ds i))) + (mag mv + abOffset K.abCls q - mag fa)) := by
  have hi : i < zs.length := (List.getElem?_eq_some_iff.mp hz).1
  obtain ⟨r1, h1, _, h3⟩ := absmag_row K hr A Ao hA hAo zs ms ivs cs hm hiv hcs hml hivl hcl bs dist (fun ds hds => (hd ds hds).1) false false false _ ha
    i z m iv c hz hmi hivi hci
  obtain ⟨a1, rfl⟩ := ret_shape h1
  obtain ⟨x, y, hx, hy, h⟩ := C154_residual K hr A Ao hA hAo z m iv c (hml m (List.mem_of_getElem? hmi)) (hivl iv (List.mem_of_getElem? hivi))
    (hcl c (List.mem_of_getElem? hci)) hs bs _ (dist_pos hd hi) a1 h1
  refine ⟨x, y, hx, hy, fun j q mv v fa fb q1 q2 q3 q4 q5 q6 q7 q8 q9 => ?_⟩
  rw [(h3 0 a a1 rfl rfl).2 j]
  exact h j q mv v fa fb q1 q2 q3 q4 q5 q6 q7 q8 q9

/-- C172, tables: the K-corrections of galaxy `i` with two band shifts. -/
theorem C172_kcorrect_table (K : Kc ℝ) (A Ao : AMat ℝ) (hA : K.Amatrix = some A) (hAo : K.AmatrixOut = some Ao) (bs bs' : ℝ) (zs : List ℝ) (cs : List (List ℝ))
    (hcs : cs.length = zs.length) (hcl : ∀ c ∈ cs, c.length = K.templates.nsed) (k k' : NDA ℝ)
    (hk : K.kcorrect (some (.vec zs)) (some (.arr [zs.length] K.templates.nsed cs)) bs = .ok k)
    (hk' : K.kcorrect (some (.vec zs)) (some (.arr [zs.length] K.templates.nsed cs)) bs' = .ok k') (i : Nat) (z : ℝ) (c : List ℝ)
    (hz : zs[i]? = some z) (hci : cs[i]? = some c) (hs : 0 < c.sum) :
    ∃ x y y', K.reconstruct (some (.scalar z)) (some (.vec c)) 0 = .ok x ∧ K.reconstructOut (some (.scalar 0)) (some (.vec c)) bs = .ok y ∧
      K.reconstructOut (some (.scalar 0)) (some (.vec c)) bs' = .ok y' ∧
      ∀ (j q : Nat) fa fb fb', K.imap[j]? = some q → entry x 0 q = some fa → entry y 0 j = some fb → entry y' 0 j = some fb' → 0 < fa → 0 < fb → 0 < fb' →
        ∃ v v', entry k i j = some v ∧ entry k' i j = some v' ∧ v' - v = mag fb - mag fb' := by
  obtain ⟨r, hr, e⟩ := kcorrect_row hA hAo zs cs hcs hcl bs k hk i z c hz hci
  obtain ⟨r', hr', e'⟩ := kcorrect_row hA hAo zs cs hcs hcl bs' k' hk' i z c hz hci
  obtain ⟨x, y, y', hx, hy, hy', H⟩ := C172_kcorrect K A Ao hA hAo z bs bs' c (hcl c (List.mem_of_getElem? hci)) hs r r' hr hr'
  refine ⟨x, y, y', hx, hy, hy', fun j q fa fb fb' a1 a2 a3 a4 a5 a6 a7 => ?_⟩
  rw [e, e']
  exact H j q fa fb fb' a1 a2 a3 a4 a5 a6 a7

/-- C172, tables: the mass-to-light ratios of galaxy `i` with two band shifts. -/
theorem C172_mass_to_light_table (K : Kc ℝ) (t : Tmpl ℝ) (Ao : AMat ℝ) (h : MassKc K t Ao) (hg : AMat.Good Ao) (g : Reg ℝ) (zs : List ℝ) (cs : List (List ℝ))
    (hcs : cs.length = zs.length) (hc : ∀ c ∈ cs, c.length = K.templates.nsed) (bs bs' : ℝ) (D D' : Derived ℝ)
    (hD : K.derived g (some (.vec zs)) (some (.arr [zs.length] K.templates.nsed cs)) bs none = .ok D)
    (hD' : K.derived g (some (.vec zs)) (some (.arr [zs.length] K.templates.nsed cs)) bs' none = .ok D') (i : Nat) (c : List ℝ) (hci : cs[i]? = some c) :
    ∃ y y', K.reconstructOut (some (.scalar 0)) (some (.vec c)) bs = .ok y ∧ K.reconstructOut (some (.scalar 0)) (some (.vec c)) bs' = .ok y' ∧
      ∀ (j : Nat) n r s v v' q q', K.responsesOut[j]? = some n → g n = some r → r.solarMag = some s → entry y 0 j = some v → entry y' 0 j = some v' →
        0 < v → 0 < v' → entry D.mtol i j = some q → entry D'.mtol i j = some q' → q' * v' = q * v := by
  obtain ⟨z, hz⟩ : ∃ z, zs[i]? = some z := ⟨_, List.getElem?_eq_getElem (by rw [← hcs]; exact (List.getElem?_eq_some_iff.mp hci).1)⟩
  obtain ⟨E, hE, hrow⟩ := derived_row h g zs cs hcs hc bs D hD i z c hz hci
  obtain ⟨E', hE', hrow'⟩ := derived_row h g zs cs hcs hc bs' D' hD' i z c hz hci
  obtain ⟨y, y', hy, hy', H⟩ := C172_mass_to_light K t Ao h hg g z c (hc c (List.mem_of_getElem? hci)) bs bs' E E' hE hE'
  refine ⟨y, y', hy, hy', fun j n r s v v' q q' a1 a2 a3 a4 a5 a6 a7 a8 a9 => ?_⟩
  rw [hrow.mtol] at a8
  rw [hrow'.mtol] at a9
  exact H j n r s v v' q q' a1 a2 a3 a4 a5 a6 a7 a8 a9

/-- C175, tables: metallicity and star-formation fractions of galaxy `i` lie between those of the templates it is made of. -/
theorem C175_derived_table (K : Kc ℝ) (t : Tmpl ℝ) (Ao : AMat ℝ) (h : MassKc K t Ao) (hg : AMat.Good Ao) (g : Reg ℝ) (zs : List ℝ) (cs : List (List ℝ))
    (hcs : cs.length = zs.length) (hc : ∀ c ∈ cs, c.length = K.templates.nsed) (bs : ℝ) (D : Derived ℝ)
    (hD : K.derived g (some (.vec zs)) (some (.arr [zs.length] K.templates.nsed cs)) bs none = .ok D) (i : Nat) (z : ℝ) (c : List ℝ)
    (hz : zs[i]? = some z) (hci : cs[i]? = some c) (hc0 : ∀ v ∈ c, 0 ≤ v) (hs : 0 < c.sum) (hpos : ∀ s, Uses c s → 0 < ent t.mremain s ∧ 0 < ent t.intsfh s) :
    ∃ Z b50 b300 b1000, entry D.metallicity 0 i = some Z ∧ entry D.b50 0 i = some b50 ∧ entry D.b300 0 i = some b300 ∧ entry D.b1000 0 i = some b1000 ∧
      Between c (fun s w => ∃ E, K.derived g (some (.scalar z)) (some (.vec (alone K.templates.nsed s))) bs none = .ok E ∧ E.metallicity = .scalar w) Z ∧
      Between c (fun s w => ∃ E, K.derived g (some (.scalar z)) (some (.vec (alone K.templates.nsed s))) bs none = .ok E ∧ E.b50 = .scalar w) b50 ∧
      Between c (fun s w => ∃ E, K.derived g (some (.scalar z)) (some (.vec (alone K.templates.nsed s))) bs none = .ok E ∧ E.b300 = .scalar w) b300 ∧
      Between c (fun s w => ∃ E, K.derived g (some (.scalar z)) (some (.vec (alone K.templates.nsed s))) bs none = .ok E ∧ E.b1000 = .scalar w) b1000 := by
  obtain ⟨E, hE, hrow⟩ := derived_row h g zs cs hcs hc bs D hD i z c hz hci
  obtain ⟨Z, b50, b300, b1000, e1, e2, e3, e4, H⟩ := C175_derived K t Ao h hg g z c (hc c (List.mem_of_getElem? hci)) hc0 hs bs E hE hpos
  have key : ∀ {T x : NDA ℝ} {u : ℝ}, IsAt T x i → x = .scalar u → entry T 0 i = some u := by
    rintro T x u ⟨w, rfl, hw⟩ e
    cases e
    exact hw
  exact ⟨Z, b50, b300, b1000, key hrow.metallicity e1, key hrow.b50 e2, key hrow.b300 e3, key hrow.b1000 e4, H⟩

/-- C175, tables: the mass-to-light ratio of galaxy `i` in a band lies between those of the templates it is made of. -/
theorem C175_mass_to_light_table (K : Kc ℝ) (t : Tmpl ℝ) (Ao : AMat ℝ) (h : MassKc K t Ao) (hg : AMat.Good Ao) (g : Reg ℝ) (zs : List ℝ) (cs : List (List ℝ))
    (hcs : cs.length = zs.length) (hc : ∀ c ∈ cs, c.length = K.templates.nsed) (bs : ℝ) (hbs : -1 < bs) (D : Derived ℝ)
    (hD : K.derived g (some (.vec zs)) (some (.arr [zs.length] K.templates.nsed cs)) bs none = .ok D) (i : Nat) (z : ℝ) (c : List ℝ)
    (hz : zs[i]? = some z) (hci : cs[i]? = some c) (hc0 : ∀ v ∈ c, 0 ≤ v) (hs : 0 < c.sum) (j : Nat) (hj : j < K.responsesOut.length)
    (hpos : ∀ s, Uses c s → ∃ b fb, K.reconstructOut (some (.scalar 0)) (some (.vec (alone K.templates.nsed s))) bs = .ok b ∧ entry b 0 j = some fb ∧ 0 < fb) :
    ∃ v, entry D.mtol i j = some v ∧
      Between c (fun s w => ∃ E, K.derived g (some (.scalar z)) (some (.vec (alone K.templates.nsed s))) bs none = .ok E ∧ entry E.mtol 0 j = some w) v := by
  obtain ⟨E, hE, hrow⟩ := derived_row h g zs cs hcs hc bs D hD i z c hz hci
  obtain ⟨v, hv, H⟩ := C175_mass_to_light K t Ao h hg g z c (hc c (List.mem_of_getElem? hci)) hc0 hs bs hbs E hE j hj hpos
  exact ⟨v, by rw [hrow.mtol]; exact hv, H⟩

/-- what the default templates guarantee of the derived quantities of galaxy `i` of a table -/
def DefaultRow (D : Derived ℝ) (i : Nat) : Prop :=
  ∃ b300 b1000 mr is Z, entry D.b50 0 i = some 0 ∧ entry D.b300 0 i = some b300 ∧ entry D.b1000 0 i = some b1000 ∧ entry D.mremain 0 i = some mr ∧
    entry D.intsfh 0 i = some is ∧ entry D.metallicity 0 i = some Z ∧ 0 ≤ b300 ∧ b300 ≤ b1000 ∧ b1000 ≤ 1 ∧ 0.52 * is ≤ mr ∧ mr ≤ 0.95 * is ∧
    (0 < mr → 0.0056 ≤ Z ∧ Z ≤ 0.051)

/-- C183, tables: every galaxy made of the default templates. -/
theorem C183_table (f : FitsFile ℝ) (hf : defaultHist.InFile f) (interp : Bool) (t : Tmpl ℝ) (ht : Tmpl.fromfits f interp = .ok t) (K : Kc ℝ) (Ao : AMat ℝ)
    (h : MassKc K t Ao) (hg : AMat.Good Ao) (g : Reg ℝ) (zs : List ℝ) (cs : List (List ℝ)) (hcs : cs.length = zs.length)
    (hc : ∀ c ∈ cs, c.length = K.templates.nsed) (bs : ℝ) (D : Derived ℝ)
    (hD : K.derived g (some (.vec zs)) (some (.arr [zs.length] K.templates.nsed cs)) bs none = .ok D) (i : Nat) (c : List ℝ) (hci : cs[i]? = some c)
    (hc0 : ∀ v ∈ c, 0 ≤ v) : DefaultRow D i := by
  obtain ⟨z, hz⟩ : ∃ z, zs[i]? = some z := ⟨_, List.getElem?_eq_getElem (by rw [← hcs]; exact (List.getElem?_eq_some_iff.mp hci).1)⟩
  obtain ⟨E, hE, hrow⟩ := derived_row h g zs cs hcs hc bs D hD i z c hz hci
  obtain ⟨b300, b1000, mr, is, Z, e0, e1, e2, e3, e4, e5, H⟩ := C183_default f hf interp t ht K Ao h hg g z c (hc c (List.mem_of_getElem? hci)) hc0 bs E hE
  have key : ∀ {T x : NDA ℝ} {u : ℝ}, IsAt T x i → x = .scalar u → entry T 0 i = some u := by
    rintro T x u ⟨w, rfl, hw⟩ e
    cases e
    exact hw
  exact ⟨b300, b1000, mr, is, Z, key hrow.b50 e0, key hrow.b300 e1, key hrow.b1000 e2, key hrow.mremain e3, key hrow.intsfh e4, key hrow.metallicity e5, H⟩

/-- C187, tables: with the shipped files the default object works for every table of galaxies, of any length: for all photometry with nonnegative inverse variances
and all redshifts from 0 to 2, `fit_coeffs` returns a best fit for every galaxy, and with these coefficients `kcorrect`, `absmag` and `derived` return at every band
shift from 0 to 2; the masses and fractions are as in C183. -/
theorem C187_table (lib : Lib ℝ) (hb : BrentqOK lib) (hsun : Reads lib.sun sunFile) (hvega : Reads lib.vega vegaFile) (disk : Disk ℝ)
    (hdisk : ∀ b ∈ defaultFiles, disk (datName b.name) = .ok (b.wave, b.resp)) (f : FitsFile ℝ) (hf : IsDefault f) (interp : Bool) (cls : Cls) (R : List Name)
    (hsub : ∀ n ∈ R, n ∈ gstBands) (ab : Bool) (dm : ℝ → ℝ) :
    ∃ t w' K, Tmpl.fromfits f interp = .ok t ∧
      Kc.init lib.cubic disk cls R (.template t) none none 0 2 4000 ab dm ⟨fun _ => none, t.toSed⟩ = (w', .ok K) ∧
      ∀ (_ : AbReady (if ab then cls else .base) R.length) (_ : R.length ≠ 1) (zs : List ℝ) (_ : ∀ z ∈ zs, 0 ≤ z ∧ z ≤ 2) (ms ivs : List (List ℝ))
        (_ : ms.length = zs.length) (_ : ivs.length = zs.length) (_ : ∀ m ∈ ms, m.length = R.length) (_ : ∀ m ∈ ivs, m.length = R.length)
        (_ : ∀ iv ∈ ivs, ∀ v ∈ iv, 0 ≤ v) (noise : Nat → Nat → Nat → ℝ),
        ∃ cs : List (List ℝ), cs.length = zs.length ∧
          K.fitCoeffs (lhNnls 0) (some (.vec zs)) (some (.arr [zs.length] R.length ms)) (some (.arr [zs.length] R.length ivs)) 0 noise =
            .ok ⟨.arr [zs.length] 5 cs, none⟩ ∧
          (∀ (i : Nat) z m iv c, zs[i]? = some z → ms[i]? = some m → ivs[i]? = some iv → cs[i]? = some c →
            Optimal K.toFitter z (abM K.abCls m) (abIv K.abCls iv) c) ∧
          ∀ bs, 0 ≤ bs → bs ≤ 2 →
            (∃ k, K.kcorrect (some (.vec zs)) (some (.arr [zs.length] 5 cs)) bs = .ok k) ∧
            (∃ a, K.absmag (some (.arr [zs.length] R.length ms)) (some (.arr [zs.length] R.length ivs)) (some (.vec zs)) (some (.arr [zs.length] 5 cs)) bs none
              false false false = .ok a) ∧
            ∃ D, K.derived w'.reg (some (.vec zs)) (some (.arr [zs.length] 5 cs)) bs none = .ok D ∧ ∀ i < zs.length, DefaultRow D i := by
  obtain ⟨t, w', K, ht, t1, t3, t4, t5, hK, k1, k2, hT, hns, hab, hmade, hgive⟩ := default_made lib hb hsun hvega disk hdisk f hf interp cls R hsub ab dm
  obtain ⟨A, Ao, hA, hAo, _, _, nA, nAo⟩ := hmade.nodes
  refine ⟨t, w', K, ht, hK, ?_⟩
  intro hr hnb zs hz ms ivs hms hivs hml hivl hpos noise
  rw [← hab] at hr
  rw [← k1] at hr hnb hml hivl ⊢
  rw [← hns]
  have hR : Ready K.toFitter A := ⟨hA, nA.good, nA.rows, by rw [nA.cols, hns]; exact t3⟩
  obtain ⟨A', Ao', hA', hAo', _, _, gA, gAo⟩ := init_grids hK (by norm_num) (by norm_num)
  rw [hA] at hA'; cases hA'
  rw [hAo] at hAo'; cases hAo'
  obtain ⟨cs, hl, hfit, ho⟩ := C184_every_length K.toFitter (by rw [hns]; norm_num) hr hnb A hR zs ms ivs (fun z h => (gA z).mpr (hz z h)) hms hivs hml hivl
    hpos noise
  refine ⟨cs, hl, hfit, ho, fun bs b0 b2 => ?_⟩
  have hbest : ∀ c ∈ cs, ∃ z m iv, Optimal K.toFitter z (abM K.abCls m) (abIv K.abCls iv) c := by
    intro c hc
    obtain ⟨i, hi, rfl⟩ := List.getElem_of_mem hc
    exact ⟨_, _, _, ho i _ _ _ _ (List.getElem?_eq_getElem (by omega)) (List.getElem?_eq_getElem (by omega)) (List.getElem?_eq_getElem (by omega))
      (List.getElem?_eq_getElem hi)⟩
  have hcl : ∀ c ∈ cs, c.length = K.templates.nsed := fun c hc => by obtain ⟨_, _, _, q⟩ := hbest c hc; exact q.1
  have hc0 : ∀ c ∈ cs, ∀ v ∈ c, 0 ≤ v := fun c hc => by obtain ⟨_, _, _, q⟩ := hbest c hc; exact q.2.1
  obtain ⟨_, p2, p3⟩ := C150_batch_partial lib.cubic disk cls R (.template t) none none 0 2 4000 ab dm _ w' K hK (by norm_num) (by norm_num) hr hnb (lhNnls 0)
    C184_contract.len zs ms ivs hms hivs hml hivl noise _ hfit bs ⟨b0, b2⟩
  have hmass : MassKc K t Ao := ⟨hT, by rw [hns]; exact t5, hAo⟩
  have hreg : ∀ n ∈ K.responsesOut, n ∈ gstBands ∧ ∃ R, FileGives lib.cubic disk n R ∧ w'.reg n = some (RespObj.full R) := by
    intro n hn
    rw [k2] at hn
    exact ⟨hsub n hn, hgive n hn⟩
  obtain ⟨M, hM⟩ : ∃ M, Ao.at bs = .ok M := by
    obtain ⟨M, _, _, _, _, _, hM, _⟩ := C45_bracketed Ao nAo.good bs ((gAo bs).mpr ⟨b0, b2⟩)
    exact ⟨M, hM⟩
  obtain ⟨ss, hss⟩ : ∃ ss, SolarMags K w'.reg ss := by
    have h5 : (List.replicate K.templates.nsed (0 : ℝ)).length = K.templates.nsed := List.length_replicate
    exact ((derived_returns hmass w'.reg 0 _ h5 bs).mp (C185_derived lib hsun hvega disk hdisk hmass w'.reg hreg 0 _ h5 bs M hM)).2
  obtain ⟨D, hD, _⟩ := C80_partial K t Ao hmass nAo.rows (by rw [k1, k2]) w'.reg ss hss zs cs hl bs M hM
  exact ⟨p2.mpr hz, p3.mpr hz, D, hD, fun i hi => C183_table f hf.2 interp t ht K Ao hmass nAo.good w'.reg zs cs hl hcl bs D hD i _
    (List.getElem?_eq_getElem (by omega)) (hc0 _ (List.getElem_mem _))⟩

/-- C184, Monte Carlo draws, every class: the fit of an object and of every draw returns, whatever the noise, and the coefficients of draw `k` are a best fit to the
maggies of draw `k`, column `k` of the samples returned. -/
theorem C184_mc_best (F : Fitter ℝ) (h9 : F.templates.nsed ≤ 9) (hr : AbReady F.abCls F.responses.length) (hnb : F.responses.length ≠ 1) (Am : AMat ℝ)
    (hR : Ready F Am) (z : ℝ) (hz : InRange Am.x z) (m iv : List ℝ) (hm : m.length = F.responses.length) (hiv : iv.length = F.responses.length)
    (hpos : ∀ v ∈ iv, 0 ≤ v) (mc : Nat) (hmc : 0 < mc) (noise : Nat → Nat → Nat → ℝ) :
    ∃ c cm mm, F.fitCoeffs (lhNnls 0) (some (.scalar z)) (some (.vec m)) (some (.vec iv)) mc noise =
        .ok ⟨.vec c, some (.arr [F.templates.nsed] mc cm, .arr [F.responses.length] mc mm)⟩ ∧
      Optimal F z (abM F.abCls m) (abIv F.abCls iv) c ∧ ∀ k < mc, Optimal F z (column mm k) (abIv F.abCls iv) (column cm k) := by
  obtain ⟨c, cm, mm, hfit⟩ := C184_mc F.plain h9 (Or.inl rfl) hnb Am (ready_plain hR) z hz (m.mapIdx (fun j x => x * abFactor F.abCls j))
    (iv.mapIdx (fun j x => x / abFactor F.abCls j ^ 2)) (by rw [List.length_mapIdx]; exact hm) (by rw [List.length_mapIdx]; exact hiv) mc hmc noise
  rw [← fit_eff (lhNnls 0) F hr z m iv hm hiv mc noise] at hfit
  obtain ⟨p, hp, hall⟩ := C55_ab (lhNnls 0) C184_contract.len F hr hnb Am hR.set z m iv hm hiv hpos
  obtain ⟨hfit0, cm', mm', hmc', hcl, hml, _, _, hk⟩ := hall mc hmc noise _ hfit
  cases hmc'
  obtain ⟨c', hc', ho⟩ := C49_ab (lhNnls 0) C184_contract F hr Am hR z hz m iv hm hiv hpos noise _ hfit0
  have e' : c = c' := by
    have := congrArg FitOut.coeffs hc'
    simp only [NDA.vec, NDA.arr.injEq, List.cons.injEq, and_true] at this
    exact this.2.2
  subst e'
  refine ⟨c, cm', mm', hfit, ho, fun k hk' => ?_⟩
  obtain ⟨h1, _, _⟩ := hk k hk'
  have hcol : (column mm' k).length = F.plain.responses.length := by rw [column, List.length_map, hml]; rfl
  obtain ⟨ck, hck, ho2⟩ := C49_optimal (lhNnls 0) C184_contract F.plain (Or.inl rfl) Am (ready_plain hR) z hz (column mm' k) (abIv F.abCls iv) hcol
    (by rw [abIv_length]; exact hiv) (abIv_nonneg F.abCls iv hpos) noise _ h1
  have e : column cm' k = ck := by
    have := congrArg FitOut.coeffs hck
    simp only [NDA.vec, NDA.arr.injEq, List.cons.injEq, and_true] at this
    exact this.2.2
  subst e
  rw [← optimal_plain]
  exact ho2

/-! ### The hypotheses can be met -/

/-- a table of two galaxies for which `derived` returns: the hypotheses of the tables of C76, C77, C78, C172 and C175 -/
theorem demo_derived_table : ∃ D, demoMass.derived demoReg (some (.vec [1, 1 / 2])) (some (.arr [[(1 : ℝ), 1 / 2].length] demoMass.templates.nsed [[2, 1], [0, 3]])) 0 none = .ok D ∧
    MassKc demoMass demoTmpl demoAm ∧ demoAm.Good ∧ demoAm.nrow = demoMass.responsesOut.length := by
  obtain ⟨D, hD, _⟩ := C80_partial demoMass demoTmpl demoAm demoMass_ok rfl rfl demoReg [4] demoSolar [1, 1 / 2] [[2, 1], [0, 3]] rfl 0 _ demoAm_at0
  exact ⟨D, hD, demoMass_ok, demoAm_good, rfl⟩

/-- its second galaxy has the mass of three of the second template at the distance of 1 Mpc -/
example (D : Derived ℝ)
    (hD : demoMass.derived demoReg (some (.vec [1, 1 / 2])) (some (.arr [[(1 : ℝ), 1 / 2].length] demoMass.templates.nsed [[2, 1], [0, 3]])) 0 none = .ok D) :
    entry D.mremain 0 1 = some (9 * 10 ^ 10) := by
  have h := (C76_table_partial demoMass demoTmpl demoAm demoMass_ok demoAm_good demoReg [1, 1 / 2] [[2, 1], [0, 3]] rfl (by decide) 0 D hD 1 (1 / 2) 1 [0, 3] rfl rfl
    one_pos rfl).1
  rw [h]
  norm_num [total, demoTmpl]

/-- `KcorrectGST()` with the shipped bands: a table of two galaxies seen in all ten bands, at redshifts 1 and 1/4, with the derived quantities of both (C183, C187) -/
example (dm : ℝ → ℝ) : ∃ t w' K cs D, Tmpl.fromfits flatFile true = .ok t ∧
    Kc.init shippedLib.cubic shippedDisk .gst gstBands (.template t) none none 0 2 4000 true dm ⟨fun _ => none, t.toSed⟩ = (w', .ok K) ∧
    K.fitCoeffs (lhNnls 0) (some (.vec [1, 1 / 4])) (some (.arr [2] 10 [List.replicate 10 20, List.replicate 10 (-3)]))
      (some (.arr [2] 10 [List.replicate 10 100, List.replicate 10 0])) 0 (fun _ _ _ => 0) = .ok ⟨.arr [2] 5 cs, none⟩ ∧
    K.derived w'.reg (some (.vec [1, 1 / 4])) (some (.arr [2] 5 cs)) 0.1 none = .ok D ∧ DefaultRow D 0 ∧ DefaultRow D 1 := by
  obtain ⟨h1, h2, h3⟩ := shipped_reads
  obtain ⟨t, w', K, ht, hK, h⟩ := C187_table shippedLib h3 h1 h2 shippedDisk shippedDisk_ok flatFile flatFile_default true .gst gstBands (fun _ h => h) true dm
  obtain ⟨cs, _, hc, _, hall⟩ := h (by show 7 ≤ gstBands.length; decide) (by decide) [1, 1 / 4] (by intro z hz; simp at hz; rcases hz with rfl | rfl <;> norm_num)
    [List.replicate 10 20, List.replicate 10 (-3)] [List.replicate 10 100, List.replicate 10 0] rfl rfl
    (by intro m hm; simp only [List.mem_cons, List.not_mem_nil, or_false] at hm; rcases hm with rfl | rfl <;> rfl)
    (by intro m hm; simp only [List.mem_cons, List.not_mem_nil, or_false] at hm; rcases hm with rfl | rfl <;> rfl)
    (by
      intro iv hm v hv
      simp only [List.mem_cons, List.not_mem_nil, or_false] at hm
      rcases hm with rfl | rfl <;> (rw [List.eq_of_mem_replicate hv]; try norm_num))
    (fun _ _ _ => 0)
  obtain ⟨_, _, D, hD, hrow⟩ := hall 0.1 (by norm_num) (by norm_num)
  exact ⟨t, w', K, cs, D, ht, hK, hc, hD, hrow 0 (by decide), hrow 1 (by decide)⟩

/-- three draws of an object with two bands (C184) -/
example (noise : Nat → Nat → Nat → ℝ) : ∃ c cm mm, demoFitter2.fitCoeffs (lhNnls 0) (some (.scalar 2)) (some (.vec [3, 1])) (some (.vec [1, 4])) 3 noise =
      .ok ⟨.vec c, some (.arr [demoFitter2.templates.nsed] 3 cm, .arr [demoFitter2.responses.length] 3 mm)⟩ ∧
    ∀ k < 3, Optimal demoFitter2 2 (column mm k) (abIv demoFitter2.abCls [1, 4]) (column cm k) := by
  obtain ⟨c, cm, mm, h, _, hk⟩ := C184_mc_best demoFitter2 (by decide) trivial (by decide) demoAm2 demo_ready 2 (by norm_num [InRange, demoAm2]) [3, 1] [1, 4] rfl rfl
    (by simp) 3 (by decide) noise
  exact ⟨c, cm, mm, h, hk⟩

end KC
