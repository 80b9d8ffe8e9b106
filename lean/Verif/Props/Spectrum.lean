import Verif.Lemmas.Spectrum
import Verif.Props.Shift
import Mathlib.Topology.LocallyFinite
import Mathlib.Topology.Algebra.Order.Field
import Mathlib.Topology.Instances.Real.Lemmas

/-! From the templates to the maggies and K-corrections of a constructed object. -/

namespace KC
open Spec

/-- `response.project(wave=W*(1+z), flux=f/(1+z))` returns `v`, for the response with curve `cv`: the maggies of the rest-frame spectrum `(W, f)`
seen at redshift `z`. -/
def Seen (lib : Lib ℝ) (cv : Curve ℝ) (W f : List ℝ) (z v : ℝ) : Prop :=
  projectArr lib cv (W.map (fun w => w * (1 + z))) (.vec (f.map (fun x => x / (1 + z)))) = .ok (.scalar v)

/-- `K` is an object made by the constructor from the templates `T` with `redshift_range=[lo, hi]` and `nredshift=n`; `g` is the response dictionary
afterwards. -/
structure Made (lib : Lib ℝ) (T : Tpl ℝ) (lo hi : ℝ) (n : Nat) (K : Kc ℝ) (g : Reg ℝ) : Prop where
  range : lo < hi
  two : 2 ≤ n
  ne : T.toSed.restFlux ≠ []
  len : ∀ row ∈ T.toSed.restFlux, row.length = T.toSed.restWave.length
  init : ∃ disk cls R out rmap ab dm w w', w.sed = T.toSed ∧ Kc.init lib disk cls R T out rmap lo hi n ab dm w = (w', .ok K) ∧ w'.reg = g

theorem modelSpectrum_mix (n : Nat) (c : List ℝ) (Y : List (List ℝ)) (h : ∀ y ∈ Y, y.length = n) : modelSpectrum n c Y = mix n c Y := by
  apply List.ext_getElem (by simp [modelSpectrum, mix_length n c Y h])
  intro j h1 h2
  have hj : j < n := by simpa [modelSpectrum] using h1
  have := mix_ent n c Y j h hj
  rw [ent_some h2] at this
  rw [this]
  simp only [modelSpectrum, List.getElem_map, List.getElem_range, dot, sumL_real, List.zipWith_map_right, ent, real_lit]
  norm_num

theorem projectArr_vec (lib : Lib ℝ) (cv : Curve ℝ) {w y : List ℝ} {ys : List (List ℝ)} {itp : Interp ℝ} (h : mkInterp w ys = .ok itp)
    (hy : y.length = w.length) : projectArr lib cv w (.vec y) = .ok (.scalar (band1 lib cv w y)) := by
  obtain ⟨_, _, h4, hd⟩ := mkInterp_eq h
  have hi : mkInterp w [y] = .ok ⟨gather w (argsort w), [gather y (argsort w)]⟩ := by
    unfold mkInterp
    rw [if_pos (by simpa using hy), if_pos h4, if_pos hd]
    rfl
  have e : projectArr lib cv w (.vec y) = (mkInterp w [y]).map (fun itp => projectWith lib cv w itp) := by
    have e1 : w.map (f32 : ℝ → ℝ) = w := List.map_id w
    have e2 : y.map (f32 : ℝ → ℝ) = y := List.map_id y
    unfold projectArr
    simp only [NDA.vec, NDA.map, List.map_cons, List.map_nil, e1, e2, hy, ne_eq, not_true_eq_false, if_false, List.length_nil]
    rw [if_neg (by omega)]
    simp only [ok_bind]
    cases mkInterp w [y] <;> rfl
  rw [e, hi]
  simp only [Except.map]
  unfold projectWith band1
  cases projGrid w cv.wave with
  | none => simp [real_lit]
  | some grid =>
    simp only [Interp.eval, projOnGrid, List.map_cons, List.map_nil]
    have : (sedAbAt : ℝ → ℝ) = abFlux := by funext w; exact sedAbAt_real w
    rw [this]

theorem seen_iff {lib : Lib ℝ} {cv : Curve ℝ} {W : List ℝ} {f : List ℝ} {z v : ℝ} {Y : List (List ℝ)} {itp : Interp ℝ}
    (h : mkInterp (W.map (fun v => v * (1 + z))) (Y.map (List.map (fun f => f / (1 + z)))) = .ok itp) (hf : f.length = W.length) :
    Seen lib cv W f z v ↔ v = cell lib cv W z f := by
  unfold Seen
  rw [projectArr_vec lib cv h (by simpa using hf)]
  unfold cell
  simp [eq_comm]

/-- The maggies that a matrix with the entries `Nodes` gives. -/
theorem Nodes.recon {lib : Lib ℝ} (hlin : SplineLinear lib) {W : List ℝ} {Y : List (List ℝ)} {zs : List ℝ} {rs : List Name} {g : Reg ℝ} {A : AMat ℝ}
    (h : Nodes lib W Y zs rs g A) (hY : ∀ y ∈ Y, y.length = W.length) {F : Fitter ℝ} (hF : F.templates.nsed = Y.length) {z bs : ℝ} {c : List ℝ}
    (hc : c.length = Y.length) {k : Nat} {a b : ℝ} (ha : zs[k]? = some a) (hb : zs[k + 1]? = some b)
    (h1 : a ≤ (1 + z) * (1 + bs) - 1) (h2 : (1 + z) * (1 + bs) - 1 ≤ b) :
    ∃ m, reconstructWith F (some A) (some (.scalar z)) (some (.vec c)) bs = .ok m ∧ m.shape = [rs.length] ∧
      ∀ (j : Nat) n, rs[j]? = some n → ∃ o cv va vb, g n = some o ∧ o.curve = .ok cv ∧
        Seen lib cv W (modelSpectrum W.length c Y) a va ∧ Seen lib cv W (modelSpectrum W.length c Y) b vb ∧
        entry m 0 j = some (linEntry a b ((1 + z) * (1 + bs) - 1) va vb / (1 + bs)) := by
  set s := (1 + z) * (1 + bs) - 1 with hs
  obtain ⟨hk, eb⟩ := List.getElem?_eq_some_iff.mp hb
  obtain ⟨_, ea⟩ := List.getElem?_eq_some_iff.mp ha
  have hkx : k + 1 < A.x.length := by rw [h.x]; exact hk
  have xa : ent A.x k = a := by rw [h.x, ent_some (by omega)]; exact ea
  have xb : ent A.x (k + 1) = b := by rw [h.x, ent_some hk]; exact eb
  have hat := at_cell h.good hkx (q := s) (by rw [xa]; exact h1) (by rw [xb]; exact h2)
  obtain ⟨Ma, hMa, la, ra⟩ := h.node a (List.mem_of_getElem? ha)
  obtain ⟨Mb, hMb, lb, rb⟩ := h.node b (List.mem_of_getElem? hb)
  have na := at_node h.good (k := k) (by omega)
  have nb := at_node h.good (k := k + 1) hkx
  rw [xa, hMa] at na
  rw [xb, hMb] at nb
  simp only [Except.ok.injEq] at na nb
  rw [xa, xb, ← na, ← nb] at hat
  refine ⟨_, by rw [recon_scalar F A z c bs (by rw [hF]; exact hc), real_f32, shiftOf_real, map_f32_list, hat]; rfl, ?_, ?_⟩
  · simp [NDA.shape, h.rows]
  · intro j n hj
    obtain ⟨o, cv, ia, ho, hcv, hia, rowa⟩ := ra j n hj
    obtain ⟨o', cv', ib, ho', hcv', hib, rowb⟩ := rb j n hj
    rw [ho] at ho'; cases ho'
    rw [hcv] at hcv'; cases hcv'
    rw [modelSpectrum_mix _ _ _ hY]
    have hml := mix_length W.length c Y hY
    refine ⟨o, cv, _, _, ho, hcv, (seen_iff hia hml).mpr rfl, (seen_iff hib hml).mpr rfl, ?_⟩
    rw [cell_mix hlin _ _ _ _ _ hY, cell_mix hlin _ _ _ _ _ hY, dot_linEntry _ _ _ _ _ _ (by simp [hc]) (by simp [hc])]
    simp only [entry, List.getElem?_cons_zero, Option.bind_some, reconRow, linBetween, List.getElem?_map, List.getElem?_zipWith, rowa, rowb,
      Option.map_some, real_lit]
    rw [dot_comm]
    norm_num

theorem Made.nodes {lib : Lib ℝ} {T : Tpl ℝ} {lo hi : ℝ} {n : Nat} {K : Kc ℝ} {g : Reg ℝ} (h : Made lib T lo hi n K g) :
    ∃ A Ao, K.Amatrix = some A ∧ K.AmatrixOut = some Ao ∧ K.templates = T ∧ K.redshifts = redshiftGrid lo hi n ∧
      Nodes lib T.toSed.restWave T.toSed.restFlux (redshiftGrid lo hi n) K.responses g A ∧
      Nodes lib T.toSed.restWave T.toSed.restFlux (redshiftGrid lo hi n) K.responsesOut g Ao := by
  obtain ⟨disk, cls, R, out, rmap, ab, dm, w, w', hw, hi, hg⟩ := h.init
  obtain ⟨A, Ao, h1, h2, h3, h4, h5, h6, h7, h8⟩ := init_nodes h.range h.two hw h.ne h.len hi
  subst hg
  exact ⟨A, Ao, h1, h2, h3, h6, by rw [h4]; exact h7, by rw [h5]; exact h8⟩

/-- straight line through `(a, va)` and `(b, vb)` at `s` -/
theorem linEntry_weights {a b s va vb : ℝ} (h : a < b) : linEntry a b s va vb = (b - s) / (b - a) * va + (s - a) / (b - a) * vb := by
  have : b - a ≠ 0 := by linarith
  unfold linEntry
  field_simp
  ring

theorem linEntry_left {a b va vb : ℝ} : linEntry a b a va vb = va := by unfold linEntry; ring

theorem linEntry_right {a b va vb : ℝ} (h : a < b) : linEntry a b b va vb = vb := by
  have : b - a ≠ 0 := by linarith
  unfold linEntry; field_simp; ring

theorem grid_next {lo hi : ℝ} {n : Nat} (h : lo < hi) (hn : 2 ≤ n) {k : Nat} {a b : ℝ} (ha : (redshiftGrid lo hi n)[k]? = some a)
    (hb : (redshiftGrid lo hi n)[k + 1]? = some b) : a < b := by
  obtain ⟨_, _, _, _, hd⟩ := C43_grid lo hi n h hn
  have := hd k a b ha hb
  have h2 : (2 : ℝ) ≤ n := by exact_mod_cast hn
  have : 0 < b - a := by rw [this]; apply div_pos <;> linarith
  linarith

/-- Every point of the range lies in a cell of the grid. -/
theorem grid_cell {lo hi : ℝ} {n : Nat} (h : lo < hi) (hn : 2 ≤ n) {s : ℝ} (h1 : lo ≤ s) (h2 : s ≤ hi) :
    ∃ k a b, (redshiftGrid lo hi n)[k]? = some a ∧ (redshiftGrid lo hi n)[k + 1]? = some b ∧ a ≤ s ∧ s ≤ b := by
  obtain ⟨hl, h0, hN, hp, _⟩ := C43_grid lo hi n h hn
  have hin : InRange (redshiftGrid lo hi n) s := by
    have hne : redshiftGrid lo hi n ≠ [] := by intro e; rw [e] at hl; simp at hl; omega
    refine ⟨?_, ?_⟩
    · rw [headD_eq_ent, ent_some (by rw [hl]; omega)]
      have := (List.getElem?_eq_some_iff.mp h0).2
      rw [this]; exact h1
    · rw [getLastD_eq_ent _ hne, ent_some (by rw [hl]; omega)]
      have := (List.getElem?_eq_some_iff.mp hN).2
      simp only [hl]; rw [this]; exact h2
  obtain ⟨q1, q2, q3, q4⟩ := bracket_idx hp (by rw [hl]; exact hn) hin
  set k := clipIdx (redshiftGrid lo hi n).length (searchLeft (redshiftGrid lo hi n) s)
  refine ⟨k - 1, _, _, List.getElem?_eq_getElem (by omega), List.getElem?_eq_getElem (by omega), ?_, ?_⟩
  · rw [ent_some (by omega)] at q3; exact q3
  · rw [ent_some q2] at q4
    simpa [Nat.sub_add_cancel q1] using q4

/-- C107: the model maggies in the input and in the output bands at redshift `z` and band shift `bs`, for every
`s = (1 + z)(1 + bs) - 1` in the redshift range: they are `1/(1 + bs)` times the linear interpolation, between the two neighbouring grid redshifts, of
the maggies of the model spectrum `Σ coeffs · templates` seen through each band. -/
theorem C107_interpolated (lib : Lib ℝ) (hlin : SplineLinear lib) (T : Tpl ℝ) (lo hi : ℝ) (n : Nat) (K : Kc ℝ) (g : Reg ℝ)
    (h : Made lib T lo hi n K g) (z bs : ℝ) (c : List ℝ) (hc : c.length = K.templates.nsed)
    (h1 : lo ≤ (1 + z) * (1 + bs) - 1) (h2 : (1 + z) * (1 + bs) - 1 ≤ hi) :
    ∃ (k : Nat) (a b : ℝ), K.redshifts[k]? = some a ∧ K.redshifts[k + 1]? = some b ∧ a < b ∧ a ≤ (1 + z) * (1 + bs) - 1 ∧ (1 + z) * (1 + bs) - 1 ≤ b ∧
      (∃ m, K.reconstruct (some (.scalar z)) (some (.vec c)) bs = .ok m ∧ m.shape = [K.responses.length] ∧
        ∀ (j : Nat) r, K.responses[j]? = some r → ∃ o cv va vb, g r = some o ∧ o.curve = .ok cv ∧
          Seen lib cv T.toSed.restWave (modelSpectrum T.toSed.restWave.length c T.toSed.restFlux) a va ∧
          Seen lib cv T.toSed.restWave (modelSpectrum T.toSed.restWave.length c T.toSed.restFlux) b vb ∧
          entry m 0 j = some (((b - ((1 + z) * (1 + bs) - 1)) / (b - a) * va + (((1 + z) * (1 + bs) - 1) - a) / (b - a) * vb) / (1 + bs))) ∧
      (∃ m, K.reconstructOut (some (.scalar z)) (some (.vec c)) bs = .ok m ∧ m.shape = [K.responsesOut.length] ∧
        ∀ (j : Nat) r, K.responsesOut[j]? = some r → ∃ o cv va vb, g r = some o ∧ o.curve = .ok cv ∧
          Seen lib cv T.toSed.restWave (modelSpectrum T.toSed.restWave.length c T.toSed.restFlux) a va ∧
          Seen lib cv T.toSed.restWave (modelSpectrum T.toSed.restWave.length c T.toSed.restFlux) b vb ∧
          entry m 0 j = some (((b - ((1 + z) * (1 + bs) - 1)) / (b - a) * va + (((1 + z) * (1 + bs) - 1) - a) / (b - a) * vb) / (1 + bs))) := by
  obtain ⟨A, Ao, e1, e2, e3, e4, N, No⟩ := h.nodes
  obtain ⟨k, a, b, ha, hb, q1, q2⟩ := grid_cell h.range h.two h1 h2
  have hab := grid_next h.range h.two ha hb
  have hF : K.templates.nsed = T.toSed.restFlux.length := by rw [e3]; rfl
  refine ⟨k, a, b, by rw [e4]; exact ha, by rw [e4]; exact hb, hab, q1, q2, ?_, ?_⟩
  · have := N.recon hlin h.len hF (hc.trans hF) ha hb q1 q2
    unfold Fitter.reconstruct
    rw [e1]
    simpa only [linEntry_weights hab] using this
  · have := No.recon hlin h.len hF (hc.trans hF) ha hb q1 q2
    unfold Kc.reconstructOut
    rw [e2]
    simpa only [linEntry_weights hab] using this

/-- C107: when `(1 + z)(1 + bs) - 1` is a grid redshift, the model maggies times `1 + bs` are exactly the maggies of the model spectrum at that
redshift. -/
theorem C107_on_grid (lib : Lib ℝ) (hlin : SplineLinear lib) (T : Tpl ℝ) (lo hi : ℝ) (n : Nat) (K : Kc ℝ) (g : Reg ℝ)
    (h : Made lib T lo hi n K g) (z bs : ℝ) (c : List ℝ) (hc : c.length = K.templates.nsed) (hs : (1 + z) * (1 + bs) - 1 ∈ K.redshifts) :
    (∃ m, K.reconstruct (some (.scalar z)) (some (.vec c)) bs = .ok m ∧ m.shape = [K.responses.length] ∧
        ∀ (j : Nat) r, K.responses[j]? = some r → ∃ o cv v, g r = some o ∧ o.curve = .ok cv ∧
          Seen lib cv T.toSed.restWave (modelSpectrum T.toSed.restWave.length c T.toSed.restFlux) ((1 + z) * (1 + bs) - 1) v ∧
          entry m 0 j = some (v / (1 + bs))) ∧
      (∃ m, K.reconstructOut (some (.scalar z)) (some (.vec c)) bs = .ok m ∧ m.shape = [K.responsesOut.length] ∧
        ∀ (j : Nat) r, K.responsesOut[j]? = some r → ∃ o cv v, g r = some o ∧ o.curve = .ok cv ∧
          Seen lib cv T.toSed.restWave (modelSpectrum T.toSed.restWave.length c T.toSed.restFlux) ((1 + z) * (1 + bs) - 1) v ∧
          entry m 0 j = some (v / (1 + bs))) := by
  obtain ⟨A, Ao, e1, e2, e3, e4, N, No⟩ := h.nodes
  rw [e4] at hs
  have hF : K.templates.nsed = T.toSed.restFlux.length := by rw [e3]; rfl
  obtain ⟨hl, _⟩ := C43_grid lo hi n h.range h.two
  obtain ⟨i, hi', ei⟩ := List.mem_iff_getElem.mp hs
  -- the node is the left end of a cell or the right end of the last one
  have key : ∀ {rs : List Name} {B : AMat ℝ}, Nodes lib T.toSed.restWave T.toSed.restFlux (redshiftGrid lo hi n) rs g B →
      ∃ m, reconstructWith K.toFitter (some B) (some (.scalar z)) (some (.vec c)) bs = .ok m ∧ m.shape = [rs.length] ∧
        ∀ (j : Nat) r, rs[j]? = some r → ∃ o cv v, g r = some o ∧ o.curve = .ok cv ∧
          Seen lib cv T.toSed.restWave (modelSpectrum T.toSed.restWave.length c T.toSed.restFlux) ((1 + z) * (1 + bs) - 1) v ∧
          entry m 0 j = some (v / (1 + bs)) := by
    intro rs B hB
    by_cases hlast : i + 1 < n
    · have ha := List.getElem?_eq_getElem hi'
      have hb := List.getElem?_eq_getElem (l := redshiftGrid lo hi n) (i := i + 1) (by rw [hl]; exact hlast)
      have hab := grid_next h.range h.two ha hb
      rw [ei] at ha hab
      obtain ⟨m, m1, m2, m3⟩ := hB.recon hlin h.len hF (hc.trans hF) ha hb le_rfl hab.le
      refine ⟨m, m1, m2, fun j r hj => ?_⟩
      obtain ⟨o, cv, va, vb, o1, o2, o3, _, o4⟩ := m3 j r hj
      exact ⟨o, cv, va, o1, o2, o3, by rw [linEntry_left] at o4; exact o4⟩
    · obtain ⟨p, rfl⟩ : ∃ p, i = p + 1 := ⟨i - 1, by have := h.two; omega⟩
      have hb := List.getElem?_eq_getElem hi'
      have ha := List.getElem?_eq_getElem (l := redshiftGrid lo hi n) (i := p) (by omega)
      have hab := grid_next h.range h.two ha hb
      rw [ei] at hb hab
      obtain ⟨m, m1, m2, m3⟩ := hB.recon hlin h.len hF (hc.trans hF) ha hb hab.le le_rfl
      refine ⟨m, m1, m2, fun j r hj => ?_⟩
      obtain ⟨o, cv, va, vb, o1, o2, _, o3, o4⟩ := m3 j r hj
      exact ⟨o, cv, vb, o1, o2, o3, by rw [linEntry_right hab] at o4; exact o4⟩
  refine ⟨?_, ?_⟩
  · unfold Fitter.reconstruct; rw [e1]; exact key N
  · unfold Kc.reconstructOut; rw [e2]; exact key No

/-! ### K-corrections -/

theorem blueshift_curve {lib : Lib ℝ} {wave resp : List ℝ} {z : ℝ} (hz : -1 < z) {R R' : Resp ℝ} (hR : mkResponse lib wave resp = .ok R)
    (hR' : mkResponse lib (wave.map (fun w => w / (1 + z))) resp = .ok R') :
    R.wave = R'.wave.map (fun w => w * (1 + z)) ∧ R.resp = R'.resp := by
  have hk : (0 : ℝ) < 1 + z := by linarith
  obtain ⟨hl, hw, hr, _⟩ := mkResponse_ok hR
  obtain ⟨_, hw', hr', _⟩ := mkResponse_ok hR'
  have ediv : wave.map (fun w => w / (1 + z)) = wave.map (fun w => w * (1 + z)⁻¹) :=
    List.map_congr_left (fun w _ => by rw [div_eq_mul_inv])
  rw [ediv, argsort_scale _ _ (inv_pos.mpr hk), gather_map _ _ _ (argsort_lt wave)] at hw'
  rw [ediv, argsort_scale _ _ (inv_pos.mpr hk)] at hr'
  refine ⟨?_, by rw [hr, hr']⟩
  rw [hw, hw', List.map_map]
  conv_lhs => rw [← List.map_id (gather wave (argsort wave))]
  apply List.map_congr_left
  intro w _
  simp only [Function.comp_apply, id]
  field_simp

theorem projectArr_strict (lib : Lib ℝ) (cv : Curve ℝ) {w y : List ℝ} (hs : w.Pairwise (· < ·)) (h4 : 4 ≤ w.length) (hy : y.length = w.length) :
    projectArr lib cv w (.vec y) = .ok (projectWith lib cv w ⟨w, [y]⟩) := by
  have hi : mkInterp w [y] = .ok ⟨w, [y]⟩ := mkInterp_strict _ _ hs h4 (by simpa using hy)
  have e1 : w.map (f32 : ℝ → ℝ) = w := List.map_id w
  have e2 : y.map (f32 : ℝ → ℝ) = y := List.map_id y
  unfold projectArr
  simp only [NDA.vec, NDA.map, List.map_cons, List.map_nil, e1, e2, hy, ne_eq, not_true_eq_false, if_false, List.length_nil]
  rw [if_neg (by omega)]
  simp only [ok_bind, hi]
  rfl

/-- The maggies of a spectrum at redshift `z` are `1 + z` times the maggies of the rest-frame spectrum in the blueshifted band. -/
theorem seen_blueshift {lib : Lib ℝ} (hu : SplineUnits lib) (hlin : SplineLinear lib) {wave resp : List ℝ} {z : ℝ} (hz : -1 < z) {R R' : Resp ℝ}
    (hR : mkResponse lib wave resp = .ok R) (hR' : mkResponse lib (wave.map (fun w => w / (1 + z))) resp = .ok R') {W f : List ℝ}
    (hW : W.Pairwise (· < ·)) (h4 : 4 ≤ W.length) (hf : f.length = W.length) :
    ∃ v', projectArr lib R'.toCurve W (.vec f) = .ok (.scalar v') ∧ Seen lib R.toCurve W f z ((1 + z) * v') := by
  have hk : (0 : ℝ) < 1 + z := by linarith
  obtain ⟨h1, h2⟩ := blueshift_curve hz hR hR'
  have hs := projectWith_shift hu hlin (mkResponse_good hR) (mkResponse_good hR') hk h1 h2 (sw := W) (by intro e; simp [e] at h4) (rows := [f])
    (by simpa using hf)
  have hi : mkInterp W [f] = .ok ⟨W, [f]⟩ := mkInterp_strict _ _ hW h4 (by simpa using hf)
  have hv := projectArr_vec lib R'.toCurve hi hf
  refine ⟨_, hv, ?_⟩
  unfold Seen
  rw [projectArr_strict lib R.toCurve (by rw [List.pairwise_map]; exact hW.imp (fun h => mul_lt_mul_of_pos_right h hk)) (by simpa using h4)
    (by simpa using hf)]
  rw [projectArr_strict lib R'.toCurve hW h4 hf] at hv
  simp only [Except.ok.injEq] at hv
  simp only [List.map_cons, List.map_nil, hv, NDA.map] at hs
  exact congrArg _ hs

/-- C108: for an object at a grid redshift `z`, and output bands shifted by a grid redshift `bs`, the K-correction in output band `Q` is the magnitude of
the model spectrum at `z` through the input band `R` mapped to `Q`, minus the magnitude of the rest-frame model spectrum through `Q` with its
wavelengths divided by `1 + bs` (coefficients with positive sum, positive maggies). -/
theorem C108_definition (lib : Lib ℝ) (hu : SplineUnits lib) (hlin : SplineLinear lib) (T : Tpl ℝ) (lo hi : ℝ) (n : Nat) (K : Kc ℝ) (g : Reg ℝ)
    (h : Made lib T lo hi n K g) (hW : T.toSed.restWave.Pairwise (· < ·)) (z bs : ℝ) (c : List ℝ) (hc : c.length = K.templates.nsed)
    (hsum : 0 < c.sum) (hz : z ∈ K.redshifts) (hbs : bs ∈ K.redshifts) (hb : -1 < bs) (j : Nat) (q r : Name)
    (hq : K.responsesOut[j]? = some q) (hr : K.responsesMap[j]? = some r) (wave resp : List ℝ) (Q Q' : Resp ℝ)
    (hQ : mkResponse lib wave resp = .ok Q) (hgq : g q = some (RespObj.full Q))
    (hQ' : mkResponse lib (wave.map (fun w => w / (1 + bs))) resp = .ok Q') :
    ∃ k o R fR fQ, K.kcorrect (some (.scalar z)) (some (.vec c)) bs = .ok k ∧ g r = some o ∧ o.curve = .ok R ∧
      Seen lib R T.toSed.restWave (modelSpectrum T.toSed.restWave.length c T.toSed.restFlux) z fR ∧
      projectArr lib Q'.toCurve T.toSed.restWave (.vec (modelSpectrum T.toSed.restWave.length c T.toSed.restFlux)) = .ok (.scalar fQ) ∧
      (0 < fR → 0 < fQ → entry k 0 j = some (mag fR - mag fQ)) := by
  obtain ⟨A, Ao, e1, e2, e3, e4, N, No⟩ := h.nodes
  obtain ⟨i, hi1, hi2⟩ : ∃ i, K.imap[j]? = some i ∧ K.responses[i]? = some r := by
    obtain ⟨disk, cls, R, out, rmap, ab, dm, w, w', hw, hinit, hg⟩ := h.init
    obtain ⟨g1, g2, g3, g4, g5, g6⟩ := C63_imap _ _ _ _ _ _ _ _ _ _ _ _ _ _ _ hinit
    obtain ⟨i, hi1, hi2⟩ := g6 j r hr
    exact ⟨i, hi1, by rw [g1]; exact hi2.1⟩
  have ez : (1 + z) * (1 + 0) - 1 = z := by ring
  have eb : (1 + 0) * (1 + bs) - 1 = bs := by ring
  obtain ⟨⟨a, a1, a2, a3⟩, _⟩ := C107_on_grid lib hlin T lo hi n K g h z 0 c hc (by rw [ez]; exact hz)
  obtain ⟨_, ⟨b, b1, b2, b3⟩⟩ := C107_on_grid lib hlin T lo hi n K g h 0 bs c hc (by rw [eb]; exact hbs)
  obtain ⟨k1, k2⟩ := C67_model_magnitudes K A Ao e1 e2 z bs c hc
  obtain ⟨k, hk⟩ := k1.mpr ⟨⟨a, a1⟩, ⟨b, b1⟩⟩
  obtain ⟨_, _, k3⟩ := k2 k a b hk a1 b1
  obtain ⟨o, R, fR, o1, o2, o3, o4⟩ := a3 i r hi2
  obtain ⟨o', R', fb, p1, p2, p3, p4⟩ := b3 j q hq
  rw [hgq] at p1
  cases p1
  have ecv : R' = Q.toCurve := by simp only [RespObj.curve, RespObj.full, Except.ok.injEq] at p2; rw [← p2]
  subst ecv
  rw [ez] at o3
  rw [eb] at p3
  have hml : (modelSpectrum T.toSed.restWave.length c T.toSed.restFlux).length = T.toSed.restWave.length := by simp [modelSpectrum]
  have h4 : 4 ≤ T.toSed.restWave.length := by
    obtain ⟨M, _, _, hM⟩ := N.node z (by rw [← e4]; exact hz)
    obtain ⟨_, _, _, _, _, hit, _⟩ := hM i r hi2
    obtain ⟨_, _, h4, _⟩ := mkInterp_eq hit
    simpa using h4
  obtain ⟨fQ, q1, q2⟩ := seen_blueshift hu hlin hb hQ hQ' hW h4 hml
  have e5 : fb = (1 + bs) * fQ := by
    unfold Seen at p3 q2
    rw [p3] at q2
    simpa using q2
  refine ⟨k, o, R, fR, fQ, hk, o1, o2, o3, q1, fun hR hQpos => ?_⟩
  have hne : (1 + bs) ≠ 0 := by linarith
  have e6 : fb / (1 + bs) = fQ := by rw [e5]; field_simp
  have e7 : fR / (1 + 0) = fR := by ring
  rw [e6] at p4
  rw [e7] at o4
  exact k3 hsum j i fR fQ hi1 o4 p4 hR hQpos

/-! ### the redshift grid -/

/-- C109: two objects with the same templates and the same response `r` under any input or output bands, ranges and numbers of grid redshifts: at a
redshift that is in both grids the model maggies in `r` are equal. -/
theorem C109_grid_independent (lib : Lib ℝ) (hlin : SplineLinear lib) (T : Tpl ℝ) (lo1 hi1 lo2 hi2 : ℝ) (n1 n2 : Nat) (K1 K2 : Kc ℝ)
    (g1 g2 : Reg ℝ) (h1 : Made lib T lo1 hi1 n1 K1 g1) (h2 : Made lib T lo2 hi2 n2 K2 g2) (z bs : ℝ) (c : List ℝ)
    (hc : c.length = T.nsed) (hs1 : (1 + z) * (1 + bs) - 1 ∈ K1.redshifts) (hs2 : (1 + z) * (1 + bs) - 1 ∈ K2.redshifts)
    (r : Name) (hg : g1 r = g2 r) :
    ∃ m1 m2 o1 o2, K1.reconstruct (some (.scalar z)) (some (.vec c)) bs = .ok m1 ∧ K2.reconstruct (some (.scalar z)) (some (.vec c)) bs = .ok m2 ∧
      K1.reconstructOut (some (.scalar z)) (some (.vec c)) bs = .ok o1 ∧ K2.reconstructOut (some (.scalar z)) (some (.vec c)) bs = .ok o2 ∧
      (∀ i j, K1.responses[i]? = some r → K2.responses[j]? = some r → entry m1 0 i = entry m2 0 j) ∧
      (∀ i j, K1.responsesOut[i]? = some r → K2.responsesOut[j]? = some r → entry o1 0 i = entry o2 0 j) ∧
      (∀ i j, K1.responses[i]? = some r → K2.responsesOut[j]? = some r → entry m1 0 i = entry o2 0 j) := by
  obtain ⟨_, _, _, _, t1, _⟩ := h1.nodes
  obtain ⟨_, _, _, _, t2, _⟩ := h2.nodes
  obtain ⟨⟨m1, a1, _, a3⟩, ⟨o1, b1, _, b3⟩⟩ := C107_on_grid lib hlin T lo1 hi1 n1 K1 g1 h1 z bs c (by rw [t1]; exact hc) hs1
  obtain ⟨⟨m2, a1', _, a3'⟩, ⟨o2, b1', _, b3'⟩⟩ := C107_on_grid lib hlin T lo2 hi2 n2 K2 g2 h2 z bs c (by rw [t2]; exact hc) hs2
  have key : ∀ {x1 x2 : NDA ℝ} {l1 l2 : List Name},
      (∀ (j : Nat) r, l1[j]? = some r → ∃ o cv v, g1 r = some o ∧ o.curve = .ok cv ∧
          Seen lib cv T.toSed.restWave (modelSpectrum T.toSed.restWave.length c T.toSed.restFlux) ((1 + z) * (1 + bs) - 1) v ∧
          entry x1 0 j = some (v / (1 + bs))) →
      (∀ (j : Nat) r, l2[j]? = some r → ∃ o cv v, g2 r = some o ∧ o.curve = .ok cv ∧
          Seen lib cv T.toSed.restWave (modelSpectrum T.toSed.restWave.length c T.toSed.restFlux) ((1 + z) * (1 + bs) - 1) v ∧
          entry x2 0 j = some (v / (1 + bs))) →
      ∀ i j, l1[i]? = some r → l2[j]? = some r → entry x1 0 i = entry x2 0 j := by
    intro x1 x2 l1 l2 p1 p2 i j hi hj
    obtain ⟨o, cv, v, q1, q2, q3, q4⟩ := p1 i r hi
    obtain ⟨o', cv', v', q1', q2', q3', q4'⟩ := p2 j r hj
    rw [← hg, q1] at q1'
    cases q1'
    rw [q2] at q2'
    cases q2'
    unfold Seen at q3 q3'
    rw [q3] at q3'
    cases q3'
    rw [q4, q4']
  exact ⟨m1, m2, o1, o2, a1, a1', b1, b1', key a3 a3', key b3 b3', key a3 b3'⟩

/-- C110: if from the redshift `s = (1 + z)(1 + bs) - 1` to the grid redshifts the true maggies of the model spectrum in band `j` change by at most `L` per
unit redshift, the model maggies (times `1 + bs`) differ from the true ones by at most `L · h / 2`, `h` the spacing of the grid. -/
theorem C110_error_bound (lib : Lib ℝ) (hlin : SplineLinear lib) (T : Tpl ℝ) (lo hi : ℝ) (n : Nat) (K : Kc ℝ) (g : Reg ℝ)
    (h : Made lib T lo hi n K g) (z bs : ℝ) (hbs : -1 < bs) (c : List ℝ) (hc : c.length = K.templates.nsed)
    (h1 : lo ≤ (1 + z) * (1 + bs) - 1) (h2 : (1 + z) * (1 + bs) - 1 ≤ hi) (j : Nat) (r : Name) (hr : K.responses[j]? = some r)
    (o : RespObj ℝ) (cv : Curve ℝ) (ho : g r = some o) (hcv : o.curve = .ok cv) (L : ℝ)
    (v : ℝ) (hv : Seen lib cv T.toSed.restWave (modelSpectrum T.toSed.restWave.length c T.toSed.restFlux) ((1 + z) * (1 + bs) - 1) v)
    (hL : ∀ t vt, t ∈ K.redshifts → Seen lib cv T.toSed.restWave (modelSpectrum T.toSed.restWave.length c T.toSed.restFlux) t vt →
      |vt - v| ≤ L * |t - ((1 + z) * (1 + bs) - 1)|) :
    ∃ m x, K.reconstruct (some (.scalar z)) (some (.vec c)) bs = .ok m ∧ entry m 0 j = some x ∧
      |(1 + bs) * x - v| ≤ L * ((hi - lo) / ((n : ℝ) - 1)) / 2 := by
  obtain ⟨k, a, b, ha, hb, hab, q1, q2, ⟨m, m1, _, m3⟩, _⟩ := C107_interpolated lib hlin T lo hi n K g h z bs c hc h1 h2
  obtain ⟨_, _, _, _, _, e4, _⟩ := h.nodes
  set s := (1 + z) * (1 + bs) - 1
  obtain ⟨o', cv', va, vb, o1, o2, o3, o4, o5⟩ := m3 j r hr
  rw [ho] at o1; cases o1
  rw [hcv] at o2; cases o2
  obtain ⟨hl, h0, hN, hp, hd⟩ := C43_grid lo hi n h.range h.two
  have b1 := hL a va (List.mem_of_getElem? ha) o3
  have b2 := hL b vb (List.mem_of_getElem? hb) o4
  rw [abs_of_nonpos (by linarith : a - s ≤ 0)] at b1
  rw [abs_of_nonneg (by linarith : 0 ≤ b - s)] at b2
  have hh := hd k a b (by rw [← e4]; exact ha) (by rw [← e4]; exact hb)
  refine ⟨m, _, m1, o5, ?_⟩
  have hd' : 0 < b - a := by linarith
  have hne : (1 + bs) ≠ 0 := by linarith
  rw [← hh]
  have e : (1 + bs) * (((b - s) / (b - a) * va + (s - a) / (b - a) * vb) / (1 + bs)) - v =
      (b - s) / (b - a) * (va - v) + (s - a) / (b - a) * (vb - v) := by
    field_simp
    ring
  rw [e]
  have w1 : 0 ≤ (b - s) / (b - a) := div_nonneg (by linarith) hd'.le
  have w2 : 0 ≤ (s - a) / (b - a) := div_nonneg (by linarith) hd'.le
  have hL0 : 0 ≤ L := by
    have p1 := (abs_nonneg _).trans b1
    have p2 := (abs_nonneg _).trans b2
    by_contra hneg
    push Not at hneg
    nlinarith
  calc |(b - s) / (b - a) * (va - v) + (s - a) / (b - a) * (vb - v)|
      ≤ (b - s) / (b - a) * |va - v| + (s - a) / (b - a) * |vb - v| := by
        refine (abs_add_le _ _).trans ?_
        rw [abs_mul, abs_mul, abs_of_nonneg w1, abs_of_nonneg w2]
    _ ≤ (b - s) / (b - a) * (L * -(a - s)) + (s - a) / (b - a) * (L * (b - s)) :=
        add_le_add (mul_le_mul_of_nonneg_left b1 w1) (mul_le_mul_of_nonneg_left b2 w2)
    _ ≤ L * (b - a) / 2 := by
        have : (b - s) / (b - a) * (L * -(a - s)) + (s - a) / (b - a) * (L * (b - s)) = 2 * L * ((b - s) * (s - a)) / (b - a) := by
          field_simp; ring
        rw [this, div_le_iff₀ hd']
        nlinarith [mul_nonneg hL0 (sq_nonneg ((b - s) - (s - a)))]

/-- C111: the model maggies in every input and output band are continuous in the redshift, over the whole redshift range. -/
theorem C111_continuous (lib : Lib ℝ) (hlin : SplineLinear lib) (T : Tpl ℝ) (lo hi : ℝ) (n : Nat) (K : Kc ℝ) (g : Reg ℝ)
    (h : Made lib T lo hi n K g) (bs : ℝ) (c : List ℝ) (hc : c.length = K.templates.nsed) :
    (∀ j < K.responses.length, ∃ f : ℝ → ℝ, ContinuousOn f {z | lo ≤ (1 + z) * (1 + bs) - 1 ∧ (1 + z) * (1 + bs) - 1 ≤ hi} ∧
      ∀ z, lo ≤ (1 + z) * (1 + bs) - 1 → (1 + z) * (1 + bs) - 1 ≤ hi →
        ∃ m, K.reconstruct (some (.scalar z)) (some (.vec c)) bs = .ok m ∧ entry m 0 j = some (f z)) ∧
    (∀ j < K.responsesOut.length, ∃ f : ℝ → ℝ, ContinuousOn f {z | lo ≤ (1 + z) * (1 + bs) - 1 ∧ (1 + z) * (1 + bs) - 1 ≤ hi} ∧
      ∀ z, lo ≤ (1 + z) * (1 + bs) - 1 → (1 + z) * (1 + bs) - 1 ≤ hi →
        ∃ m, K.reconstructOut (some (.scalar z)) (some (.vec c)) bs = .ok m ∧ entry m 0 j = some (f z)) := by
  obtain ⟨A, Ao, e1, e2, e3, e4, N, No⟩ := h.nodes
  have hF : K.templates.nsed = T.toSed.restFlux.length := by rw [e3]; rfl
  have key : ∀ {rs : List Name} {B : AMat ℝ}, Nodes lib T.toSed.restWave T.toSed.restFlux (redshiftGrid lo hi n) rs g B → ∀ j < rs.length,
      ∃ f : ℝ → ℝ, ContinuousOn f {z | lo ≤ (1 + z) * (1 + bs) - 1 ∧ (1 + z) * (1 + bs) - 1 ≤ hi} ∧
      ∀ z, lo ≤ (1 + z) * (1 + bs) - 1 → (1 + z) * (1 + bs) - 1 ≤ hi →
        ∃ m, reconstructWith K.toFitter (some B) (some (.scalar z)) (some (.vec c)) bs = .ok m ∧ entry m 0 j = some (f z) := by
    intro rs B hB j hj
    have hr := List.getElem?_eq_getElem hj
    have ex : ∀ z, lo ≤ (1 + z) * (1 + bs) - 1 → (1 + z) * (1 + bs) - 1 ≤ hi →
        ∃ m x, reconstructWith K.toFitter (some B) (some (.scalar z)) (some (.vec c)) bs = .ok m ∧ entry m 0 j = some x := by
      intro z h1 h2
      obtain ⟨k, a, b, ha, hb, q1, q2⟩ := grid_cell h.range h.two h1 h2
      obtain ⟨m, m1, _, m3⟩ := hB.recon hlin h.len hF (hc.trans hF) ha hb q1 q2
      obtain ⟨_, _, _, _, _, _, _, _, hx⟩ := m3 j _ hr
      exact ⟨m, _, m1, hx⟩
    choose fm fx hfm hfx using ex
    classical
    refine ⟨fun z => if hz : lo ≤ (1 + z) * (1 + bs) - 1 ∧ (1 + z) * (1 + bs) - 1 ≤ hi then fx z hz.1 hz.2 else 0, ?_, ?_⟩
    · -- the closed cells
      let S : Fin n → Set ℝ := fun k => {z | ent (redshiftGrid lo hi n) k ≤ (1 + z) * (1 + bs) - 1 ∧
        (1 + z) * (1 + bs) - 1 ≤ ent (redshiftGrid lo hi n) (k + 1) ∧ (k : Nat) + 1 < n ∧ lo ≤ (1 + z) * (1 + bs) - 1 ∧ (1 + z) * (1 + bs) - 1 ≤ hi}
      have hcs : Continuous (fun z : ℝ => (1 + z) * (1 + bs) - 1) := by fun_prop
      obtain ⟨hl, _⟩ := C43_grid lo hi n h.range h.two
      have hU : {z | lo ≤ (1 + z) * (1 + bs) - 1 ∧ (1 + z) * (1 + bs) - 1 ≤ hi} = ⋃ k, S k := by
        ext z
        simp only [Set.mem_setOf_eq, Set.mem_iUnion]
        constructor
        · rintro ⟨h1, h2⟩
          obtain ⟨k, a, b, ha, hb, q1, q2⟩ := grid_cell h.range h.two h1 h2
          obtain ⟨ha1, ha2⟩ := List.getElem?_eq_some_iff.mp ha
          obtain ⟨hb1, hb2⟩ := List.getElem?_eq_some_iff.mp hb
          rw [hl] at ha1 hb1
          refine ⟨⟨k, ha1⟩, ?_, ?_, hb1, h1, h2⟩
          · simp only; rw [ent_some (by omega), ha2]; exact q1
          · simp only; rw [ent_some (by omega), hb2]; exact q2
        · rintro ⟨k, _, _, _, h1, h2⟩; exact ⟨h1, h2⟩
      rw [hU]
      apply LocallyFinite.continuousOn_iUnion (locallyFinite_of_finite S)
      · intro k
        by_cases hk : (k : Nat) + 1 < n
        · have : S k = {z | ent (redshiftGrid lo hi n) k ≤ (1 + z) * (1 + bs) - 1} ∩ {z | (1 + z) * (1 + bs) - 1 ≤ ent (redshiftGrid lo hi n) (k + 1)} ∩
              ({z | lo ≤ (1 + z) * (1 + bs) - 1} ∩ {z | (1 + z) * (1 + bs) - 1 ≤ hi}) := by
            ext z
            simp only [S, Set.mem_setOf_eq, Set.mem_inter_iff]
            tauto
          rw [this]
          exact ((isClosed_le continuous_const hcs).inter (isClosed_le hcs continuous_const)).inter
            ((isClosed_le continuous_const hcs).inter (isClosed_le hcs continuous_const))
        · have : S k = ∅ := by
            ext z
            simp only [S, Set.mem_setOf_eq, Set.mem_empty_iff_false, iff_false]
            tauto
          rw [this]; exact isClosed_empty
      · intro k
        by_cases hk : (k : Nat) + 1 < n
        · have ha : (redshiftGrid lo hi n)[(k : Nat)]? = some (ent (redshiftGrid lo hi n) k) := by
            rw [ent_some (by omega)]; exact List.getElem?_eq_getElem (by omega)
          have hb : (redshiftGrid lo hi n)[(k : Nat) + 1]? = some (ent (redshiftGrid lo hi n) (k + 1)) := by
            rw [ent_some (by omega)]; exact List.getElem?_eq_getElem (by omega)
          set a := ent (redshiftGrid lo hi n) k
          set b := ent (redshiftGrid lo hi n) (k + 1)
          have hex : ∃ va vb, ∀ z ∈ S k, ∀ hz : lo ≤ (1 + z) * (1 + bs) - 1 ∧ (1 + z) * (1 + bs) - 1 ≤ hi,
              fx z hz.1 hz.2 = linEntry a b ((1 + z) * (1 + bs) - 1) va vb / (1 + bs) := by
            by_cases hne : (S k).Nonempty
            · obtain ⟨z0, q1, q2, _⟩ := hne
              obtain ⟨m, m1, _, m3⟩ := hB.recon hlin h.len hF (hc.trans hF) ha hb q1 q2
              obtain ⟨o, cv, va, vb, o1, o2, o3, o4, _⟩ := m3 j _ hr
              refine ⟨va, vb, fun z hz hz' => ?_⟩
              obtain ⟨m', m1', _, m3'⟩ := hB.recon hlin h.len hF (hc.trans hF) ha hb hz.1 hz.2.1
              obtain ⟨o', cv', va', vb', o1', o2', o3', o4', o5'⟩ := m3' j _ hr
              rw [o1] at o1'; cases o1'
              rw [o2] at o2'; cases o2'
              unfold Seen at o3 o4 o3' o4'
              rw [o3] at o3'; cases o3'
              rw [o4] at o4'; cases o4'
              have := hfm z hz'.1 hz'.2
              rw [m1'] at this
              simp only [Except.ok.injEq] at this
              have h5 := hfx z hz'.1 hz'.2
              rw [← this, o5'] at h5
              simpa using h5.symm
            · exact ⟨0, 0, fun z hz => absurd ⟨z, hz⟩ hne⟩
          obtain ⟨va, vb, hv⟩ := hex
          have hcont : ContinuousOn (fun z : ℝ => linEntry a b ((1 + z) * (1 + bs) - 1) va vb / (1 + bs)) (S k) := by
            apply Continuous.continuousOn
            unfold linEntry
            fun_prop
          refine hcont.congr ?_
          intro z hz
          have hz' : lo ≤ (1 + z) * (1 + bs) - 1 ∧ (1 + z) * (1 + bs) - 1 ≤ hi := ⟨hz.2.2.2.1, hz.2.2.2.2⟩
          simp only [dif_pos hz']
          exact hv z hz hz'
        · have : S k = ∅ := by
            ext z
            simp only [S, Set.mem_setOf_eq, Set.mem_empty_iff_false, iff_false]
            tauto
          rw [this]; exact continuousOn_empty _
    · intro z h1 h2
      refine ⟨fm z h1 h2, hfm z h1 h2, ?_⟩
      rw [hfx z h1 h2]
      simp only [h1, h2, and_self, dif_pos]
  refine ⟨fun j hj => ?_, fun j hj => ?_⟩
  · obtain ⟨f, f1, f2⟩ := key N j hj
    exact ⟨f, f1, fun z h1 h2 => by unfold Fitter.reconstruct; rw [e1]; exact f2 z h1 h2⟩
  · obtain ⟨f, f1, f2⟩ := key No j hj
    exact ⟨f, f1, fun z h1 h2 => by unfold Kc.reconstructOut; rw [e2]; exact f2 z h1 h2⟩

/-! ### the hypotheses can be met -/

/-- An object made by the constructor from two templates and the band in `x.dat`, which is in the dictionary afterwards. -/
theorem demo_made : ∃ K g R, Made demoLib (.sed demoShared.sed) 0 2 10 K g ∧ K.responses = [['x']] ∧ K.responsesOut = [['x']] ∧
    K.responsesMap = [['x']] ∧ mkResponse demoLib [1, 2, 3, 4] [0, 1, 1, 0] = .ok R ∧ g ['x'] = some (RespObj.full R) ∧ K.templates.nsed = 2 := by
  obtain ⟨w', K, h⟩ := (demo_init (.sed demoShared.sed) (fun _ => 0)).1
  obtain ⟨w1, A, hA, hF, h1, h2, _, _, _, hO⟩ := init_ok h
  obtain ⟨hl, _⟩ := calcAmatrix_ok hA
  have hw : w' = w1 := by
    rcases hO with ⟨_, _, e⟩ | ⟨e, _⟩
    · exact e
    · exact absurd rfl e
  have hload : ∃ R, FileGives demoLib demoDisk ['x'] R ∧ w1.reg ['x'] = some (RespObj.full R) := by
    unfold loadMissing at hl
    cases hc : loadResponse demoLib demoDisk ['x'] false demoShared.reg with
    | mk g1 r =>
      rw [hc] at hl
      cases r with
      | error e => simp at hl
      | ok u =>
        simp only [loadMissing, Prod.mk.injEq, and_true] at hl
        subst hl
        obtain ⟨R, hR, hg, _⟩ := (C29_load_contents demoLib demoDisk ['x'] false demoShared.reg w1.reg (Or.inl rfl)).mp hc
        exact ⟨R, hR, hg⟩
  obtain ⟨R, ⟨wv, rp, hd, hR⟩, hg⟩ := hload
  have hx : demoDisk (datName ['x']) = .ok ([1, 2, 3, 4], [0, 1, 1, 0]) := by simp [demoDisk, datName]
  rw [hx] at hd
  cases hd
  refine ⟨K, w'.reg, R, ⟨by norm_num, by norm_num, by simp [demoShared, Tpl.toSed], by simp [demoShared, Tpl.toSed],
    ⟨_, _, _, _, _, _, _, _, _, rfl, h, rfl⟩⟩, by rw [hF]; rfl, h1, h2, hR, by rw [hw]; exact hg, ?_⟩
  rw [hF]; rfl

theorem demo_grid (k : Nat) (hk : k < 10) : (2 : ℝ) * k / 9 ∈ redshiftGrid (0 : ℝ) 2 10 := by
  refine List.mem_map.mpr ⟨k, List.mem_range.mpr hk, ?_⟩
  simp only [real_lit, real_f32]
  push_cast
  ring

theorem demo_not_grid : (1 : ℝ) / 9 ∉ redshiftGrid (0 : ℝ) 2 10 := by
  intro h
  obtain ⟨k, _, hk⟩ := List.mem_map.mp h
  simp only [real_lit, real_f32] at hk
  push_cast at hk
  have h1 : (2 : ℝ) * k = 1 := by linarith
  have h2 : (2 * k : ℕ) = 1 := by exact_mod_cast h1
  omega

/-- Not vacuous (C107): an object, a redshift and a nonzero band shift with the shifted redshift on the grid; and one off the grid. -/
example : ∃ K g, Made demoLib (.sed demoShared.sed) 0 2 10 K g ∧ K.responses ≠ [] ∧ [(1 : ℝ), 1].length = K.templates.nsed ∧
    (1 + (1 : ℝ) / 11) * (1 + 2 / 9) - 1 = 1 / 3 ∧ (0 : ℝ) ≤ 1 / 3 ∧ (1 / 3 : ℝ) ≤ 2 ∧ (1 + (0 : ℝ)) * (1 + 2 / 9) - 1 ∈ K.redshifts := by
  obtain ⟨K, g, R, h, h1, _, _, _, _, hn⟩ := demo_made
  obtain ⟨_, _, _, _, _, e4, _⟩ := h.nodes
  refine ⟨K, g, h, by rw [h1]; simp, by rw [hn]; rfl, by norm_num, by norm_num, by norm_num, ?_⟩
  rw [e4]
  have := demo_grid 1 (by norm_num)
  norm_num at this ⊢
  exact this

/-- Not vacuous (C108): the same object with the output band blueshifted by 11/9. -/
example : ∃ K g wave resp Q Q', Made demoLib (.sed demoShared.sed) 0 2 10 K g ∧ demoShared.sed.restWave.Pairwise (· < ·) ∧
    [(1 : ℝ), 1].length = K.templates.nsed ∧ 0 < [(1 : ℝ), 1].sum ∧ (2 : ℝ) * 3 / 9 ∈ K.redshifts ∧ (2 : ℝ) * 1 / 9 ∈ K.redshifts ∧
    K.responsesOut[0]? = some ['x'] ∧ K.responsesMap[0]? = some ['x'] ∧ mkResponse demoLib wave resp = .ok Q ∧ g ['x'] = some (RespObj.full Q) ∧
    mkResponse demoLib (wave.map (fun w => w / (1 + 2 * 1 / 9))) resp = .ok Q' := by
  obtain ⟨K, g, R, h, _, h1, h2, h3, h4, hn⟩ := demo_made
  obtain ⟨_, _, _, _, _, e4, _⟩ := h.nodes
  obtain ⟨Q', hQ'⟩ := demo_response (wave := [1, 2, 3, 4].map (fun w => w / (1 + 2 * 1 / 9))) (resp := [0, 1, 1, 0]) (by norm_num) (by simp) rfl
    ⟨1, by simp, by norm_num⟩
  refine ⟨K, g, _, _, R, Q', h, by simp [demoShared]; norm_num, by rw [hn]; rfl, by norm_num, ?_, ?_, by rw [h1]; rfl, by rw [h2]; rfl, h3, h4, hQ'⟩
  · rw [e4]; exact_mod_cast demo_grid 3 (by norm_num)
  · rw [e4]; exact_mod_cast demo_grid 1 (by norm_num)

/-- Not vacuous (C109): two objects. -/
example : ∃ K g, Made demoLib (.sed demoShared.sed) 0 2 10 K g ∧ (1 + (2 : ℝ) * 1 / 9) * (1 + 0) - 1 ∈ K.redshifts ∧ K.responses[0]? = some ['x'] := by
  obtain ⟨K, g, R, h, h0, h1, h2, h3, h4, hn⟩ := demo_made
  obtain ⟨_, _, _, _, _, e4, _⟩ := h.nodes
  refine ⟨K, g, h, ?_, by rw [h0]; rfl⟩
  rw [e4]
  have := demo_grid 1 (by norm_num)
  have e : (1 + (2 : ℝ) * 1 / 9) * (1 + 0) - 1 = 2 * (1 : ℕ) / 9 := by norm_num
  rw [e]; exact this

theorem seen_cell {lib : Lib ℝ} {cv : Curve ℝ} {W f : List ℝ} {s v : ℝ} (hf : f.length = W.length) (h : Seen lib cv W f s v) :
    v = cell lib cv W s f := by
  have h0 := h
  unfold Seen projectArr at h
  have e1 : (W.map (fun w => w * (1 + s))).map (f32 : ℝ → ℝ) = W.map (fun w => w * (1 + s)) := List.map_id _
  rw [e1] at h
  simp only [NDA.vec, NDA.map, List.map_cons, List.map_nil, List.length_map, hf, ne_eq, not_true_eq_false, if_false, List.length_nil] at h
  rw [if_neg (by omega)] at h
  simp only [ok_bind] at h
  obtain ⟨itp, hi, h⟩ := bind_ok_iff.mp h
  have e2 := projectArr_vec lib cv hi (y := f.map (fun x => x / (1 + s))) (by simpa using hf)
  unfold Seen at h0
  rw [h0] at e2
  simpa [cell] using e2

/-- Not vacuous (C110): off the grid, with a constant that the finitely many grid redshifts allow. -/
example : ∃ K g o cv L v, Made demoLib (.sed demoShared.sed) 0 2 10 K g ∧ [(1 : ℝ), 1].length = K.templates.nsed ∧ (1 : ℝ) / 9 ∉ K.redshifts ∧
    K.responses[0]? = some ['x'] ∧ g ['x'] = some o ∧ o.curve = .ok cv ∧
    Seen demoLib cv demoShared.sed.restWave (modelSpectrum demoShared.sed.restWave.length [1, 1] demoShared.sed.restFlux) (1 / 9) v ∧
    ∀ t vt, t ∈ K.redshifts →
      Seen demoLib cv demoShared.sed.restWave (modelSpectrum demoShared.sed.restWave.length [1, 1] demoShared.sed.restFlux) t vt →
      |vt - v| ≤ L * |t - 1 / 9| := by
  obtain ⟨K, g, R, h, h0, h1, h2, h3, h4, hn⟩ := demo_made
  obtain ⟨_, _, _, _, _, e4, _⟩ := h.nodes
  have hml : (modelSpectrum demoShared.sed.restWave.length [1, 1] demoShared.sed.restFlux).length = demoShared.sed.restWave.length := by
    simp [modelSpectrum]
  have hi : mkInterp (demoShared.sed.restWave.map (fun w => w * (1 + 1 / 9))) [(modelSpectrum demoShared.sed.restWave.length [1, 1]
      demoShared.sed.restFlux).map (fun x => x / (1 + 1 / 9))] = .ok _ :=
    mkInterp_strict _ _ (by
      rw [List.pairwise_map]
      refine List.Pairwise.imp (fun h => mul_lt_mul_of_pos_right h (by norm_num)) (?_ : demoShared.sed.restWave.Pairwise (· < ·))
      simp [demoShared]; norm_num) (by simp [demoShared]) (by
      intro row hrow
      simp only [List.mem_singleton] at hrow
      rw [hrow, List.length_map, List.length_map, hml])
  have hv := projectArr_vec demoLib R.toCurve hi (y := (modelSpectrum demoShared.sed.restWave.length [1, 1]
      demoShared.sed.restFlux).map (fun x => x / (1 + 1 / 9))) (by simp [hml])
  set v := band1 demoLib R.toCurve (demoShared.sed.restWave.map (fun w => w * (1 + 1 / 9)))
    ((modelSpectrum demoShared.sed.restWave.length [1, 1] demoShared.sed.restFlux).map (fun x => x / (1 + 1 / 9))) with hvd
  let ratio : ℝ → ℝ := fun t => |cell demoLib R.toCurve demoShared.sed.restWave t
    (modelSpectrum demoShared.sed.restWave.length [1, 1] demoShared.sed.restFlux) - v| / |t - 1 / 9|
  refine ⟨K, g, _, R.toCurve, ((redshiftGrid 0 2 10).map ratio).sum, v, h, by rw [hn]; rfl, by rw [e4]; exact demo_not_grid, by rw [h0]; rfl, h4, rfl,
    hv, ?_⟩
  intro t vt ht hs
  rw [e4] at ht
  rw [seen_cell hml hs]
  have hne : t ≠ 1 / 9 := fun e => demo_not_grid (e ▸ ht)
  have hpos : 0 < |t - 1 / 9| := abs_pos.mpr (sub_ne_zero.mpr hne)
  have hle : ratio t ≤ ((redshiftGrid 0 2 10).map ratio).sum := by
    refine List.single_le_sum ?_ _ (List.mem_map.mpr ⟨t, ht, rfl⟩)
    intro x hx
    obtain ⟨y, _, rfl⟩ := List.mem_map.mp hx
    exact div_nonneg (abs_nonneg _) (abs_nonneg _)
  calc _ = ratio t * |t - 1 / 9| := (div_mul_cancel₀ _ hpos.ne').symm
    _ ≤ _ := mul_le_mul_of_nonneg_right hle hpos.le

/-- Not vacuous (C111): an object. -/
example : ∃ K g, Made demoLib (.sed demoShared.sed) 0 2 10 K g ∧ 0 < K.responses.length ∧ 0 < K.responsesOut.length ∧
    [(1 : ℝ), 1].length = K.templates.nsed := by
  obtain ⟨K, g, R, h, h0, h1, h2, h3, h4, hn⟩ := demo_made
  exact ⟨K, g, h, by rw [h0]; simp, by rw [h1]; simp, by rw [hn]; rfl⟩

end KC
