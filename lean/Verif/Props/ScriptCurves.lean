import Verif.Model.ScriptPlots
import Verif.Props.ScriptPlots
import Verif.Props.Spectrum
import Verif.Props.Accept
import Verif.Props.Build2
import Verif.Props.LawsonHanson

/-!
# The spectrum of the fit plots (C214) and the colour tracks (C215) of the example scripts
-/

namespace KC
open Spec

/-! ### C214 -/

/-- Point of a spectrum in the plot: logarithms of the wavelength and of the flux in maggies. -/
noncomputable def Spec.specPoint (l f : ℝ) : ℝ × ℝ := (Real.logb 10 l, Real.logb 10 (f / abFlux l))

theorem specDot_real {n : Nat} {c : List ℝ} {Y : List (List ℝ)} {f : List ℝ} (h : specDot n c Y = .ok f) : c.length = Y.length ∧ f = modelSpectrum n c Y := by
  unfold specDot at h
  split at h
  · rename_i hl
    simp only [Except.ok.injEq] at h
    refine ⟨hl, ?_⟩
    rw [← h, modelSpectrum]
    refine List.map_congr_left (fun k _ => ?_)
    rw [dot, sumL_real, List.zipWith_map_right]
    simp only [ent, real_lit, Rat.cast_zero]

  · cases h

/-- C214, what holds: the curve is the fitted spectrum in its rest frame, at the rest-frame wavelengths; the coefficients are those of the fit at redshift `z`.  Missing: the curve should be the
spectrum at redshift `z`, as the maggies are. -/
theorem C214_partial (lib : Lib ℝ) (disk : Disk ℝ) (nnls : Nnls ℝ) (noise : Nat → Nat → Nat → ℝ) (reg : Reg ℝ) (s : Sed ℝ) (rs : List Name) (z : ℝ) (m iv : List ℝ) (P : FitPlot ℝ)
    (h : fitPlot lib disk nnls noise reg s rs z m iv = .ok P) :
    ∃ w F out c, (Fitter.mk' .base rs (.sed s) 0 0.1 100 false).setAmatrix lib disk ⟨reg, s⟩ = (w, .ok F) ∧
      F.fitCoeffs nnls (some (.scalar z)) (some (.vec m)) (some (.vec iv)) 0 noise = .ok out ∧ (∃ n, out.coeffs = .arr [] n [c]) ∧ c.length = s.restFlux.length ∧
      P.curve.length = s.restWave.length ∧
      ∀ (k : Nat) l f, s.restWave[k]? = some l → (modelSpectrum s.restWave.length c s.restFlux)[k]? = some f → P.curve[k]? = some (specPoint l f) := by
  unfold fitPlot at h
  have e0 : Fitter.mk' .base rs (.sed s) (lit 0) (lit 0.1) 100 false = Fitter.mk' .base rs (.sed s) (0 : ℝ) 0.1 100 false := by
    rw [real_lit, real_lit]; norm_num
  rw [e0] at h
  cases hF : (Fitter.mk' .base rs (.sed s) (0 : ℝ) 0.1 100 false).setAmatrix lib disk ⟨reg, s⟩ with
  | mk w r =>
    rw [hF] at h
    cases r with
    | error e => cases h
    | ok F =>
      simp only at h
      cases hl : rs.mapM (lambdaEffIn w.reg) with
      | error e => rw [hl] at h; cases h
      | ok leff =>
        rw [hl, ok_bind] at h
        cases hf : F.fitCoeffs nnls (some (.scalar z)) (some (.vec m)) (some (.vec iv)) 0 noise with
        | error e => rw [hf] at h; cases h
        | ok out =>
          rw [hf, ok_bind] at h
          split at h
          · rename_i n c hc
            cases hs : specDot w.sed.wave.length c w.sed.flux with
            | error e => rw [hs] at h; cases h
            | ok spec =>
              rw [hs, ok_bind] at h
              cases hm : F.reconstruct (some (.scalar z)) (some out.coeffs) (lit 0) with
              | error e => rw [hm] at h; cases h
              | ok mm =>
                rw [hm, ok_bind] at h
                split at h
                · simp only [pure, Except.pure, Except.ok.injEq] at h
                  obtain ⟨A, hA⟩ : ∃ A, calcAmatrix lib disk (Fitter.mk' .base rs (.sed s) (0 : ℝ) 0.1 100 false).redshifts rs ⟨reg, s⟩ = (w, .ok A) := by
                    unfold Fitter.setAmatrix at hF
                    split at hF
                    · rename_i w' A hA
                      simp only [Prod.mk.injEq] at hF
                      exact ⟨A, by rw [← hF.1]; exact hA⟩
                    · simp at hF
                  obtain ⟨-, h1, h2, h3, h4, -⟩ := C47_rest_frame lib disk ⟨reg, s⟩ w [] _ rs A hA
                  simp only at h1 h2 h3 h4
                  rw [h3, h4] at hs
                  obtain ⟨hcl, rfl⟩ := specDot_real hs
                  refine ⟨w, F, out, c, rfl, hf, ⟨n, hc⟩, hcl, ?_, ?_⟩
                  · rw [← h, h3]; simp [modelSpectrum]
                  · intro k l f hk hfk
                    rw [← h, h3]
                    simp only [List.getElem?_zipWith, hk, hfk, sedAbAt_real]
                    rfl
                · cases h
          · cases h

/-- The spectrum at redshift `z` lies, point by point, `log10 (1 + z)` to the right of the rest-frame spectrum and as much above it. -/
theorem specPoint_shift {l f z : ℝ} (hl : 0 < l) (hf : 0 < f) (hz : -1 < z) :
    specPoint (l * (1 + z)) (f / (1 + z)) = specPoint l f + (Real.logb 10 (1 + z), Real.logb 10 (1 + z)) := by
  have hk : (0 : ℝ) < 1 + z := by linarith
  have ha := abFlux_pos hl
  have e : f / (1 + z) / abFlux (l * (1 + z)) = f / abFlux l * (1 + z) := by
    unfold abFlux
    field_simp
  unfold specPoint
  rw [e, Real.logb_mul hl.ne' hk.ne', Real.logb_mul (div_pos hf ha).ne' hk.ne']
  rfl

/-- C214 is false: at every redshift other than 0, every point of the curve is displaced from the point of the spectrum at redshift `z`, by `log10 (1 + z)` in both coordinates. -/
theorem C214_false (lib : Lib ℝ) (disk : Disk ℝ) (nnls : Nnls ℝ) (noise : Nat → Nat → Nat → ℝ) (reg : Reg ℝ) (s : Sed ℝ) (rs : List Name) (z : ℝ) (m iv : List ℝ) (P : FitPlot ℝ)
    (h : fitPlot lib disk nnls noise reg s rs z m iv = .ok P) (hz : -1 < z) (hz0 : z ≠ 0) :
    ∃ c : List ℝ, c.length = s.restFlux.length ∧ ∀ (k : Nat) l f, s.restWave[k]? = some l → (modelSpectrum s.restWave.length c s.restFlux)[k]? = some f → 0 < l → 0 < f →
      ∃ p, P.curve[k]? = some p ∧ specPoint (l * (1 + z)) (f / (1 + z)) = p + (Real.logb 10 (1 + z), Real.logb 10 (1 + z)) ∧ specPoint (l * (1 + z)) (f / (1 + z)) ≠ p := by
  obtain ⟨w, F, out, c, -, -, -, hc, -, hp⟩ := C214_partial lib disk nnls noise reg s rs z m iv P h
  refine ⟨c, hc, fun k l f hl hf l0 f0 => ⟨_, hp k l f hl hf, specPoint_shift l0 f0 hz, ?_⟩⟩
  rw [specPoint_shift l0 f0 hz]
  intro e
  have e1 := congrArg Prod.fst e
  simp only [Prod.fst_add, add_eq_left] at e1
  have hk : (0 : ℝ) < 1 + z := by linarith
  rcases Real.logb_eq_zero.mp e1 with h | h | h | h | h | h <;> first | linarith | exact hz0 (by linarith)

/-- Not vacuous (C214): with templates and responses as in C93, two or more responses, at most nine templates and photometry with nonnegative inverse variances, the script
draws its curve at every redshift from 0 to 0.1. -/
theorem C214_returns (lib : Lib ℝ) (disk : Disk ℝ) (noise : Nat → Nat → Nat → ℝ) (reg : Reg ℝ) (s : Sed ℝ) (rs : List Name) (z : ℝ) (m iv : List ℝ)
    (hwv : s.restWave.Pairwise (· < ·)) (h4 : 4 ≤ s.restWave.length) (hfl : ∀ row ∈ s.restFlux, row.length = s.restWave.length) (hne : s.restFlux ≠ [])
    (h9 : s.restFlux.length ≤ 9) (hsn : s.nsed = s.restFlux.length) (hr : Loadable lib disk rs reg) (h1 : rs.length ≠ 1) (hz0 : 0 ≤ z) (hz1 : z ≤ 0.1)
    (hm : m.length = rs.length) (hiv : iv.length = rs.length) (hpos : ∀ v ∈ iv, 0 ≤ v) :
    ∃ P, fitPlot lib disk (lhNnls 0) noise reg s rs z m iv = .ok P := by
  have e0 : Fitter.mk' .base rs (.sed s) (lit 0) (lit 0.1) 100 false = Fitter.mk' .base rs (.sed s) (0 : ℝ) 0.1 100 false := by
    rw [real_lit, real_lit]; norm_num
  have hlo : (0 : ℝ) < 0.1 := by norm_num
  obtain ⟨g1, g2, g3, g4, _⟩ := C43_grid (0 : ℝ) 0.1 100 hlo (by norm_num)
  obtain ⟨w', A, hA, hrow, hcol, _⟩ := C93_build_succeeds lib disk (redshiftGrid 0 0.1 100) rs ⟨reg, s⟩ (by
    intro z hz
    simp only [redshiftGrid, List.mem_map, List.mem_range] at hz
    obtain ⟨i, _, rfl⟩ := hz
    simp only [real_f32, real_lit]
    push_cast
    have : (0 : ℝ) ≤ (0.1 - 0) * (i : ℝ) / ((100 : ℝ) - 1) := div_nonneg (by positivity) (by norm_num)
    linarith) hwv h4 hfl hne hr
  have hgood := calc_good hlo (by norm_num) hA
  obtain ⟨_, hx0, hx1, hx2⟩ := calc_grid hlo (by norm_num) hA
  have hF : (Fitter.mk' .base rs (.sed s) (0 : ℝ) 0.1 100 false).setAmatrix lib disk ⟨reg, s⟩ = (w', .ok { Fitter.mk' .base rs (.sed s) (0 : ℝ) 0.1 100 false with Amatrix := some A }) := by
    have hu : (Fitter.mk' .base rs (.sed s) (0 : ℝ) 0.1 100 false).redshifts = redshiftGrid 0 0.1 100 := rfl
    have hv : (Fitter.mk' .base rs (.sed s) (0 : ℝ) 0.1 100 false).responses = rs := rfl
    unfold Fitter.setAmatrix
    rw [hu, hv, hA]
    rfl
  obtain ⟨-, r1, r2, r3, r4, -⟩ := C47_rest_frame lib disk ⟨reg, s⟩ w' [] _ rs A hA
  simp only at r1 r2 r3 r4
  have hR : Ready { Fitter.mk' .base rs (.sed s) (0 : ℝ) 0.1 100 false with Amatrix := some A } A := ⟨rfl, hgood, hrow, hcol⟩
  obtain ⟨c, hc, hcl, -, rc, hrc, -⟩ := C184_fit { Fitter.mk' .base rs (.sed s) (0 : ℝ) 0.1 100 false with Amatrix := some A } (by show s.nsed ≤ 9; omega) trivial h1 A hR z
    ⟨hx1.trans_le hz0, hz1.trans_eq hx2.symm⟩ m iv hm hiv hpos noise
  have hlam : ∃ ls, rs.mapM (lambdaEffIn w'.reg) = .ok ls := by
    obtain ⟨hl, -⟩ := calcAmatrix_ok hA
    obtain ⟨g', hl', -, hcomp⟩ := loadMissing_spec lib disk rs reg hr
    rw [hl'] at hl
    refine mapM_exists (fun n hn => ?_)
    obtain ⟨o, ho, hoc⟩ := hcomp n hn
    obtain ⟨l, hl2, _⟩ := complete_lambda hoc
    simp only [Prod.mk.injEq] at hl
    exact ⟨l, by rw [← hl.1]; simp [lambdaEffIn, ho, hl2]⟩
  obtain ⟨ls, hls⟩ := hlam
  unfold fitPlot
  rw [e0, hF]
  simp only
  rw [hls, ok_bind, hc, ok_bind]
  simp only [NDA.vec]
  have hcl' : c.length = s.restFlux.length := by rw [hcl, ← hsn]; rfl
  have e1 : (lit 0 : ℝ) = 0 := by rw [real_lit]; norm_num
  simp only [NDA.vec] at hrc
  rw [r4, specDot, if_pos hcl', ok_bind, e1, hrc, ok_bind]
  exact ⟨_, rfl⟩

example (noise : Nat → Nat → Nat → ℝ) : ∃ P, fitPlot demoLib demoDisk (lhNnls 0) noise (fun _ => none) demoShared.sed [['x'], ['x']] 0.05 [3, 4] [1, 1] = .ok P :=
  C214_returns _ _ _ _ _ _ _ _ _ (by simp [demoShared]; norm_num) (by simp [demoShared]) (by simp [demoShared]) (by simp [demoShared]) (by simp [demoShared]) (by simp [demoShared, Sed.nsed])
    (fun n hn => Or.inr ⟨rfl, by
      simp only [List.mem_cons, List.not_mem_nil, or_false, or_self] at hn
      subst hn; exact demo_file⟩) (by simp) (by norm_num) (by norm_num) rfl rfl (by simp)

/-! ### C215 -/

theorem trackLoop_rows (lib : Lib ℝ) (g : Reg ℝ) (rs : List Name) (s0 : Sed ℝ) : ∀ (zs : List ℝ) (s : Sed ℝ) (rows : List (List ℝ)), SameRest s0 s → trackLoop lib g rs zs s = .ok rows →
    List.Forall₂ (fun z row => ∃ t, s0.setRedshift z = (t, .ok ()) ∧
      List.Forall₂ (fun n x => ∃ o c v, g n = some o ∧ o.curve = .ok c ∧ projectSed lib c t = .ok v ∧ (v = .scalar x ∨ ∃ k, v = .arr [] k [[x]])) rs row) zs rows
  | [], s, rows, _, h => by
    simp only [trackLoop, Except.ok.injEq] at h
    rw [← h]
    exact .nil
  | z :: zs, s, rows, hs, h => by
    unfold trackLoop at h
    cases ht : s.setRedshift z with
    | mk t r =>
      rw [ht] at h
      cases r with
      | error e => cases h
      | ok u =>
        simp only at h
        cases hr : rs.mapM (trackOne lib g t) with
        | error e => rw [hr] at h; cases h
        | ok row =>
          rw [hr, ok_bind] at h
          have h1 := sameRest_setRedshift s z
          rw [ht] at h1
          cases hl : trackLoop lib g rs zs t with
          | error e => rw [hl] at h; cases h
          | ok rest =>
            rw [hl, ok_bind] at h
            simp only [pure, Except.pure, Except.ok.injEq] at h
            rw [← h]
            refine .cons ⟨t, hs.setRedshift z ht, ?_⟩ (trackLoop_rows lib g rs s0 zs t rest (hs.trans h1) hl)
            rw [mapM_ok_iff] at hr
            refine hr.imp (fun n x hx => ?_)
            unfold trackOne at hx
            cases ho : g n with
            | none => rw [ho] at hx; cases hx
            | some o =>
              rw [ho] at hx
              simp only at hx
              cases hc : o.curve with
              | error e => rw [hc] at hx; cases hx
              | ok c =>
                rw [hc, ok_bind] at hx
                cases hp : projectSed lib c t with
                | error e => rw [hp] at hx; cases hx
                | ok v =>
                  rw [hp, ok_bind] at hx
                  refine ⟨o, c, v, rfl, hc, hp, ?_⟩
                  unfold storeOne at hx
                  split at hx
                  · simp only [Except.ok.injEq, real_f32] at hx
                    exact Or.inl (by rw [hx])
                  · simp only [Except.ok.injEq, real_f32] at hx
                    exact Or.inr ⟨_, by rw [hx]⟩
                  · cases hx

/-- The flux of the spectrum `s` at redshift `z` through the response `n`. -/
def Spec.Through (lib : Lib ℝ) (g : Reg ℝ) (s : Sed ℝ) (z : ℝ) (n : Name) (x : ℝ) : Prop :=
  ∃ t o c v, s.setRedshift z = (t, .ok ()) ∧ g n = some o ∧ o.curve = .ok c ∧ projectSed lib c t = .ok v ∧ (v = .scalar x ∨ ∃ k, v = .arr [] k [[x]])

/-- Middle of the `i`-th of `nz` equal parts of the range from 0 to 0.55. -/
noncomputable def Spec.midZ (nz i : Nat) : ℝ := 0.55 * ((i : ℝ) + 0.5) / nz

/-- C215: the colour tracks have `nz` points, at the middles of `nz` equal parts of the range from 0 to 0.55; the colour of two neighbouring responses at a redshift is the difference of the magnitudes
of the spectrum at that redshift alone, whatever redshifts came before. -/
theorem C215_tracks (lib : Lib ℝ) (disk : Disk ℝ) (reg : Reg ℝ) (s : Sed ℝ) (rs : List Name) (nz : Nat) (pts : List (ℝ × List ℝ)) (h : colorTracks lib disk reg s rs nz = .ok pts) :
    ∃ g, loadMissing lib disk rs reg = (g, .ok ()) ∧ pts.length = nz ∧ ∀ i : Nat, i < nz → ∃ cols, pts[i]? = some (midZ nz i, cols) ∧ cols.length = rs.length - 1 ∧
      ∀ (j : Nat) n n', rs[j]? = some n → rs[j + 1]? = some n' → ∃ x x', Through lib g s (midZ nz i) n x ∧ Through lib g s (midZ nz i) n' x' ∧
        (0 < x → 0 < x' → cols[j]? = some (mag x - mag x')) := by
  unfold colorTracks at h
  cases hl : loadMissing lib disk rs reg with
  | mk g r =>
    rw [hl] at h
    cases r with
    | error e => cases h
    | ok u =>
      simp only at h
      cases hr : trackLoop lib g rs (trackGrid nz) s with
      | error e => rw [hr] at h; cases h
      | ok rows =>
        rw [hr, ok_bind] at h
        simp only [pure, Except.pure, Except.ok.injEq] at h
        have H := trackLoop_rows lib g rs s _ s rows (SameRest.refl s) hr
        have eg : (trackGrid nz : List ℝ) = (List.range nz).map (midZ nz) := by
          unfold trackGrid
          refine List.map_congr_left (fun i _ => ?_)
          simp only [real_lit, real_f32, midZ]
          push_cast
          norm_num
        have hlen : rows.length = nz := by rw [← H.length_eq, eg]; simp
        refine ⟨g, rfl, by rw [← h, eg]; simp [hlen], fun i hi => ?_⟩
        have hz : (trackGrid nz : List ℝ)[i]? = some (midZ nz i) := by rw [eg]; simp [hi]
        have hrow : rows[i]? = some rows[i] := List.getElem?_eq_getElem (by omega)
        obtain ⟨t, ht, hF⟩ := (List.forall₂_iff_get.mp H).2 i (by rw [eg]; simpa using hi) (by omega)
        simp only [List.get_eq_getElem] at ht hF
        have hz' : (trackGrid nz : List ℝ)[i]'(by rw [eg]; simpa using hi) = midZ nz i := by
          have := List.getElem?_eq_getElem (l := (trackGrid nz : List ℝ)) (i := i) (by rw [eg]; simpa using hi)
          rw [hz] at this
          simpa using this.symm
        rw [hz'] at ht
        refine ⟨List.zipWith magRatio rows[i] rows[i].tail, by rw [← h, List.getElem?_zipWith, hz, hrow], by simp [hF.length_eq], fun j n n' hj hj' => ?_⟩
        obtain ⟨lj, ej⟩ := List.getElem?_eq_some_iff.mp hj
        obtain ⟨lj', ej'⟩ := List.getElem?_eq_some_iff.mp hj'
        have q1 : j < rows[i].length := by rw [← hF.length_eq]; exact lj
        have q2 : j + 1 < rows[i].length := by rw [← hF.length_eq]; exact lj'
        obtain ⟨o, c, v, a1, a2, a3, a4⟩ := (List.forall₂_iff_get.mp hF).2 j lj q1
        obtain ⟨o', c', v', b1, b2, b3, b4⟩ := (List.forall₂_iff_get.mp hF).2 (j + 1) lj' q2
        simp only [List.get_eq_getElem, ej, ej'] at a1 a4 b1 b4
        refine ⟨_, _, ⟨t, o, c, v, ht, a1, a2, a3, a4⟩, ⟨t, o', c', v', ht, b1, b2, b3, b4⟩, fun p p' => ?_⟩
        rw [List.getElem?_zipWith, List.getElem?_eq_getElem q1, List.getElem?_tail, List.getElem?_eq_getElem q2]
        simp only [magRatio_real p p']

/-- Not vacuous (C215): a spectrum with an interpolator, increasing wavelengths (four or more) and responses that load give tracks of any number of redshifts. -/
theorem C215_returns (lib : Lib ℝ) (disk : Disk ℝ) (reg : Reg ℝ) (s : Sed ℝ) (rs : List Name) (nz : Nat) (row : List ℝ) (hi : s.interpolate = true)
    (hwv : s.restWave.Pairwise (· < ·)) (h4 : 4 ≤ s.restWave.length) (hfl : s.restFlux = [row]) (hrl : row.length = s.restWave.length) (hr : Loadable lib disk rs reg) :
    ∃ pts, colorTracks lib disk reg s rs nz = .ok pts := by
  obtain ⟨g', hl, _, hcomp⟩ := loadMissing_spec lib disk rs reg hr
  have hmk : ∀ z : ℝ, -1 < z → mkInterp (s.restWave.map (fun w => w * (1 + z))) (s.restFlux.map (List.map (fun f => f / (1 + z)))) =
      .ok ⟨s.restWave.map (fun w => w * (1 + z)), s.restFlux.map (List.map (fun f => f / (1 + z)))⟩ := by
    intro z hz
    apply mkInterp_strict
    · rw [List.pairwise_map]
      exact hwv.imp (fun h => mul_lt_mul_of_pos_right h (by linarith))
    · simpa using h4
    · intro r hrow
      rw [hfl] at hrow
      simp only [List.map_cons, List.map_nil, List.mem_singleton] at hrow
      simp [hrow, hrl]
  have key : ∀ (zs : List ℝ) (t : Sed ℝ), (∀ z ∈ zs, -1 < z) → SameRest s t → ∃ rows, trackLoop lib g' rs zs t = .ok rows := by
    intro zs
    induction zs with
    | nil => intro t _ _; exact ⟨[], rfl⟩
    | cons z zs ih =>
      intro t hz hs
      obtain ⟨h1, h2, h3, h4', h5, h6, h7⟩ := setRedshift_fields t z
      have hsr := hs.trans (sameRest_setRedshift t z)
      rw [hs.wave] at h3
      rw [hs.flux] at h4'
      simp only [real_lit, Rat.cast_one] at h3 h4'
      have hti : t.interpolate = true := by rw [hs.ip, hi]
      have hon := (setRedshift_interp_on t z hti).1 _ (by rw [h3, h4']; exact hmk z (hz z List.mem_cons_self))
      obtain ⟨rest, hrest⟩ := ih (t.setRedshift z).1 (fun y hy => hz y (List.mem_cons_of_mem _ hy)) hsr
      have hone : ∃ R, rs.mapM (trackOne lib g' (t.setRedshift z).1) = .ok R := by
        refine mapM_exists (fun n hn => ?_)
        obtain ⟨o, ho, w0, r0, R, hR, rfl⟩ := hcomp n hn
        unfold trackOne
        simp only [ho, RespObj.curve, RespObj.full, ok_bind, projectSed, hon.2]
        unfold projectWith
        cases projGrid (t.setRedshift z).1.wave R.wave with
        | none => exact ⟨_, rfl⟩
        | some grid =>
          simp only [hfl, Interp.eval, List.map_cons, List.map_nil]
          exact ⟨_, rfl⟩
      obtain ⟨R, hR⟩ := hone
      refine ⟨R :: rest, ?_⟩
      unfold trackLoop
      have : t.setRedshift z = ((t.setRedshift z).1, .ok ()) := Prod.ext rfl hon.1
      rw [this]
      simp only
      rw [hR, ok_bind, hrest, ok_bind]
      rfl
  obtain ⟨rows, hrows⟩ := key (trackGrid nz) s (by
    intro z hz
    simp only [trackGrid, List.mem_map, List.mem_range] at hz
    obtain ⟨i, _, rfl⟩ := hz
    simp only [real_lit, real_f32]
    push_cast
    have : (0 : ℝ) ≤ (11 / 20 - 0) * ((i : ℝ) + 1 / 2) / (nz : ℝ) := by positivity
    norm_num at this ⊢
    linarith) (SameRest.refl s)
  unfold colorTracks
  rw [hl]
  simp only
  rw [hrows, ok_bind]
  exact ⟨_, rfl⟩

example : ∃ pts, colorTracks demoLib demoDisk (fun _ => none) ⟨[1, 2, 3, 4], [[1, 2, 3, 4]], [1, 2, 3, 4], [[1, 2, 3, 4]], 0, true, none, false⟩ [['x'], ['x']] 1000 = .ok pts :=
  C215_returns _ _ _ _ _ _ [1, 2, 3, 4] rfl (by simp; norm_num) (by simp) rfl rfl
    (fun n hn => Or.inr ⟨rfl, by
      simp only [List.mem_cons, List.not_mem_nil, or_false, or_self] at hn
      subst hn; exact demo_file⟩)

end KC
