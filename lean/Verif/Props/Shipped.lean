import Verif.Model.BandFiles
import Verif.Props.LambdaEff
import Verif.Props.Spline
import Verif.Props.Build2
import Verif.Props.Response3
import Mathlib.Data.List.Sort

/-!
# The default response curves, as shipped (C181, C182)

The ten files are in `Model/BandFiles.lean`, copied row by row.
-/

namespace KC
open Spec

/-- the columns of a file as rational numbers -/
def BandFile.w (b : BandFile) : List ℚ := b.rows.map (fun p => (p.1 : ℚ) / 10 ^ b.wdec)
def BandFile.p (b : BandFile) : List ℚ := b.rows.map (fun p => (p.2 : ℚ) / 10 ^ b.pdec)

/-- the columns `lambda` and `pass` of a file -/
noncomputable def BandFile.wave (b : BandFile) : List ℝ := b.w.map (fun q : ℚ => (q : ℝ))
noncomputable def BandFile.resp (b : BandFile) : List ℝ := b.p.map (fun q : ℚ => (q : ℝ))

/-- the rows of a file in the order of wavelength (`twomass_J` has two rows exchanged) -/
def BandFile.sort (b : BandFile) : BandFile := { b with rows := b.rows.insertionSort (fun p q => p.1 ≤ q.1) }

/-- what is checked of a file: four rows or more, wavelengths positive and increasing, response zero in the first and the last row, positive somewhere -/
def BandFile.check (b : BandFile) : Bool :=
  decide (4 ≤ b.rows.length) && decide (b.rows.IsChain (fun p q => p.1 < q.1)) && b.rows.all (fun p => 0 < p.1) &&
    (b.rows.head?.map (·.2) == some 0) && (b.rows.getLast?.map (·.2) == some 0) && b.rows.any (fun p => 0 < p.2)

theorem files_check : ∀ b ∈ defaultFiles, b.sort.check = true := by decide +kernel

/-- the files are those of the default responses -/
theorem files_names : defaultFiles.map BandFile.name = gstBands := by decide +kernel

structure GoodFile (b : BandFile) : Prop where
  four : 4 ≤ b.wave.length
  len : b.resp.length = b.wave.length
  incr : b.wave.Pairwise (· < ·)
  pos : ∀ w ∈ b.wave, 0 < w
  first : b.resp.headD 0 = 0
  last : b.resp.getLastD 0 = 0
  some : ∃ v ∈ b.resp, 0 < v

theorem BandFile.good {b : BandFile} (h : b.check = true) : GoodFile b := by
  simp only [BandFile.check, Bool.and_eq_true, decide_eq_true_eq, List.all_eq_true, List.any_eq_true, beq_iff_eq] at h
  obtain ⟨⟨⟨⟨⟨h1, h2⟩, h3⟩, h4⟩, h5⟩, h6⟩ := h
  have hw : (0 : ℚ) < 10 ^ b.wdec := by positivity
  have hp : (0 : ℚ) < 10 ^ b.pdec := by positivity
  refine ⟨by simpa [BandFile.wave, BandFile.w] using h1, by simp [BandFile.wave, BandFile.w, BandFile.resp, BandFile.p], ?_, ?_, ?_, ?_, ?_⟩
  · have hc : b.rows.Pairwise (fun p q => p.1 < q.1) := List.isChain_iff_pairwise.mp h2
    unfold BandFile.wave BandFile.w
    rw [List.map_map, List.pairwise_map]
    refine hc.imp fun {p q} hpq => ?_
    simp only [Function.comp_apply]
    have : (p.1 : ℚ) / 10 ^ b.wdec < q.1 / 10 ^ b.wdec := div_lt_div_of_pos_right (by exact_mod_cast hpq) hw
    exact_mod_cast this
  · intro w hw'
    simp only [BandFile.wave, BandFile.w, List.mem_map] at hw'
    obtain ⟨q, ⟨p, hp', rfl⟩, rfl⟩ := hw'
    have : (0 : ℚ) < p.1 / 10 ^ b.wdec := div_pos (by exact_mod_cast h3 p hp') hw
    exact_mod_cast this
  · cases hh : b.rows.head? with
    | none => rw [hh] at h4; simp at h4
    | some p =>
      rw [hh] at h4
      have : p.2 = 0 := by simpa using h4
      unfold BandFile.resp BandFile.p
      rw [List.headD_eq_head?_getD, List.head?_map, List.head?_map, hh]
      simp [this]
  · cases hh : b.rows.getLast? with
    | none => rw [hh] at h5; simp at h5
    | some p =>
      rw [hh] at h5
      have : p.2 = 0 := by simpa using h5
      unfold BandFile.resp BandFile.p
      rw [List.getLastD_eq_getLast?, List.getLast?_map, List.getLast?_map, hh]
      simp [this]
  · obtain ⟨p, hp', h0⟩ := h6
    refine ⟨_, List.mem_map.mpr ⟨_, List.mem_map.mpr ⟨p, hp', rfl⟩, rfl⟩, ?_⟩
    have : (0 : ℚ) < p.2 / 10 ^ b.pdec := div_pos (by exact_mod_cast h0) hp
    exact_mod_cast this

theorem defaultFiles_good {b : BandFile} (hb : b ∈ defaultFiles) : GoodFile b.sort := BandFile.good (files_check b hb)

/-- a file gives the response that its rows in the order of wavelength give -/
theorem file_sort (lib : Lib ℝ) {b : BandFile} (hb : b ∈ defaultFiles) : mkResponse lib b.wave b.resp = mkResponse lib b.sort.wave b.sort.resp := by
  have hp : b.sort.rows.Perm b.rows := List.perm_insertionSort _ _
  have hw : b.sort.wave.Perm b.wave := (hp.map _).map _
  have hz : ∀ c : BandFile, List.zip c.wave c.resp =
      c.rows.map (fun p => ((((p.1 : ℚ) / 10 ^ c.wdec : ℚ) : ℝ), (((p.2 : ℚ) / 10 ^ c.pdec : ℚ) : ℝ))) := by
    intro c
    unfold BandFile.wave BandFile.resp BandFile.w BandFile.p
    rw [List.map_map, List.map_map, List.zip_map']
    rfl
  refine (C119_sample_order lib _ _ _ _ (defaultFiles_good hb).len (by simp [BandFile.wave, BandFile.w, BandFile.resp, BandFile.p])
    ((defaultFiles_good hb).incr.imp fun h => h.ne) ?_).symm
  rw [hz, hz]
  exact hp.map _

/-! ### C181 -/

/-- **C181.** Every default response file makes a Response, with exactly the samples of the file in the order of wavelength. -/
theorem C181_response (lib : Lib ℝ) (hb : BrentqOK lib) (hsun : StarOK lib.sun) (hvega : StarOK lib.vega) (b : BandFile) (hd : b ∈ defaultFiles) :
    ∃ R, mkResponse lib.cubic b.wave b.resp = .ok R ∧ R.wave = b.sort.wave ∧ R.resp = b.sort.resp := by
  have g := defaultFiles_good hd
  obtain ⟨R, hR⟩ := C91_response_builds lib.cubic (C159_contracts lib).1 hb hsun hvega b.sort.wave b.sort.resp (g.incr.imp fun h => h.ne) g.four g.len g.some
  exact ⟨R, by rw [file_sort lib.cubic hd]; exact hR, mkResponse_sorted (g.incr.imp le_of_lt) g.len hR⟩

/-- **C181.** For every default band and every spectrum with a sample inside it, `project` returns the ratio of the photon integrals of the spectrum and of the AB source. -/
theorem C181_ratio (lib : Lib ℝ) (b : BandFile) (hd : b ∈ defaultFiles) (R : Resp ℝ) (hR : mkResponse lib.cubic b.wave b.resp = .ok R) (sw : List ℝ)
    (hs : sw.Pairwise (· < ·)) (rows : List (List ℝ)) (m : NDA ℝ) (hm : Projects lib.cubic R.toCurve sw rows m)
    (hov : ∃ w ∈ sw, b.sort.wave.headD 0 ≤ w ∧ w ≤ b.sort.wave.getLastD 0) : ∃ g, UnionGrid sw b.sort.wave g ∧
      m.flat = rows.map (fun y => photonInt g (curveFn nakSpline b.sort.wave b.sort.resp) (curveFn nakSpline sw y) /
        photonInt g (curveFn nakSpline b.sort.wave b.sort.resp) abFlux) := by
  have g := defaultFiles_good hd
  rw [file_sort lib.cubic hd] at hR
  obtain ⟨e1, e2⟩ := mkResponse_sorted (g.incr.imp le_of_lt) g.len hR
  have := C18_project_ratio_partial lib.cubic (C159_contracts lib).1 _ _ R hR sw hs rows m hm (by rw [e1]; exact hov)
    ⟨Or.inl (by rw [e2]; exact g.first), Or.inl (by rw [e2]; exact g.last)⟩
  rw [e1, e2] at this
  exact this

/-- **C181.** With the default response files in place, an object of any class with any of the default bands, in any order, and any well-formed templates and redshift
range can be made. -/
theorem C181_object (lib : Lib ℝ) (hb : BrentqOK lib) (hsun : StarOK lib.sun) (hvega : StarOK lib.vega) (disk : Disk ℝ)
    (hdisk : ∀ b ∈ defaultFiles, disk (datName b.name) = .ok (b.wave, b.resp)) (cls : Cls) (R : List Name) (hsub : ∀ n ∈ R, n ∈ gstBands) (T : Tpl ℝ)
    (lo hi : ℝ) (n : Nat) (ab : Bool) (dm : ℝ → ℝ) (w : Shared ℝ) (h0 : -1 < lo) (h : lo < hi) (hn : 2 ≤ n)
    (hwv : w.sed.restWave.Pairwise (· < ·)) (h4 : 4 ≤ w.sed.restWave.length) (hfl : ∀ row ∈ w.sed.restFlux, row.length = w.sed.restWave.length)
    (hne : w.sed.restFlux ≠ []) (hreg : ∀ n ∈ R, w.reg n = none ∨ ∃ o, w.reg n = some o ∧ Complete lib.cubic o) :
    ∃ w' K, Kc.init lib.cubic disk cls R T none none lo hi n ab dm w = (w', .ok K) ∧ K.responses = R ∧ K.responsesOut = R ∧
      ∀ z, lo ≤ z → z ≤ hi → ∀ c : List ℝ, c.length = K.templates.nsed →
        ∃ m, K.reconstruct (some (.scalar z)) (some (.vec c)) 0 = .ok m ∧ m.flat.length = R.length := by
  have hfile : ∀ n ∈ R, (∃ o, w.reg n = some o ∧ Complete lib.cubic o) ∨ (w.reg n = none ∧ ∃ R, FileGives lib.cubic disk n R) := by
    intro n hn
    rcases hreg n hn with h | h
    · right
      refine ⟨h, ?_⟩
      have := hsub n hn
      rw [← files_names, List.mem_map] at this
      obtain ⟨b, hd, rfl⟩ := this
      obtain ⟨R, hR, _⟩ := C181_response lib hb hsun hvega b hd
      exact ⟨R, _, _, hdisk b hd, hR⟩
    · exact Or.inl h
  obtain ⟨w', F, hF, hrec⟩ := C93_fitter lib.cubic disk cls R T lo hi n ab w h0 h hn hwv h4 hfl hne hfile
  have hA : ∃ A, calcAmatrix lib.cubic disk (redshiftGrid lo hi n) R w = (w', .ok A) ∧ F = { Fitter.mk' cls R T lo hi n ab with Amatrix := some A } := by
    unfold Fitter.setAmatrix at hF
    have hu : (Fitter.mk' cls R T lo hi n ab).redshifts = redshiftGrid lo hi n := rfl
    have hv : (Fitter.mk' cls R T lo hi n ab).responses = R := rfl
    rw [hu, hv] at hF
    cases hc : calcAmatrix lib.cubic disk (redshiftGrid lo hi n) R w with
    | mk w1 r =>
      rw [hc] at hF
      cases r with
      | error e => cases hF
      | ok A =>
        cases hF
        exact ⟨A, rfl, rfl⟩
  obtain ⟨A, hA, rfl⟩ := hA
  have hinit : ∃ w' K, Kc.init lib.cubic disk cls R T none none lo hi n ab dm w = (w', .ok K) ∧
      K.toFitter = { Fitter.mk' cls R T lo hi n ab with Amatrix := some A } := by
    obtain ⟨im, him⟩ := imapOf_exists (R := R) (M := R) (fun r hr => hr)
    unfold Kc.init
    rw [hF]
    simp only [Option.getD_none, Fitter.mk', ne_eq, not_true_eq_false, if_false, if_true, him, ok_bind]
    exact ⟨_, _, rfl, rfl⟩
  obtain ⟨w'', K, hK, hKF⟩ := hinit
  obtain ⟨e1, e2, _⟩ := C63_defaults _ _ _ _ _ _ _ _ _ _ _ _ _ hK
  refine ⟨w'', K, hK, by rw [hKF]; rfl, e1, ?_⟩
  rw [hKF]
  exact hrec

/-! ### effective wavelengths -/

/-- trapezoid rule on rational numbers -/
def trapQ : List ℚ → List ℚ → ℚ
  | x0 :: x1 :: xs, f0 :: f1 :: fs => (x1 - x0) * ((f0 + f1) / 2) + trapQ (x1 :: xs) (f1 :: fs)
  | _, _ => 0

theorem trapQ_cast (x f : List ℚ) : trapRule (x.map (fun q : ℚ => (q : ℝ))) (f.map (fun q : ℚ => (q : ℝ))) = ((trapQ x f : ℚ) : ℝ) := by
  induction x generalizing f with
  | nil => simp [trapRule, trapQ]
  | cons a x ih =>
    cases x with
    | nil => simp [trapRule, trapQ]
    | cons b x =>
      rcases f with _ | ⟨u, _ | ⟨v, f⟩⟩
      · simp [trapRule, trapQ]
      · simp [trapRule, trapQ]
      · have := ih (v :: f)
        simp only [List.map_cons] at this ⊢
        simp only [trapRule, trapQ, this]
        push_cast
        ring

/-- a curve that is negative at one wavelength `c` at most, where what it has on either side of `c` outweighs the negative sample, has its effective wavelength between
its ends -/
theorem lambdaEff_pivot (w r : List ℝ) (c : ℝ) (hw : w.Pairwise (· < ·)) (hpos : ∀ x ∈ w, 0 < x) (hl : r.length = w.length) (hne : w ≠ []) (h0 : r.headD 0 = 0)
    (h1 : r.getLastD 0 = 0) (hc : c ∈ w) (hnn : ∀ i (hi : i < w.length), w[i] ≠ c → 0 ≤ r[i]'(by omega)) (hD : 0 < logWeight w r)
    (hup : 0 ≤ trapRule w (List.zipWith (fun w r => if w < c then 0 else r / w) w r))
    (hlow : 0 ≤ trapRule w (List.zipWith (fun w r => if c < w then 0 else r / w) w r)) :
    w.headD 0 ≤ lambdaEffOf w r ∧ lambdaEffOf w r ≤ w.getLastD 0 := by
  have ha : 0 < w.headD 0 := hpos _ (headD_mem hne)
  have hb : 0 < w.getLastD 0 := hpos _ (getLastD_mem hne)
  have hc0 : 0 < c := hpos c hc
  have hle' : 0 < lambdaEffOf w r := Real.exp_pos _
  have ea := lambdaEff_rel ha w r hpos hl hne (by rw [h0, h1]; simpa using hD.ne')
  have eb := lambdaEff_rel hb w r hpos hl hne (by rw [h0, h1]; simpa using hD.ne')
  rw [h0, h1] at ea eb
  simp only [mul_zero, sub_zero] at ea eb
  have hwle := hw.imp (R := (· < ·)) (S := (· ≤ ·)) le_of_lt
  constructor
  · rw [← Real.log_le_log_iff ha hle', ← sub_nonneg, ea]
    refine div_nonneg ?_ hD.le
    refine le_trans ?_ (trapRule_mono w ((List.zipWith (fun w r => if w < c then 0 else r / w) w r).map (fun v => Real.log (c / w.headD 0) * v)) _ hwle (by simp) ?_)
    · rw [trapRule_smul]
      exact mul_nonneg (Real.log_nonneg ((one_le_div ha).mpr (head_le hw hc))) hup
    · intro i hf hg
      have hi : i < w.length := by simp [hl] at hf; exact hf
      simp only [List.getElem_map, List.getElem_zipWith]
      have hwi := hpos _ (List.getElem_mem hi)
      have hla : 0 ≤ Real.log (w[i] / w.headD 0) := Real.log_nonneg ((one_le_div ha).mpr (head_le hw (List.getElem_mem hi)))
      by_cases hic : w[i] = c
      · rw [if_neg (by rw [hic]; exact lt_irrefl c), hic]
      · have hri := div_nonneg (hnn i hi hic) hwi.le
        split
        · rw [mul_zero]
          exact mul_nonneg hla hri
        · rename_i hlt
          refine mul_le_mul_of_nonneg_right ?_ hri
          exact Real.log_le_log (div_pos hc0 ha) (div_le_div_of_nonneg_right (not_lt.mp hlt) ha.le)
  · rw [← Real.log_le_log_iff hle' hb, ← sub_nonpos, eb]
    refine div_nonpos_of_nonpos_of_nonneg ?_ hD.le
    refine le_trans (trapRule_mono w _ ((List.zipWith (fun w r => if c < w then 0 else r / w) w r).map (fun v => Real.log (c / w.getLastD 0) * v)) hwle (by simp) ?_) ?_
    · intro i hf hg
      have hi : i < w.length := by simp [hl] at hf; exact hf
      simp only [List.getElem_map, List.getElem_zipWith]
      have hwi := hpos _ (List.getElem_mem hi)
      have hla : Real.log (w[i] / w.getLastD 0) ≤ 0 := Real.log_nonpos (div_nonneg hwi.le hb.le) ((div_le_one hb).mpr (le_last hw (List.getElem_mem hi)))
      by_cases hic : w[i] = c
      · rw [if_neg (by rw [hic]; exact lt_irrefl c), hic]
      · have hri := div_nonneg (hnn i hi hic) hwi.le
        split
        · rw [mul_zero]
          exact mul_nonpos_of_nonpos_of_nonneg hla hri
        · rename_i hlt
          refine mul_le_mul_of_nonneg_right ?_ hri
          exact Real.log_le_log (div_pos hwi hb) (div_le_div_of_nonneg_right (not_lt.mp hlt) hb.le)
    · rw [trapRule_smul]
      exact mul_nonpos_of_nonpos_of_nonneg (Real.log_nonpos (div_nonneg hc0.le hb.le) ((div_le_one hb).mpr (le_last hw hc))) hlow

/-- every default file but `sdss_r0` has no negative sample -/
theorem files_nonneg : ∀ b ∈ defaultFiles, b = file_sdss_r0 ∨ b.rows.all (fun p => 0 ≤ p.2) = true := by decide +kernel

theorem r0_sort : file_sdss_r0.sort = file_sdss_r0 := by decide +kernel

theorem r0_mem : file_sdss_r0 ∈ defaultFiles := by decide +kernel

theorem r0_nonneg : ∀ q ∈ List.zip file_sdss_r0.w file_sdss_r0.p, q.1 = 5380 ∨ 0 ≤ q.2 := by decide +kernel

theorem pivot_cast (x y : List ℚ) (c : ℚ) (h : ∀ q ∈ List.zip x y, q.1 = c ∨ 0 ≤ q.2) (i : Nat) (hi : i < (x.map (fun q : ℚ => (q : ℝ))).length)
    (hj : i < (y.map (fun q : ℚ => (q : ℝ))).length) (hne : (x.map (fun q : ℚ => (q : ℝ)))[i] ≠ (c : ℝ)) : 0 ≤ (y.map (fun q : ℚ => (q : ℝ)))[i] := by
  rw [List.getElem_map] at hne ⊢
  rw [List.length_map] at hi hj
  have hz : (x[i], y[i]) ∈ List.zip x y := by
    have hm : (List.zip x y)[i]'(by simp; omega) ∈ List.zip x y := List.getElem_mem _
    rwa [List.getElem_zip] at hm
  rcases h _ hz with e | e
  · exact absurd (congrArg (fun q : ℚ => (q : ℝ)) e) hne
  · have e' : 0 ≤ y[i] := e
    exact_mod_cast e'

theorem file_nonneg {b : BandFile} (h : b.rows.all (fun p => 0 ≤ p.2) = true) : ∀ v ∈ b.resp, 0 ≤ v := by
  intro v hv
  simp only [BandFile.resp, BandFile.p, List.mem_map] at hv
  obtain ⟨q, ⟨p, hp', rfl⟩, rfl⟩ := hv
  have h2 : (0 : ℤ) ≤ p.2 := by simpa using List.all_eq_true.mp h p hp'
  have : (0 : ℚ) ≤ p.2 / 10 ^ b.pdec := div_nonneg (by exact_mod_cast h2) (by positivity)
  exact_mod_cast this

theorem r0_zip (f : ℚ → ℚ → ℚ) (F : ℝ → ℝ → ℝ) (h : ∀ a b : ℚ, F a b = ((f a b : ℚ) : ℝ)) :
    trapRule file_sdss_r0.wave (List.zipWith F file_sdss_r0.wave file_sdss_r0.resp) =
      ((trapQ file_sdss_r0.w (List.zipWith f file_sdss_r0.w file_sdss_r0.p) : ℚ) : ℝ) := by
  rw [← trapQ_cast]
  unfold BandFile.wave BandFile.resp
  congr 1
  rw [List.zipWith_map, List.map_zipWith]
  congr 1
  funext a b
  exact h a b

theorem r0_weight : 0 < logWeight file_sdss_r0.wave file_sdss_r0.resp := by
  unfold logWeight
  rw [r0_zip (fun w r => r / w) _ (fun a b => by push_cast; rfl)]
  have : 0 < trapQ file_sdss_r0.w (List.zipWith (fun w r => r / w) file_sdss_r0.w file_sdss_r0.p) := by decide +kernel
  exact_mod_cast this

/-- **C181.** The effective wavelength of every default band lies between the first and the last wavelength of its file. -/
theorem C181_lambda_eff (lib : Lib ℝ) (b : BandFile) (hd : b ∈ defaultFiles) (R : Resp ℝ) (hR : mkResponse lib.cubic b.wave b.resp = .ok R) :
    b.sort.wave.headD 0 ≤ R.lambdaEff ∧ R.lambdaEff ≤ b.sort.wave.getLastD 0 := by
  have g := defaultFiles_good hd
  have hR' := hR
  rw [file_sort lib.cubic hd] at hR
  obtain ⟨e1, e2⟩ := mkResponse_sorted (g.incr.imp le_of_lt) g.len hR
  rcases files_nonneg b hd with rfl | h
  · rw [r0_sort] at g hR e1 e2 ⊢
    obtain ⟨_, hw, _, h3⟩ := mkResponse_ok hR
    obtain ⟨_, _, _, hle, _⟩ := respSetup_ok (by rw [hw]; exact gather_sorted _) h3
    rw [hle, e1, e2]
    refine lambdaEff_pivot _ _ 5380 g.incr g.pos g.len (by rintro h; have := g.four; rw [h] at this; simp at this) g.first g.last ?_ ?_ r0_weight ?_ ?_
    · have : (5380 : ℚ) ∈ file_sdss_r0.w := by decide +kernel
      exact List.mem_map.mpr ⟨5380, this, by norm_num⟩
    · intro i hi hne
      exact pivot_cast file_sdss_r0.w file_sdss_r0.p 5380 r0_nonneg i hi _ (fun h => hne (h.trans (by norm_num)))
    · rw [r0_zip (fun w r => if w < 5380 then 0 else r / w) _ (fun a b => by
        have : ((a : ℝ) < 5380) ↔ a < 5380 := by exact_mod_cast Iff.rfl
        simp only [this]
        split <;> push_cast <;> rfl)]
      have : 0 ≤ trapQ file_sdss_r0.w (List.zipWith (fun w r => if w < 5380 then 0 else r / w) file_sdss_r0.w file_sdss_r0.p) := by decide +kernel
      exact_mod_cast this
    · rw [r0_zip (fun w r => if 5380 < w then 0 else r / w) _ (fun a b => by
        have : ((5380 : ℝ) < a) ↔ 5380 < a := by exact_mod_cast Iff.rfl
        simp only [this]
        split <;> push_cast <;> rfl)]
      have : 0 ≤ trapQ file_sdss_r0.w (List.zipWith (fun w r => if 5380 < w then 0 else r / w) file_sdss_r0.w file_sdss_r0.p) := by decide +kernel
      exact_mod_cast this
  · have hs : b.sort.rows.all (fun p => 0 ≤ p.2) = true := by
      rw [List.all_eq_true] at h ⊢
      exact fun p hp => h p ((List.perm_insertionSort _ _).mem_iff.mp hp)
    have := C19_lambda_eff_in_band_partial lib.cubic (C159_contracts lib).1 _ _ R hR g.pos g.len (file_nonneg hs) (by rw [e2]; exact g.first) (by rw [e2]; exact g.last)
    rw [e1] at this
    exact this

/-! ### nonnegative spectra -/

/-- the photon integral of a spectrum sampled at the wavelengths of the band -/
theorem photonInt_samples {lib : Lib ℝ} (hk : KnotExact lib) {w r y g : List ℝ} (hw : w.Pairwise (· < ·)) (h4 : 4 ≤ w.length) (hr : r.length = w.length)
    (hy : y.length = w.length) (hg : UnionGrid w w g) :
    photonInt g (curveFn lib.spline w r) (curveFn lib.spline w y) = trapRule w (List.zipWith (fun w v => w * v) w (List.zipWith (fun a b => a * b) r y)) := by
  obtain rfl := union_same hw hg
  unfold photonInt
  congr 1
  refine List.ext_getElem (by simp [hr, hy]) fun i h1 h2 => ?_
  have hi : i < g.length := by simpa using h1
  simp only [List.getElem_map, List.getElem_zipWith]
  rw [curve_at_knot hk hw h4 hr (i := i) (List.getElem?_eq_getElem hi) (List.getElem?_eq_getElem (by omega)),
    curve_at_knot hk hw h4 hy (i := i) (List.getElem?_eq_getElem hi) (List.getElem?_eq_getElem (by omega))]
  ring

/-- that of the AB source -/
theorem photonInt_ab {lib : Lib ℝ} (hk : KnotExact lib) {w r g : List ℝ} (hw : w.Pairwise (· < ·)) (hpos : ∀ x ∈ w, 0 < x) (h4 : 4 ≤ w.length)
    (hr : r.length = w.length) (hg : UnionGrid w w g) : photonInt g (curveFn lib.spline w r) abFlux = 0.03631 * 2.99792 * logWeight w r := by
  obtain rfl := union_same hw hg
  unfold photonInt logWeight
  rw [← trapRule_smul]
  congr 1
  refine List.ext_getElem (by simp [hr]) fun i h1 h2 => ?_
  have hi : i < g.length := by simpa using h1
  simp only [List.getElem_map, List.getElem_zipWith]
  rw [curve_at_knot hk hw h4 hr (i := i) (List.getElem?_eq_getElem hi) (List.getElem?_eq_getElem (by omega))]
  have := hpos _ (List.getElem_mem hi)
  unfold abFlux
  field_simp

/-- one line at 5380 Å, sampled at the wavelengths of `sdss_r0` -/
def lineQ : List ℚ := file_sdss_r0.w.map (fun w => if w = 5380 then 1 else 0)

/-- **C182 (false of the code).** A spectrum that is nonnegative can have negative maggies in one of the default bands: the shipped `sdss_r0` is negative at 5380 Å, and the
spectrum that has flux there alone has a negative flux in the r band. -/
theorem C182_false (lib : Lib ℝ) (hb : BrentqOK lib) (hsun : StarOK lib.sun) (hvega : StarOK lib.vega) :
    ∃ b ∈ defaultFiles, ∃ (flux : List ℝ) (R : Resp ℝ) (m : NDA ℝ), mkResponse lib.cubic b.wave b.resp = .ok R ∧ (∀ v ∈ flux, 0 ≤ v) ∧
      Projects lib.cubic R.toCurve b.wave [flux] m ∧ ∃ v ∈ m.flat, v < 0 := by
  have hk := (C159_contracts lib).1
  obtain ⟨R, hR, _⟩ := C181_response lib hb hsun hvega file_sdss_r0 r0_mem
  have g := defaultFiles_good r0_mem
  rw [r0_sort] at g
  have hlen : (lineQ.map (fun q : ℚ => (q : ℝ))).length = file_sdss_r0.wave.length := by simp [lineQ, BandFile.wave]
  obtain ⟨m, hm⟩ := projects_exists lib.cubic R.toCurve file_sdss_r0.wave (lineQ.map (fun q : ℚ => (q : ℝ))) g.incr g.four hlen
  refine ⟨_, r0_mem, _, R, m, hR, ?_, hm, ?_⟩
  · intro v hv
    simp only [lineQ, List.map_map, List.mem_map, Function.comp] at hv
    obtain ⟨q, _, rfl⟩ := hv
    split <;> norm_num
  have hne : file_sdss_r0.wave ≠ [] := by rintro h; have := g.four; rw [h] at this; simp at this
  obtain ⟨gr, hg, hf⟩ := C181_ratio lib _ r0_mem R hR _ g.incr _ m hm ⟨_, headD_mem hne, by rw [r0_sort], by rw [r0_sort]; exact le_last g.incr (headD_mem hne)⟩
  rw [r0_sort] at hg hf
  rw [List.map_singleton] at hf
  refine ⟨_, by rw [hf]; exact List.mem_singleton_self _, div_neg_of_neg_of_pos ?_ ?_⟩
  · refine lt_of_eq_of_lt (photonInt_samples (lib := lib.cubic) hk g.incr g.four g.len hlen hg) ?_
    have e : List.zipWith (fun w v => w * v) file_sdss_r0.wave (List.zipWith (fun a b => a * b) file_sdss_r0.resp (lineQ.map (fun q : ℚ => (q : ℝ)))) =
        (List.zipWith (fun w v => w * v) file_sdss_r0.w (List.zipWith (fun a b => a * b) file_sdss_r0.p lineQ)).map (fun q : ℚ => (q : ℝ)) := by
      refine List.ext_getElem (by simp [BandFile.wave, BandFile.resp]) fun i h1 h2 => ?_
      simp only [List.getElem_zipWith, List.getElem_map, BandFile.wave, BandFile.resp]
      push_cast
      rfl
    rw [e]
    unfold BandFile.wave
    rw [trapQ_cast]
    have : trapQ file_sdss_r0.w (List.zipWith (fun w v => w * v) file_sdss_r0.w (List.zipWith (fun a b => a * b) file_sdss_r0.p lineQ)) < 0 := by decide +kernel
    exact_mod_cast this
  · refine lt_of_lt_of_eq ?_ (photonInt_ab (lib := lib.cubic) hk g.incr g.pos g.four g.len hg).symm
    have := r0_weight
    positivity

/-- **C182 (partial).** In the nine other default bands a spectrum that is nonnegative has nonnegative maggies, where it is sampled inside the band at the wavelengths of the
file.  Missing: `sdss_r0`, for which the claim is false (`C182_false`), and spectra sampled otherwise, for which it is false of some bands (`C160_false`). -/
theorem C182_partial (lib : Lib ℝ) (b : BandFile) (hd : b ∈ defaultFiles) (hr0 : b.name ≠ "sdss_r0".toList) (R : Resp ℝ)
    (hR : mkResponse lib.cubic b.wave b.resp = .ok R) (sw : List ℝ) (hs : sw.Pairwise (· < ·)) (hpos : ∀ w ∈ sw, 0 < w) (rows : List (List ℝ)) (m : NDA ℝ)
    (hm : Projects lib.cubic R.toCurve sw rows m) (hsub : ∀ w ∈ b.wave, w ∈ sw)
    (hsup : ∀ w ∈ sw, b.sort.wave.headD 0 ≤ w → w ≤ b.sort.wave.getLastD 0 → w ∈ b.wave) (hsed : ∀ y ∈ rows, ∀ v ∈ y, 0 ≤ v) : ∀ v ∈ m.flat, 0 ≤ v := by
  have g := defaultFiles_good hd
  rw [file_sort lib.cubic hd] at hR
  have hp : b.sort.rows.Perm b.rows := List.perm_insertionSort _ _
  have hw : b.sort.wave.Perm b.wave := (hp.map _).map _
  have hs' : b.sort.rows.all (fun p => 0 ≤ p.2) = true := by
    rcases files_nonneg b hd with rfl | h
    · exact absurd rfl hr0
    · rw [List.all_eq_true] at h ⊢
      exact fun p hp' => h p (hp.mem_iff.mp hp')
  exact C160_partial lib _ _ g.incr g.len R hR sw hs hpos rows m hm ⟨Or.inl g.first, Or.inl g.last⟩ (fun w h => hsub w (hw.mem_iff.mp h))
    (fun w h h1 h2 => hw.mem_iff.mpr (hsup w h h1 h2)) (file_nonneg hs') hsed

/-! ### the hypotheses can be met -/

open Classical in
/-- a directory that holds the ten files -/
noncomputable def shippedDisk : Disk ℝ := fun n =>
  match defaultFiles.find? (fun b => decide (datName b.name = n)) with
  | some b => .ok (b.wave, b.resp)
  | none => .error .osError

theorem names_nodup : (defaultFiles.map (fun b => datName b.name)).Nodup := by decide +kernel

theorem shippedDisk_ok : ∀ b ∈ defaultFiles, shippedDisk (datName b.name) = .ok (b.wave, b.resp) := by
  intro b hb
  unfold shippedDisk
  cases h : defaultFiles.find? (fun c => decide (datName c.name = datName b.name)) with
  | none => simpa using List.find?_eq_none.mp h b hb
  | some c =>
    have e : datName c.name = datName b.name := by simpa using List.find?_some h
    obtain rfl := List.inj_on_of_nodup_map names_nodup (List.mem_of_find?_eq_some h) hb e
    rfl

/-- an object with the bands J, u and r, in that order, is made and predicts three maggies at redshift one half -/
example (T : Tpl ℝ) (dm : ℝ → ℝ) : ∃ w' K, Kc.init demoLib.cubic shippedDisk .base ["twomass_J".toList, "sdss_u0".toList, "sdss_r0".toList] T none none 0 1 10 true dm demoShared
    = (w', .ok K) := by
  obtain ⟨w', K, h, _⟩ := C181_object demoLib demo_brentq demo_star demo_star shippedDisk shippedDisk_ok .base ["twomass_J".toList, "sdss_u0".toList, "sdss_r0".toList]
    (by decide +kernel) T 0 1 10 true dm demoShared (by norm_num) (by norm_num) (by norm_num) (by simp [demoShared]; norm_num) (by simp [demoShared])
    (by simp [demoShared]) (by simp [demoShared]) (fun n _ => Or.inl rfl)
  exact ⟨w', K, h⟩

example : ∃ b ∈ defaultFiles, ∃ (flux : List ℝ) (R : Resp ℝ) (m : NDA ℝ), mkResponse demoLib.cubic b.wave b.resp = .ok R ∧ (∀ v ∈ flux, 0 ≤ v) ∧
    Projects demoLib.cubic R.toCurve b.wave [flux] m ∧ ∃ v ∈ m.flat, v < 0 := C182_false demoLib demo_brentq demo_star demo_star

/-- a spectrum sampled at the wavelengths of the g band, with flux one everywhere -/
example : ∃ (R : Resp ℝ) (m : NDA ℝ), mkResponse demoLib.cubic file_sdss_g0.wave file_sdss_g0.resp = .ok R ∧
    Projects demoLib.cubic R.toCurve file_sdss_g0.sort.wave [file_sdss_g0.sort.wave.map (fun _ => 1)] m ∧ ∀ v ∈ m.flat, 0 ≤ v := by
  have hd : file_sdss_g0 ∈ defaultFiles := by decide +kernel
  have g := defaultFiles_good hd
  have hw : file_sdss_g0.sort.wave.Perm file_sdss_g0.wave := ((List.perm_insertionSort _ _).map _).map _
  obtain ⟨R, hR, _⟩ := C181_response demoLib demo_brentq demo_star demo_star file_sdss_g0 hd
  obtain ⟨m, hm⟩ := projects_exists demoLib.cubic R.toCurve file_sdss_g0.sort.wave (file_sdss_g0.sort.wave.map (fun _ => 1)) g.incr g.four (by simp)
  refine ⟨R, m, hR, hm, C182_partial demoLib file_sdss_g0 hd (by decide +kernel) R hR _ g.incr g.pos _ m hm (fun w h => hw.mem_iff.mpr h) (fun w h _ _ => hw.mem_iff.mp h) ?_⟩
  intro y hy v hv
  rw [List.mem_singleton.mp hy] at hv
  obtain ⟨_, _, rfl⟩ := List.mem_map.mp hv
  norm_num

end KC
