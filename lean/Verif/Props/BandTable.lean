import Verif.Lemmas.LogBounds
import Verif.Props.HalfMax

/-!
**C190.** The effective wavelengths and the limits at half maximum of the ten default bands.
-/

namespace KC
open Spec

/-- the default bands, with the effective wavelength to a hundredth of an Angstrom, and the samples of the file that the lower and the upper limit of the
full width at half maximum are between, in Angstroms -/
def Spec.bandTable : List (BandFile × ℚ × (ℚ × ℚ) × (ℚ × ℚ)) :=
  [(file_galex_FUV, 1528.06, (1411, 1412), (1639, 1640)),
   (file_galex_NUV, 2271.13, (1930, 1931), (2726, 2727)),
   (file_sdss_u0, 3546.00, (3255, 3280), (3855, 3880)),
   (file_sdss_g0, 4669.60, (4030, 4080), (5330, 5380)),
   (file_sdss_r0, 6156.25, (5580, 5630), (6730, 6780)),
   (file_sdss_i0, 7471.57, (6880, 6930), (8130, 8180)),
   (file_sdss_z0, 8917.40, (8220, 8290), (9270, 9340)),
   (file_twomass_J, 12319.84, (11290, 11320), (13460, 13490)),
   (file_twomass_H, 16420.05, (15150, 15280), (17750, 17850)),
   (file_twomass_Ks, 21567.42, (20190, 20280), (22990, 23060))]

/-- the table is of the bands `Kcorrect` takes by default, in their order -/
theorem C190_table : bandTable.map (fun t => t.1.name) = gstBands ∧ bandTable.map (fun t => t.1) = defaultFiles := by decide +kernel

/-- what is checked of the rows of a file: `m` is the greatest response, the samples `n` and `n + 1` are the first about half of it, `k` and `k + 1` the last -/
def fwhmOK (b : BandFile) (m : ℤ) (n k : ℕ) (lo hi : ℚ × ℚ) : Bool :=
  decide (0 < m) && b.rows.any (fun q => decide (q.2 = m)) && b.rows.all (fun q => decide (q.2 ≤ m)) &&
    (b.w[n]? == some lo.1) && (b.w[n + 1]? == some lo.2) && (b.w[k]? == some hi.1) && (b.w[k + 1]? == some hi.2) &&
    (b.rows.take (n + 1)).all (fun q => decide (2 * q.2 ≤ m)) && (b.rows[n + 1]?.any (fun q => decide (m < 2 * q.2))) &&
    (b.rows[k]?.any (fun q => decide (m ≤ 2 * q.2))) && (b.rows.drop (k + 1)).all (fun q => decide (2 * q.2 < m))

theorem file_ent_resp (b : BandFile) (i : ℕ) (h : i < b.rows.length) : ent b.resp i = ((b.rows[i].2 : ℤ) : ℝ) / 10 ^ b.pdec := by
  unfold ent BandFile.resp BandFile.p
  rw [List.getD_eq_getElem?_getD, List.getElem?_map, List.getElem?_map, List.getElem?_eq_getElem h]
  simp

theorem file_ent_wave {b : BandFile} {i : ℕ} {x : ℚ} (h : b.w[i]? = some x) : ent b.wave i = (x : ℝ) := by
  unfold ent BandFile.wave
  rw [List.getD_eq_getElem?_getD, List.getElem?_map, h]
  rfl

/-- a root within `rootTol` is within `10⁻¹⁰` for wavelengths up to 30000 Angstrom -/
theorem rootTol_near {t r : ℝ} (h : |t - r| ≤ rootTol r) (h0 : 0 ≤ t) (h1 : t ≤ 30000) : t - 1e-10 < r ∧ r < t + 1e-10 := by
  unfold rootTol at h
  obtain ⟨a, b⟩ := abs_le.mp h
  rcases abs_cases r with ⟨e, _⟩ | ⟨e, _⟩ <;> rw [e] at a b <;> constructor <;> linarith

theorem fwhmOK_sound (lib : Lib ℝ) (hb : BrentqOK lib) {b : BandFile} (hg : GoodFile b) {m : ℤ} {n k : ℕ} {lo hi : ℚ × ℚ} (h : fwhmOK b m n k lo hi = true)
    (h0 : 0 ≤ lo.1) (h0' : 0 ≤ hi.1) (h1 : lo.2 ≤ 30000) (h1' : hi.2 ≤ 30000) (R : Resp ℝ) (hR : mkResponse lib.cubic b.wave b.resp = .ok R) :
    MaxOf R.resp ((m : ℝ) / 10 ^ b.pdec) ∧ (∃ t, curveFn nakSpline b.wave b.resp t = (m : ℝ) / 10 ^ b.pdec / 2 ∧ (lo.1 : ℝ) ≤ t ∧ t < (lo.2 : ℝ) ∧ |R.fwhmLow - t| < 1e-10) ∧
      ∃ t, curveFn nakSpline b.wave b.resp t = (m : ℝ) / 10 ^ b.pdec / 2 ∧ (hi.1 : ℝ) ≤ t ∧ t < (hi.2 : ℝ) ∧ |R.fwhmHigh - t| < 1e-10 := by
  simp only [fwhmOK, Bool.and_eq_true, decide_eq_true_eq, List.all_eq_true, List.any_eq_true, beq_iff_eq, Option.any_eq_true] at h
  obtain ⟨⟨⟨⟨⟨⟨⟨⟨⟨⟨hm, ⟨q0, hq0, e0⟩⟩, hall⟩, w1⟩, w2⟩, w3⟩, w4⟩, c1⟩, ⟨q1, e1, c2⟩⟩, ⟨q2, e2, c3⟩⟩, c4⟩ := h
  obtain ⟨eW, eP⟩ := mkResponse_sorted (hg.incr.imp le_of_lt) hg.len hR
  have hlen : b.wave.length = b.rows.length := by simp [BandFile.wave, BandFile.w]
  have ht : (0 : ℝ) < 10 ^ b.pdec := by positivity
  have hmr : (0 : ℝ) < m := by exact_mod_cast hm
  have hmx : MaxOf R.resp ((m : ℝ) / 10 ^ b.pdec) := by
    rw [eP]
    constructor
    · refine List.mem_map.mpr ⟨(q0.2 : ℚ) / 10 ^ b.pdec, List.mem_map.mpr ⟨q0, hq0, rfl⟩, ?_⟩
      rw [e0]; push_cast; rfl
    · intro u hu
      simp only [BandFile.resp, BandFile.p, List.mem_map] at hu
      obtain ⟨x, ⟨q, hq, rfl⟩, rfl⟩ := hu
      have : (q.2 : ℝ) ≤ m := by exact_mod_cast hall q hq
      push_cast
      gcongr
  have half : ∀ (P : ℤ), ((P : ℝ) / 10 ^ b.pdec ≤ (m : ℝ) / 10 ^ b.pdec / 2 ↔ 2 * P ≤ m) := by
    intro P
    rw [div_right_comm, div_le_div_iff_of_pos_right ht, le_div_iff₀ two_pos, mul_comm]
    exact_mod_cast Iff.rfl
  have half' : ∀ (P : ℤ), ((P : ℝ) / 10 ^ b.pdec < (m : ℝ) / 10 ^ b.pdec / 2 ↔ 2 * P < m) := by
    intro P
    rw [div_right_comm, div_lt_div_iff_of_pos_right ht, lt_div_iff₀ two_pos, mul_comm]
    exact_mod_cast Iff.rfl
  obtain ⟨hn, en⟩ := List.getElem?_eq_some_iff.mp e1
  obtain ⟨hk, ek⟩ := List.getElem?_eq_some_iff.mp e2
  have hpm : 0 < (m : ℝ) / 10 ^ b.pdec / 2 := by positivity
  obtain ⟨L, H⟩ := C162_partial lib hb b.wave b.resp R hR _ hmx (div_pos hmr ht)
  rw [eW, eP] at L H
  rw [hg.first] at L
  rw [hg.last] at H
  refine ⟨hmx, ?_, ?_⟩
  · rcases L with ⟨_, h⟩ | ⟨t, j, tl, tv, jl, t1, t2, j1, j2⟩
    · linarith
    · have : j = n := by
        rw [hlen] at jl
        rcases lt_trichotomy j n with h | h | h
        · exfalso
          rw [file_ent_resp b _ jl] at j1
          have hmem : b.rows[j + 1] ∈ b.rows.take (n + 1) := by
            rw [List.mem_take_iff_getElem]; exact ⟨j + 1, by omega, rfl⟩
          have := (half _).mpr (c1 _ hmem)
          linarith
        · exact h
        · exfalso
          have := j2 (n + 1) h
          rw [file_ent_resp b _ hn, half, en] at this
          omega
      subst this
      rw [file_ent_wave w1] at t1
      rw [file_ent_wave w2] at t2
      have p0 : (0 : ℝ) ≤ lo.1 := by exact_mod_cast h0
      have p1 : (lo.2 : ℝ) ≤ 30000 := by exact_mod_cast h1
      obtain ⟨x, y⟩ := rootTol_near tl (by linarith) (by linarith)
      exact ⟨t, tv, t1, t2, abs_lt.mpr ⟨by linarith, by linarith⟩⟩
  · rcases H with ⟨_, h⟩ | ⟨t, j, tl, tv, jl, t1, t2, j1, j2⟩
    · linarith
    · have : j = k := by
        rw [hlen] at jl j2
        rcases lt_trichotomy j k with h | h | h
        · exfalso
          have := j2 k h hk
          rw [file_ent_resp b _ hk, half', ek] at this
          omega
        · exact h
        · exfalso
          rw [file_ent_resp b _ (by omega)] at j1
          have hmem : b.rows[j] ∈ b.rows.drop (k + 1) := by
            rw [List.mem_drop_iff_getElem]; exact ⟨j - (k + 1), by omega, by congr 1; omega⟩
          have := (half' _).mpr (c4 _ hmem)
          linarith
      subst this
      rw [file_ent_wave w3] at t1
      rw [file_ent_wave w4] at t2
      have p0 : (0 : ℝ) ≤ hi.1 := by exact_mod_cast h0'
      have p1 : (hi.2 : ℝ) ≤ 30000 := by exact_mod_cast h1'
      obtain ⟨x, y⟩ := rootTol_near tl (by linarith) (by linarith)
      exact ⟨t, tv, t1, t2, abs_lt.mpr ⟨by linarith, by linarith⟩⟩

theorem leff_FUV : leffOK (10 ^ 12) (10 ^ 6) 152805 152807 file_galex_FUV.sort = true := by decide +kernel
theorem leff_NUV : leffOK (10 ^ 12) (10 ^ 6) 227112 227114 file_galex_NUV.sort = true := by decide +kernel

/-- every line of the table, as the kernel checks it -/
theorem band_rows : ∀ t ∈ bandTable, (∃ A B : ℤ, leffOK (10 ^ 12) (10 ^ 6) A B t.1.sort = true ∧ t.2.1 - 1 / 100 = A / 100 ∧ t.2.1 + 1 / 100 = B / 100) ∧
    ∃ m n k, fwhmOK t.1.sort m n k t.2.2.1 t.2.2.2 = true := by
  intro t ht
  simp only [bandTable, List.mem_cons, List.not_mem_nil, or_false] at ht
  rcases ht with rfl | rfl | rfl | rfl | rfl | rfl | rfl | rfl | rfl | rfl
  · exact ⟨⟨_, _, leff_FUV, by norm_num, by norm_num⟩, 368060, 71, 299, by decide +kernel⟩
  · exact ⟨⟨_, _, leff_NUV, by norm_num, by norm_num⟩, 616600, 240, 1036, by decide +kernel⟩
  · exact ⟨⟨354599, 354601, by decide +kernel, by norm_num, by norm_num⟩, 1063, 11, 35, by decide +kernel⟩
  · exact ⟨⟨466959, 466961, by decide +kernel, by norm_num, by norm_num⟩, 3536, 8, 34, by decide +kernel⟩
  · exact ⟨⟨615624, 615626, by decide +kernel, by norm_num, by norm_num⟩, 4816, 7, 30, by decide +kernel⟩
  · exact ⟨⟨747156, 747158, by decide +kernel, by norm_num, by norm_num⟩, 4078, 9, 34, by decide +kernel⟩
  · exact ⟨⟨891739, 891741, by decide +kernel, by norm_num, by norm_num⟩, 770, 7, 22, by decide +kernel⟩
  · exact ⟨⟨1231983, 1231985, by decide +kernel, by norm_num, by norm_num⟩, 77781350000, 21, 78, by decide +kernel⟩
  · exact ⟨⟨1642004, 1642006, by decide +kernel, by norm_num, by norm_num⟩, 59897530000, 12, 44, by decide +kernel⟩
  · exact ⟨⟨2156741, 2156743, by decide +kernel, by norm_num, by norm_num⟩, 4464076000, 16, 56, by decide +kernel⟩

theorem band_mem {t : BandFile × ℚ × (ℚ × ℚ) × (ℚ × ℚ)} (ht : t ∈ bandTable) : t.1 ∈ defaultFiles := by
  rw [← C190_table.2]; exact List.mem_map_of_mem ht

/-- **C190.** The effective wavelength of every default band is the one of the table to a hundredth of an Angstrom. -/
theorem C190_lambda_eff (lib : Lib ℝ) (t : BandFile × ℚ × (ℚ × ℚ) × (ℚ × ℚ)) (ht : t ∈ bandTable) (R : Resp ℝ)
    (hR : mkResponse lib.cubic t.1.wave t.1.resp = .ok R) : |R.lambdaEff - t.2.1| < 1 / 100 := by
  have hd := band_mem ht
  have g := defaultFiles_good hd
  obtain ⟨⟨A, B, h, hA, hB⟩, _⟩ := band_rows t ht
  rw [file_sort lib.cubic hd] at hR
  obtain ⟨e1, e2⟩ := mkResponse_sorted (g.incr.imp le_of_lt) g.len hR
  obtain ⟨_, hw, _, h3⟩ := mkResponse_ok hR
  obtain ⟨_, _, _, hle, _⟩ := respSetup_ok (by rw [hw]; exact gather_sorted _) h3
  rw [e1, e2] at hle
  obtain ⟨a, b⟩ := leffOK_sound g h
  rw [← hle] at a b
  have hA' : ((t.2.1 : ℚ) : ℝ) - 1 / 100 = (A : ℝ) / 100 := by have := congrArg (fun q : ℚ => (q : ℝ)) hA; push_cast at this; exact this
  have hB' : ((t.2.1 : ℚ) : ℝ) + 1 / 100 = (B : ℝ) / 100 := by have := congrArg (fun q : ℚ => (q : ℝ)) hB; push_cast at this; exact this
  exact abs_lt.mpr ⟨by linarith, by linarith⟩

/-- **C190.** The limits of the full width at half maximum of every default band are, to 10⁻¹⁰ Angstrom, wavelengths between the samples of the table where the
response is half the greatest sample. -/
theorem C190_fwhm (lib : Lib ℝ) (hb : BrentqOK lib) (t : BandFile × ℚ × (ℚ × ℚ) × (ℚ × ℚ)) (ht : t ∈ bandTable) (R : Resp ℝ)
    (hR : mkResponse lib.cubic t.1.wave t.1.resp = .ok R) (mx : ℝ) (hmx : MaxOf R.resp mx) :
    (∃ x, curveFn nakSpline R.wave R.resp x = mx / 2 ∧ (t.2.2.1.1 : ℝ) ≤ x ∧ x < (t.2.2.1.2 : ℝ) ∧ |R.fwhmLow - x| < 1e-10) ∧
      ∃ x, curveFn nakSpline R.wave R.resp x = mx / 2 ∧ (t.2.2.2.1 : ℝ) ≤ x ∧ x < (t.2.2.2.2 : ℝ) ∧ |R.fwhmHigh - x| < 1e-10 := by
  have hd := band_mem ht
  have g := defaultFiles_good hd
  obtain ⟨_, m, n, k, h⟩ := band_rows t ht
  rw [file_sort lib.cubic hd] at hR
  obtain ⟨e1, e2⟩ := mkResponse_sorted (g.incr.imp le_of_lt) g.len hR
  have hr : ∀ t ∈ bandTable, 0 ≤ t.2.2.1.1 ∧ 0 ≤ t.2.2.2.1 ∧ t.2.2.1.2 ≤ 30000 ∧ t.2.2.2.2 ≤ 30000 := by decide +kernel
  obtain ⟨r1, r2, r3, r4⟩ := hr t ht
  obtain ⟨hm, L, H⟩ := fwhmOK_sound lib hb g h r1 r2 r3 r4 R hR
  rw [le_antisymm (hm.2 _ hmx.1) (hmx.2 _ hm.1), e1, e2]
  exact ⟨L, H⟩

/-- **C190.** The full width at half maximum of every default band is between the numbers that the table gives. -/
theorem C190_width (lib : Lib ℝ) (hb : BrentqOK lib) (t : BandFile × ℚ × (ℚ × ℚ) × (ℚ × ℚ)) (ht : t ∈ bandTable) (R : Resp ℝ)
    (hR : mkResponse lib.cubic t.1.wave t.1.resp = .ok R) :
    ((t.2.2.2.1 : ℚ) : ℝ) - t.2.2.1.2 - 1e-9 < R.fwhm ∧ R.fwhm < ((t.2.2.2.2 : ℚ) : ℝ) - t.2.2.1.1 + 1e-9 := by
  have hd := band_mem ht
  have g := defaultFiles_good hd
  have hR' := hR
  rw [file_sort lib.cubic hd] at hR
  obtain ⟨_, hw, _, h3⟩ := mkResponse_ok hR
  obtain ⟨_, _, _, _, _, _, _, hf⟩ := respSetup_ok (by rw [hw]; exact gather_sorted _) h3
  obtain ⟨_, m, n, k, h⟩ := band_rows t ht
  have hr : ∀ t ∈ bandTable, 0 ≤ t.2.2.1.1 ∧ 0 ≤ t.2.2.2.1 ∧ t.2.2.1.2 ≤ 30000 ∧ t.2.2.2.2 ≤ 30000 := by decide +kernel
  obtain ⟨r1, r2, r3, r4⟩ := hr t ht
  obtain ⟨_, ⟨x, _, x1, x2, x3⟩, ⟨y, _, y1, y2, y3⟩⟩ := fwhmOK_sound lib hb g h r1 r2 r3 r4 R hR
  obtain ⟨a1, a2⟩ := abs_lt.mp x3
  obtain ⟨b1, b2⟩ := abs_lt.mp y3
  rw [hf]
  constructor <;> linarith

/-- in the band `sdss_r0`: 6156.25 Angstrom, and a width between 1100 and 1200 -/
example : ∃ R : Resp ℝ, mkResponse demoLib.cubic file_sdss_r0.wave file_sdss_r0.resp = .ok R ∧ |R.lambdaEff - 6156.25| < 1 / 100 ∧ 1099 < R.fwhm ∧ R.fwhm < 1201 := by
  obtain ⟨R, hR, _⟩ := C181_response demoLib demo_brentq demo_star demo_star file_sdss_r0 r0_mem
  have ht : (file_sdss_r0, (6156.25 : ℚ), ((5580 : ℚ), (5630 : ℚ)), ((6730 : ℚ), (6780 : ℚ))) ∈ bandTable := by simp [bandTable]
  have h1 := C190_lambda_eff demoLib _ ht R hR
  obtain ⟨h2, h3⟩ := C190_width demoLib demo_brentq _ ht R hR
  push_cast at h1 h2 h3
  exact ⟨R, hR, h1, by linarith, by linarith⟩

end KC
