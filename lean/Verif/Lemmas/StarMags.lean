import Verif.Lemmas.StarSplines
import Verif.Props.Stars
import Mathlib.Analysis.Real.Pi.Bounds

/-!
# Magnitudes from rational bounds
-/

namespace KC
open Spec

/-- `4 c (radius / distance)²`, the constant of `set_solar_magnitude` and of `set_vega2ab` without the factor π -/
def kSun : ℚ := 4 * 2.99792e18 * (6.96e10 / (10 * 3.086e18)) ^ 2
def kVega : ℚ := 4 * 2.99792e18 * (1.91144e11 / (7.68 * 3.086e18)) ^ 2

/-- the magnitude of `a / 10 ^ e` is below `v + 10`, that of `h / 10 ^ e` above `v - 10`, in units of 0.00001 -/
def powOK (v : Int) (a h e : Nat) : Bool :=
  decide (0 < a) && decide (0 ≤ v + 19990) && Nat.blt (10 ^ (20000 + 250000 * e)) (a ^ 250000 * 10 ^ (v + 20010).toNat) &&
    Nat.blt (h ^ 250000 * 10 ^ (v + 19990).toNat) (10 ^ (20000 + 250000 * e))

/-- the maggies of a star in a band are between `a / 10 ^ e` and `h / 10 ^ e` -/
def maggiesOK (star band : List SRow) (S : Nat) (k : ℚ) (a h e : Nat) : Bool :=
  decide (0 < denLo star band S) && decide (0 < numLo star band S) && decide ((a : ℚ) / 10 ^ e * denHi star band S ≤ k * 3.141592 * numLo star band S) &&
    decide (k * 3.141593 * numHi star band S ≤ (h : ℚ) / 10 ^ e * denLo star band S)

/-- a band, the certificate of its spline, and the magnitudes of the two stars: value in units of 0.00001, bounds of the maggies and their exponent -/
structure MagRow where
  file : BandFile
  cert : List (Int × Nat × Nat)
  sun : Int × Nat × Nat × Nat
  vega : Int × Nat × Nat × Nat

def MagRow.bandOK (r : MagRow) : Bool :=
  decide (r.cert.length = r.file.sort.rows.length) && rowsOK (bandRows r.file r.cert) && insideOK (starRows sunFile cert_sun) (bandRows r.file r.cert) &&
    insideOK (starRows vegaFile cert_vega) (bandRows r.file r.cert)
def MagRow.sunOK (r : MagRow) : Bool :=
  powOK r.sun.1 r.sun.2.1 r.sun.2.2.1 r.sun.2.2.2 && maggiesOK (starRows sunFile cert_sun) (bandRows r.file r.cert) (10 ^ 24) kSun r.sun.2.1 r.sun.2.2.1 r.sun.2.2.2
def MagRow.vegaOK (r : MagRow) : Bool :=
  powOK r.vega.1 r.vega.2.1 r.vega.2.2.1 r.vega.2.2.2 && maggiesOK (starRows vegaFile cert_vega) (bandRows r.file r.cert) (10 ^ 24) kVega r.vega.2.1 r.vega.2.2.1 r.vega.2.2.2

def mags_galex_FUV : MagRow := ⟨file_galex_FUV, cert_galex_FUV, (1884578, 2895234, 2895292, 14), (234544, 1152985, 1152995, 7)⟩
def mags_galex_NUV : MagRow := ⟨file_galex_NUV, cert_galex_NUV, (998248, 1016252, 1016277, 10), (175516, 1985797, 1985805, 7)⟩
def mags_sdss_u0 : MagRow := ⟨file_sdss_u0, cert_sdss_u0, (638696, 2787508, 2787522, 9), (93196, 4238542, 4238561, 7)⟩
def mags_sdss_g0 : MagRow := ⟨file_sdss_g0, cert_sdss_g0, (512405, 8920333, 8920363, 9), (-8589, 1082316, 1082320, 6)⟩
def mags_sdss_r0 : MagRow := ⟨file_sdss_r0, cert_sdss_r0, (464513, 1386586, 1386591, 8), (15564, 8664484, 8664510, 7)⟩
def mags_sdss_i0 : MagRow := ⟨file_sdss_i0, cert_sdss_i0, (453250, 1538140, 1538160, 8), (36965, 7114390, 7114477, 7)⟩
def mags_sdss_z0 : MagRow := ⟨file_sdss_z0, cert_sdss_z0, (450941, 1571216, 1571229, 8), (53219, 6125202, 6125253, 7)⟩
def mags_twomass_J : MagRow := ⟨file_twomass_J, cert_twomass_J, (455482, 1506815, 1506892, 8), (90169, 4358273, 4358487, 7)⟩
def mags_twomass_H : MagRow := ⟨file_twomass_H, cert_twomass_H, (469996, 1318299, 1318319, 8), (138032, 2804576, 2804620, 7)⟩
def mags_twomass_Ks : MagRow := ⟨file_twomass_Ks, cert_twomass_Ks, (513359, 8842160, 8842335, 9), (184730, 1824208, 1824245, 7)⟩

theorem mag_upper {m : ℝ} {a e : Nat} {v : Int} (ha : 0 < a) (hm : (a : ℝ) / 10 ^ e ≤ m) (A B : Nat) (hv : v = (B : Int) - A)
    (h : 10 ^ (A + 250000 * e) < a ^ 250000 * 10 ^ B) : mag m < v / 100000 := by
  have ha' : (0 : ℝ) < a := by exact_mod_cast ha
  have h10 : (0 : ℝ) < 10 ^ e := by positivity
  have hm0 : 0 < m := lt_of_lt_of_le (div_pos ha' h10) hm
  have hR : ((10 : ℝ) ^ (A + 250000 * e)) < (a : ℝ) ^ 250000 * 10 ^ B := by exact_mod_cast h
  have hl := Real.logb_lt_logb (b := 10) (by norm_num) (by positivity) hR
  rw [Real.logb_mul (by positivity) (by positivity), Real.logb_pow, Real.logb_pow, Real.logb_pow, Real.logb_self_eq_one (by norm_num)] at hl
  have hq := Real.logb_le_logb_of_le (b := 10) (by norm_num) (div_pos ha' h10) hm
  rw [Real.logb_div ha'.ne' h10.ne', Real.logb_pow, Real.logb_self_eq_one (by norm_num)] at hq
  unfold mag
  rw [hv]
  push_cast at hl ⊢
  linarith

theorem mag_lower {m : ℝ} {a e : Nat} {v : Int} (hm0 : 0 < m) (hm : m ≤ (a : ℝ) / 10 ^ e) (A B : Nat) (hv : v = (B : Int) - A)
    (h : a ^ 250000 * 10 ^ B < 10 ^ (A + 250000 * e)) : v / 100000 < mag m := by
  have h10 : (0 : ℝ) < 10 ^ e := by positivity
  have ha' : (0 : ℝ) < a := by
    have := lt_of_lt_of_le hm0 hm
    exact (div_pos_iff_of_pos_right h10).mp this
  have hR : (a : ℝ) ^ 250000 * 10 ^ B < ((10 : ℝ) ^ (A + 250000 * e)) := by exact_mod_cast h
  have hl := Real.logb_lt_logb (b := 10) (by norm_num) (by positivity) hR
  rw [Real.logb_mul (by positivity) (by positivity), Real.logb_pow, Real.logb_pow, Real.logb_pow, Real.logb_self_eq_one (by norm_num)] at hl
  have hq := Real.logb_le_logb_of_le (b := 10) (by norm_num) hm0 hm
  rw [Real.logb_div ha'.ne' h10.ne', Real.logb_pow, Real.logb_self_eq_one (by norm_num)] at hq
  unfold mag
  rw [hv]
  push_cast at hl ⊢
  linarith

theorem powOK_sound {v : Int} {a h e : Nat} (hp : powOK v a h e = true) {m : ℝ} (h1 : (a : ℝ) / 10 ^ e ≤ m) (h2 : m ≤ (h : ℝ) / 10 ^ e) :
    0 < m ∧ |mag m - v / 100000| < 0.0001 := by
  simp only [powOK, Bool.and_eq_true, decide_eq_true_eq, Nat.blt_eq] at hp
  obtain ⟨⟨⟨ha, hv⟩, hlo⟩, hhi⟩ := hp
  have hm0 : 0 < m := lt_of_lt_of_le (div_pos (by exact_mod_cast ha) (by positivity)) h1
  have u := mag_upper (v := v + 10) ha h1 20000 (v + 20010).toNat (by push_cast; omega) hlo
  have l := mag_lower (v := v - 10) hm0 h2 20000 (v + 19990).toNat (by push_cast; omega) hhi
  refine ⟨hm0, ?_⟩
  push_cast at u l
  rw [abs_lt]
  constructor <;> norm_num <;> linarith

/-- the ratio of the photon integrals, times the constant, is within the bounds -/
theorem maggiesOK_sound {star band : List SRow} (hs : rowsOK star = true) (hb : rowsOK band = true) (hin : insideOK star band = true) {k : ℚ} (hk : 0 < k)
    {a h e : Nat} (hm : maggiesOK star band (10 ^ 24) k a h e = true) {g : List ℝ} (hg : UnionGrid (rowsX star) (rowsX band) g) :
    (a : ℝ) / 10 ^ e ≤ (k * Real.pi) * photonInt g (curveFn nakSpline (rowsX band) (rowsY band)) (curveFn nakSpline (rowsX star) (rowsY star)) /
      photonInt g (curveFn nakSpline (rowsX band) (rowsY band)) abFlux ∧
    (k * Real.pi) * photonInt g (curveFn nakSpline (rowsX band) (rowsY band)) (curveFn nakSpline (rowsX star) (rowsY star)) /
      photonInt g (curveFn nakSpline (rowsX band) (rowsY band)) abFlux ≤ (h : ℝ) / 10 ^ e := by
  obtain ⟨n1, n2, d1, d2⟩ := star_bounds hs hb hin (S := 10 ^ 24) (by positivity) hg
  simp only [maggiesOK, Bool.and_eq_true, decide_eq_true_eq] at hm
  obtain ⟨⟨⟨m0, m1⟩, m2⟩, m3⟩ := hm
  generalize photonInt g (curveFn nakSpline (rowsX band) (rowsY band)) (curveFn nakSpline (rowsX star) (rowsY star)) = N at *
  generalize photonInt g (curveFn nakSpline (rowsX band) (rowsY band)) abFlux = D at *
  generalize numLo star band (10 ^ 24) = nl at *
  generalize numHi star band (10 ^ 24) = nh at *
  generalize denLo star band (10 ^ 24) = dl at *
  generalize denHi star band (10 ^ 24) = dh at *
  have m0 : (0 : ℝ) < dl := by exact_mod_cast m0
  have m1 : (0 : ℝ) < nl := by exact_mod_cast m1
  have hk : (0 : ℝ) < k := by exact_mod_cast hk
  have m2 : (a : ℝ) / 10 ^ e * dh ≤ k * 3.141592 * nl := by
    have : (((a : ℚ) / 10 ^ e * dh : ℚ) : ℝ) ≤ ((k * 3.141592 * nl : ℚ) : ℝ) := by exact_mod_cast m2
    push_cast at this
    norm_num at this ⊢
    exact this
  have m3 : k * 3.141593 * nh ≤ (h : ℝ) / 10 ^ e * dl := by
    have : ((k * 3.141593 * nh : ℚ) : ℝ) ≤ (((h : ℚ) / 10 ^ e * dl : ℚ) : ℝ) := by exact_mod_cast m3
    push_cast at this
    norm_num at this ⊢
    exact this
  have D0 : 0 < D := lt_of_lt_of_le m0 d1
  have N0 : 0 < N := lt_of_lt_of_le m1 n1
  have p1 := Real.pi_gt_d6
  have p2 := Real.pi_lt_d6
  have a0 : (0 : ℝ) ≤ (a : ℝ) / 10 ^ e := by positivity
  have h0 : (0 : ℝ) ≤ (h : ℝ) / 10 ^ e := by positivity
  constructor
  · rw [le_div_iff₀ D0]
    calc _ ≤ (a : ℝ) / 10 ^ e * dh := mul_le_mul_of_nonneg_left d2 a0
      _ ≤ (k : ℝ) * 3.141592 * nl := m2
      _ ≤ k * Real.pi * N := mul_le_mul (mul_le_mul_of_nonneg_left p1.le hk.le) n1 m1.le (by positivity)
  · rw [div_le_iff₀ D0]
    calc k * Real.pi * N ≤ (k : ℝ) * 3.141593 * nh := mul_le_mul (mul_le_mul_of_nonneg_left p2.le hk.le) n2 N0.le (by positivity)
      _ ≤ (h : ℝ) / 10 ^ e * dl := m3
      _ ≤ _ := mul_le_mul_of_nonneg_left d1 h0

end KC
