import Verif.Lemmas.StarMags

/-!
The checks of the rational bounds, one band at a time.
-/

namespace KC

theorem sun_rowsOK : rowsOK (starRows sunFile cert_sun) = true := by decide +kernel
theorem vega_rowsOK : rowsOK (starRows vegaFile cert_vega) = true := by decide +kernel

theorem bandOK_sdss_u0 : mags_sdss_u0.bandOK = true := by decide +kernel
theorem sunOK_sdss_u0 : mags_sdss_u0.sunOK = true := by decide +kernel
theorem vegaOK_sdss_u0 : mags_sdss_u0.vegaOK = true := by decide +kernel
theorem bandOK_sdss_g0 : mags_sdss_g0.bandOK = true := by decide +kernel
theorem sunOK_sdss_g0 : mags_sdss_g0.sunOK = true := by decide +kernel
theorem vegaOK_sdss_g0 : mags_sdss_g0.vegaOK = true := by decide +kernel
theorem bandOK_sdss_r0 : mags_sdss_r0.bandOK = true := by decide +kernel
theorem sunOK_sdss_r0 : mags_sdss_r0.sunOK = true := by decide +kernel
theorem vegaOK_sdss_r0 : mags_sdss_r0.vegaOK = true := by decide +kernel
theorem bandOK_sdss_i0 : mags_sdss_i0.bandOK = true := by decide +kernel
theorem sunOK_sdss_i0 : mags_sdss_i0.sunOK = true := by decide +kernel
theorem vegaOK_sdss_i0 : mags_sdss_i0.vegaOK = true := by decide +kernel
theorem bandOK_sdss_z0 : mags_sdss_z0.bandOK = true := by decide +kernel
theorem sunOK_sdss_z0 : mags_sdss_z0.sunOK = true := by decide +kernel
theorem vegaOK_sdss_z0 : mags_sdss_z0.vegaOK = true := by decide +kernel

end KC
