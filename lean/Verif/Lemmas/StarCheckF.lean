import Verif.Lemmas.StarMags

/-!
The checks of the rational bounds, one band at a time.
-/

namespace KC

theorem bandOK_galex_FUV : mags_galex_FUV.bandOK = true := by decide +kernel
theorem sunOK_galex_FUV : mags_galex_FUV.sunOK = true := by decide +kernel
theorem vegaOK_galex_FUV : mags_galex_FUV.vegaOK = true := by decide +kernel
theorem bandOK_twomass_J : mags_twomass_J.bandOK = true := by decide +kernel
theorem sunOK_twomass_J : mags_twomass_J.sunOK = true := by decide +kernel
theorem vegaOK_twomass_J : mags_twomass_J.vegaOK = true := by decide +kernel
theorem bandOK_twomass_H : mags_twomass_H.bandOK = true := by decide +kernel
theorem sunOK_twomass_H : mags_twomass_H.sunOK = true := by decide +kernel
theorem vegaOK_twomass_H : mags_twomass_H.vegaOK = true := by decide +kernel
theorem bandOK_twomass_Ks : mags_twomass_Ks.bandOK = true := by decide +kernel
theorem sunOK_twomass_Ks : mags_twomass_Ks.sunOK = true := by decide +kernel
theorem vegaOK_twomass_Ks : mags_twomass_Ks.vegaOK = true := by decide +kernel

end KC
