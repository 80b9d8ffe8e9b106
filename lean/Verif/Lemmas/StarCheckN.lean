import Verif.Lemmas.StarMags

/-!
The checks of the rational bounds, one band at a time.
-/

namespace KC

theorem bandOK_galex_NUV : mags_galex_NUV.bandOK = true := by decide +kernel
theorem sunOK_galex_NUV : mags_galex_NUV.sunOK = true := by decide +kernel
theorem vegaOK_galex_NUV : mags_galex_NUV.vegaOK = true := by decide +kernel

end KC
