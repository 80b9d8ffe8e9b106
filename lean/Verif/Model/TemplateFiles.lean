import Verif.Model.Fits

/-!
The star formation histories of the shipped templates: the images `INTSFH`, `MREMAIN`, `METS`, `M300` and `M1000` of
`data/templates/kcorrect-default-v4.fits` and `data/templates/kcorrect-lrg1-v4.fits`, every value exactly (they are float32, that is an integer
over a power of two).  Neither file has an image `M50`.  The spectra in the files (10000 wavelengths) are not copied.
-/

namespace KC

/-- the images of a template file -/
structure Hist where
  intsfh : List ℚ
  mremain : List ℚ
  mets : List ℚ
  m300 : List ℚ
  m1000 : List ℚ

/-- data/templates/kcorrect-default-v4.fits -/
def defaultHist : Hist where
  intsfh := [1, 1, 1, 1, 1]
  mremain := [10091907 / 2 ^ 24, 15795931 / 2 ^ 24, 5092159 / 2 ^ 23, 4393381 / 2 ^ 23, 12816739 / 2 ^ 24]
  mets := [6710867 / 2 ^ 27, 13421773 / 2 ^ 28, 756853 / 2 ^ 25, 5769797 / 2 ^ 28, 1526087 / 2 ^ 28]
  m300 := [14856739 / 2 ^ 55, 1, 2521267 / 2 ^ 51, 7475555 / 2 ^ 68, 9074949 / 2 ^ 24]
  m1000 := [5577349 / 2 ^ 23, 1, 15493679 / 2 ^ 25, 2662937 / 2 ^ 39, 9097743 / 2 ^ 24]

/-- data/templates/kcorrect-lrg1-v4.fits -/
def lrg1Hist : Hist where
  intsfh := [1]
  mremain := [270487 / 2 ^ 19]
  mets := [8854255 / 2 ^ 28]
  m300 := [0]
  m1000 := [0]

/-- `f` has these images and no image `M50`, as float32 (in real arithmetic, as these numbers) -/
def Hist.InFile [Arith α] (h : Hist) (f : FitsFile α) : Prop :=
  f.vec .intsfh = .ok (h.intsfh.map (fun q => f32 (lit q))) ∧ f.vec .mremain = .ok (h.mremain.map (fun q => f32 (lit q))) ∧
    f.vec .mets = .ok (h.mets.map (fun q => f32 (lit q))) ∧ f.vec .m300 = .ok (h.m300.map (fun q => f32 (lit q))) ∧
    f.vec .m1000 = .ok (h.m1000.map (fun q => f32 (lit q))) ∧ f.has .m50 = false

end KC
