import Verif.Props.Lists

/-!
# The documented bands by name (C126)
-/

namespace KC
open Spec

/-- The bands the documentation of `KcorrectSDSS` and `KcorrectGST` lists, in its order. -/
def Spec.documentedBands : Cls → List String
  | .sdss => ["sdss_u0", "sdss_g0", "sdss_r0", "sdss_i0", "sdss_z0"]
  | .gst => ["galex_FUV", "galex_NUV", "sdss_u0", "sdss_g0", "sdss_r0", "sdss_i0", "sdss_z0", "twomass_J", "twomass_H", "twomass_Ks"]
  | .base => []

/-- C126 with the names of the bands (partial, as `C126_defaults_partial`): at every moment of a session in which the caller does not change a default list, an object of
`KcorrectSDSS` or `KcorrectGST` made without `responses` has the documented bands in the documented order, then and afterwards. -/
theorem C126_named_partial {α : Type} [Arith α] (w : LWorld α) (hw : Session notDefault LWorld.init w) (cls : Cls) (hc : cls ≠ .base) (o m : Option Nat) (a : KArgs α) (k : KObj α)
    (hk : w.make cls none o m a = .ok k) (w' : LWorld α) (hw' : Session notDefault w w') :
    k.K.responses.map String.ofList = documentedBands cls ∧ (k.view w'.lists).responses.map String.ofList = documentedBands cls := by
  obtain ⟨h1, h2⟩ := C126_defaults_partial w hw o m a k w' hw'
  cases cls with
  | base => exact absurd rfl hc
  | sdss =>
    obtain ⟨e1, e2⟩ := h1 hk
    rw [e1, e2]
    exact ⟨by decide +kernel, by decide +kernel⟩
  | gst =>
    obtain ⟨e1, e2⟩ := h2 hk
    rw [e1, e2]
    exact ⟨by decide +kernel, by decide +kernel⟩

/-- Not vacuous: `KcorrectGST()` after another list was made. -/
example : ∃ k : KObj ℝ, (LWorld.init.step (.newList [['x']])).make .gst none none none anyArgs = .ok k ∧ k.K.responses.map String.ofList = documentedBands .gst := by
  obtain ⟨k, hk⟩ := any_made (LWorld.init.step (.newList [['x']])) .gst none 1 rfl
  exact ⟨k, hk, (C126_named_partial _ (Session.step (.newList [['x']]) Session.refl trivial (fun _ _ h => by cases h)) .gst (by decide) none none anyArgs k hk _ Session.refl).1⟩

end KC
