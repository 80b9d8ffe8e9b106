import Verif.Props.Reread

/-!
# Method calls after a file was read into an `SED` (C194)
-/

namespace KC
variable {α : Type}
open Spec

/-- one call on an object and on a newly made one -/
theorem of_setInterp [Arith α] (s : Sed α) : (SedAttr.of s).setInterp = (SedAttr.of s.setInterp.1, s.setInterp.2) := by
  simp only [SedAttr.setInterp, SedAttr.of, Sed.setInterp, NDA.vec, mkInterpArr]
  cases mkInterp s.wave s.flux <;> rfl

/-- one call on an object and on a newly made one -/
theorem of_setRedshift [Arith α] (s : Sed α) (z : α) : (SedAttr.of s).setRedshift z = (SedAttr.of (s.setRedshift z).1, (s.setRedshift z).2) := by
  have e : ∀ t : Sed α, t = { s with wave := s.restWave.map (fun w => w * (lit 1 + z)), flux := s.restFlux.map (List.map (fun f => f / (lit 1 + z))), redshift := z } →
      ({ SedAttr.of s with wave := (SedAttr.of s).restWave.map (fun w => w * (lit 1 + z)), flux := (SedAttr.of s).restFlux.map (fun f => f / (lit 1 + z)), redshift := z } : SedAttr α) =
        SedAttr.of t := by
    rintro t rfl
    simp [SedAttr.of, NDA.vec, NDA.map]
  cases hi : s.interpolate with
  | true =>
    have h1 : (SedAttr.of s).interpolate = true := hi
    unfold SedAttr.setRedshift Sed.setRedshift
    dsimp only
    rw [if_pos h1, if_pos hi]
    exact (congrArg SedAttr.setInterp (e _ rfl)).trans (of_setInterp _)
  | false =>
    have h1 : ¬ (SedAttr.of s).interpolate = true := by simp [SedAttr.of, hi]
    unfold SedAttr.setRedshift Sed.setRedshift
    dsimp only
    rw [if_neg h1, if_neg (by simp [hi])]
    exact congrArg (fun a => (a, Except.ok ())) (e _ rfl)

/-- C194, afterwards: where `fromfits` of an object with any history returned, every later series of `set_redshift` does with it what it does with the object the constructor makes from
the file, exceptions included. -/
theorem C194_later [Arith α] (s₀ : Sed α) (hs : (∃ wave flux ip, Sed.mk' wave flux ip = .ok s₀) ∨ ∃ f ext ip, Sed.fromfits f ext ip = .ok s₀)
    (history : List (SedOp α)) (f : FitsFile α) (ext : Ext) (b : SedAttr α) (hb : ((SedAttr.of s₀).run history).fromfits f ext = (b, .ok ())) (zs : List α) (z : α) :
    ∃ s, Sed.fromfits f ext ((SedAttr.of s₀).run history).interpolate = .ok s ∧
      (b.run (zs.map .setRedshift)).setRedshift z =
        (SedAttr.of ((zs.foldl (fun s z => (s.setRedshift z).1) s).setRedshift z).1, ((zs.foldl (fun s z => (s.setRedshift z).1) s).setRedshift z).2) := by
  obtain ⟨s, h1, rfl⟩ := (C194_sed s₀ hs history f ext b).mp hb
  refine ⟨s, h1, ?_⟩
  have hrun : ∀ (zs : List α) (s : Sed α), (SedAttr.of s).run (zs.map .setRedshift) = SedAttr.of (zs.foldl (fun s z => (s.setRedshift z).1) s) := by
    intro zs
    induction zs with
    | nil => intro s; rfl
    | cons z zs ih =>
      intro s
      simp only [List.map_cons, SedAttr.run, List.foldl_cons, SedAttr.step, of_setRedshift]
      exact ih _
  rw [hrun, of_setRedshift]

/-- C194, afterwards, in numbers: the wavelengths and the flux after the last `set_redshift` are those of the file at that redshift. -/
theorem C194_shifted (s₀ : Sed ℝ) (hs : (∃ wave flux ip, Sed.mk' wave flux ip = .ok s₀) ∨ ∃ f ext ip, Sed.fromfits f ext ip = .ok s₀)
    (history : List (SedOp ℝ)) (f : FitsFile ℝ) (ext : Ext) (b : SedAttr ℝ) (hb : ((SedAttr.of s₀).run history).fromfits f ext = (b, .ok ())) (zs : List ℝ) (z : ℝ) :
    ∃ s, Sed.fromfits f ext ((SedAttr.of s₀).run history).interpolate = .ok s ∧
      ((b.run (zs.map .setRedshift)).setRedshift z).1.wave = .vec (s.restWave.map (fun w => w * (1 + z))) ∧
      ((b.run (zs.map .setRedshift)).setRedshift z).1.flux = .arr [s.restFlux.length] s.restWave.length (s.restFlux.map (List.map (fun v => v / (1 + z)))) ∧
      ((b.run (zs.map .setRedshift)).setRedshift z).1.redshift = z := by
  obtain ⟨s, h1, h2⟩ := C194_later s₀ hs history f ext b hb zs z
  refine ⟨s, h1, ?_⟩
  have hi : ∀ t : Sed ℝ, t.setInterp.1.restWave = t.restWave ∧ t.setInterp.1.restFlux = t.restFlux ∧ t.setInterp.1.wave = t.wave ∧ t.setInterp.1.flux = t.flux ∧
      t.setInterp.1.redshift = t.redshift := by
    intro t
    unfold Sed.setInterp
    split <;> exact ⟨rfl, rfl, rfl, rfl, rfl⟩
  have hz : ∀ (t : Sed ℝ) (z : ℝ), (t.setRedshift z).1.restWave = t.restWave ∧ (t.setRedshift z).1.restFlux = t.restFlux ∧
      (t.setRedshift z).1.wave = t.restWave.map (fun w => w * (1 + z)) ∧ (t.setRedshift z).1.flux = t.restFlux.map (List.map (fun v => v / (1 + z))) ∧ (t.setRedshift z).1.redshift = z := by
    intro t z
    have e : (lit 1 : ℝ) = 1 := by simp
    unfold Sed.setRedshift
    dsimp only
    rw [e]
    split
    · exact hi _
    · exact ⟨rfl, rfl, rfl, rfl, rfl⟩
  have hrest : ∀ (zs : List ℝ) (t : Sed ℝ), (zs.foldl (fun s z => (s.setRedshift z).1) t).restWave = t.restWave ∧ (zs.foldl (fun s z => (s.setRedshift z).1) t).restFlux = t.restFlux := by
    intro zs
    induction zs with
    | nil => intro t; exact ⟨rfl, rfl⟩
    | cons z zs ih =>
      intro t
      rw [List.foldl_cons, (ih _).1, (ih _).2, (hz t z).1, (hz t z).2.1]
      exact ⟨rfl, rfl⟩
  obtain ⟨_, _, e3, e4, e5⟩ := hz (zs.foldl (fun s z => (s.setRedshift z).1) s) z
  rw [(hrest zs s).1] at e3
  rw [(hrest zs s).2] at e4
  rw [h2]
  simp [SedAttr.of, e3, e4, e5]

/-- Not vacuous: a spectrum moved to redshift 1, another file read into it, then moved to 2 and to 3. -/
example : ∃ s₀ : Sed ℝ, ∃ b, Sed.mk' [1, 2, 3, 4] (.arr [1] 4 [[1, 1, 1, 1]]) false = .ok s₀ ∧ ((SedAttr.of s₀).run [.setRedshift 1]).fromfits demoShortFile .flux = (b, .ok ()) ∧
    ((b.run ([2].map .setRedshift)).setRedshift 3).1.wave = .vec [4, 8, 12] ∧ ((b.run ([2].map .setRedshift)).setRedshift 3).1.flux = .arr [1] 3 [[1, 5 / 4, 3 / 2]] := by
  have h0 : Sed.mk' [1, 2, 3, 4] (.arr [1] 4 [[1, 1, 1, 1]]) false = .ok (⟨[1, 2, 3, 4], [[1, 1, 1, 1]], [1, 2, 3, 4], [[1, 1, 1, 1]], 0, false, none, false⟩ : Sed ℝ) := by
    simp [Sed.mk', Sed.setup]
  have hb := (C194_sed _ (Or.inl ⟨_, _, _, h0⟩) [.setRedshift 1] demoShortFile .flux _).mpr ⟨_, demoShort_read, rfl⟩
  refine ⟨_, _, h0, hb, ?_⟩
  obtain ⟨s, h1, h2, h3, _⟩ := C194_shifted _ (Or.inl ⟨_, _, _, h0⟩) [.setRedshift 1] demoShortFile .flux _ hb [2] 3
  have h4 := demoShort_read.symm.trans h1
  cases h4
  rw [h2, h3]
  norm_num

end KC
