import Verif.Lemmas.Sort

/-! Construction of SED objects. -/

namespace KC
variable {α : Type} [Arith α]

/-- The rows of the flux argument that `_setup` accepts. -/
def FluxRows (wave : List α) (flux : NDA α) (rows : List (List α)) : Prop :=
  (flux = .arr [] wave.length rows) ∨ ∃ k n, flux = .arr [k] n rows

theorem setup_rows {wave : List α} {flux : NDA α} {rows : List (List α)} (h : FluxRows wave flux rows) (ip bi : Bool) :
    Sed.setup wave flux ip bi =
      if ip then
        match (Sed.setInterp ⟨wave, rows, wave, rows, lit 0, ip, none, bi⟩) with
        | (s', .ok ()) => .ok s'
        | (_, .error e) => .error e
      else .ok ⟨wave, rows, wave, rows, lit 0, ip, none, bi⟩ := by
  unfold Sed.setup
  rcases h with rfl | ⟨k, n, rfl⟩
  · simp only [if_true, ok_bind]; rfl
  · simp only [ok_bind]; rfl

theorem setup_flux {wave : List α} {flux : NDA α} {ip bi : Bool} {s : Sed α} (h : Sed.setup wave flux ip bi = .ok s) :
    ∃ rows, FluxRows wave flux rows := by
  unfold Sed.setup at h
  match flux, h with
  | .scalar _, h => simp at h
  | .arr [] n rows, h =>
    by_cases hn : n = wave.length
    · subst hn; exact ⟨rows, Or.inl rfl⟩
    · simp only [hn, if_false, error_bind] at h; cases h
  | .arr [k] n rows, h => exact ⟨rows, Or.inr ⟨k, n, rfl⟩⟩
  | .arr (_ :: _ :: _) _ _, h => simp at h

/-- The object `_setup` leaves behind. -/
theorem setup_ok {wave : List α} {flux : NDA α} {ip bi : Bool} {s : Sed α} (h : Sed.setup wave flux ip bi = .ok s) :
    ∃ rows oi, FluxRows wave flux rows ∧ s = ⟨wave, rows, wave, rows, lit 0, ip, oi, bi⟩ ∧
      ((ip = false ∧ oi = none) ∨ (ip = true ∧ ∃ i, oi = some i ∧ mkInterp wave rows = .ok i)) := by
  obtain ⟨rows, hr⟩ := setup_flux h
  rw [setup_rows hr] at h
  cases ip with
  | false =>
    simp only [Bool.false_eq_true, if_false, Except.ok.injEq] at h
    exact ⟨rows, none, hr, h.symm, Or.inl ⟨rfl, rfl⟩⟩
  | true =>
    unfold Sed.setInterp at h
    simp only [if_true] at h
    cases hi : mkInterp wave rows with
    | error e => rw [hi] at h; simp at h
    | ok i =>
      rw [hi] at h
      simp only [Except.ok.injEq] at h
      exact ⟨rows, some i, hr, h.symm, Or.inr ⟨rfl, i, rfl, hi⟩⟩

theorem setup_of_rows {wave : List α} {flux : NDA α} {rows : List (List α)} (hr : FluxRows wave flux rows) (bi : Bool) :
    Sed.setup wave flux false bi = .ok ⟨wave, rows, wave, rows, lit 0, false, none, bi⟩ := by
  rw [setup_rows hr]; simp

theorem setup_of_rows_interp {wave : List α} {flux : NDA α} {rows : List (List α)} (hr : FluxRows wave flux rows)
    (bi : Bool) {i : Interp α} (hi : mkInterp wave rows = .ok i) :
    Sed.setup wave flux true bi = .ok ⟨wave, rows, wave, rows, lit 0, true, some i, bi⟩ := by
  rw [setup_rows hr]; simp [Sed.setInterp, hi]

/-- One `set_redshift`: the fields it leaves, whether or not it raises. -/
theorem setRedshift_fields (s : Sed α) (z : α) :
    (s.setRedshift z).1.restWave = s.restWave ∧ (s.setRedshift z).1.restFlux = s.restFlux ∧
    (s.setRedshift z).1.wave = s.restWave.map (fun w => w * (lit 1 + z)) ∧
    (s.setRedshift z).1.flux = s.restFlux.map (List.map (fun f => f / (lit 1 + z))) ∧
    (s.setRedshift z).1.redshift = z ∧ (s.setRedshift z).1.interpolate = s.interpolate ∧
    (s.setRedshift z).1.binimage = s.binimage := by
  unfold Sed.setRedshift
  simp only
  split
  · rename_i h
    unfold Sed.setInterp
    simp only
    split <;> simp_all
  · simp

theorem setRedshift_interp_off (s : Sed α) (z : α) (h : s.interpolate = false) :
    (s.setRedshift z).1.interp = s.interp ∧ (s.setRedshift z).2 = .ok () := by
  unfold Sed.setRedshift
  simp [h]

theorem setRedshift_interp_on (s : Sed α) (z : α) (h : s.interpolate = true) :
    (∀ i, mkInterp (s.setRedshift z).1.wave (s.setRedshift z).1.flux = .ok i →
      (s.setRedshift z).2 = .ok () ∧ (s.setRedshift z).1.interp = some i) ∧
    (∀ e, mkInterp (s.setRedshift z).1.wave (s.setRedshift z).1.flux = .error e →
      (s.setRedshift z).2 = .error e ∧ (s.setRedshift z).1.interp = s.interp) := by
  obtain ⟨_, _, h3, h4, _⟩ := setRedshift_fields s z
  rw [h3, h4]
  refine ⟨fun i hi => ?_, fun e he => ?_⟩
  · unfold Sed.setRedshift Sed.setInterp; simp [h, hi]
  · unfold Sed.setRedshift Sed.setInterp; simp [h, he]

end KC
