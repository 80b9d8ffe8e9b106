import Verif.Lemmas.Utils

/-!
# Properties C01–C13: `utils.py`

Real arithmetic (`ℝ`) unless stated otherwise; `XR` adds the IEEE special values.
-/

namespace KC
open Spec

/-- Two well-formed arrays of one shape with the same entries are equal. -/
theorem nda_ext {α : Type} {a b : NDA α} (ha : a.WF) (hb : b.WF) (hs : a.shape = b.shape)
    (h : ∀ r j, entry a r j = entry b r j) : a = b := by
  cases a with
  | scalar x =>
    cases b with
    | scalar y => simpa [entry] using h 0 0
    | arr l n rows => simp [NDA.shape] at hs
  | arr l n rows =>
    obtain ⟨rows', rfl, h1, h2⟩ := shape_arr hb hs.symm
    have e : rows = rows' := by
      apply List.ext_getElem (by rw [ha.1, h1])
      intro r hr hr'
      apply List.ext_getElem?
      intro j
      simpa [entry, hr, hr'] using h r j
    rw [e]

/-! ### C01 -/

/-- **C01.** `sed_ab` is flat in frequency: for every array, every nonzero wavelength, `f_λ λ²` is one and the
same positive constant (3631 Jy × c in the code's units), and the flux is positive. -/
theorem C01_sed_ab_flat :
    ∃ K : ℝ, K = 0.03631 * 2.99792 ∧ ∀ wave : NDA ℝ, (sedAb wave).shape = wave.shape ∧
      ∀ r j w, entry wave r j = some w → w ≠ 0 →
        ∃ f, entry (sedAb wave) r j = some f ∧ f * w ^ 2 = K ∧ 0 < f := by
  refine ⟨0.03631 * 2.99792, rfl, fun wave => ⟨map_shape _ _, ?_⟩⟩
  intro r j w hw h0
  refine ⟨sedAbAt w, by simp [sedAb, entry_map, hw], ?_, ?_⟩
  · simp only [sedAbAt, real_lit]
    push_cast
    field_simp
  · simp only [sedAbAt, real_lit]
    have : 0 < w * w := mul_self_pos.mpr h0
    push_cast
    positivity

example : entry (NDA.vec [3000, (5500 : ℝ)]) 0 1 = some 5500 ∧ (5500 : ℝ) ≠ 0 := by
  constructor <;> norm_num [entry, NDA.vec]

/-! ### C02–C05 -/

/-- **C02.** In every band of every object, for arrays of every rank ≥ 1, the correction adds `f[i]` to the
magnitude of a positive flux. -/
theorem C02_ab_correct_offset (m : NDA ℝ) (iv : Option (NDA ℝ)) (f : List ℝ) (hm : m.WF) (h5 : lastAxis m 5)
    (hf : f.length = 5) (hiv : ∀ v ∈ iv, v.WF ∧ v.shape = m.shape) :
    ∃ out, sdssAbCorrect m iv f = .ok out ∧ out.maggies.shape = m.shape ∧
      ∀ r j x φ, entry m r j = some x → 0 < x → f[j]? = some φ →
        ∃ y, entry out.maggies r j = some y ∧ 0 < y ∧ mag y = mag x + φ := by
  obtain ⟨out, h1, h2, -, h3, -⟩ := abCorrect_real m iv f hm h5 hf hiv
  refine ⟨out, h1, h2, ?_⟩
  intro r j x φ hx hpos hφ
  refine ⟨x * (10 : ℝ) ^ (-0.4 * φ), by simp [h3, hx, hφ], by positivity, ?_⟩
  unfold mag
  rw [Real.logb_mul (by positivity) (by positivity), Real.logb_rpow (by norm_num) (by norm_num)]
  ring

/-- the default offsets of the code meet the hypothesis, on a two-object table -/
example : lastAxis (NDA.mat 5 [[1, 2, 3, 4, 5], [6, 7, 8, 9, (10 : ℝ)]]) 5 ∧
    (NDA.mat 5 [[1, 2, 3, 4, 5], [6, 7, 8, 9, (10 : ℝ)]]).WF ∧ (abfixDefault (α := ℝ)).length = 5 := by
  simp [lastAxis, NDA.mat, NDA.shape, NDA.WF, abfixDefault]

/-- **C03.** The signal-to-noise squared `maggies² · ivar` of every entry is unchanged. -/
theorem C03_ab_correct_snr (m v : NDA ℝ) (f : List ℝ) (hm : m.WF) (h5 : lastAxis m 5)
    (hf : f.length = 5) (hv : v.WF) (hs : v.shape = m.shape) :
    ∃ out w, sdssAbCorrect m (some v) f = .ok out ∧ out.ivar = some w ∧ w.shape = m.shape ∧
      ∀ r j x i, entry m r j = some x → entry v r j = some i →
        ∃ y k, entry out.maggies r j = some y ∧ entry w r j = some k ∧ y ^ 2 * k = x ^ 2 * i := by
  obtain ⟨out, h1, h2, -, h3, -, h4⟩ := abCorrect_real m (some v) f hm h5 hf (by rintro _ ⟨⟩; exact ⟨hv, hs⟩)
  obtain ⟨w, hw, hws, -, h5'⟩ := h4 v rfl
  refine ⟨out, w, h1, hw, hws.trans hs, ?_⟩
  intro r j x i hx hi
  have hj : ∃ φ, f[j]? = some φ := by
    have : j < 5 := by
      cases m with
      | scalar x => simp [lastAxis, NDA.shape] at h5
      | arr l n rows =>
        simp [lastAxis, NDA.shape] at h5; subst h5
        simp only [entry, Option.bind_eq_some_iff] at hx
        obtain ⟨row, hr, hj⟩ := hx
        have := hm.2 row (List.mem_of_getElem? hr)
        have := (List.getElem?_eq_some_iff.mp hj).1
        omega
    exact ⟨f[j]'(by omega), List.getElem?_eq_getElem _⟩
  obtain ⟨φ, hφ⟩ := hj
  refine ⟨_, _, by simp only [h3, hx, hφ, Option.bind_some, Option.map_some]; rfl,
    by simp only [h5', hi, hφ, Option.bind_some, Option.map_some]; rfl, ?_⟩
  have : (10 : ℝ) ^ (-0.4 * φ) ≠ 0 := by positivity
  field_simp

example : let m := NDA.vec [1, 2, 3, 4, (5 : ℝ)]
    lastAxis m 5 ∧ m.WF ∧ (NDA.vec [1, 1, 1, 1, (4 : ℝ)]).shape = m.shape := by
  simp [lastAxis, NDA.vec, NDA.shape, NDA.WF]

/-- **C04.** Correcting with `f` and then with `-f` gives back exactly the arrays one started with. -/
theorem C04_ab_correct_inverse (m : NDA ℝ) (iv : Option (NDA ℝ)) (f : List ℝ) (hm : m.WF) (h5 : lastAxis m 5)
    (hf : f.length = 5) (hiv : ∀ v ∈ iv, v.WF ∧ v.shape = m.shape) :
    ∃ out out', sdssAbCorrect m iv f = .ok out ∧
      sdssAbCorrect out.maggies out.ivar (f.map (fun x => -x)) = .ok out' ∧
      out'.maggies = m ∧ out'.ivar = iv := by
  obtain ⟨out, h1, h2, hw, h3, hn, h4⟩ := abCorrect_real m iv f hm h5 hf hiv
  have hiv' : ∀ v ∈ out.ivar, v.WF ∧ v.shape = out.maggies.shape := by
    intro v hv
    cases iv with
    | none => simp [hn rfl] at hv
    | some a =>
      obtain ⟨w, e1, e2, e3, -⟩ := h4 a rfl
      rw [e1] at hv; cases hv
      exact ⟨e3, by rw [e2, h2]; exact (hiv a rfl).2⟩
  obtain ⟨out', g1, g2, gw, g3, gn, g4⟩ := abCorrect_real out.maggies out.ivar (f.map (fun x => -x)) hw
    (by rw [lastAxis, h2]; exact h5) (by simpa using hf) hiv'
  have hin : ∀ (a : NDA ℝ), a.WF → a.shape = m.shape → ∀ r j x, entry a r j = some x → ∃ φ, f[j]? = some φ := by
    intro a ha hs r j x hx
    obtain ⟨l, hl⟩ : ∃ l, m.shape = l ++ [5] := by
      cases m with
      | scalar x => simp [lastAxis, NDA.shape] at h5
      | arr l n rows => simp [lastAxis, NDA.shape] at h5; subst h5; exact ⟨l, rfl⟩
    obtain ⟨rows, rfl, -, hr⟩ := shape_arr ha (hs.trans hl)
    simp only [entry, Option.bind_eq_some_iff] at hx
    obtain ⟨row, h6, hj⟩ := hx
    have := hr row (List.mem_of_getElem? h6)
    have := (List.getElem?_eq_some_iff.mp hj).1
    exact ⟨f[j]'(by omega), List.getElem?_eq_getElem _⟩
  refine ⟨out, out', h1, g1, ?_, ?_⟩
  · refine nda_ext gw hm (g2.trans h2) ?_
    intro r j
    rw [g3, h3]
    cases hx : entry m r j with
    | none => rfl
    | some x =>
      obtain ⟨φ, hφ⟩ := hin m hm rfl r j x hx
      simp only [hφ, Option.bind_some, Option.map_some, List.getElem?_map]
      congr 1
      rw [mul_assoc, ← Real.rpow_add (by norm_num)]
      simp
  · cases iv with
    | none => exact gn (hn rfl)
    | some v =>
      obtain ⟨w, e1, e2, e3, e4⟩ := h4 v rfl
      obtain ⟨w', k1, k2, k3, k4⟩ := g4 w e1
      rw [k1]
      congr 1
      obtain ⟨hvw, hvs⟩ := hiv v rfl
      refine nda_ext k3 hvw (k2.trans e2) ?_
      intro r j
      rw [k4, e4]
      cases hx : entry v r j with
      | none => rfl
      | some x =>
        obtain ⟨φ, hφ⟩ := hin v hvw hvs r j x hx
        simp only [hφ, Option.bind_some, Option.map_some, List.getElem?_map]
        congr 1
        rw [div_div, ← mul_pow, ← Real.rpow_add (by norm_num)]
        simp

example : let m := NDA.mat 5 [[1, 2, 3, 4, 5], [6, 7, 8, 9, (-10 : ℝ)]]
    lastAxis m 5 ∧ m.WF ∧ ∀ v ∈ (some m), v.WF ∧ v.shape = m.shape := by
  simp [lastAxis, NDA.mat, NDA.shape, NDA.WF]

/-- The inputs C05 says must be refused. -/
def notUgriz {α : Type} (m : NDA α) (iv : Option (NDA α)) (f : List α) : Prop :=
  ¬ lastAxis m 5 ∨ f.length ≠ 5 ∨ ∃ v, iv = some v ∧ m.shape ≠ v.shape

/-- Exactly which calls of `sdss_ab_correct` return: wrong offsets and mismatched shapes are refused, a vector
must have 5 entries, but an array of rank ≥ 2 may have *more* than 5 columns. -/
theorem C05_returns_iff {α : Type} [Arith α] (m : NDA α) (iv : Option (NDA α)) (f : List α) :
    (∃ out, sdssAbCorrect m iv f = .ok out) ↔
      f.length = 5 ∧ (∀ v, iv = some v → m.shape = v.shape) ∧
        ∃ lead n, m.shape = lead ++ [n] ∧ (n = 5 ∨ (lead ≠ [] ∧ 5 ≤ n)) := by
  have hsh : (∀ v ∈ iv.map (NDA.map (f32 (α := α))), (m.map f32).shape = v.shape) ↔
      (∀ v, iv = some v → m.shape = v.shape) := by
    cases iv with
    | none => simp
    | some a => simp [map_shape]
  by_cases hs : ∀ v, iv = some v → m.shape = v.shape
  · by_cases hf : f.length = 5
    · have e : sdssAbCorrect m iv f = abApply (m.map f32) (iv.map (NDA.map f32)) (abFac f) := by
        simp only [sdssAbCorrect]
        rw [require_true (hsh.mpr hs), require_true hf]; rfl
      rw [e]
      simp only [hf, true_and]
      rw [and_iff_right hs]
      cases m with
      | scalar x => simp [NDA.map, abApply, NDA.shape]
      | arr lead n rows =>
        cases lead with
        | nil =>
          by_cases hn : n = 5
          · simp only [NDA.map, abApply, hn, ne_eq, not_true, if_false, Except.ok.injEq, exists_eq', true_iff]
            exact ⟨[], 5, rfl, Or.inl rfl⟩
          · simp only [NDA.map, abApply, ne_eq, hn, not_false_eq_true, if_true, reduceCtorEq, exists_false,
              false_iff]
            rintro ⟨l, k, he, hk⟩
            have := List.append_inj' (show [] ++ [n] = l ++ [k] from he) rfl
            simp only [List.cons.injEq, and_true] at this
            obtain ⟨h1, rfl⟩ := this
            rcases hk with h | h
            · exact hn h
            · exact h.1 h1.symm
        | cons d ds =>
          by_cases hn : n < 5
          · simp only [NDA.map, abApply, hn, if_true, reduceCtorEq, exists_false, false_iff]
            rintro ⟨l, k, he, hk⟩
            have := List.append_inj' (show (d :: ds) ++ [n] = l ++ [k] from he) rfl
            simp only [List.cons.injEq, and_true] at this
            omega
          · simp only [NDA.map, abApply, hn, if_false, Except.ok.injEq, exists_eq', true_iff]
            exact ⟨d :: ds, n, rfl, Or.inr ⟨by simp, by omega⟩⟩
    · have : sdssAbCorrect m iv f = .error .typeError := by
        simp only [sdssAbCorrect]
        rw [require_true (hsh.mpr hs), require_false hf]; rfl
      simp [this, hf]
  · have hs' : ¬ ∀ v ∈ iv.map (NDA.map (f32 (α := α))), (m.map f32).shape = v.shape := fun h => hs (hsh.mp h)
    have : sdssAbCorrect m iv f = .error .typeError := by
      simp only [sdssAbCorrect]
      rw [require_false hs']; rfl
    simp [this, hs]

/-- **C05 is false of the code** (for every arithmetic): a two-dimensional array with six columns is accepted,
so the claim "raises whenever the last axis does not have exactly 5 entries" fails. -/
theorem C05_false {α : Type} [Arith α] :
    ¬ ∀ (m : NDA α) (iv : Option (NDA α)) (f : List α), notUgriz m iv f → Raises (sdssAbCorrect m iv f) := by
  intro h
  have h6 : notUgriz (NDA.mat 6 [List.replicate 6 (lit 1 : α)]) none (abfixDefault (α := α)) := by
    left; simp [lastAxis, NDA.mat, NDA.shape]
  obtain ⟨e, he⟩ := h _ _ _ h6
  obtain ⟨out, ho⟩ := (C05_returns_iff (NDA.mat 6 [List.replicate 6 (lit 1 : α)]) none abfixDefault).mpr
    ⟨by simp [abfixDefault], by simp, [1], 6, by simp [NDA.mat, NDA.shape], Or.inr ⟨by simp, by norm_num⟩⟩
  rw [ho] at he; cases he

/-- What is returned in that case: the extra columns come back as zeros. -/
theorem C05_extra_columns_zero {α : Type} [Arith α] (d : Nat) (ds : List Nat) (n : Nat) (rows : List (List α))
    (f : List α) (hf : f.length = 5) (hn : 5 < n) :
    ∃ out, sdssAbCorrect (.arr (d :: ds) n rows) none f = .ok out ∧
      ∀ r j, r < rows.length → 5 ≤ j → j < n → entry out.maggies r j = some (lit 0) := by
  have hn' : ¬ n < 5 := by omega
  refine ⟨⟨.arr (d :: ds) n (colLoop 5 (fun i s _ => f32 (ent s i * ent (abFac f) i)) (rows.map (List.map f32))
    (zeroRows (rows.map (List.map f32)).length n)), none⟩, by simp [sdssAbCorrect, NDA.map, abApply, hf, hn'], ?_⟩
  intro r j hr h5 hj
  have := fill_entry (α := α) 5 n (fun i s => f32 (ent s i * ent (abFac f) i)) (rows.map (List.map f32)) r j
  simp only [entry]
  rw [this]
  have h5' : ¬ j < 5 := by omega
  simp [hr, hj, h5']

/-- **C05 (partial).** Refused for every arithmetic: 0-dimensional input, a vector whose length is not 5, any
array with fewer than 5 columns, offsets that are not 5 numbers, mismatched shapes.  Missing from the full claim:
arrays of rank ≥ 2 with more than 5 columns (`C05_false`). -/
theorem C05_ab_correct_rejects_partial {α : Type} [Arith α] (m : NDA α) (iv : Option (NDA α)) (f : List α)
    (hbad : notUgriz m iv f) (hrank : m.ndim ≤ 1 ∨ ∀ n, lastAxis m n → n ≤ 5) :
    Raises (sdssAbCorrect m iv f) := by
  have hno : ¬ ∃ out, sdssAbCorrect m iv f = .ok out := by
    rw [C05_returns_iff]
    rintro ⟨hf, hs, lead, n, hsh, hn⟩
    rcases hbad with h | h | ⟨v, hv, hne⟩
    · have hln : lastAxis m n := by simp [lastAxis, hsh]
      have hne : n ≠ 5 := fun h5 => h (h5 ▸ hln)
      rcases hn with hn | ⟨hl, hn⟩
      · exact hne hn
      · rcases hrank with hr | hr
        · have : m.ndim = m.shape.length := by cases m <;> simp [NDA.ndim, NDA.shape]
          rw [this, hsh] at hr
          simp at hr
          exact hl hr
        · have := hr n hln; omega
    · exact h hf
    · exact hne (hs v hv)
  cases h : sdssAbCorrect m iv f with
  | ok out => exact absurd ⟨out, h⟩ hno
  | error e => exact ⟨e, rfl⟩

example : notUgriz (NDA.vec [1, 2, 3, (4 : ℝ)]) none abfixDefault ∧ (NDA.vec [1, 2, 3, (4 : ℝ)]).ndim ≤ 1 := by
  refine ⟨Or.inl (by simp [lastAxis, NDA.vec, NDA.shape]), by simp [NDA.vec, NDA.ndim]⟩

end KC
