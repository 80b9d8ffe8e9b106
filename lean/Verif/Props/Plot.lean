import Verif.Model.Plot
import Verif.Lemmas.Fwhm
import Verif.Lemmas.Grid
import Verif.Props.Sed
import Verif.Props.Derived

/-!
# C143: what `SED.plot` draws
-/

namespace KC
open Spec

/-- Python index `i` selects number `j` of `n`. -/
def Selects (n : Nat) (i : Int) (j : Nat) : Prop := j < n ∧ (i = j ∨ i = j - n)

theorem pyIdx_ok {n : Nat} {i : Int} {j : Nat} : pyIdx n i = .ok j ↔ Selects n i j := by
  unfold pyIdx Selects
  split
  · rename_i h
    simp only [Except.ok.injEq]
    omega
  · split
    · rename_i h1 h2
      simp only [Except.ok.injEq]
      omega
    · rename_i h1 h2
      refine ⟨fun h => (nomatch h), fun h => ?_⟩
      omega

theorem pyIdx_exists {n : Nat} {i : Int} : (∃ j, pyIdx n i = .ok j) ↔ -(n : Int) ≤ i ∧ i < n := by
  simp only [pyIdx_ok, Selects]
  constructor
  · rintro ⟨j, h⟩; omega
  · intro h
    by_cases h0 : 0 ≤ i
    · exact ⟨i.toNat, by omega⟩
    · exact ⟨(i + n).toNat, by omega⟩

theorem npMin_spec (l : List ℝ) (h : l ≠ []) : npMin l ∈ l ∧ ∀ u ∈ l, npMin l ≤ u := by
  induction l with
  | nil => exact absurd rfl h
  | cons a t ih =>
    cases t with
    | nil => simp [npMin]
    | cons b t =>
      obtain ⟨h1, h2⟩ := ih (by simp)
      have hd : npMin (a :: b :: t) = if npMin (b :: t) < a then npMin (b :: t) else a := by
        simp only [npMin]
        simp
      rw [hd]
      split
      · rename_i hlt
        refine ⟨List.mem_cons_of_mem _ h1, ?_⟩
        intro u hu
        rcases List.mem_cons.mp hu with rfl | hu
        · exact hlt.le
        · exact h2 u hu
      · rename_i hlt
        refine ⟨List.mem_cons_self, ?_⟩
        intro u hu
        rcases List.mem_cons.mp hu with rfl | hu
        · exact le_rfl
        · exact (not_lt.mp hlt).trans (h2 u hu)

/-- Sample number `k` of row `row` lies strictly between the limits and has positive flux. -/
def Visible (wave row : List ℝ) (lo hi : ℝ) (k : Nat) (w f : ℝ) : Prop :=
  wave[k]? = some w ∧ row[k]? = some f ∧ lo < w ∧ w < hi ∧ 0 < f

/-- The values that set the vertical range. -/
theorem mem_plotVals {wave : List ℝ} {sel : List (List ℝ)} {lo hi y : ℝ} (hw : ∀ w ∈ wave, 0 < w) :
    y ∈ plotVals wave sel lo hi ↔ ∃ row ∈ sel, ∃ k w f, Visible wave row lo hi k w f ∧ y = w * f := by
  unfold plotVals
  simp only [List.mem_filter, List.mem_flatten, List.mem_map]
  constructor
  · rintro ⟨⟨l, ⟨row, hrow, rfl⟩, hy⟩, hpos⟩
    obtain ⟨k, h1, h2⟩ := mem_maskSel.mp hy
    rw [List.getElem?_map] at h1
    rw [List.getElem?_zipWith] at h2
    cases hwk : wave[k]? with
    | none => simp [hwk] at h1
    | some w =>
      cases hfk : row[k]? with
      | none => simp [hfk] at h2
      | some f =>
        simp [hwk, hfk] at h1 h2
        have hwp := hw w (List.mem_of_getElem? hwk)
        have hy0 : 0 < y := by simpa using hpos
        refine ⟨row, hrow, k, w, f, ⟨hwk, hfk, h1.1, h1.2, ?_⟩, ?_⟩
        · rw [← h2] at hy0
          exact pos_of_mul_pos_left hy0 hwp.le
        · rw [← h2]; ring
  · rintro ⟨row, hrow, k, w, f, ⟨h1, h2, h3, h4, h5⟩, rfl⟩
    have hwp := hw w (List.mem_of_getElem? h1)
    refine ⟨⟨_, ⟨row, hrow, rfl⟩, mem_maskSel.mpr ⟨k, ?_, ?_⟩⟩, ?_⟩
    · rw [List.getElem?_map, h1]; simp [h3, h4]
    · rw [List.getElem?_zipWith, h1, h2]; simp; ring
    · simpa using mul_pos hwp h5

theorem mem_plotLine {wave row : List ℝ} {p : ℝ × ℝ} : p ∈ plotLine wave row ↔
    ∃ (k : Nat) (w f : ℝ), wave[k]? = some w ∧ row[k]? = some f ∧ 0 < f ∧ p = (Real.logb 10 w, Real.logb 10 (w * f)) := by
  unfold plotLine
  simp only [List.mem_map, List.mem_filter, Prod.exists]
  constructor
  · rintro ⟨w, f, ⟨hm, hf⟩, rfl⟩
    obtain ⟨k, hk⟩ := List.mem_iff_getElem?.mp hm
    rw [List.getElem?_zip_eq_some] at hk
    exact ⟨k, w, f, hk.1, hk.2, by simpa using hf, rfl⟩
  · rintro ⟨k, w, f, h1, h2, h3, rfl⟩
    exact ⟨w, f, ⟨List.mem_iff_getElem?.mpr ⟨k, List.getElem?_zip_eq_some.mpr ⟨h1, h2⟩⟩, by simpa using h3⟩, rfl⟩

/-- What is selected and drawn, whatever the limits. -/
theorem plot_run (s : Sed ℝ) (is : List Int) (lim : Option (ℝ × ℝ)) (P : Plot ℝ) (h : s.plot (some is) lim = .ok P) :
    ∃ js, List.Forall₂ (fun i j => Selects s.flux.length i j) is js ∧
      P.lines = js.map (fun j => plotLine s.wave (s.flux.getD j [])) ∧
      (lim = none → P.xlim = none ∧ P.ylim = none) ∧
      ∀ lo hi, lim = some (lo, hi) → ∃ ys, ys = plotVals s.wave (js.map (fun j => s.flux.getD j [])) lo hi ∧ ys ≠ [] ∧
        P.xlim = some (Real.logb 10 lo, Real.logb 10 hi) ∧ P.ylim = some (Real.logb 10 (npMin ys) - 0.1, Real.logb 10 (npMax ys) + 0.1) := by
  unfold Sed.plot at h
  simp only [Option.getD_some, bind_ok_iff] at h
  obtain ⟨js, hjs, h⟩ := h
  have hf := (mapM_ok_iff.mp hjs).imp (fun i j h => pyIdx_ok.mp h)
  refine ⟨js, hf, ?_⟩
  cases lim with
  | none =>
    simp only [pure_py] at h
    cases h
    exact ⟨by simp, fun _ => ⟨rfl, rfl⟩, by simp⟩
  | some p =>
    obtain ⟨lo, hi⟩ := p
    simp only [bind_ok_iff] at h
    obtain ⟨_, hreq, h⟩ := h
    simp only [pure_py] at h
    cases h
    refine ⟨by simp, by simp, ?_⟩
    intro lo' hi' e
    cases e
    refine ⟨_, rfl, require_ok_iff.mp hreq, ?_, ?_⟩
    · simp
    · simp only [real_lit]; norm_num

theorem f2_left {β γ : Type} {R : β → γ → Prop} {as : List β} {bs : List γ} (h : List.Forall₂ R as bs) {a : β} (ha : a ∈ as) : ∃ b ∈ bs, R a b := by
  induction h with
  | nil => exact absurd ha (by simp)
  | cons h1 _ ih =>
    rcases List.mem_cons.mp ha with rfl | h'
    · exact ⟨_, List.mem_cons_self, h1⟩
    · obtain ⟨b, hb, hr⟩ := ih h'
      exact ⟨b, List.mem_cons_of_mem _ hb, hr⟩

theorem f2_right {β γ : Type} {R : β → γ → Prop} {as : List β} {bs : List γ} (h : List.Forall₂ R as bs) {b : γ} (hb : b ∈ bs) : ∃ a ∈ as, R a b :=
  f2_left h.flip hb

theorem f2_get {β γ : Type} {R : β → γ → Prop} {as : List β} {bs : List γ} (h : List.Forall₂ R as bs) {n : Nat} {a : β} (ha : as[n]? = some a) :
    ∃ b, bs[n]? = some b ∧ R a b := by
  induction h generalizing n with
  | nil => simp at ha
  | cons h1 _ ih =>
    cases n with
    | zero => simp at ha; subst ha; exact ⟨_, rfl, h1⟩
    | succ n => simp only [List.getElem?_cons_succ] at ha ⊢; exact ih ha

/-- C143: on spectra with positive wavelengths, `plot(indx, wavelim)` returns exactly when every index is between `-nsed` and `nsed - 1` and, if limits are
given, a selected spectrum has a sample of positive flux strictly between them. -/
theorem C143_returns_iff (s : Sed ℝ) (hw : ∀ w ∈ s.wave, 0 < w) (is : List Int) (lim : Option (ℝ × ℝ)) :
    (∃ P, Returns (s.plot (some is) lim) P) ↔ (∀ i ∈ is, -(s.flux.length : Int) ≤ i ∧ i < s.flux.length) ∧
      ∀ lo hi, lim = some (lo, hi) → ∃ i ∈ is, ∃ j row k w f, Selects s.flux.length i j ∧ s.flux[j]? = some row ∧ Visible s.wave row lo hi k w f := by
  constructor
  · rintro ⟨P, hP⟩
    obtain ⟨js, hf, -, -, h4⟩ := plot_run s is lim P hP
    refine ⟨fun i hi => ?_, fun lo hi hl => ?_⟩
    · obtain ⟨j, -, hj⟩ := f2_left hf hi
      exact pyIdx_exists.mp ⟨j, pyIdx_ok.mpr hj⟩
    · obtain ⟨ys, rfl, hne, -, -⟩ := h4 lo hi hl
      obtain ⟨y, hy⟩ := List.exists_mem_of_ne_nil _ hne
      obtain ⟨row, hrow, k, w, f, hv, -⟩ := (mem_plotVals hw).mp hy
      obtain ⟨j, hj, rfl⟩ := List.mem_map.mp hrow
      obtain ⟨i, hi, hsel⟩ := f2_right hf hj
      refine ⟨i, hi, j, _, k, w, f, hsel, ?_, hv⟩
      rw [List.getElem?_eq_getElem hsel.1, List.getD_eq_getElem?_getD, List.getElem?_eq_getElem hsel.1]; rfl
  · rintro ⟨h1, h2⟩
    obtain ⟨js, hjs⟩ := mapM_exists (f := pyIdx s.flux.length) (l := is) (fun i hi => pyIdx_exists.mpr (h1 i hi))
    cases lim with
    | none => exact ⟨_, by simp only [Sed.plot, Option.getD_some, hjs, ok_bind, pure_py]; rfl⟩
    | some p =>
      obtain ⟨lo, hi⟩ := p
      have hne : plotVals s.wave (js.map (fun j => s.flux.getD j [])) lo hi ≠ [] := by
        obtain ⟨i, hi', j, row, k, w, f, hsel, hrow, hv⟩ := h2 lo hi rfl
        have hf := mapM_ok_iff.mp hjs
        obtain ⟨j', hj', hji⟩ := f2_left hf hi'
        have : j' = j := by
          have := pyIdx_ok.mpr hsel
          rw [hji] at this
          simpa using this
        subst this
        have : w * f ∈ plotVals s.wave (js.map (fun j => s.flux.getD j [])) lo hi := by
          refine (mem_plotVals hw).mpr ⟨row, List.mem_map.mpr ⟨j', hj', ?_⟩, k, w, f, hv, rfl⟩
          rw [List.getD_eq_getElem?_getD, hrow]; rfl
        exact List.ne_nil_of_mem this
      exact ⟨_, by simp only [Sed.plot, Option.getD_some, hjs, ok_bind, pure_py, require_true hne]; rfl⟩

/-- C143: one polyline per index, in order; it consists of the points (log10 of wavelength, log10 of wavelength times flux) of exactly the samples with positive
flux of the selected spectrum, in the order of the samples. -/
theorem C143_lines (s : Sed ℝ) (is : List Int) (lim : Option (ℝ × ℝ)) (P : Plot ℝ) (h : Returns (s.plot (some is) lim) P) :
    P.lines.length = is.length ∧ ∀ (n : Nat) (i : Int), is[n]? = some i → ∃ j row, Selects s.flux.length i j ∧ s.flux[j]? = some row ∧
      P.lines[n]? = some (((s.wave.zip row).filter (fun p => 0 < p.2)).map (fun p => (Real.logb 10 p.1, Real.logb 10 (p.1 * p.2)))) := by
  obtain ⟨js, hf, h2, -, -⟩ := plot_run s is lim P h
  refine ⟨by rw [h2, List.length_map]; exact hf.length_eq.symm, ?_⟩
  intro n i hi
  obtain ⟨j, hj, hsel⟩ := f2_get hf hi
  refine ⟨j, s.flux[j]'hsel.1, hsel, List.getElem?_eq_getElem hsel.1, ?_⟩
  rw [h2, List.getElem?_map, hj]
  simp only [Option.map_some, List.getD_eq_getElem?_getD, List.getElem?_eq_getElem hsel.1, Option.getD_some]
  simp [plotLine]

/-- C143: with limits `0 < lo`, the horizontal range is (log10 lo, log10 hi), every drawn point strictly inside it is at least 0.1 inside the vertical range, and no vertical
range with that property is smaller: a drawn point lies 0.1 above its lower end and one lies 0.1 below its upper end. -/
theorem C143_limits (s : Sed ℝ) (hw : ∀ w ∈ s.wave, 0 < w) (is : List Int) (lo hi : ℝ) (hlo : 0 < lo) (hhi : 0 < hi) (P : Plot ℝ)
    (h : Returns (s.plot (some is) (some (lo, hi))) P) :
    P.xlim = some (Real.logb 10 lo, Real.logb 10 hi) ∧ ∃ a b, P.ylim = some (a, b) ∧
      (∀ l ∈ P.lines, ∀ p ∈ l, Real.logb 10 lo < p.1 → p.1 < Real.logb 10 hi → a + 0.1 ≤ p.2 ∧ p.2 ≤ b - 0.1) ∧
      (∃ l ∈ P.lines, ∃ p ∈ l, Real.logb 10 lo < p.1 ∧ p.1 < Real.logb 10 hi ∧ p.2 = a + 0.1) ∧
      (∃ l ∈ P.lines, ∃ p ∈ l, Real.logb 10 lo < p.1 ∧ p.1 < Real.logb 10 hi ∧ p.2 = b - 0.1) := by
  obtain ⟨js, hf, h2, -, h4⟩ := plot_run s is _ P h
  obtain ⟨ys, hys, hne, hx, hy⟩ := h4 lo hi rfl
  have h10 : (1 : ℝ) < 10 := by norm_num
  obtain ⟨m1, m2⟩ := npMin_spec ys hne
  obtain ⟨M1, M2⟩ := npMax_maxOf ys hne
  have hpos : ∀ y ∈ ys, 0 < y := by
    intro y hy
    rw [hys, mem_plotVals hw] at hy
    obtain ⟨row, -, k, w, f, ⟨h1, -, -, -, h5⟩, rfl⟩ := hy
    exact mul_pos (hw w (List.mem_of_getElem? h1)) h5
  have onLine : ∀ y ∈ ys, ∃ l ∈ P.lines, ∃ p ∈ l, Real.logb 10 lo < p.1 ∧ p.1 < Real.logb 10 hi ∧ p.2 = Real.logb 10 y := by
    intro y hy
    rw [hys, mem_plotVals hw] at hy
    obtain ⟨row, hrow, k, w, f, ⟨h1, h2', h3, h4, h5⟩, rfl⟩ := hy
    obtain ⟨j, hj, rfl⟩ := List.mem_map.mp hrow
    refine ⟨_, by rw [h2]; exact List.mem_map.mpr ⟨j, hj, rfl⟩, _, mem_plotLine.mpr ⟨k, w, f, h1, h2', h5, rfl⟩, ?_, ?_, rfl⟩
    · exact Real.logb_lt_logb h10 hlo h3
    · exact Real.logb_lt_logb h10 (hlo.trans h3) h4
  refine ⟨hx, _, _, hy, ?_, ?_, ?_⟩
  · intro l hl p hp p1 p2
    rw [h2] at hl
    obtain ⟨j, hj, rfl⟩ := List.mem_map.mp hl
    obtain ⟨k, w, f, e1, e2, e3, rfl⟩ := mem_plotLine.mp hp
    have hwp := hw w (List.mem_of_getElem? e1)
    have l1 : lo < w := (Real.logb_lt_logb_iff h10 hlo hwp).mp p1
    have l2 : w < hi := (Real.logb_lt_logb_iff h10 hwp hhi).mp p2
    have hmem : w * f ∈ ys := by
      rw [hys]
      exact (mem_plotVals hw).mpr ⟨_, List.mem_map.mpr ⟨j, hj, rfl⟩, k, w, f, ⟨e1, e2, l1, l2, e3⟩, rfl⟩
    have a1 := Real.logb_le_logb_of_le h10 (hpos _ m1) (m2 _ hmem)
    have a2 := Real.logb_le_logb_of_le h10 (hpos _ hmem) (M2 _ hmem)
    simp only
    constructor <;> linarith
  · obtain ⟨l, hl, p, hp, p1, p2, p3⟩ := onLine _ m1
    exact ⟨l, hl, p, hp, p1, p2, by rw [p3]; ring⟩
  · obtain ⟨l, hl, p, hp, p1, p2, p3⟩ := onLine _ M1
    exact ⟨l, hl, p, hp, p1, p2, by rw [p3]; ring⟩

/-- C143: without `indx`, all spectra of the object are drawn, in order. -/
theorem C143_default (s : Sed ℝ) (hn : s.flux.length = s.nsed) (lim : Option (ℝ × ℝ)) :
    s.plot none lim = s.plot (some ((List.range s.flux.length).map (fun (i : Nat) => (i : Int)))) lim := by
  simp only [Sed.plot, Option.getD_none, Option.getD_some, hn]

/-- Not vacuous: two spectra, the second selected by index -1, limits around the first two wavelengths. -/
example : let s : Sed ℝ := ⟨[1, 2, 4], [[1, 0, 3], [0, 5, 0]], [1, 2, 4], [[1, 0, 3], [0, 5, 0]], 0, false, none, false⟩
    (∀ w ∈ s.wave, 0 < w) ∧ s.flux.length = s.nsed ∧ ∃ P, Returns (s.plot (some [-1, 0]) (some (1 / 2, 3))) P := by
  intro s
  have hw : ∀ w ∈ s.wave, 0 < w := by simp [s]
  refine ⟨hw, rfl, (C143_returns_iff s hw _ _).mpr ⟨by simp [s], ?_⟩⟩
  intro lo hi h
  simp only [Option.some.injEq, Prod.mk.injEq] at h
  obtain ⟨rfl, rfl⟩ := h
  exact ⟨-1, by simp, 1, [0, 5, 0], 1, 2, 5, by simp [Selects, s], rfl, rfl, rfl, by norm_num, by norm_num, by norm_num⟩

end KC
