import Verif.Props.Spline
import Mathlib.Tactic.Linarith

/-!
# Numbers that enclose a cubic spline

The spline through a thousand points has no short exact form.  A list of approximate second derivatives with radii is checked instead, row by
row and in rational numbers: if every residual is smaller than what the radii leave, the true second derivatives are within the radii
(`rows_sound`), and so is every value of the spline (`walk_sound`).
-/

namespace KC
open Spec

/-- approximate moments whose residuals are small enough are near the moments -/
theorem nak_near {x : List ℝ} (h : Knots x) (y : List ℝ) (m w : Nat → ℝ) (hw : ∀ i, 1 ≤ i → i + 2 ≤ x.length → 0 < w i)
    (hr : ∀ i, 1 ≤ i → i + 2 ≤ x.length → |nakRhs x y i - (nakSub x i * m (i - 1) + nakDiag x i * m i + nakSup x i * m (i + 1))| <
      nakDiag x i * w i - |nakSub x i| * w (i - 1) - |nakSup x i| * w (i + 1)) :
    ∀ i, 1 ≤ i → i + 2 ≤ x.length → |nakInner x y i - m i| ≤ w i := by
  have h4 := h.four
  by_contra hc
  push Not at hc
  obtain ⟨j, j1, j2, hj⟩ := hc
  obtain ⟨i, hi, hmax⟩ := Finset.exists_max_image (Finset.Icc 1 (x.length - 2)) (fun i => |nakInner x y i - m i| / w i) ⟨j, Finset.mem_Icc.mpr ⟨j1, by omega⟩⟩
  rw [Finset.mem_Icc] at hi
  obtain ⟨i1, i2⟩ := hi
  have i3 : i + 2 ≤ x.length := by omega
  set t := |nakInner x y i - m i| / w i with ht
  have bound : ∀ k, 1 ≤ k → k + 2 ≤ x.length → |nakInner x y k - m k| ≤ t * w k := by
    intro k k1 k2
    have := hmax k (Finset.mem_Icc.mpr ⟨k1, by omega⟩)
    rwa [div_le_iff₀ (hw k k1 k2)] at this
  have t1 : 1 < t := by
    have h1 := hw j j1 j2
    have h2 := bound j j1 j2
    by_contra hn
    push Not at hn
    nlinarith
  have ei : |nakInner x y i - m i| = t * w i := by rw [ht, div_mul_cancel₀ _ (hw i i1 i3).ne']
  have hs := nak_solves h y i1 i3
  have hrow := hr i i1 i3
  have low : |nakSub x i * (nakInner x y (i - 1) - m (i - 1))| ≤ t * (|nakSub x i| * w (i - 1)) := by
    by_cases e : i = 1
    · have : nakSub x i = 0 := by simp [nakSub, e, real_lit]
      rw [this]; simp
    · rw [abs_mul]
      have := bound (i - 1) (by omega) (by omega)
      calc _ ≤ |nakSub x i| * (t * w (i - 1)) := mul_le_mul_of_nonneg_left this (abs_nonneg _)
        _ = _ := by ring
  have up : |nakSup x i * (nakInner x y (i + 1) - m (i + 1))| ≤ t * (|nakSup x i| * w (i + 1)) := by
    by_cases e : i + 2 = x.length
    · have : nakSup x i = 0 := by simp [nakSup, e, real_lit]
      rw [this]; simp
    · rw [abs_mul]
      have := bound (i + 1) (by omega) (by omega)
      calc _ ≤ |nakSup x i| * (t * w (i + 1)) := mul_le_mul_of_nonneg_left this (abs_nonneg _)
        _ = _ := by ring
  have dpos : 0 < nakDiag x i := lt_of_le_of_lt (add_nonneg (abs_nonneg _) (abs_nonneg _)) (nak_dominant h i1 i3)
  have mid : |nakDiag x i * (nakInner x y i - m i)| = t * (nakDiag x i * w i) := by rw [abs_mul, ei, abs_of_pos dpos]; ring
  have e : nakDiag x i * (nakInner x y i - m i) = (nakRhs x y i - (nakSub x i * m (i - 1) + nakDiag x i * m i + nakSup x i * m (i + 1)))
      - nakSub x i * (nakInner x y (i - 1) - m (i - 1)) - nakSup x i * (nakInner x y (i + 1) - m (i + 1)) := by rw [← hs]; ring
  have tri : |nakDiag x i * (nakInner x y i - m i)| ≤ |nakRhs x y i - (nakSub x i * m (i - 1) + nakDiag x i * m i + nakSup x i * m (i + 1))|
      + |nakSub x i * (nakInner x y (i - 1) - m (i - 1))| + |nakSup x i * (nakInner x y (i + 1) - m (i + 1))| := by
    rw [e]
    refine (abs_sub _ _).trans ?_
    gcongr
    exact abs_sub _ _
  rw [mid] at tri
  have pos : 0 < nakDiag x i * w i - |nakSub x i| * w (i - 1) - |nakSup x i| * w (i + 1) := lt_of_le_of_lt (abs_nonneg _) hrow
  have : t * (nakDiag x i * w i - |nakSub x i| * w (i - 1) - |nakSup x i| * w (i + 1)) < 1 * (nakDiag x i * w i - |nakSub x i| * w (i - 1) - |nakSup x i| * w (i + 1)) := by
    linarith
  have := lt_of_mul_lt_mul_right this pos.le
  linarith

/-- a point of a curve with an approximate second derivative and its radius -/
structure SRow where
  x : ℚ
  y : ℚ
  m : ℚ
  w : ℚ

namespace SRow

def slope (a b : SRow) : ℚ := (b.y - a.y) / (b.x - a.x)

/-- the check of an interior row away from the ends -/
def midOK (a b c : SRow) : Bool :=
  let g := b.x - a.x
  let k := c.x - b.x
  decide (|6 * (slope b c - slope a b) - (g * a.m + 2 * (g + k) * b.m + k * c.m)| < 2 * (g + k) * b.w - g * a.w - k * c.w)

/-- the check of the three rows at an end; `a` is the first or the last row, the distances are positive -/
def endOK (a b c : SRow) (g k rhs : ℚ) : Bool :=
  decide (|rhs - ((2 * (g + k) + g * (g + k) / k) * b.m + (k - g * g / k) * c.m)| < (2 * (g + k) + g * (g + k) / k) * b.w - |k - g * g / k| * c.w) &&
  decide (|a.m - ((g + k) * b.m - g * c.m) / k| + ((g + k) * b.w + g * c.w) / k ≤ a.w)

def firstOK : List SRow → Bool
  | a :: b :: c :: _ => endOK a b c (b.x - a.x) (c.x - b.x) (6 * (slope b c - slope a b))
  | _ => false

def lastOK : List SRow → Bool
  | a :: b :: c :: _ => endOK a b c (a.x - b.x) (b.x - c.x) (6 * (slope b a - slope c b))
  | _ => false

def all3 (p : SRow → SRow → SRow → Bool) : List SRow → Bool
  | a :: b :: c :: r => p a b c && all3 p (b :: c :: r)
  | _ => true

def incr : List SRow → Bool
  | a :: b :: r => decide (a.x < b.x) && incr (b :: r)
  | _ => true

end SRow

/-- the whole check -/
def rowsOK (l : List SRow) : Bool :=
  decide (6 ≤ l.length) && SRow.incr l && l.all (fun r => decide (0 < r.w)) && SRow.firstOK l && SRow.lastOK l.reverse &&
    SRow.all3 SRow.midOK (l.tail.dropLast)

noncomputable def rowsX (l : List SRow) : List ℝ := l.map (fun r => (r.x : ℝ))
noncomputable def rowsY (l : List SRow) : List ℝ := l.map (fun r => (r.y : ℝ))

/-- row `i` -/
def rowAt (l : List SRow) (i : Nat) : SRow := l[i]?.getD ⟨0, 0, 0, 0⟩

theorem ent_rowsX (l : List SRow) (i : Nat) : ent (rowsX l) i = ((rowAt l i).x : ℝ) := by
  simp only [ent, rowsX, rowAt, List.getD_eq_getElem?_getD, List.getElem?_map]
  cases l[i]? <;> simp [real_lit]

theorem ent_rowsY (l : List SRow) (i : Nat) : ent (rowsY l) i = ((rowAt l i).y : ℝ) := by
  simp only [ent, rowsY, rowAt, List.getD_eq_getElem?_getD, List.getElem?_map]
  cases l[i]? <;> simp [real_lit]

theorem rowAt_eq {l : List SRow} {i : Nat} (h : i < l.length) : rowAt l i = l[i] := by simp [rowAt, h]

theorem all3_at {p : SRow → SRow → SRow → Bool} : ∀ {l : List SRow}, SRow.all3 p l = true → ∀ i, i + 2 < l.length →
    p (rowAt l i) (rowAt l (i + 1)) (rowAt l (i + 2)) = true
  | a :: b :: c :: r, h, i, hi => by
    simp only [SRow.all3, Bool.and_eq_true] at h
    cases i with
    | zero => simpa [rowAt] using h.1
    | succ i =>
      have := all3_at h.2 i (by simpa using hi)
      simpa [rowAt] using this
  | [], _, _, hi => by simp at hi
  | [_], _, _, hi => by simp at hi
  | [_, _], _, _, hi => by simp at hi

theorem incr_pairwise : ∀ {l : List SRow}, SRow.incr l = true → l.IsChain (fun a b => a.x < b.x)
  | a :: b :: r, h => by
    simp only [SRow.incr, Bool.and_eq_true, decide_eq_true_eq] at h
    exact List.IsChain.cons_cons h.1 (incr_pairwise h.2)
  | [], _ => List.IsChain.nil
  | [_], _ => List.IsChain.singleton _

theorem rowAt_mid {l : List SRow} {i : Nat} (h : i + 2 < l.length) : rowAt l.tail.dropLast i = rowAt l (i + 1) := by
  rw [rowAt_eq (by simp; omega), rowAt_eq (by omega)]
  simp

theorem rowAt_rev {l : List SRow} {i : Nat} (h : i < l.length) : rowAt l.reverse i = rowAt l (l.length - 1 - i) := by
  rw [rowAt_eq (by simpa using h), rowAt_eq (by omega)]
  simp

theorem firstOK_at {l : List SRow} (h : SRow.firstOK l = true) : SRow.endOK (rowAt l 0) (rowAt l 1) (rowAt l 2)
    ((rowAt l 1).x - (rowAt l 0).x) ((rowAt l 2).x - (rowAt l 1).x) (6 * (SRow.slope (rowAt l 1) (rowAt l 2) - SRow.slope (rowAt l 0) (rowAt l 1))) = true := by
  match l, h with
  | a :: b :: c :: r, h => simpa [rowAt, SRow.firstOK] using h

theorem lastOK_at {l : List SRow} (h : SRow.lastOK l = true) : SRow.endOK (rowAt l 0) (rowAt l 1) (rowAt l 2)
    ((rowAt l 0).x - (rowAt l 1).x) ((rowAt l 1).x - (rowAt l 2).x) (6 * (SRow.slope (rowAt l 1) (rowAt l 0) - SRow.slope (rowAt l 2) (rowAt l 1))) = true := by
  match l, h with
  | a :: b :: c :: r, h => simpa [rowAt, SRow.lastOK] using h

/-- what the check at an end gives -/
theorem endOK_iff {a b c : SRow} {g k rhs : ℚ} (h : SRow.endOK a b c g k rhs = true) :
    |(rhs : ℝ) - ((2 * (g + k) + g * (g + k) / k) * b.m + (k - g * g / k) * c.m)| < (2 * (g + k) + g * (g + k) / k) * b.w - |(k - g * g / k : ℝ)| * c.w ∧
      |(a.m : ℝ) - ((g + k) * b.m - g * c.m) / k| + ((g + k) * b.w + g * c.w) / k ≤ a.w := by
  simp only [SRow.endOK, Bool.and_eq_true, decide_eq_true_eq] at h
  exact ⟨by exact_mod_cast h.1, by exact_mod_cast h.2⟩

theorem midOK_iff {a b c : SRow} (h : SRow.midOK a b c = true) :
    |6 * (((c.y : ℝ) - b.y) / (c.x - b.x) - (b.y - a.y) / (b.x - a.x)) - ((b.x - a.x) * a.m + 2 * ((b.x - a.x) + (c.x - b.x)) * b.m + (c.x - b.x) * c.m)| <
      2 * (((b.x : ℝ) - a.x) + (c.x - b.x)) * b.w - (b.x - a.x) * a.w - (c.x - b.x) * c.w := by
  have h := of_decide_eq_true h
  simp only [SRow.slope] at h
  exact_mod_cast h

theorem end_near {m0 w0 m1 w1 m2 w2 M1 M2 g k : ℝ} (hg : 0 < g) (hk : 0 < k) (h1 : |M1 - m1| ≤ w1) (h2 : |M2 - m2| ≤ w2)
    (h : |m0 - ((g + k) * m1 - g * m2) / k| + ((g + k) * w1 + g * w2) / k ≤ w0) : |((g + k) * M1 - g * M2) / k - m0| ≤ w0 := by
  have e : ((g + k) * M1 - g * M2) / k - m0 = -(m0 - ((g + k) * m1 - g * m2) / k) + ((g + k) * (M1 - m1) + g * -(M2 - m2)) / k := by ring
  have a1 : |(g + k) * (M1 - m1) + g * -(M2 - m2)| ≤ (g + k) * w1 + g * w2 := by
    refine (abs_add_le _ _).trans ?_
    rw [abs_mul, abs_mul, abs_neg, abs_of_pos hg, abs_of_pos (by linarith : 0 < g + k)]
    have : 0 < g + k := by linarith
    gcongr
  rw [e]
  refine (abs_add_le _ _).trans (le_trans ?_ h)
  rw [abs_neg, abs_div, abs_of_pos hk]
  gcongr

/-- the check is sound -/
theorem rows_sound {l : List SRow} (h : rowsOK l = true) : Knots (rowsX l) ∧
    ∀ i, i < l.length → |nakMoment (rowsX l) (rowsY l) i - ((rowAt l i).m : ℝ)| ≤ ((rowAt l i).w : ℝ) := by
  simp only [rowsOK, Bool.and_eq_true, decide_eq_true_eq, List.all_eq_true] at h
  obtain ⟨⟨⟨⟨⟨h6, hinc⟩, hw⟩, hf⟩, hl⟩, hm⟩ := h
  have hX : (rowsX l).length = l.length := by simp [rowsX]
  have trans : IsTrans SRow (fun a b => a.x < b.x) := ⟨fun _ _ _ => lt_trans⟩
  have K : Knots (rowsX l) := by
    refine ⟨?_, by omega⟩
    unfold rowsX
    rw [List.pairwise_map]
    exact (List.isChain_iff_pairwise.mp (incr_pairwise hinc)).imp fun {a b} hab => by exact_mod_cast hab
  have hg : ∀ i, gapAt (rowsX l) i = ((rowAt l (i + 1)).x : ℝ) - (rowAt l i).x := fun i => by rw [gapAt, ent_rowsX, ent_rowsX]
  have hwp : ∀ i, i < l.length → (0 : ℝ) < (rowAt l i).w := fun i hi => by rw [rowAt_eq hi]; exact_mod_cast hw _ (List.getElem_mem hi)
  obtain ⟨n, hn⟩ : ∃ n, l.length = n + 6 := ⟨l.length - 6, by omega⟩
  have F := endOK_iff (firstOK_at hf)
  have L := endOK_iff (lastOK_at hl)
  rw [rowAt_rev (by omega), rowAt_rev (by omega), rowAt_rev (by omega), hn,
    show n + 6 - 1 - 0 = n + 5 by omega, show n + 6 - 1 - 1 = n + 4 by omega, show n + 6 - 1 - 2 = n + 3 by omega] at L
  have near := nak_near K (rowsY l) (fun i => ((rowAt l i).m : ℝ)) (fun i => ((rowAt l i).w : ℝ)) (fun i i1 i2 => hwp i (by omega)) (by
    intro i i1 i2
    have p0 := gap_pos K (i := i - 1) (by omega)
    have p1 := gap_pos K (i := i) (by omega)
    rw [hX] at i2
    by_cases e1 : i = 1
    · subst e1
      have en : ¬ (1 + 2 = (rowsX l).length) := by omega
      simp only [nakSub, nakSup, nakDiag, nakRhs, if_true, if_neg en, real_lit, Rat.cast_zero, Rat.cast_ofNat, hg, ent_rowsY, add_zero, abs_zero, zero_mul, zero_add,
        sub_zero]
      have := F.1
      simp only [SRow.slope] at this
      push_cast at this
      exact this
    · by_cases e2 : i = n + 4
      · subst e2
        have en : n + 4 + 2 = (rowsX l).length := by omega
        simp only [nakSub, nakSup, nakDiag, nakRhs, if_neg e1, if_pos en, real_lit, Rat.cast_zero, Rat.cast_ofNat, hg, ent_rowsY, add_zero, abs_zero, zero_mul,
          sub_zero, show n + 4 - 1 = n + 3 by omega, show n + 3 + 1 = n + 4 by omega, show n + 4 + 1 = n + 5 by omega]
        have := L.1
        simp only [SRow.slope] at this
        push_cast at this
        convert this using 1
        · congr 1; ring
        · ring
      · obtain ⟨k, rfl⟩ : ∃ k, i = k + 2 := ⟨i - 2, by omega⟩
        have en : ¬ (k + 2 + 2 = (rowsX l).length) := by omega
        have M := all3_at hm k (by simp; omega)
        rw [rowAt_mid (by omega), rowAt_mid (by omega), rowAt_mid (by omega)] at M
        have M := midOK_iff M
        rw [abs_of_pos (a := nakSub _ _), abs_of_pos (a := nakSup _ _)]
        · simp only [nakSub, nakSup, nakDiag, nakRhs, if_neg e1, if_neg en, real_lit, Rat.cast_zero, Rat.cast_ofNat, hg, ent_rowsY, add_zero,
            show k + 2 - 1 = k + 1 by omega]
          exact M
        · simpa only [nakSup, if_neg e1, if_neg en] using p1
        · simpa only [nakSub, if_neg e1, if_neg en] using p0)
  refine ⟨K, fun i hi => ?_⟩
  rw [nakMoment]
  split_ifs with c1 c2
  · subst c1
    rw [hg, hg]
    have p0 := gap_pos K (i := 0) (by omega)
    have p1 := gap_pos K (i := 1) (by omega)
    rw [hg] at p0 p1
    refine end_near p0 p1 (near 1 le_rfl (by omega)) (near 2 (by omega) (by omega)) ?_
    have := F.2
    push_cast at this
    exact this
  · obtain rfl : i = n + 5 := by omega
    rw [show n + 5 - 1 = n + 4 by omega, show n + 5 - 2 = n + 3 by omega, hg, hg]
    have p0 := gap_pos K (i := n + 4) (by omega)
    have p1 := gap_pos K (i := n + 3) (by omega)
    rw [hg] at p0 p1
    refine end_near p0 p1 (near (n + 4) (by omega) (by omega)) (near (n + 3) (by omega) (by omega)) ?_
    have := L.2
    push_cast at this
    exact this
  · exact near i (by omega) (by omega)

/-- enclosure of the spline between two rows: centre and radius -/
def SRow.val (a b : SRow) (q : ℚ) : ℚ × ℚ :=
  let h := b.x - a.x
  let u := b.x - q
  let v := q - a.x
  let cu := u * v * (h + u) / (6 * h)
  let cv := u * v * (h + v) / (6 * h)
  ((a.y * u + b.y * v) / h - cu * a.m - cv * b.m, cu * a.w + cv * b.w)

theorem val_sound {l : List SRow} (h : rowsOK l = true) {i : Nat} (hi : i + 1 < l.length) {q : ℚ} (h1 : (rowAt l i).x ≤ q) (h2 : q ≤ (rowAt l (i + 1)).x) :
    |nakSpline (rowsX l) (rowsY l) (q : ℝ) - (((rowAt l i).val (rowAt l (i + 1)) q).1 : ℝ)| ≤ (((rowAt l i).val (rowAt l (i + 1)) q).2 : ℝ) := by
  obtain ⟨K, near⟩ := rows_sound h
  have hX : (rowsX l).length = l.length := by simp [rowsX]
  have n0 := near i (by omega)
  have n1 := near (i + 1) hi
  rw [nakSpline_piece K (rowsY l) (i := i) (by omega) (by rw [ent_rowsX]; exact_mod_cast h1) (by rw [ent_rowsX]; exact_mod_cast h2)]
  have p := gap_pos K (i := i) (by omega)
  rw [nakCub, ← nakPiece_cub, nakPiece]
  simp only [gapAt, ent_rowsX, ent_rowsY] at p ⊢
  generalize nakMoment (rowsX l) (rowsY l) i = M0 at *
  generalize nakMoment (rowsX l) (rowsY l) (i + 1) = M1 at *
  generalize rowAt l i = a at *
  generalize rowAt l (i + 1) = b at *
  have u0 : (0 : ℝ) ≤ b.x - q := by have : (q : ℝ) ≤ b.x := by exact_mod_cast h2
                                    linarith
  have v0 : (0 : ℝ) ≤ q - a.x := by have : (a.x : ℝ) ≤ q := by exact_mod_cast h1
                                    linarith
  simp only [SRow.val, real_lit, Rat.cast_ofNat]
  push_cast
  set H : ℝ := (b.x : ℝ) - a.x with hH
  set u : ℝ := (b.x : ℝ) - q with hu
  set v : ℝ := (q : ℝ) - a.x with hv
  have hs : H = u + v := by rw [hH, hu, hv]; ring
  have cu : 0 ≤ u * v * (H + u) / (6 * H) := by positivity
  have cv : 0 ≤ u * v * (H + v) / (6 * H) := by positivity
  have e : M0 * (u * u * u) / (6 * H) + M1 * (v * v * v) / (6 * H) + (a.y / H - M0 * H / 6) * u + (b.y / H - M1 * H / 6) * v
      - ((a.y * u + b.y * v) / H - u * v * (H + u) / (6 * H) * a.m - u * v * (H + v) / (6 * H) * b.m)
      = -(u * v * (H + u) / (6 * H) * (M0 - a.m) + u * v * (H + v) / (6 * H) * (M1 - b.m)) := by
    have hH0 : H ≠ 0 := p.ne'
    have e1 : M0 * (u * u * u) / (6 * H) - M0 * H / 6 * u = -(u * v * (H + u) / (6 * H) * M0) := by
      field_simp
      rw [hs]; ring
    have e2 : M1 * (v * v * v) / (6 * H) - M1 * H / 6 * v = -(u * v * (H + v) / (6 * H) * M1) := by
      field_simp
      rw [hs]; ring
    have e3 : (a.y * u + b.y * v) / H = (a.y : ℝ) / H * u + b.y / H * v := by ring
    rw [e3]
    linear_combination e1 + e2
  rw [e, abs_neg]
  refine (abs_add_le _ _).trans ?_
  rw [abs_mul, abs_mul, abs_of_nonneg cu, abs_of_nonneg cv]
  gcongr

/-- enclosures at an increasing list of points, walking along the rows -/
def walk : List SRow → List ℚ → List (ℚ × ℚ)
  | a :: b :: r, qs => (qs.takeWhile (fun q => decide (q ≤ b.x))).map (a.val b) ++ walk (b :: r) (qs.dropWhile (fun q => decide (q ≤ b.x)))
  | _, _ => []

theorem dropWhile_gt {c : ℚ} : ∀ {qs : List ℚ}, qs.Pairwise (· ≤ ·) → ∀ q ∈ qs.dropWhile (fun q => decide (q ≤ c)), c < q
  | [], _, q, hq => by simp at hq
  | a :: r, hs, q, hq => by
    rw [List.dropWhile_cons] at hq
    split_ifs at hq with ha
    · exact dropWhile_gt (List.pairwise_cons.mp hs).2 q hq
    · have ha : c < a := by simpa using ha
      rcases List.mem_cons.mp hq with rfl | hq
      · exact ha
      · exact lt_of_lt_of_le ha ((List.pairwise_cons.mp hs).1 q hq)

theorem takeWhile_le {c : ℚ} : ∀ {qs : List ℚ}, ∀ q ∈ qs.takeWhile (fun q => decide (q ≤ c)), q ≤ c
  | [], q, hq => by simp at hq
  | a :: r, q, hq => by
    rw [List.takeWhile_cons] at hq
    split_ifs at hq with ha
    · rcases List.mem_cons.mp hq with rfl | hq
      · simpa using ha
      · exact takeWhile_le q hq
    · simp at hq

/-- a centre and a radius enclose a number -/
def Encl (v : ℝ) (e : ℚ × ℚ) : Prop := |v - (e.1 : ℝ)| ≤ (e.2 : ℝ)

theorem walk_from {l : List SRow} (h : rowsOK l = true) : ∀ (r : List SRow) (k : Nat) (qs : List ℚ), l.drop k = r → k < l.length →
    (∀ q ∈ qs, (rowAt l k).x ≤ q) → (k + 1 = l.length → ∀ q ∈ qs, (rowAt l k).x < q) → (∀ q ∈ qs, q ≤ (rowAt l (l.length - 1)).x) → qs.Pairwise (· ≤ ·) →
    List.Forall₂ (fun (q : ℚ) (e : ℚ × ℚ) => Encl (nakSpline (rowsX l) (rowsY l) (q : ℝ)) e) qs (walk r qs)
  | [], k, qs, hd, hk, _, _, _, _ => by
    have := congrArg List.length hd
    simp at this
    omega
  | [a], k, qs, hd, hk, _, h2, h3, _ => by
    have e := congrArg List.length hd
    simp at e
    have ek : l.length - 1 = k := by omega
    cases qs with
    | nil => exact List.Forall₂.nil
    | cons q t =>
      have u := h2 (by omega) q (by simp)
      have v := h3 q (by simp)
      rw [ek] at v
      exact absurd u (not_lt.mpr v)
  | a :: b :: r, k, qs, hd, hk, h1, h2, h3, hs => by
    have e := congrArg List.length hd
    simp at e
    have ea : rowAt l k = a := by
      have := congrArg (fun t : List SRow => t[0]?) hd
      simp at this
      simp [rowAt, this]
    have eb : rowAt l (k + 1) = b := by
      have := congrArg (fun t : List SRow => t[1]?) hd
      simp at this
      simp [rowAt, this]
    have ed : l.drop (k + 1) = b :: r := by
      have := congrArg List.tail hd
      simpa using this
    have sub : ∀ q ∈ qs.dropWhile (fun q => decide (q ≤ b.x)), q ∈ qs := fun q hq => (List.dropWhile_sublist _).subset hq
    have gt := dropWhile_gt (c := b.x) hs
    have ih := walk_from h (b :: r) (k + 1) (qs.dropWhile (fun q => decide (q ≤ b.x))) ed (by omega) (fun q hq => by rw [eb]; exact (gt q hq).le)
      (fun _ q hq => by rw [eb]; exact gt q hq) (fun q hq => h3 q (sub q hq)) (hs.sublist (List.dropWhile_sublist _))
    have first : List.Forall₂ (fun (q : ℚ) (e : ℚ × ℚ) => Encl (nakSpline (rowsX l) (rowsY l) (q : ℝ)) e) (qs.takeWhile (fun q => decide (q ≤ b.x)))
        ((qs.takeWhile (fun q => decide (q ≤ b.x))).map (a.val b)) := by
      rw [List.forall₂_map_right_iff, List.forall₂_same]
      intro q hq
      have hqb : q ≤ b.x := takeWhile_le q hq
      have hqa : a.x ≤ q := by rw [← ea]; exact h1 q ((List.takeWhile_sublist _).subset hq)
      have := val_sound h (i := k) (by omega) (q := q) (by rw [ea]; exact hqa) (by rw [eb]; exact hqb)
      rw [ea, eb] at this
      exact this
    rw [walk]
    conv => arg 2; rw [← List.takeWhile_append_dropWhile (p := fun q => decide (q ≤ b.x)) (l := qs)]
    exact List.rel_append first ih

/-- the enclosures hold at every point of an increasing list inside the range of the rows -/
theorem walk_sound {l : List SRow} (h : rowsOK l = true) {qs : List ℚ} (hs : qs.Pairwise (· ≤ ·)) (h1 : ∀ q ∈ qs, (rowAt l 0).x ≤ q)
    (h2 : ∀ q ∈ qs, q ≤ (rowAt l (l.length - 1)).x) :
    List.Forall₂ (fun (q : ℚ) (e : ℚ × ℚ) => Encl (nakSpline (rowsX l) (rowsY l) (q : ℝ)) e) qs (walk l qs) := by
  have h6 : 6 ≤ l.length := by
    simp only [rowsOK, Bool.and_eq_true, decide_eq_true_eq] at h
    exact h.1.1.1.1.1
  exact walk_from h l 0 qs rfl (by omega) h1 (fun e => by omega) h2 hs

end KC
