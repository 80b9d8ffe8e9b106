import Verif.Model.Response
import Verif.Lemmas.Loops

/-! Sorting, `np.unique` and interpolator construction over the reals. -/

namespace KC
open Spec

@[simp] theorem eqb_real (a b : ℝ) : eqb a b = decide (a = b) := by
  simp only [eqb, real_leb]
  by_cases h : a = b
  · simp [h]
  · simp only [h, decide_false, Bool.and_eq_false_iff, decide_eq_false_iff_not, not_le]
    rcases lt_or_gt_of_ne h with h | h
    · right; exact h
    · left; exact h

theorem leb_trans_real (a b c : ℝ) : leb a b → leb b c → leb a c := by
  simp only [real_leb, decide_eq_true_eq]; exact le_trans

theorem leb_total_real (a b : ℝ) : leb a b || leb b a := by
  simp only [real_leb, Bool.or_eq_true, decide_eq_true_eq]; exact le_total a b

theorem argsort_perm {α : Type} [Arith α] (xs : List α) : (argsort xs).Perm (List.range xs.length) :=
  List.mergeSort_perm _ _

theorem argsort_length {α : Type} [Arith α] (xs : List α) : (argsort xs).length = xs.length := by
  rw [(argsort_perm xs).length_eq, List.length_range]

theorem argsort_lt {α : Type} [Arith α] (xs : List α) : ∀ i ∈ argsort xs, i < xs.length := by
  intro i hi
  have := (argsort_perm xs).mem_iff.mp hi
  simpa using this

theorem argsort_pairwise (xs : List ℝ) : (argsort xs).Pairwise (fun i j => ent xs i ≤ ent xs j) := by
  have := List.pairwise_mergeSort (le := fun i j => leb (ent xs i) (ent xs j))
    (fun a b c h1 h2 => leb_trans_real _ _ _ h1 h2) (fun a b => leb_total_real _ _) (List.range xs.length)
  refine this.imp ?_
  intro a b h
  simpa using h

theorem gather_eq_map {α : Type} [Arith α] (xs : List α) (idx : List Nat) : gather xs idx = idx.map (ent xs) := rfl

theorem gather_length {α : Type} [Arith α] (xs : List α) (idx : List Nat) : (gather xs idx).length = idx.length := by
  simp [gather]

theorem gather_sorted (xs : List ℝ) : (gather xs (argsort xs)).Pairwise (· ≤ ·) := by
  rw [gather_eq_map, List.pairwise_map]
  exact argsort_pairwise xs

theorem map_ent_range {α : Type} [Arith α] (xs : List α) : (List.range xs.length).map (ent xs) = xs := by
  apply List.ext_getElem
  · simp
  · intro i h1 h2
    simp [ent, h2]

theorem gather_range {α : Type} [Arith α] (xs : List α) (n : Nat) (h : xs.length = n) :
    gather xs (List.range n) = xs := by
  rw [gather_eq_map, ← h, map_ent_range]

theorem gather_perm (xs : List ℝ) : (gather xs (argsort xs)).Perm xs := by
  rw [gather_eq_map]
  have := (argsort_perm xs).map (ent xs)
  rwa [map_ent_range] at this

theorem argsort_of_sorted (xs : List ℝ) (h : xs.Pairwise (· ≤ ·)) : argsort xs = List.range xs.length := by
  apply List.mergeSort_of_pairwise
  rw [List.pairwise_iff_getElem]
  intro i j hi hj hij
  simp only [List.length_range] at hi hj
  simp only [List.getElem_range, real_leb, decide_eq_true_eq]
  have := (List.pairwise_iff_getElem.mp h) i j hi hj hij
  simpa [ent, hi, hj] using this

theorem noDup_iff (xs : List ℝ) (h : xs.Pairwise (· ≤ ·)) : noDup xs = true ↔ xs.Pairwise (· < ·) := by
  induction xs with
  | nil => simp [noDup]
  | cons a l ih =>
    cases l with
    | nil => simp [noDup]
    | cons b l =>
      have hp := List.pairwise_cons.mp h
      simp only [noDup, eqb_real, Bool.and_eq_true, Bool.not_eq_true', decide_eq_false_iff_not, ih hp.2]
      rw [List.pairwise_cons (a := a)]
      constructor
      · rintro ⟨hne, hlt⟩
        refine ⟨?_, hlt⟩
        have hab : a < b := lt_of_le_of_ne (hp.1 b (by simp)) hne
        intro c hc
        simp only [List.mem_cons] at hc
        rcases hc with rfl | hc
        · exact hab
        · exact hab.trans ((List.pairwise_cons.mp hlt).1 c hc)
      · rintro ⟨h1, h2⟩
        exact ⟨(h1 b (by simp)).ne, h2⟩

/-- An interpolator on strictly increasing abscissae keeps the points as they are. -/
theorem mkInterp_strict (x : List ℝ) (ys : List (List ℝ)) (hx : x.Pairwise (· < ·)) (h4 : 4 ≤ x.length)
    (hy : ∀ row ∈ ys, row.length = x.length) : mkInterp x ys = .ok ⟨x, ys⟩ := by
  have hs : x.Pairwise (· ≤ ·) := hx.imp le_of_lt
  have hg : gather x (argsort x) = x := by rw [argsort_of_sorted x hs, gather_range x _ rfl]
  have hgy : ys.map (fun row => gather row (argsort x)) = ys := by
    rw [argsort_of_sorted x hs]
    conv_rhs => rw [← List.map_id ys]
    apply List.map_congr_left
    intro row hrow
    simpa using gather_range row _ (hy row hrow)
  unfold mkInterp
  rw [hg, hgy, if_pos hy, if_pos h4, if_pos ((noDup_iff x hs).mpr hx)]

theorem mkInterp_ok {x : List ℝ} {ys : List (List ℝ)} {itp : Interp ℝ} (h : mkInterp x ys = .ok itp) :
    itp.x = gather x (argsort x) ∧ itp.ys = ys.map (fun row => gather row (argsort x)) ∧
      itp.x.Pairwise (· < ·) ∧ 4 ≤ x.length ∧ ∀ row ∈ ys, row.length = x.length := by
  unfold mkInterp at h
  split at h
  · rename_i h1
    split at h
    · rename_i h2
      split at h
      · rename_i h3
        cases h
        exact ⟨rfl, rfl, (noDup_iff _ (gather_sorted x)).mp h3, h2, h1⟩
      · cases h
    · cases h
  · cases h

/-- In particular, for sorted abscissae. -/
theorem mkInterp_ok_sorted {x : List ℝ} {ys : List (List ℝ)} {itp : Interp ℝ} (hs : x.Pairwise (· ≤ ·))
    (h : mkInterp x ys = .ok itp) : itp = ⟨x, ys⟩ ∧ x.Pairwise (· < ·) ∧ 4 ≤ x.length ∧
      ∀ row ∈ ys, row.length = x.length := by
  obtain ⟨h1, h2, h3, h4, h5⟩ := mkInterp_ok h
  have hg : gather x (argsort x) = x := by rw [argsort_of_sorted x hs, gather_range x _ rfl]
  rw [h1, hg] at h3
  have h6 := mkInterp_strict x ys h3 h4 h5
  rw [h] at h6
  cases h6
  exact ⟨rfl, h3, h4, h5⟩

theorem dedupAdj_mem (l : List ℝ) (a : ℝ) : a ∈ dedupAdj l ↔ a ∈ l := by
  induction l with
  | nil => simp [dedupAdj]
  | cons b l ih =>
    cases l with
    | nil => simp [dedupAdj]
    | cons c l =>
      simp only [dedupAdj, eqb_real, decide_eq_true_eq]
      split
      · rename_i h; subst h
        rw [ih]; simp
      · rw [List.mem_cons, ih, List.mem_cons (b := b)]

theorem dedupAdj_strict (l : List ℝ) (h : l.Pairwise (· ≤ ·)) : (dedupAdj l).Pairwise (· < ·) := by
  induction l with
  | nil => simp [dedupAdj]
  | cons b l ih =>
    cases l with
    | nil => simp [dedupAdj]
    | cons c l =>
      have hp := List.pairwise_cons.mp h
      simp only [dedupAdj, eqb_real, decide_eq_true_eq]
      split
      · exact ih hp.2
      · rename_i hne
        rw [List.pairwise_cons]
        refine ⟨?_, ih hp.2⟩
        intro d hd
        rw [dedupAdj_mem] at hd
        have hbc : b < c := lt_of_le_of_ne (hp.1 c (by simp)) hne
        simp only [List.mem_cons] at hd
        rcases hd with rfl | hd
        · exact hbc
        · exact lt_of_lt_of_le hbc ((List.pairwise_cons.mp hp.2).1 d hd)

theorem npUnique_mem (l : List ℝ) (a : ℝ) : a ∈ npUnique l ↔ a ∈ l := by
  rw [npUnique, dedupAdj_mem, List.mem_mergeSort]

theorem npUnique_strict (l : List ℝ) : (npUnique l).Pairwise (· < ·) := by
  apply dedupAdj_strict
  have := List.pairwise_mergeSort (le := fun a b : ℝ => leb a b) leb_trans_real leb_total_real l
  refine this.imp ?_
  intro a b h
  simpa using h

theorem strict_ext {a b : List ℝ} (ha : a.Pairwise (· < ·)) (hb : b.Pairwise (· < ·)) (h : ∀ x, x ∈ a ↔ x ∈ b) :
    a = b := by
  have hp : a.Perm b := by
    rw [List.perm_ext_iff_of_nodup (ha.imp (fun h => h.ne)) (hb.imp (fun h => h.ne))]
    exact h
  exact hp.eq_of_pairwise (le := (· < ·)) (fun _ _ _ _ h1 h2 => absurd h2 (lt_asymm h1)) ha hb

/-- Scaling by a positive constant commutes with `np.unique`. -/
theorem npUnique_scale (l : List ℝ) (c : ℝ) (hc : 0 < c) :
    npUnique (l.map (fun x => x * c)) = (npUnique l).map (fun x => x * c) := by
  apply strict_ext (npUnique_strict _)
  · rw [List.pairwise_map]
    exact (npUnique_strict l).imp (fun h => mul_lt_mul_of_pos_right h hc)
  · intro x
    simp only [npUnique_mem, List.mem_map]

end KC
