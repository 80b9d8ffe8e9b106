import Verif.Lemmas.Sort
import Verif.Lemmas.Trap

/-! The integration grid of `Response.project`. -/

namespace KC
open Spec

theorem mem_maskIdx (mask : List Bool) (i : Nat) : i ∈ maskIdx mask ↔ mask[i]? = some true := by
  simp only [maskIdx, List.mem_filter, List.mem_range, List.getD_eq_getElem?_getD]
  constructor
  · rintro ⟨h, h2⟩
    rw [List.getElem?_eq_getElem h] at h2 ⊢
    simpa using h2
  · intro h
    obtain ⟨h1, h2⟩ := List.getElem?_eq_some_iff.mp h
    refine ⟨h1, ?_⟩
    simp [h]

theorem maskIdx_sorted (mask : List Bool) : (maskIdx mask).Pairwise (· < ·) := by
  unfold maskIdx
  exact List.Pairwise.filter _ List.pairwise_lt_range

theorem maskIdx_head {mask : List Bool} {i : Nat} (h : (maskIdx mask).head? = some i) :
    mask[i]? = some true ∧ ∀ j, mask[j]? = some true → i ≤ j := by
  have hs := maskIdx_sorted mask
  cases hm : maskIdx mask with
  | nil => rw [hm] at h; simp at h
  | cons a l =>
    rw [hm] at h hs
    simp only [List.head?_cons, Option.some.injEq] at h
    subst h
    refine ⟨(mem_maskIdx _ _).mp (by rw [hm]; simp), ?_⟩
    intro j hj
    have := (mem_maskIdx _ _).mpr hj
    rw [hm, List.mem_cons] at this
    rcases this with rfl | h
    · exact le_refl _
    · exact ((List.pairwise_cons.mp hs).1 j h).le

theorem pairwise_getLast {l : List Nat} (h : l.Pairwise (· < ·)) {a : Nat} (ha : l.getLast? = some a) :
    ∀ j ∈ l, j ≤ a := by
  induction l with
  | nil => simp at ha
  | cons b l ih =>
    cases l with
    | nil =>
      simp only [List.getLast?_singleton, Option.some.injEq] at ha
      subst ha; simp
    | cons c l =>
      rw [List.getLast?_cons_cons] at ha
      have := ih (List.pairwise_cons.mp h).2 ha
      intro j hj
      rw [List.mem_cons] at hj
      rcases hj with rfl | hj
      · exact (((List.pairwise_cons.mp h).1 c (by simp)).le).trans (this c (by simp))
      · exact this j hj

theorem maskIdx_last {mask : List Bool} {i : Nat} (h : (maskIdx mask).getLast? = some i) :
    mask[i]? = some true ∧ ∀ j, mask[j]? = some true → j ≤ i :=
  ⟨(mem_maskIdx _ _).mp (List.mem_of_getLast? h),
    fun j hj => pairwise_getLast (maskIdx_sorted mask) h j ((mem_maskIdx _ _).mpr hj)⟩

theorem mem_maskSel {mask : List Bool} {xs : List ℝ} {w : ℝ} :
    w ∈ maskSel mask xs ↔ ∃ i : Nat, mask[i]? = some true ∧ xs[i]? = some w := by
  simp only [maskSel, List.mem_map, List.mem_filter]
  constructor
  · rintro ⟨⟨b, v⟩, ⟨h1, h2⟩, rfl⟩
    obtain ⟨i, hi⟩ := List.mem_iff_getElem?.mp h1
    rw [List.getElem?_zip_eq_some] at hi
    simp only at h2 hi
    subst h2
    exact ⟨i, hi.1, hi.2⟩
  · rintro ⟨i, h1, h2⟩
    refine ⟨(true, w), ⟨?_, rfl⟩, rfl⟩
    rw [List.mem_iff_getElem?]
    exact ⟨i, List.getElem?_zip_eq_some.mpr ⟨h1, h2⟩⟩

theorem keepMask_some (sw rw : List ℝ) (i : Nat) :
    (keepMask sw rw)[i]? = some true ↔ ∃ w, sw[i]? = some w ∧ rw.headD 0 ≤ w ∧ w ≤ rw.getLastD 0 := by
  simp only [keepMask, List.getElem?_map, Option.map_eq_some_iff, Bool.and_eq_true, geb, real_leb, real_lit,
    Rat.cast_zero, decide_eq_true_eq]

/-- The two samples added by lines 379–382. -/
noncomputable def widen (n first last : Nat) (keep : List Bool) : List Bool :=
  let k1 := if 0 < first then keep.set (first - 1) true else keep
  if last < n - 1 then k1.set (last + 1) true else k1

theorem set_true_some (l : List Bool) (k i : Nat) :
    (l.set k true)[i]? = some true ↔ l[i]? = some true ∨ (i = k ∧ k < l.length) := by
  rw [List.getElem?_set]
  by_cases h : k = i
  · subst h
    by_cases hk : k < l.length
    · simp [hk]
    · simp [hk]
  · simp [h, Ne.symm h]

theorem widen_some (n first last : Nat) (keep : List Bool) (hn : keep.length = n) (hf : first < n) (i : Nat) :
    (widen n first last keep)[i]? = some true ↔
      keep[i]? = some true ∨ (i + 1 = first) ∨ (i = last + 1 ∧ last + 1 < n) := by
  unfold widen
  by_cases h1 : 0 < first <;> by_cases h2 : last < n - 1 <;> simp only [h1, h2, if_true, if_false, set_true_some,
    List.length_set] <;> constructor <;> intro h <;> grind

theorem projGrid_none (sw rw : List ℝ) :
    projGrid sw rw = none ↔ ¬ ∃ w ∈ sw, rw.headD 0 ≤ w ∧ w ≤ rw.getLastD 0 := by
  have key : maskIdx (keepMask sw rw) = [] ↔ ¬ ∃ w ∈ sw, rw.headD 0 ≤ w ∧ w ≤ rw.getLastD 0 := by
    rw [List.eq_nil_iff_forall_not_mem]
    simp only [mem_maskIdx, keepMask_some]
    constructor
    · rintro h ⟨w, hw, h1⟩
      obtain ⟨i, hi⟩ := List.mem_iff_getElem?.mp hw
      exact h i ⟨w, hi, h1⟩
    · rintro h i ⟨w, hw, h1⟩
      exact h ⟨w, List.mem_of_getElem? hw, h1⟩
  rw [← key]
  unfold projGrid
  simp only
  cases hm : maskIdx (keepMask sw rw) with
  | nil => simp
  | cons a l =>
    simp only [List.head?_cons, reduceCtorEq, iff_false]
    rw [List.getLast?_cons]
    simp

theorem projGrid_some {sw rw g : List ℝ} (h : projGrid sw rw = some g) : ∃ first last,
    ((keepMask sw rw)[first]? = some true ∧ ∀ j, (keepMask sw rw)[j]? = some true → first ≤ j) ∧
    ((keepMask sw rw)[last]? = some true ∧ ∀ j, (keepMask sw rw)[j]? = some true → j ≤ last) ∧
    g = npUnique (maskSel (widen sw.length first last (keepMask sw rw)) sw ++ rw) := by
  unfold projGrid at h
  simp only at h
  split at h
  · rename_i first last hf hl
    refine ⟨first, last, maskIdx_head hf, maskIdx_last hl, ?_⟩
    simp only [Option.some.injEq] at h
    rw [← h]
    rfl
  · cases h

theorem keepMask_length (sw rw : List ℝ) : (keepMask sw rw).length = sw.length := by simp [keepMask]

theorem projGrid_union {sw rw g : List ℝ} (h : projGrid sw rw = some g) : UnionGrid sw rw g := by
  obtain ⟨first, last, hf, hl, rfl⟩ := projGrid_some h
  have hflt : first < sw.length := by
    have := (List.getElem?_eq_some_iff.mp hf.1).1
    rwa [keepMask_length] at this
  constructor
  · exact npUnique_strict _
  · intro w hw
    rw [npUnique_mem]; simp [hw]
  · intro w hw h1 h2
    rw [npUnique_mem, List.mem_append, mem_maskSel]
    left
    obtain ⟨i, hi⟩ := List.mem_iff_getElem?.mp hw
    refine ⟨i, ?_, hi⟩
    rw [widen_some _ _ _ _ (keepMask_length sw rw) hflt]
    left
    rw [keepMask_some]
    exact ⟨w, hi, h1, h2⟩
  · intro w hw
    rw [npUnique_mem, List.mem_append, mem_maskSel] at hw
    rcases hw with ⟨i, _, hi⟩ | hw
    · right; exact List.mem_of_getElem? hi
    · left; exact hw

/-- Exactly which wavelengths are on the grid, for a spectrum with increasing wavelengths. -/
theorem projGrid_mem {sw rw g : List ℝ} (hs : sw.Pairwise (· ≤ ·)) (h : projGrid sw rw = some g) (w : ℝ) :
    w ∈ g ↔ w ∈ rw ∨ (w ∈ sw ∧ rw.headD 0 ≤ w ∧ w ≤ rw.getLastD 0) ∨
      IsGreatest {v | v ∈ sw ∧ v < rw.headD 0} w ∨ IsLeast {v | v ∈ sw ∧ rw.getLastD 0 < v} w := by
  obtain ⟨first, last, ⟨hf1, hf2⟩, ⟨hl1, hl2⟩, rfl⟩ := projGrid_some h
  have hflt : first < sw.length := by
    have := (List.getElem?_eq_some_iff.mp hf1).1
    rwa [keepMask_length] at this
  have hllt : last < sw.length := by
    have := (List.getElem?_eq_some_iff.mp hl1).1
    rwa [keepMask_length] at this
  rw [keepMask_some] at hf1 hl1
  obtain ⟨wf, hwf, hwf1, hwf2⟩ := hf1
  obtain ⟨wl, hwl, hwl1, hwl2⟩ := hl1
  simp only [keepMask_some] at hf2 hl2
  have hmono : ∀ (i j : Nat) (a b : ℝ), sw[i]? = some a → sw[j]? = some b → i ≤ j → a ≤ b := by
    intro i j a b ha hb hij
    obtain ⟨hi, rfl⟩ := List.getElem?_eq_some_iff.mp ha
    obtain ⟨hj, rfl⟩ := List.getElem?_eq_some_iff.mp hb
    rcases Nat.lt_or_ge i j with hlt | hge
    · exact (List.pairwise_iff_getElem.mp hs) i j hi hj hlt
    · have : i = j := by omega
      subst this; exact le_refl _
  -- below the first kept sample everything is below the band
  have hbelow : ∀ (i : Nat) (a : ℝ), sw[i]? = some a → i < first → a < rw.headD 0 := by
    intro i a ha hi
    by_contra hc
    have h1 := hmono i first a wf ha hwf hi.le
    have := hf2 i ⟨a, ha, not_lt.mp hc, h1.trans hwf2⟩
    omega
  have habove : ∀ (i : Nat) (a : ℝ), sw[i]? = some a → last < i → rw.getLastD 0 < a := by
    intro i a ha hi
    by_contra hc
    have h1 := hmono last i wl a hwl ha hi.le
    have := hl2 i ⟨a, ha, hwl1.trans h1, not_lt.mp hc⟩
    omega
  rw [npUnique_mem, List.mem_append, mem_maskSel, or_comm]
  apply or_congr_right
  simp only [widen_some _ _ _ _ (keepMask_length sw rw) hflt, keepMask_some]
  constructor
  · rintro ⟨i, h1 | h1 | h1, hi⟩
    · obtain ⟨w', hw', h2⟩ := h1
      rw [hi, Option.some.injEq] at hw'
      subst hw'
      exact Or.inl ⟨List.mem_of_getElem? hi, h2⟩
    · right; left
      refine ⟨⟨List.mem_of_getElem? hi, hbelow i w hi (by omega)⟩, ?_⟩
      rintro v ⟨hv, hv2⟩
      obtain ⟨k, hk⟩ := List.mem_iff_getElem?.mp hv
      by_cases hkf : k < first
      · exact hmono k i v w hk hi (by omega)
      · have := hmono first k wf v hwf hk (by omega)
        exact absurd hv2 (not_lt.mpr (hwf1.trans this))
    · right; right
      refine ⟨⟨List.mem_of_getElem? hi, habove i w hi (by omega)⟩, ?_⟩
      rintro v ⟨hv, hv2⟩
      obtain ⟨k, hk⟩ := List.mem_iff_getElem?.mp hv
      by_cases hkf : last < k
      · exact hmono i k w v hi hk (by omega)
      · have := hmono k last v wl hk hwl (by omega)
        exact absurd hv2 (not_lt.mpr (this.trans hwl2))
  · rintro (⟨h1, h2⟩ | ⟨⟨h1, h2⟩, h3⟩ | ⟨⟨h1, h2⟩, h3⟩)
    · obtain ⟨i, hi⟩ := List.mem_iff_getElem?.mp h1
      exact ⟨i, Or.inl ⟨w, hi, h2⟩, hi⟩
    · obtain ⟨i, hi⟩ := List.mem_iff_getElem?.mp h1
      have hilt : i < first := by
        by_contra hc
        have := hmono first i wf w hwf hi (by omega)
        linarith
      have hb : first - 1 < sw.length := by omega
      have e1 : sw[first - 1]? = some (sw[first - 1]'hb) := List.getElem?_eq_getElem _
      have hle := hmono i (first - 1) w _ hi e1 (by omega)
      have hge := h3 ⟨List.mem_of_getElem? e1, hbelow (first - 1) _ e1 (by omega)⟩
      refine ⟨first - 1, Or.inr (Or.inl (by omega)), ?_⟩
      rw [e1, le_antisymm hge hle]
    · obtain ⟨i, hi⟩ := List.mem_iff_getElem?.mp h1
      have hilt : last < i := by
        by_contra hc
        have := hmono i last w wl hi hwl (by omega)
        linarith
      have hi2 := (List.getElem?_eq_some_iff.mp hi).1
      have hb : last + 1 < sw.length := by omega
      have e1 : sw[last + 1]? = some (sw[last + 1]'hb) := List.getElem?_eq_getElem _
      have hle := hmono (last + 1) i _ w e1 hi (by omega)
      have hge := h3 ⟨List.mem_of_getElem? e1, habove (last + 1) _ e1 (by omega)⟩
      refine ⟨last + 1, Or.inr (Or.inr ⟨rfl, hb⟩), ?_⟩
      rw [e1, le_antisymm hle hge]

end KC
