import Verif.Model.Fitter
import Verif.Lemmas.Sort
import Verif.Lemmas.Fwhm
import Verif.Lemmas.MapM

/-! The linear interpolator of the A matrix over the reals. -/

namespace KC

theorem getD_lt {β : Type} {l : List β} {i : Nat} {d : β} (h : i < l.length) : l.getD i d = l[i] := by
  simp [List.getD, h]

theorem isNan_real (a : ℝ) : isNan a = false := by simp [isNan]

theorem searchLeft_real (x : List ℝ) (q : ℝ) : searchLeft x q = (x.takeWhile (fun a => decide (a < q))).length := by
  simp [searchLeft, isNan_real]

theorem searchLeft_le (x : List ℝ) (q : ℝ) : searchLeft x q ≤ x.length := by
  rw [searchLeft_real]; exact (List.takeWhile_sublist _).length_le

theorem ent_before (x : List ℝ) (q : ℝ) {i : Nat} (h : i < searchLeft x q) : ent x i < q := by
  rw [searchLeft_real] at h
  induction x generalizing i with
  | nil => simp at h
  | cons a l ih =>
    rw [List.takeWhile_cons] at h
    by_cases ha : a < q
    · simp only [ha, decide_true, if_true, List.length_cons] at h
      cases i with
      | zero => simpa [ent] using ha
      | succ i => simpa [ent] using ih (by omega)
    · simp [ha] at h

theorem ent_at_search (x : List ℝ) (q : ℝ) (h : searchLeft x q < x.length) : q ≤ ent x (searchLeft x q) := by
  rw [searchLeft_real] at *
  induction x with
  | nil => simp at h
  | cons a l ih =>
    rw [List.takeWhile_cons] at *
    by_cases ha : a < q
    · simp only [ha, decide_true, if_true, List.length_cons] at *
      simpa [ent] using ih (by omega)
    · have ha' := not_lt.mp ha
      simpa [ha, ent] using ha'

/-- `q` lies in the range of the nodes. -/
def InRange (x : List ℝ) (q : ℝ) : Prop := x.headD 0 ≤ q ∧ q ≤ x.getLastD 0

theorem headD_eq_ent (x : List ℝ) : x.headD 0 = ent x 0 := by cases x <;> simp [ent]

theorem getLastD_eq_ent (x : List ℝ) (_ : x ≠ []) : x.getLastD 0 = ent x (x.length - 1) := by
  rw [ent, List.getD, ← List.getLast?_eq_getElem?]
  simp [List.getLastD_eq_getLast?]

/-- The bracketing interval found by the search. -/
theorem bracket_idx {x : List ℝ} (hs : x.Pairwise (· < ·)) (h2 : 2 ≤ x.length) {q : ℝ} (hq : InRange x q) :
    1 ≤ clipIdx x.length (searchLeft x q) ∧ clipIdx x.length (searchLeft x q) < x.length ∧
    ent x (clipIdx x.length (searchLeft x q) - 1) ≤ q ∧ q ≤ ent x (clipIdx x.length (searchLeft x q)) := by
  have hne : x ≠ [] := by intro h; simp [h] at h2
  obtain ⟨h0, h1⟩ := hq
  rw [headD_eq_ent] at h0
  rw [getLastD_eq_ent x hne] at h1
  unfold clipIdx
  have hle := searchLeft_le x q
  generalize hi : searchLeft x q = i at *
  refine ⟨by omega, by omega, ?_, ?_⟩
  · by_cases hi0 : i = 0
    · subst hi0
      have : min (max 0 1) (x.length - 1) - 1 = 0 := by omega
      rw [this]; exact h0
    · have : min (max i 1) (x.length - 1) - 1 < i := by omega
      exact le_of_lt (ent_before x q (by omega))
  · by_cases hil : i < x.length
    · have h3 : q ≤ ent x i := by have := ent_at_search x q (by omega); rwa [hi] at this
      exact h3.trans (ent_le hs (by omega) (by omega))
    · have : min (max i 1) (x.length - 1) = x.length - 1 := by omega
      rw [this]; exact h1

theorem at_out {m : AMat ℝ} {q : ℝ} (h0 : m.x ≠ []) (h : ¬ InRange m.x q) : m.at q = .error .valueError := by
  have : m.x.length ≠ 0 := by simpa using h0
  unfold AMat.at
  rw [if_neg this, if_pos]
  simp only [InRange, not_and_or, not_le] at h
  simpa using h

theorem at_in {m : AMat ℝ} {q : ℝ} (h0 : m.x ≠ []) (h : InRange m.x q) : m.at q =
    .ok (linBetween (ent m.x (clipIdx m.x.length (searchLeft m.x q) - 1)) (ent m.x (clipIdx m.x.length (searchLeft m.x q))) q
      (m.ys.getD (clipIdx m.x.length (searchLeft m.x q) - 1) []) (m.ys.getD (clipIdx m.x.length (searchLeft m.x q)) [])) := by
  have : m.x.length ≠ 0 := by simpa using h0
  unfold AMat.at
  rw [if_neg this, if_neg]
  simp only [InRange] at h
  simpa using h

theorem at_ok_iff {m : AMat ℝ} (h0 : m.x ≠ []) {q : ℝ} : (∃ M, m.at q = .ok M) ↔ InRange m.x q := by
  by_cases h : InRange m.x q
  · simp [at_in h0 h, h]
  · simp [at_out h0 h, h]

theorem searchLeft_node {x : List ℝ} (hs : x.Pairwise (· < ·)) {k : Nat} (hk : k < x.length) :
    searchLeft x (ent x k) = k := by
  apply le_antisymm
  · by_contra hlt
    have := ent_before x (ent x k) (i := k) (by omega)
    exact lt_irrefl _ this
  · by_contra hlt
    have h1 := ent_at_search x (ent x k) (by omega)
    have h2 := ent_lt hs (i := searchLeft x (ent x k)) (j := k) (by omega) hk
    exact absurd h1 (not_le.mpr h2)

theorem inRange_node {x : List ℝ} (hs : x.Pairwise (· < ·)) {k : Nat} (hk : k < x.length) : InRange x (ent x k) := by
  have hne : x ≠ [] := by intro h; simp [h] at hk
  refine ⟨?_, ?_⟩
  · rw [headD_eq_ent]; exact ent_le hs (by omega) hk
  · rw [getLastD_eq_ent x hne]; exact ent_le hs (by omega) (by omega)

/-- The matrices of an interpolator all have the declared shape. -/
def Shaped (r c : Nat) (M : List (List ℝ)) : Prop := M.length = r ∧ ∀ row ∈ M, row.length = c

theorem zipWith_left {l1 l2 : List ℝ} (f : ℝ → ℝ → ℝ) (hl : l1.length = l2.length) (h : ∀ a b, f a b = a) :
    List.zipWith f l1 l2 = l1 := by
  apply List.ext_getElem
  · simp [hl]
  · intro i h1 h2; simp [h]

theorem zipWith_right {l1 l2 : List ℝ} (f : ℝ → ℝ → ℝ) (hl : l1.length = l2.length) (h : ∀ a b, f a b = b) :
    List.zipWith f l1 l2 = l2 := by
  apply List.ext_getElem
  · simp [hl]
  · intro i h1 h2; simp [h]

theorem linBetween_lo {r c : Nat} {A B : List (List ℝ)} (hA : Shaped r c A) (hB : Shaped r c B) (xlo xhi : ℝ) :
    linBetween xlo xhi xlo A B = A := by
  unfold linBetween
  apply List.ext_getElem
  · simp [hA.1, hB.1]
  · intro i h1 h2
    rw [List.getElem_zipWith]
    apply zipWith_left
    · rw [hA.2 _ (List.getElem_mem _), hB.2 _ (List.getElem_mem _)]
    · intro a b; simp [linEntry]

theorem linBetween_hi {r c : Nat} {A B : List (List ℝ)} (hA : Shaped r c A) (hB : Shaped r c B) {xlo xhi : ℝ} (h : xlo < xhi) :
    linBetween xlo xhi xhi A B = B := by
  unfold linBetween
  apply List.ext_getElem
  · simp [hA.1, hB.1]
  · intro i h1 h2
    rw [List.getElem_zipWith]
    apply zipWith_right
    · rw [hA.2 _ (List.getElem_mem _), hB.2 _ (List.getElem_mem _)]
    · intro a b
      have : xhi - xlo ≠ 0 := sub_ne_zero.mpr (ne_of_gt h)
      unfold linEntry; field_simp; ring

/-- A well-formed interpolator: at least two increasing nodes with matrices of one shape. -/
structure AMat.Good (m : AMat ℝ) : Prop where
  incr : m.x.Pairwise (· < ·)
  two : 2 ≤ m.x.length
  len : m.ys.length = m.x.length
  shaped : ∀ M ∈ m.ys, Shaped m.nrow m.ncol M

theorem AMat.Good.ne {m : AMat ℝ} (h : m.Good) : m.x ≠ [] := by
  have := h.two; intro h0; simp [h0] at this

theorem AMat.Good.ys_shaped {m : AMat ℝ} (h : m.Good) {k : Nat} (hk : k < m.x.length) : Shaped m.nrow m.ncol (m.ys.getD k []) := by
  apply h.shaped
  rw [getD_lt (by rw [h.len]; exact hk)]
  exact List.getElem_mem _

theorem at_node {m : AMat ℝ} (h : m.Good) {k : Nat} (hk : k < m.x.length) : m.at (ent m.x k) = .ok (m.ys.getD k []) := by
  have h2 := h.two
  rw [at_in h.ne (inRange_node h.incr hk), searchLeft_node h.incr hk]
  congr 1
  unfold clipIdx
  by_cases h0 : k = 0
  · subst h0
    have e1 : min (max 0 1) (m.x.length - 1) = 1 := by omega
    rw [e1]
    exact linBetween_lo (h.ys_shaped (by omega)) (h.ys_shaped (by omega)) _ _
  · have e1 : min (max k 1) (m.x.length - 1) = k := by omega
    rw [e1]
    exact linBetween_hi (h.ys_shaped (by omega)) (h.ys_shaped hk) (ent_lt h.incr (by omega) hk)

theorem linEntry_between {xlo xhi q a b : ℝ} (hlt : xlo < xhi) (h1 : xlo ≤ q) (h2 : q ≤ xhi) :
    min a b ≤ linEntry xlo xhi q a b ∧ linEntry xlo xhi q a b ≤ max a b := by
  have hd : 0 < xhi - xlo := sub_pos.mpr hlt
  set t := (q - xlo) / (xhi - xlo) with ht
  have t0 : 0 ≤ t := div_nonneg (sub_nonneg.mpr h1) hd.le
  have t1 : t ≤ 1 := by rw [ht, div_le_one hd]; linarith
  have e : linEntry xlo xhi q a b = (1 - t) * a + t * b := by
    rw [ht]; unfold linEntry; field_simp; ring
  rw [e]
  constructor
  · calc min a b = (1 - t) * min a b + t * min a b := by ring
      _ ≤ _ := add_le_add (mul_le_mul_of_nonneg_left (min_le_left _ _) (by linarith)) (mul_le_mul_of_nonneg_left (min_le_right _ _) t0)
  · calc (1 - t) * a + t * b ≤ (1 - t) * max a b + t * max a b :=
        add_le_add (mul_le_mul_of_nonneg_left (le_max_left _ _) (by linarith)) (mul_le_mul_of_nonneg_left (le_max_right _ _) t0)
      _ = max a b := by ring

theorem linBetween_entry {A B : List (List ℝ)} {xlo xhi q : ℝ} {r j : Nat} :
    ((linBetween xlo xhi q A B)[r]?).bind (fun row => row[j]?) =
      ((A[r]?).bind (fun row => row[j]?)).bind (fun a => ((B[r]?).bind (fun row => row[j]?)).map (fun b => linEntry xlo xhi q a b)) := by
  unfold linBetween
  rw [List.getElem?_zipWith]
  cases A[r]? with
  | none => rfl
  | some ra =>
    cases B[r]? with
    | none => simp
    | some rb =>
      simp only [Option.bind_some]
      rw [List.getElem?_zipWith]
      cases ra[j]? <;> cases rb[j]? <;> rfl

theorem linBetween_shaped {r c : Nat} {A B : List (List ℝ)} (hA : Shaped r c A) (hB : Shaped r c B) (xlo xhi q : ℝ) :
    Shaped r c (linBetween xlo xhi q A B) := by
  unfold linBetween
  refine ⟨by simp [hA.1, hB.1], ?_⟩
  intro row hrow
  obtain ⟨i, hi, rfl⟩ := List.mem_iff_getElem.mp hrow
  simp only [List.length_zipWith] at hi
  rw [List.getElem_zipWith, List.length_zipWith, hA.2 _ (List.getElem_mem _), hB.2 _ (List.getElem_mem _), min_self]

theorem at_shaped {m : AMat ℝ} (h : m.Good) {q : ℝ} {M : List (List ℝ)} (hM : m.at q = .ok M) : Shaped m.nrow m.ncol M := by
  have hr := (at_ok_iff h.ne).mp ⟨M, hM⟩
  rw [at_in h.ne hr] at hM
  cases hM
  obtain ⟨h1, h2, _, _⟩ := bracket_idx h.incr h.two hr
  exact linBetween_shaped (h.ys_shaped (by omega)) (h.ys_shaped h2) _ _ _

/-- `mkAMat` on distinct nodes gives a well-formed interpolator. -/
theorem mkAMat_good {x : List ℝ} {ys : List (List (List ℝ))} {r c : Nat} {m : AMat ℝ} (h : mkAMat x ys r c = .ok m)
    (hx : x.Nodup) (h2 : 2 ≤ x.length) (hs : ∀ M ∈ ys, Shaped r c M) : m.Good ∧ x.length = ys.length := by
  unfold mkAMat at h
  split at h
  · rename_i hl
    cases h
    refine ⟨⟨?_, ?_, ?_, ?_⟩, hl⟩
    · have hp := gather_sorted x
      have hn : (gather x (argsort x)).Nodup := (gather_perm x).nodup_iff.mpr hx
      exact (List.pairwise_iff_getElem.mpr (fun i j hi hj hij =>
        lt_of_le_of_ne (List.pairwise_iff_getElem.mp hp i j hi hj hij)
          (fun e => by have := (List.Nodup.getElem_inj_iff hn).mp e; omega)))
    · simp [gather_length, argsort_length, h2]
    · simp [gather_length]
    · intro M hM
      obtain ⟨i, hi, rfl⟩ := List.mem_map.mp hM
      have hi' : i < ys.length := by rw [← hl]; exact argsort_lt x i hi
      rw [getD_lt hi']
      exact hs _ (List.getElem_mem _)
  · cases h

/-- The stored matrix at each given node, in the order the nodes were given. -/
theorem mkAMat_node {x : List ℝ} {ys : List (List (List ℝ))} {r c : Nat} {m : AMat ℝ} (h : mkAMat x ys r c = .ok m)
    (hx : x.Nodup) (h2 : 2 ≤ x.length) (hs : ∀ M ∈ ys, Shaped r c M) {k : Nat} {z : ℝ} {M : List (List ℝ)}
    (hz : x[k]? = some z) (hM : ys[k]? = some M) : m.at z = .ok M := by
  obtain ⟨hg, hl⟩ := mkAMat_good h hx h2 hs
  obtain ⟨hk, hzk⟩ := List.getElem?_eq_some_iff.mp hz
  have hmem : k ∈ argsort x := by
    rw [(argsort_perm x).mem_iff]; simpa using hk
  obtain ⟨p, hp, hpk⟩ := List.mem_iff_getElem.mp hmem
  unfold mkAMat at h
  rw [if_pos hl] at h
  cases h
  have e1 : ent (gather x (argsort x)) p = z := by
    rw [gather_eq_map, ent, getD_lt (by simpa using hp), List.getElem_map, hpk, ent_eq hz]
  have := at_node hg (k := p) (by simpa [gather_length] using hp)
  simp only [e1] at this
  rw [this]
  congr 1
  rw [getD_lt (by simpa using hp), List.getElem_map, hpk, List.getD, hM]; rfl

end KC
