import Verif.Model.TemplateWaves
import Mathlib.Data.Real.Basic
import Mathlib.Tactic.Linarith
import Mathlib.Tactic.NormNum
import Mathlib.Tactic.Positivity
import Mathlib.Data.List.Chain

/-!
What the kernel checks of the wavelengths of the shipped templates: 10000 of them, increasing, and where they begin and end.
-/

namespace KC

/-- increasing, and nothing at or below `b` -/
def ascFrom (b : Nat) : List Nat → Bool
  | [] => true
  | a :: l => decide (b < a) && ascFrom a l

theorem ascFrom_sound : ∀ (l : List Nat) (b : Nat), ascFrom b l = true → (b :: l).Pairwise (· < ·)
  | [], b, _ => by simp
  | a :: l, b, h => by
    simp only [ascFrom, Bool.and_eq_true, decide_eq_true_eq] at h
    have ih := ascFrom_sound l a h.2
    refine List.pairwise_cons.mpr ⟨fun c hc => ?_, ih⟩
    rcases List.mem_cons.mp hc with rfl | hc
    · exact h.1
    · exact lt_trans h.1 ((List.pairwise_cons.mp ih).1 c hc)

/-- the wavelengths of a template file, in 2⁻¹⁴ Å, are 10000 in increasing order, the first is `lo` and the last `hi` -/
def waveOK (u : List (List Nat)) (lo hi : Nat) : Bool :=
  decide (u.length = 100) && u.all (fun c => decide (c.length = 100)) && ascFrom 0 u.flatten && decide ((u.headD []).headD 0 = lo) &&
    decide ((u.getLastD []).getLastD 0 = hi)

theorem default_ok : waveOK defaultUnits 9834620 52406292480 = true := by decide +kernel

theorem lrg1_ok : waveOK lrg1Units 9834622 52406280192 = true := by decide +kernel

theorem flatten_length : ∀ (u : List (List Nat)), (∀ c ∈ u, c.length = 100) → u.flatten.length = u.length * 100
  | [], _ => by simp
  | c :: u, h => by
    rw [List.flatten_cons, List.length_append, h c (by simp), flatten_length u (fun d hd => h d (by simp [hd])), List.length_cons]
    ring

theorem waveOK_sound {u : List (List Nat)} {lo hi : Nat} (h : waveOK u lo hi = true) :
    u.flatten.length = 10000 ∧ u.flatten.Pairwise (· < ·) ∧ (∀ k ∈ u.flatten, lo ≤ k ∧ k ≤ hi ∧ 0 < k) ∧ lo ∈ u.flatten ∧ hi ∈ u.flatten := by
  simp only [waveOK, Bool.and_eq_true, decide_eq_true_eq, List.all_eq_true] at h
  obtain ⟨⟨⟨⟨h1, h2⟩, h3⟩, h4⟩, h5⟩ := h
  have hl : u.flatten.length = 10000 := by rw [flatten_length u h2, h1]
  have hs := ascFrom_sound _ _ h3
  obtain ⟨hp, hs⟩ := List.pairwise_cons.mp hs
  -- first
  have hu : u ≠ [] := by intro e; rw [e] at h1; simp at h1
  obtain ⟨c, u', rfl⟩ := List.exists_cons_of_ne_nil hu
  have hc := h2 c (by simp)
  obtain ⟨a, c', rfl⟩ := List.exists_cons_of_ne_nil (show c ≠ [] by intro e; rw [e] at hc; simp at hc)
  simp only [List.headD_cons] at h4
  subst h4
  -- last
  have hlast : ((a :: c') :: u').getLast hu ∈ (a :: c') :: u' := List.getLast_mem hu
  have gl : ∀ {β : Type} (l : List β) (h : l ≠ []) (e : β), l.getLastD e = l.getLast h := fun l h e => by
    rw [List.getLastD_eq_getLast?, List.getLast?_eq_some_getLast h, Option.getD_some]
  rw [gl _ hu] at h5
  set d := ((a :: c') :: u').getLast hu with hd
  have hdl := h2 d hlast
  have hdn : d ≠ [] := by intro e; rw [e] at hdl; simp at hdl
  rw [gl _ hdn] at h5
  have hsplit : ((a :: c') :: u').flatten = (((a :: c') :: u').dropLast.flatten ++ d.dropLast) ++ [hi] := by
    have e1 : ((a :: c') :: u') = ((a :: c') :: u').dropLast ++ [d] := (List.dropLast_append_getLast hu).symm
    have e2 : d = d.dropLast ++ [hi] := by rw [← h5]; exact (List.dropLast_append_getLast hdn).symm
    conv_lhs => rw [e1]
    rw [List.flatten_append, List.flatten_singleton]
    conv_lhs => rw [e2]
    rw [List.append_assoc]
  refine ⟨hl, hs, fun k hk => ⟨?_, ?_, hp k hk⟩, by simp, by rw [hsplit]; simp⟩
  · rw [List.flatten_cons, List.cons_append] at hs hk
    rcases List.mem_cons.mp hk with rfl | hk
    · exact le_refl _
    · exact le_of_lt ((List.pairwise_cons.mp hs).1 k hk)
  · rw [hsplit] at hs hk
    rcases List.mem_append.mp hk with hk | hk
    · exact le_of_lt ((List.pairwise_append.mp hs).2.2 k hk hi (by simp))
    · simp only [List.mem_singleton] at hk
      exact le_of_eq hk

end KC
