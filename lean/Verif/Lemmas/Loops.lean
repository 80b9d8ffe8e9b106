import Mathlib.Tactic.IntervalCases
import Mathlib.Tactic.Linarith
import Mathlib.Tactic.Positivity
import Mathlib.Tactic.FieldSimp
import Mathlib.Tactic.Ring
import Verif.Model.Utils
import Verif.Spec

/-! Lemmas about the column loops and about lists. -/

namespace KC
set_option linter.unusedSectionVars false
variable {α : Type} [Arith α]

@[simp] theorem require_true {c : Prop} [Decidable c] (h : c) (e : PyErr) : require c e = .ok () := by
  simp [require, h]

@[simp] theorem require_false {c : Prop} [Decidable c] (h : ¬ c) (e : PyErr) : require c e = .error e := by
  simp [require, h]

theorem require_ok_iff {c : Prop} [Decidable c] {e : PyErr} {u : Unit} : require c e = .ok u ↔ c := by
  unfold require; split <;> simp_all

@[simp] theorem ok_bind {β γ : Type} (x : β) (f : β → Py γ) : (Except.ok x : Py β) >>= f = f x := rfl
@[simp] theorem error_bind {β γ : Type} (e : PyErr) (f : β → Py γ) :
    (Except.error e : Py β) >>= f = .error e := rfl
@[simp] theorem pure_py {β : Type} (x : β) : (pure x : Py β) = .ok x := rfl
@[simp] theorem throw_py {β : Type} (e : PyErr) : (throw e : Py β) = .error e := rfl

theorem colWrite_length {σ : Type} (i : Nat) (g : σ → List α → α) (src : List σ) (out : List (List α))
    (h : src.length = out.length) : (colWrite i g src out).length = out.length := by
  simp [colWrite, h]

/-- A column loop over a table is the row loop on every row. -/
theorem colLoop_eq {σ : Type} (n : Nat) (g : Nat → σ → List α → α) (src : List σ) (out : List (List α))
    (h : src.length = out.length) :
    colLoop n g src out = List.zipWith (rowLoop n g) src out := by
  induction n with
  | zero =>
    simp only [colLoop, List.range_zero, List.foldl_nil]
    apply List.ext_getElem
    · simp [h]
    · intro i h1 h2; simp [rowLoop]
  | succ n ih =>
    have e1 : colLoop (n+1) g src out = colWrite n (g n) src (colLoop n g src out) := by
      simp [colLoop, List.range_succ]
    rw [e1, ih]
    apply List.ext_getElem
    · simp [colWrite, h]
    · intro i h1 h2
      simp [colWrite, rowLoop, List.range_succ]

theorem rowLoop_length {σ : Type} (n : Nat) (g : Nat → σ → List α → α) (s : σ) (out : List α) :
    (rowLoop n g s out).length = out.length := by
  induction n with
  | zero => simp [rowLoop]
  | succ n ih =>
    have e1 : rowLoop (n+1) g s out = (rowLoop n g s out).set n (g n s (rowLoop n g s out)) := by
      simp [rowLoop, List.range_succ]
    simp [e1, ih]

/-- A row loop whose body only reads its own entry is an indexed map. -/
theorem rowLoop_eq {σ : Type} (n : Nat) (h : Nat → σ → α → α) (s : σ) (out : List α) :
    rowLoop n (fun i s acc => h i s (ent acc i)) s out
      = out.mapIdx (fun i x => if i < n then h i s x else x) := by
  induction n with
  | zero => apply List.ext_getElem <;> simp [rowLoop]
  | succ n ih =>
    have e1 : rowLoop (n+1) (fun i s acc => h i s (ent acc i)) s out
        = (rowLoop n (fun i s acc => h i s (ent acc i)) s out).set n
            (h n s (ent (rowLoop n (fun i s acc => h i s (ent acc i)) s out) n)) := by
      simp [rowLoop, List.range_succ]
    rw [e1, ih]
    apply List.ext_getElem
    · simp
    · intro i h1 h2
      simp only [List.length_set, List.length_mapIdx] at h1
      rw [List.getElem_set]
      by_cases hin : n = i
      · subst hin
        simp [ent, List.getD, h1]
      · have : (i ≤ n) ↔ (i < n) := by omega
        simp [hin, this]

theorem ent_eq {row : List α} {i : Nat} {x : α} (h : row[i]? = some x) : ent row i = x := by
  simp [ent, List.getD, h]

end KC

namespace KC
set_option linter.unusedSectionVars false
variable {α : Type} [Arith α]

/-- A loop that fills a freshly allocated array. -/
theorem fill_entry {σ : Type} (n ncol : Nat) (g : Nat → σ → α) (src : List σ) (r j : Nat) :
    ((colLoop n (fun i s _ => g i s) src (zeroRows src.length ncol))[r]?).bind (fun row => row[j]?)
      = (src[r]?).bind (fun s => if j < ncol then some (if j < n then g j s else lit 0) else none) := by
  rw [colLoop_eq _ _ _ _ (by simp [zeroRows])]
  have key : ∀ s : σ, rowLoop n (fun i s _ => g i s) s (zeros ncol)
      = (zeros ncol).mapIdx (fun i x => if i < n then g i s else x) :=
    fun s => rowLoop_eq n (fun i s _ => g i s) s (zeros ncol)
  rw [List.getElem?_zipWith]
  by_cases hr : r < src.length
  · simp only [hr, List.getElem?_eq_getElem, zeroRows, List.length_replicate, List.getElem_replicate,
      Option.bind_some, key, List.getElem?_mapIdx]
    by_cases hj : j < ncol <;> simp [zeros, hj]
  · simp [hr]

theorem fill_length {σ : Type} (n ncol : Nat) (g : Nat → σ → α) (src : List σ) :
    (colLoop n (fun i s _ => g i s) src (zeroRows src.length ncol)).length = src.length := by
  rw [colLoop_eq _ _ _ _ (by simp [zeroRows])]; simp [zeroRows]

theorem fill_row_length {σ : Type} (n ncol : Nat) (g : Nat → σ → α) (src : List σ) :
    ∀ row ∈ colLoop n (fun i s _ => g i s) src (zeroRows src.length ncol), row.length = ncol := by
  rw [colLoop_eq _ _ _ _ (by simp [zeroRows])]
  intro row hrow
  obtain ⟨i, hi, rfl⟩ := List.mem_iff_getElem.mp hrow
  simp [zeroRows, rowLoop_length, zeros]

end KC
