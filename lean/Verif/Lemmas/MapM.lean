import Verif.Lemmas.Loops

namespace KC

theorem mapM_ok {β γ : Type} {f : β → Py γ} {l : List β} {r : List γ}
    (h : List.Forall₂ (fun a b => f a = .ok b) l r) : l.mapM f = .ok r := by
  induction h with
  | nil => rfl
  | cons h1 h2 ih => rw [List.mapM_cons, h1, ih]; rfl

theorem mapM_ok_iff {β γ : Type} {f : β → Py γ} {l : List β} {r : List γ} :
    l.mapM f = .ok r ↔ List.Forall₂ (fun a b => f a = .ok b) l r := by
  refine ⟨?_, mapM_ok⟩
  induction l generalizing r with
  | nil =>
    intro h
    have : r = [] := by
      have h' : (Except.ok [] : Py (List γ)) = .ok r := h
      cases h'; rfl
    subst this; exact .nil
  | cons a l ih =>
    intro h
    rw [List.mapM_cons] at h
    cases ha : f a with
    | error e => rw [ha] at h; cases h
    | ok b =>
      rw [ha, ok_bind] at h
      cases hl : l.mapM f with
      | error e => rw [hl] at h; cases h
      | ok bs =>
        rw [hl, ok_bind, pure_py] at h
        cases h
        exact .cons ha (ih hl)

theorem mapM_error_of {β γ : Type} {f : β → Py γ} {l : List β} {a : β} {e : PyErr} (ha : a ∈ l)
    (h : f a = .error e) : ∃ e', l.mapM f = .error e' := by
  cases hm : l.mapM f with
  | error e' => exact ⟨e', rfl⟩
  | ok r =>
    rw [mapM_ok_iff] at hm
    obtain ⟨i, hi, rfl⟩ := List.mem_iff_getElem.mp ha
    have := (List.forall₂_iff_get.mp hm).2 i hi (by rw [← hm.length_eq]; exact hi)
    simp only [List.get_eq_getElem] at this
    rw [h] at this; cases this

theorem mapM_pure {β γ : Type} (f : β → γ) (l : List β) : l.mapM (fun a => (.ok (f a) : Py γ)) = .ok (l.map f) := by
  apply mapM_ok
  induction l with
  | nil => exact .nil
  | cons a l ih => exact .cons rfl ih

theorem mapM_congr {β γ : Type} {f g : β → Py γ} {l : List β} (h : ∀ a ∈ l, f a = g a) : l.mapM f = l.mapM g := by
  induction l with
  | nil => rfl
  | cons a l ih =>
    rw [List.mapM_cons, List.mapM_cons, h a (by simp), ih (fun b hb => h b (by simp [hb]))]

/-- if some element raises and elements raise nothing but `e`, the loop raises `e` -/
theorem mapM_error_uniq {β γ : Type} {f : β → Py γ} {l : List β} {a : β} {e : PyErr} (ha : a ∈ l)
    (he : f a = .error e) (hu : ∀ b ∈ l, ∀ e', f b = .error e' → e' = e) : l.mapM f = .error e := by
  induction l with
  | nil => simp at ha
  | cons b t ih =>
    rw [List.mapM_cons]
    cases hb : f b with
    | error e' => rw [hu b (List.mem_cons_self) e' hb]; rfl
    | ok x =>
      have : a ∈ t := by
        rcases List.mem_cons.mp ha with rfl | h
        · rw [he] at hb; cases hb
        · exact h
      rw [ih this (fun c hc => hu c (List.mem_cons_of_mem _ hc))]; rfl

/-- the first error of the loop is the error of some element -/
theorem mapM_error_iff {β γ : Type} {f : β → Py γ} {l : List β} {e : PyErr} (h : l.mapM f = .error e) : ∃ a ∈ l, f a = .error e := by
  induction l with
  | nil => cases h
  | cons b t ih =>
    rw [List.mapM_cons] at h
    cases hb : f b with
    | error e' => rw [hb] at h; cases h; exact ⟨b, List.mem_cons_self, hb⟩
    | ok x =>
      rw [hb] at h
      cases ht : t.mapM f with
      | error e' =>
        rw [ht] at h; cases h
        obtain ⟨a, ha, h⟩ := ih ht
        exact ⟨a, List.mem_cons_of_mem _ ha, h⟩
      | ok r => rw [ht] at h; cases h

/-- if every element succeeds, so does the loop -/
theorem mapM_exists {β γ : Type} {f : β → Py γ} {l : List β} (h : ∀ a ∈ l, ∃ b, f a = .ok b) : ∃ r, l.mapM f = .ok r := by
  cases hm : l.mapM f with
  | ok r => exact ⟨r, rfl⟩
  | error e =>
    obtain ⟨a, ha, he⟩ := mapM_error_iff hm
    obtain ⟨b, hb⟩ := h a ha
    rw [hb] at he; cases he

end KC
