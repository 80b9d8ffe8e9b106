import Verif.Lemmas.Kcorrect
import Verif.Props.Build

/-!
# Construction of a `Kcorrect` object: output bands and their mapping (C63)
-/

namespace KC
open Spec
variable {α : Type} [Arith α]

/-- `i` is the first index of `r` in the list. -/
def FirstIndex {β : Type} (l : List β) (r : β) (i : Nat) : Prop := l[i]? = some r ∧ ∀ i' < i, l[i']? ≠ some r

theorem idxOf_first {β : Type} [BEq β] [LawfulBEq β] {l : List β} {r : β} (h : r ∈ l) : FirstIndex l r (l.idxOf r) := by
  have hlt := List.idxOf_lt_length_iff.mpr h
  refine ⟨by rw [List.getElem?_eq_getElem hlt, List.getElem_idxOf], ?_⟩
  intro i hi e
  obtain ⟨h1, h2⟩ := List.getElem?_eq_some_iff.mp e
  have := List.not_of_lt_findIdx (p := (· == r)) (xs := l) (i := i) hi
  simp [h2] at this

theorem imapOf_ok_iff {R M : List Name} {im : List Nat} :
    imapOf R M = .ok im ↔ List.Forall₂ (fun r i => r ∈ R ∧ i = R.idxOf r) M im := by
  unfold imapOf
  rw [mapM_ok_iff]
  constructor <;> intro h <;> refine h.imp ?_ <;> intro r i hr
  · split at hr
    · cases hr; exact ⟨by assumption, rfl⟩
    · cases hr
  · rw [if_pos hr.1, hr.2]

theorem imapOf_error {R M : List Name} {r : Name} (h : r ∈ M) (hr : r ∉ R) : imapOf R M = .error .valueError := by
  refine mapM_error_uniq h (by rw [if_neg hr]) ?_
  intro a _ e he
  split at he
  · cases he
  · cases he; rfl

theorem imapOf_exists {R M : List Name} (h : ∀ r ∈ M, r ∈ R) : ∃ im, imapOf R M = .ok im :=
  mapM_exists (fun r hr => ⟨_, by rw [if_pos (h r hr)]⟩)

/-- The parts of a successful construction. -/
theorem init_ok {lib : Lib α} {disk : Disk α} {cls : Cls} {R : List Name} {T : Tpl α} {out rmap : Option (List Name)} {lo hi : α}
    {n : Nat} {ab : Bool} {dm : α → α} {w w' : Shared α} {K : Kc α}
    (h : Kc.init lib disk cls R T out rmap lo hi n ab dm w = (w', .ok K)) :
    ∃ w1 A, calcAmatrix lib disk (redshiftGrid lo hi n) R w = (w1, .ok A) ∧
      K.toFitter = { Fitter.mk' cls R T lo hi n ab with Amatrix := some A } ∧
      K.responsesOut = out.getD R ∧ K.responsesMap = rmap.getD R ∧ (rmap.getD R).length = (out.getD R).length ∧
      imapOf R (rmap.getD R) = .ok K.imap ∧ K.distmod = dm ∧
      ((out.getD R = R ∧ K.AmatrixOut = some A ∧ w' = w1) ∨
        (out.getD R ≠ R ∧ ∃ Ao, calcAmatrix lib disk (redshiftGrid lo hi n) (out.getD R) w1 = (w', .ok Ao) ∧ K.AmatrixOut = some Ao)) := by
  unfold Kc.init at h
  simp only [Fitter.setAmatrix, Fitter.mk'] at h
  cases hA : calcAmatrix lib disk (redshiftGrid lo hi n) R w with
  | mk w1 r =>
    rw [hA] at h
    cases r with
    | error e => simp at h
    | ok A =>
      simp only at h
      by_cases hl : (rmap.getD R).length ≠ (out.getD R).length
      · rw [if_pos hl] at h; simp at h
      · rw [if_neg hl] at h
        simp only [not_not] at hl
        by_cases ho : out.getD R = R
        · rw [if_pos ho] at h
          simp only [ok_bind] at h
          cases him : imapOf R (rmap.getD R) with
          | error e => rw [him] at h; simp at h
          | ok im =>
            rw [him] at h
            simp only [ok_bind, pure_py, Prod.mk.injEq, Except.ok.injEq] at h
            obtain ⟨rfl, rfl⟩ := h
            exact ⟨w1, A, rfl, rfl, rfl, rfl, hl, rfl, rfl, Or.inl ⟨ho, rfl, rfl⟩⟩
        · rw [if_neg ho] at h
          cases hB : calcAmatrix lib disk (redshiftGrid lo hi n) (out.getD R) w1 with
          | mk w2 r =>
            rw [hB] at h
            cases r with
            | error e => simp at h
            | ok Ao =>
              simp only [ok_bind] at h
              cases him : imapOf R (rmap.getD R) with
              | error e => rw [him] at h; simp at h
              | ok im =>
                rw [him] at h
                simp only [ok_bind, pure_py, Prod.mk.injEq, Except.ok.injEq] at h
                obtain ⟨rfl, rfl⟩ := h
                exact ⟨w1, A, rfl, rfl, rfl, rfl, hl, rfl, rfl, Or.inr ⟨ho, Ao, hB, rfl⟩⟩

/-- C63: after construction there is one index per output band, the first index in `responses` of the name mapped to the band. -/
theorem C63_imap (lib : Lib α) (disk : Disk α) (cls : Cls) (R : List Name) (T : Tpl α) (out rmap : Option (List Name)) (lo hi : α)
    (n : Nat) (ab : Bool) (dm : α → α) (w w' : Shared α) (K : Kc α)
    (h : Kc.init lib disk cls R T out rmap lo hi n ab dm w = (w', .ok K)) :
    K.responses = R ∧ K.responsesOut = out.getD R ∧ K.responsesMap = rmap.getD R ∧
    K.imap.length = K.responsesOut.length ∧ K.responsesMap.length = K.responsesOut.length ∧
    ∀ (j : Nat) r, K.responsesMap[j]? = some r → ∃ i, K.imap[j]? = some i ∧ FirstIndex R r i := by
  obtain ⟨w1, A, _, hF, h1, h2, hl, him, _, _⟩ := init_ok h
  have hf := imapOf_ok_iff.mp him
  refine ⟨by rw [hF]; rfl, h1, h2, ?_, ?_, ?_⟩
  · rw [← hf.length_eq, h1, hl]
  · rw [h1, h2, hl]
  · intro j r hj
    rw [h2] at hj
    obtain ⟨hj1, hj2⟩ := List.getElem?_eq_some_iff.mp hj
    have hj3 : j < K.imap.length := by rw [← hf.length_eq]; exact hj1
    have := (List.forall₂_iff_get.mp hf).2 j hj1 hj3
    simp only [List.get_eq_getElem, hj2] at this
    refine ⟨_, List.getElem?_eq_getElem hj3, ?_⟩
    rw [this.2]; exact idxOf_first this.1

/-- C63: when the projections can be computed, construction succeeds or raises `ValueError`, and it raises exactly if the lengths of
map and output bands differ or a mapped name is not an input band. -/
theorem C63_raises_iff (lib : Lib α) (disk : Disk α) (cls : Cls) (R : List Name) (T : Tpl α) (out rmap : Option (List Name))
    (lo hi : α) (n : Nat) (ab : Bool) (dm : α → α) (w w1 : Shared α) (A : AMat α)
    (hA : calcAmatrix lib disk (redshiftGrid lo hi n) R w = (w1, .ok A))
    (hAo : ∃ w2 Ao, calcAmatrix lib disk (redshiftGrid lo hi n) (out.getD R) w1 = (w2, .ok Ao)) :
    ((∃ w' K, Kc.init lib disk cls R T out rmap lo hi n ab dm w = (w', .ok K)) ∨
      ∃ w', Kc.init lib disk cls R T out rmap lo hi n ab dm w = (w', .error .valueError)) ∧
    ((∃ w', Kc.init lib disk cls R T out rmap lo hi n ab dm w = (w', .error .valueError)) ↔
      (rmap.getD R).length ≠ (out.getD R).length ∨ ∃ r ∈ rmap.getD R, r ∉ R) := by
  obtain ⟨w2, Ao, hAo⟩ := hAo
  have bad1 : (rmap.getD R).length ≠ (out.getD R).length →
      ∃ w', Kc.init lib disk cls R T out rmap lo hi n ab dm w = (w', .error .valueError) := by
    intro hl
    unfold Kc.init
    simp only [Fitter.setAmatrix, Fitter.mk', hA]
    rw [if_pos hl]
    exact ⟨_, rfl⟩
  have bad2 : (rmap.getD R).length = (out.getD R).length → (∃ r ∈ rmap.getD R, r ∉ R) →
      ∃ w', Kc.init lib disk cls R T out rmap lo hi n ab dm w = (w', .error .valueError) := by
    rintro hl ⟨r, h1, h2⟩
    unfold Kc.init
    simp only [Fitter.setAmatrix, Fitter.mk', hA]
    rw [if_neg (by simpa using hl)]
    by_cases ho : out.getD R = R
    · rw [if_pos ho]
      simp only [imapOf_error h1 h2, ok_bind, error_bind]
      exact ⟨_, rfl⟩
    · rw [if_neg ho, hAo]
      simp only [imapOf_error h1 h2, ok_bind, error_bind]
      exact ⟨_, rfl⟩
  have good : (rmap.getD R).length = (out.getD R).length → (∀ r ∈ rmap.getD R, r ∈ R) →
      ∃ w' K, Kc.init lib disk cls R T out rmap lo hi n ab dm w = (w', .ok K) := by
    intro hl h1
    obtain ⟨im, him⟩ := imapOf_exists h1
    unfold Kc.init
    simp only [Fitter.setAmatrix, Fitter.mk', hA]
    rw [if_neg (by simpa using hl)]
    by_cases ho : out.getD R = R
    · rw [if_pos ho]
      simp only [him, ok_bind]
      exact ⟨_, _, rfl⟩
    · rw [if_neg ho, hAo]
      simp only [him, ok_bind]
      exact ⟨_, _, rfl⟩
  by_cases hl : (rmap.getD R).length = (out.getD R).length
  · by_cases hm : ∃ r ∈ rmap.getD R, r ∉ R
    · exact ⟨Or.inr (bad2 hl hm), fun _ => Or.inr hm, fun _ => bad2 hl hm⟩
    · have hm' : ∀ r ∈ rmap.getD R, r ∈ R := fun r hr => by
        by_contra h; exact hm ⟨r, hr, h⟩
      refine ⟨Or.inl (good hl hm'), fun ⟨w', h'⟩ => ?_, ?_⟩
      · obtain ⟨w'', K, h''⟩ := good hl hm'
        rw [h'] at h''; cases h''
      · rintro (h | h)
        · exact absurd hl h
        · exact absurd h hm
  · exact ⟨Or.inr (bad1 hl), fun _ => Or.inl hl, fun _ => bad1 hl⟩

/-- C63, defaults: the output bands are the input bands and every band is mapped to itself. -/
theorem C63_defaults (lib : Lib α) (disk : Disk α) (cls : Cls) (R : List Name) (T : Tpl α) (lo hi : α)
    (n : Nat) (ab : Bool) (dm : α → α) (w w' : Shared α) (K : Kc α)
    (h : Kc.init lib disk cls R T none none lo hi n ab dm w = (w', .ok K)) :
    K.responsesOut = R ∧ K.responsesMap = R ∧ K.AmatrixOut = K.Amatrix ∧ K.imap.length = R.length ∧
    (∀ (j : Nat) r, R[j]? = some r → ∃ i, K.imap[j]? = some i ∧ R[i]? = some r) ∧ (R.Nodup → K.imap = List.range R.length) := by
  obtain ⟨_, h1, h2, h3, h4, h5⟩ := C63_imap _ _ _ _ _ _ _ _ _ _ _ _ _ _ _ h
  obtain ⟨w1, A, _, hF, _, _, _, him, _, hO⟩ := init_ok h
  simp only [Option.getD_none] at *
  have hF' : K.Amatrix = some A := by rw [hF]
  refine ⟨h1, h2, ?_, by rw [h3, h1], ?_, ?_⟩
  · rw [hF']
    rcases hO with ⟨_, h, _⟩ | ⟨h, _⟩
    · exact h
    · exact absurd rfl h
  · intro j r hj
    obtain ⟨i, hi, hfi⟩ := h5 j r (by rw [h2]; exact hj)
    exact ⟨i, hi, hfi.1⟩
  · intro hn
    have hlen : K.imap.length = R.length := by rw [h3, h1]
    apply List.ext_getElem (by simp [hlen])
    intro j hj1 hj2
    have hjR : j < R.length := by omega
    obtain ⟨i, hi, hfi⟩ := h5 j R[j] (by rw [h2]; exact List.getElem?_eq_getElem hjR)
    rw [List.getElem?_eq_getElem hj1] at hi
    cases hi
    obtain ⟨hlt, he⟩ := List.getElem?_eq_some_iff.mp hfi.1
    have := (List.Nodup.getElem_inj_iff hn).mp he
    simp [this]

/-- Not vacuous (C63): construction with the defaults succeeds, with an unknown mapped name it is refused. -/
theorem demo_init (T : Tpl ℝ) (dm : ℝ → ℝ) :
    (∃ w' K, Kc.init demoLib demoDisk .base [['x']] T none none 0 2 10 false dm demoShared = (w', .ok K)) ∧
    (∃ w', Kc.init demoLib demoDisk .base [['x']] T none (some [['y']]) 0 2 10 false dm demoShared = (w', .error .valueError)) := by
  obtain ⟨w1, A, hA⟩ := demo_build
  constructor
  · unfold Kc.init
    simp only [Fitter.setAmatrix, Fitter.mk', hA]
    exact ⟨_, _, rfl⟩
  · unfold Kc.init
    simp only [Fitter.setAmatrix, Fitter.mk', hA]
    exact ⟨_, rfl⟩

/-! ### Equal names give equal rows -/

/-- Rows for the same name are the same. -/
def SameRows {β : Type} (R : List Name) (M : List β) : Prop :=
  ∀ i j, i < R.length → j < R.length → R[i]? = R[j]? → M[i]? = M[j]?

theorem calc_sameRows {lib : Lib α} {disk : Disk α} {zs : List α} {R : List Name} {w w' : Shared α} {A : AMat α}
    (h : calcAmatrix lib disk zs R w = (w', .ok A)) {q : α} {M : List (List α)} (hM : A.at q = .ok M) : SameRows R M := by
  obtain ⟨_, _, ms, hmk, hall⟩ := calcAmatrix_ok h
  have hms : ∀ m ∈ ms, SameRows R m := by
    intro m hm
    obtain ⟨k, hk, rfl⟩ := List.mem_iff_getElem.mp hm
    obtain ⟨t, _, hrow⟩ := (List.forall₂_iff_get.mp hall).2 k (by rw [hall.length_eq]; exact hk) hk
    rw [mapM_ok_iff] at hrow
    simp only [List.get_eq_getElem] at hrow
    intro i j hi hj he
    have hi' : i < ms[k].length := by rw [← hrow.length_eq]; exact hi
    have hj' : j < ms[k].length := by rw [← hrow.length_eq]; exact hj
    have a1 := (List.forall₂_iff_get.mp hrow).2 i hi hi'
    have a2 := (List.forall₂_iff_get.mp hrow).2 j hj hj'
    simp only [List.get_eq_getElem] at a1 a2
    rw [List.getElem?_eq_getElem hi, List.getElem?_eq_getElem hj] at he
    simp only [Option.some.injEq] at he
    rw [he, a2] at a1
    rw [List.getElem?_eq_getElem hi', List.getElem?_eq_getElem hj']
    simpa using a1.symm
  have hys : ∀ m ∈ A.ys, SameRows R m := by
    unfold mkAMat at hmk
    split at hmk
    · cases hmk
      intro m hm
      obtain ⟨i, hi, rfl⟩ := List.mem_map.mp hm
      by_cases hil : i < ms.length
      · rw [getD_lt hil]; exact hms _ (List.getElem_mem _)
      · have : ms.getD i [] = [] := by
          rw [List.getD_eq_getElem?_getD, List.getElem?_eq_none (by omega)]; rfl
        rw [this]; intro a b _ _ _; simp
    · cases hmk
  have hgd : ∀ k, SameRows R (A.ys.getD k []) := by
    intro k
    by_cases hil : k < A.ys.length
    · rw [getD_lt hil]; exact hys _ (List.getElem_mem _)
    · have : A.ys.getD k [] = [] := by
        rw [List.getD_eq_getElem?_getD, List.getElem?_eq_none (by omega)]; rfl
      rw [this]; intro a b _ _ _; simp
  unfold AMat.at at hM
  split at hM
  · cases hM
  · split at hM
    · cases hM
    · cases hM
      intro i j hi hj he
      simp only [linBetween, List.getElem?_zipWith, hgd _ i j hi hj he]

end KC
