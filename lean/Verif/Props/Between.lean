import Verif.Props.BandShift
import Verif.Lemmas.Nnls

/-!
# A galaxy lies between the templates it is made of (C175)
-/

namespace KC

namespace Spec

/-- The coefficients of template `t` alone, among `n` templates. -/
noncomputable def alone (n t : Nat) : List ℝ := (List.range n).map (fun i => if i = t then 1 else 0)

/-- Template `t` has a positive coefficient in the mixture `c`. -/
def Uses (c : List ℝ) (t : Nat) : Prop := ∃ x, c[t]? = some x ∧ 0 < x

/-- `v` is at least the value of one template of the mixture and at most that of another; `value t w` says that template `t` has the value `w`. -/
def Between (c : List ℝ) (value : Nat → ℝ → Prop) (v : ℝ) : Prop :=
  ∃ t t' w w', Uses c t ∧ Uses c t' ∧ value t w ∧ value t' w' ∧ w ≤ v ∧ v ≤ w'

end Spec

open Spec

theorem dot_sum (row c : List ℝ) : dot row c = ∑ i : Fin c.length, ent row i * c[i] := by
  rw [dot, sumL_real]
  have := dot_ofFn c.length row (fun i => c[i])
  rw [← this]
  congr 2
  exact (List.ofFn_getElem (xs := c)).symm

theorem alone_length (n t : Nat) : (alone n t).length = n := by simp [alone]

theorem dot_alone {n t : Nat} (ht : t < n) (row : List ℝ) : dot row (alone n t) = ent row t := by
  have h : alone n t = List.ofFn (fun i : Fin n => if (i : Nat) = t then (1 : ℝ) else 0) := by
    apply List.ext_getElem (by simp [alone])
    intro i h1 h2
    simp [alone]
  rw [dot, sumL_real, h]
  have := dot_ofFn n row (fun i => if (i : Nat) = t then (1 : ℝ) else 0)
  refine this.trans ?_
  rw [Finset.sum_eq_single (⟨t, ht⟩ : Fin n)]
  · simp
  · intro b _ hb
    rw [if_neg (fun h => hb (Fin.ext h)), mul_zero]
  · simp

theorem uses_lt {c : List ℝ} {t : Nat} (h : Uses c t) : t < c.length := by
  obtain ⟨x, hx, _⟩ := h
  exact (List.getElem?_eq_some_iff.mp hx).1

theorem uses_of_sum {c : List ℝ} (h : 0 < c.sum) : ∃ t, Uses c t := by
  by_contra hn
  have : ∀ v ∈ c, v ≤ 0 := by
    intro v hv
    obtain ⟨t, ht, rfl⟩ := List.mem_iff_getElem.mp hv
    by_contra hp
    exact hn ⟨t, c[t], List.getElem?_eq_getElem ht, not_le.mp hp⟩
  have hl : ∀ l : List ℝ, (∀ v ∈ l, v ≤ 0) → l.sum ≤ 0 := by
    intro l
    induction l with
    | nil => simp
    | cons a l ih =>
      intro hl
      have := ih (fun v hv => hl v (by simp [hv]))
      have := hl a (by simp)
      simp only [List.sum_cons]
      linarith
  exact absurd (hl c this) (not_le.mpr h)

/-- A ratio of sums lies between the ratios of the terms. -/
theorem ratio_between {c : List ℝ} (hc : ∀ v ∈ c, 0 ≤ v) (hu : ∃ t, Uses c t) (p q : List ℝ) (hq : ∀ t, Uses c t → 0 < ent q t) :
    0 < dot q c ∧ ∃ t t', Uses c t ∧ Uses c t' ∧ ent p t / ent q t ≤ dot p c / dot q c ∧ dot p c / dot q c ≤ ent p t' / ent q t' := by
  have hci : ∀ i : Fin c.length, 0 ≤ c[i] := fun i => hc _ (List.getElem_mem _)
  have hui : ∀ i : Fin c.length, 0 < c[i] → Uses c i := fun i h => ⟨_, List.getElem?_eq_getElem i.2, h⟩
  obtain ⟨t0, ht0⟩ := hu
  have h0 : 0 < c[(⟨t0, uses_lt ht0⟩ : Fin c.length)] := by
    obtain ⟨x, hx, hp⟩ := ht0
    obtain ⟨h1, h2⟩ := List.getElem?_eq_some_iff.mp hx
    simpa [h2] using hp
  have hterm : ∀ i : Fin c.length, 0 ≤ ent q i * c[i] := by
    intro i
    rcases (hci i).eq_or_lt with h | h
    · rw [← h, mul_zero]
    · exact (mul_pos (hq i (hui i h)) h).le
  have hQ : 0 < dot q c := by
    rw [dot_sum]
    exact Finset.sum_pos' (fun i _ => hterm i) ⟨⟨t0, uses_lt ht0⟩, Finset.mem_univ _, mul_pos (hq t0 ht0) h0⟩
  refine ⟨hQ, ?_⟩
  have key : ∀ r : ℝ, r * dot q c = ∑ i : Fin c.length, r * ent q i * c[i] := by
    intro r
    rw [dot_sum, Finset.mul_sum]
    exact Finset.sum_congr rfl (fun i _ => by ring)
  set r := dot p c / dot q c with hr
  have hpr : dot p c = r * dot q c := by rw [hr, div_mul_cancel₀ _ hQ.ne']
  have lower : ∃ t, Uses c t ∧ ent p t / ent q t ≤ r := by
    by_contra hn
    push Not at hn
    have : r * dot q c < dot p c := by
      rw [key, dot_sum]
      refine Finset.sum_lt_sum (fun i _ => ?_) ⟨⟨t0, uses_lt ht0⟩, Finset.mem_univ _, ?_⟩
      · rcases (hci i).eq_or_lt with h | h
        · rw [← h, mul_zero, mul_zero]
        · exact mul_le_mul_of_nonneg_right ((lt_div_iff₀ (hq i (hui i h))).mp (hn i (hui i h))).le h.le
      · exact mul_lt_mul_of_pos_right ((lt_div_iff₀ (hq t0 ht0)).mp (hn t0 ht0)) h0
    linarith
  have upper : ∃ t, Uses c t ∧ r ≤ ent p t / ent q t := by
    by_contra hn
    push Not at hn
    have : dot p c < r * dot q c := by
      rw [key, dot_sum]
      refine Finset.sum_lt_sum (fun i _ => ?_) ⟨⟨t0, uses_lt ht0⟩, Finset.mem_univ _, ?_⟩
      · rcases (hci i).eq_or_lt with h | h
        · rw [← h, mul_zero, mul_zero]
        · exact mul_le_mul_of_nonneg_right ((div_lt_iff₀ (hq i (hui i h))).mp (hn i (hui i h))).le h.le
      · exact mul_lt_mul_of_pos_right ((div_lt_iff₀ (hq t0 ht0)).mp (hn t0 ht0)) h0
    linarith
  obtain ⟨t, h1, h2⟩ := lower
  obtain ⟨t', h3, h4⟩ := upper
  exact ⟨t, t', h1, h3, h2, h4⟩

theorem mag_sub_le {a b c d : ℝ} (ha : 0 < a) (hb : 0 < b) (hc : 0 < c) (hd : 0 < d) (h : c / d ≤ a / b) : mag a - mag b ≤ mag c - mag d := by
  have e : ∀ x y : ℝ, 0 < x → 0 < y → mag x - mag y = -2.5 * Real.logb 10 (x / y) := by
    intro x y hx hy
    rw [Real.logb_div hx.ne' hy.ne', mag, mag]; ring
  rw [e a b ha hb, e c d hc hd]
  have := Real.logb_le_logb_of_le (b := 10) (by norm_num) (div_pos hc hd) h
  linarith

/-- C175: the K-correction of a galaxy in a band lies between those of the templates it is made of. -/
theorem C175_kcorrect (K : Kc ℝ) (A Ao : AMat ℝ) (hA : K.Amatrix = some A) (hAo : K.AmatrixOut = some Ao) (z bs : ℝ) (c : List ℝ)
    (hc : c.length = K.templates.nsed) (hc0 : ∀ v ∈ c, 0 ≤ v) (hs : 0 < c.sum) (hbs : -1 < bs) (k : NDA ℝ)
    (hk : K.kcorrect (some (.scalar z)) (some (.vec c)) bs = .ok k) (j i : Nat) (hj : K.imap[j]? = some i)
    (hpos : ∀ t, Uses c t → ∃ a b fa fb, K.reconstruct (some (.scalar z)) (some (.vec (alone K.templates.nsed t))) 0 = .ok a ∧
      K.reconstructOut (some (.scalar 0)) (some (.vec (alone K.templates.nsed t))) bs = .ok b ∧ entry a 0 i = some fa ∧ entry b 0 j = some fb ∧ 0 < fa ∧ 0 < fb) :
    ∃ v, entry k 0 j = some v ∧
      Between c (fun t w => ∃ kt, K.kcorrect (some (.scalar z)) (some (.vec (alone K.templates.nsed t))) bs = .ok kt ∧ entry kt 0 j = some w) v := by
  obtain ⟨h1, f1⟩ := C67_model_magnitudes K A Ao hA hAo z bs c hc
  obtain ⟨⟨x, hx⟩, ⟨y, hy⟩⟩ := h1.mp ⟨k, hk⟩
  have ra : ∀ c : List ℝ, c.length = K.templates.nsed → K.reconstruct (some (.scalar z)) (some (.vec c)) 0 = (A.at ((1 + z) * (1 + 0) - 1)).map (fun M => .arr [] A.nrow [reconRow 0 M c]) := by
    intro c hc
    unfold Fitter.reconstruct
    rw [hA, recon_real _ _ _ _ _ hc]
  have rb : ∀ c : List ℝ, c.length = K.templates.nsed → K.reconstructOut (some (.scalar 0)) (some (.vec c)) bs = (Ao.at ((1 + 0) * (1 + bs) - 1)).map (fun M => .arr [] Ao.nrow [reconRow bs M c]) := by
    intro c hc
    unfold Kc.reconstructOut
    rw [hAo, recon_real _ _ _ _ _ hc]
  have hx' := hx
  have hy' := hy
  rw [ra c hc] at hx'
  rw [rb c hc] at hy'
  cases hM : A.at ((1 + z) * (1 + 0) - 1) with
  | error e => rw [hM] at hx'; cases hx'
  | ok M =>
  cases hN : Ao.at ((1 + 0) * (1 + bs) - 1) with
  | error e => rw [hN] at hy'; cases hy'
  | ok N =>
  rw [hM] at hx'; rw [hN] at hy'
  cases hx'; cases hy'
  have al := alone_length K.templates.nsed
  have hM' : ∀ t, K.reconstruct (some (.scalar z)) (some (.vec (alone K.templates.nsed t))) 0 = .ok (.arr [] A.nrow [reconRow 0 M (alone K.templates.nsed t)]) :=
    fun t => by rw [ra _ (al t), hM]; rfl
  have hN' : ∀ t, K.reconstructOut (some (.scalar 0)) (some (.vec (alone K.templates.nsed t))) bs = .ok (.arr [] Ao.nrow [reconRow bs N (alone K.templates.nsed t)]) :=
    fun t => by rw [rb _ (al t), hN]; rfl
  obtain ⟨t0, ht0⟩ := uses_of_sum hs
  have rows : ∃ p q, M[i]? = some p ∧ N[j]? = some q := by
    obtain ⟨a, b, fa, fb, e1, e2, e3, e4, _, _⟩ := hpos t0 ht0
    rw [hM' t0] at e1; cases e1
    rw [hN' t0] at e2; cases e2
    simp only [entry, List.getElem?_cons_zero, Option.bind_some, reconRow, List.getElem?_map, Option.map_eq_some_iff] at e3 e4
    obtain ⟨p, e3, -⟩ := e3
    obtain ⟨q, e4, -⟩ := e4
    exact ⟨p, q, e3, e4⟩
  obtain ⟨p, q, hp, hq⟩ := rows
  have ha : ∀ c', entry (.arr [] A.nrow [reconRow 0 M c']) 0 i = some (dot p c' / (1 + 0)) := by
    intro c'
    simp [entry, reconRow, hp]
  have hb : ∀ c', entry (.arr [] Ao.nrow [reconRow bs N c']) 0 j = some (dot q c' / (1 + bs)) := by
    intro c'
    simp [entry, reconRow, hq]
  have hb1 : (0 : ℝ) < 1 + bs := by linarith
  have hpos' : ∀ t, Uses c t → 0 < ent p t ∧ 0 < ent q t := by
    intro t ht
    have htn : t < K.templates.nsed := by rw [← hc]; exact uses_lt ht
    obtain ⟨a, b, fa, fb, e1, e2, e3, e4, e5, e6⟩ := hpos t ht
    rw [hM' t] at e1; cases e1
    rw [hN' t] at e2; cases e2
    rw [ha, dot_alone htn] at e3; cases e3
    rw [hb, dot_alone htn] at e4; cases e4
    exact ⟨by simpa using e5, (div_pos_iff_of_pos_right hb1).mp e6⟩
  obtain ⟨hQ, t, t', u1, u2, l1, l2⟩ := ratio_between hc0 ⟨t0, ht0⟩ p q (fun t ht => (hpos' t ht).2)
  obtain ⟨hP, -⟩ := ratio_between hc0 ⟨t0, ht0⟩ p p (fun t ht => (hpos' t ht).1)
  have value : ∀ t, Uses c t → ∃ kt, K.kcorrect (some (.scalar z)) (some (.vec (alone K.templates.nsed t))) bs = .ok kt ∧
      entry kt 0 j = some (mag (ent p t) - mag (ent q t / (1 + bs))) := by
    intro t ht
    have htn : t < K.templates.nsed := by rw [← hc]; exact uses_lt ht
    obtain ⟨g1, g2⟩ := C67_model_magnitudes K A Ao hA hAo z bs _ (al t)
    obtain ⟨kt, hkt⟩ := g1.mpr ⟨⟨_, hM' t⟩, ⟨_, hN' t⟩⟩
    refine ⟨kt, hkt, ?_⟩
    have hsum : 0 < (alone K.templates.nsed t).sum := by
      have := dot_alone htn (List.replicate K.templates.nsed 1)
      have e : (alone K.templates.nsed t).sum = 1 := by
        have h1 : dot (List.replicate K.templates.nsed (1 : ℝ)) (alone K.templates.nsed t) = (alone K.templates.nsed t).sum := by
          rw [dot, sumL_real]
          congr 1
          apply List.ext_getElem (by simp [alone])
          intro i h1 h2
          simp
        rw [← h1, this]
        simp [ent, htn]
      rw [e]; norm_num
    have := (g2 kt _ _ hkt (hM' t) (hN' t)).2.2 hsum j i _ _ hj (ha _) (hb _)
    rw [dot_alone htn, dot_alone htn, add_zero, div_one] at this
    exact this (hpos' t ht).1 (div_pos (hpos' t ht).2 hb1)
  refine ⟨_, (f1 k _ _ hk hx hy).2.2 hs j i _ _ hj (ha c) (hb c) (by simpa using hP) (div_pos hQ hb1), ?_⟩
  rw [add_zero, div_one]
  have sc : ∀ a b : ℝ, a / (b / (1 + bs)) = a / b * (1 + bs) := fun a b => by rw [div_div_eq_mul_div, mul_div_right_comm]
  refine ⟨t', t, _, _, u2, u1, value t' u2, value t u1, ?_, ?_⟩
  · refine mag_sub_le (hpos' t' u2).1 (div_pos (hpos' t' u2).2 hb1) hP (div_pos hQ hb1) ?_
    rw [sc, sc]; exact mul_le_mul_of_nonneg_right l2 hb1.le
  · refine mag_sub_le hP (div_pos hQ hb1) (hpos' t u1).1 (div_pos (hpos' t u1).2 hb1) ?_
    rw [sc, sc]; exact mul_le_mul_of_nonneg_right l1 hb1.le

/-- C175, tables: the same for every galaxy of a table. -/
theorem C175_batch (K : Kc ℝ) (A Ao : AMat ℝ) (hA : K.Amatrix = some A) (hAo : K.AmatrixOut = some Ao) (bs : ℝ) (hbs : -1 < bs) (zs : List ℝ)
    (cs : List (List ℝ)) (hcs : cs.length = zs.length) (hcl : ∀ c ∈ cs, c.length = K.templates.nsed) (out : NDA ℝ)
    (hk : K.kcorrect (some (.vec zs)) (some (.arr [zs.length] K.templates.nsed cs)) bs = .ok out) (n : Nat) (z : ℝ) (c : List ℝ) (hz : zs[n]? = some z)
    (hcn : cs[n]? = some c) (hc0 : ∀ v ∈ c, 0 ≤ v) (hs : 0 < c.sum) (j i : Nat) (hj : K.imap[j]? = some i)
    (hpos : ∀ t, Uses c t → ∃ a b fa fb, K.reconstruct (some (.scalar z)) (some (.vec (alone K.templates.nsed t))) 0 = .ok a ∧
      K.reconstructOut (some (.scalar 0)) (some (.vec (alone K.templates.nsed t))) bs = .ok b ∧ entry a 0 i = some fa ∧ entry b 0 j = some fb ∧ 0 < fa ∧ 0 < fb) :
    ∃ v, entry out n j = some v ∧
      Between c (fun t w => ∃ kt, K.kcorrect (some (.scalar z)) (some (.vec (alone K.templates.nsed t))) bs = .ok kt ∧ entry kt 0 j = some w) v := by
  obtain ⟨_, h2⟩ := C68_batch (by simp) K A Ao hA hAo zs cs bs hcs hcl
  obtain ⟨_, h3⟩ := h2 out hk
  obtain ⟨r, hr, hrow⟩ := h3 n z c hz hcn
  obtain ⟨v, hv, hb⟩ := C175_kcorrect K A Ao hA hAo z bs c (hcl c (List.mem_of_getElem? hcn)) hc0 hs hbs r hr j i hj hpos
  refine ⟨v, ?_, hb⟩
  rw [← hv]
  cases out with
  | scalar _ => cases hrow
  | arr lead w rows =>
    simp only [rowOf, Option.map_eq_some_iff] at hrow
    obtain ⟨row, hn, he⟩ := hrow
    rw [map_f32_real] at he
    subst he
    simp only [entry, hn, List.getElem?_cons_zero, Option.bind_some]

theorem total_dot (c v : List ℝ) : total c v = dot v c := by rw [← dot_total, dot_comm]

theorem total_alone {n s : Nat} (hs : s < n) (v : List ℝ) : total (alone n s) v = ent v s := by rw [total_dot, dot_alone hs]

/-- C175: metallicity and star-formation fractions of a galaxy lie between those of the templates it is made of. -/
theorem C175_derived (K : Kc ℝ) (t : Tmpl ℝ) (Ao : AMat ℝ) (h : MassKc K t Ao) (hg : AMat.Good Ao) (g : Reg ℝ) (z : ℝ) (c : List ℝ)
    (hc : c.length = K.templates.nsed) (hc0 : ∀ v ∈ c, 0 ≤ v) (hs : 0 < c.sum) (bs : ℝ) (D : Derived ℝ)
    (hD : K.derived g (some (.scalar z)) (some (.vec c)) bs none = .ok D) (hpos : ∀ s, Uses c s → 0 < ent t.mremain s ∧ 0 < ent t.intsfh s) :
    ∃ Z b50 b300 b1000, D.metallicity = .scalar Z ∧ D.b50 = .scalar b50 ∧ D.b300 = .scalar b300 ∧ D.b1000 = .scalar b1000 ∧
      Between c (fun s w => ∃ E, K.derived g (some (.scalar z)) (some (.vec (alone K.templates.nsed s))) bs none = .ok E ∧ E.metallicity = .scalar w) Z ∧
      Between c (fun s w => ∃ E, K.derived g (some (.scalar z)) (some (.vec (alone K.templates.nsed s))) bs none = .ok E ∧ E.b50 = .scalar w) b50 ∧
      Between c (fun s w => ∃ E, K.derived g (some (.scalar z)) (some (.vec (alone K.templates.nsed s))) bs none = .ok E ∧ E.b300 = .scalar w) b300 ∧
      Between c (fun s w => ∃ E, K.derived g (some (.scalar z)) (some (.vec (alone K.templates.nsed s))) bs none = .ok E ∧ E.b1000 = .scalar w) b1000 := by
  obtain ⟨_, _, _, _, v⟩ := derived_vals h hg g z c hc bs D hD
  have hu := uses_of_sum hs
  have hm : 0 < total c t.mremain := by
    rw [total_dot]; exact (ratio_between hc0 hu [] t.mremain (fun s hs => (hpos s hs).1)).1
  have alone_vals : ∀ s, Uses c s → ∃ E, K.derived g (some (.scalar z)) (some (.vec (alone K.templates.nsed s))) bs none = .ok E ∧
      E.metallicity = .scalar (ent (List.zipWith (· * ·) t.mremain t.mets) s / ent t.mremain s) ∧ E.b50 = .scalar (ent t.m50 s / ent t.intsfh s) ∧
      E.b300 = .scalar (ent t.m300 s / ent t.intsfh s) ∧ E.b1000 = .scalar (ent t.m1000 s / ent t.intsfh s) := by
    intro s hs'
    have hsn : s < K.templates.nsed := by rw [← hc]; exact uses_lt hs'
    obtain ⟨E, hE⟩ := (derived_returns h g z _ (alone_length K.templates.nsed s) bs).mpr ((derived_returns h g z c hc bs).mp ⟨D, hD⟩)
    obtain ⟨_, _, _, _, w⟩ := derived_vals h hg g z _ (alone_length K.templates.nsed s) bs E hE
    refine ⟨E, hE, ?_⟩
    rw [w.metallicity, w.b50, w.b300, w.b1000]
    simp only [total_alone hsn, if_pos (hpos s hs').1, and_self]
  refine ⟨_, _, _, _, v.metallicity, v.b50, v.b300, v.b1000, ?_⟩
  simp only [if_pos hm]
  simp only [total_dot]
  have get : ∀ (p q : List ℝ), (∀ s, Uses c s → 0 < ent q s) → ∀ f : Derived ℝ → NDA ℝ,
      (∀ s, Uses c s → ∃ E, K.derived g (some (.scalar z)) (some (.vec (alone K.templates.nsed s))) bs none = .ok E ∧ f E = .scalar (ent p s / ent q s)) →
      Between c (fun s w => ∃ E, K.derived g (some (.scalar z)) (some (.vec (alone K.templates.nsed s))) bs none = .ok E ∧ f E = .scalar w) (dot p c / dot q c) := by
    intro p q hq f hf
    obtain ⟨_, s, s', u1, u2, l1, l2⟩ := ratio_between hc0 hu p q hq
    exact ⟨s, s', _, _, u1, u2, hf s u1, hf s' u2, l1, l2⟩
  refine ⟨get _ _ (fun s hs => (hpos s hs).1) (·.metallicity) ?_, get _ _ (fun s hs => (hpos s hs).2) (·.b50) ?_,
    get _ _ (fun s hs => (hpos s hs).2) (·.b300) ?_, get _ _ (fun s hs => (hpos s hs).2) (·.b1000) ?_⟩
  · intro s hs; obtain ⟨E, e0, e1, _, _, _⟩ := alone_vals s hs; exact ⟨E, e0, e1⟩
  · intro s hs; obtain ⟨E, e0, _, e1, _, _⟩ := alone_vals s hs; exact ⟨E, e0, e1⟩
  · intro s hs; obtain ⟨E, e0, _, _, e1, _⟩ := alone_vals s hs; exact ⟨E, e0, e1⟩
  · intro s hs; obtain ⟨E, e0, _, _, _, e1⟩ := alone_vals s hs; exact ⟨E, e0, e1⟩

/-- C175: the mass-to-light ratio of a galaxy in a band lies between those of the templates it is made of. -/
theorem C175_mass_to_light (K : Kc ℝ) (t : Tmpl ℝ) (Ao : AMat ℝ) (h : MassKc K t Ao) (hg : AMat.Good Ao) (g : Reg ℝ) (z : ℝ) (c : List ℝ)
    (hc : c.length = K.templates.nsed) (hc0 : ∀ v ∈ c, 0 ≤ v) (hs : 0 < c.sum) (bs : ℝ) (hbs : -1 < bs) (D : Derived ℝ)
    (hD : K.derived g (some (.scalar z)) (some (.vec c)) bs none = .ok D) (j : Nat) (hj : j < K.responsesOut.length)
    (hpos : ∀ s, Uses c s → ∃ b fb, K.reconstructOut (some (.scalar 0)) (some (.vec (alone K.templates.nsed s))) bs = .ok b ∧ entry b 0 j = some fb ∧ 0 < fb) :
    ∃ v, entry D.mtol 0 j = some v ∧
      Between c (fun s w => ∃ E, K.derived g (some (.scalar z)) (some (.vec (alone K.templates.nsed s))) bs none = .ok E ∧ entry E.mtol 0 j = some w) v := by
  obtain ⟨o, ho, _, hf⟩ := C78_formula K t Ao h hg g z c hc bs D hD
  have hu := uses_of_sum hs
  obtain ⟨⟨M, hM⟩, ss, hss⟩ := (derived_returns h g z c hc bs).mp ⟨D, hD⟩
  have hb1 : (0 : ℝ) < 1 + bs := by linarith
  have rb : ∀ c : List ℝ, c.length = K.templates.nsed → K.reconstructOut (some (.scalar 0)) (some (.vec c)) bs = .ok (.arr [] Ao.nrow [reconRow bs M c]) := by
    intro c hc
    unfold Kc.reconstructOut
    rw [h.out, recon_real _ _ _ _ _ hc, show ((1 : ℝ) + 0) * (1 + bs) - 1 = bs by ring, hM]; rfl
  have al := alone_length K.templates.nsed
  obtain ⟨n, hn⟩ : ∃ n, K.responsesOut[j]? = some n := ⟨_, List.getElem?_eq_getElem hj⟩
  obtain ⟨r, s, hr, hsol⟩ : ∃ r s, g n = some r ∧ r.solarMag = some s := by
    obtain ⟨_, hje⟩ := List.getElem?_eq_some_iff.mp hn
    obtain ⟨r', hr', hs'⟩ := (List.forall₂_iff_get.mp hss).2 j hj (by rw [← hss.length_eq]; exact hj)
    simp only [List.get_eq_getElem] at hr' hs'
    rw [hje] at hr'
    exact ⟨r', _, hr', hs'⟩
  have hL : (0 : ℝ) < 10 ^ (0.4 * s) := Real.rpow_pos_of_pos (by norm_num) _
  obtain ⟨s0, hs0⟩ := hu
  obtain ⟨q, hq⟩ : ∃ q, M[j]? = some q := by
    obtain ⟨b, fb, e1, e2, _⟩ := hpos s0 hs0
    rw [rb _ (al s0)] at e1; cases e1
    simp only [entry, List.getElem?_cons_zero, Option.bind_some, reconRow, List.getElem?_map, Option.map_eq_some_iff] at e2
    obtain ⟨q, e, -⟩ := e2
    exact ⟨q, e⟩
  have hb : ∀ c', entry (.arr [] Ao.nrow [reconRow bs M c']) 0 j = some (dot q c' / (1 + bs)) := by
    intro c'
    simp [entry, reconRow, hq]
  have hpos' : ∀ s, Uses c s → 0 < ent q s := by
    intro s hs
    have hsn : s < K.templates.nsed := by rw [← hc]; exact uses_lt hs
    obtain ⟨b, fb, e1, e2, e3⟩ := hpos s hs
    rw [rb _ (al s)] at e1; cases e1
    rw [hb, dot_alone hsn] at e2; cases e2
    exact (div_pos_iff_of_pos_right hb1).mp e3
  have form : ∀ x y : ℝ, x / (y / (1 + bs) * 10 ^ (0.4 * s)) = x / y * ((1 + bs) / 10 ^ (0.4 * s)) := by
    intro x y
    rw [div_mul_eq_mul_div, div_div_eq_mul_div, mul_div_mul_comm]
  have hF : (0 : ℝ) ≤ (1 + bs) / 10 ^ (0.4 * s) := (div_pos hb1 hL).le
  rw [rb c hc] at ho; cases ho
  have hv := hf j n r s _ hn hr hsol (hb c)
  obtain ⟨hQ, s1, s2, u1, u2, l1, l2⟩ := ratio_between hc0 ⟨s0, hs0⟩ t.mremain q hpos'
  rw [if_pos (div_pos hQ hb1), form, total_dot] at hv
  have value : ∀ s', Uses c s' → ∃ E, K.derived g (some (.scalar z)) (some (.vec (alone K.templates.nsed s'))) bs none = .ok E ∧
      entry E.mtol 0 j = some (ent t.mremain s' / ent q s' * ((1 + bs) / 10 ^ (0.4 * s))) := by
    intro s' hs'
    have hsn : s' < K.templates.nsed := by rw [← hc]; exact uses_lt hs'
    obtain ⟨E, hE⟩ := (derived_returns h g z _ (al s') bs).mpr ⟨⟨M, hM⟩, ss, hss⟩
    obtain ⟨o, ho, _, hf'⟩ := C78_formula K t Ao h hg g z _ (al s') bs E hE
    rw [rb _ (al s')] at ho; cases ho
    have := hf' j n r s _ hn hr hsol (hb _)
    rw [dot_alone hsn, if_pos (div_pos (hpos' s' hs') hb1), form, total_alone hsn] at this
    exact ⟨E, hE, this⟩
  exact ⟨_, hv, s1, s2, _, _, u1, u2, value s1 u1, value s2 u2, mul_le_mul_of_nonneg_right l1 hF, mul_le_mul_of_nonneg_right l2 hF⟩

/-! ### Examples -/

theorem uses_two {x y : ℝ} {t : Nat} (h : Uses [x, y] t) : t = 0 ∨ t = 1 := by
  have := uses_lt h
  simp at this
  omega

theorem alone_two : alone 2 0 = [1, 0] ∧ alone 2 1 = [0, 1] := by
  constructor <;> simp [alone, List.range_succ]

/-- Not vacuous (`C175_kcorrect`): a galaxy made of both templates, with flux of each in the bands; the K-corrections of the templates differ. -/
example : (∃ k, demoKc2.kcorrect (some (.scalar 2)) (some (.vec [1, 1])) 0 = .ok k) ∧ (∀ t, Uses [1, 1] t → ∃ a b fa fb,
      demoKc2.reconstruct (some (.scalar 2)) (some (.vec (alone demoKc2.templates.nsed t))) 0 = .ok a ∧
      demoKc2.reconstructOut (some (.scalar 0)) (some (.vec (alone demoKc2.templates.nsed t))) 0 = .ok b ∧ entry a 0 1 = some fa ∧ entry b 0 1 = some fb ∧
      0 < fa ∧ 0 < fb) := by
  have h0 : demoAm2.at 0 = .ok [[1, 2], [3, 1]] := at_node (k := 0) demo_ready.good (by simp [demoAm2])
  have hx : ∀ c : List ℝ, c.length = 2 → demoKc2.reconstruct (some (.scalar 2)) (some (.vec c)) 0 = .ok (.arr [] 2 [reconRow 0 [[1, 2], [3 / 2, 3 / 2]] c]) := by
    intro c hc
    refine (recon_real demoKc2.toFitter demoAm2 2 c 0 hc).trans ?_
    rw [show ((1 : ℝ) + 2) * (1 + 0) - 1 = 2 by norm_num, demoAm2_at2]
    rfl
  have hy : ∀ c : List ℝ, c.length = 2 → demoKc2.reconstructOut (some (.scalar 0)) (some (.vec c)) 0 = .ok (.arr [] 2 [reconRow 0 [[1, 2], [3, 1]] c]) := by
    intro c hc
    refine (recon_real demoKc2.toFitter demoAm2 0 c 0 hc).trans ?_
    rw [show ((1 : ℝ) + 0) * (1 + 0) - 1 = 0 by norm_num, h0]
    rfl
  refine ⟨(C67_model_magnitudes demoKc2 demoAm2 demoAm2 rfl rfl 2 0 [1, 1] rfl).1.mpr ⟨⟨_, hx _ rfl⟩, ⟨_, hy _ rfl⟩⟩, fun t ht => ?_⟩
  have e : demoKc2.templates.nsed = 2 := rfl
  rw [e]
  rcases uses_two ht with rfl | rfl
  · rw [alone_two.1]
    exact ⟨_, _, 3 / 2, 3, hx _ rfl, hy _ rfl, by simp [entry, reconRow, dot, sumL_real], by simp [entry, reconRow, dot, sumL_real], by norm_num, by norm_num⟩
  · rw [alone_two.2]
    exact ⟨_, _, 3 / 2, 1, hx _ rfl, hy _ rfl, by simp [entry, reconRow, dot, sumL_real], by simp [entry, reconRow, dot, sumL_real], by norm_num, by norm_num⟩

/-- Not vacuous (`C175_derived`, `C175_mass_to_light`). -/
example : (∃ D, demoMass.derived demoReg (some (.scalar 1)) (some (.vec [2, 1])) 0 none = .ok D) ∧
    (∀ s, Uses [2, 1] s → 0 < ent demoTmpl.mremain s ∧ 0 < ent demoTmpl.intsfh s) ∧ (∀ s, Uses [2, 1] s → ∃ b fb,
      demoMass.reconstructOut (some (.scalar 0)) (some (.vec (alone demoMass.templates.nsed s))) 0 = .ok b ∧ entry b 0 0 = some fb ∧ 0 < fb) := by
  have hy : ∀ c : List ℝ, c.length = 2 → demoMass.reconstructOut (some (.scalar 0)) (some (.vec c)) 0 = .ok (.arr [] 1 [reconRow 0 [[1, 2]] c]) := by
    intro c hc
    refine (recon_real demoMass.toFitter demoAm 0 c 0 hc).trans ?_
    rw [show ((1 : ℝ) + 0) * (1 + 0) - 1 = 0 by norm_num, demoAm_at0]
    rfl
  have e : demoMass.templates.nsed = 2 := rfl
  refine ⟨demo_derived, fun s hs => ?_, fun s hs => ?_⟩
  · rcases uses_two hs with rfl | rfl <;> simp [demoTmpl, ent]
  · rw [e]
    rcases uses_two hs with rfl | rfl
    · rw [alone_two.1]
      exact ⟨_, 1, hy _ rfl, by simp [entry, reconRow, dot, sumL_real], by norm_num⟩
    · rw [alone_two.2]
      exact ⟨_, 2, hy _ rfl, by simp [entry, reconRow, dot, sumL_real], by norm_num⟩

end KC
