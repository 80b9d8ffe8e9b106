import Mathlib.Probability.Distributions.Gaussian.Real
import Mathlib.Probability.Independence.InfinitePi
import Verif.Props.ToAb

/-! Distribution of the Monte Carlo maggies. -/

namespace KC
open Spec MeasureTheory ProbabilityTheory

/-- What `np.random.normal` is assumed to supply: deviates (listed by object, sample and position in the call) that are independent and
have the standard normal distribution. -/
structure Deviates {Ω : Type} [MeasurableSpace Ω] (P : Measure Ω) (noise : Ω → Nat → Nat → Nat → ℝ) : Prop where
  law : ∀ i k p, HasLaw (fun ω => noise ω i k p) (gaussianReal 0 1) P
  indep : iIndepFun (fun (t : ℕ × ℕ × ℕ) ω => noise ω t.1 t.2.1 t.2.2) P

theorem shifted_law {Ω : Type} [MeasurableSpace Ω] {P : Measure Ω} {X : Ω → ℝ} (h : HasLaw X (gaussianReal 0 1) P) (x v : ℝ) (hv : 0 < v) :
    HasLaw (fun ω => x + X ω / Real.sqrt v) (gaussianReal x (Real.toNNReal (1 / v))) P := by
  have h1 := gaussianReal_const_add (gaussianReal_div_const h (Real.sqrt v)) x
  have e1 : (0 : ℝ) / Real.sqrt v + x = x := by simp
  rw [e1] at h1
  convert h1 using 2
  ext
  simp only [NNReal.coe_div, NNReal.coe_one]
  rw [Real.coe_toNNReal _ (by positivity)]
  show 1 / v = 1 / (Real.sqrt v ^ 2)
  rw [Real.sq_sqrt hv.le]

/-- Sample values made of the deviates: object `i`, band `j`, sample `k`. -/
noncomputable def sampleOf {Ω : Type} (noise : Ω → Nat → Nat → Nat → ℝ) (p : Nat → Nat → Nat) (m iv : Nat → Nat → ℝ) (t : ℕ × ℕ × ℕ) (ω : Ω) : ℝ :=
  if 0 < iv t.1 t.2.1 then m t.1 t.2.1 + noise ω t.1 t.2.2 (p t.1 t.2.1) / Real.sqrt (iv t.1 t.2.1) else m t.1 t.2.1

/-- The samples are independent if no deviate is used twice; `n` bounds the objects with noise. -/
theorem sampleOf_indep {Ω : Type} [MeasurableSpace Ω] {P : Measure Ω} {noise : Ω → Nat → Nat → Nat → ℝ} (hd : Deviates P noise)
    (p : Nat → Nat → Nat) (m iv : Nat → Nat → ℝ) (n : Nat) (hn : ∀ i j, 0 < iv i j → i < n)
    (hp : ∀ i j j', 0 < iv i j → 0 < iv i j' → p i j = p i j' → j = j') : iIndepFun (sampleOf noise p m iv) P := by
  classical
  let g : ℕ × ℕ × ℕ → ℕ × ℕ × ℕ := fun t => if 0 < iv t.1 t.2.1 then (t.1, t.2.2, p t.1 t.2.1) else (t.1 + n, t.2.2, t.2.1)
  have hg : g.Injective := by
    rintro ⟨i, j, k⟩ ⟨i', j', k'⟩ h
    by_cases h1 : 0 < iv i j <;> by_cases h2 : 0 < iv i' j'
    · simp only [g, h1, h2, if_true, Prod.mk.injEq] at h
      obtain ⟨rfl, rfl, h⟩ := h
      rw [hp i j j' h1 h2 h]
    · simp only [g, h1, h2, if_true, if_false, Prod.mk.injEq] at h
      have := hn i j h1
      omega
    · simp only [g, h1, h2, if_true, if_false, Prod.mk.injEq] at h
      have := hn i' j' h2
      omega
    · simp only [g, h1, h2, if_false, Prod.mk.injEq] at h
      obtain ⟨h3, rfl, rfl⟩ := h
      have : i = i' := by omega
      rw [this]
  have h1 := (hd.indep.precomp hg).comp
    (fun t x => if 0 < iv t.1 t.2.1 then m t.1 t.2.1 + x / Real.sqrt (iv t.1 t.2.1) else m t.1 t.2.1) (by
      intro t
      by_cases h : 0 < iv t.1 t.2.1
      · simp only [h, if_true]; fun_prop
      · simp only [h, if_false]; fun_prop)
  convert h1 using 1
  funext t ω
  simp only [sampleOf, Function.comp_apply, g]
  split <;> rfl

theorem column_entry {lead : List Nat} {mc : Nat} {mm : List (List ℝ)} (hl : ∀ r ∈ mm, r.length = mc) {j k : Nat} (hk : k < mc) {x : ℝ}
    (h : (column mm k)[j]? = some x) : entry (.arr lead mc mm) j k = some x := by
  unfold column at h
  rw [List.getElem?_map] at h
  cases hj : mm[j]? with
  | none => rw [hj] at h; cases h
  | some row =>
    rw [hj] at h
    have hr := hl row (List.mem_of_getElem? hj)
    simp only [entry, hj, Option.bind_some]
    simp only [Option.map_some, Option.some.injEq] at h
    rw [← h, getD_lt (by omega), List.getElem?_eq_getElem (by omega)]

/-- C115, one object, any class: sample `k` of the maggies in band `j` is, as a random variable, normal with mean the AB-corrected maggies and variance
the inverse of the AB-corrected ivar; it is constant where ivar is zero; all samples of all bands are independent. -/
theorem C115_one {Ω : Type} [MeasurableSpace Ω] (P : Measure Ω) (noise : Ω → Nat → Nat → Nat → ℝ) (hd : Deviates P noise) (nnls : Nnls ℝ)
    (hlen : NnlsLen nnls) (F : Fitter ℝ) (hr : AbReady F.abCls F.responses.length) (hnb : F.responses.length ≠ 1) (Am : AMat ℝ)
    (hA : F.Amatrix = some Am) (z : ℝ) (m iv : List ℝ) (hm : m.length = F.responses.length) (hiv : iv.length = F.responses.length)
    (hpos : ∀ v ∈ iv, 0 ≤ v) (mc : Nat) (hmc : 0 < mc) :
    ∃ S : ℕ × ℕ → Ω → ℝ,
      (∀ ω out, F.fitCoeffs nnls (some (.scalar z)) (some (.vec m)) (some (.vec iv)) mc (noise ω) = .ok out →
        ∃ cm mm, out.mc = some (cm, mm) ∧ mm.shape = [F.responses.length, mc] ∧
          ∀ j k, j < F.responses.length → k < mc → entry mm j k = some (S (j, k) ω)) ∧
      (∀ j k x v, m[j]? = some x → iv[j]? = some v → 0 < v →
        HasLaw (S (j, k)) (gaussianReal (x * abFactor F.abCls j) (Real.toNNReal (abFactor F.abCls j ^ 2 / v))) P) ∧
      (∀ j k x, m[j]? = some x → iv[j]? = some 0 → ∀ ω, S (j, k) ω = x * abFactor F.abCls j) ∧ iIndepFun S P := by
  have em : ∀ j x, m[j]? = some x → (m.mapIdx (fun j x => x * abFactor F.abCls j))[j]? = some (x * abFactor F.abCls j) := by
    intro j x hx; rw [List.getElem?_mapIdx, hx]; rfl
  have ei : ∀ j v, iv[j]? = some v → (iv.mapIdx (fun j x => x / abFactor F.abCls j ^ 2))[j]? = some (v / abFactor F.abCls j ^ 2) := by
    intro j x hx; rw [List.getElem?_mapIdx, hx]; rfl
  have hf := abFactor_pos F.abCls
  obtain ⟨p, hpi, hp⟩ := C55_monte_carlo nnls hlen F.plain (Or.inl rfl) hnb Am hA z
    (m.mapIdx (fun j x => x * abFactor F.abCls j)) (iv.mapIdx (fun j x => x / abFactor F.abCls j ^ 2))
    (by rw [List.length_mapIdx]; exact hm) (by rw [List.length_mapIdx]; exact hiv)
    (by
      intro w hw
      obtain ⟨i, hi, rfl⟩ := List.mem_iff_getElem.mp hw
      rw [List.getElem_mapIdx]
      exact div_nonneg (hpos _ (List.getElem_mem _)) (by positivity))
  set m' := m.mapIdx (fun j x => x * abFactor F.abCls j) with hm'
  set iv' := iv.mapIdx (fun j x => x / abFactor F.abCls j ^ 2) with hiv'
  have hind := sampleOf_indep hd (fun _ => p) (fun _ j => ent m' j) (fun i j => if i = 0 then ent iv' j else 0) 1
    (by intro i j h; by_contra hc; rw [if_neg (by omega)] at h; exact lt_irrefl _ h)
    (by
      intro i j j' h h' he
      by_cases hi : i = 0
      · rw [if_pos hi] at h h'
        have key : ∀ j, 0 < ent iv' j → iv'[j]? = some (ent iv' j) := by
          intro j h
          cases e : iv'[j]? with
          | none => simp [ent, e] at h
          | some v => rw [ent_eq e]
        exact hpi j j' _ _ (key j h) (key j' h') h h' he
      · rw [if_neg hi] at h; exact absurd h (lt_irrefl _))
  have hS : ∀ j k x v ω, m[j]? = some x → iv[j]? = some v →
      sampleOf noise (fun _ => p) (fun _ j => ent m' j) (fun i j => if i = 0 then ent iv' j else 0) (0, j, k) ω =
        if 0 < v then x * abFactor F.abCls j + noise ω 0 k (p j) / Real.sqrt (v / abFactor F.abCls j ^ 2) else x * abFactor F.abCls j := by
    intro j k x v ω hx hv
    simp only [sampleOf, if_true, ent_eq (em j x hx), ent_eq (ei j v hv)]
    have : 0 < v / abFactor F.abCls j ^ 2 ↔ 0 < v := by
      have := hf j
      constructor
      · intro h; by_contra hc; push Not at hc
        exact absurd h (not_lt.mpr (div_nonpos_of_nonpos_of_nonneg hc (by positivity)))
      · intro h; positivity
    simp only [this]
  refine ⟨fun t => sampleOf noise (fun _ => p) (fun _ j => ent m' j) (fun i j => if i = 0 then ent iv' j else 0) (0, t.1, t.2), ?_, ?_, ?_, ?_⟩
  · intro ω out h
    rw [fit_eff nnls F hr z m iv hm hiv] at h
    obtain ⟨_, cm, mm, h1, _, hl, _, hl4, hcol⟩ := hp mc hmc (noise ω) out h
    refine ⟨_, _, h1, rfl, fun j k hj hk => ?_⟩
    obtain ⟨_, c2, c3⟩ := hcol k hk
    have hjm := List.getElem?_eq_getElem (show j < m.length by omega)
    have hji := List.getElem?_eq_getElem (show j < iv.length by omega)
    apply column_entry hl4 hk
    simp only
    rw [hS j k _ _ ω hjm hji]
    have hfj := hf j
    rcases (hpos _ (List.getElem_mem (show j < iv.length by omega))).lt_or_eq with h0 | h0
    · rw [if_pos h0]
      exact c3 j _ _ (em j _ hjm) (ei j _ hji) (by positivity)
    · rw [if_neg (by rw [← h0]; exact lt_irrefl _)]
      exact c2 j _ (em j _ hjm) (by rw [ei j _ hji, ← h0, zero_div])
  · intro j k x v hx hv h0
    have hfj := hf j
    have h1 := shifted_law (hd.law 0 k (p j)) (x * abFactor F.abCls j) (v / abFactor F.abCls j ^ 2) (by positivity)
    rw [one_div_div] at h1
    convert h1 using 2 with ω
    simp only
    rw [hS j k x v ω hx hv, if_pos h0]
  · intro j k x hx hv ω
    simp only
    rw [hS j k x 0 ω hx hv, if_neg (lt_irrefl _)]
  · exact hind.precomp (g := fun t : ℕ × ℕ => (0, t.1, t.2)) (by rintro ⟨a, b⟩ ⟨c, d⟩ h; simpa using h)

theorem flatten_at {β : Type} {nb : Nat} : ∀ (l : List (List β)) (_ : ∀ b ∈ l, b.length = nb) (i j : Nat) (_ : j < nb),
    l.flatten[i * nb + j]? = (l[i]?).bind (fun b => b[j]?)
  | [], _, _, _, _ => by simp
  | b :: l, h, 0, j, hj => by
    have := h b (by simp)
    rw [List.flatten_cons, Nat.zero_mul, Nat.zero_add, List.getElem?_append_left (by omega)]; simp
  | b :: l, h, i + 1, j, hj => by
    have hb := h b (by simp)
    have ih := flatten_at l (fun b hb => h b (by simp [hb])) i j hj
    rw [List.flatten_cons, List.getElem?_append_right (by rw [hb]; nlinarith)]
    rw [show (i + 1) * nb + j - b.length = i * nb + j by rw [hb, Nat.succ_mul]; omega, ih]; simp

/-- C115 for a batch: the samples of all objects, bands and samples are independent, with the law of the object alone; sample `k` does not depend on
the number of samples asked for. -/
theorem C115_batch {Ω : Type} [MeasurableSpace Ω] (P : Measure Ω) (noise : Ω → Nat → Nat → Nat → ℝ) (hd : Deviates P noise) (nnls : Nnls ℝ)
    (hlen : NnlsLen nnls) (F : Fitter ℝ) (hF : NoAb F) (hnb : F.responses.length ≠ 1) (Am : AMat ℝ) (hA : F.Amatrix = some Am) (zs : List ℝ)
    (ms ivs : List (List ℝ)) (hn : zs.length ≠ 1) (hm : ms.length = zs.length) (hiv : ivs.length = zs.length)
    (hmr : ∀ r ∈ ms, r.length = F.responses.length) (hivr : ∀ r ∈ ivs, r.length = F.responses.length) (hpos : ∀ r ∈ ivs, ∀ v ∈ r, 0 ≤ v) :
    ∃ S : ℕ × ℕ × ℕ → Ω → ℝ,
      (∀ (mc : Nat), 0 < mc → ∀ ω out, F.fitCoeffs nnls (some (.vec zs)) (some (.arr [zs.length] F.responses.length ms))
          (some (.arr [zs.length] F.responses.length ivs)) mc (noise ω) = .ok out →
        ∃ cm mm, out.mc = some (cm, mm) ∧ mm.shape = [zs.length, F.responses.length, mc] ∧
          ∀ i j k, i < zs.length → j < F.responses.length → k < mc → entry mm (i * F.responses.length + j) k = some (S (i, j, k) ω)) ∧
      (∀ (i j k : Nat) m iv x v, ms[i]? = some m → ivs[i]? = some iv → m[j]? = some x → iv[j]? = some v → 0 < v →
        HasLaw (S (i, j, k)) (gaussianReal x (Real.toNNReal (1 / v))) P) ∧
      (∀ (i j k : Nat) m iv x, ms[i]? = some m → ivs[i]? = some iv → m[j]? = some x → iv[j]? = some 0 → ∀ ω, S (i, j, k) ω = x) ∧
      iIndepFun S P := by
  have one : ∀ i, ∃ p : Nat → Nat, i < zs.length →
      (∀ a b x y, (ivs.getD i [])[a]? = some x → (ivs.getD i [])[b]? = some y → 0 < x → 0 < y → p a = p b → a = b) ∧
      ∀ (mc : Nat) (_ : 0 < mc) (noise : Nat → Nat → Nat → ℝ) (out : FitOut ℝ)
        (_ : F.fitCoeffs nnls (some (.scalar (ent zs i))) (some (.vec (ms.getD i []))) (some (.vec (ivs.getD i []))) mc noise = .ok out),
        ∃ cm mm, out.mc = some (.arr [F.templates.nsed] mc cm, .arr [F.responses.length] mc mm) ∧
          mm.length = F.responses.length ∧ (∀ r ∈ mm, r.length = mc) ∧ ∀ k < mc,
            (∀ (j : Nat) x, (ms.getD i [])[j]? = some x → (ivs.getD i [])[j]? = some 0 → (column mm k)[j]? = some x) ∧
            ∀ (j : Nat) x v, (ms.getD i [])[j]? = some x → (ivs.getD i [])[j]? = some v → 0 < v →
              (column mm k)[j]? = some (x + noise 0 k (p j) / Real.sqrt v) := by
    intro i
    by_cases hi : i < zs.length
    · have h1 : i < ms.length := by omega
      have h2 : i < ivs.length := by omega
      obtain ⟨p, hp1, hp2⟩ := C55_monte_carlo nnls hlen F hF hnb Am hA (ent zs i) (ms.getD i []) (ivs.getD i [])
        (by rw [getD_lt h1]; exact hmr _ (List.getElem_mem _)) (by rw [getD_lt h2]; exact hivr _ (List.getElem_mem _))
        (by rw [getD_lt h2]; exact hpos _ (List.getElem_mem _))
      refine ⟨p, fun _ => ⟨hp1, fun mc hmc noise out h => ?_⟩⟩
      obtain ⟨_, cm, mm, q1, _, q3, _, q5, q6⟩ := hp2 mc hmc noise out h
      exact ⟨cm, mm, q1, q3, q5, fun k hk => (q6 k hk).2⟩
    · exact ⟨id, fun h => absurd h hi⟩
  choose p hp using one
  have hind := sampleOf_indep hd p (fun i j => ent (ms.getD i []) j) (fun i j => if i < zs.length then ent (ivs.getD i []) j else 0) zs.length
    (by intro i j h; by_contra hc; rw [if_neg hc] at h; exact lt_irrefl _ h)
    (by
      intro i j j' h h' he
      by_cases hi : i < zs.length
      · rw [if_pos hi] at h h'
        have key : ∀ j, 0 < ent (ivs.getD i []) j → (ivs.getD i [])[j]? = some (ent (ivs.getD i []) j) := by
          intro j h
          cases e : (ivs.getD i [])[j]? with
          | none =>
            have h3 : ent (ivs.getD i []) j = 0 := by unfold ent; rw [List.getD, e]; simp
            rw [h3] at h; exact absurd h (lt_irrefl _)
          | some v => rw [ent_eq e]
        exact (hp i hi).1 j j' _ _ (key j h) (key j' h') h h' he
      · rw [if_neg hi] at h; exact absurd h (lt_irrefl _))
  have hS : ∀ i j k x v ω, i < zs.length → (ms.getD i [])[j]? = some x → (ivs.getD i [])[j]? = some v →
      sampleOf noise p (fun i j => ent (ms.getD i []) j) (fun i j => if i < zs.length then ent (ivs.getD i []) j else 0) (i, j, k) ω =
        if 0 < v then x + noise ω i k (p i j) / Real.sqrt v else x := by
    intro i j k x v ω hi hx hv
    simp only [sampleOf, if_pos hi, ent_eq hx, ent_eq hv]
  refine ⟨sampleOf noise p (fun i j => ent (ms.getD i []) j) (fun i j => if i < zs.length then ent (ivs.getD i []) j else 0), ?_, ?_, ?_, hind⟩
  · intro mc hmc ω out h
    obtain ⟨cs, hcl, hcs, _, hmcv⟩ := (C52_batch_partial nnls hlen F hF hnb zs ms ivs hn hm hiv hmr hivr mc (noise ω)).2 out h
    rw [if_neg (by omega)] at hmcv
    have each : ∀ i (hi : i < zs.length), (cs[i]'(by omega)).2.2.length = F.responses.length ∧ (∀ r ∈ (cs[i]'(by omega)).2.2, r.length = mc) ∧ ∀ k < mc,
            (∀ (j : Nat) x, (ms.getD i [])[j]? = some x → (ivs.getD i [])[j]? = some 0 → (column (cs[i]'(by omega)).2.2 k)[j]? = some x) ∧
            ∀ (j : Nat) x v, (ms.getD i [])[j]? = some x → (ivs.getD i [])[j]? = some v → 0 < v →
              (column (cs[i]'(by omega)).2.2 k)[j]? = some (x + noise ω i k (p i j) / Real.sqrt v) := by
      intro i hi
      have h1 := hcs i _ (List.getElem?_eq_getElem (by omega))
      simp only at h1
      obtain ⟨cm, mm, q1, q2, q3, q4⟩ := (hp i hi).2 mc hmc _ _ h1
      rw [if_neg (by omega)] at q1
      simp only [Option.some.injEq, Prod.mk.injEq, NDA.arr.injEq, true_and] at q1
      rw [q1.2]
      exact ⟨q2, q3, q4⟩
    have hblock : ∀ b ∈ cs.map (fun r => r.2.2), b.length = F.responses.length := by
      intro b hb
      obtain ⟨r, hr, rfl⟩ := List.mem_map.mp hb
      obtain ⟨i, hi, rfl⟩ := List.mem_iff_getElem.mp hr
      exact (each i (by omega)).1
    refine ⟨_, _, hmcv, rfl, fun i j k hi hj hk => ?_⟩
    obtain ⟨q1, q2, q3⟩ := each i hi
    have e : entry (NDA.arr [zs.length, F.responses.length] mc (cs.map (fun r => r.2.2)).flatten) (i * F.responses.length + j) k =
        entry (NDA.arr [F.responses.length] mc (cs[i]'(by omega)).2.2) j k := by
      simp only [entry]
      rw [flatten_at _ hblock i j hj, List.getElem?_map, List.getElem?_eq_getElem (by omega)]
      simp
    rw [e]
    apply column_entry q2 hk
    have h1 : i < ms.length := by omega
    have h2 : i < ivs.length := by omega
    have l1 : (ms.getD i []).length = F.responses.length := by rw [getD_lt h1]; exact hmr _ (List.getElem_mem _)
    have l2 : (ivs.getD i []).length = F.responses.length := by rw [getD_lt h2]; exact hivr _ (List.getElem_mem _)
    have hjm := List.getElem?_eq_getElem (show j < (ms.getD i []).length by omega)
    have hji := List.getElem?_eq_getElem (show j < (ivs.getD i []).length by omega)
    rw [hS i j k _ _ ω hi hjm hji]
    have hmem : ivs.getD i [] ∈ ivs := by rw [getD_lt h2]; exact List.getElem_mem _
    rcases (hpos _ hmem _ (List.getElem_mem (show j < (ivs.getD i []).length by omega))).lt_or_eq with h0 | h0
    · rw [if_pos h0]
      exact (q3 k hk).2 j _ _ hjm hji h0
    · rw [if_neg (by rw [← h0]; exact lt_irrefl _)]
      exact (q3 k hk).1 j _ hjm (by rw [hji, ← h0])
  · intro i j k m iv x v h1 h2 hx hv h0
    have e1 : ms.getD i [] = m := by simp [List.getD, h1]
    have e2 : ivs.getD i [] = iv := by simp [List.getD, h2]
    have hi : i < zs.length := by have := (List.getElem?_eq_some_iff.mp h1).1; omega
    convert shifted_law (hd.law i k (p i j)) x v h0 using 2 with ω
    rw [hS i j k x v ω hi (by rw [e1]; exact hx) (by rw [e2]; exact hv), if_pos h0]
  · intro i j k m iv x h1 h2 hx hv ω
    have e1 : ms.getD i [] = m := by simp [List.getD, h1]
    have e2 : ivs.getD i [] = iv := by simp [List.getD, h2]
    have hi : i < zs.length := by have := (List.getElem?_eq_some_iff.mp h1).1; omega
    rw [hS i j k x 0 ω hi (by rw [e1]; exact hx) (by rw [e2]; exact hv), if_neg (lt_irrefl _)]

/-- Such deviates exist: coordinates of the infinite product of normal distributions. -/
theorem deviates_exist : Deviates (Measure.infinitePi (fun _ : ℕ × ℕ × ℕ => gaussianReal 0 1)) (fun ω i k p => ω (i, k, p)) := by
  refine ⟨fun i k p => ⟨(measurable_pi_apply (i, k, p)).aemeasurable, ?_⟩, ?_⟩
  · exact Measure.infinitePi_map_eval (fun _ : ℕ × ℕ × ℕ => gaussianReal 0 1) (i, k, p)
  · exact iIndepFun_infinitePi (P := fun _ : ℕ × ℕ × ℕ => gaussianReal 0 1) (X := fun _ x => x) (fun _ => measurable_id)

/-- Not vacuous (C115): a fitter, a solver and photometry with bands of positive and zero weight. -/
example : ∃ (Ω : Type) (_ : MeasurableSpace Ω) (P : Measure Ω) (noise : Ω → Nat → Nat → Nat → ℝ), Deviates P noise ∧ NnlsLen demoNnls ∧
    NoAb demoFitter2 ∧ AbReady demoFitter2.abCls demoFitter2.responses.length ∧ demoFitter2.responses.length = 2 ∧
    demoFitter2.Amatrix = some demoAm2 := by
  exact ⟨_, _, _, _, deviates_exist, demoNnls_ok.len, Or.inl rfl, trivial, rfl, rfl⟩

end KC
