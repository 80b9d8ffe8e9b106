import Verif.Lemmas.FlAMat
import Verif.Props.Inputs

/-!
# C132–C134: the A matrix and `reconstruct` in floating point
-/

namespace KC
open Spec

/-! ### a constructed matrix -/

theorem storeRow_num {n : Nat} {v : NDA Fl} {r : List Fl} (h : storeRow n v = .ok r) : ∀ a ∈ r, a.Num := by
  unfold storeRow at h
  split at h
  · cases h
    intro a ha
    rw [(List.mem_replicate.mp ha).2]
    exact f32_num _
  · split at h
    · cases h
      intro a ha
      obtain ⟨b, _, rfl⟩ := List.mem_map.mp ha
      exact f32_num _
    · split at h
      · cases h
        intro a ha
        rw [(List.mem_replicate.mp ha).2]
        exact f32_num _
      · cases h
  · cases h

theorem respRow_num {lib : Lib Fl} {g : Reg Fl} {s : Sed Fl} {n : Name} {r : List Fl} (h : respRow lib g s n = .ok r) : ∀ a ∈ r, a.Num := by
  unfold respRow at h
  cases hg : g n with
  | none => rw [hg] at h; simp at h
  | some o =>
    rw [hg] at h
    simp only [ok_bind] at h
    cases hc : o.curve with
    | error e => rw [hc] at h; simp at h
    | ok c =>
      rw [hc, ok_bind] at h
      split at h
      · cases hp : projectSed lib c s with
        | error e => rw [hp] at h; simp at h
        | ok v => rw [hp, ok_bind] at h; exact storeRow_num h
      · unfold chunkRow at h
        rw [bind_ok_iff] at h
        obtain ⟨parts, hm, h⟩ := h
        rw [pure_py] at h
        cases h
        rw [mapM_ok_iff] at hm
        intro a ha
        obtain ⟨p, hp, ha⟩ := List.mem_flatten.mp ha
        obtain ⟨j, hj, rfl⟩ := List.mem_iff_getElem.mp hp
        have hl := hm.length_eq
        have := (List.forall₂_iff_get.mp hm).2 j (by omega) hj
        simp only [List.get_eq_getElem] at this
        rw [bind_ok_iff] at this
        obtain ⟨v, _, hv⟩ := this
        exact storeRow_num hv a ha

/-- A matrix built on a grid of distinct float32 redshifts. -/
theorem calc_good_fl {lib : Lib Fl} {disk : Disk Fl} {lo hi : Fl} {n : Nat} (h2 : 2 ≤ n) (hn : n ≤ 2 ^ 24) (hlo : lo.val ≤ hi.val)
    (hs : (redshiftGrid lo hi n).Pairwise (fun a b => a.val < b.val)) {R : List Name} {w w' : Shared Fl}
    {A : AMat Fl} (h : calcAmatrix lib disk (redshiftGrid lo hi n) R w = (w', .ok A)) : FlGood A ∧ A.x = redshiftGrid lo hi n := by
  obtain ⟨hlen, _, _, hnum⟩ := C129_grid lo hi h2 hn hlo
  obtain ⟨_, _, ms, hmk, hall⟩ := calcAmatrix_ok h
  have hx := amat_grid (hs.imp le_of_lt) hmk
  have hrows : ∀ M ∈ ms, (M.length = R.length ∧ ∀ row ∈ M, row.length = w.sed.nsed) ∧ ∀ row ∈ M, ∀ a ∈ row, a.Num := by
    intro M hM
    obtain ⟨i, hi', rfl⟩ := List.mem_iff_getElem.mp hM
    obtain ⟨t, ht, hrow⟩ := (List.forall₂_iff_get.mp hall).2 i (by rw [hall.length_eq]; exact hi') hi'
    obtain ⟨_, k2, _, k4, _⟩ := setRedshift_fields w.sed ((redshiftGrid lo hi n).get ⟨i, by rw [hall.length_eq]; exact hi'⟩)
    rw [ht] at k2 k4
    simp only at k2 k4
    have hns : t.nsed = w.sed.nsed := by rw [Sed.nsed, Sed.nsed, k2]
    have hf : t.flux.length = t.nsed := by rw [k4, Sed.nsed, k2]; simp
    rw [mapM_ok_iff] at hrow
    have key : ∀ row ∈ ms.get ⟨i, hi'⟩, ∃ m, respRow lib w'.reg t m = .ok row := by
      intro row hr
      obtain ⟨j, hj, rfl⟩ := List.mem_iff_getElem.mp hr
      exact ⟨_, (List.forall₂_iff_get.mp hrow).2 j (by rw [hrow.length_eq]; exact hj) hj⟩
    refine ⟨⟨hrow.length_eq.symm, ?_⟩, ?_⟩
    · intro row hr
      obtain ⟨m, hm⟩ := key row hr
      rw [← hns]
      exact respRow_length hf hm
    · intro row hr
      obtain ⟨m, hm⟩ := key row hr
      exact respRow_num hm
  unfold mkAMat at hmk
  split at hmk
  · rename_i hl
    have hys : A.ys = (argsort (redshiftGrid lo hi n)).map (fun i => ms.getD i []) := by cases hmk; rfl
    have hr' : A.nrow = R.length := by cases hmk; rfl
    have hc' : A.ncol = w.sed.nsed := by cases hmk; rfl
    have hmem : ∀ M ∈ A.ys, M ∈ ms := by
      intro M hM
      rw [hys] at hM
      obtain ⟨i, hi, rfl⟩ := List.mem_map.mp hM
      have hi' : i < ms.length := by rw [← hl]; exact argsort_lt _ i hi
      rw [getD_lt hi']
      exact List.getElem_mem _
    refine ⟨⟨?_, ?_, ?_, ?_, ?_, ?_⟩, hx⟩
    · rw [hx]; exact hs
    · rw [hx, hlen]; exact h2
    · rw [hys, hx, List.length_map, argsort_length]
    · intro M hM
      rw [hr', hc']
      exact (hrows M (hmem M hM)).1
    · intro z hz
      rw [hx] at hz
      have := hnum z hz
      refine ⟨this.2, ?_⟩
      rw [this.1]; simp
    · intro M hM
      exact (hrows M (hmem M hM)).2
  · cases hmk

/-! ### C132 -/

/-- the entry of a matrix -/
def mentry {α : Type} (M : List (List α)) (r j : Nat) : Option α := (M[r]?).bind (fun row => row[j]?)

theorem linBetween_mentry {A B : List (List Fl)} {xlo xhi q : Fl} {r j : Nat} :
    mentry (linBetween xlo xhi q A B) r j = (mentry A r j).bind (fun a => (mentry B r j).map (fun b => linEntry xlo xhi q a b)) := by
  unfold mentry linBetween
  rw [List.getElem?_zipWith]
  cases A[r]? with
  | none => rfl
  | some ra =>
    cases B[r]? with
    | none => simp
    | some rb =>
      simp only [Option.bind_some]
      rw [List.getElem?_zipWith]
      cases ra[j]? <;> cases rb[j]? <;> rfl

theorem mentry_mem {M : List (List Fl)} {r j : Nat} {a : Fl} (h : mentry M r j = some a) : ∃ row ∈ M, a ∈ row := by
  unfold mentry at h
  rw [Option.bind_eq_some_iff] at h
  obtain ⟨row, h1, h2⟩ := h
  exact ⟨row, List.mem_of_getElem? h1, List.mem_of_getElem? h2⟩

theorem mentry_some {M : List (List Fl)} {n k r j : Nat} (h : M.length = n ∧ ∀ row ∈ M, row.length = k) (hr : r < n) (hj : j < k) :
    ∃ a, mentry M r j = some a := by
  unfold mentry
  have h1 : M[r]? = some (M[r]'(by omega)) := List.getElem?_eq_getElem _
  have h2 := h.2 (M[r]'(by omega)) (List.getElem_mem _)
  exact ⟨(M[r]'(by omega))[j]'(by omega), by rw [h1, Option.bind_some]; exact List.getElem?_eq_getElem _⟩

/-- **C132.** In floating point, every entry of the matrix at a redshift `q` in the range is the straight line through the two nodes around `q`, up to one
rounding error of the larger of the two node values and six rounding errors of their difference. -/
theorem C132_matrix_accuracy {A : AMat Fl} (h : FlGood A) {q : Fl} (nq : q.Num) {M : List (List Fl)} (hM : A.at q = .ok M) :
    ∃ i, i + 1 < A.x.length ∧ (ent A.x i).val ≤ q.val ∧ q.val ≤ (ent A.x (i + 1)).val ∧
      ∀ r j, r < A.nrow → j < A.ncol → ∃ a b y, mentry (A.node i) r j = some a ∧ mentry (A.node (i + 1)) r j = some b ∧ mentry M r j = some y ∧ y.Num ∧
        |y.val - (a.val + (b.val - a.val) * (q.val - (ent A.x i).val) / ((ent A.x (i + 1)).val - (ent A.x i).val))| ≤
          6 * uro 24 * |b.val - a.val| + uro 24 * max |a.val| |b.val| := by
  obtain ⟨i, hi, h1, h2, h3, rfl⟩ := at_fl h hM
  refine ⟨i, hi, h2, h3, ?_⟩
  intro r j hr hj
  have m1 := h.node_mem (i := i) (by omega)
  have m2 := h.node_mem (i := i + 1) hi
  obtain ⟨a, ha⟩ := mentry_some (h.rows _ m1) hr hj
  obtain ⟨b, hb⟩ := mentry_some (h.rows _ m2) hr hj
  obtain ⟨ra, hra, hma⟩ := mentry_mem ha
  obtain ⟨rb, hrb, hmb⟩ := mentry_mem hb
  obtain ⟨n, e⟩ := linEntry_fl (h.ent_num (i := i) (by omega)) (h.ent_num hi) nq (h.numy _ m1 _ hra _ hma) (h.numy _ m2 _ hrb _ hmb) h1 h2 h3
  refine ⟨a, b, _, ha, hb, by rw [linBetween_mentry, ha, hb]; rfl, n, ?_⟩
  have eq : linEntry (ent A.x i).val (ent A.x (i + 1)).val q.val a.val b.val =
      a.val + (b.val - a.val) * (q.val - (ent A.x i).val) / ((ent A.x (i + 1)).val - (ent A.x i).val) := by
    unfold linEntry; ring
  rw [← eq]
  exact e

/-! ### C133 -/

/-- `s` is the sum of the numbers in `l` computed in some order, with some bracketing. -/
inductive Sums : List Fl → Fl → Prop where
  | nil : Sums [] (lit 0)
  | leaf (a : Fl) : Sums [a] a
  | node {l r : List Fl} {a b : Fl} : Sums l a → Sums r b → Sums (l ++ r) (a + b)
  | perm {l l' : List Fl} {a : Fl} : l.Perm l' → Sums l a → Sums l' a

/-- the order of the model -/
theorem sums_sumL : ∀ l : List Fl, Sums l (sumL l)
  | [] => .nil
  | a :: l => .node (.leaf a) (sums_sumL l)

/-- the sum of terms each changed by at most `n` roundings -/
def NearSum (n : Nat) (l : List Fl) (s : ℝ) : Prop := ∃ ts, List.Forall₂ (fun (a : Fl) x => Near n a.val x) l ts ∧ s = ts.sum

theorem NearSum.mono {m n : Nat} (h : m ≤ n) {l : List Fl} {s : ℝ} (hs : NearSum m l s) : NearSum n l s := by
  obtain ⟨ts, h1, h2⟩ := hs
  exact ⟨ts, h1.imp (fun _ _ h' => h'.mono h), h2⟩

theorem NearSum.append {n : Nat} {l r : List Fl} {s t : ℝ} (hs : NearSum n l s) (ht : NearSum n r t) : NearSum n (l ++ r) (s + t) := by
  obtain ⟨ts, h1, h2⟩ := hs
  obtain ⟨us, h3, h4⟩ := ht
  exact ⟨ts ++ us, List.rel_append h1 h3, by rw [List.sum_append, h2, h4]⟩

theorem NearSum.scale {m n : Nat} {l : List Fl} {s t : ℝ} (hs : NearSum m l s) (ht : Near n s t) : NearSum (m + n) l t := by
  obtain ⟨ts, h1, rfl⟩ := hs
  obtain ⟨u, rfl, h3, h4⟩ := ht
  refine ⟨ts.map (· * u), ?_, ?_⟩
  · rw [List.forall₂_map_right_iff]
    exact h1.imp (fun a x h => h.trans ⟨u, rfl, h3, h4⟩)
  · induction ts generalizing l with
    | nil => simp
    | cons x ts ih =>
      cases h1 with
      | cons _ h1 => simp [add_mul, ih h1]

theorem NearSum.perm {n : Nat} {l l' : List Fl} (hp : l.Perm l') : ∀ {s : ℝ}, NearSum n l s → NearSum n l' s := by
  induction hp with
  | nil => exact fun h => h
  | cons a _ ih =>
    rintro s ⟨ts, h1, rfl⟩
    cases h1 with
    | cons ha h1 =>
      obtain ⟨us, h3, h4⟩ := ih ⟨_, h1, rfl⟩
      exact ⟨_ :: us, .cons ha h3, by simp [h4]⟩
  | swap a b l =>
    rintro s ⟨ts, h1, rfl⟩
    cases h1 with
    | cons hb h1 =>
      cases h1 with
      | cons ha h1 => exact ⟨_ :: _ :: _, .cons ha (.cons hb h1), by simp only [List.sum_cons]; ring⟩
  | trans _ _ h1 h2 => exact fun h => h2 (h1 h)

theorem isFloat_zero24 (d : DT) : IsFloat d.prec 0 := isFloat_zero _

/-- A sum of numpy floats in any order, with any bracketing: each term is changed by at most as many roundings as there are terms. -/
theorem sums_near {l : List Fl} {s : Fl} (h : Sums l s) : (∀ a ∈ l, a.Num) → (l = [] ∧ s = lit 0) ∨ (s.Num ∧ 1 ≤ l.length ∧ NearSum l.length l s.val) := by
  induction h with
  | nil => intro _; exact Or.inl ⟨rfl, rfl⟩
  | leaf a =>
    intro hn
    refine Or.inr ⟨hn a (by simp), by simp, [a.val], .cons ((Near.refl _).mono (by simp)) .nil, by simp⟩
  | @node l r a b _ _ ih1 ih2 =>
    intro hn
    have h1 := ih1 (fun x hx => hn x (List.mem_append_left _ hx))
    have h2 := ih2 (fun x hx => hn x (List.mem_append_right _ hx))
    rcases h1 with ⟨rfl, rfl⟩ | ⟨n1, l1, s1⟩
    · rcases h2 with ⟨rfl, rfl⟩ | ⟨n2, l2, s2⟩
      · left
        refine ⟨rfl, ?_⟩
        rw [lit_zero, fl_add]
        simp [Fl.op2, DT.join]
      · right
        have e : (lit 0 + b : Fl) = b := by
          have e1 : DT.join .weak b.dt = b.dt := by cases b.dt <;> rfl
          rw [lit_zero, fl_add]
          obtain ⟨bv, bd⟩ := b
          simp only at e1
          have := n2.1
          unfold Fl.Ok at this
          simp only at this
          simp only [Fl.op2, e1, rd_zero, zero_add]
          rw [rd_float this, rd_float this]
        rw [e]
        exact ⟨n2, by simpa using l2, by simpa using s2⟩
    · rcases h2 with ⟨rfl, rfl⟩ | ⟨n2, l2, s2⟩
      · right
        have e : (a + lit 0 : Fl) = a := by
          have e1 : DT.join a.dt .weak = a.dt := by cases a.dt <;> rfl
          rw [lit_zero, fl_add]
          obtain ⟨bv, bd⟩ := a
          simp only at e1
          have := n1.1
          unfold Fl.Ok at this
          simp only at this
          simp only [Fl.op2, e1, rd_zero, add_zero]
          rw [rd_float this, rd_float this]
        rw [e]
        exact ⟨n1, by simpa using l1, by simpa using s1⟩
      · right
        obtain ⟨n3, e3⟩ := add_num n1 n2
        refine ⟨n3, by simp; omega, ?_⟩
        have hm : max l.length r.length + 1 ≤ (l ++ r).length := by simp; omega
        exact (((s1.mono (le_max_left _ _)).append (s2.mono (le_max_right _ _))).scale e3).mono hm
  | perm hp _ ih =>
    intro hn
    rcases ih (fun x hx => hn x (hp.mem_iff.mp hx)) with ⟨rfl, rfl⟩ | ⟨n, l1, s1⟩
    · exact Or.inl ⟨hp.nil_eq.symm, rfl⟩
    · rw [hp.length_eq] at l1 s1
      exact Or.inr ⟨n, l1, s1.perm hp⟩

/-- **C133, sums.** A dot product of numpy floats, with the products added in any order and any bracketing: the result is the sum of the exact products,
each changed by at most `n + 1` rounding errors, `n` the number of terms. -/
theorem C133_dot_any_order {a b : List Fl} {s : Fl} (hl : a.length = b.length) (hne : a ≠ []) (ha : ∀ x ∈ a, x.Num) (hb : ∀ x ∈ b, x.Num)
    (hs : Sums (List.zipWith (· * ·) a b) s) :
    s.Num ∧ ∃ ts, List.Forall₂ (fun (p : Fl × Fl) t => Near (a.length + 1) (p.1.val * p.2.val) t) (a.zip b) ts ∧ s.val = ts.sum := by
  have hnum : ∀ x ∈ List.zipWith (· * ·) a b, x.Num := by
    intro x hx
    obtain ⟨i, hi, rfl⟩ := List.mem_iff_getElem.mp hx
    rw [List.getElem_zipWith]
    exact (mul_num (ha _ (List.getElem_mem _)) (hb _ (List.getElem_mem _))).1
  have hlen : (List.zipWith (· * ·) a b).length = a.length := by simp [hl]
  rcases sums_near hs hnum with ⟨h0, _⟩ | ⟨hn, _, ts, h1, h2⟩
  · have := congrArg List.length h0
    rw [hlen] at this
    exact absurd (List.length_eq_zero_iff.mp this) hne
  · refine ⟨hn, ts, ?_, h2⟩
    rw [hlen] at h1
    rw [List.forall₂_iff_get] at h1 ⊢
    obtain ⟨k1, k2⟩ := h1
    have hz : (a.zip b).length = a.length := by simp [hl]
    refine ⟨by rw [hz, ← hlen, k1], ?_⟩
    intro i hi hi'
    have := k2 i (by rw [hlen, ← hz]; exact hi) hi'
    simp only [List.get_eq_getElem, List.getElem_zipWith, List.getElem_zip] at this ⊢
    have hm := (mul_num (ha (a[i]'(by rw [← hz]; exact hi)) (List.getElem_mem _)) (hb (b[i]'(by rw [← hl, ← hz]; exact hi)) (List.getElem_mem _))).2
    rw [Nat.add_comm]
    exact hm.trans this

/-- A list of terms, each with its own error bound. -/
theorem sum_error {ι : Type} {f g : ι → ℝ} {γ : ℝ} : ∀ {ts : List ℝ} {es : List ι}, List.Forall₂ (fun t e => |t - f e| ≤ γ * g e) ts es →
    |ts.sum - (es.map f).sum| ≤ γ * (es.map g).sum
  | [], _, h => by cases h; simp
  | t :: ts, _, h => by
    cases h with
    | @cons _ e _ es h1 h2 =>
      have ih := sum_error h2
      simp only [List.sum_cons, List.map_cons]
      have : t + ts.sum - (f e + (es.map f).sum) = (t - f e) + (ts.sum - (es.map f).sum) := by ring
      rw [this, mul_add]
      exact (abs_add_le _ _).trans (add_le_add h1 ih)

theorem near_add_one {k : Nat} {x a : ℝ} (hx : 0 ≤ x) (h : Near k x a) : Near k (1 + x) (1 + a) :=
  Near.add zero_le_one hx ((Near.refl 1).mono (Nat.zero_le k)) h

/-- any operation, operands converted first -/
theorem op2_near (f : ℝ → ℝ → ℝ) {x y : ℝ} {j k m : Nat} {a b : Fl} (ha : Near j x a.val) (hb : Near k y b.val)
    (hf : ∀ a' b', Near (j + 1) x a' → Near (k + 1) y b' → Near m (f x y) (f a' b')) : Near (m + 1) (f x y) (Fl.op2 f a b).val :=
  (hf _ _ (ha.trans (near_rd (DT.prec_ge _) _)) (hb.trans (near_rd (DT.prec_ge _) _))).trans (near_rd (DT.prec_ge _) _)

theorem near_lit_one : Near 0 1 (lit 1 : Fl).val := by rw [lit_one]; exact Near.refl 1

theorem one_add_near {k : Nat} {x : ℝ} {a : Fl} (hx : 0 ≤ x) (h : Near k x a.val) : Near (k + 2) (1 + x) (lit 1 + a : Fl).val := by
  rw [fl_add, lit_one]
  have e : rd ((DT.weak).join a.dt).prec 1 = 1 := rd_float (isFloat_one.mono (DT.prec_ge _))
  have : (Fl.op2 (· + ·) (⟨1, .weak⟩ : Fl) a).val = rd (DT.weak.join a.dt).prec (rd (DT.weak.join a.dt).prec 1 + rd (DT.weak.join a.dt).prec a.val) := rfl
  rw [this, e]
  exact (near_add_one hx (h.trans (near_rd (DT.prec_ge _) _))).trans (near_rd (DT.prec_ge _) _)

/-- The redshift at which the matrix is read. -/
theorem shift_near {z bs : Fl} (hz : 0 ≤ z.val) (hb : 0 ≤ bs.val) :
    (shiftOf (f32 z) bs).Num ∧ |(shiftOf (f32 z) bs).val - ((1 + z.val) * (1 + bs.val) - 1)| ≤ 11 * uro 24 * ((1 + z.val) * (1 + bs.val)) := by
  have h1 := one_add_near hz (f32_near z)
  have h2 := one_add_near hb (Near.refl bs.val)
  have d1 : (lit 1 + f32 z : Fl).dt = .f32 := rfl
  have d2 : ((lit 1 + f32 z) * (lit 1 + bs) : Fl).dt ≠ .weak := by
    rw [dt_mul, d1]; exact join_ne (by simp)
  have hP : Near 8 ((1 + z.val) * (1 + bs.val)) ((lit 1 + f32 z) * (lit 1 + bs) : Fl).val :=
    op2_near (· * ·) h1 h2 (m := 7) (fun a' b' ha hb => (ha.mul hb))
  have hn : ((lit 1 + f32 z) * (lit 1 + bs) : Fl).Num := op2_num _ (Or.inl (by rw [d1]; simp))
  refine ⟨op2_num _ (Or.inl d2), ?_⟩
  have hu := uro_pos 24
  have hu1 : uro 24 ≤ 1 / 1000 := by unfold uro; norm_num
  have e : (shiftOf (f32 z) bs).val = rd ((((lit 1 + f32 z) * (lit 1 + bs) : Fl)).dt.join .weak).prec
      (((lit 1 + f32 z) * (lit 1 + bs) : Fl).val - 1) := by
    unfold shiftOf
    rw [lit_one] at *
    show rd _ (rd _ _ - rd _ 1) = _
    rw [rd_float (isFloat_one.mono (DT.prec_ge _)), rd_float (hn.1.mono (prec_join_left hn.2))]
  rw [e]
  have hP0 : (0 : ℝ) < (1 + z.val) * (1 + bs.val) := by positivity
  have hP1 : (1 : ℝ) ≤ (1 + z.val) * (1 + bs.val) := by nlinarith
  generalize ((lit 1 + f32 z) * (lit 1 + bs) : Fl).val = P' at *
  generalize (1 + z.val) * (1 + bs.val) = P at *
  have a1 := hP.rel (by push_cast; linarith)
  have a2 := (near_rd (DT.prec_ge ((((lit 1 + f32 z) * (lit 1 + bs) : Fl)).dt.join .weak)) (P' - 1)).rel (by push_cast; linarith)
  push_cast at a1 a2
  rw [abs_of_pos hP0] at a1
  have g1 : 8 * uro 24 / (1 - 8 * uro 24) ≤ 8.1 * uro 24 := by
    rw [div_le_iff₀ (by linarith)]; nlinarith
  have g2 : 1 * uro 24 / (1 - 1 * uro 24) ≤ 1.1 * uro 24 := by
    rw [div_le_iff₀ (by linarith)]; nlinarith
  have b1 : |P' - P| ≤ 8.1 * uro 24 * P := a1.trans (mul_le_mul_of_nonneg_right g1 hP0.le)
  have b3 : |P' - 1| ≤ 1.1 * P := by
    have : P' - 1 = (P' - P) + (P - 1) := by ring
    rw [this]
    refine (abs_add_le _ _).trans ?_
    rw [abs_of_nonneg (a := P - 1) (by linarith)]
    nlinarith
  have b2 := a2.trans (mul_le_mul g2 b3 (abs_nonneg _) (by linarith))
  have : rd ((((lit 1 + f32 z) * (lit 1 + bs) : Fl)).dt.join .weak).prec (P' - 1) - (P - 1) =
      (rd ((((lit 1 + f32 z) * (lit 1 + bs) : Fl)).dt.join .weak).prec (P' - 1) - (P' - 1)) + (P' - P) := by ring
  rw [this]
  refine (abs_add_le _ _).trans ?_
  nlinarith

/-- the accumulated relative error of `N` roundings -/
noncomputable def gam (N : Nat) : ℝ := N * uro 24 / (1 - N * uro 24)

/-- straight line between node values `a` and `b`, at the fraction `t` of the interval -/
noncomputable def lineAt (t : ℝ) (p : Fl × Fl) : ℝ := p.1.val + (p.2.val - p.1.val) * t

theorem lineAt_abs {t : ℝ} (h0 : 0 ≤ t) (h1 : t ≤ 1) (p : Fl × Fl) : |lineAt t p| ≤ max |p.1.val| |p.2.val| := by
  have e : lineAt t p = (1 - t) * p.1.val + t * p.2.val := by unfold lineAt; ring
  rw [e]
  refine (abs_add_le _ _).trans ?_
  rw [abs_mul, abs_mul, abs_of_nonneg h0, abs_of_nonneg (a := 1 - t) (by linarith)]
  have a := mul_le_mul_of_nonneg_left (le_max_left |p.1.val| |p.2.val|) (a := 1 - t) (by linarith)
  have b := mul_le_mul_of_nonneg_left (le_max_right |p.1.val| |p.2.val|) h0
  linarith

/-- One term of the sum. -/
theorem term_error {m : Nat} (hm : ((m + 13 : Nat) : ℝ) * uro 24 < 1) {L A c y t mx : ℝ} (hA : |A - L| ≤ 13 * uro 24 * mx) (hL : |L| ≤ mx)
    (ht : Near m (A * c) y) : |y - L * c| ≤ gam (m + 13) * (mx * |c|) := by
  have hu := uro_pos 24
  have hmx : 0 ≤ mx := (abs_nonneg _).trans hL
  push_cast at hm
  have hmu : (0 : ℝ) ≤ m * uro 24 := by positivity
  have h1 := ht.rel (by linarith)
  have hA' : |A| ≤ (1 + 13 * uro 24) * mx := by
    have : A = L + (A - L) := by ring
    rw [this]
    refine (abs_add_le _ _).trans ?_
    linarith
  have e : y - L * c = (y - A * c) + (A - L) * c := by ring
  rw [e]
  refine (abs_add_le _ _).trans ?_
  rw [abs_mul (A - L)]
  rw [abs_mul] at h1
  have hc := abs_nonneg c
  have h2 : |y - A * c| ≤ m * uro 24 / (1 - m * uro 24) * ((1 + 13 * uro 24) * mx * |c|) := by
    refine h1.trans (mul_le_mul_of_nonneg_left (mul_le_mul_of_nonneg_right hA' hc) ?_)
    exact div_nonneg hmu (by linarith)
  have h3 : |A - L| * |c| ≤ 13 * uro 24 * (mx * |c|) := by
    have := mul_le_mul_of_nonneg_right hA hc
    linarith
  have hmc : 0 ≤ mx * |c| := by positivity
  have key : m * uro 24 / (1 - m * uro 24) * (1 + 13 * uro 24) + 13 * uro 24 ≤ gam (m + 13) := by
    unfold gam
    push_cast
    have p1 : 0 < 1 - m * uro 24 := by linarith
    have p2 : 0 < 1 - (m + 13) * uro 24 := by linarith
    rw [le_div_iff₀ p2]
    have e1 : m * uro 24 / (1 - m * uro 24) * (1 + 13 * uro 24) + 13 * uro 24 = (m * uro 24 + 13 * uro 24) / (1 - m * uro 24) := by
      field_simp; ring
    rw [e1, div_mul_eq_mul_div, div_le_iff₀ p1]
    nlinarith
  have := mul_le_mul_of_nonneg_right key hmc
  nlinarith

/-- **C133, one object.** `reconstruct` at redshift `z` with coefficients `c`, in floating point. -/
theorem recon_row_fl {A : AMat Fl} (h : FlGood A) {z bs : Fl} {c : List Fl} (hc : c.length = A.ncol) (hne : c ≠ []) (hz : 0 ≤ z.val) (hb : 0 ≤ bs.val)
    (hN : ((c.length + 22 : Nat) : ℝ) * uro 24 < 1) {M : List (List Fl)} (hM : A.at (shiftOf (f32 z) bs) = .ok M) :
    ∃ (q : ℝ) (i : Nat), |q - ((1 + z.val) * (1 + bs.val) - 1)| ≤ 11 * uro 24 * ((1 + z.val) * (1 + bs.val)) ∧
      i + 1 < A.x.length ∧ (ent A.x i).val ≤ q ∧ q ≤ (ent A.x (i + 1)).val ∧
      (reconRow bs M (c.map f32)).length = A.nrow ∧
      ∀ (r : Nat) (y : Fl), (reconRow bs M (c.map f32))[r]? = some y → ∃ ra rb : List Fl, (A.node i)[r]? = some ra ∧ (A.node (i + 1))[r]? = some rb ∧
        |y.val - (List.zipWith (fun p x => lineAt ((q - (ent A.x i).val) / ((ent A.x (i + 1)).val - (ent A.x i).val)) p * x.val) (ra.zip rb) c).sum / (1 + bs.val)| ≤
          gam (c.length + 22) * ((List.zipWith (fun (p : Fl × Fl) x => max |p.1.val| |p.2.val| * |x.val|) (ra.zip rb) c).sum / (1 + bs.val)) := by
  obtain ⟨nq, hq⟩ := shift_near hz hb
  obtain ⟨i, hi, h1, h2, h3, rfl⟩ := at_fl h hM
  have m1 := h.node_mem (i := i) (by omega)
  have m2 := h.node_mem (i := i + 1) hi
  have l1 := h.rows _ m1
  have l2 := h.rows _ m2
  have hlen : (linBetween (ent A.x i) (ent A.x (i + 1)) (shiftOf (f32 z) bs) (A.node i) (A.node (i + 1))).length = A.nrow := by
    unfold linBetween; simp [l1.1, l2.1]
  refine ⟨_, i, hq, hi, h2, h3, by unfold reconRow; simpa using hlen, ?_⟩
  intro r y hy
  have hr : r < A.nrow := by
    have := (List.getElem?_eq_some_iff.mp hy).1
    unfold reconRow at this
    simpa [hlen] using this
  have g1 : (A.node i)[r]? = some ((A.node i)[r]'(by omega)) := List.getElem?_eq_getElem _
  have g2 : (A.node (i + 1))[r]? = some ((A.node (i + 1))[r]'(by omega)) := List.getElem?_eq_getElem _
  refine ⟨_, _, g1, g2, ?_⟩
  have ma := l1.2 ((A.node i)[r]'(by omega)) (List.getElem_mem _)
  have mb := l2.2 ((A.node (i + 1))[r]'(by omega)) (List.getElem_mem _)
  have na := h.numy _ m1 ((A.node i)[r]'(by omega)) (List.getElem_mem _)
  have nb := h.numy _ m2 ((A.node (i + 1))[r]'(by omega)) (List.getElem_mem _)
  unfold reconRow linBetween at hy
  rw [List.getElem?_map, List.getElem?_zipWith, g1, g2] at hy
  simp only [Option.map_some, Option.some.injEq] at hy
  generalize (A.node i)[r]'(by omega) = ra at *
  generalize (A.node (i + 1))[r]'(by omega) = rb at *
  have nlo := h.ent_num (i := i) (by omega)
  have nhi := h.ent_num hi
  generalize ent A.x i = xlo at *
  generalize ent A.x (i + 1) = xhi at *
  generalize shiftOf (f32 z) bs = q at *
  subst hy
  -- the entries of the row
  have nrow : ∀ a ∈ List.zipWith (linEntry xlo xhi q) ra rb, a.Num := by
    intro a ha
    obtain ⟨k, hk, rfl⟩ := List.mem_iff_getElem.mp ha
    rw [List.getElem_zipWith]
    exact (linEntry_fl nlo nhi nq (na _ (List.getElem_mem _)) (nb _ (List.getElem_mem _)) h1 h2 h3).1
  have nc : ∀ a ∈ c.map f32, a.Num := by
    intro a ha
    obtain ⟨b, _, rfl⟩ := List.mem_map.mp ha
    exact f32_num b
  have hl : (List.zipWith (linEntry xlo xhi q) ra rb).length = (c.map f32).length := by simp [ma, mb, hc]
  have hcpos : 0 < c.length := List.length_pos_iff.mpr hne
  obtain ⟨ns, ts, t1, t2⟩ := C133_dot_any_order hl (by intro h0; rw [h0] at hl; simp at hl; omega) nrow nc (sums_sumL _)
  have hlr : (List.zipWith (linEntry xlo xhi q) ra rb).length = c.length := by simpa using hl
  rw [hlr] at t1
  -- the division
  have hS : (0 : ℝ) < 1 + bs.val := by linarith
  have hdiv : Near 5 (dot (List.zipWith (linEntry xlo xhi q) ra rb) (c.map f32)).val
      ((dot (List.zipWith (linEntry xlo xhi q) ra rb) (c.map f32) / (lit 1 + bs) : Fl).val * (1 + bs.val)) := by
    have h5 := op2_near (· / ·) (Near.refl (dot (List.zipWith (linEntry xlo xhi q) ra rb) (c.map f32)).val) (one_add_near hb (Near.refl bs.val))
      (m := 4) (fun a' b' ha hb => ha.div hb)
    have h6 := h5.mul (Near.refl (1 + bs.val))
    rw [div_mul_cancel₀ _ hS.ne'] at h6
    exact h6
  obtain ⟨v, v1, v2, v3⟩ := hdiv
  have key : |(dot (List.zipWith (linEntry xlo xhi q) ra rb) (c.map f32) / (lit 1 + bs) : Fl).val * (1 + bs.val) -
      (List.zipWith (fun p x => lineAt ((q.val - xlo.val) / (xhi.val - xlo.val)) p * x.val) (ra.zip rb) c).sum| ≤
      gam (c.length + 22) * (List.zipWith (fun (p : Fl × Fl) x => max |p.1.val| |p.2.val| * |x.val|) (ra.zip rb) c).sum := by
    rw [v1]
    have hs : (dot (List.zipWith (linEntry xlo xhi q) ra rb) (c.map f32)).val * v = (ts.map (· * v)).sum := by
      unfold dot
      rw [t2, List.sum_map_mul_right]
      simp
    rw [hs]
    have hz1 : ∀ f : Fl × Fl → Fl → ℝ, List.zipWith f (ra.zip rb) c = ((ra.zip rb).zip c).map (fun e => f e.1 e.2) := by
      intro f; rw [← List.map_uncurry_zip_eq_zipWith]; rfl
    rw [hz1, hz1]
    refine sum_error ?_
    rw [List.forall₂_iff_get] at t1 ⊢
    obtain ⟨k1, k2⟩ := t1
    have hzl : ((List.zipWith (linEntry xlo xhi q) ra rb).zip (c.map f32)).length = c.length := by simp [ma, mb, hc]
    have hzl' : ((ra.zip rb).zip c).length = c.length := by simp [ma, mb, hc]
    refine ⟨by rw [List.length_map, ← k1, hzl, hzl'], ?_⟩
    intro k hk hk'
    have kc : k < c.length := by rw [← hzl']; exact hk'
    have ka : k < ra.length := by omega
    have kb : k < rb.length := by omega
    have ht := k2 k (by rw [hzl]; exact kc) (by simpa using hk)
    simp only [List.get_eq_getElem, List.getElem_zip, List.getElem_zipWith, List.getElem_map] at ht ⊢
    obtain ⟨-, he⟩ := linEntry_fl nlo nhi nq (na _ (List.getElem_mem ka)) (nb _ (List.getElem_mem kb)) h1 h2 h3
    have el : linEntry xlo.val xhi.val q.val ra[k].val rb[k].val = lineAt ((q.val - xlo.val) / (xhi.val - xlo.val)) (ra[k], rb[k]) := by
      unfold linEntry lineAt; ring
    rw [el] at he
    have hd : 0 < xhi.val - xlo.val := by linarith
    have hL := lineAt_abs (t := (q.val - xlo.val) / (xhi.val - xlo.val)) (div_nonneg (by linarith) hd.le) (by rw [div_le_one hd]; linarith) (ra[k], rb[k])
    have hA : |(linEntry xlo xhi q ra[k] rb[k]).val - lineAt ((q.val - xlo.val) / (xhi.val - xlo.val)) (ra[k], rb[k])| ≤ 13 * uro 24 * max |ra[k].val| |rb[k].val| := by
      refine he.trans ?_
      have : |rb[k].val - ra[k].val| ≤ 2 * max |ra[k].val| |rb[k].val| := by
        refine (abs_sub _ _).trans ?_
        have := le_max_left |ra[k].val| |rb[k].val|
        have := le_max_right |ra[k].val| |rb[k].val|
        linarith
      have hu := uro_pos 24
      nlinarith
    have hn : Near (c.length + 9) ((linEntry xlo xhi q ra[k] rb[k]).val * c[k].val) (ts[k]'(by simpa using hk) * v) := by
      have e1 : Near 1 ((linEntry xlo xhi q ra[k] rb[k]).val * c[k].val) ((linEntry xlo xhi q ra[k] rb[k]).val * (f32 c[k]).val) := by
        simpa using (Near.refl (linEntry xlo xhi q ra[k] rb[k]).val).mul (f32_near c[k])
      exact ((e1.trans ht).trans ⟨v, rfl, v2, v3⟩).mono (by omega)
    exact term_error (t := 0) hN hA hL hn
  have e : ∀ y s : ℝ, y - s / (1 + bs.val) = (y * (1 + bs.val) - s) / (1 + bs.val) := by
    intro y s; field_simp
  rw [e, abs_div, abs_of_pos hS, mul_div_assoc', div_le_div_iff_of_pos_right hS]
  exact key

/-- the conditions under which the redshifts of the grid are distinct float32 numbers (`C129_strict`) -/
structure FineGrid (lo hi : Fl) (n : Nat) : Prop where
  two : 2 ≤ n
  most : n ≤ 2 ^ 24
  nonneg : 0 ≤ lo.val
  le : lo.val ≤ hi.val
  step : 8 * uro 24 * (f32 hi).val < ((f32 hi).val - (f32 lo).val) / ((n - 1 : Nat) : ℝ)

/-- A fitter after `set_Amatrix`. -/
theorem set_good {lib : Lib Fl} {disk : Disk Fl} {cls : Cls} {R : List Name} {T : Tpl Fl} {lo hi : Fl} {n : Nat} {ab : Bool} {w w' : Shared Fl} {F : Fitter Fl}
    (hF : (Fitter.mk' cls R T lo hi n ab).setAmatrix lib disk w = (w', .ok F)) (hg : FineGrid lo hi n) :
    ∃ A, F = { Fitter.mk' cls R T lo hi n ab with Amatrix := some A } ∧ FlGood A ∧ A.x = redshiftGrid lo hi n ∧ A.ncol = w.sed.nsed := by
  have hs := C129_strict lo hi hg.two hg.most hg.nonneg hg.step hg.le
  unfold Fitter.setAmatrix at hF
  cases hA : calcAmatrix lib disk (Fitter.mk' cls R T lo hi n ab).redshifts (Fitter.mk' cls R T lo hi n ab).responses w with
  | mk w1 r =>
    rw [hA] at hF
    cases r with
    | error e => simp at hF
    | ok A =>
      simp only [Prod.mk.injEq, Except.ok.injEq] at hF
      obtain ⟨rfl, rfl⟩ := hF
      obtain ⟨h1, h2⟩ := calc_good_fl hg.two hg.most hg.le hs hA
      obtain ⟨_, _, ms, hmk, _⟩ := calcAmatrix_ok hA
      refine ⟨A, rfl, h1, h2, ?_⟩
      unfold mkAMat at hmk
      split at hmk
      · cases hmk; rfl
      · cases hmk

/-- **C132, constructed matrices.** After `set_Amatrix` the matrix at any redshift is within the bound of `C132_matrix_accuracy` of the straight line. -/
theorem C132_constructed {lib : Lib Fl} {disk : Disk Fl} {cls : Cls} {R : List Name} {T : Tpl Fl} {lo hi : Fl} {n : Nat} {ab : Bool} {w w' : Shared Fl}
    {F : Fitter Fl} (hF : (Fitter.mk' cls R T lo hi n ab).setAmatrix lib disk w = (w', .ok F)) (hg : FineGrid lo hi n) :
    ∃ A, F.Amatrix = some A ∧ A.x = redshiftGrid lo hi n ∧ ∀ (q : Fl) (M : List (List Fl)), q.Num → A.at q = .ok M →
      ∃ i, i + 1 < n ∧ (ent A.x i).val ≤ q.val ∧ q.val ≤ (ent A.x (i + 1)).val ∧
      ∀ r j, r < A.nrow → j < A.ncol → ∃ a b y, mentry (A.node i) r j = some a ∧ mentry (A.node (i + 1)) r j = some b ∧ mentry M r j = some y ∧ y.Num ∧
        |y.val - (a.val + (b.val - a.val) * (q.val - (ent A.x i).val) / ((ent A.x (i + 1)).val - (ent A.x i).val))| ≤
          6 * uro 24 * |b.val - a.val| + uro 24 * max |a.val| |b.val| := by
  obtain ⟨A, rfl, h1, h2, _⟩ := set_good hF hg
  refine ⟨A, rfl, h2, ?_⟩
  intro q M nq hM
  have := C132_matrix_accuracy h1 nq hM
  rwa [h2, (C129_grid lo hi hg.two hg.most hg.le).1, ← h2] at this

/-- **C133.** `reconstruct` of any number of objects, in floating point: in every band the result is the sum over templates of coefficient times the
straight line through the two nodes around a redshift `q`, divided by `1 + band_shift`, with at most `nsed + 22` rounding errors per term; and `q` is
`(1 + z) (1 + band_shift) - 1` up to eleven roundings of `(1 + z) (1 + band_shift)`. -/
theorem C133_reconstruct_accuracy (F : Fitter Fl) {A : AMat Fl} (hFA : F.Amatrix = some A) (h : FlGood A) (hcol : A.ncol = F.templates.nsed)
    (hpos : 0 < F.templates.nsed) (hN : ((F.templates.nsed + 22 : Nat) : ℝ) * uro 24 < 1) (zs : List Fl) (cs : List (List Fl)) (bs : Fl) (hl : cs.length = zs.length)
    (hc : ∀ c ∈ cs, c.length = F.templates.nsed) (hz : ∀ z ∈ zs, 0 ≤ z.val) (hb : 0 ≤ bs.val) (out : NDA Fl)
    (hout : F.reconstruct (some (.vec zs)) (some (.arr [zs.length] F.templates.nsed cs)) bs = .ok out) :
    ∃ rows : List (List Fl), out = .arr [zs.length] A.nrow rows ∧ rows.length = zs.length ∧
      ∀ (j : Nat) (z : Fl) (c row : List Fl), zs[j]? = some z → cs[j]? = some c → rows[j]? = some row → row.length = A.nrow ∧
        ∃ (q : ℝ) (i : Nat), |q - ((1 + z.val) * (1 + bs.val) - 1)| ≤ 11 * uro 24 * ((1 + z.val) * (1 + bs.val)) ∧
          i + 1 < A.x.length ∧ (ent A.x i).val ≤ q ∧ q ≤ (ent A.x (i + 1)).val ∧
          ∀ (r : Nat) (y : Fl), row[r]? = some y → ∃ ra rb : List Fl, (A.node i)[r]? = some ra ∧ (A.node (i + 1))[r]? = some rb ∧
            |y.val - (List.zipWith (fun p x => lineAt ((q - (ent A.x i).val) / ((ent A.x (i + 1)).val - (ent A.x i).val)) p * x.val) (ra.zip rb) c).sum / (1 + bs.val)| ≤
              gam (F.templates.nsed + 22) * ((List.zipWith (fun (p : Fl × Fl) x => max |p.1.val| |p.2.val| * |x.val|) (ra.zip rb) c).sum / (1 + bs.val)) := by
  unfold Fitter.reconstruct at hout
  rw [hFA, recon_array] at hout
  cases hat : A.atAll (zs.map (fun z => shiftOf (f32 z) bs)) with
  | error e => rw [hat] at hout; simp [Except.map] at hout
  | ok Ms =>
    rw [hat] at hout
    simp only [Except.map, Except.ok.injEq] at hout
    unfold AMat.atAll at hat
    rw [mapM_ok_iff, List.forall₂_map_left_iff] at hat
    have hlM := hat.length_eq
    refine ⟨_, hout.symm, by simp [hl, ← hlM], ?_⟩
    intro j z c row hzj hcj hrj
    have hj := (List.getElem?_eq_some_iff.mp hzj).1
    have hjM : j < Ms.length := by omega
    have hMj : Ms[j]? = some Ms[j] := List.getElem?_eq_getElem _
    rw [List.getElem?_zipWith, hMj, List.getElem?_map, hcj] at hrj
    simp only [Option.map_some, Option.some.injEq] at hrj
    subst hrj
    have hat' := (List.forall₂_iff_get.mp hat).2 j hj hjM
    simp only [List.get_eq_getElem] at hat'
    have ez : zs[j] = z := by
      have := List.getElem?_eq_getElem hj
      rw [hzj] at this
      exact (Option.some.inj this).symm
    rw [ez] at hat'
    have hcl := hc c (List.mem_of_getElem? hcj)
    obtain ⟨q, i, h1, h2, h3, h4, h5, h6⟩ := recon_row_fl h (c := c) (by rw [hcl, hcol]) (by intro h0; rw [h0] at hcl; simp at hcl; omega)
      (hz z (List.mem_of_getElem? hzj)) hb (by rw [hcl]; exact hN) hat'
    refine ⟨h5, q, i, h1, h2, h3, h4, ?_⟩
    intro r y hy
    rw [hcl] at h6
    exact h6 r y hy

/-! ### C134: saved matrices -/

theorem FlGood.ent_lt {m : AMat Fl} (h : FlGood m) {i j : Nat} (hj : j < m.x.length) (hij : i < j) : (ent m.x i).val < (ent m.x j).val := by
  have := List.pairwise_iff_getElem.mp h.incr i j (by omega) hj hij
  unfold ent
  rwa [getD_lt (by omega), getD_lt hj]

theorem linEntry_node_fl {xlo xhi a b : Fl} (nlo : xlo.Num) (nhi : xhi.Num) (na : a.Num) (nb : b.Num) : (linEntry xlo xhi xlo a b).val = a.val := by
  obtain ⟨n1, e1⟩ := sub_num nb na
  obtain ⟨n2, e2⟩ := sub_num nhi nlo
  obtain ⟨n3, e3⟩ := div_num n1 n2
  obtain ⟨n4, e4⟩ := sub_num nlo nlo
  obtain ⟨n5, e5⟩ := mul_num n3 n4
  rw [sub_self, near_zero] at e4
  rw [e4, mul_zero, near_zero] at e5
  have := op2_val (· + ·) n5 na
  unfold linEntry
  rw [fl_add, this, e5, zero_add]
  exact rd_float (na.1.mono (prec_join_right na.2))

/-- **C134.** The matrices that `tofits` writes: that of the first redshift is exact, each other one agrees with the matrix in memory up to six rounding errors of
the change from the previous redshift and one rounding error of the value. -/
theorem C134_saved_partial {K : Kc Fl} {A : AMat Fl} (h : FlGood A) (hx : K.redshifts = A.x) {Ms : List (List (List Fl))} (hs : A.atAll K.redshifts = .ok Ms) :
    Ms.length = A.x.length ∧ ∀ i M r k, Ms[i]? = some M → r < A.nrow → k < A.ncol →
      ∃ a y, mentry (A.node i) r k = some a ∧ mentry M r k = some y ∧ (i = 0 → y.val = a.val) ∧
        (0 < i → ∃ b, mentry (A.node (i - 1)) r k = some b ∧ |y.val - a.val| ≤ 6 * uro 24 * |a.val - b.val| + uro 24 * max |a.val| |b.val|) := by
  rw [hx] at hs
  unfold AMat.atAll at hs
  rw [mapM_ok_iff] at hs
  refine ⟨hs.length_eq.symm, ?_⟩
  intro i M r k hM hr hk
  have hi' := (List.getElem?_eq_some_iff.mp hM).1
  have hi : i < A.x.length := by rw [hs.length_eq]; exact hi'
  have hq := (List.forall₂_iff_get.mp hs).2 i hi hi'
  simp only [List.get_eq_getElem] at hq
  have eM : Ms[i] = M := (List.getElem?_eq_some_iff.mp hM).2
  have ex : A.x[i] = ent A.x i := by unfold ent; rw [getD_lt hi]
  rw [eM, ex] at hq
  obtain ⟨l, hl, h1, h2, h3, rfl⟩ := at_fl h hq
  have nq := h.ent_num hi
  have m1 := h.node_mem (i := l) (by omega)
  have m2 := h.node_mem (i := l + 1) hl
  obtain ⟨a, ha⟩ := mentry_some (h.rows _ m1) hr hk
  obtain ⟨b, hb⟩ := mentry_some (h.rows _ m2) hr hk
  obtain ⟨ra, hra, hma⟩ := mentry_mem ha
  obtain ⟨rb, hrb, hmb⟩ := mentry_mem hb
  have na := h.numy _ m1 _ hra _ hma
  have nb := h.numy _ m2 _ hrb _ hmb
  have hli : l ≤ i := by
    by_contra hc
    have := h.ent_lt (i := i) (j := l) (by omega) (by omega)
    linarith
  have hil : i ≤ l + 1 := by
    by_contra hc
    have := h.ent_lt (i := l + 1) (j := i) hi (by omega)
    linarith
  have hy : mentry (linBetween (ent A.x l) (ent A.x (l + 1)) (ent A.x i) (A.node l) (A.node (l + 1))) r k =
      some (linEntry (ent A.x l) (ent A.x (l + 1)) (ent A.x i) a b) := by rw [linBetween_mentry, ha, hb]; rfl
  rcases Nat.lt_or_ge l i with hlt | hge
  · have e : i = l + 1 := by omega
    subst e
    obtain ⟨n, e⟩ := linEntry_fl (h.ent_num (i := l) (by omega)) (h.ent_num hl) nq na nb h1 h2 h3
    refine ⟨b, _, hb, hy, by omega, ?_⟩
    intro _
    refine ⟨a, by simpa using ha, ?_⟩
    have hd : (ent A.x (l + 1)).val - (ent A.x l).val ≠ 0 := by linarith
    have : linEntry (ent A.x l).val (ent A.x (l + 1)).val (ent A.x (l + 1)).val a.val b.val = b.val := by
      unfold linEntry; field_simp; ring
    rw [this, max_comm] at e
    exact e
  · have e : i = l := by omega
    subst e
    have hv := linEntry_node_fl (h.ent_num (i := i) (by omega)) (h.ent_num hl) na nb
    refine ⟨a, _, ha, hy, fun _ => hv, ?_⟩
    intro hpos
    have m0 := h.node_mem (i := i - 1) (by omega)
    obtain ⟨b', hb'⟩ := mentry_some (h.rows _ m0) hr hk
    refine ⟨b', hb', ?_⟩
    rw [hv, sub_self, abs_zero]
    have hu := uro_pos 24
    have : 0 ≤ max |a.val| |b'.val| := le_max_of_le_left (abs_nonneg _)
    positivity

end KC
