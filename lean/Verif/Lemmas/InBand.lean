import Verif.Lemmas.SplineCert
import Verif.Props.Shipped

/-!
# Photon integrals inside a band, in rational numbers
-/

namespace KC
open Spec

/-- the part of a photon integral below a sample where everything vanishes can be left out -/
theorem trap_above {F : ℝ → ℝ} {lo : ℝ} (h0 : ∀ w, w ≤ lo → F w = 0) : ∀ {g : List ℝ}, g.Pairwise (· < ·) → lo ∈ g →
    trapRule (g.filter (fun w => decide (lo ≤ w))) ((g.filter (fun w => decide (lo ≤ w))).map F) = trapRule g (g.map F)
  | [], _, h => by simp at h
  | [a], _, h => by
    obtain rfl : lo = a := by simpa using h
    simp
  | a :: b :: r, hs, h => by
    have hc := List.pairwise_cons.mp hs
    by_cases ha : lo ≤ a
    · have : (a :: b :: r).filter (fun w => decide (lo ≤ w)) = a :: b :: r := by
        rw [List.filter_eq_self]
        intro w hw
        rcases List.mem_cons.mp hw with rfl | hw
        · simpa using ha
        · simpa using ha.trans (hc.1 w hw).le
      rw [this]
    · push Not at ha
      have hm : lo ∈ b :: r := by
        rcases List.mem_cons.mp h with rfl | h
        · exact absurd ha (lt_irrefl _)
        · exact h
      have hb : b ≤ lo := by
        rcases List.mem_cons.mp hm with e | hm
        · exact e.ge
        · exact ((List.pairwise_cons.mp hc.2).1 lo hm).le
      have ih := trap_above h0 hc.2 hm
      rw [List.filter_cons_of_neg (by simpa using ha), ih]
      simp only [List.map_cons, trapRule, h0 a ha.le, h0 b hb]
      ring

theorem trap_zero {F : ℝ → ℝ} : ∀ {g : List ℝ}, (∀ w ∈ g, F w = 0) → trapRule g (g.map F) = 0
  | [], _ => rfl
  | [_], _ => rfl
  | a :: b :: r, h => by
    have ih := trap_zero (g := b :: r) (fun w hw => h w (List.mem_cons_of_mem _ hw))
    simp only [List.map_cons] at ih
    simp only [List.map_cons, trapRule, h a (by simp), h b (by simp)]
    rw [h b (by simp)] at ih
    rw [ih]; ring

/-- and the part above -/
theorem trap_below {F : ℝ → ℝ} {hi : ℝ} (h0 : ∀ w, hi ≤ w → F w = 0) : ∀ {g : List ℝ}, g.Pairwise (· < ·) → hi ∈ g →
    trapRule (g.filter (fun w => decide (w ≤ hi))) ((g.filter (fun w => decide (w ≤ hi))).map F) = trapRule g (g.map F)
  | [], _, h => by simp at h
  | [a], _, h => by
    obtain rfl : hi = a := by simpa using h
    simp
  | a :: b :: r, hs, h => by
    have hc := List.pairwise_cons.mp hs
    by_cases ha : a = hi
    · have e : (b :: r).filter (fun w => decide (w ≤ hi)) = [] := by
        rw [List.filter_eq_nil_iff]
        intro w hw
        have := hc.1 w hw
        rw [ha] at this
        simpa using this
      rw [List.filter_cons_of_pos (by simp [ha]), e, trap_zero (g := a :: b :: r) (fun w hw => ?_)]
      · rfl
      · refine h0 w ?_
        rcases List.mem_cons.mp hw with rfl | hw
        · exact ha.ge
        · exact ha.ge.trans (hc.1 w hw).le
    · have hm : hi ∈ b :: r := (List.mem_cons.mp h).resolve_left (fun e => ha e.symm)
      have hal : a < hi := hc.1 hi hm
      have hb : b ≤ hi := by
        rcases List.mem_cons.mp hm with e | hm
        · exact e.ge
        · exact ((List.pairwise_cons.mp hc.2).1 hi hm).le
      have ih := trap_below h0 hc.2 hm
      rw [List.filter_cons_of_pos (by simpa using hb)] at ih
      rw [List.filter_cons_of_pos (by simpa using hal.le), List.filter_cons_of_pos (by simpa using hb)]
      simp only [List.map_cons, trapRule] at ih ⊢
      rw [ih]

/-- two increasing lists made one, without repetitions -/
def mergeU : List ℚ → List ℚ → List ℚ
  | [], ys => ys
  | x :: xs, ys => ys.takeWhile (fun v => decide (v < x)) ++ x :: mergeU xs (ys.dropWhile (fun v => decide (v ≤ x)))

theorem takeWhile_lt_mem {c v : ℚ} : ∀ {l : List ℚ}, l.Pairwise (· < ·) → v ∈ l → v < c → v ∈ l.takeWhile (fun v => decide (v < c))
  | a :: r, hs, hv, hc => by
    have hp := List.pairwise_cons.mp hs
    rcases List.mem_cons.mp hv with rfl | hv
    · rw [List.takeWhile_cons, if_pos (by simpa using hc)]; simp
    · have : a < c := (hp.1 v hv).trans hc
      rw [List.takeWhile_cons, if_pos (by simpa using this)]
      exact List.mem_cons_of_mem _ (takeWhile_lt_mem hp.2 hv hc)

theorem takeWhile_lt_imp {c : ℚ} : ∀ {l : List ℚ}, ∀ v ∈ l.takeWhile (fun v => decide (v < c)), v < c
  | [], v, hv => by simp at hv
  | a :: r, v, hv => by
    rw [List.takeWhile_cons] at hv
    split_ifs at hv with ha
    · rcases List.mem_cons.mp hv with rfl | hv
      · simpa using ha
      · exact takeWhile_lt_imp v hv
    · simp at hv

theorem dropWhile_le_mem {c v : ℚ} : ∀ {l : List ℚ}, v ∈ l → c < v → v ∈ l.dropWhile (fun v => decide (v ≤ c))
  | a :: r, hv, hc => by
    rw [List.dropWhile_cons]
    split_ifs with ha
    · rcases List.mem_cons.mp hv with rfl | hv
      · exact absurd hc (not_lt.mpr (by simpa using ha))
      · exact dropWhile_le_mem hv hc
    · exact hv

theorem mem_mergeU {v : ℚ} : ∀ {xs ys : List ℚ}, ys.Pairwise (· < ·) → (v ∈ mergeU xs ys ↔ v ∈ xs ∨ v ∈ ys)
  | [], ys, _ => by simp [mergeU]
  | x :: xs, ys, hy => by
    have ih := mem_mergeU (v := v) (xs := xs) (ys := ys.dropWhile (fun v => decide (v ≤ x))) (hy.sublist (List.dropWhile_sublist _))
    rw [mergeU, List.mem_append, List.mem_cons, ih, List.mem_cons]
    constructor
    · rintro (h | h | h | h)
      · exact .inr ((List.takeWhile_sublist _).subset h)
      · exact .inl (.inl h)
      · exact .inl (.inr h)
      · exact .inr ((List.dropWhile_sublist _).subset h)
    · rintro ((h | h) | h)
      · exact .inr (.inl h)
      · exact .inr (.inr (.inl h))
      · rcases lt_trichotomy v x with c | c | c
        · exact .inl (takeWhile_lt_mem hy h c)
        · exact .inr (.inl c)
        · exact .inr (.inr (.inr (dropWhile_le_mem h c)))

theorem mergeU_incr : ∀ {xs ys : List ℚ}, xs.Pairwise (· < ·) → ys.Pairwise (· < ·) → (mergeU xs ys).Pairwise (· < ·)
  | [], ys, _, hy => hy
  | x :: xs, ys, hx, hy => by
    have hp := List.pairwise_cons.mp hx
    have hd := hy.sublist (List.dropWhile_sublist (fun v => decide (v ≤ x)))
    have gt : ∀ v ∈ mergeU xs (ys.dropWhile (fun v => decide (v ≤ x))), x < v := by
      intro v hv
      rcases (mem_mergeU hd).mp hv with h | h
      · exact hp.1 v h
      · exact dropWhile_gt (hy.imp le_of_lt) v h
    rw [mergeU, List.pairwise_append]
    refine ⟨hy.sublist (List.takeWhile_sublist _), List.pairwise_cons.mpr ⟨gt, mergeU_incr hp.2 hd⟩, ?_⟩
    intro a ha b hb
    have ha := takeWhile_lt_imp a ha
    rcases List.mem_cons.mp hb with rfl | hb
    · exact ha
    · exact ha.trans (gt b hb)

/-- the wavelengths of a band `rw` and those of a spectrum `sw` inside it -/
def gridQ (sw rw : List ℚ) : List ℚ := mergeU rw (sw.filter (fun q => decide (rw.headD 0 ≤ q) && decide (q ≤ rw.getLastD 0)))

theorem mem_gridQ {sw rw : List ℚ} (hs : sw.Pairwise (· < ·)) {v : ℚ} : v ∈ gridQ sw rw ↔ v ∈ rw ∨ (v ∈ sw ∧ rw.headD 0 ≤ v ∧ v ≤ rw.getLastD 0) := by
  have := mem_mergeU (v := v) (xs := rw) (hs.sublist (List.filter_sublist (p := fun q => decide (rw.headD 0 ≤ q) && decide (q ≤ rw.getLastD 0))))
  unfold gridQ
  rw [this]
  simp

theorem gridQ_incr {sw rw : List ℚ} (hs : sw.Pairwise (· < ·)) (hr : rw.Pairwise (· < ·)) : (gridQ sw rw).Pairwise (· < ·) :=
  mergeU_incr hr (hs.sublist List.filter_sublist)

/-- rational numbers as real numbers -/
noncomputable def toR (l : List ℚ) : List ℝ := l.map (fun q : ℚ => (q : ℝ))

theorem toR_headD (l : List ℚ) : (toR l).headD 0 = ((l.headD 0 : ℚ) : ℝ) := by cases l <;> simp [toR]

theorem toR_getLastD (l : List ℚ) : (toR l).getLastD 0 = ((l.getLastD 0 : ℚ) : ℝ) := by
  unfold toR
  rw [List.getLastD_eq_getLast?, List.getLastD_eq_getLast?, List.getLast?_map]
  cases l.getLast? <;> simp

theorem toR_incr {l : List ℚ} : (toR l).Pairwise (· < ·) ↔ l.Pairwise (· < ·) := by
  unfold toR
  rw [List.pairwise_map]
  constructor <;> exact fun h => h.imp fun {a b} hab => by exact_mod_cast hab

/-- A photon integral over any grid of a projection equals the integral over the explicit grid, for a response that is zero in the first and last row. -/
theorem photonInt_inside {sw rw : List ℚ} {g : List ℝ} (hs : sw.Pairwise (· < ·)) (hw : rw.Pairwise (· < ·)) (hne : rw ≠ []) (hg : UnionGrid (toR sw) (toR rw) g)
    {R : ℝ → ℝ} (f : ℝ → ℝ) (hlo : ∀ w, w ≤ ((rw.headD 0 : ℚ) : ℝ) → R w = 0) (hhi : ∀ w, ((rw.getLastD 0 : ℚ) : ℝ) ≤ w → R w = 0) :
    photonInt g R f = photonInt (toR (gridQ sw rw)) R f := by
  have hm0 : rw.headD 0 ∈ rw := by cases rw with
    | nil => exact absurd rfl hne
    | cons a r => simp
  have hm1 : rw.getLastD 0 ∈ rw := by
    rw [List.getLastD_eq_getLast?, List.getLast?_eq_some_getLast hne]
    exact List.getLast_mem hne
  have inR : ∀ {l : List ℚ} {q : ℚ}, q ∈ l → ((q : ℚ) : ℝ) ∈ toR l := fun h => List.mem_map_of_mem h
  have first : ∀ v ∈ rw, rw.headD 0 ≤ v := by
    cases rw with
    | nil => exact absurd rfl hne
    | cons a r =>
      intro v hv
      rcases List.mem_cons.mp hv with rfl | hv
      · exact le_rfl
      · exact ((List.pairwise_cons.mp hw).1 v hv).le
  have last : ∀ v ∈ rw, v ≤ rw.getLastD 0 := by
    intro v hv
    rw [List.getLastD_eq_getLast?, List.getLast?_eq_some_getLast hne]
    obtain ⟨i, hi, rfl⟩ := List.getElem_of_mem hv
    rw [List.getLast_eq_getElem]
    by_cases e : i = rw.length - 1
    · simp [e]
    · exact (List.pairwise_iff_getElem.mp hw i (rw.length - 1) hi (by omega) (by omega)).le
  unfold photonInt
  rw [← trap_above (F := fun w => w * R w * f w) (lo := ((rw.headD 0 : ℚ) : ℝ)) (fun w hw => by simp only [hlo w hw]; ring) hg.incr (hg.band _ (inR hm0)),
    ← trap_below (F := fun w => w * R w * f w) (hi := ((rw.getLastD 0 : ℚ) : ℝ)) (fun w hw => by simp only [hhi w hw]; ring) (hg.incr.sublist List.filter_sublist)
      (List.mem_filter.mpr ⟨hg.band _ (inR hm1), by simpa using first _ hm1⟩)]
  have e : (g.filter (fun w => decide (((rw.headD 0 : ℚ) : ℝ) ≤ w))).filter (fun w => decide (w ≤ ((rw.getLastD 0 : ℚ) : ℝ))) = toR (gridQ sw rw) := by
    refine strict_ext ((hg.incr.sublist List.filter_sublist).sublist List.filter_sublist) (toR_incr.mpr (gridQ_incr hs hw)) (fun w => ?_)
    simp only [List.mem_filter, decide_eq_true_eq]
    constructor
    · rintro ⟨⟨hw1, h0⟩, h1⟩
      rcases hg.only w hw1 with h | h <;> obtain ⟨q, hq, rfl⟩ := List.mem_map.mp h
      · exact inR ((mem_gridQ hs).mpr (.inl hq))
      · exact inR ((mem_gridQ hs).mpr (.inr ⟨hq, by exact_mod_cast h0, by exact_mod_cast h1⟩))
    · intro h
      obtain ⟨q, hq, rfl⟩ := List.mem_map.mp h
      rcases (mem_gridQ hs).mp hq with hq | ⟨hq, h0, h1⟩
      · exact ⟨⟨hg.band _ (inR hq), by exact_mod_cast first q hq⟩, by exact_mod_cast last q hq⟩
      · refine ⟨⟨hg.sed _ (inR hq) ?_ ?_, by exact_mod_cast h0⟩, by exact_mod_cast h1⟩
        · rw [toR_headD]; exact_mod_cast h0
        · rw [toR_getLastD]; exact_mod_cast h1
  rw [e]

/-- lower bounds of `wavelength * R * f`, rounded down to multiples of `1 / S` -/
def prodLo (S : ℕ) : List ℚ → List (ℚ × ℚ) → List (ℚ × ℚ) → List ℚ
  | q :: qs, e :: es, f :: fs => (⌊q * (e.1 * f.1 - (|e.1| * f.2 + |f.1| * e.2 + e.2 * f.2)) * S⌋ : ℚ) / S :: prodLo S qs es fs
  | _, _, _ => []

/-- upper bounds -/
def prodHi (S : ℕ) : List ℚ → List (ℚ × ℚ) → List (ℚ × ℚ) → List ℚ
  | q :: qs, e :: es, f :: fs => (⌈q * (e.1 * f.1 + (|e.1| * f.2 + |f.1| * e.2 + e.2 * f.2)) * S⌉ : ℚ) / S :: prodHi S qs es fs
  | _, _, _ => []

theorem encl_mul {u v : ℝ} {e f : ℚ × ℚ} (hu : Encl u e) (hv : Encl v f) :
    |u * v - ((e.1 * f.1 : ℚ) : ℝ)| ≤ ((|e.1| * f.2 + |f.1| * e.2 + e.2 * f.2 : ℚ) : ℝ) := by
  unfold Encl at hu hv
  have e0 : u * v - ((e.1 * f.1 : ℚ) : ℝ) = e.1 * (v - f.1) + f.1 * (u - e.1) + (u - e.1) * (v - f.1) := by push_cast; ring
  rw [e0]
  push_cast
  refine (abs_add_three _ _ _).trans ?_
  rw [abs_mul, abs_mul, abs_mul]
  have : (0 : ℝ) ≤ e.2 := (abs_nonneg _).trans hu
  gcongr

theorem prod_bounds {S : ℕ} (hS : 0 < S) {R f : ℝ → ℝ} : ∀ {qs : List ℚ} {es fs : List (ℚ × ℚ)}, (∀ q ∈ qs, 0 ≤ q) →
    List.Forall₂ (fun (q : ℚ) (e : ℚ × ℚ) => Encl (R q) e) qs es → List.Forall₂ (fun (q : ℚ) (e : ℚ × ℚ) => Encl (f q) e) qs fs →
    List.Forall₂ (fun a b : ℝ => a ≤ b) (toR (prodLo S qs es fs)) ((toR qs).map (fun w => w * R w * f w)) ∧
      List.Forall₂ (fun a b : ℝ => a ≤ b) ((toR qs).map (fun w => w * R w * f w)) (toR (prodHi S qs es fs))
  | [], [], [], _, .nil, .nil => by simp [prodLo, prodHi, toR]
  | q :: qs, e :: es, g :: gs, h0, .cons he hes, .cons hg hgs => by
    have ih := prod_bounds hS (fun v hv => h0 v (List.mem_cons_of_mem _ hv)) hes hgs
    have hm := abs_le.mp (encl_mul he hg)
    have hq : (0 : ℝ) ≤ q := by exact_mod_cast h0 q (by simp)
    have hSq : (0 : ℚ) < S := by exact_mod_cast hS
    have lo : ((⌊q * (e.1 * g.1 - (|e.1| * g.2 + |g.1| * e.2 + e.2 * g.2)) * S⌋ : ℚ) / S) ≤ q * (e.1 * g.1 - (|e.1| * g.2 + |g.1| * e.2 + e.2 * g.2)) := by
      rw [div_le_iff₀ hSq]; exact Int.floor_le _
    have hi : q * (e.1 * g.1 + (|e.1| * g.2 + |g.1| * e.2 + e.2 * g.2)) ≤ ((⌈q * (e.1 * g.1 + (|e.1| * g.2 + |g.1| * e.2 + e.2 * g.2)) * S⌉ : ℚ) / S) := by
      rw [le_div_iff₀ hSq]; exact Int.le_ceil _
    have lo' : (((⌊q * (e.1 * g.1 - (|e.1| * g.2 + |g.1| * e.2 + e.2 * g.2)) * S⌋ : ℚ) / S : ℚ) : ℝ) ≤ ((q * (e.1 * g.1 - (|e.1| * g.2 + |g.1| * e.2 + e.2 * g.2)) : ℚ) : ℝ) := by
      exact_mod_cast lo
    have hi' : ((q * (e.1 * g.1 + (|e.1| * g.2 + |g.1| * e.2 + e.2 * g.2)) : ℚ) : ℝ) ≤ (((⌈q * (e.1 * g.1 + (|e.1| * g.2 + |g.1| * e.2 + e.2 * g.2)) * S⌉ : ℚ) / S : ℚ) : ℝ) := by
      exact_mod_cast hi
    have e1 : ((q * (e.1 * g.1 - (|e.1| * g.2 + |g.1| * e.2 + e.2 * g.2)) : ℚ) : ℝ) = q * (((e.1 * g.1 : ℚ) : ℝ) - ((|e.1| * g.2 + |g.1| * e.2 + e.2 * g.2 : ℚ) : ℝ)) := by
      push_cast; ring
    have e2 : ((q * (e.1 * g.1 + (|e.1| * g.2 + |g.1| * e.2 + e.2 * g.2)) : ℚ) : ℝ) = q * (((e.1 * g.1 : ℚ) : ℝ) + ((|e.1| * g.2 + |g.1| * e.2 + e.2 * g.2 : ℚ) : ℝ)) := by
      push_cast; ring
    rw [e1] at lo'
    rw [e2] at hi'
    refine ⟨List.Forall₂.cons (lo'.trans ?_) ih.1, List.Forall₂.cons (le_trans ?_ hi') ih.2⟩
    · simp only [mul_assoc]
      exact mul_le_mul_of_nonneg_left (by linarith [hm.1]) hq
    · simp only [mul_assoc]
      exact mul_le_mul_of_nonneg_left (by linarith [hm.2]) hq

theorem trapRule_le {x f g : List ℝ} (hx : x.Pairwise (· < ·)) (h : List.Forall₂ (fun a b : ℝ => a ≤ b) f g) : trapRule x f ≤ trapRule x g :=
  trapRule_mono x f g (hx.imp le_of_lt) h.length_eq (fun i h1 h2 => (List.forall₂_iff_get.mp h).2 i h1 h2)

/-- bounds of a photon integral from enclosures of the response and of the spectrum -/
theorem photonInt_bounds {S : ℕ} (hS : 0 < S) {R f : ℝ → ℝ} {qs : List ℚ} {es fs : List (ℚ × ℚ)} (hs : qs.Pairwise (· < ·)) (h0 : ∀ q ∈ qs, 0 ≤ q)
    (hR : List.Forall₂ (fun (q : ℚ) (e : ℚ × ℚ) => Encl (R q) e) qs es) (hf : List.Forall₂ (fun (q : ℚ) (e : ℚ × ℚ) => Encl (f q) e) qs fs) :
    ((trapQ qs (prodLo S qs es fs) : ℚ) : ℝ) ≤ photonInt (toR qs) R f ∧ photonInt (toR qs) R f ≤ ((trapQ qs (prodHi S qs es fs) : ℚ) : ℝ) := by
  obtain ⟨h1, h2⟩ := prod_bounds hS h0 hR hf
  rw [← trapQ_cast, ← trapQ_cast]
  exact ⟨trapRule_le (toR_incr.mpr hs) h1, trapRule_le (toR_incr.mpr hs) h2⟩

end KC
