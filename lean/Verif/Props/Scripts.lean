import Verif.Model.Scripts
import Verif.Props.Floor
import Verif.Lemmas.Utils

/-!
# The photometry of the example scripts (C210, C211)
-/

namespace KC
open Spec

section tables
variable {α : Type}

/-- a table with `N` rows of `n` columns -/
def Table (N n : Nat) (a : List (List α)) : Prop := a.length = N ∧ ∀ r ∈ a, r.length = n

/-- entry of a list of rows -/
def tabGet (a : List (List α)) (r j : Nat) : Option α := (a[r]?).bind (fun row => row[j]?)

theorem tabGet_some {N n : Nat} {a : List (List α)} (h : Table N n a) {r j : Nat} (hr : r < N) (hj : j < n) : ∃ x, tabGet a r j = some x := by
  have h1 : r < a.length := h.1 ▸ hr
  have h2 : j < a[r].length := by rw [h.2 _ (List.getElem_mem h1)]; exact hj
  exact ⟨a[r][j], by simp [tabGet, h1, h2]⟩

theorem tabGet_lt {N n : Nat} {a : List (List α)} (h : Table N n a) {r j : Nat} {x : α} (hx : tabGet a r j = some x) : r < N ∧ j < n := by
  simp only [tabGet, Option.bind_eq_some_iff] at hx
  obtain ⟨row, h1, h2⟩ := hx
  obtain ⟨h3, rfl⟩ := List.getElem?_eq_some_iff.mp h1
  obtain ⟨h4, -⟩ := List.getElem?_eq_some_iff.mp h2
  exact ⟨h.1 ▸ h3, by rw [← h.2 _ (List.getElem_mem h3)]; exact h4⟩

theorem zip_table {N n : Nat} {a b : List (List α)} (f : α → α → α) (ha : Table N n a) (hb : Table N n b) : Table N n (List.zipWith (List.zipWith f) a b) := by
  refine ⟨by simp [ha.1, hb.1], fun r hr => ?_⟩
  obtain ⟨i, hi, rfl⟩ := List.getElem_of_mem hr
  simp only [List.length_zipWith, lt_min_iff] at hi
  rw [List.getElem_zipWith, List.length_zipWith, ha.2 _ (List.getElem_mem hi.1), hb.2 _ (List.getElem_mem hi.2), min_self]

theorem zip_tabGet (f : α → α → α) (a b : List (List α)) {r j : Nat} {x y : α} (hx : tabGet a r j = some x) (hy : tabGet b r j = some y) :
    tabGet (List.zipWith (List.zipWith f) a b) r j = some (f x y) := by
  simp only [tabGet, Option.bind_eq_some_iff] at hx hy
  obtain ⟨ra, h1, h2⟩ := hx
  obtain ⟨rb, h3, h4⟩ := hy
  simp [tabGet, List.getElem?_zipWith, h1, h3, h2, h4]

end tables

section generic
variable {α : Type} [Arith α]

/-- `sdss_ab_correct` and the change of units, one flux -/
def sdssM (φ x : α) : α := f32 (f32 (f32 x * pow10 (-(lit 0.4) * f32 φ)) * lit 1e-9)

/-- one inverse variance -/
def sdssV (φ v : α) : α := f32 (f32 (f32 v / (pow10 (-(lit 0.4) * f32 φ) * pow10 (-(lit 0.4) * f32 φ))) * lit 1e18)

theorem sdssMaggies_table {N : Nat} {fl iv : List (List α)} (hf : Table N 5 fl) (hv : Table N 5 iv) :
    ∃ sm sv, sdssMaggies (.arr [N] 5 fl) (.arr [N] 5 iv) = .ok ⟨.arr [N] 5 sm, .arr [N] 5 sv⟩ ∧ Table N 5 sm ∧ Table N 5 sv ∧
      ∀ (r j : Nat) x v φ, tabGet fl r j = some x → tabGet iv r j = some v → abfixDefault[j]? = some φ → tabGet sm r j = some (sdssM φ x) ∧ tabGet sv r j = some (sdssV φ v) := by
  let fm : List (List α) := fl.map (List.map f32)
  let fv : List (List α) := iv.map (List.map f32)
  have tm : Table N 5 fm := ⟨by simp [fm, hf.1], by simpa [fm] using hf.2⟩
  have tv : Table N 5 fv := ⟨by simp [fv, hv.1], by simpa [fv] using hv.2⟩
  let gm : Nat → List α → α := fun i s => f32 (ent s i * ent (abFac abfixDefault) i)
  let gv : Nat → List α → α := fun i s => f32 (ent s i / (ent (abFac abfixDefault) i * ent (abFac abfixDefault) i))
  let cm := colLoop 5 (fun i s _ => gm i s) fm (zeroRows fm.length 5)
  let cv := colLoop 5 (fun i s _ => gv i s) fv (zeroRows fv.length 5)
  have e : sdssAbCorrect (.arr [N] 5 fl) (some (.arr [N] 5 iv)) abfixDefault = .ok ⟨.arr [N] 5 cm, some (.arr [N] 5 cv)⟩ := by
    simp [sdssAbCorrect, abApply, abfixDefault, NDA.map, NDA.shape, require, cm, cv, fm, fv, gm, gv]
  refine ⟨cm.map (List.map (fun x => f32 (x * lit 1e-9))), cv.map (List.map (fun x => f32 (x * lit 1e18))), ?_, ?_, ?_, ?_⟩
  · simp only [sdssMaggies, e, ok_bind]
    rfl
  · refine ⟨by rw [List.length_map]; exact (fill_length 5 5 gm fm).trans tm.1, fun r hr => ?_⟩
    obtain ⟨row, h1, rfl⟩ := List.mem_map.mp hr
    simpa using fill_row_length 5 5 gm fm row h1
  · refine ⟨by rw [List.length_map]; exact (fill_length 5 5 gv fv).trans tv.1, fun r hr => ?_⟩
    obtain ⟨row, h1, rfl⟩ := List.mem_map.mp hr
    simpa using fill_row_length 5 5 gv fv row h1
  · intro r j x v φ hx hy hφ
    obtain ⟨hr, hj⟩ := tabGet_lt hf hx
    have ex : tabGet fm r j = some (f32 x) := by
      simp only [tabGet, Option.bind_eq_some_iff] at hx ⊢
      obtain ⟨row, h1, h2⟩ := hx
      exact ⟨row.map f32, by simp [fm, h1], by simp [h2]⟩
    have ev : tabGet fv r j = some (f32 v) := by
      simp only [tabGet, Option.bind_eq_some_iff] at hy ⊢
      obtain ⟨row, h1, h2⟩ := hy
      exact ⟨row.map f32, by simp [fv, h1], by simp [h2]⟩
    have ef : ent (abFac abfixDefault) j = pow10 (-(lit 0.4) * f32 φ) := ent_eq (by simp [abFac, hφ])
    have key : ∀ (g : Nat → List α → α) (src : List (List α)) (y : α) (h : α → α), tabGet src r j = some y →
        ∃ s, src[r]? = some s ∧ ent s j = y ∧ tabGet ((colLoop 5 (fun i s _ => g i s) src (zeroRows src.length 5)).map (List.map h)) r j = some (h (g j s)) := by
      intro g src y h hy
      have h0 := hy
      simp only [tabGet, Option.bind_eq_some_iff] at hy
      obtain ⟨s, h1, h2⟩ := hy
      refine ⟨s, h1, ent_eq h2, ?_⟩
      have := fill_entry 5 5 g src r j
      rw [h1] at this
      simp only [Option.bind_some, hj, if_true, Option.bind_eq_some_iff] at this
      obtain ⟨row, h3, h4⟩ := this
      simp [tabGet, h3, h4]
    obtain ⟨s, h1, h2, h3⟩ := key gm fm _ (fun x => f32 (x * lit 1e-9)) ex
    obtain ⟨s', h1', h2', h3'⟩ := key gv fv _ (fun x => f32 (x * lit 1e18)) ev
    refine ⟨h3.trans ?_, h3'.trans ?_⟩
    · simp only [gm, h2, ef]; rfl
    · simp only [gv, h2', ef]; rfl

/-- photometry of `k_plot_test_mtol` before bad entries are replaced: one flux, one inverse variance -/
def mtolM (φ a x : α) : α := f32 (sdssM φ x * f32 (pow10 (lit 0.4 * a)))

def mtolV (φ a fl x v : α) : α := floorEntry f32 fl (mtolM φ a x) (f32 (sdssV φ v * f32 (pow10 (-(lit 0.8) * a))))

theorem floor_table (floor : List α) {N n : Nat} (hn : floor.length = n) {m v : List (List α)} (hm : Table N n m) (hv : Table N n v) :
    ∃ w, errorFloor f32 floor (.arr [N] n m) (.arr [N] n v) = .ok (.arr [N] n w) ∧ Table N n w ∧
      ∀ (r j : Nat) x y fl, tabGet m r j = some x → tabGet v r j = some y → floor[j]? = some fl → tabGet w r j = some (floorEntry f32 fl x y) := by
  obtain ⟨out, h1, h2, h3, h4⟩ := errorFloor_entry f32 floor (.arr [N] n m) (.arr [N] n v) ⟨by simpa using hm.1, hm.2⟩ ⟨by simpa using hv.1, hv.2⟩ rfl
    (by simp [lastAxis, NDA.shape, hn]) (by simp [NDA.ndim])
  obtain ⟨w, rfl, h5, h6⟩ := shape_arr (lead := [N]) h3 h2
  refine ⟨w, h1, ⟨by simpa using h5, h6⟩, fun r j x y fl hx hy hf => ?_⟩
  have := h4 r j
  rw [show entry (NDA.arr [N] n m) r j = some x from hx, show entry (NDA.arr [N] n v) r j = some y from hy, hf] at this
  exact this

/-- bad entries become zero -/
theorem clean_table {N n : Nat} {m v : List (List α)} (hm : Table N n m) (hv : Table N n v) :
    ∃ m' v', cleanPhot (.arr [N] n m) (.arr [N] n v) = ⟨.arr [N] n m', .arr [N] n v'⟩ ∧ Table N n m' ∧ Table N n v' ∧
      ∀ (r j : Nat) x y, tabGet m r j = some x → tabGet v r j = some y →
        tabGet m' r j = some (if badEntry x y then lit 0 else x) ∧ tabGet v' r j = some (if badEntry x y then lit 0 else y) :=
  ⟨_, _, rfl, zip_table _ hm hv, zip_table _ hm hv, fun _ _ _ _ hx hy => ⟨zip_tabGet _ _ _ hx hy, zip_tabGet _ _ _ hx hy⟩⟩

theorem mtol_table {N : Nat} {fl iv ex : List (List α)} (hf : Table N 5 fl) (hv : Table N 5 iv) (he : Table N 5 ex) :
    ∃ m v, mtolPhotometry (.arr [N] 5 fl) (.arr [N] 5 iv) (.arr [N] 5 ex) = .ok ⟨.arr [N] 5 m, .arr [N] 5 v⟩ ∧ Table N 5 m ∧ Table N 5 v ∧
      ∀ (r j : Nat) x y a φ c, tabGet fl r j = some x → tabGet iv r j = some y → tabGet ex r j = some a → abfixDefault[j]? = some φ → (mtolFloor.map f32)[j]? = some c →
        tabGet m r j = some (if badEntry (mtolM φ a x) (mtolV φ a c x y) then lit 0 else mtolM φ a x) ∧
        tabGet v r j = some (if badEntry (mtolM φ a x) (mtolV φ a c x y) then lit 0 else mtolV φ a c x y) := by
  obtain ⟨sm, sv, e, t1, t2, h1⟩ := sdssMaggies_table hf hv
  have t3 := zip_table (fun x a => f32 (x * f32 (pow10 (lit 0.4 * a)))) t1 he
  have t4 := zip_table (fun x a => f32 (x * f32 (pow10 (-(lit 0.8) * a)))) t2 he
  obtain ⟨w, e2, t5, h2⟩ := floor_table (mtolFloor.map f32) (by simp [mtolFloor]) t3 t4
  obtain ⟨m, v, e3, t6, t7, h3⟩ := clean_table t3 t5
  refine ⟨m, v, ?_, t6, t7, fun r j x y a φ c hx hy ha hφ hc => ?_⟩
  · simp only [mtolPhotometry, e, ok_bind, zipTab]
    rw [e2, ok_bind, e3]
    rfl
  · obtain ⟨g1, g2⟩ := h1 r j x y φ hx hy hφ
    have g3 := zip_tabGet (fun x a => f32 (x * f32 (pow10 (lit 0.4 * a)))) _ _ g1 ha
    have g4 := zip_tabGet (fun x a => f32 (x * f32 (pow10 (-(lit 0.8) * a)))) _ _ g2 ha
    exact h3 r j _ _ g3 (h2 r j _ _ c g3 g4 hc)

/-- photometry of `k_plot_test_gst` before bad entries are replaced -/
def gstM (a r : α) (p : α × α) : α := f32 (p.1 * f32 (pow10 (lit 0.4 * a * r)))

def gstV (a r fl : α) (p : α × α) : α := floorEntry f32 fl (gstM a r p) (f32 (p.2 * f32 (pow10 (-(lit 0.8) * a * r))))

/-- the ten bands of a row of the catalogue, before the correction for extinction -/
def gstBand (vJ vH vK : α) (g : GstRow α) : Nat → Option (α × α)
  | 0 => some (galexBand (lit 18.82) g.fuv g.fuvErr)
  | 1 => some (galexBand (lit 20.08) g.nuv g.nuvErr)
  | 7 => some (twomassBand vJ g.jMag g.jSig)
  | 8 => some (twomassBand vH g.hMag g.hSig)
  | 9 => some (twomassBand vK g.kMag g.kSig)
  | j + 2 => (g.model[j]?).bind fun x => (g.modelIvar[j]?).bind fun v => (abfixDefault[j]?).map fun φ => (sdssM φ x, sdssV φ v)

theorem gst_table (vJ vH vK : α) (cat : List (GstRow α)) (hc : ∀ g ∈ cat, g.model.length = 5 ∧ g.modelIvar.length = 5) :
    ∃ m v, gstPhotometry (some vJ) (some vH) (some vK) cat = .ok ⟨.arr [cat.length] 10 m, .arr [cat.length] 10 v⟩ ∧ Table cat.length 10 m ∧ Table cat.length 10 v ∧
      ∀ (r j : Nat) g p rf c, cat[r]? = some g → gstBand vJ vH vK g j = some p → redFac[j]? = some rf → (gstFloor.map f32)[j]? = some c →
        tabGet m r j = some (if badEntry (gstM (ent g.extinction 2) rf p) (gstV (ent g.extinction 2) rf c p) then lit 0 else gstM (ent g.extinction 2) rf p) ∧
        tabGet v r j = some (if badEntry (gstM (ent g.extinction 2) rf p) (gstV (ent g.extinction 2) rf c p) then lit 0 else gstV (ent g.extinction 2) rf c p) := by
  have hf : Table cat.length 5 (cat.map GstRow.model) := ⟨by simp, fun r hr => by obtain ⟨g, hg, rfl⟩ := List.mem_map.mp hr; exact (hc g hg).1⟩
  have hv : Table cat.length 5 (cat.map GstRow.modelIvar) := ⟨by simp, fun r hr => by obtain ⟨g, hg, rfl⟩ := List.mem_map.mp hr; exact (hc g hg).2⟩
  obtain ⟨sm, sv, e, t1, t2, h1⟩ := sdssMaggies_table hf hv
  let rows := List.zipWith (fun g (s : List α × List α) => deredden g (gstRowOf vJ vH vK g s.1 s.2)) cat (List.zip sm sv)
  have hlen : rows.length = cat.length := by simp [rows, t1.1, t2.1]
  have hrow : ∀ row ∈ rows, row.length = 10 := by
    intro row hr
    obtain ⟨i, hi, rfl⟩ := List.getElem_of_mem hr
    rw [hlen] at hi
    have l1 : (sm[i]'(by rw [t1.1]; exact hi)).length = 5 := t1.2 _ (List.getElem_mem _)
    have l2 : (sv[i]'(by rw [t2.1]; exact hi)).length = 5 := t2.2 _ (List.getElem_mem _)
    simp [rows, deredden, gstRowOf, redFac, l1, l2]
  have t3 : Table cat.length 10 (rows.map (List.map Prod.fst)) := ⟨by simp [hlen], fun r hr => by obtain ⟨g, hg, rfl⟩ := List.mem_map.mp hr; simpa using hrow g hg⟩
  have t4 : Table cat.length 10 (rows.map (List.map Prod.snd)) := ⟨by simp [hlen], fun r hr => by obtain ⟨g, hg, rfl⟩ := List.mem_map.mp hr; simpa using hrow g hg⟩
  obtain ⟨w, e2, t5, h2⟩ := floor_table (gstFloor.map f32) (by simp [gstFloor]) t3 t4
  obtain ⟨m, v, e3, t6, t7, h3⟩ := clean_table t3 t5
  refine ⟨m, v, ?_, t6, t7, fun r j g p rf c hg hp hrf hcf => ?_⟩
  · simp only [gstPhotometry, e, ok_bind, needMag]
    rw [e2, ok_bind, e3]
    rfl
  · have hr : r < cat.length := (List.getElem?_eq_some_iff.mp hg).1
    have hj : j < 10 := by simpa [redFac] using (List.getElem?_eq_some_iff.mp hrf).1
    have r1 : sm[r]? = some (sm[r]'(by rw [t1.1]; exact hr)) := List.getElem?_eq_getElem _
    have r2 : sv[r]? = some (sv[r]'(by rw [t2.1]; exact hr)) := List.getElem?_eq_getElem _
    have l1 : (sm[r]'(by rw [t1.1]; exact hr)).length = 5 := t1.2 _ (List.getElem_mem _)
    have l2 : (sv[r]'(by rw [t2.1]; exact hr)).length = 5 := t2.2 _ (List.getElem_mem _)
    generalize sm[r]'(by rw [t1.1]; exact hr) = a at r1 l1
    generalize sv[r]'(by rw [t2.1]; exact hr) = b at r2 l2
    have hb : (gstRowOf vJ vH vK g a b)[j]? = some p := by
      obtain ⟨a0, a1, a2, a3, a4, rfl⟩ : ∃ a0 a1 a2 a3 a4, a = [a0, a1, a2, a3, a4] := by
        match a, l1 with
        | [a0, a1, a2, a3, a4], _ => exact ⟨_, _, _, _, _, rfl⟩
      obtain ⟨b0, b1, b2, b3, b4, rfl⟩ : ∃ b0 b1 b2 b3 b4, b = [b0, b1, b2, b3, b4] := by
        match b, l2 with
        | [b0, b1, b2, b3, b4], _ => exact ⟨_, _, _, _, _, rfl⟩
      have key : ∀ (k : Nat) (x v φ : α), g.model[k]? = some x → g.modelIvar[k]? = some v → abfixDefault[k]? = some φ →
          [a0, a1, a2, a3, a4][k]? = some (sdssM φ x) ∧ [b0, b1, b2, b3, b4][k]? = some (sdssV φ v) := by
        intro k x v φ hx hv' hφ
        have := h1 r k x v φ (by simp [tabGet, hg, hx]) (by simp [tabGet, hg, hv']) hφ
        simpa only [tabGet, r1, r2, Option.bind_some] using this
      have sd : ∀ k : Nat, (g.model[k]?).bind (fun x => (g.modelIvar[k]?).bind fun v => (abfixDefault[k]?).map fun φ => (sdssM φ x, sdssV φ v)) = some p →
          [a0, a1, a2, a3, a4][k]? = some p.1 ∧ [b0, b1, b2, b3, b4][k]? = some p.2 := by
        intro k hk
        simp only [Option.bind_eq_some_iff, Option.map_eq_some_iff] at hk
        obtain ⟨x, hx, v, hv', φ, hφ, rfl⟩ := hk
        exact key k x v φ hx hv' hφ
      match j, hj, hp with
      | 0, _, hp => simpa [gstRowOf, gstBand] using hp
      | 1, _, hp => simpa [gstRowOf, gstBand] using hp
      | 2, _, hp => have := sd 0 hp; simp at this; simp [gstRowOf, this.1, this.2]
      | 3, _, hp => have := sd 1 hp; simp at this; simp [gstRowOf, this.1, this.2]
      | 4, _, hp => have := sd 2 hp; simp at this; simp [gstRowOf, this.1, this.2]
      | 5, _, hp => have := sd 3 hp; simp at this; simp [gstRowOf, this.1, this.2]
      | 6, _, hp => have := sd 4 hp; simp at this; simp [gstRowOf, this.1, this.2]
      | 7, _, hp => simpa [gstRowOf, gstBand] using hp
      | 8, _, hp => simpa [gstRowOf, gstBand] using hp
      | 9, _, hp => simpa [gstRowOf, gstBand] using hp
    have hrows : rows[r]? = some (deredden g (gstRowOf vJ vH vK g a b)) := by
      simp only [rows, List.getElem?_zipWith, hg, List.zip, r1, r2]
    have hd : (deredden g (gstRowOf vJ vH vK g a b))[j]? =
        some (f32 (p.1 * f32 (pow10 (lit 0.4 * ent g.extinction 2 * rf))), f32 (p.2 * f32 (pow10 (-(lit 0.8) * ent g.extinction 2 * rf)))) := by
      simp only [deredden, List.getElem?_zipWith, hrf, hb]
    have g3 : tabGet (rows.map (List.map Prod.fst)) r j = some (gstM (ent g.extinction 2) rf p) := by simp [tabGet, hrows, hd, gstM]
    have g4 : tabGet (rows.map (List.map Prod.snd)) r j = some (f32 (p.2 * f32 (pow10 (-(lit 0.8) * ent g.extinction 2 * rf)))) := by simp [tabGet, hrows, hd]
    exact h3 r j _ _ g3 (h2 r j _ _ c g3 g4 hcf)

end generic

theorem bad_xr {x y : XR} (h : badEntry x y = false) : ∃ a b : ℝ, x = .fin a ∧ y = .fin b ∧ 0 ≤ b := by
  simp only [badEntry, Bool.or_eq_false_iff, Bool.not_eq_false'] at h
  obtain ⟨⟨h1, h2⟩, h3⟩ := h
  have fin : ∀ z : XR, finb z = true → ∃ a : ℝ, z = .fin a := by
    intro z hz
    cases z with
    | fin a => exact ⟨a, rfl⟩
    | pinf => exact absurd hz (by simp [finb, leb, lit, XR.leb, HSub.hSub, Sub.sub, XR.add, XR.neg])
    | ninf => exact absurd hz (by simp [finb, leb, lit, XR.leb, HSub.hSub, Sub.sub, XR.add, XR.neg])
    | nan => exact absurd hz (by simp [finb, leb, lit, XR.leb, HSub.hSub, Sub.sub, XR.add])
  obtain ⟨a, rfl⟩ := fin x h1
  obtain ⟨b, rfl⟩ := fin y h2
  refine ⟨a, b, rfl, rfl, ?_⟩
  have : ¬ b < ((0 : ℚ) : ℝ) := by simpa [ltb, lit, XR.ltb] using h3
  simpa using this

namespace Spec

/-- Finite fluxes and finite nonnegative inverse variances in every entry of two arrays of the same shape. -/
def Fittable (m v : NDA XR) : Prop :=
  m.shape = v.shape ∧ m.WF ∧ v.WF ∧ ∀ (r j : Nat) x y, entry m r j = some x → entry v r j = some y → ∃ a b : ℝ, x = .fin a ∧ y = .fin b ∧ 0 ≤ b

end Spec

theorem clean_fin (x y : XR) : ∃ a b : ℝ, (if badEntry x y then lit 0 else x) = .fin a ∧ (if badEntry x y then lit 0 else y) = .fin b ∧ 0 ≤ b := by
  cases h : badEntry x y with
  | true => exact ⟨((0 : ℚ) : ℝ), ((0 : ℚ) : ℝ), rfl, rfl, by simp⟩
  | false => obtain ⟨a, b, h1, h2, h3⟩ := bad_xr h; exact ⟨a, b, by simpa using h1, by simpa using h2, h3⟩

/-- C210: whatever the columns hold (NaN, infinities, negative inverse variances), the recipe of `k_plot_test_mtol` returns finite fluxes and finite nonnegative inverse variances
of the shape of the columns. -/
theorem C210_mtol (N : Nat) (flux ivar ext : NDA XR) (hf : flux.WF) (hv : ivar.WF) (he : ext.WF) (sf : flux.shape = [N, 5]) (sv : ivar.shape = [N, 5]) (se : ext.shape = [N, 5]) :
    ∃ p, mtolPhotometry flux ivar ext = .ok p ∧ p.maggies.shape = [N, 5] ∧ Fittable p.maggies p.ivar := by
  obtain ⟨fl, rfl, f1, f2⟩ := shape_arr (lead := [N]) hf sf
  obtain ⟨iv, rfl, v1, v2⟩ := shape_arr (lead := [N]) hv sv
  obtain ⟨ex, rfl, e1, e2⟩ := shape_arr (lead := [N]) he se
  have tf : Table N 5 fl := ⟨by simpa using f1, f2⟩
  have tv : Table N 5 iv := ⟨by simpa using v1, v2⟩
  have te : Table N 5 ex := ⟨by simpa using e1, e2⟩
  obtain ⟨m, v, e, t1, t2, h⟩ := mtol_table tf tv te
  refine ⟨_, e, rfl, rfl, ⟨by simpa using t1.1, t1.2⟩, ⟨by simpa using t2.1, t2.2⟩, fun r j x y hx hy => ?_⟩
  obtain ⟨hr, hj⟩ := tabGet_lt t1 (show tabGet m r j = some x from hx)
  obtain ⟨x0, hx0⟩ := tabGet_some tf hr hj
  obtain ⟨y0, hy0⟩ := tabGet_some tv hr hj
  obtain ⟨a0, ha0⟩ := tabGet_some te hr hj
  obtain ⟨h1, h2⟩ := h r j x0 y0 a0 _ _ hx0 hy0 ha0 (List.getElem?_eq_getElem (by simpa [abfixDefault] using hj)) (List.getElem?_eq_getElem (by simpa [mtolFloor] using hj))
  rw [show tabGet m r j = some x from hx, Option.some.injEq] at h1
  rw [show tabGet v r j = some y from hy, Option.some.injEq] at h2
  rw [h1, h2]
  exact clean_fin _ _

theorem gstBand_some {α : Type} [Arith α] (vJ vH vK : α) (g : GstRow α) (hg : g.model.length = 5 ∧ g.modelIvar.length = 5) {j : Nat} (hj : j < 10) : ∃ p, gstBand vJ vH vK g j = some p := by
  have sd : ∀ k < 5, ∃ p, (g.model[k]?).bind (fun x => (g.modelIvar[k]?).bind fun v => (abfixDefault[k]?).map fun φ => (sdssM φ x, sdssV φ v)) = some p := by
    intro k hk
    have h1 : g.model[k]? = some (g.model[k]'(by omega)) := List.getElem?_eq_getElem _
    have h2 : g.modelIvar[k]? = some (g.modelIvar[k]'(by omega)) := List.getElem?_eq_getElem _
    have h3 : (abfixDefault : List α)[k]? = some ((abfixDefault : List α)[k]'(by simpa [abfixDefault] using hk)) := List.getElem?_eq_getElem _
    rw [h1, h2, h3]
    exact ⟨_, rfl⟩
  match j, hj with
  | 0, _ => exact ⟨_, rfl⟩
  | 1, _ => exact ⟨_, rfl⟩
  | 2, _ => exact sd 0 (by norm_num)
  | 3, _ => exact sd 1 (by norm_num)
  | 4, _ => exact sd 2 (by norm_num)
  | 5, _ => exact sd 3 (by norm_num)
  | 6, _ => exact sd 4 (by norm_num)
  | 7, _ => exact ⟨_, rfl⟩
  | 8, _ => exact ⟨_, rfl⟩
  | 9, _ => exact ⟨_, rfl⟩

namespace Spec

/-- GALEX flux or error not measured: -99 or 0. -/
def GalexMissing (flux err : XR) : Prop := flux = .fin (-99) ∨ flux = .fin 0 ∨ err = .fin (-99) ∨ err = .fin 0

/-- 2MASS magnitude not measured: 0, or its error not positive (or NaN). -/
def TwomassMissing (mag sig : XR) : Prop := mag = .fin 0 ∨ sig = .nan ∨ sig = .ninf ∨ ∃ s ≤ 0, sig = .fin s

/-- The bands of a row of the catalogue without a measurement. -/
def Missing (g : GstRow XR) : Nat → Prop
  | 0 => GalexMissing g.fuv g.fuvErr
  | 1 => GalexMissing g.nuv g.nuvErr
  | 7 => TwomassMissing g.jMag g.jSig
  | 8 => TwomassMissing g.hMag g.hSig
  | 9 => TwomassMissing g.kMag g.kSig
  | _ => False

end Spec

theorem galex_missing (zp : XR) {flux err : XR} (h : GalexMissing flux err) : galexBand zp flux err = (.fin 0, .fin 0) := by
  unfold galexBand
  have h0 : (lit 0 : XR) = .fin 0 := by simp [lit]
  have h99 : (lit (-99) : XR) = .fin (-99) := by simp [lit]
  have hn : ∀ a : ℝ, neqb (.fin a : XR) (.fin a) = false := by intro a; simp [neqb, leb, XR.leb]
  rw [h0, h99]
  rcases h with rfl | rfl | rfl | rfl <;> simp [hn]

theorem twomass_missing (v : XR) {mag sig : XR} (h : TwomassMissing mag sig) : twomassBand v mag sig = (.fin 0, .fin 0) := by
  unfold twomassBand
  have h0 : (lit 0 : XR) = .fin 0 := by simp [lit]
  have hn : neqb (.fin 0 : XR) (.fin 0) = false := by simp [neqb, leb, XR.leb]
  rw [h0]
  rcases h with rfl | rfl | rfl | ⟨s, hs, rfl⟩
  · simp [hn]
  · simp [gtb, ltb, XR.ltb]
  · simp [gtb, ltb, XR.ltb]
  · simp [gtb, ltb, XR.ltb, hs]

/-- zero times anything is zero or NaN -/
theorem zero_mul_xr (x : XR) : (.fin 0 : XR) * x = .fin 0 ∨ (.fin 0 : XR) * x = .nan := by
  show XR.mul (.fin 0) x = .fin 0 ∨ XR.mul (.fin 0) x = .nan
  cases x <;> simp [XR.mul, XR.infMul]

theorem gst_none (a r fl : XR) :
    (if badEntry (gstM a r (.fin 0, .fin 0)) (gstV a r fl (.fin 0, .fin 0)) then (lit 0 : XR) else gstM a r (.fin 0, .fin 0)) = .fin 0 ∧
    (if badEntry (gstM a r (.fin 0, .fin 0)) (gstV a r fl (.fin 0, .fin 0)) then (lit 0 : XR) else gstV a r fl (.fin 0, .fin 0)) = .fin 0 := by
  have h0 : (lit 0 : XR) = .fin 0 := by simp [lit]
  have hM : gstM a r (.fin 0, .fin 0) = .fin 0 ∨ gstM a r (.fin 0, .fin 0) = .nan := zero_mul_xr _
  have hV : gstV a r fl (.fin 0, .fin 0) = .fin 0 ∨ gstV a r fl (.fin 0, .fin 0) = .nan := by
    unfold gstV
    rcases zero_mul_xr (f32 (pow10 (-(lit 0.8) * a * r))) with h | h
    · left
      rw [show f32 ((.fin 0 : XR) * f32 (pow10 (-(lit 0.8) * a * r))) = .fin 0 from h, floorEntry_skip (by simp [gtb, ltb, XR.ltb, h0])]
    · right
      rw [show f32 ((.fin 0 : XR) * f32 (pow10 (-(lit 0.8) * a * r))) = .nan from h, floorEntry_skip (by simp [gtb, ltb, XR.ltb, h0])]
  rw [h0]
  have bad : ∀ x y : XR, (x = .nan ∨ y = .nan) → badEntry x y = true := by
    intro x y h
    by_contra hb
    obtain ⟨a, b, rfl, rfl, _⟩ := bad_xr (Bool.eq_false_iff.mpr hb)
    simp at h
  rcases hM with hM | hM
  · rcases hV with hV | hV
    · rw [hM, hV]; simp
    · rw [bad _ _ (Or.inr hV)]; simp
  · rw [bad _ _ (Or.inl hM)]; simp

/-- C210: bands without a measurement get flux zero and inverse variance zero, whatever the extinction. -/
theorem C210_missing (vJ vH vK : XR) (cat : List (GstRow XR)) (hc : ∀ g ∈ cat, g.model.length = 5 ∧ g.modelIvar.length = 5) :
    ∃ p, gstPhotometry (some vJ) (some vH) (some vK) cat = .ok p ∧ ∀ (r j : Nat) g, cat[r]? = some g → Missing g j →
      entry p.maggies r j = some (.fin 0) ∧ entry p.ivar r j = some (.fin 0) := by
  obtain ⟨m, v, e, t1, t2, h⟩ := gst_table vJ vH vK cat hc
  refine ⟨_, e, fun r j g hg hm => ?_⟩
  have key : gstBand vJ vH vK g j = some (.fin 0, .fin 0) ∧ j < 10 := by
    match j, hm with
    | 0, hm => exact ⟨congrArg some (galex_missing _ hm), by norm_num⟩
    | 1, hm => exact ⟨congrArg some (galex_missing _ hm), by norm_num⟩
    | 7, hm => exact ⟨congrArg some (twomass_missing _ hm), by norm_num⟩
    | 8, hm => exact ⟨congrArg some (twomass_missing _ hm), by norm_num⟩
    | 9, hm => exact ⟨congrArg some (twomass_missing _ hm), by norm_num⟩
  obtain ⟨h1, h2⟩ := h r j g _ _ _ hg key.1 (List.getElem?_eq_getElem (by simpa [redFac] using key.2)) (List.getElem?_eq_getElem (by simpa [gstFloor] using key.2))
  rw [(gst_none _ _ _).1] at h1
  rw [(gst_none _ _ _).2] at h2
  exact ⟨h1, h2⟩

/-- C210 for `k_plot_test_gst`. -/
theorem C210_gst (vJ vH vK : XR) (cat : List (GstRow XR)) (hc : ∀ g ∈ cat, g.model.length = 5 ∧ g.modelIvar.length = 5) :
    ∃ p, gstPhotometry (some vJ) (some vH) (some vK) cat = .ok p ∧ p.maggies.shape = [cat.length, 10] ∧ Fittable p.maggies p.ivar := by
  obtain ⟨m, v, e, t1, t2, h⟩ := gst_table vJ vH vK cat hc
  refine ⟨_, e, rfl, rfl, ⟨by simpa using t1.1, t1.2⟩, ⟨by simpa using t2.1, t2.2⟩, fun r j x y hx hy => ?_⟩
  obtain ⟨hr, hj⟩ := tabGet_lt t1 (show tabGet m r j = some x from hx)
  obtain ⟨p, hp⟩ := gstBand_some vJ vH vK cat[r] (hc _ (List.getElem_mem hr)) hj
  obtain ⟨h1, h2⟩ := h r j cat[r] p _ _ (List.getElem?_eq_getElem hr) hp (List.getElem?_eq_getElem (by simpa [redFac] using hj)) (List.getElem?_eq_getElem (by simpa [gstFloor] using hj))
  rw [show tabGet m r j = some x from hx, Option.some.injEq] at h1
  rw [show tabGet v r j = some y from hy, Option.some.injEq] at h2
  rw [h1, h2]
  exact clean_fin _ _

/-- Not vacuous: a row with NaN, infinity and a negative inverse variance. -/
example : let a : NDA XR := .arr [1] 5 [[.nan, .pinf, .fin 1, .fin (-2), .fin 0]]
    a.WF ∧ a.shape = [1, 5] := by
  simp [NDA.WF, NDA.shape]

/-- Not vacuous: no GALEX measurement in FUV, NaN in NUV, no 2MASS measurement in J. -/
noncomputable def demoRow : GstRow XR :=
  ⟨.fin (-99), .fin (-99), .nan, .fin 1, [.fin 1, .nan, .fin 1, .fin 1, .fin 1], [.fin 1, .fin 1, .fin (-1), .fin 1, .pinf], .fin 0, .fin 1, .fin 14, .fin 1, .fin 13, .nan, [.fin 1, .fin 1, .pinf]⟩

example : (∀ g ∈ [demoRow], g.model.length = 5 ∧ g.modelIvar.length = 5) ∧ Missing demoRow 0 ∧ Missing demoRow 7 ∧ Missing demoRow 9 ∧ ¬ Missing demoRow 8 :=
  ⟨by simp [demoRow], .inl rfl, .inl rfl, .inr (.inl rfl), by
    rintro (h | h | h | ⟨s, hs, h⟩)
    · simp [demoRow] at h
    · simp [demoRow] at h
    · simp [demoRow] at h
    · simp only [demoRow, XR.fin.injEq] at h; linarith⟩

end KC
