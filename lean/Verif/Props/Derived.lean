import Verif.Lemmas.Derived
import Verif.Props.Absmag
import Verif.Props.AbsmagMc

/-!
# Derived quantities (C76–C82, C95)
-/

namespace KC
open Spec

/-! ### Any arithmetic: what `derived` refuses -/

theorem bind_ok_iff {β γ : Type} {x : Py β} {f : β → Py γ} {y : γ} : (x >>= f) = .ok y ↔ ∃ a, x = .ok a ∧ f a = .ok y := by
  cases x with
  | error e => simp
  | ok a => simp

section generic
variable {α : Type} [Arith α]

/-- The parts of `derived` every result has gone through. -/
theorem derived_ok {K : Kc α} {g : Reg α} {redshift coeffs : Option (NDA α)} {bs : α} {distance : Option (NDA α)} {D : Derived α}
    (h : K.derived g redshift coeffs bs distance = .ok D) :
    ∃ i : Inp α, processInputs K.toFitter redshift none none coeffs = .ok i ∧
      (∃ s, K.responsesOut.mapM (solarOf g (if distance.isSome then none else some (i.z.map K.distmod))) = .ok s) ∧
      (i.array = true → K.responses.length = K.responsesOut.length) := by
  unfold Kc.derived at h
  obtain ⟨i, hi, h⟩ := bind_ok_iff.mp h
  refine ⟨i, hi, ?_⟩
  unfold Kc.derivedI at h
  cases hc : i.coeffs with
  | none =>
    rw [hc] at h
    cases distance with
    | none => simp only [pure_py, ok_bind] at h; cases h
    | some d =>
      obtain ⟨x, hx, h⟩ := bind_ok_iff.mp h
      cases h
  | some cs =>
    rw [hc] at h
    cases distance with
    | none =>
      simp only [pure_py, ok_bind] at h
      simp only [bind_ok_iff] at h
      obtain ⟨_, _, _, _, _, _, _, _, _, _, _, _, _, _, _, _, _, _, s, hs, u, hu, _⟩ := h
      exact ⟨⟨s, hs⟩, require_ok_iff.mp hu⟩
    | some d =>
      obtain ⟨j, hj, h⟩ := bind_ok_iff.mp h
      simp only [pure_py, ok_bind] at h
      simp only [bind_ok_iff] at h
      obtain ⟨_, _, _, _, _, _, _, _, _, _, _, _, _, _, _, _, _, _, s, hs, u, hu, _⟩ := h
      exact ⟨⟨s, hs⟩, require_ok_iff.mp hu⟩

/-- C79 is false: with an explicit distance and at least one output band no call to `derived` returns. -/
theorem C79_false (K : Kc α) (hout : K.responsesOut ≠ []) (g : Reg α) (redshift coeffs : Option (NDA α)) (bs : α) (d : NDA α)
    (D : Derived α) : K.derived g redshift coeffs bs (some d) ≠ .ok D := by
  intro h
  obtain ⟨i, _, ⟨s, hs⟩, _⟩ := derived_ok h
  obtain ⟨n, hn⟩ := List.exists_mem_of_ne_nil _ hout
  have : ∃ e, solarOf g none n = .error e := by
    unfold solarOf
    cases g n with
    | none => exact ⟨_, rfl⟩
    | some o => exact ⟨_, rfl⟩
  obtain ⟨e, he⟩ := this
  obtain ⟨e', he'⟩ := mapM_error_of hn he
  rw [Option.isSome_some, if_pos rfl, he'] at hs
  cases hs

/-- C80 is false: on arrays, with different numbers of input and output bands, no call to `derived` returns. -/
theorem C80_false (K : Kc α) (hlen : K.responses.length ≠ K.responsesOut.length) (g : Reg α) (zs : List α) (coeffs : Option (NDA α)) (bs : α)
    (distance : Option (NDA α)) (D : Derived α) : K.derived g (some (.vec zs)) coeffs bs distance ≠ .ok D := by
  intro h
  obtain ⟨i, hi, _, hl⟩ := derived_ok h
  refine hlen (hl ?_)
  unfold processInputs at hi
  simp only [Option.map_some, NDA.map, NDA.vec, ok_bind] at hi
  obtain ⟨m, _, hi⟩ := bind_ok_iff.mp hi
  obtain ⟨iv, _, hi⟩ := bind_ok_iff.mp hi
  obtain ⟨c, _, hi⟩ := bind_ok_iff.mp hi
  cases hm : m with
  | none => 
    rw [hm] at hi
    cases hab : K.abcorrect <;> (rw [hab] at hi; cases hi; rfl)
  | some mm =>
    rw [hm] at hi
    cases hab : K.abcorrect with
    | false => rw [hab] at hi; cases hi; rfl
    | true =>
      rw [hab] at hi
      obtain ⟨r, _, hi⟩ := bind_ok_iff.mp hi
      cases hi
      rfl

/-- C81 is false: with an output band whose solar magnitude is undefined no call to `derived` returns. -/
theorem C81_false (K : Kc α) (n : Name) (hn : n ∈ K.responsesOut) (g : Reg α) (o : RespObj α) (ho : g n = some o) (hs : o.solarMag = none)
    (redshift coeffs : Option (NDA α)) (bs : α) (distance : Option (NDA α)) (D : Derived α) :
    K.derived g redshift coeffs bs distance ≠ .ok D := by
  intro h
  obtain ⟨i, _, ⟨s, hsm⟩, _⟩ := derived_ok h
  have : ∀ dm, ∃ e, solarOf g dm n = .error e := by
    intro dm
    unfold solarOf
    rw [ho]
    cases dm with
    | none => exact ⟨_, rfl⟩
    | some dm => simp only [ok_bind, hs]; exact ⟨_, rfl⟩
  obtain ⟨e, he⟩ := this _
  obtain ⟨e', he'⟩ := mapM_error_of hn he
  rw [he'] at hsm
  cases hsm

/-- What C79 to C81 raise, for one galaxy with everything else in order: `UnboundLocalError` with a distance, `TypeError` without
solar magnitude. -/
theorem C81_type_error {K : Kc α} {t : Tmpl α} (ht : K.templates = .template t) (hm : MassOK t K.templates.nsed) {Ao : AMat α}
    (hAo : K.AmatrixOut = some Ao) (n : Name) (ho : K.responsesOut = [n]) (g : Reg α) (o : RespObj α) (hg : g n = some o)
    (hs : o.solarMag = none) (z : α) (c : List α) (hc : c.length = K.templates.nsed) (bs : α) (M : List (List α))
    (hM : Ao.at (shiftOf (f32 (lit 0)) bs) = .ok M) :
    K.derived g (some (.scalar z)) (some (.vec c)) bs none = .error .typeError := by
  rw [derived_scalar ht hm hAo g z c hc]
  unfold derOne
  rw [hM, ho]
  simp [solMag, hg, hs, Except.map]

/-- C79: the error with a distance, for one galaxy with everything else in order, is `UnboundLocalError`. -/
theorem C79_unbound {K : Kc α} {t : Tmpl α} (ht : K.templates = .template t) (hm : MassOK t K.templates.nsed) {Ao : AMat α}
    (hAo : K.AmatrixOut = some Ao) (n : Name) (rest : List Name) (ho : K.responsesOut = n :: rest) (g : Reg α) (o : RespObj α) (hg : g n = some o)
    (z d : α) (c : List α) (hc : c.length = K.templates.nsed) (bs : α) (M : List (List α)) (hM : Ao.at (shiftOf (f32 (lit 0)) bs) = .ok M) :
    K.derived g (some (.scalar z)) (some (.vec c)) bs (some (.scalar d)) = .error .unboundLocalError := by
  unfold Kc.derived
  rw [process_scalar _ z c hc, ok_bind]
  have hmass : K.templates.mass = .ok t := by rw [ht]; rfl
  have hcf : (c.map f32).length = K.templates.nsed := by simpa using hc
  unfold Kc.derivedI
  have hz : (List.zipWith (fun x y => x * y) t.mremain t.mets).length = K.templates.nsed := by simp [hm.mremain, hm.mets]
  simp only [pure_py, ok_bind, List.map_cons, List.map_nil, hmass, dotPy, hm.intsfh, hm.mremain, hm.mets, hm.m50, hm.m300, hm.m1000,
    hz, if_true, Option.map_some, Inp.tbl, Bool.false_eq_true, if_false, vec_eq hcf, Inp.vecArr, List.length_cons, List.length_nil, zeros,
    List.headD_cons, Nat.zero_add, List.replicate_one, require_true, process_scalar _ d (c.map f32) hcf]
  unfold Kc.reconstructOut
  rw [hAo, recon_scalar _ _ _ _ _ hcf, hM]
  simp only [Except.map, ok_bind, ho, List.mapM_cons]
  have : solarOf g none n = .error .unboundLocalError := by unfold solarOf; rw [hg]; rfl
  rw [this]
  rfl

/-- The values with a distance, when there are no output bands. -/
theorem derived_distance {K : Kc α} {t : Tmpl α} (ht : K.templates = .template t) (hm : MassOK t K.templates.nsed) {Ao : AMat α}
    (hAo : K.AmatrixOut = some Ao) (ho : K.responsesOut = []) (g : Reg α) (z d : α) (c : List α) (hc : c.length = K.templates.nsed) (bs : α)
    (M : List (List α)) (hM : Ao.at (shiftOf (f32 (lit 0)) bs) = .ok M) :
    ∃ D, K.derived g (some (.scalar z)) (some (.vec c)) bs (some (.scalar d)) = .ok D ∧
      D.mremain = .scalar (dot (c.map f32) t.mremain * dfactorOf (f32 d)) ∧ D.intsfh = .scalar (dot (c.map f32) t.intsfh * dfactorOf (f32 d)) := by
  unfold Kc.derived
  rw [process_scalar _ z c hc, ok_bind]
  have hmass : K.templates.mass = .ok t := by rw [ht]; rfl
  have hcf : (c.map f32).length = K.templates.nsed := by simpa using hc
  unfold Kc.derivedI
  have hz : (List.zipWith (fun x y => x * y) t.mremain t.mets).length = K.templates.nsed := by simp [hm.mremain, hm.mets]
  simp only [pure_py, ok_bind, List.map_cons, List.map_nil, hmass, dotPy, hm.intsfh, hm.mremain, hm.mets, hm.m50, hm.m300, hm.m1000,
    hz, if_true, Option.map_some, Inp.tbl, Bool.false_eq_true, if_false, vec_eq hcf, Inp.vecArr, List.length_cons, List.length_nil, zeros,
    List.headD_cons, Nat.zero_add, List.replicate_one, require_true, process_scalar _ d (c.map f32) hcf]
  unfold Kc.reconstructOut
  rw [hAo, recon_scalar _ _ _ _ _ hcf, hM]
  simp only [Except.map, ok_bind, ho, List.mapM_nil, pure_py]
  rw [require_true (by simp), ok_bind]
  exact ⟨_, rfl, rfl, rfl⟩

/-! ### Monte Carlo -/

/-- The arrays of a dictionary of derived quantities. -/
def Derived.keys (D : Derived α) : List (NDA α) := [D.mremain, D.intsfh, D.mtol, D.b50, D.b300, D.b1000, D.metallicity]

theorem stackKey_entry (f : Derived α → NDA α) (ds : List (Derived α)) (mc k : Nat) (hk : k < mc) (D : Derived α) (hD : ds[k]? = some D)
    (s : List Nat) (hs : ∀ d ∈ ds, (f d).shape = s) :
    (stackKey mc (ds.map f)).shape = (f D).shape ++ [mc] ∧
      ∀ (j : Nat) v, j < (f D).shape.prod → (f D).flat[j]? = some v → entry (stackKey mc (ds.map f)) j k = some (f32 v) := by
  have hDs := hs D (List.mem_of_getElem? hD)
  have hh : ((ds.map f).map NDA.shape).headD [] = s := by
    cases ds with
    | nil => cases hD
    | cons d ds => exact hs d (by simp)
  unfold stackKey
  rw [hh, hDs]
  refine ⟨rfl, ?_⟩
  intro j v hj hv
  simp only [entry, stackLast, List.getElem?_map, List.getElem?_range hj, List.getElem?_range hk, Option.map_some, Option.bind_some, hD,
    ent_eq hv]

theorem derivedMc_core (K : Kc α) (g : Reg α) (redshift : Option (NDA α)) (lead : List Nat) (mc : Nat) (crows : List (List α)) (bs : α)
    (dist : Option (NDA α)) (S : List (List Nat))
    (hS : ∀ k < mc, ∀ D, K.derived g redshift (some (.ofFlat lead (crows.map (fun r => ent r k)))) bs dist = .ok D → D.keys.map NDA.shape = S) :
    ((∃ R, K.derivedMc g redshift (.arr lead mc crows) bs dist = .ok R) ↔
      ∀ k < mc, ∃ D, K.derived g redshift (some (.ofFlat lead (crows.map (fun r => ent r k)))) bs dist = .ok D) ∧
    ∀ R, K.derivedMc g redshift (.arr lead mc crows) bs dist = .ok R → (R = none ↔ mc = 0) ∧
      ∀ k < mc, ∃ R' D, R = some R' ∧ K.derived g redshift (some (.ofFlat lead (crows.map (fun r => ent r k)))) bs dist = .ok D ∧
        ∀ (q : Nat) x y, R'.keys[q]? = some x → D.keys[q]? = some y → x.shape = y.shape ++ [mc] ∧
          ∀ (j : Nat) v, j < y.shape.prod → y.flat[j]? = some v → entry x j k = some (f32 v) := by
  have e : K.derivedMc g redshift (.arr lead mc crows) bs dist =
      ((List.range mc).mapM (fun k => K.derived g redshift (some (.ofFlat lead (crows.map (fun r => ent r k)))) bs dist)) >>= fun ds =>
        if mc = 0 then .ok none else .ok (some ⟨stackKey mc (ds.map (·.mremain)), stackKey mc (ds.map (·.intsfh)), stackKey mc (ds.map (·.mtol)),
          stackKey mc (ds.map (·.b50)), stackKey mc (ds.map (·.b300)), stackKey mc (ds.map (·.b1000)), stackKey mc (ds.map (·.metallicity))⟩) := by
    unfold Kc.derivedMc
    simp only [NDA.lastDim, ok_bind]
    rw [mapM_congr (g := fun k => K.derived g redshift (some (.ofFlat lead (crows.map (fun r => ent r k)))) bs dist)]
    · rfl
    · intro k hk
      have hk : k < mc := by simpa using hk
      simp only [NDA.lastIdx, hk, if_true, ok_bind]
  rw [e]
  refine ⟨⟨?_, ?_⟩, ?_⟩
  · rintro ⟨R, h⟩ k hk
    cases hs : K.derived g redshift (some (.ofFlat lead (crows.map (fun r => ent r k)))) bs dist with
    | ok D => exact ⟨D, rfl⟩
    | error e =>
      obtain ⟨e', he⟩ := mapM_error_of (f := fun k => K.derived g redshift (some (.ofFlat lead (crows.map (fun r => ent r k)))) bs dist)
        (List.mem_range.mpr hk) hs
      rw [he] at h; cases h
  · intro hall
    obtain ⟨ds, hd⟩ := mapM_exists (f := fun k => K.derived g redshift (some (.ofFlat lead (crows.map (fun r => ent r k)))) bs dist)
      (l := List.range mc) (fun k hk => hall k (by simpa using hk))
    rw [hd, ok_bind]
    by_cases h0 : mc = 0
    · exact ⟨_, by rw [if_pos h0]⟩
    · exact ⟨_, by rw [if_neg h0]⟩
  · intro R h
    obtain ⟨ds, hd, h⟩ := bind_ok_iff.mp h
    have hf := mapM_ok_iff.mp hd
    constructor
    · by_cases h0 : mc = 0
      · rw [if_pos h0] at h; cases h; simp [h0]
      · rw [if_neg h0] at h; cases h; simp [h0]
    · intro k hk
      rw [if_neg (by omega)] at h
      cases h
      have hkr : k < (List.range mc).length := by simpa using hk
      have hko : k < ds.length := by rw [← hf.length_eq]; exact hkr
      have hf1 := (List.forall₂_iff_get.mp hf).2 k hkr hko
      simp only [List.get_eq_getElem, List.getElem_range] at hf1
      refine ⟨_, ds[k], rfl, hf1, ?_⟩
      have hall : ∀ d ∈ ds, d.keys.map NDA.shape = S := by
        intro d hd
        obtain ⟨i, hi, rfl⟩ := List.getElem_of_mem hd
        have hir : i < (List.range mc).length := by rw [hf.length_eq]; exact hi
        have := (List.forall₂_iff_get.mp hf).2 i hir hi
        simp only [List.get_eq_getElem, List.getElem_range] at this
        exact hS i (by simpa using hir) _ this
      have key : ∀ (q : Nat) (f : Derived α → NDA α), (∀ d : Derived α, d.keys[q]? = some (f d)) → ∀ d ∈ ds, (f d).shape = S.getD q [] := by
        intro q f hq d hd
        rw [← hall d hd, List.getD_eq_getElem?_getD, List.getElem?_map, hq d]
        rfl
      have fin : ∀ (q : Nat) (f : Derived α → NDA α), (∀ d : Derived α, d.keys[q]? = some (f d)) →
          (stackKey mc (ds.map f)).shape = (f ds[k]).shape ++ [mc] ∧
          ∀ (j : Nat) v, j < (f ds[k]).shape.prod → (f ds[k]).flat[j]? = some v → entry (stackKey mc (ds.map f)) j k = some (f32 v) :=
        fun q f hq => stackKey_entry f ds mc k hk ds[k] (List.getElem?_eq_getElem hko) _ (key q f hq)
      intro q x y hx hy
      match q, hx, hy with
      | 0, hx, hy => cases hx; cases hy; exact fin 0 (·.mremain) (fun _ => rfl)
      | 1, hx, hy => cases hx; cases hy; exact fin 1 (·.intsfh) (fun _ => rfl)
      | 2, hx, hy => cases hx; cases hy; exact fin 2 (·.mtol) (fun _ => rfl)
      | 3, hx, hy => cases hx; cases hy; exact fin 3 (·.b50) (fun _ => rfl)
      | 4, hx, hy => cases hx; cases hy; exact fin 4 (·.b300) (fun _ => rfl)
      | 5, hx, hy => cases hx; cases hy; exact fin 5 (·.b1000) (fun _ => rfl)
      | 6, hx, hy => cases hx; cases hy; exact fin 6 (·.metallicity) (fun _ => rfl)
      | n + 7, hx, hy => cases hx

/-- C82 for one galaxy: `derived_mc` returns exactly if `derived` does for every sample; it returns `None` exactly without
samples; sample `k` of every key holds the values `derived` gives for the `k`-th coefficients. -/
theorem C82_one {K : Kc α} {t : Tmpl α} (ht : K.templates = .template t) (hm : MassOK t K.templates.nsed) {Ao : AMat α}
    (hAo : K.AmatrixOut = some Ao) (g : Reg α) (z : α) (mc : Nat) (crows : List (List α)) (hc : crows.length = K.templates.nsed) (bs : α) :
    ((∃ R, K.derivedMc g (some (.scalar z)) (.arr [K.templates.nsed] mc crows) bs none = .ok R) ↔
      ∀ k < mc, ∃ D, K.derived g (some (.scalar z)) (some (.vec (crows.map (fun r => ent r k)))) bs none = .ok D) ∧
    ∀ R, K.derivedMc g (some (.scalar z)) (.arr [K.templates.nsed] mc crows) bs none = .ok R → (R = none ↔ mc = 0) ∧
      ∀ k < mc, ∃ R' D, R = some R' ∧ K.derived g (some (.scalar z)) (some (.vec (crows.map (fun r => ent r k)))) bs none = .ok D ∧
        ∀ (q : Nat) x y, R'.keys[q]? = some x → D.keys[q]? = some y → x.shape = y.shape ++ [mc] ∧
          ∀ (j : Nat) v, j < y.shape.prod → y.flat[j]? = some v → entry x j k = some (f32 v) := by
  have e : ∀ k, NDA.ofFlat [K.templates.nsed] (crows.map (fun r => ent r k)) = .vec (crows.map (fun r => ent r k)) :=
    fun k => ofFlat_one _ _ (by simpa using hc)
  have := derivedMc_core K g (some (.scalar z)) [K.templates.nsed] mc crows bs none [[], [], [Ao.nrow], [], [], [], []] (by
    intro k _ D h
    rw [e, derived_scalar ht hm hAo g z _ (by simpa using hc)] at h
    cases hd : derOne K g t Ao id id bs (K.distmod (f32 z)) ((crows.map (fun r => ent r k)).map f32) with
    | error e => rw [hd] at h; cases h
    | ok d => rw [hd] at h; cases h; rfl)
  simp only [e] at this
  exact this

/-- C82 for a batch. -/
theorem C82_batch {K : Kc α} {t : Tmpl α} (ht : K.templates = .template t) (hm : MassOK t K.templates.nsed) {Ao : AMat α}
    (hAo : K.AmatrixOut = some Ao) (g : Reg α) (zs : List α) (mc : Nat) (crows : List (List α)) (bs : α) :
    ((∃ R, K.derivedMc g (some (.vec zs)) (.arr [zs.length, K.templates.nsed] mc crows) bs none = .ok R) ↔
      ∀ k < mc, ∃ D, K.derived g (some (.vec zs)) (some (.ofFlat [zs.length, K.templates.nsed] (crows.map (fun r => ent r k)))) bs none = .ok D) ∧
    ∀ R, K.derivedMc g (some (.vec zs)) (.arr [zs.length, K.templates.nsed] mc crows) bs none = .ok R → (R = none ↔ mc = 0) ∧
      ∀ k < mc, ∃ R' D, R = some R' ∧
        K.derived g (some (.vec zs)) (some (.ofFlat [zs.length, K.templates.nsed] (crows.map (fun r => ent r k)))) bs none = .ok D ∧
        ∀ (q : Nat) x y, R'.keys[q]? = some x → D.keys[q]? = some y → x.shape = y.shape ++ [mc] ∧
          ∀ (j : Nat) v, j < y.shape.prod → y.flat[j]? = some v → entry x j k = some (f32 v) := by
  refine derivedMc_core K g (some (.vec zs)) [zs.length, K.templates.nsed] mc crows bs none
    [[zs.length], [zs.length], [zs.length, Ao.nrow], [zs.length], [zs.length], [zs.length], [zs.length]] ?_
  intro k _ D h
  rw [ofFlat_two, derived_array ht hm hAo g zs _ (chunks_length _ _ _)] at h
  obtain ⟨_, _, ds, hd, rfl⟩ := h
  have hl : ds.length = zs.length := by
    rw [← hd.length_eq, List.length_zip, chunks_length]; simp
  simp [Derived.keys, NDA.shape, NDA.vec, hl]

end generic

/-! ### Over the reals -/

/-- Everything `derived` needs: templates with masses and the matrix of the output bands. -/
structure MassKc (K : Kc ℝ) (t : Tmpl ℝ) (Ao : AMat ℝ) : Prop where
  tpl : K.templates = .template t
  mass : MassOK t K.templates.nsed
  out : K.AmatrixOut = some Ao

/-- Total over the templates of a quantity `v` per unit coefficient. -/
noncomputable def total (c v : List ℝ) : ℝ := (List.zipWith (· * ·) c v).sum

theorem dot_total (c v : List ℝ) : dot c v = total c v := by rw [dot, sumL_real]; rfl

theorem total_scale (s : ℝ) : ∀ c v : List ℝ, total (c.map (s * ·)) v = s * total c v
  | [], v => by simp [total]
  | _ :: _, [] => by simp [total]
  | a :: c, b :: v => by
    have := total_scale s c v
    simp only [total] at this
    simp only [total, List.map_cons, List.zipWith_cons_cons, List.sum_cons, this]; ring

theorem total_lincomb (a b : ℝ) : ∀ c1 c2 v : List ℝ, c1.length = c2.length → total (lincomb a b c1 c2) v = a * total c1 v + b * total c2 v
  | [], [], v, _ => by simp [total, lincomb]
  | _ :: _, _ :: _, [], _ => by simp [total]
  | x :: c1, y :: c2, w :: v, h => by
    have := total_lincomb a b c1 c2 v (by simpa using h)
    simp only [total, lincomb] at this
    simp only [total, lincomb, List.zipWith_cons_cons, List.sum_cons, this]; ring

theorem ratio_real (m n d : ℝ) : ratio id m n d = if 0 < m then n / d else 0 := by
  unfold ratio
  simp only [real_gtb, real_lit, decide_eq_true_eq, id]
  norm_num

theorem pow10_pos (x : ℝ) : 0 < pow10 x := Real.rpow_pos_of_pos (by norm_num) x

/-- Luminosity per unit flux at distance modulus `dm`. -/
noncomputable def lumFactor (dm : ℝ) : ℝ := 10 ^ (0.4 * dm)

theorem lumFactor_pos (dm : ℝ) : 0 < lumFactor dm := Real.rpow_pos_of_pos (by norm_num) _

theorem pow10_lum (dm : ℝ) : pow10 (lit (2 / 5) * dm) = lumFactor dm := by
  show (10 : ℝ) ^ (((2 / 5 : ℚ) : ℝ) * dm) = _
  rw [lumFactor]; congr 1; push_cast; norm_num

theorem pow10_solar (s dm : ℝ) : pow10 (lit (-2 / 5) * (s + dm)) = (lumFactor s * lumFactor dm)⁻¹ := by
  show (10 : ℝ) ^ (((-2 / 5 : ℚ) : ℝ) * (s + dm)) = _
  rw [lumFactor, lumFactor, ← Real.rpow_add (by norm_num), ← Real.rpow_neg (by norm_num)]
  congr 1; push_cast; ring

/-- The factor is the square of the luminosity distance in units of 10 pc. -/
theorem lumFactor_distance (d : ℝ) (hd : 0 < d) : lumFactor (distanceModulus d) = (d * 10 ^ 5) ^ 2 := by
  unfold lumFactor distanceModulus
  have hp : (0 : ℝ) < d * 10 ^ 6 / 10 := by positivity
  have e : (0.4 : ℝ) * (5 * Real.logb 10 (d * 10 ^ 6 / 10)) = Real.logb 10 (d * 10 ^ 6 / 10) * 2 := by ring
  rw [e, Real.rpow_mul (by norm_num), Real.rpow_logb (by norm_num) (by norm_num) hp]
  rw [show (2 : ℝ) = ((2 : ℕ) : ℝ) by norm_num, Real.rpow_natCast]
  congr 1; ring

/-- Solar magnitudes of the output bands as loaded. -/
def SolarMags (K : Kc ℝ) (g : Reg ℝ) (ss : List ℝ) : Prop :=
  List.Forall₂ (fun n s => ∃ o, g n = some o ∧ o.solarMag = some s) K.responsesOut ss

theorem solarMags_iff (K : Kc ℝ) (g : Reg ℝ) (ss : List ℝ) : K.responsesOut.mapM (solMag g) = .ok ss ↔ SolarMags K g ss := by
  rw [mapM_ok_iff]
  have : ∀ n s, solMag g n = .ok s ↔ ∃ o, g n = some o ∧ o.solarMag = some s := by
    intro n s
    unfold solMag
    cases g n with
    | none => simp
    | some o =>
      cases h : o.solarMag with
      | none => simp [h]
      | some s' => simp [h]
  unfold SolarMags
  simp only [this]

/-- The numbers of one galaxy. -/
structure Vals (t : Tmpl ℝ) (dm : ℝ) (ss f c : List ℝ) (D : Derived ℝ) : Prop where
  mremain : D.mremain = .scalar (total c t.mremain * lumFactor dm)
  intsfh : D.intsfh = .scalar (total c t.intsfh * lumFactor dm)
  b50 : D.b50 = .scalar (if 0 < total c t.mremain then total c t.m50 / total c t.intsfh else 0)
  b300 : D.b300 = .scalar (if 0 < total c t.mremain then total c t.m300 / total c t.intsfh else 0)
  b1000 : D.b1000 = .scalar (if 0 < total c t.mremain then total c t.m1000 / total c t.intsfh else 0)
  metallicity : D.metallicity =
    .scalar (if 0 < total c t.mremain then total c (List.zipWith (· * ·) t.mremain t.mets) / total c t.mremain else 0)
  mtol : ∃ row, D.mtol = .arr [] f.length [row] ∧ row.length = f.length ∧
    ∀ (j : Nat) s v, ss[j]? = some s → f[j]? = some v →
      row[j]? = some (if 0 < v then total c t.mremain / (v * lumFactor s) else 0)

theorem mul_div_cancel_pos {a b k : ℝ} (hk : 0 < k) : a * k / (b * k) = a / b := mul_div_mul_right a b hk.ne'

theorem vals_derVals (t : Tmpl ℝ) (bs dm : ℝ) (M : List (List ℝ)) (ss c : List ℝ) (n : Nat) (hn : M.length = n) :
    Vals t dm ss (reconRow bs M c) c ⟨.scalar (derVals t id id bs dm M ss c).mremain, .scalar (derVals t id id bs dm M ss c).intsfh,
      .arr [] n [(derVals t id id bs dm M ss c).mtol], .scalar (derVals t id id bs dm M ss c).b50,
      .scalar (derVals t id id bs dm M ss c).b300, .scalar (derVals t id id bs dm M ss c).b1000,
      .scalar (derVals t id id bs dm M ss c).metallicity⟩ := by
  have hL := lumFactor_pos dm
  have hpos : ∀ x : ℝ, 0 < x * lumFactor dm ↔ 0 < x := fun x => mul_pos_iff_of_pos_right hL
  have hr : ∀ a b : List ℝ, ratio id (dot c t.mremain * pow10 (lit (2 / 5) * dm)) (dot c a * pow10 (lit (2 / 5) * dm))
      (dot c b * pow10 (lit (2 / 5) * dm)) = if 0 < total c t.mremain then total c a / total c b else 0 := by
    intro a b
    rw [ratio_real, pow10_lum, dot_total, dot_total, dot_total, mul_div_cancel_pos hL]
    simp only [hpos]
  refine ⟨?_, ?_, ?_, ?_, ?_, ?_, ?_⟩
  · simp only [derVals, pow10_lum, dot_total]
  · simp only [derVals, pow10_lum, dot_total]
  · simp only [derVals, hr]
  · simp only [derVals, hr]
  · simp only [derVals, hr]
  · simp only [derVals, hr]
  · refine ⟨_, by rw [← hn]; simp [reconRow]; rfl, by simp [derVals, mtolRow, reconRow], ?_⟩
    intro j s v hs hv
    simp only [derVals, mtolRow, map_f32_l, List.getElem?_mapIdx, hv, Option.map_some, hs, mtolEntry, pow10_solar, pow10_lum, dot_total, id,
      real_gtb, real_f32, Option.some.injEq]
    have hS := lumFactor_pos s
    have e : v / (lumFactor s * lumFactor dm)⁻¹ = v * (lumFactor s * lumFactor dm) := by rw [div_inv_eq_mul]
    have hk : 0 < lumFactor s * lumFactor dm := mul_pos hS hL
    rw [e]
    have h1 : 0 < v * (lumFactor s * lumFactor dm) ↔ 0 < v := mul_pos_iff_of_pos_right hk
    by_cases hv0 : 0 < v
    · simp only [real_lit, Rat.cast_zero, h1.mpr hv0, decide_true, if_true, hv0]
      rw [← mul_assoc, mul_div_mul_right _ _ hL.ne']
    · have : ¬ 0 < v * (lumFactor s * lumFactor dm) := fun h => hv0 (h1.mp h)
      simp [this, hv0]

/-- `derived` of one galaxy: it returns exactly if the band shift is covered and all output bands are loaded with a solar
magnitude, and the result is as expected.  `f` are the fluxes `reconstruct_out` gives at rest. -/
theorem derived_vals {K : Kc ℝ} {t : Tmpl ℝ} {Ao : AMat ℝ} (h : MassKc K t Ao) (hg : AMat.Good Ao) (g : Reg ℝ) (z : ℝ) (c : List ℝ)
    (hc : c.length = K.templates.nsed) (bs : ℝ) (D : Derived ℝ) :
    K.derived g (some (.scalar z)) (some (.vec c)) bs none = .ok D →
      ∃ ss f, SolarMags K g ss ∧ K.reconstructOut (some (.scalar 0)) (some (.vec c)) bs = .ok (.arr [] f.length [f]) ∧
        Vals t (K.distmod z) ss f c D := by
  rw [derived_scalar h.tpl h.mass h.out g z c hc, map_f32_l, real_f32]
  unfold derOne Kc.reconstructOut
  rw [h.out, recon_scalar _ _ _ _ _ hc, map_f32_l, real_lit, Rat.cast_zero]
  cases hM : Ao.at (shiftOf (f32 (0 : ℝ)) bs) with
  | error e => intro h; cases h
  | ok M =>
    have hsh := at_shaped hg hM
    rw [ok_bind]
    cases hS : K.responsesOut.mapM (solMag g) with
    | error e => intro h; cases h
    | ok ss =>
      intro h
      cases h
      refine ⟨ss, reconRow bs M c, (solarMags_iff K g ss).mp hS, ?_, vals_derVals t bs _ M ss c Ao.nrow hsh.1⟩
      have : (reconRow bs M c).length = Ao.nrow := by simp [reconRow, hsh.1]
      simp only [Except.map, this]

theorem derived_returns {K : Kc ℝ} {t : Tmpl ℝ} {Ao : AMat ℝ} (h : MassKc K t Ao) (g : Reg ℝ) (z : ℝ) (c : List ℝ)
    (hc : c.length = K.templates.nsed) (bs : ℝ) :
    (∃ D, K.derived g (some (.scalar z)) (some (.vec c)) bs none = .ok D) ↔ (∃ M, Ao.at bs = .ok M) ∧ ∃ ss, SolarMags K g ss := by
  rw [derived_scalar h.tpl h.mass h.out g z c hc]
  have e : shiftOf (f32 (lit 0)) bs = bs := by simp [shiftOf_real]
  unfold derOne
  rw [e]
  simp only [← solarMags_iff]
  cases Ao.at bs with
  | error e => simp [Except.map]
  | ok M =>
    rw [ok_bind]
    cases K.responsesOut.mapM (solMag g) with
    | error e => simp [Except.map]
    | ok ss => simp [Except.map]

/-- C76: current mass and integrated star formation are the template values weighted with the coefficients, times the square of the
luminosity distance (in units of 10 pc) that the cosmology gives for the redshift. -/
theorem C76_masses_partial (K : Kc ℝ) (t : Tmpl ℝ) (Ao : AMat ℝ) (h : MassKc K t Ao) (hg : AMat.Good Ao) (g : Reg ℝ) (z : ℝ) (c : List ℝ)
    (hc : c.length = K.templates.nsed) (bs d : ℝ) (hd : 0 < d) (hz : K.distmod z = distanceModulus d) (D : Derived ℝ)
    (hD : K.derived g (some (.scalar z)) (some (.vec c)) bs none = .ok D) :
    D.mremain = .scalar (total c t.mremain * (d * 10 ^ 5) ^ 2) ∧ D.intsfh = .scalar (total c t.intsfh * (d * 10 ^ 5) ^ 2) := by
  obtain ⟨ss, f, _, _, hv⟩ := derived_vals h hg g z c hc bs D hD
  have := lumFactor_distance d hd
  rw [← hz] at this
  rw [← this]
  exact ⟨hv.mremain, hv.intsfh⟩

/-- C76: linear in the coefficients. -/
theorem C76_linear (K : Kc ℝ) (t : Tmpl ℝ) (Ao : AMat ℝ) (h : MassKc K t Ao) (hg : AMat.Good Ao) (g : Reg ℝ) (z : ℝ) (c1 c2 : List ℝ)
    (h1 : c1.length = K.templates.nsed) (h2 : c2.length = K.templates.nsed) (bs a b : ℝ) (D1 D2 : Derived ℝ)
    (hD1 : K.derived g (some (.scalar z)) (some (.vec c1)) bs none = .ok D1)
    (hD2 : K.derived g (some (.scalar z)) (some (.vec c2)) bs none = .ok D2) :
    ∃ D m1 m2 i1 i2, K.derived g (some (.scalar z)) (some (.vec (lincomb a b c1 c2))) bs none = .ok D ∧
      D1.mremain = .scalar m1 ∧ D2.mremain = .scalar m2 ∧ D.mremain = .scalar (a * m1 + b * m2) ∧
      D1.intsfh = .scalar i1 ∧ D2.intsfh = .scalar i2 ∧ D.intsfh = .scalar (a * i1 + b * i2) := by
  have hl : (lincomb a b c1 c2).length = K.templates.nsed := by simp [lincomb, h1, h2]
  obtain ⟨D, hD⟩ := (derived_returns h g z _ hl bs).mpr ((derived_returns h g z c1 h1 bs).mp ⟨D1, hD1⟩)
  obtain ⟨_, _, _, _, v1⟩ := derived_vals h hg g z c1 h1 bs D1 hD1
  obtain ⟨_, _, _, _, v2⟩ := derived_vals h hg g z c2 h2 bs D2 hD2
  obtain ⟨_, _, _, _, v⟩ := derived_vals h hg g z _ hl bs D hD
  refine ⟨D, _, _, _, _, hD, v1.mremain, v2.mremain, ?_, v1.intsfh, v2.intsfh, ?_⟩
  · rw [v.mremain, total_lincomb a b c1 c2 _ (by rw [h1, h2])]; congr 1; ring
  · rw [v.intsfh, total_lincomb a b c1 c2 _ (by rw [h1, h2])]; congr 1; ring

/-- C77: scaling the coefficients by `s > 0`, and taking any other redshift and cosmology, changes neither whether `derived` returns nor
metallicity, b50, b300 and b1000. -/
theorem C77_intensive (K : Kc ℝ) (t : Tmpl ℝ) (Ao : AMat ℝ) (h : MassKc K t Ao) (hg : AMat.Good Ao) (g : Reg ℝ) (z z' : ℝ) (distmod' : ℝ → ℝ)
    (c : List ℝ) (hc : c.length = K.templates.nsed) (bs s : ℝ) (hs : 0 < s) (D : Derived ℝ)
    (hD : K.derived g (some (.scalar z)) (some (.vec c)) bs none = .ok D) :
    ∃ D', Kc.derived { K with distmod := distmod' } g (some (.scalar z')) (some (.vec (c.map (s * ·)))) bs none = .ok D' ∧
      D'.metallicity = D.metallicity ∧ D'.b50 = D.b50 ∧ D'.b300 = D.b300 ∧ D'.b1000 = D.b1000 := by
  have h' : MassKc { K with distmod := distmod' } t Ao := ⟨h.tpl, h.mass, h.out⟩
  have hc' : (c.map (s * ·)).length = K.templates.nsed := by simpa using hc
  obtain ⟨D', hD'⟩ := (derived_returns h' g z' _ hc' bs).mpr ((derived_returns h g z c hc bs).mp ⟨D, hD⟩)
  obtain ⟨_, _, _, _, v⟩ := derived_vals h hg g z c hc bs D hD
  obtain ⟨_, _, _, _, v'⟩ := derived_vals h' hg g z' _ hc' bs D' hD'
  have hp : ∀ x : ℝ, 0 < s * x ↔ 0 < x := fun x => mul_pos_iff_of_pos_left hs
  refine ⟨D', hD', ?_, ?_, ?_, ?_⟩
  · rw [v.metallicity, v'.metallicity]; simp only [total_scale, hp, mul_div_mul_left _ _ hs.ne']
  · rw [v.b50, v'.b50]; simp only [total_scale, hp, mul_div_mul_left _ _ hs.ne']
  · rw [v.b300, v'.b300]; simp only [total_scale, hp, mul_div_mul_left _ _ hs.ne']
  · rw [v.b1000, v'.b1000]; simp only [total_scale, hp, mul_div_mul_left _ _ hs.ne']

/-- C77: without mass they are zero. -/
theorem C77_no_mass (K : Kc ℝ) (t : Tmpl ℝ) (Ao : AMat ℝ) (h : MassKc K t Ao) (hg : AMat.Good Ao) (g : Reg ℝ) (z : ℝ) (c : List ℝ)
    (hc : c.length = K.templates.nsed) (bs m : ℝ) (hm : m ≤ 0) (D : Derived ℝ)
    (hD : K.derived g (some (.scalar z)) (some (.vec c)) bs none = .ok D) (hDm : D.mremain = .scalar m) :
    D.metallicity = .scalar 0 ∧ D.b50 = .scalar 0 ∧ D.b300 = .scalar 0 ∧ D.b1000 = .scalar 0 := by
  obtain ⟨_, _, _, _, v⟩ := derived_vals h hg g z c hc bs D hD
  have hL := lumFactor_pos (K.distmod z)
  have h0 : ¬ 0 < total c t.mremain := by
    intro hp
    rw [v.mremain] at hDm
    have := mul_pos hp hL
    simp only [NDA.scalar.injEq] at hDm
    linarith
  rw [v.metallicity, v.b50, v.b300, v.b1000, if_neg h0, if_neg h0, if_neg h0, if_neg h0]
  exact ⟨rfl, rfl, rfl, rfl⟩

theorem total_bounds (lo hi : ℝ) : ∀ c m Z : List ℝ, m.length = Z.length → (∀ x ∈ c, 0 ≤ x) → (∀ x ∈ m, 0 ≤ x) → (∀ x ∈ Z, lo ≤ x ∧ x ≤ hi) →
    lo * total c m ≤ total c (List.zipWith (· * ·) m Z) ∧ total c (List.zipWith (· * ·) m Z) ≤ hi * total c m
  | [], m, Z, _, _, _, _ => by simp [total]
  | _ :: _, [], [], _, _, _, _ => by simp [total]
  | a :: c, b :: m, w :: Z, hl, hc, hm, hZ => by
    obtain ⟨i1, i2⟩ := total_bounds lo hi c m Z (by simpa using hl) (fun x hx => hc x (by simp [hx])) (fun x hx => hm x (by simp [hx]))
      (fun x hx => hZ x (by simp [hx]))
    have ha := hc a (by simp)
    have hb := hm b (by simp)
    obtain ⟨w1, w2⟩ := hZ w (by simp)
    have hab := mul_nonneg ha hb
    simp only [total] at i1 i2
    simp only [total, List.zipWith_cons_cons, List.sum_cons]
    constructor
    · nlinarith [mul_le_mul_of_nonneg_left w1 hab]
    · nlinarith [mul_le_mul_of_nonneg_left w2 hab]

/-- C77: the metallicity of a galaxy with mass lies between the smallest and largest template metallicity. -/
theorem C77_metallicity_range (K : Kc ℝ) (t : Tmpl ℝ) (Ao : AMat ℝ) (h : MassKc K t Ao) (hg : AMat.Good Ao) (g : Reg ℝ) (z : ℝ) (c : List ℝ)
    (hc : c.length = K.templates.nsed) (bs m lo hi : ℝ) (hm : 0 < m) (hc0 : ∀ x ∈ c, 0 ≤ x) (hm0 : ∀ x ∈ t.mremain, 0 ≤ x)
    (hZ : ∀ x ∈ t.mets, lo ≤ x ∧ x ≤ hi) (D : Derived ℝ)
    (hD : K.derived g (some (.scalar z)) (some (.vec c)) bs none = .ok D) (hDm : D.mremain = .scalar m) :
    ∃ Z, D.metallicity = .scalar Z ∧ lo ≤ Z ∧ Z ≤ hi := by
  obtain ⟨_, _, _, _, v⟩ := derived_vals h hg g z c hc bs D hD
  have hL := lumFactor_pos (K.distmod z)
  have h0 : 0 < total c t.mremain := by
    rw [v.mremain] at hDm
    simp only [NDA.scalar.injEq] at hDm
    rw [← hDm] at hm
    exact (mul_pos_iff_of_pos_right hL).mp hm
  obtain ⟨b1, b2⟩ := total_bounds lo hi c t.mremain t.mets (by rw [h.mass.mremain, h.mass.mets]) hc0 hm0 hZ
  refine ⟨_, v.metallicity, ?_, ?_⟩
  · rw [if_pos h0, le_div_iff₀ h0]; exact b1
  · rw [if_pos h0, div_le_iff₀ h0]; exact b2

/-- C78: the mass-to-light ratio in each band is the mass over the model flux at rest in solar units; redshift and cosmology do not
enter. -/
theorem C78_formula (K : Kc ℝ) (t : Tmpl ℝ) (Ao : AMat ℝ) (h : MassKc K t Ao) (hg : AMat.Good Ao) (g : Reg ℝ) (z : ℝ) (c : List ℝ)
    (hc : c.length = K.templates.nsed) (bs : ℝ) (D : Derived ℝ)
    (hD : K.derived g (some (.scalar z)) (some (.vec c)) bs none = .ok D) :
    ∃ o, K.reconstructOut (some (.scalar 0)) (some (.vec c)) bs = .ok o ∧ D.mtol.shape = o.shape ∧
      ∀ (j : Nat) n r s v, K.responsesOut[j]? = some n → g n = some r → r.solarMag = some s → entry o 0 j = some v →
        entry D.mtol 0 j = some (if 0 < v then total c t.mremain / (v * 10 ^ (0.4 * s)) else 0) := by
  obtain ⟨ss, f, hss, ho, v⟩ := derived_vals h hg g z c hc bs D hD
  obtain ⟨row, hrow, hlen, hent⟩ := v.mtol
  refine ⟨_, ho, by rw [hrow]; rfl, ?_⟩
  intro j n r s w hn hr hs hw
  rw [hrow]
  simp only [entry, List.getElem?_cons_zero, Option.bind_some] at hw ⊢
  refine hent j s w ?_ hw
  unfold SolarMags at hss
  obtain ⟨hj, hje⟩ := List.getElem?_eq_some_iff.mp hn
  have hj' : j < ss.length := by rw [← hss.length_eq]; exact hj
  obtain ⟨r', hr', hs'⟩ := (List.forall₂_iff_get.mp hss).2 j hj hj'
  simp only [List.get_eq_getElem] at hr' hs'
  rw [hje, hr] at hr'
  cases hr'
  rw [hs] at hs'
  cases hs'
  exact List.getElem?_eq_getElem hj'

/-- C78: the same mass-to-light ratios at any other redshift, with any other cosmology, and for coefficients scaled by `s > 0`. -/
theorem C78_independent (K : Kc ℝ) (t : Tmpl ℝ) (Ao : AMat ℝ) (h : MassKc K t Ao) (hg : AMat.Good Ao) (hn : Ao.nrow = K.responsesOut.length)
    (g : Reg ℝ) (z z' : ℝ) (distmod' : ℝ → ℝ) (c : List ℝ) (hc : c.length = K.templates.nsed) (bs s : ℝ) (hs : 0 < s) (D : Derived ℝ)
    (hD : K.derived g (some (.scalar z)) (some (.vec c)) bs none = .ok D) :
    ∃ D', Kc.derived { K with distmod := distmod' } g (some (.scalar z')) (some (.vec (c.map (s * ·)))) bs none = .ok D' ∧
      D'.mtol = D.mtol := by
  have h' : MassKc { K with distmod := distmod' } t Ao := ⟨h.tpl, h.mass, h.out⟩
  have hc' : (c.map (s * ·)).length = K.templates.nsed := by simpa using hc
  obtain ⟨D', hD'⟩ := (derived_returns h' g z' _ hc' bs).mpr ((derived_returns h g z c hc bs).mp ⟨D, hD⟩)
  obtain ⟨ss, f, hss, hf, v⟩ := derived_vals h hg g z c hc bs D hD
  obtain ⟨ss', f', hss', hf', v'⟩ := derived_vals h' hg g z' _ hc' bs D' hD'
  refine ⟨D', hD', ?_⟩
  have e : ss' = ss := by
    have h1 := (solarMags_iff K g ss).mpr hss
    have h2 := (solarMags_iff { K with distmod := distmod' } g ss').mpr hss'
    exact Except.ok.inj (h2.symm.trans h1)
  subst e
  unfold Kc.reconstructOut at hf hf'
  rw [h.out, recon_real _ _ _ _ _ hc] at hf
  rw [show ({ K with distmod := distmod' } : Kc ℝ).AmatrixOut = some Ao from h.out, recon_real _ _ _ _ _ hc'] at hf'
  cases hM : Ao.at ((1 + 0) * (1 + bs) - 1) with
  | error e => rw [hM] at hf; cases hf
  | ok M =>
    have hsh := at_shaped hg hM
    rw [hM] at hf hf'
    simp only [Except.map, Except.ok.injEq, NDA.arr.injEq, true_and, List.cons.injEq, and_true] at hf hf'
    obtain ⟨row, r1, r2, r3⟩ := v.mtol
    obtain ⟨row', r1', r2', r3'⟩ := v'.mtol
    have hff : f' = f.map (s * ·) := by rw [← hf'.2, ← hf.2, reconRow_scale]
    have hfl : f'.length = f.length := by rw [hff, List.length_map]
    rw [r1, r1', hfl]
    congr 2
    apply List.ext_getElem?
    intro j
    by_cases hj : j < f.length
    · have hjs : j < ss'.length := by
        have h1 := hss.length_eq
        rw [← hf.1] at hj
        omega
      have g1 := r3 j _ _ (List.getElem?_eq_getElem hjs) (List.getElem?_eq_getElem hj)
      have g2 := r3' j _ (s * f[j]) (List.getElem?_eq_getElem hjs) (by rw [hff, List.getElem?_map, List.getElem?_eq_getElem hj]; rfl)
      rw [g1, g2, total_scale, mul_assoc, mul_div_mul_left _ _ hs.ne']
      simp only [mul_pos_iff_of_pos_left hs]
    · rw [List.getElem?_eq_none (by omega), List.getElem?_eq_none (by omega)]

/-- C76 with an explicit distance (which needs an object without output bands, see `C79_false`): proportional to its square. -/
theorem C76_distance_no_bands (K : Kc ℝ) (t : Tmpl ℝ) (Ao : AMat ℝ) (h : MassKc K t Ao) (ho : K.responsesOut = []) (g : Reg ℝ) (z d : ℝ)
    (c : List ℝ) (hc : c.length = K.templates.nsed) (bs : ℝ) (M : List (List ℝ)) (hM : Ao.at bs = .ok M) :
    ∃ D, K.derived g (some (.scalar z)) (some (.vec c)) bs (some (.scalar d)) = .ok D ∧
      D.mremain = .scalar (total c t.mremain * (d * 10 ^ 5) ^ 2) ∧ D.intsfh = .scalar (total c t.intsfh * (d * 10 ^ 5) ^ 2) := by
  have e : shiftOf (f32 (lit 0)) bs = bs := by simp [shiftOf_real]
  obtain ⟨D, hD, h1, h2⟩ := derived_distance h.tpl h.mass h.out ho g z d c hc bs M (by rw [e]; exact hM)
  have hf : dfactorOf (f32 d) = (d * 10 ^ 5) ^ 2 := by
    unfold dfactorOf
    rw [real_f32, real_lit]; push_cast; ring
  rw [map_f32_l, hf, dot_total] at h1 h2
  exact ⟨D, hD, h1, h2⟩

theorem derOne_real (K : Kc ℝ) (g : Reg ℝ) (t : Tmpl ℝ) (Ao : AMat ℝ) (bs dm : ℝ) (c : List ℝ) :
    derOne K g t Ao f32 (fun x => x * lit 1) bs dm c = derOne K g t Ao id id bs dm c := by
  have h1 : (f32 : ℝ → ℝ) = id := by funext x; simp
  have h2 : (fun x : ℝ => x * lit 1) = id := by funext x; simp
  rw [h1, h2]

/-- C95 and C80: on arrays, with as many output as input bands, all loaded with a solar magnitude, `derived` returns exactly if it does
for each galaxy alone, with the values of the single calls in order. -/
theorem C95_batch (K : Kc ℝ) (t : Tmpl ℝ) (Ao : AMat ℝ) (h : MassKc K t Ao) (hlen : K.responses.length = K.responsesOut.length)
    (g : Reg ℝ) (ss : List ℝ) (hss : SolarMags K g ss) (zs : List ℝ) (cs : List (List ℝ)) (hcs : cs.length = zs.length)
    (hc : ∀ c ∈ cs, c.length = K.templates.nsed) (bs : ℝ) (D : Derived ℝ) :
    K.derived g (some (.vec zs)) (some (.arr [zs.length] K.templates.nsed cs)) bs none = .ok D ↔
      ∃ ds, List.Forall₂ (fun p d => K.derived g (some (.scalar p.1)) (some (.vec p.2)) bs none = .ok d) (List.zip zs cs) ds ∧
        ∃ ms is rows r1 r2 r3 r4, D = ⟨.vec ms, .vec is, .arr [zs.length] Ao.nrow rows, .vec r1, .vec r2, .vec r3, .vec r4⟩ ∧
          ds.map (·.mremain) = ms.map .scalar ∧ ds.map (·.intsfh) = is.map .scalar ∧
          ds.map (·.mtol) = rows.map (fun r => .arr [] Ao.nrow [r]) ∧ ds.map (·.b50) = r1.map .scalar ∧
          ds.map (·.b300) = r2.map .scalar ∧ ds.map (·.b1000) = r3.map .scalar ∧ ds.map (·.metallicity) = r4.map .scalar := by
  rw [derived_array h.tpl h.mass h.out g zs cs hcs]
  let W : Der1 ℝ → Derived ℝ := fun d => ⟨.scalar d.mremain, .scalar d.intsfh, .arr [] Ao.nrow [d.mtol], .scalar d.b50, .scalar d.b300,
    .scalar d.b1000, .scalar d.metallicity⟩
  have key : ∀ p ∈ List.zip zs cs, ∀ d, K.derived g (some (.scalar p.1)) (some (.vec p.2)) bs none = .ok d ↔
      ∃ e, derOne K g t Ao f32 (fun x => x * lit 1) bs (K.distmod (f32 p.1)) (p.2.map f32) = .ok e ∧ d = W e := by
    intro p hp d
    have hp2 : p.2 ∈ cs := (List.of_mem_zip (a := p.1) (b := p.2) hp).2
    rw [derived_scalar h.tpl h.mass h.out g p.1 p.2 (hc _ hp2), derOne_real]
    cases derOne K g t Ao id id bs (K.distmod (f32 p.1)) (p.2.map f32) with
    | error e => simp [Except.map]
    | ok e => simp [Except.map, W, eq_comm]
  constructor
  · rintro ⟨_, _, es, hes, rfl⟩
    refine ⟨es.map W, ?_, _, _, _, _, _, _, _, rfl, ?_, ?_, ?_, ?_, ?_, ?_, ?_⟩
    · rw [List.forall₂_map_right_iff]
      refine (List.forall₂_iff_get.mpr ⟨hes.length_eq, fun i h1 h2 => ?_⟩)
      exact (key _ (List.get_mem _ _) _).mpr ⟨_, (List.forall₂_iff_get.mp hes).2 i h1 h2, rfl⟩
    all_goals (rw [List.map_map, List.map_map]; rfl)
  · rintro ⟨ds, hds, ms, is, rows, r1, r2, r3, r4, rfl, e1, e2, e3, e4, e5, e6, e7⟩
    refine ⟨hlen, ⟨ss, (solarMags_iff K g ss).mpr hss⟩, ?_⟩
    have : ∃ es, List.Forall₂ (fun p d => derOne K g t Ao f32 (fun x => x * lit 1) bs (K.distmod (f32 p.1)) (p.2.map f32) = .ok d)
        (List.zip zs cs) es ∧ ds = es.map W := by
      clear e1 e2 e3 e4 e5 e6 e7
      revert key
      generalize List.zip zs cs = Z at hds ⊢
      intro key
      induction hds with
      | nil => exact ⟨[], .nil, rfl⟩
      | cons hp _ ih =>
        obtain ⟨e, he, hw⟩ := (key _ (by simp) _).mp hp
        obtain ⟨es, hes, rfl⟩ := ih (fun p hp => key p (by simp [hp]))
        exact ⟨e :: es, .cons he hes, by rw [hw]; rfl⟩
    obtain ⟨es, hes, rfl⟩ := this
    refine ⟨es, hes, ?_⟩
    have sc : ∀ (f : Der1 ℝ → ℝ) (F : Derived ℝ → NDA ℝ) (r : List ℝ), (∀ e, F (W e) = .scalar (f e)) →
        (es.map W).map F = r.map .scalar → r = es.map f := by
      intro f F r hF hr
      have inj : Function.Injective (NDA.scalar : ℝ → NDA ℝ) := fun a b h => by cases h; rfl
      apply (List.map_injective_iff.mpr inj)
      rw [← hr, List.map_map, List.map_map]
      exact List.map_congr_left (fun e _ => hF e)
    have e3' : rows = es.map (·.mtol) := by
      have inj : Function.Injective (fun r : List ℝ => NDA.arr [] Ao.nrow [r]) := fun a b h => by simpa using h
      apply (List.map_injective_iff.mpr inj)
      rw [← e3, List.map_map, List.map_map]
      rfl
    rw [sc (·.mremain) _ ms (fun _ => rfl) e1, sc (·.intsfh) _ is (fun _ => rfl) e2, e3', sc (·.b50) _ r1 (fun _ => rfl) e4,
      sc (·.b300) _ r2 (fun _ => rfl) e5, sc (·.b1000) _ r3 (fun _ => rfl) e6, sc (·.metallicity) _ r4 (fun _ => rfl) e7]

/-- C80 restricted to as many output as input bands: `derived` on arrays returns, with `mtol` of shape `[ngalaxy, nout]`, whenever the band
shift is covered and the output bands are loaded with solar magnitudes. -/
theorem C80_partial (K : Kc ℝ) (t : Tmpl ℝ) (Ao : AMat ℝ) (h : MassKc K t Ao) (hn : Ao.nrow = K.responsesOut.length)
    (hlen : K.responses.length = K.responsesOut.length)
    (g : Reg ℝ) (ss : List ℝ) (hss : SolarMags K g ss) (zs : List ℝ) (cs : List (List ℝ)) (hcs : cs.length = zs.length)
    (bs : ℝ) (M : List (List ℝ)) (hM : Ao.at bs = .ok M) :
    ∃ D, K.derived g (some (.vec zs)) (some (.arr [zs.length] K.templates.nsed cs)) bs none = .ok D ∧
      D.mtol.shape = [zs.length, K.responsesOut.length] := by
  have e : shiftOf (f32 (lit 0)) bs = bs := by simp [shiftOf_real]
  have hS := (solarMags_iff K g ss).mpr hss
  refine ⟨_, (derived_array h.tpl h.mass h.out g zs cs hcs bs _).mpr ⟨hlen, ⟨ss, hS⟩,
    (List.zip zs cs).map (fun p => derVals t f32 (fun x => x * lit 1) bs (K.distmod (f32 p.1)) M ss (p.2.map f32)), ?_, rfl⟩, ?_⟩
  · rw [List.forall₂_map_right_iff, List.forall₂_same]
    intro p _
    unfold derOne
    rw [e, hM, ok_bind, hS]
    rfl
  · simp [NDA.shape, hn]

/-! ### Not vacuous (C76–C82, C95) -/

noncomputable def demoTmpl : Tmpl ℝ :=
  ⟨⟨[1, 2], [[1, 1], [1, 2]], [1, 2], [[1, 1], [1, 2]], 0, false, none, false⟩, [2, 4], [1, 3], [1 / 50, 1 / 100], [1, 1], [1, 2], [0, 1]⟩

/-- Two templates with masses; bands x in and y out. -/
noncomputable def demoMass : Kc ℝ :=
  ⟨{ demoFitter with templates := .template demoTmpl }, [['y']], [['x']], some demoAm, [0], fun _ => distanceModulus 1⟩

/-- y is loaded with solar magnitude 4. -/
noncomputable def demoReg : Reg ℝ := fun n => if n = ['y'] then some ⟨none, none, none, none, some 4, none, none⟩ else none

theorem demoMass_ok : MassKc demoMass demoTmpl demoAm := ⟨rfl, ⟨rfl, rfl, rfl, rfl, rfl, rfl⟩, rfl⟩

theorem demoSolar : SolarMags demoMass demoReg [4] := .cons ⟨⟨none, none, none, none, some 4, none, none⟩, by simp [demoReg], rfl⟩ .nil

/-- `derived` returns for one galaxy (C76, C77, C78, C82) -/
theorem demo_derived : ∃ D, demoMass.derived demoReg (some (.scalar 1)) (some (.vec [2, 1])) 0 none = .ok D :=
  (derived_returns demoMass_ok demoReg 1 [2, 1] rfl 0).mpr ⟨⟨_, demoAm_at0⟩, _, demoSolar⟩

example : ∃ D, demoMass.derived demoReg (some (.scalar 1)) (some (.vec [2, 1])) 0 none = .ok D ∧ D.mremain = .scalar (5 * (10 ^ 5) ^ 2) ∧
    D.intsfh = .scalar (8 * (10 ^ 5) ^ 2) ∧ D.b300 = .scalar (3 / 8) ∧ D.metallicity = .scalar (7 / 500) := by
  obtain ⟨D, hD⟩ := demo_derived
  obtain ⟨h1, h2⟩ := C76_masses_partial demoMass demoTmpl demoAm demoMass_ok demoAm_good demoReg 1 [2, 1] rfl 0 1 one_pos rfl D hD
  obtain ⟨_, _, _, _, v⟩ := derived_vals demoMass_ok demoAm_good demoReg 1 [2, 1] rfl 0 D hD
  refine ⟨D, hD, by rw [h1]; norm_num [total, demoTmpl], by rw [h2]; norm_num [total, demoTmpl], ?_, ?_⟩
  · rw [v.b300]; norm_num [total, demoTmpl]
  · rw [v.metallicity]; norm_num [total, demoTmpl]

/-- C79–C81: the hypotheses hold of the same object; C80 needs another input band. -/
example : demoMass.responsesOut ≠ [] ∧ demoMass.derived demoReg (some (.scalar 1)) (some (.vec [2, 1])) 0 (some (.scalar 1)) =
    .error .unboundLocalError := by
  refine ⟨by simp [demoMass], ?_⟩
  refine C79_unbound (t := demoTmpl) (Ao := demoAm) rfl demoMass_ok.mass rfl ['y'] [] rfl demoReg _ (by simp [demoReg]; rfl) 1 1 [2, 1] rfl 0 [[1, 2]] ?_
  rw [show shiftOf (f32 (lit 0)) (0 : ℝ) = 0 by simp [shiftOf_real]]
  exact demoAm_at0

example : (∃ D, demoMass.derived demoReg (some (.vec [1, 2])) (some (.arr [2] 2 [[2, 1], [0, 3]])) 0 none = .ok D ∧ D.mtol.shape = [2, 1]) ∧
    ∀ D, Kc.derived { demoMass with responses := [['x'], ['u']] } demoReg (some (.vec [1, 2])) (some (.arr [2] 2 [[2, 1], [0, 3]])) 0 none ≠ .ok D :=
  ⟨C80_partial demoMass demoTmpl demoAm demoMass_ok rfl rfl demoReg [4] demoSolar [1, 2] [[2, 1], [0, 3]] rfl 0 _ demoAm_at0,
    fun D => C80_false _ (by simp [demoMass]) demoReg [1, 2] _ 0 none D⟩

/-- C81: the same object with a registry in which y has no solar magnitude. -/
example : Kc.derived demoMass (fun _ => some RespObj.empty) (some (.scalar 1)) (some (.vec [2, 1])) 0 none = .error .typeError := by
  refine C81_type_error (t := demoTmpl) (Ao := demoAm) rfl demoMass_ok.mass rfl ['y'] rfl _ RespObj.empty rfl rfl 1 [2, 1] rfl 0 [[1, 2]] ?_
  rw [show shiftOf (f32 (lit 0)) (0 : ℝ) = 0 by simp [shiftOf_real]]
  exact demoAm_at0

/-- C82: two samples. -/
example : ∃ R, demoMass.derivedMc demoReg (some (.scalar 1)) (.arr [2] 2 [[2, 1], [1, 0]]) 0 none = .ok R ∧ R ≠ none := by
  obtain ⟨h1, h2⟩ := C82_one (K := demoMass) (t := demoTmpl) (Ao := demoAm) rfl demoMass_ok.mass rfl demoReg 1 2 [[2, 1], [1, 0]] rfl 0
  obtain ⟨R, hR⟩ := h1.mpr (fun k hk => (derived_returns demoMass_ok demoReg 1 _ rfl 0).mpr ⟨⟨_, demoAm_at0⟩, _, demoSolar⟩)
  exact ⟨R, hR, fun h => by have := (h2 R hR).1.mp h; omega⟩

/-- C77_no_mass and C76_distance_no_bands -/
example : (∃ D m, demoMass.derived demoReg (some (.scalar 1)) (some (.vec [0, 0])) 0 none = .ok D ∧ D.mremain = .scalar m ∧ m ≤ 0) ∧
    ∃ D, Kc.derived { demoMass with responsesOut := [] } demoReg (some (.scalar 1)) (some (.vec [2, 1])) 0 (some (.scalar 3)) = .ok D ∧
      D.mremain = .scalar (5 * (3 * 10 ^ 5) ^ 2) := by
  constructor
  · obtain ⟨D, hD⟩ := (derived_returns demoMass_ok demoReg 1 [0, 0] rfl 0).mpr ⟨⟨_, demoAm_at0⟩, _, demoSolar⟩
    obtain ⟨_, _, _, _, v⟩ := derived_vals demoMass_ok demoAm_good demoReg 1 [0, 0] rfl 0 D hD
    exact ⟨D, _, hD, v.mremain, by simp [total, demoTmpl]⟩
  · obtain ⟨D, hD, h1, _⟩ := C76_distance_no_bands { demoMass with responsesOut := [] } demoTmpl demoAm ⟨rfl, demoMass_ok.mass, rfl⟩ rfl demoReg 1 3
      [2, 1] rfl 0 _ demoAm_at0
    exact ⟨D, hD, by rw [h1]; norm_num [total, demoTmpl]⟩

end KC
