import Verif.Props.Absmag
import Verif.Props.FitReal

/-!
# Monte Carlo absolute magnitudes (C75)
-/

namespace KC
open Spec
variable {α : Type} [Arith α]

theorem ret_list (L : List (NDA α)) : (mkRet L).list = L := by
  match L with
  | [] => rfl
  | [_] => rfl
  | _ :: _ :: _ => rfl

theorem documented_length (r l kk : Bool) (a rc lm k : NDA α) : (documented r l kk a rc lm k).list.length = absCount r l kk := by
  cases r <;> cases l <;> cases kk <;> rfl

/-- `absmag` on the `k`-th sample -/
def sampleAbs (K : Kc α) (slot : List Nat) (mrows : List (List α)) (ivar redshift : Option (NDA α)) (slotC : List Nat)
    (crows : List (List α)) (bs : α) (distance : Option (NDA α)) (r kk : Bool) (k : Nat) : Py (Ret α) :=
  K.absmag (some (.ofFlat slot (mrows.map (fun row => ent row k)))) ivar redshift (some (.ofFlat slotC (crows.map (fun row => ent row k))))
    bs distance r false kk

theorem absmagMc_eq (K : Kc α) (slot : List Nat) (mc : Nat) (mrows : List (List α)) (ivar redshift : Option (NDA α)) (slotC : List Nat)
    (crows : List (List α)) (bs : α) (distance : Option (NDA α)) (r kk : Bool) :
    K.absmagMc (.arr slot mc mrows) ivar redshift (.arr slotC mc crows) bs distance r kk =
      ((List.range mc).mapM (fun k => do
        let out ← sampleAbs K slot mrows ivar redshift slotC crows bs distance r kk k
        out.list.mapM (bcastFlat slot))) >>= fun outs =>
      .ok (mkRet ((List.range (absCount r false kk)).map (fun t => stackLast slot mc (outs.map (fun o => o.getD t []))))) := by
  unfold Kc.absmagMc
  simp only [NDA.lastDim, ok_bind]
  rw [mapM_congr (g := fun k => do
        let out ← sampleAbs K slot mrows ivar redshift slotC crows bs distance r kk k
        out.list.mapM (bcastFlat slot))]
  · cases r <;> cases kk <;> rfl
  · intro k hk
    have hk : k < mc := by simpa using hk
    simp only [NDA.lastIdx, hk, if_true, ok_bind]
    rfl

theorem absmagMc_core (K : Kc α) (slot : List Nat) (mc : Nat) (mrows : List (List α)) (ivar redshift : Option (NDA α)) (slotC : List Nat)
    (crows : List (List α)) (bs : α) (distance : Option (NDA α)) (r kk : Bool)
    (hshape : ∀ k < mc, ∀ out, sampleAbs K slot mrows ivar redshift slotC crows bs distance r kk k = .ok out → ∀ y ∈ out.list, y.shape = slot) :
    ((∃ ret, K.absmagMc (.arr slot mc mrows) ivar redshift (.arr slotC mc crows) bs distance r kk = .ok ret) ↔
      ∀ k < mc, ∃ out, sampleAbs K slot mrows ivar redshift slotC crows bs distance r kk k = .ok out) ∧
    ∀ ret, K.absmagMc (.arr slot mc mrows) ivar redshift (.arr slotC mc crows) bs distance r kk = .ok ret →
      ∀ k < mc, ∃ out, sampleAbs K slot mrows ivar redshift slotC crows bs distance r kk k = .ok out ∧
        out.list.length = ret.list.length ∧ ∀ (t : Nat) x y, ret.list[t]? = some x → out.list[t]? = some y →
          x.shape = slot ++ [mc] ∧ ∀ (j : Nat) v, j < slot.prod → y.flat[j]? = some v → entry x j k = some (f32 v) := by
  rw [absmagMc_eq]
  have hstep : ∀ k < mc, ∀ out, sampleAbs K slot mrows ivar redshift slotC crows bs distance r kk k = .ok out →
      out.list.mapM (bcastFlat slot) = .ok (out.list.map NDA.flat) := by
    intro k hk out h
    have : out.list.mapM (bcastFlat slot) = out.list.mapM (fun y => (.ok y.flat : Py (List α))) := by
      apply mapM_congr
      intro y hy
      unfold bcastFlat
      rw [if_pos (hshape k hk out h y hy)]
    rw [this, mapM_pure]
  refine ⟨⟨?_, ?_⟩, ?_⟩
  · rintro ⟨ret, h⟩ k hk
    cases hs : sampleAbs K slot mrows ivar redshift slotC crows bs distance r kk k with
    | ok out => exact ⟨out, rfl⟩
    | error e =>
      obtain ⟨e', he⟩ := mapM_error_of (f := fun k => do
        let out ← sampleAbs K slot mrows ivar redshift slotC crows bs distance r kk k
        out.list.mapM (bcastFlat slot)) (List.mem_range.mpr hk) (by rw [hs]; rfl)
      rw [he] at h; cases h
  · intro hall
    obtain ⟨outs, ho⟩ := mapM_exists (f := fun k => do
        let out ← sampleAbs K slot mrows ivar redshift slotC crows bs distance r kk k
        out.list.mapM (bcastFlat slot)) (l := List.range mc) (by
          intro k hk
          obtain ⟨out, h⟩ := hall k (by simpa using hk)
          rw [h, ok_bind, hstep k (by simpa using hk) out h]
          exact ⟨_, rfl⟩)
    exact ⟨_, by rw [ho]; rfl⟩
  · intro ret h k hk
    cases ho : (List.range mc).mapM (fun k => do
        let out ← sampleAbs K slot mrows ivar redshift slotC crows bs distance r kk k
        out.list.mapM (bcastFlat slot)) with
    | error e => rw [ho] at h; cases h
    | ok outs =>
      rw [ho, ok_bind] at h
      cases h
      have hf := mapM_ok_iff.mp ho
      have hkr : k < (List.range mc).length := by simpa using hk
      have hko : k < outs.length := by rw [← hf.length_eq]; exact hkr
      have hf1 := (List.forall₂_iff_get.mp hf).2 k hkr hko
      simp only [List.get_eq_getElem, List.getElem_range] at hf1
      cases hs : sampleAbs K slot mrows ivar redshift slotC crows bs distance r kk k with
      | error e => rw [hs] at hf1; cases hf1
      | ok out =>
        rw [hs, ok_bind, hstep k hk out hs] at hf1
        simp only [Except.ok.injEq] at hf1
        have hlen : out.list.length = absCount r false kk := by
          obtain ⟨a, rc, lm, k, _, _, _, _, rfl⟩ := C74_order K _ ivar redshift _ bs distance r false kk out hs
          exact documented_length _ _ _ _ _ _ _
        refine ⟨out, rfl, by simp [ret_list, hlen], ?_⟩
        intro t x y hx hy
        rw [ret_list] at hx
        obtain ⟨ht, hx'⟩ := List.getElem?_eq_some_iff.mp hx
        simp only [List.length_map, List.length_range] at ht
        simp only [List.getElem_map, List.getElem_range] at hx'
        subst hx'
        refine ⟨rfl, ?_⟩
        intro j v hj hv
        have hcol : (outs.map (fun o => o.getD t []))[k]? = some y.flat := by
          rw [List.getElem?_map, List.getElem?_eq_getElem hko, Option.map_some, ← hf1]
          simp [List.getD_eq_getElem?_getD, hy]
        simp only [entry, stackLast, List.getElem?_map, List.getElem?_range hj, Option.map_some, Option.bind_some,
          List.getElem?_range hk]
        simp only [List.getElem?_map] at hcol
        rw [hcol]
        simp only [ent_eq hv]

/-! ### Documented shapes -/

theorem ofFlat_one (n : Nat) (xs : List α) (h : xs.length = n) : NDA.ofFlat [n] xs = .vec xs := by
  subst h
  simp [NDA.ofFlat, NDA.chunks, NDA.vec]

theorem ofFlat_two (n m : Nat) (xs : List α) : NDA.ofFlat [n, m] xs = .arr [n] m (NDA.chunks m n xs) := by
  simp [NDA.ofFlat]

theorem chunks_length (k n : Nat) (xs : List α) : (NDA.chunks k n xs).length = n := by
  induction n generalizing xs with
  | zero => rfl
  | succ n ih => simp [NDA.chunks, ih]

/-- Shape of the results for one galaxy. -/
theorem sample_shape_one {K : Kc α} (hF : NoAb K.toFitter) {A Ao : AMat α} (hA : K.Amatrix = some A) (hAo : K.AmatrixOut = some Ao)
    (mrows crows : List (List α)) (hm : mrows.length = K.responses.length) (hc : crows.length = K.templates.nsed) (z : α) (iv : List α)
    (hiv : iv.length = K.responses.length) (bs : α) (dist : Option α) (r kk : Bool) (k : Nat) (out : Ret α)
    (h : sampleAbs K [K.responses.length] mrows (some (.vec iv)) (some (.scalar z)) [K.templates.nsed] crows bs (dist.map .scalar) r kk k =
      .ok out) : ∀ y ∈ out.list, ∃ row, y = .arr [] Ao.nrow [row] := by
  unfold sampleAbs at h
  rw [ofFlat_one _ _ (by simpa using hm), ofFlat_one _ _ (by simpa using hc),
    absmag_scalar hF hA hAo z _ iv _ (by simpa using hm) hiv (by simpa using hc)] at h
  revert h
  generalize absOne K.imap A Ao id r false kk bs _ _ _ _ _ = X
  intro h
  cases X with
  | error e => cases h
  | ok rows =>
    simp only [Except.map, Except.ok.injEq] at h
    subst h
    intro y hy
    rw [ret_list] at hy
    obtain ⟨row, _, rfl⟩ := List.mem_map.mp hy
    exact ⟨row, rfl⟩

/-- Shape of the results for a batch. -/
theorem sample_shape_batch {K : Kc α} (hF : NoAb K.toFitter) {A Ao : AMat α} (hA : K.Amatrix = some A) (hAo : K.AmatrixOut = some Ao)
    (mrows crows : List (List α)) (zs : List α) (ivs : List (List α)) (hiv : ivs.length = zs.length)
    (bs : α) (dist : Option (List α)) (hd : ∀ ds ∈ dist, ds.length = zs.length) (r kk : Bool) (k : Nat) (out : Ret α)
    (h : sampleAbs K [zs.length, K.responses.length] mrows (some (.arr [zs.length] K.responses.length ivs)) (some (.vec zs))
      [zs.length, K.templates.nsed] crows bs (dist.map .vec) r kk k = .ok out) :
    ∀ y ∈ out.list, ∃ rows, y = .arr [zs.length] Ao.nrow rows := by
  unfold sampleAbs at h
  rw [ofFlat_two, ofFlat_two, absmag_array hF hA hAo zs _ ivs _ (chunks_length _ _ _) hiv (chunks_length _ _ _) bs dist hd] at h
  obtain ⟨rowss, _, rfl⟩ := h
  intro y hy
  rw [ret_list] at hy
  obtain ⟨t, _, rfl⟩ := List.mem_map.mp hy
  exact ⟨_, rfl⟩

/-- C75 for one galaxy with as many output bands as input bands: the call returns exactly if `absmag` does for every sample, and
sample `k` of every returned array holds the values of `absmag` on the `k`-th maggies and coefficients. -/
theorem C75_one_partial (K : Kc α) (hF : NoAb K.toFitter) (A Ao : AMat α) (hA : K.Amatrix = some A) (hAo : K.AmatrixOut = some Ao)
    (hn : Ao.nrow = K.responses.length) (mc : Nat) (mrows crows : List (List α)) (hm : mrows.length = K.responses.length)
    (hc : crows.length = K.templates.nsed) (z : α) (iv : List α) (hiv : iv.length = K.responses.length) (bs : α) (dist : Option α)
    (r kk : Bool) :
    ((∃ ret, K.absmagMc (.arr [K.responses.length] mc mrows) (some (.vec iv)) (some (.scalar z)) (.arr [K.templates.nsed] mc crows) bs
        (dist.map .scalar) r kk = .ok ret) ↔
      ∀ k < mc, ∃ out, K.absmag (some (.vec (mrows.map (fun row => ent row k)))) (some (.vec iv)) (some (.scalar z))
        (some (.vec (crows.map (fun row => ent row k)))) bs (dist.map .scalar) r false kk = .ok out) ∧
    ∀ ret, K.absmagMc (.arr [K.responses.length] mc mrows) (some (.vec iv)) (some (.scalar z)) (.arr [K.templates.nsed] mc crows) bs
        (dist.map .scalar) r kk = .ok ret →
      ∀ k < mc, ∃ out, K.absmag (some (.vec (mrows.map (fun row => ent row k)))) (some (.vec iv)) (some (.scalar z))
        (some (.vec (crows.map (fun row => ent row k)))) bs (dist.map .scalar) r false kk = .ok out ∧
        out.list.length = ret.list.length ∧ ∀ (t : Nat) x y, ret.list[t]? = some x → out.list[t]? = some y →
          x.shape = y.shape ++ [mc] ∧ ∀ (j : Nat) v, j < K.responses.length → entry y 0 j = some v → entry x j k = some (f32 v) := by
  have hs : ∀ k < mc, ∀ out, sampleAbs K [K.responses.length] mrows (some (.vec iv)) (some (.scalar z)) [K.templates.nsed] crows bs
      (dist.map .scalar) r kk k = .ok out → ∀ y ∈ out.list, y.shape = [K.responses.length] := by
    intro k _ out h y hy
    obtain ⟨row, rfl⟩ := sample_shape_one hF hA hAo mrows crows hm hc z iv hiv bs dist r kk k out h y hy
    simp [NDA.shape, hn]
  have e : ∀ k, sampleAbs K [K.responses.length] mrows (some (.vec iv)) (some (.scalar z)) [K.templates.nsed] crows bs
      (dist.map .scalar) r kk k = K.absmag (some (.vec (mrows.map (fun row => ent row k)))) (some (.vec iv)) (some (.scalar z))
        (some (.vec (crows.map (fun row => ent row k)))) bs (dist.map .scalar) r false kk := by
    intro k
    unfold sampleAbs
    rw [ofFlat_one _ _ (by simpa using hm), ofFlat_one _ _ (by simpa using hc)]
  obtain ⟨h1, h2⟩ := absmagMc_core K [K.responses.length] mc mrows (some (.vec iv)) (some (.scalar z)) [K.templates.nsed] crows bs
    (dist.map .scalar) r kk hs
  simp only [e] at h1 h2
  refine ⟨h1, fun ret hr k hk => ?_⟩
  obtain ⟨out, g1, g2, g3⟩ := h2 ret hr k hk
  refine ⟨out, g1, g2, fun t x y hx hy => ?_⟩
  obtain ⟨g4, g5⟩ := g3 t x y hx hy
  obtain ⟨row, rfl⟩ := sample_shape_one hF hA hAo mrows crows hm hc z iv hiv bs dist r kk k out ((e k).trans g1) y (List.mem_of_getElem? hy)
  refine ⟨by rw [g4]; simp [NDA.shape, hn], fun j v hj hv => g5 j v (by simpa using hj) ?_⟩
  simpa [entry, NDA.flat] using hv

/-- C75 for a batch of galaxies with as many output bands as input bands.  Positions `j` run over the galaxies and bands in C order. -/
theorem C75_batch_partial (K : Kc α) (hF : NoAb K.toFitter) (A Ao : AMat α) (hA : K.Amatrix = some A) (hAo : K.AmatrixOut = some Ao)
    (hn : Ao.nrow = K.responses.length) (mc : Nat) (mrows crows : List (List α)) (zs : List α) (ivs : List (List α))
    (hiv : ivs.length = zs.length) (bs : α) (dist : Option (List α)) (hd : ∀ ds ∈ dist, ds.length = zs.length) (r kk : Bool) :
    ((∃ ret, K.absmagMc (.arr [zs.length, K.responses.length] mc mrows) (some (.arr [zs.length] K.responses.length ivs)) (some (.vec zs))
        (.arr [zs.length, K.templates.nsed] mc crows) bs (dist.map .vec) r kk = .ok ret) ↔
      ∀ k < mc, ∃ out, K.absmag (some (.arr [zs.length] K.responses.length (NDA.chunks K.responses.length zs.length (mrows.map (fun row => ent row k)))))
        (some (.arr [zs.length] K.responses.length ivs)) (some (.vec zs))
        (some (.arr [zs.length] K.templates.nsed (NDA.chunks K.templates.nsed zs.length (crows.map (fun row => ent row k))))) bs (dist.map .vec)
        r false kk = .ok out) ∧
    ∀ ret, K.absmagMc (.arr [zs.length, K.responses.length] mc mrows) (some (.arr [zs.length] K.responses.length ivs)) (some (.vec zs))
        (.arr [zs.length, K.templates.nsed] mc crows) bs (dist.map .vec) r kk = .ok ret →
      ∀ k < mc, ∃ out, K.absmag (some (.arr [zs.length] K.responses.length (NDA.chunks K.responses.length zs.length (mrows.map (fun row => ent row k)))))
        (some (.arr [zs.length] K.responses.length ivs)) (some (.vec zs))
        (some (.arr [zs.length] K.templates.nsed (NDA.chunks K.templates.nsed zs.length (crows.map (fun row => ent row k))))) bs (dist.map .vec)
        r false kk = .ok out ∧
        out.list.length = ret.list.length ∧ ∀ (t : Nat) x y, ret.list[t]? = some x → out.list[t]? = some y →
          x.shape = y.shape ++ [mc] ∧
          ∀ (j : Nat) v, j < zs.length * K.responses.length → y.flat[j]? = some v → entry x j k = some (f32 v) := by
  have hs : ∀ k < mc, ∀ out, sampleAbs K [zs.length, K.responses.length] mrows (some (.arr [zs.length] K.responses.length ivs)) (some (.vec zs))
      [zs.length, K.templates.nsed] crows bs (dist.map .vec) r kk k = .ok out → ∀ y ∈ out.list, y.shape = [zs.length, K.responses.length] := by
    intro k _ out h y hy
    obtain ⟨row, rfl⟩ := sample_shape_batch hF hA hAo mrows crows zs ivs hiv bs dist hd r kk k out h y hy
    simp [NDA.shape, hn]
  have e : ∀ k, sampleAbs K [zs.length, K.responses.length] mrows (some (.arr [zs.length] K.responses.length ivs)) (some (.vec zs))
      [zs.length, K.templates.nsed] crows bs (dist.map .vec) r kk k =
      K.absmag (some (.arr [zs.length] K.responses.length (NDA.chunks K.responses.length zs.length (mrows.map (fun row => ent row k)))))
        (some (.arr [zs.length] K.responses.length ivs)) (some (.vec zs))
        (some (.arr [zs.length] K.templates.nsed (NDA.chunks K.templates.nsed zs.length (crows.map (fun row => ent row k))))) bs (dist.map .vec)
        r false kk := by
    intro k
    unfold sampleAbs
    rw [ofFlat_two, ofFlat_two]
  obtain ⟨h1, h2⟩ := absmagMc_core K [zs.length, K.responses.length] mc mrows (some (.arr [zs.length] K.responses.length ivs)) (some (.vec zs))
    [zs.length, K.templates.nsed] crows bs (dist.map .vec) r kk hs
  simp only [e] at h1 h2
  refine ⟨h1, fun ret hr k hk => ?_⟩
  obtain ⟨out, g1, g2, g3⟩ := h2 ret hr k hk
  refine ⟨out, g1, g2, fun t x y hx hy => ?_⟩
  obtain ⟨g4, g5⟩ := g3 t x y hx hy
  refine ⟨by rw [g4, hs k hk out ((e k).trans g1) y (List.mem_of_getElem? hy)], fun j v hj hv => g5 j v (by simpa using hj) hv⟩

/-- C75 fails when the numbers of input and output bands differ: the arrays are allocated with the shape of the maggies, so with
two or more output bands no call returns. -/
theorem C75_false_refused (K : Kc α) (hF : NoAb K.toFitter) (A Ao : AMat α) (hA : K.Amatrix = some A) (hAo : K.AmatrixOut = some Ao)
    (hn : Ao.nrow ≠ K.responses.length) (hn1 : Ao.nrow ≠ 1) (mc : Nat) (hmc : 0 < mc) (mrows crows : List (List α)) (hm : mrows.length = K.responses.length)
    (hc : crows.length = K.templates.nsed) (z : α) (iv : List α) (hiv : iv.length = K.responses.length) (bs : α) (dist : Option α)
    (r kk : Bool) (ret : Ret α) :
    K.absmagMc (.arr [K.responses.length] mc mrows) (some (.vec iv)) (some (.scalar z)) (.arr [K.templates.nsed] mc crows) bs
        (dist.map .scalar) r kk ≠ .ok ret := by
  intro h
  rw [absmagMc_eq] at h
  cases ho : (List.range mc).mapM (fun k => do
      let out ← sampleAbs K [K.responses.length] mrows (some (.vec iv)) (some (.scalar z)) [K.templates.nsed] crows bs (dist.map .scalar) r kk k
      out.list.mapM (bcastFlat [K.responses.length])) with
  | error e => rw [ho] at h; cases h
  | ok outs =>
    have hf := mapM_ok_iff.mp ho
    have hkr : 0 < (List.range mc).length := by simpa using hmc
    have hko : 0 < outs.length := by rw [← hf.length_eq]; exact hkr
    have hf1 := (List.forall₂_iff_get.mp hf).2 0 hkr hko
    simp only [List.get_eq_getElem, List.getElem_range] at hf1
    cases hs : sampleAbs K [K.responses.length] mrows (some (.vec iv)) (some (.scalar z)) [K.templates.nsed] crows bs (dist.map .scalar) r kk 0 with
    | error e => rw [hs] at hf1; cases hf1
    | ok out =>
      rw [hs, ok_bind] at hf1
      have hsh := sample_shape_one hF hA hAo mrows crows hm hc z iv hiv bs dist r kk 0 out hs
      have hne : out.list ≠ [] := by
        obtain ⟨a, rc, lm, k, _, _, _, _, rfl⟩ := C74_order K _ _ _ _ bs _ r false kk out hs
        cases r <;> cases kk <;> simp [documented, Ret.list]
      obtain ⟨y, hy⟩ := List.exists_mem_of_ne_nil _ hne
      obtain ⟨row, rfl⟩ := hsh y hy
      have herr : bcastFlat [K.responses.length] (NDA.arr [] Ao.nrow [row]) = .error .valueError := by
        unfold bcastFlat
        rw [if_neg (by simpa [NDA.shape] using hn)]
        split
        · rename_i heq
          simp only [NDA.arr.injEq] at heq
          exact absurd heq.2.1 hn1
        · rfl
      obtain ⟨e', he⟩ := mapM_error_of hy herr
      rw [he] at hf1; cases hf1

/-- With a single output band and several input bands the call returns, silently, one row per input band, all with the value of
the output band. -/
theorem C75_false_repeated (K : Kc α) (hF : NoAb K.toFitter) (A Ao : AMat α) (hA : K.Amatrix = some A) (hAo : K.AmatrixOut = some Ao)
    (hn : Ao.nrow = 1) (hn1 : K.responses.length ≠ 1) (mrows crows : List (List α)) (hm : mrows.length = K.responses.length)
    (hc : crows.length = K.templates.nsed) (z : α) (iv : List α) (hiv : iv.length = K.responses.length) (bs : α) (dist : Option α)
    (a : NDA α) (v : α)
    (h : K.absmag (some (.vec (mrows.map (fun row => ent row 0)))) (some (.vec iv)) (some (.scalar z))
        (some (.vec (crows.map (fun row => ent row 0)))) bs (dist.map .scalar) false false false = .ok (.one a)) (hv : entry a 0 0 = some v) :
    ∃ x, K.absmagMc (.arr [K.responses.length] 1 mrows) (some (.vec iv)) (some (.scalar z)) (.arr [K.templates.nsed] 1 crows) bs
        (dist.map .scalar) false false = .ok (.one x) ∧ x.shape = [K.responses.length, 1] ∧
      ∀ j < K.responses.length, entry x j 0 = some (f32 v) := by
  rw [absmagMc_eq]
  have e : sampleAbs K [K.responses.length] mrows (some (.vec iv)) (some (.scalar z)) [K.templates.nsed] crows bs
      (dist.map .scalar) false false 0 = .ok (.one a) := by
    unfold sampleAbs
    rw [ofFlat_one _ _ (by simpa using hm), ofFlat_one _ _ (by simpa using hc)]
    exact h
  obtain ⟨row, rfl⟩ := sample_shape_one hF hA hAo mrows crows hm hc z iv hiv bs dist false false 0 _ e a (by simp [Ret.list])
  have hb : bcastFlat [K.responses.length] (NDA.arr [] Ao.nrow [row]) = .ok (List.replicate K.responses.length v) := by
    rw [hn]
    unfold bcastFlat
    rw [if_neg (by simpa [NDA.shape] using Ne.symm hn1)]
    have : row.headD (lit 0) = v := by
      cases row with
      | nil => simp [entry] at hv
      | cons w _ => simpa [entry] using hv
    simp only [List.getLast?_singleton, List.nil_append, if_true, List.map_cons, List.map_nil, this, List.flatten_cons, List.flatten_nil,
      List.append_nil]
  refine ⟨stackLast [K.responses.length] 1 [List.replicate K.responses.length v], ?_, rfl, ?_⟩
  · simp only [List.range_succ, List.range_zero, List.nil_append, List.mapM_cons, List.mapM_nil, e, ok_bind, Ret.list, hb, pure_py]
    rfl
  · intro j hj
    have hv' : (List.replicate K.responses.length v)[j]? = some v := by simp [hj]
    simp only [entry, stackLast, List.prod_cons, List.prod_nil, mul_one, List.getElem?_map, List.getElem?_range hj, Option.map_some,
      Option.bind_some]
    simp [ent_eq hv']

/-! ### Not vacuous -/

/-- two output bands, one input band -/
noncomputable def demoKcTwo : Kc ℝ := ⟨demoFitter, [['x'], ['y']], [['x'], ['x']], some demoAm2, [0, 0], fun z => z⟩

/-- one output band, two input bands -/
noncomputable def demoKcOne : Kc ℝ := ⟨demoFitter2, [['x']], [['x']], some demoAm, [0], fun z => z⟩

/-- C75_false_refused: every sample has absolute magnitudes, yet the Monte Carlo call cannot return. -/
example : (∃ a, demoKcTwo.absmag (some (.vec [1])) (some (.vec [1])) (some (.scalar 0)) (some (.vec [1, 1])) 0 none false false false = .ok (.one a)) ∧
    ∀ ret, demoKcTwo.absmagMc (.arr [1] 1 [[1]]) (some (.vec [1])) (some (.scalar 0)) (.arr [2] 1 [[1], [1]]) 0 none false false ≠ .ok ret := by
  constructor
  · refine (C70_formula_partial demoKcTwo (Or.inl rfl) demoAm demoAm2 rfl rfl 0 [1] [1] [1, 1] rfl rfl rfl 0 none (by simp)).1.mpr ?_
    rw [kcorrect_real (K := demoKcTwo) (A := demoAm) (Ao := demoAm2) rfl rfl 0 [1, 1] rfl]
    unfold kReal
    obtain ⟨M, hM⟩ := (at_ok_iff (m := demoAm2) (q := 0) demo_ready.good.ne).mpr (by norm_num [InRange, demoAm2])
    rw [demoAm_at0, hM]
    exact ⟨_, rfl⟩
  · intro ret
    exact C75_false_refused demoKcTwo (Or.inl rfl) demoAm demoAm2 rfl rfl (by decide) (by decide) 1 (by norm_num) [[1]] [[1], [1]] rfl rfl 0 [1] rfl 0
      none false false ret

/-- C75_false_repeated: two input bands, one output band. -/
example : ∃ a v, demoKcOne.absmag (some (.vec [1, 2])) (some (.vec [1, 1])) (some (.scalar 0)) (some (.vec [1, 1])) 0 none false false false =
    .ok (.one a) ∧ entry a 0 0 = some v := by
  obtain ⟨hex, hent⟩ := C70_formula_partial demoKcOne (Or.inl rfl) demoAm2 demoAm rfl rfl 0 [1, 2] [1, 1] [1, 1] rfl rfl rfl 0 none (by simp)
  obtain ⟨M, hM⟩ := (at_ok_iff (m := demoAm2) (q := 0) demo_ready.good.ne).mpr (by norm_num [InRange, demoAm2])
  have hsh := at_shaped demo_ready.good hM
  have hk : ∃ kv, demoKcOne.kcorrect (some (.scalar 0)) (some (.vec [1, 1])) 0 = .ok (.arr [] 1 [[kv]]) := by
    rw [kcorrect_real (K := demoKcOne) (A := demoAm2) (Ao := demoAm) rfl rfl 0 [1, 1] rfl]
    unfold kReal
    rw [hM, demoAm_at0]
    simp only [ok_bind, kRow]
    split <;> exact ⟨_, rfl⟩
  obtain ⟨kv, hk⟩ := hk
  obtain ⟨a, ha⟩ := hex.mpr ⟨_, hk⟩
  exact ⟨a, _, ha, (hent a _ ha hk).2 0 0 1 1 kv rfl rfl rfl rfl⟩

/-- C75_one_partial: the demonstration object with three samples. -/
example : ∃ ret, demoKc.absmagMc (.arr [1] 3 [[1, 2, 3]]) (some (.vec [1])) (some (.scalar 1)) (.arr [2] 3 [[1, 1, 1], [1, 1, 1]]) 0 none true true = .ok ret := by
  refine (C75_one_partial demoKc (Or.inl rfl) demoAm demoAm rfl rfl rfl 3 [[1, 2, 3]] [[1, 1, 1], [1, 1, 1]] rfl rfl 1 [1] rfl 0 none true true).1.mpr ?_
  intro k hk
  have e := absmag_real (K := demoKc) (Or.inl rfl) (A := demoAm) (Ao := demoAm) rfl rfl 1 [ent [1, 2, 3] k] [1] [1, 1] rfl rfl rfl 0 none (by simp)
    true false true
  have hc : ent ([1, 1, 1] : List ℝ) k = 1 := by
    match k, hk with
    | 0, _ => rfl
    | 1, _ => rfl
    | 2, _ => rfl
  simp only [List.map_cons, List.map_nil, hc]
  have hr : ∃ rows, absReal demoKc.imap demoAm demoAm true false true 0 (dmSpec demoKc.distmod 1 none) 1 [ent [1, 2, 3] k] [1] [1, 1] = .ok rows := by
    unfold absReal kReal
    rw [demoAm_at1, demoAm_at0, show ((1 : ℝ) + 1) * (1 + 0) - 1 = 1 by norm_num, demoAm_at1]
    exact ⟨_, rfl⟩
  obtain ⟨rows, hr⟩ := hr
  exact ⟨_, e.trans (by rw [hr]; rfl)⟩

end KC
