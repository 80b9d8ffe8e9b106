import Verif.Props.Pipeline

/-!
# Absolute magnitudes of batches (C70–C73, C100, C101 on arrays)
-/

namespace KC
open Spec

/-- Object `i` of a batch: the call on it alone returns, and the arrays of the batch have its arrays as rows. -/
theorem absmag_row (K : Kc ℝ) (hr : AbReady K.abCls K.responses.length) (A Ao : AMat ℝ) (hA : K.Amatrix = some A) (hAo : K.AmatrixOut = some Ao)
    (zs : List ℝ) (ms ivs cs : List (List ℝ)) (hm : ms.length = zs.length) (hiv : ivs.length = zs.length) (hcs : cs.length = zs.length)
    (hml : ∀ m ∈ ms, m.length = K.responses.length) (hivl : ∀ m ∈ ivs, m.length = K.responses.length)
    (hcl : ∀ c ∈ cs, c.length = K.templates.nsed) (bs : ℝ) (dist : Option (List ℝ))
    (hd : ∀ ds ∈ dist, ds.length = zs.length) (r l kk : Bool) (ret : Ret ℝ)
    (h : K.absmag (some (.arr [zs.length] K.responses.length ms)) (some (.arr [zs.length] K.responses.length ivs)) (some (.vec zs))
        (some (.arr [zs.length] K.templates.nsed cs)) bs (dist.map .vec) r l kk = .ok ret)
    (i : Nat) (z : ℝ) (m iv c : List ℝ) (hz : zs[i]? = some z) (hmi : ms[i]? = some m) (hivi : ivs[i]? = some iv) (hci : cs[i]? = some c) :
    ∃ ret1, K.absmag (some (.vec m)) (some (.vec iv)) (some (.scalar z)) (some (.vec c)) bs ((dist.map (fun ds => ent ds i)).map .scalar) r l kk = .ok ret1 ∧
      ret.list.length = ret1.list.length ∧
      ∀ (t : Nat) x y, ret.list[t]? = some x → ret1.list[t]? = some y → x.shape = zs.length :: y.shape ∧ ∀ j, entry x i j = entry y 0 j := by
  obtain ⟨ret1, h1, h2, h3⟩ := (C94_ab_partial K hr A Ao hA hAo zs ms ivs cs hm hiv hcs hml hivl hcl bs dist hd r l kk).2 ret h i z m iv c hz hmi hivi hci
  refine ⟨ret1, by rw [Option.map_map]; exact h1, h2, ?_⟩
  intro t x y hx hy
  obtain ⟨hs, y', hy', hrow⟩ := h3 t x hx
  rw [hy] at hy'; cases hy'
  cases x with
  | scalar _ => cases hrow
  | arr lead n rows =>
    simp only [rowOf, Option.map_eq_some_iff] at hrow
    obtain ⟨row, hrw, rfl⟩ := hrow
    refine ⟨?_, fun j => by simp [entry, hrw]⟩
    simp only [NDA.shape] at hs ⊢
    rcases lead with _ | ⟨x, _ | ⟨y, l⟩⟩
    · simp at hs
    · simp only [List.cons_append, List.nil_append, List.cons.injEq] at hs
      rw [hs.1]; rfl
    · simp at hs

/-- what a call without flags, and with one flag, returns -/
theorem ret_shape {K : Kc ℝ} {maggies ivar redshift coeffs : Option (NDA ℝ)} {bs : ℝ} {distance : Option (NDA ℝ)} {ret : Ret ℝ}
    (h : K.absmag maggies ivar redshift coeffs bs distance false false false = .ok ret) : ∃ a, ret = .one a := by
  obtain ⟨a, rc, lm, k, _, _, _, _, e⟩ := C74_order K maggies ivar redshift coeffs bs distance false false false ret h
  exact ⟨a, e⟩

/-- distances in a batch are positive -/
theorem dist_pos {dist : Option (List ℝ)} {n i : Nat} (hd : ∀ ds ∈ dist, ds.length = n ∧ ∀ d ∈ ds, 0 < d) (hi : i < n) :
    ∀ d ∈ dist.map (fun ds => ent ds i), 0 < d := by
  intro d hdi
  obtain ⟨ds, hds, rfl⟩ := Option.mem_map.mp hdi
  obtain ⟨h1, h2⟩ := hd ds hds
  rw [ent_eq (List.getElem?_eq_getElem (by omega : i < ds.length))]
  exact h2 _ (List.getElem_mem _)

/-- C70, batches, every class: each entry of the table is the corrected magnitude of that object in the mapped band minus its distance modulus minus its
K-correction where maggies and ivar are positive, -9999 otherwise. -/
theorem C70_batch_partial (K : Kc ℝ) (hr : AbReady K.abCls K.responses.length) (A Ao : AMat ℝ) (hA : K.Amatrix = some A) (hAo : K.AmatrixOut = some Ao)
    (zs : List ℝ) (ms ivs cs : List (List ℝ)) (hm : ms.length = zs.length) (hiv : ivs.length = zs.length) (hcs : cs.length = zs.length)
    (hml : ∀ m ∈ ms, m.length = K.responses.length) (hivl : ∀ m ∈ ivs, m.length = K.responses.length)
    (hcl : ∀ c ∈ cs, c.length = K.templates.nsed) (bs : ℝ) (dist : Option (List ℝ))
    (hd : ∀ ds ∈ dist, ds.length = zs.length ∧ ∀ d ∈ ds, 0 < d) (a : NDA ℝ)
    (h : K.absmag (some (.arr [zs.length] K.responses.length ms)) (some (.arr [zs.length] K.responses.length ivs)) (some (.vec zs))
        (some (.arr [zs.length] K.templates.nsed cs)) bs (dist.map .vec) false false false = .ok (.one a))
    (i : Nat) (z : ℝ) (m iv c : List ℝ) (hz : zs[i]? = some z) (hmi : ms[i]? = some m) (hivi : ivs[i]? = some iv) (hci : cs[i]? = some c) :
    ∃ k, K.kcorrect (some (.scalar z)) (some (.vec c)) bs = .ok k ∧ a.shape = zs.length :: k.shape ∧
      ∀ (j q : Nat) mv v kv, K.imap[j]? = some q → m[q]? = some mv → iv[q]? = some v → entry k 0 j = some kv →
        entry a i j = some (if 0 < mv ∧ 0 < v then mag mv + abOffset K.abCls q - dmSpec K.distmod z (dist.map (fun ds => ent ds i)) - kv else -9999) := by
  have hi : i < zs.length := (List.getElem?_eq_some_iff.mp hz).1
  obtain ⟨ret1, h1, _, h3⟩ := absmag_row K hr A Ao hA hAo zs ms ivs cs hm hiv hcs hml hivl hcl bs dist (fun ds hds => (hd ds hds).1) false false false _ h
    i z m iv c hz hmi hivi hci
  obtain ⟨a1, rfl⟩ := ret_shape h1
  obtain ⟨hs, hrow⟩ := h3 0 a a1 rfl rfl
  obtain ⟨hex, hf⟩ := C70_corrected_partial K hr A Ao hA hAo z m iv c (hml m (List.mem_of_getElem? hmi)) (hivl iv (List.mem_of_getElem? hivi))
    (hcl c (List.mem_of_getElem? hci)) bs (dist.map (fun ds => ent ds i)) (dist_pos hd hi)
  obtain ⟨k, hk⟩ := hex.mp ⟨a1, h1⟩
  obtain ⟨hs1, he⟩ := hf a1 k h1 hk
  refine ⟨k, hk, by rw [hs, hs1], fun j q mv v kv hj hmq hvq hkv => by rw [hrow]; exact he j q mv v kv hj hmq hvq hkv⟩

/-- C71, batches, every class: scaling the maggies of each object by its own factor shifts its absolute magnitudes by `-2.5 log10` of its factor. -/
theorem C71_batch_flux (K : Kc ℝ) (hr : AbReady K.abCls K.responses.length) (A Ao : AMat ℝ) (hA : K.Amatrix = some A) (hAo : K.AmatrixOut = some Ao)
    (zs ss : List ℝ) (ms ivs cs : List (List ℝ)) (hss : ss.length = zs.length) (hm : ms.length = zs.length) (hiv : ivs.length = zs.length)
    (hcs : cs.length = zs.length)
    (hml : ∀ m ∈ ms, m.length = K.responses.length) (hivl : ∀ m ∈ ivs, m.length = K.responses.length)
    (hcl : ∀ c ∈ cs, c.length = K.templates.nsed) (bs : ℝ) (hs : ∀ s ∈ ss, 0 < s) (dist : Option (List ℝ))
    (hd : ∀ ds ∈ dist, ds.length = zs.length ∧ ∀ d ∈ ds, 0 < d) (a : NDA ℝ)
    (h : K.absmag (some (.arr [zs.length] K.responses.length ms)) (some (.arr [zs.length] K.responses.length ivs)) (some (.vec zs))
        (some (.arr [zs.length] K.templates.nsed cs)) bs (dist.map .vec) false false false = .ok (.one a)) :
    ∃ a', K.absmag (some (.arr [zs.length] K.responses.length (List.zipWith (fun s m => m.map (s * ·)) ss ms)))
        (some (.arr [zs.length] K.responses.length ivs)) (some (.vec zs)) (some (.arr [zs.length] K.templates.nsed cs)) bs (dist.map .vec) false false false =
        .ok (.one a') ∧
      ∀ (i : Nat) s m iv, ss[i]? = some s → ms[i]? = some m → ivs[i]? = some iv → a'.shape = a.shape ∧
        ∀ (j q : Nat) mv v x, K.imap[j]? = some q → m[q]? = some mv → iv[q]? = some v → entry a i j = some x →
          entry a' i j = some (if 0 < mv ∧ 0 < v then x - 2.5 * Real.logb 10 s else x) := by
  set ms' := List.zipWith (fun s m => m.map (s * ·)) ss ms with hms'
  have hm' : ms'.length = zs.length := by rw [hms', List.length_zipWith]; omega
  have hget : ∀ (i : Nat) m', ms'[i]? = some m' → ∃ s m, ss[i]? = some s ∧ ms[i]? = some m ∧ m' = m.map (s * ·) := by
    intro i m' hi
    rw [hms', List.getElem?_zipWith] at hi
    cases h1 : ss[i]? with
    | none => rw [h1] at hi; cases hi
    | some s =>
      cases h2 : ms[i]? with
      | none => rw [h1, h2] at hi; cases hi
      | some m => rw [h1, h2] at hi; cases hi; exact ⟨s, m, rfl, rfl, rfl⟩
  have hml' : ∀ m ∈ ms', m.length = K.responses.length := by
    intro m' hm'
    obtain ⟨i, hi, rfl⟩ := List.mem_iff_getElem.mp hm'
    obtain ⟨s, m, _, h2, h3⟩ := hget i _ (List.getElem?_eq_getElem hi)
    rw [h3, List.length_map]; exact hml m (List.mem_of_getElem? h2)
  have one : ∀ (i : Nat) z s m iv c, zs[i]? = some z → ss[i]? = some s → ms[i]? = some m → ivs[i]? = some iv → cs[i]? = some c →
      ∃ a1 a1', K.absmag (some (.vec m)) (some (.vec iv)) (some (.scalar z)) (some (.vec c)) bs ((dist.map (fun ds => ent ds i)).map .scalar) false false false =
          .ok (.one a1) ∧ a.shape = zs.length :: a1.shape ∧ (∀ j, entry a i j = entry a1 0 j) ∧
        K.absmag (some (.vec (m.map (s * ·)))) (some (.vec iv)) (some (.scalar z)) (some (.vec c)) bs ((dist.map (fun ds => ent ds i)).map .scalar) false false false =
          .ok (.one a1') ∧ a1'.shape = a1.shape ∧
        ∀ (j q : Nat) mv v x, K.imap[j]? = some q → m[q]? = some mv → iv[q]? = some v → entry a1 0 j = some x →
          entry a1' 0 j = some (if 0 < mv ∧ 0 < v then x - 2.5 * Real.logb 10 s else x) := by
    intro i z s m iv c hz hsi hmi hivi hci
    have hi : i < zs.length := (List.getElem?_eq_some_iff.mp hz).1
    obtain ⟨ret1, h1, _, h3⟩ := absmag_row K hr A Ao hA hAo zs ms ivs cs hm hiv hcs hml hivl hcl bs dist (fun ds hds => (hd ds hds).1) false false false _ h
      i z m iv c hz hmi hivi hci
    obtain ⟨a1, rfl⟩ := ret_shape h1
    obtain ⟨hsh, hrow⟩ := h3 0 a a1 rfl rfl
    obtain ⟨a1', h4, h5, h6⟩ := C71_ab_flux K hr A Ao hA hAo z m iv c (hml m (List.mem_of_getElem? hmi)) (hivl iv (List.mem_of_getElem? hivi))
      (hcl c (List.mem_of_getElem? hci)) bs s (hs s (List.mem_of_getElem? hsi)) (dist.map (fun ds => ent ds i)) (dist_pos hd hi) a1 h1
    exact ⟨a1, a1', h1, hsh, hrow, h4, h5, h6⟩
  obtain ⟨ret', hret'⟩ := (C94_ab_partial K hr A Ao hA hAo zs ms' ivs cs hm' hiv hcs hml' hivl hcl bs dist (fun ds hds => (hd ds hds).1) false false false).1.mpr (by
    intro i z m' iv c hz hmi hivi hci
    obtain ⟨s, m, h1, h2, rfl⟩ := hget i m' hmi
    obtain ⟨_, a1', _, _, _, h4, _⟩ := one i z s m iv c hz h1 h2 hivi hci
    rw [Option.map_map] at h4
    exact ⟨_, h4⟩)
  obtain ⟨a', rfl⟩ := ret_shape hret'
  refine ⟨a', hret', ?_⟩
  intro i s m iv hsi hmi hivi
  have hi : i < ss.length := (List.getElem?_eq_some_iff.mp hsi).1
  have hz : zs[i]? = some zs[i] := List.getElem?_eq_getElem (by omega)
  have hci : cs[i]? = some cs[i] := List.getElem?_eq_getElem (by omega)
  obtain ⟨a1, a1', h1, hsh, hrow, h4, h5, h6⟩ := one i _ s m iv _ hz hsi hmi hivi hci
  obtain ⟨ret1, g1, _, g3⟩ := absmag_row K hr A Ao hA hAo zs ms' ivs cs hm' hiv hcs hml' hivl hcl bs dist (fun ds hds => (hd ds hds).1) false false false _ hret'
    i _ (m.map (s * ·)) iv _ hz (by rw [hms', List.getElem?_zipWith, hsi, hmi]) hivi hci
  rw [h4] at g1; cases g1
  obtain ⟨hsh', hrow'⟩ := g3 0 a' a1' rfl rfl
  refine ⟨by rw [hsh', hsh, h5], fun j q mv v x hj hmq hvq hx => ?_⟩
  rw [hrow']
  exact h6 j q mv v x hj hmq hvq (by rw [← hrow]; exact hx)

/-- C72 and C73, batches, every class: the second array with `reconstruct=True` and with `limit=True`. -/
theorem C72_batch_partial (K : Kc ℝ) (hr : AbReady K.abCls K.responses.length) (A Ao : AMat ℝ) (hA : K.Amatrix = some A) (hAo : K.AmatrixOut = some Ao)
    (zs : List ℝ) (ms ivs cs : List (List ℝ)) (hm : ms.length = zs.length) (hiv : ivs.length = zs.length) (hcs : cs.length = zs.length)
    (hml : ∀ m ∈ ms, m.length = K.responses.length) (hivl : ∀ m ∈ ivs, m.length = K.responses.length)
    (hcl : ∀ c ∈ cs, c.length = K.templates.nsed) (bs : ℝ) (dist : Option (List ℝ))
    (hd : ∀ ds ∈ dist, ds.length = zs.length ∧ ∀ d ∈ ds, 0 < d) (a rc : NDA ℝ)
    (h : K.absmag (some (.arr [zs.length] K.responses.length ms)) (some (.arr [zs.length] K.responses.length ivs)) (some (.vec zs))
        (some (.arr [zs.length] K.templates.nsed cs)) bs (dist.map .vec) true false false = .ok (.tuple [a, rc]))
    (i : Nat) (z : ℝ) (m iv c : List ℝ) (hz : zs[i]? = some z) (hmi : ms[i]? = some m) (hivi : ivs[i]? = some iv) (hci : cs[i]? = some c) :
    ∃ k o, K.kcorrect (some (.scalar z)) (some (.vec c)) bs = .ok k ∧ K.reconstructOut (some (.scalar z)) (some (.vec c)) bs = .ok o ∧
      rc.shape = zs.length :: k.shape ∧ ∀ (j : Nat) kv ov, entry k 0 j = some kv → entry o 0 j = some ov →
        entry rc i j = some (if 0 < ov then mag ov - dmSpec K.distmod z (dist.map (fun ds => ent ds i)) - kv else -9999) := by
  have hi : i < zs.length := (List.getElem?_eq_some_iff.mp hz).1
  obtain ⟨ret1, h1, _, h3⟩ := absmag_row K hr A Ao hA hAo zs ms ivs cs hm hiv hcs hml hivl hcl bs dist (fun ds hds => (hd ds hds).1) true false false _ h
    i z m iv c hz hmi hivi hci
  obtain ⟨a1, rc1, k, o, rfl, hk, ho, hs, he⟩ := C72_ab_partial K hr A Ao hA hAo z m iv c (hml m (List.mem_of_getElem? hmi)) (hivl iv (List.mem_of_getElem? hivi))
    (hcl c (List.mem_of_getElem? hci)) bs (dist.map (fun ds => ent ds i)) (dist_pos hd hi) ret1 h1
  obtain ⟨hsh, hrow⟩ := h3 1 rc rc1 rfl rfl
  exact ⟨k, o, hk, ho, by rw [hsh, hs], fun j kv ov hkv hov => by rw [hrow]; exact he j kv ov hkv hov⟩

theorem C73_batch_partial (K : Kc ℝ) (hr : AbReady K.abCls K.responses.length) (A Ao : AMat ℝ) (hA : K.Amatrix = some A) (hAo : K.AmatrixOut = some Ao)
    (zs : List ℝ) (ms ivs cs : List (List ℝ)) (hm : ms.length = zs.length) (hiv : ivs.length = zs.length) (hcs : cs.length = zs.length)
    (hml : ∀ m ∈ ms, m.length = K.responses.length) (hivl : ∀ m ∈ ivs, m.length = K.responses.length)
    (hcl : ∀ c ∈ cs, c.length = K.templates.nsed) (bs : ℝ) (dist : Option (List ℝ))
    (hd : ∀ ds ∈ dist, ds.length = zs.length ∧ ∀ d ∈ ds, 0 < d) (a lm : NDA ℝ)
    (h : K.absmag (some (.arr [zs.length] K.responses.length ms)) (some (.arr [zs.length] K.responses.length ivs)) (some (.vec zs))
        (some (.arr [zs.length] K.templates.nsed cs)) bs (dist.map .vec) false true false = .ok (.tuple [a, lm]))
    (i : Nat) (z : ℝ) (m iv c : List ℝ) (hz : zs[i]? = some z) (hmi : ms[i]? = some m) (hivi : ivs[i]? = some iv) (hci : cs[i]? = some c) :
    ∃ k, K.kcorrect (some (.scalar z)) (some (.vec c)) bs = .ok k ∧ lm.shape = zs.length :: k.shape ∧
      ∀ (j q : Nat) v kv, K.imap[j]? = some q → iv[q]? = some v → entry k 0 j = some kv →
        entry lm i j = some (if 0 < v then mag (1 / Real.sqrt v) + abOffset K.abCls q - dmSpec K.distmod z (dist.map (fun ds => ent ds i)) - kv else -9999) := by
  have hi : i < zs.length := (List.getElem?_eq_some_iff.mp hz).1
  obtain ⟨ret1, h1, _, h3⟩ := absmag_row K hr A Ao hA hAo zs ms ivs cs hm hiv hcs hml hivl hcl bs dist (fun ds hds => (hd ds hds).1) false true false _ h
    i z m iv c hz hmi hivi hci
  obtain ⟨a1, lm1, k, rfl, hk, hs, he⟩ := C73_ab_partial K hr A Ao hA hAo z m iv c (hml m (List.mem_of_getElem? hmi)) (hivl iv (List.mem_of_getElem? hivi))
    (hcl c (List.mem_of_getElem? hci)) bs (dist.map (fun ds => ent ds i)) (dist_pos hd hi) ret1 h1
  obtain ⟨hsh, hrow⟩ := h3 1 lm lm1 rfl rfl
  exact ⟨k, hk, by rw [hsh, hs], fun j q v kv hj hv hkv => by rw [hrow]; exact he j q v kv hj hv hkv⟩

/-- C100, batches, every class: photometry without noise of a mixture per object.  The fit returns the mixtures, and `absmag` with what it returned gives
the absolute magnitudes of the mixtures. -/
theorem C100_batch (nnls : Nnls ℝ) (hn : NNLSOK nnls) (K : Kc ℝ) (hr : AbReady K.abCls K.responses.length)
    (hnb : K.responses.length ≠ 1) (A Ao : AMat ℝ) (hR : Ready K.toFitter A) (hAo : K.AmatrixOut = some Ao)
    (zs : List ℝ) (ms ivs c0s : List (List ℝ)) (hl : zs.length ≠ 1) (hm : ms.length = zs.length) (hiv : ivs.length = zs.length) (hcs : c0s.length = zs.length)
    (hml : ∀ m ∈ ms, m.length = K.responses.length) (hivl : ∀ m ∈ ivs, m.length = K.responses.length)
    (hpos : ∀ iv ∈ ivs, ∀ v ∈ iv, 0 ≤ v) (hcl : ∀ c ∈ c0s, c.length = K.templates.nsed) (hcp : ∀ c ∈ c0s, ∀ v ∈ c, 0 ≤ v)
    (hz : ∀ z ∈ zs, InRange A.x z)
    (htrue : ∀ (i : Nat) z m iv c0, zs[i]? = some z → ms[i]? = some m → ivs[i]? = some iv → c0s[i]? = some c0 →
      K.reconstruct (some (.scalar z)) (some (.vec c0)) 0 = .ok (.vec (abM K.abCls m)) ∧
      Determined K.toFitter z (abM K.abCls m) (abIv K.abCls iv) c0)
    (noise : Nat → Nat → Nat → ℝ) (out : FitOut ℝ)
    (hfit : K.toFitter.fitCoeffs nnls (some (.vec zs)) (some (.arr [zs.length] K.responses.length ms)) (some (.arr [zs.length] K.responses.length ivs)) 0 noise =
      .ok out) :
    out.coeffs = .arr [zs.length] K.templates.nsed c0s ∧
    ∀ (bs : ℝ) (dist : Option (List ℝ)) (a : NDA ℝ), (∀ ds ∈ dist, ds.length = zs.length ∧ ∀ d ∈ ds, 0 < d) →
      K.absmag (some (.arr [zs.length] K.responses.length ms)) (some (.arr [zs.length] K.responses.length ivs)) (some (.vec zs)) (some out.coeffs) bs
        (dist.map .vec) false false false = .ok (.one a) →
      ∀ (i : Nat) z m iv c0 b, zs[i]? = some z → ms[i]? = some m → ivs[i]? = some iv → c0s[i]? = some c0 →
        K.reconstructOut (some (.scalar 0)) (some (.vec c0)) bs = .ok b →
        ∀ (j q : Nat) mv v fb, K.imap[j]? = some q → m[q]? = some mv → 0 < mv → iv[q]? = some v → 0 < v → entry b 0 j = some fb → 0 < fb →
          entry a i j = some (mag fb - dmSpec K.distmod z (dist.map (fun ds => ent ds i))) := by
  obtain ⟨cs, hcsl, halone, ho, -⟩ := (C52_ab_partial nnls hn.len K.toFitter hr hnb zs ms ivs hl hm hiv hml hivl 0 noise).2 out hfit
  have hone : ∀ (i : Nat) z m iv c0, zs[i]? = some z → ms[i]? = some m → ivs[i]? = some iv → c0s[i]? = some c0 →
      (cs.map (fun r => r.1))[i]? = some c0 ∧
      K.toFitter.fitCoeffs nnls (some (.scalar z)) (some (.vec m)) (some (.vec iv)) 0 (fun _ => noise i) = .ok ⟨.vec c0, none⟩ := by
    intro i z m iv c0 h1 h2 h3 h4
    have hi : i < cs.length := by rw [hcsl]; exact (List.getElem?_eq_some_iff.mp h1).1
    have hal := halone i cs[i] (List.getElem?_eq_getElem hi)
    have e1 : ent zs i = z := ent_eq h1
    have e2 : ms.getD i [] = m := by rw [List.getD_eq_getElem?_getD, h2]; rfl
    have e3 : ivs.getD i [] = iv := by rw [List.getD_eq_getElem?_getD, h3]; rfl
    simp only [e1, e2, e3, if_true] at hal
    obtain ⟨ht1, ht2⟩ := htrue i z m iv c0 h1 h2 h3 h4
    obtain ⟨hc, _⟩ := C100_ab nnls hn K hr A Ao hR hAo z (hz z (List.mem_of_getElem? h1)) m iv c0 (hml m (List.mem_of_getElem? h2))
      (hcl c0 (List.mem_of_getElem? h4)) (hcp c0 (List.mem_of_getElem? h4)) ht1 (hivl iv (List.mem_of_getElem? h3)) (hpos iv (List.mem_of_getElem? h3)) ht2
      (fun _ => noise i) _ hal
    have hcc : cs[i].1 = c0 := by
      simp only [NDA.vec, NDA.arr.injEq, List.cons.injEq, and_true] at hc
      exact hc.2.2
    refine ⟨by rw [List.getElem?_map, List.getElem?_eq_getElem hi, Option.map_some, hcc], by rw [hal, hcc]⟩
  have hcs0 : cs.map (fun r => r.1) = c0s := by
    apply List.ext_getElem?
    intro i
    by_cases hi : i < zs.length
    · have h4 : c0s[i]? = some c0s[i] := List.getElem?_eq_getElem (by omega)
      rw [(hone i _ _ _ _ (List.getElem?_eq_getElem hi) (List.getElem?_eq_getElem (by omega)) (List.getElem?_eq_getElem (by omega)) h4).1, h4]
    · rw [List.getElem?_eq_none (by rw [List.length_map]; omega), List.getElem?_eq_none (by omega)]
  rw [hcs0] at ho
  refine ⟨ho, ?_⟩
  intro bs dist a hd ha i z m iv c0 b h1 h2 h3 h4 hb j q mv v fb hj hmq hmv hvq hv hfb hfbp
  have hi : i < zs.length := (List.getElem?_eq_some_iff.mp h1).1
  rw [ho] at ha
  obtain ⟨ret1, g1, _, g3⟩ := absmag_row K hr A Ao hR.set hAo zs ms ivs c0s hm hiv hcs hml hivl hcl bs dist (fun ds hds => (hd ds hds).1) false false false _ ha
    i z m iv c0 h1 h2 h3 h4
  obtain ⟨a1, rfl⟩ := ret_shape g1
  obtain ⟨_, hrow⟩ := g3 0 a a1 rfl rfl
  obtain ⟨ht1, ht2⟩ := htrue i z m iv c0 h1 h2 h3 h4
  obtain ⟨_, hf⟩ := C100_ab nnls hn K hr A Ao hR hAo z (hz z (List.mem_of_getElem? h1)) m iv c0 (hml m (List.mem_of_getElem? h2))
    (hcl c0 (List.mem_of_getElem? h4)) (hcp c0 (List.mem_of_getElem? h4)) ht1 (hivl iv (List.mem_of_getElem? h3)) (hpos iv (List.mem_of_getElem? h3)) ht2
    (fun _ => noise i) _ (hone i z m iv c0 h1 h2 h3 h4).2
  rw [hrow]
  exact hf bs (dist.map (fun ds => ent ds i)) a1 b (dist_pos hd hi) g1 hb j q mv v fb hj hmq hmv hvq hv hfb hfbp

/-- C101, batches: mass = mass-to-light ratio × luminosity, for every object of a batch. -/
theorem C101_batch (K : Kc ℝ) (t : Tmpl ℝ) (Ao : AMat ℝ) (h : MassKc K t Ao) (hg : AMat.Good Ao) (hlen : K.responses.length = K.responsesOut.length)
    (g : Reg ℝ) (ss : List ℝ) (hss : SolarMags K g ss) (zs : List ℝ) (cs : List (List ℝ)) (hcs : cs.length = zs.length)
    (hc : ∀ c ∈ cs, c.length = K.templates.nsed) (bs : ℝ) (D : Derived ℝ)
    (hD : K.derived g (some (.vec zs)) (some (.arr [zs.length] K.templates.nsed cs)) bs none = .ok D)
    (i : Nat) (z : ℝ) (c : List ℝ) (hz : zs[i]? = some z) (hci : cs[i]? = some c) :
    ∃ o mass, K.reconstructOut (some (.scalar 0)) (some (.vec c)) bs = .ok o ∧ entry D.mremain 0 i = some mass ∧
      ∀ (j : Nat) n r s v q, K.responsesOut[j]? = some n → g n = some r → r.solarMag = some s → entry o 0 j = some v → 0 < v →
        entry D.mtol i j = some q → mass = q * 10 ^ (-0.4 * (mag v - K.distmod z - s)) := by
  obtain ⟨ds, hall, ms, is, rows, r1, r2, r3, r4, rfl, e1, e2, e3, -⟩ := (C95_batch K t Ao h hlen g ss hss zs cs hcs hc bs D).mp hD
  have hi : i < zs.length := (List.getElem?_eq_some_iff.mp hz).1
  have hi' : i < cs.length := by omega
  have hzl : (List.zip zs cs).length = zs.length := by rw [List.length_zip]; omega
  have hdl : ds.length = zs.length := by rw [← hall.length_eq, hzl]
  have hone := (List.forall₂_iff_get.mp hall).2 i (by omega) (by omega)
  have hzi : zs[i] = z := by rw [List.getElem?_eq_getElem hi] at hz; exact Option.some.inj hz
  have hcc : cs[i] = c := by rw [List.getElem?_eq_getElem hi'] at hci; exact Option.some.inj hci
  simp only [List.get_eq_getElem, List.getElem_zip, hzi, hcc] at hone
  obtain ⟨o, mass, ho, hmass, hf⟩ := C101_mass_light K t Ao h hg g z c (hc c (List.mem_of_getElem? hci)) bs _ hone
  have k1 := congrArg (fun l => l[i]?) e1
  have k3 := congrArg (fun l => l[i]?) e3
  simp only [List.getElem?_map, List.getElem?_eq_getElem (show i < ds.length by omega), Option.map_some] at k1 k3
  refine ⟨o, mass, ho, ?_, ?_⟩
  · rw [hmass] at k1
    obtain ⟨x, hx, hxe⟩ := Option.map_eq_some_iff.mp k1.symm
    cases hxe
    simpa [entry, NDA.vec] using hx
  · intro j n r s v q hn hr hs hv hv0 hq
    obtain ⟨row, hrow, hre⟩ := Option.map_eq_some_iff.mp k3.symm
    refine hf j n r s v q hn hr hs hv hv0 ?_
    rw [← hre]
    simpa [entry, hrow] using hq

theorem abM_base (m : List ℝ) : abM .base m = m := by
  unfold abM
  apply List.ext_getElem?
  intro i
  rw [List.getElem?_mapIdx]
  cases m[i]? <;> simp [abFactor, abOffset]

theorem abIv_base (m : List ℝ) : abIv .base m = m := by
  unfold abIv
  apply List.ext_getElem?
  intro i
  rw [List.getElem?_mapIdx]
  cases m[i]? <;> simp [abFactor, abOffset]

/-- non-vacuity: two objects, the mixture (1, 5) twice, at redshift 2; the fit of the batch and the absolute magnitudes return. -/
example : ∃ m out a, demoKc2.toFitter.fitCoeffs demoNnls (some (.vec [2, 2])) (some (.arr [2] 2 [m, m])) (some (.arr [2] 2 [[1, 4], [1, 4]])) 0
      (fun _ _ _ => 0) = .ok out ∧ out.coeffs = .arr [2] 2 [[1, 5], [1, 5]] ∧
    demoKc2.absmag (some (.arr [2] 2 [m, m])) (some (.arr [2] 2 [[1, 4], [1, 4]])) (some (.vec [2, 2])) (some out.coeffs) 0 none false false false =
      .ok (.one a) := by
  obtain ⟨m, o, hR, hz, hm, hdet, hfit, hmp⟩ := demo_noise_free
  have hml : m.length = 2 := by
    have := hm
    rw [show demoKc2.reconstruct (some (.scalar 2)) (some (.vec [1, 5])) 0 = .ok (.vec (mulVec [[1, 2], [3 / 2, 3 / 2]] [1, 5])) from
      recon_ready demo_ready demoAm2_at2 rfl] at this
    simp only [Except.ok.injEq, NDA.vec, NDA.arr.injEq, List.cons.injEq, and_true] at this
    rw [← this.2.2]; rfl
  have two : ∀ {β : Type} (x y : β) (i : Nat), ([x, x] : List β)[i]? = some y → y = x := by
    intro β x y i h
    have := List.mem_of_getElem? h
    simpa using this
  have hml' : ∀ x ∈ [m, m], x.length = demoKc2.responses.length := by
    intro x hx
    have : x = m := by simpa using hx
    rw [this]; exact hml
  have hivl : ∀ x ∈ [([1, 4] : List ℝ), [1, 4]], x.length = demoKc2.responses.length := by
    intro x hx
    have : x = [1, 4] := by simpa using hx
    rw [this]; rfl
  have hcl : ∀ x ∈ [([1, 5] : List ℝ), [1, 5]], x.length = demoKc2.templates.nsed := by
    intro x hx
    have : x = [1, 5] := by simpa using hx
    rw [this]; rfl
  have hcp : ∀ x ∈ [([1, 5] : List ℝ), [1, 5]], ∀ v ∈ x, 0 ≤ v := by
    intro x hx v hv
    have : x = [1, 5] := by simpa using hx
    subst this
    simp only [List.mem_cons, List.not_mem_nil, or_false] at hv
    rcases hv with rfl | rfl <;> norm_num
  have hpos : ∀ x ∈ [([1, 4] : List ℝ), [1, 4]], ∀ v ∈ x, 0 ≤ v := by
    intro x hx v hv
    have : x = [1, 4] := by simpa using hx
    subst this
    simp only [List.mem_cons, List.not_mem_nil, or_false] at hv
    rcases hv with rfl | rfl <;> norm_num
  have hab : demoKc2.abCls = .base := rfl
  obtain ⟨out, hout⟩ := (C52_ab_partial demoNnls demoNnls_ok.len demoKc2.toFitter trivial (by decide) [2, 2] [m, m] [[1, 4], [1, 4]] (by simp) rfl rfl hml' hivl 0
    (fun _ _ _ => 0)).1.mpr (by
      intro k hk
      have hk : k < 2 := hk
      interval_cases k <;> exact ⟨o, hfit⟩)
  obtain ⟨hc, _⟩ := C100_batch demoNnls demoNnls_ok demoKc2 trivial (by decide) demoAm2 demoAm2 hR rfl [2, 2] [m, m] [[1, 4], [1, 4]] [[1, 5], [1, 5]]
    (by simp) rfl rfl rfl hml' hivl hpos hcl hcp (by intro z h; have : z = 2 := by simpa using h
                                                     rw [this]; exact hz) (by
      intro i z m' iv c0 h1 h2 h3 h4
      rw [two _ _ _ h1, two _ _ _ h2, two _ _ _ h3, two _ _ _ h4, hab, abM_base, abIv_base]
      exact ⟨hm, hdet⟩) (fun _ _ _ => 0) out hout
  have hb : ∃ b, demoKc2.reconstructOut (some (.scalar 0)) (some (.vec [1, 5])) 0 = .ok b := by
    obtain ⟨M, hM⟩ := (at_ok_iff demo_ready.good.ne).mpr (show InRange demoAm2.x 0 by norm_num [InRange, demoAm2])
    unfold Kc.reconstructOut
    rw [show demoKc2.AmatrixOut = some demoAm2 from rfl, recon_real _ _ _ _ _ rfl, show ((1 : ℝ) + 0) * (1 + 0) - 1 = 0 by norm_num, hM]
    exact ⟨_, rfl⟩
  obtain ⟨ret, hret⟩ := (C94_ab_partial demoKc2 trivial demoAm2 demoAm2 rfl rfl [2, 2] [m, m] [[1, 4], [1, 4]] [[1, 5], [1, 5]] rfl rfl rfl hml' hivl hcl 0 none
    (by simp) false false false).1.mpr (by
      intro i z m' iv c h1 h2 h3 h4
      rw [two _ _ _ h1, two _ _ _ h2, two _ _ _ h3, two _ _ _ h4]
      obtain ⟨hex, _⟩ := C70_corrected_partial demoKc2 trivial demoAm2 demoAm2 rfl rfl 2 m [1, 4] [1, 5] hml rfl rfl 0 none (by simp)
      obtain ⟨a, ha⟩ := hex.mpr ((C67_model_magnitudes demoKc2 demoAm2 demoAm2 rfl rfl 2 0 [1, 5] rfl).1.mpr ⟨⟨_, hm⟩, hb⟩)
      exact ⟨_, ha⟩)
  obtain ⟨a, rfl⟩ := ret_shape hret
  exact ⟨m, out, a, hout, hc, by rw [hc]; exact hret⟩

end KC
