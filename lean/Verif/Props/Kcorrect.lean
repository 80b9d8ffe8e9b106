import Verif.Props.KInit

/-!
# K-corrections (C64–C69, and C46 for `kcorrect`)
-/

namespace KC
open Spec

theorem map_f32_l (l : List ℝ) : l.map f32 = l := List.map_id l

theorem magOf_real (x : ℝ) : magOf x = mag x := by simp [magOf, mag]; norm_num

/-- one object over the reals -/
noncomputable def kReal (imap : List Nat) (A Ao : AMat ℝ) (bs z : ℝ) (c : List ℝ) : Py (List ℝ) := do
  let M ← A.at z
  let Mo ← Ao.at bs
  return kRow imap id c (reconRow 0 M c) (reconRow bs Mo c)

theorem kOne_real (imap : List Nat) (A Ao : AMat ℝ) (bs z : ℝ) (c : List ℝ) :
    kOne imap A Ao id bs z c = kReal imap A Ao bs z c := by
  unfold kOne kReal
  simp only [map_f32_l, shiftOf_real, real_f32, real_lit]
  have e1 : (1 + z) * (1 + ((0 : ℚ) : ℝ)) - 1 = z := by push_cast; ring
  have e2 : (1 + ((0 : ℚ) : ℝ) * z) * (1 + bs) - 1 = bs := by push_cast; ring
  rw [e1, e2]
  push_cast
  rfl

theorem kcorrect_real {K : Kc ℝ} {A Ao : AMat ℝ} (hA : K.Amatrix = some A) (hAo : K.AmatrixOut = some Ao) (z : ℝ) (c : List ℝ)
    (hc : c.length = K.templates.nsed) (bs : ℝ) :
    K.kcorrect (some (.scalar z)) (some (.vec c)) bs = (kReal K.imap A Ao bs z c).map (fun r => .arr [] Ao.nrow [r]) := by
  rw [kcorrect_scalar hA hAo z c hc, map_f32_l, real_f32, kOne_real]

theorem recon_real (F : Fitter ℝ) (A : AMat ℝ) (z : ℝ) (c : List ℝ) (bs : ℝ) (hc : c.length = F.templates.nsed) :
    reconstructWith F (some A) (some (.scalar z)) (some (.vec c)) bs =
      (A.at ((1 + z) * (1 + bs) - 1)).map (fun M => .arr [] A.nrow [reconRow bs M c]) := by
  rw [recon_scalar F A z c bs hc, map_f32_l, real_f32, shiftOf_real]

theorem kRow_get (imap : List Nat) (c a b : List ℝ) (hs : 0 < c.sum) (j : Nat) :
    (kRow imap id c a b)[j]? = (imap[j]?).bind (fun i => (b[j]?).map (fun y => mag (a.getD i 0 / y))) := by
  unfold kRow
  rw [if_pos (by simpa [sumL_real] using hs)]
  simp only [gather, List.getElem?_zipWith, List.getElem?_map]
  cases imap[j]? <;> cases b[j]? <;> simp [magOf_real]

theorem kRow_zero (imap : List Nat) (c a b : List ℝ) (hs : c.sum ≤ 0) : kRow imap id c a b = List.replicate b.length 0 := by
  unfold kRow
  rw [if_neg (by simpa [sumL_real] using hs)]
  simp [zeros]

theorem reconRow_get (bs : ℝ) (M : List (List ℝ)) (c : List ℝ) (j : Nat) :
    (reconRow bs M c)[j]? = (M[j]?).map (fun row => dot row c / (1 + bs)) := by
  simp [reconRow]

/-- The output bands are the input bands, each mapped to itself: one matrix serves for both, and the row of the band mapped to a band
is the row of that band. -/
structure DefaultBands (K : Kc ℝ) (A : AMat ℝ) : Prop where
  inp : K.Amatrix = some A
  out : K.AmatrixOut = some A
  len : K.imap.length = K.responsesOut.length
  row : ∀ q M, A.at q = .ok M → ∀ (j i : Nat), K.imap[j]? = some i → M[i]? = M[j]?

/-- Construction without output bands and map gives the default bands. -/
theorem default_bands {lib : Lib ℝ} {disk : Disk ℝ} {cls : Cls} {R : List Name} {T : Tpl ℝ} {lo hi : ℝ}
    {n : Nat} {ab : Bool} {dm : ℝ → ℝ} {w w' : Shared ℝ} {K : Kc ℝ}
    (h : Kc.init lib disk cls R T none none lo hi n ab dm w = (w', .ok K)) :
    ∃ A, DefaultBands K A ∧ K.responsesOut = R := by
  obtain ⟨w1, A, hcalc, hF, _⟩ := init_ok h
  obtain ⟨hR, _, hO, hlen, hmap, _⟩ := C63_defaults _ _ _ _ _ _ _ _ _ _ _ _ _ h
  have hA : K.Amatrix = some A := by rw [hF]
  refine ⟨A, ⟨hA, by rw [hO, hA], by rw [hlen, hR], ?_⟩, hR⟩
  intro q M hM j i hj
  have hjR : j < R.length := by rw [← hlen]; exact (List.getElem?_eq_some_iff.mp hj).1
  obtain ⟨i', hi', hr⟩ := hmap j R[j] (List.getElem?_eq_getElem hjR)
  rw [hj] at hi'; cases hi'
  have hiR := (List.getElem?_eq_some_iff.mp hr).1
  exact calc_sameRows hcalc hM i j hiR hjR (by rw [hr, List.getElem?_eq_getElem hjR])

/-- C64 with the default bands given explicitly. -/
theorem C64_bands (K : Kc ℝ) (A : AMat ℝ) (h : DefaultBands K A) (c : List ℝ) (hc : c.length = K.templates.nsed) (r : NDA ℝ)
    (hr : K.reconstruct (some (.scalar 0)) (some (.vec c)) 0 = .ok r) :
    ∃ k, K.kcorrect (some (.scalar 0)) (some (.vec c)) 0 = .ok k ∧ k.shape = r.shape ∧
      ∀ (j : Nat) f, j < K.responsesOut.length → entry r 0 j = some f → f ≠ 0 → entry k 0 j = some 0 := by
  obtain ⟨hA, hAo, hlen, hflux⟩ := h
  unfold Fitter.reconstruct at hr
  rw [hA, recon_real _ _ _ _ _ hc] at hr
  rw [kcorrect_real hA hAo _ _ hc]
  have e0 : (1 + (0 : ℝ)) * (1 + 0) - 1 = 0 := by norm_num
  rw [e0] at hr
  unfold kReal
  cases hM : A.at 0 with
  | error e => rw [hM] at hr; cases hr
  | ok M =>
    rw [hM] at hr
    cases hr
    refine ⟨_, rfl, rfl, ?_⟩
    intro j f hj hf hf0
    simp only [entry, List.getElem?_cons_zero, Option.bind_some] at hf ⊢
    rcases lt_or_ge 0 c.sum with hs | hs
    · have hji : j < K.imap.length := by rw [hlen]; exact hj
      rw [kRow_get _ _ _ _ hs, hf, List.getElem?_eq_getElem hji]
      have := hflux 0 M hM j K.imap[j] (List.getElem?_eq_getElem hji)
      have e : (reconRow 0 M c)[K.imap[j]]? = some f := by
        rw [reconRow_get, this, ← reconRow_get, hf]
      simp only [Option.bind_some, Option.map_some, List.getD_eq_getElem?_getD, e, Option.getD_some, div_self hf0]
      simp [mag]
    · rw [kRow_zero _ _ _ _ hs]
      have hjl : j < (reconRow 0 M c).length := (List.getElem?_eq_some_iff.mp hf).1
      simp [hjl]

/-- C64: with default output bands, at redshift 0 and without band shift, the K-correction is 0 in every band with nonzero model
flux. -/
theorem C64_rest (lib : Lib ℝ) (disk : Disk ℝ) (cls : Cls) (R : List Name) (T : Tpl ℝ) (lo hi : ℝ) (n : Nat) (ab : Bool)
    (dm : ℝ → ℝ) (w w' : Shared ℝ) (K : Kc ℝ) (h : Kc.init lib disk cls R T none none lo hi n ab dm w = (w', .ok K))
    (c : List ℝ) (hc : c.length = K.templates.nsed) (r : NDA ℝ)
    (hr : K.reconstruct (some (.scalar 0)) (some (.vec c)) 0 = .ok r) :
    ∃ k, K.kcorrect (some (.scalar 0)) (some (.vec c)) 0 = .ok k ∧ k.shape = r.shape ∧
      ∀ (j : Nat) f, j < R.length → entry r 0 j = some f → f ≠ 0 → entry k 0 j = some 0 := by
  obtain ⟨A, hD, hR⟩ := default_bands h
  have := C64_bands K A hD c hc r hr
  rwa [hR] at this

/-- C65 with the default bands given explicitly. -/
theorem C65_bands (K : Kc ℝ) (A : AMat ℝ) (h : DefaultBands K A) (z : ℝ) (hz : -1 < z) (c : List ℝ)
    (hc : c.length = K.templates.nsed) (hs : 0 < c.sum) (r : NDA ℝ)
    (hr : K.reconstruct (some (.scalar z)) (some (.vec c)) 0 = .ok r) :
    ∃ k, K.kcorrect (some (.scalar z)) (some (.vec c)) z = .ok k ∧ k.shape = r.shape ∧
      ∀ (j : Nat) f, j < K.responsesOut.length → entry r 0 j = some f → f ≠ 0 →
        entry k 0 j = some (-2.5 * Real.logb 10 (1 + z)) := by
  obtain ⟨hA, hAo, hlen, hflux⟩ := h
  unfold Fitter.reconstruct at hr
  rw [hA, recon_real _ _ _ _ _ hc] at hr
  rw [kcorrect_real hA hAo _ _ hc]
  have e0 : (1 + z) * (1 + 0) - 1 = z := by ring
  rw [e0] at hr
  unfold kReal
  cases hM : A.at z with
  | error e => rw [hM] at hr; cases hr
  | ok M =>
    rw [hM] at hr
    cases hr
    refine ⟨_, rfl, rfl, ?_⟩
    intro j f hj hf hf0
    simp only [entry, List.getElem?_cons_zero, Option.bind_some] at hf ⊢
    have hji : j < K.imap.length := by rw [hlen]; exact hj
    have := hflux z M hM j K.imap[j] (List.getElem?_eq_getElem hji)
    have e : (reconRow 0 M c)[K.imap[j]]? = some f := by
      rw [reconRow_get, this, ← reconRow_get, hf]
    have e2 : (reconRow z M c)[j]? = some (f / (1 + z)) := by
      rw [reconRow_get] at hf ⊢
      cases hm : M[j]? with
      | none => rw [hm] at hf; cases hf
      | some row =>
        rw [hm] at hf
        simp only [Option.map_some, Option.some.injEq] at hf ⊢
        rw [← hf]; simp
    rw [kRow_get _ _ _ _ hs, e2, List.getElem?_eq_getElem hji]
    simp only [Option.bind_some, Option.map_some, List.getD_eq_getElem?_getD, e, Option.getD_some]
    have h1 : (1 + z) ≠ 0 := by linarith
    have : f / (f / (1 + z)) = 1 + z := by field_simp
    rw [this]; rfl

/-- C65: with default output bands and the band shift equal to the redshift, the K-correction is `-2.5 log10 (1+z)` in every band
with nonzero model flux, whatever the coefficients. -/
theorem C65_matched (lib : Lib ℝ) (disk : Disk ℝ) (cls : Cls) (R : List Name) (T : Tpl ℝ) (lo hi : ℝ) (n : Nat) (ab : Bool)
    (dm : ℝ → ℝ) (w w' : Shared ℝ) (K : Kc ℝ) (h : Kc.init lib disk cls R T none none lo hi n ab dm w = (w', .ok K))
    (z : ℝ) (hz : -1 < z) (c : List ℝ) (hc : c.length = K.templates.nsed) (hs : 0 < c.sum) (r : NDA ℝ)
    (hr : K.reconstruct (some (.scalar z)) (some (.vec c)) 0 = .ok r) :
    ∃ k, K.kcorrect (some (.scalar z)) (some (.vec c)) z = .ok k ∧ k.shape = r.shape ∧
      ∀ (j : Nat) f, j < R.length → entry r 0 j = some f → f ≠ 0 → entry k 0 j = some (-2.5 * Real.logb 10 (1 + z)) := by
  obtain ⟨A, hD, hR⟩ := default_bands h
  have := C65_bands K A hD z hz c hc hs r hr
  rwa [hR] at this

theorem dot_scale (s : ℝ) : ∀ r c : List ℝ, dot r (c.map (s * ·)) = s * dot r c
  | [], c => by simp [dot, sumL_real]
  | _ :: _, [] => by simp [dot, sumL_real]
  | a :: r, b :: c => by
    rw [List.map_cons, dot_cons, dot_cons, dot_scale s r c]; ring

theorem reconRow_scale (bs s : ℝ) (M : List (List ℝ)) (c : List ℝ) :
    reconRow bs M (c.map (s * ·)) = (reconRow bs M c).map (s * ·) := by
  unfold reconRow
  rw [List.map_map]
  apply List.map_congr_left
  intro row _
  simp only [Function.comp, dot_scale]
  rw [mul_div_assoc]

theorem sum_scale (s : ℝ) (c : List ℝ) : (c.map (s * ·)).sum = s * c.sum := by
  have := List.sum_map_mul_left c id s
  simpa using this

theorem kRow_scale (imap : List Nat) (s : ℝ) (hs : 0 < s) (c a b : List ℝ) :
    kRow imap id (c.map (s * ·)) (a.map (s * ·)) (b.map (s * ·)) = kRow imap id c a b := by
  rcases lt_or_ge 0 c.sum with h | h
  · have h' : 0 < (c.map (s * ·)).sum := by rw [sum_scale]; exact mul_pos hs h
    apply List.ext_getElem?
    intro j
    rw [kRow_get _ _ _ _ h, kRow_get _ _ _ _ h', List.getElem?_map]
    cases imap[j]? with
    | none => rfl
    | some i =>
      cases b[j]? with
      | none => rfl
      | some y =>
        simp only [Option.bind_some, Option.map_some, List.getD_eq_getElem?_getD, List.getElem?_map]
        congr 2
        cases a[i]? with
        | none => simp
        | some x =>
          simp only [Option.map_some, Option.getD_some]
          exact mul_div_mul_left _ _ (ne_of_gt hs)
  · have h' : (c.map (s * ·)).sum ≤ 0 := by rw [sum_scale]; exact mul_nonpos_of_nonneg_of_nonpos hs.le h
    rw [kRow_zero _ _ _ _ h, kRow_zero _ _ _ _ h']; simp

/-- C66: scaling the coefficients by a positive constant changes nothing, not even whether the call raises. -/
theorem C66_brightness (K : Kc ℝ) (A Ao : AMat ℝ) (hA : K.Amatrix = some A) (hAo : K.AmatrixOut = some Ao) (z bs s : ℝ) (hs : 0 < s)
    (c : List ℝ) (hc : c.length = K.templates.nsed) :
    K.kcorrect (some (.scalar z)) (some (.vec (c.map (s * ·)))) bs = K.kcorrect (some (.scalar z)) (some (.vec c)) bs := by
  rw [kcorrect_real hA hAo _ _ hc, kcorrect_real hA hAo _ _ (by simpa using hc)]
  congr 1
  unfold kReal
  simp only [reconRow_scale, kRow_scale _ _ hs]

/-- C67: for each output band, model magnitude in the mapped input band at redshift `z` minus model magnitude in the output band at
rest; 0 when the coefficients sum to zero or less.  The call returns exactly if both reconstructions do. -/
theorem C67_model_magnitudes (K : Kc ℝ) (A Ao : AMat ℝ) (hA : K.Amatrix = some A) (hAo : K.AmatrixOut = some Ao) (z bs : ℝ)
    (c : List ℝ) (hc : c.length = K.templates.nsed) :
    ((∃ k, K.kcorrect (some (.scalar z)) (some (.vec c)) bs = .ok k) ↔
      (∃ a, K.reconstruct (some (.scalar z)) (some (.vec c)) 0 = .ok a) ∧
      ∃ b, K.reconstructOut (some (.scalar 0)) (some (.vec c)) bs = .ok b) ∧
    ∀ k a b, K.kcorrect (some (.scalar z)) (some (.vec c)) bs = .ok k →
      K.reconstruct (some (.scalar z)) (some (.vec c)) 0 = .ok a →
      K.reconstructOut (some (.scalar 0)) (some (.vec c)) bs = .ok b →
      k.shape = b.shape ∧
      (c.sum ≤ 0 → ∀ (j : Nat) v, entry b 0 j = some v → entry k 0 j = some 0) ∧
      (0 < c.sum → ∀ (j i : Nat) fa fb, K.imap[j]? = some i → entry a 0 i = some fa → entry b 0 j = some fb → 0 < fa → 0 < fb →
        entry k 0 j = some (mag fa - mag fb)) := by
  have e1 : (1 + z) * (1 + 0) - 1 = z := by ring
  have e2 : (1 + 0) * (1 + bs) - 1 = bs := by ring
  unfold Fitter.reconstruct Kc.reconstructOut
  rw [hA, hAo, recon_real _ _ _ _ _ hc, recon_real _ _ _ _ _ hc, kcorrect_real hA hAo _ _ hc, e1, e2]
  unfold kReal
  cases hM : A.at z with
  | error e =>
    refine ⟨⟨fun ⟨k, hk⟩ => (by cases hk), fun ⟨⟨k, hk⟩, _⟩ => (by cases hk)⟩, ?_⟩
    intro k a b hk; cases hk
  | ok M =>
    cases hMo : Ao.at bs with
    | error e =>
      refine ⟨⟨fun ⟨k, hk⟩ => (by cases hk), fun ⟨_, ⟨k, hk⟩⟩ => (by cases hk)⟩, ?_⟩
      intro k a b hk; cases hk
    | ok Mo =>
      refine ⟨⟨fun _ => ⟨⟨_, rfl⟩, ⟨_, rfl⟩⟩, fun _ => ⟨_, rfl⟩⟩, ?_⟩
      intro k a b hk ha hb
      cases hk; cases ha; cases hb
      refine ⟨rfl, ?_, ?_⟩
      · intro hs j v hv
        simp only [entry, List.getElem?_cons_zero, Option.bind_some] at hv ⊢
        rw [kRow_zero _ _ _ _ hs]
        have hjl : j < (reconRow bs Mo c).length := (List.getElem?_eq_some_iff.mp hv).1
        simp [hjl]
      · intro hs j i fa fb hi hfa hfb h1 h2
        simp only [entry, List.getElem?_cons_zero, Option.bind_some] at hfa hfb ⊢
        rw [kRow_get _ _ _ _ hs, hi, hfb]
        simp only [Option.bind_some, Option.map_some, List.getD_eq_getElem?_getD, hfa, Option.getD_some]
        simp only [mag]
        rw [Real.logb_div h1.ne' h2.ne']
        congr 1; ring

/-! ### C68: batches, in any arithmetic -/

section generic
variable {α : Type} [Arith α]

theorem zeros_map (h0 : f32 (lit 0 : α) = lit 0) (n : Nat) : (zeros n : List α).map f32 = zeros n := by
  simp [zeros, h0]

theorem kRow_round (h0 : f32 (lit 0 : α) = lit 0) (imap : List Nat) (c a b : List α) :
    kRow imap f32 c a b = (kRow imap id c a b).map f32 := by
  unfold kRow
  split
  · rw [List.map_zipWith]; rfl
  · exact (zeros_map h0 _).symm

theorem kOne_round (h0 : f32 (lit 0 : α) = lit 0) (imap : List Nat) (A Ao : AMat α) (bs z : α) (c : List α) :
    kOne imap A Ao f32 bs z c = (kOne imap A Ao id bs z c).map (List.map f32) := by
  unfold kOne
  cases A.at (shiftOf (f32 z) (lit 0)) with
  | error e => rfl
  | ok M =>
    cases Ao.at (shiftOf (f32 (lit 0 * z)) bs) with
    | error e => rfl
    | ok Mo => simp only [ok_bind, pure_py, Except.map, kRow_round h0]

/-- C68: the call on a batch returns exactly when the call on every object does, and row `i` is the result for object `i` alone
rounded to single precision. -/
theorem C68_batch (h0 : f32 (lit 0 : α) = lit 0) (K : Kc α) (A Ao : AMat α) (hA : K.Amatrix = some A) (hAo : K.AmatrixOut = some Ao)
    (zs : List α) (cs : List (List α)) (bs : α) (hcs : cs.length = zs.length) (hc : ∀ c ∈ cs, c.length = K.templates.nsed) :
    ((∃ out, K.kcorrect (some (.vec zs)) (some (.arr [zs.length] K.templates.nsed cs)) bs = .ok out) ↔
      ∀ (i : Nat) z c, zs[i]? = some z → cs[i]? = some c → ∃ r, K.kcorrect (some (.scalar z)) (some (.vec c)) bs = .ok r) ∧
    ∀ out, K.kcorrect (some (.vec zs)) (some (.arr [zs.length] K.templates.nsed cs)) bs = .ok out →
      out.shape = [zs.length, Ao.nrow] ∧
      ∀ (i : Nat) z c, zs[i]? = some z → cs[i]? = some c → ∃ r, K.kcorrect (some (.scalar z)) (some (.vec c)) bs = .ok r ∧
        rowOf out i = some (r.map f32) := by
  have hone : ∀ (i : Nat) z c, zs[i]? = some z → cs[i]? = some c → K.kcorrect (some (.scalar z)) (some (.vec c)) bs =
      (kOne K.imap A Ao id bs (f32 z) (c.map f32)).map (fun r => .arr [] Ao.nrow [r]) :=
    fun i z c _ hci => kcorrect_scalar hA hAo z c (hc c (List.mem_of_getElem? hci)) bs
  obtain ⟨hok, _⟩ := kcorrect_array hA hAo zs cs hcs bs
  have hrow : ∀ out, K.kcorrect (some (.vec zs)) (some (.arr [zs.length] K.templates.nsed cs)) bs = .ok out →
      out.shape = [zs.length, Ao.nrow] ∧
      ∀ (i : Nat) z c, zs[i]? = some z → cs[i]? = some c → ∃ r, K.kcorrect (some (.scalar z)) (some (.vec c)) bs = .ok r ∧
        rowOf out i = some (r.map f32) := by
    intro out hout
    obtain ⟨rows, hf, rfl⟩ := (hok out).mp hout
    refine ⟨rfl, ?_⟩
    intro i z c hz hci
    obtain ⟨hi, hz'⟩ := List.getElem?_eq_some_iff.mp hz
    obtain ⟨hi2, hc'⟩ := List.getElem?_eq_some_iff.mp hci
    have hi3 : i < (List.zip zs cs).length := by simp; omega
    have hi4 : i < rows.length := by rw [← hf.length_eq]; exact hi3
    have := (List.forall₂_iff_get.mp hf).2 i hi3 hi4
    simp only [List.get_eq_getElem, List.getElem_zip, hz', hc'] at this
    rw [kOne_round h0] at this
    cases hk : kOne K.imap A Ao id bs (f32 z) (c.map f32) with
    | error e => rw [hk] at this; cases this
    | ok r =>
      rw [hk] at this
      simp only [Except.map, Except.ok.injEq] at this
      refine ⟨.arr [] Ao.nrow [r], by rw [hone i z c hz hci, hk]; rfl, ?_⟩
      simp [rowOf, NDA.map, List.getElem?_eq_getElem hi4, this]
  refine ⟨⟨?_, ?_⟩, hrow⟩
  · rintro ⟨out, hout⟩ i z c hz hci
    obtain ⟨r, h, _⟩ := (hrow out hout).2 i z c hz hci
    exact ⟨r, h⟩
  · intro hall
    have : ∃ rows, (List.zip zs cs).mapM (fun p => kOne K.imap A Ao f32 bs (f32 p.1) (p.2.map f32)) = .ok rows := by
      apply mapM_exists
      rintro ⟨z, c⟩ hp
      obtain ⟨i, hi, he⟩ := List.mem_iff_getElem.mp hp
      rw [List.getElem_zip] at he
      simp only [Prod.mk.injEq] at he
      have hi' : i < zs.length ∧ i < cs.length := by simp at hi; exact hi
      have hz : zs[i]? = some z := by rw [List.getElem?_eq_getElem hi'.1, he.1]
      have hci : cs[i]? = some c := by rw [List.getElem?_eq_getElem hi'.2, he.2]
      obtain ⟨r, hr⟩ := hall i z c hz hci
      rw [hone i z c hz hci] at hr
      rw [kOne_round h0]
      cases hk : kOne K.imap A Ao id bs (f32 z) (c.map f32) with
      | error e => rw [hk] at hr; cases hr
      | ok r => exact ⟨_, rfl⟩
    obtain ⟨rows, hrows⟩ := this
    exact ⟨_, (hok _).mpr ⟨rows, mapM_ok_iff.mp hrows, rfl⟩⟩

end generic

/-! ### C69 and C46: coverage -/

theorem kcorrect_none {α : Type} [Arith α] (K : Kc α) (z : NDA α) (bs : α) (out : NDA α) :
    K.kcorrect (some z) none bs ≠ .ok out := by
  intro h
  unfold Kc.kcorrect at h
  cases hp : processInputs K.toFitter (some z) none none none with
  | error e => rw [hp] at h; cases h
  | ok i =>
    rw [hp, ok_bind] at h
    have hi : i.coeffs = none := by
      unfold processInputs at hp
      simp only [checkTable, ok_bind, Option.map_none] at hp
      split at hp
      · cases hp
      · cases hab : K.abcorrect <;> rw [hab] at hp <;> cases hp <;> rfl
      · cases hab : K.abcorrect <;> rw [hab] at hp <;> cases hp <;> rfl
      · cases hp
    unfold Kc.kcorrectI at h
    rw [hi] at h
    simp only [Option.map_none] at h
    cases ha : K.reconstruct (some i.zArr) none (lit 0) with
    | error e => rw [ha] at h; cases h
    | ok a =>
      rw [ha, ok_bind] at h
      cases hb : K.reconstructOut (some (i.zArr.map (fun z => lit 0 * z))) none bs with
      | error e => rw [hb] at h; cases h
      | ok b => rw [hb, ok_bind] at h; cases h

/-- Arguments of documented shape are a redshift with a vector, or redshifts with a table. -/
theorem args_cases {α : Type} [Arith α] {nb nt : Nat} {redshift coeffs : Option (NDA α)} (hz : ∀ a ∈ redshift, a.WF) (hc : ∀ a ∈ coeffs, a.WF)
    (h : ShapesMatch nb nt redshift none none coeffs) : ∃ z, redshift = some z ∧
    (coeffs = none ∨ (∃ x c, z = .scalar x ∧ coeffs = some (.vec c) ∧ c.length = nt) ∨
      ∃ zs cs, z = .vec zs ∧ coeffs = some (.arr [zs.length] nt cs) ∧ cs.length = zs.length ∧ ∀ c ∈ cs, c.length = nt) := by
  obtain ⟨z, rfl, h⟩ := h
  refine ⟨z, rfl, ?_⟩
  cases coeffs with
  | none => exact Or.inl rfl
  | some a =>
    right
    rcases h with ⟨hs, _, _, h3⟩ | ⟨n, hs, _, _, h3⟩
    · left
      obtain ⟨x, rfl⟩ := scalar_of_shape hs
      obtain ⟨c, rfl, hl⟩ := vec_of_shape (hc a (by simp)) (h3 a (by simp))
      exact ⟨x, c, rfl, rfl, hl⟩
    · right
      obtain ⟨zs, rfl, rfl⟩ := vec_of_shape (hz z (by simp)) hs
      obtain ⟨cs, rfl, h1, h2⟩ := mat_of_shape (hc a (by simp)) (h3 a (by simp))
      exact ⟨zs, cs, rfl, rfl, h1, h2⟩

theorem kcorrect_fail {α : Type} [Arith α] {K : Kc α} {A Ao : AMat α} (hA : K.Amatrix = some A) (hAo : K.AmatrixOut = some Ao) (bs : α)
    (redshift coeffs : Option (NDA α)) (hz : ∀ a ∈ redshift, a.WF) (hc : ∀ a ∈ coeffs, a.WF)
    (hbad : ∀ z : α, (redshift = some (.scalar z) ∨ ∃ zs, redshift = some (.vec zs) ∧ z ∈ zs) →
      ∀ c, ∃ e, kOne K.imap A Ao f32 bs (f32 z) c = .error e)
    (hn : redshift ≠ some (.vec [])) : ∀ out, K.kcorrect redshift coeffs bs ≠ .ok out := by
  intro out h
  by_cases hm : ShapesMatch K.responses.length K.templates.nsed redshift none none coeffs
  · obtain ⟨z, rfl, h'⟩ := args_cases hz hc hm
    rcases h' with rfl | ⟨x, c, rfl, rfl, hl⟩ | ⟨zs, cs, rfl, rfl, h1, h2⟩
    · exact kcorrect_none K z bs out h
    · rw [kcorrect_scalar hA hAo x c hl] at h
      obtain ⟨e, he⟩ := hbad x (Or.inl rfl) (c.map f32)
      unfold kOne at he h
      cases h1 : A.at (shiftOf (f32 (f32 x)) (lit 0)) with
      | error e => rw [h1] at h; cases h
      | ok M =>
        rw [h1] at h he
        cases h2 : Ao.at (shiftOf (f32 (lit 0 * f32 x)) bs) with
        | error e => rw [h2] at h; cases h
        | ok M => rw [h2] at he; cases he
    · obtain ⟨rows, hf, _⟩ := ((kcorrect_array hA hAo zs cs h1 bs).1 out).mp h
      cases zs with
      | nil => exact hn rfl
      | cons z zs =>
        cases cs with
        | nil => simp at h1
        | cons c cs =>
          cases rows with
          | nil => cases hf
          | cons r rows =>
            rw [List.zip_cons_cons, List.forall₂_cons] at hf
            obtain ⟨e, he⟩ := hbad z (Or.inr ⟨_, rfl, by simp⟩) (c.map f32)
            rw [hf.1] at he; cases he
  · unfold Kc.kcorrect at h
    rcases C53_mismatch_refused K.toFitter redshift none none coeffs hz hm with h' | h' <;> rw [h'] at h <;> cases h

/-- C69: if the band shift is off the redshift grid, `kcorrect` raises for every input (other than an empty list of redshifts). -/
theorem C69_no_result (K : Kc ℝ) (A Ao : AMat ℝ) (hA : K.Amatrix = some A) (hAo : K.AmatrixOut = some Ao) (hne : Ao.x ≠ []) (bs : ℝ)
    (hbs : bs < Ao.x.headD 0 ∨ Ao.x.getLastD 0 < bs) (redshift coeffs : Option (NDA ℝ)) (hz : ∀ a ∈ redshift, a.WF)
    (hc : ∀ a ∈ coeffs, a.WF) (hn : redshift ≠ some (.vec [])) : ∀ out, K.kcorrect redshift coeffs bs ≠ .ok out := by
  apply kcorrect_fail hA hAo bs redshift coeffs hz hc _ hn
  intro z _ c
  show ∃ e, kOne K.imap A Ao id bs z c = .error e
  rw [kOne_real]
  have : Ao.at bs = .error .valueError := at_out hne (by rintro ⟨h1, h2⟩; rcases hbs with h | h <;> linarith)
  unfold kReal
  rw [this]
  cases A.at z with
  | error e => exact ⟨e, rfl⟩
  | ok M => exact ⟨_, rfl⟩

/-- C69: with arguments of documented shape the exception is `ValueError`. -/
theorem C69_value_error (K : Kc ℝ) (A Ao : AMat ℝ) (hA : K.Amatrix = some A) (hAo : K.AmatrixOut = some Ao) (hne : A.x ≠ []) (hne' : Ao.x ≠ [])
    (bs : ℝ) (hbs : bs < Ao.x.headD 0 ∨ Ao.x.getLastD 0 < bs) :
    (∀ z c, c.length = K.templates.nsed → K.kcorrect (some (.scalar z)) (some (.vec c)) bs = .error .valueError) ∧
    (∀ zs cs, zs ≠ [] → cs.length = zs.length →
      K.kcorrect (some (.vec zs)) (some (.arr [zs.length] K.templates.nsed cs)) bs = .error .valueError) := by
  have hb : Ao.at bs = .error .valueError := at_out hne' (by rintro ⟨h1, h2⟩; rcases hbs with h | h <;> linarith)
  have hk : ∀ z c, kReal K.imap A Ao bs z c = .error .valueError := by
    intro z c
    unfold kReal
    rw [hb]
    cases h : A.at z with
    | error e => rw [at_error hne h]; rfl
    | ok M => rfl
  constructor
  · intro z c hc
    rw [kcorrect_real hA hAo _ _ hc, hk]; rfl
  · intro zs cs hzs hcs
    obtain ⟨h1, h2⟩ := kcorrect_array hA hAo zs cs hcs bs
    cases h : K.kcorrect (some (.vec zs)) (some (.arr [zs.length] K.templates.nsed cs)) bs with
    | error e =>
      rcases h2 e h with h | h | h
      · rw [h]
      · exact absurd h hne
      · exact absurd h hne'
    | ok out =>
      exfalso
      obtain ⟨rows, hf, _⟩ := (h1 out).mp h
      cases zs with
      | nil => exact hzs rfl
      | cons z zs =>
        cases cs with
        | nil => simp at hcs
        | cons c cs =>
          cases rows with
          | nil => cases hf
          | cons r rows =>
            rw [List.zip_cons_cons, List.forall₂_cons] at hf
            have : kOne K.imap A Ao id bs z (c.map f32) = .ok r := hf.1
            rw [kOne_real, hk] at this; cases this

/-- The nodes of a matrix built on a redshift grid are the grid. -/
theorem calc_grid {lib : Lib ℝ} {disk : Disk ℝ} {lo hi : ℝ} {n : Nat} (h : lo < hi) (hn : 2 ≤ n) {R : List Name} {w w' : Shared ℝ}
    {A : AMat ℝ} (hA : calcAmatrix lib disk (redshiftGrid lo hi n) R w = (w', .ok A)) :
    A.x = redshiftGrid lo hi n ∧ A.x ≠ [] ∧ A.x.headD 0 = lo ∧ A.x.getLastD 0 = hi := by
  obtain ⟨_, _, ms, hmk, _⟩ := calcAmatrix_ok hA
  obtain ⟨hl, h0, h1, hp, _⟩ := C43_grid lo hi n h hn
  have hx : A.x = redshiftGrid lo hi n := by
    unfold mkAMat at hmk
    split at hmk
    · cases hmk
      simp only
      rw [argsort_of_sorted _ (hp.imp le_of_lt), gather_range _ _ rfl]
    · cases hmk
  have hne : redshiftGrid lo hi n ≠ [] := by intro e; rw [e] at hl; simp at hl; omega
  refine ⟨hx, by rw [hx]; exact hne, ?_, ?_⟩
  · rw [hx, headD_eq_ent]
    exact ent_eq h0
  · rw [hx, getLastD_eq_ent _ hne, hl]
    exact ent_eq h1

/-- C69 for constructed objects: with a redshift range that does not contain the band shift, in particular one that does not contain
0 and the default band shift, `kcorrect` raises `ValueError`, with any output bands. -/
theorem C69_range (lib : Lib ℝ) (disk : Disk ℝ) (cls : Cls) (R : List Name) (T : Tpl ℝ) (out rmap : Option (List Name)) (lo hi : ℝ) (n : Nat)
    (ab : Bool) (dm : ℝ → ℝ) (w w' : Shared ℝ) (K : Kc ℝ) (h : Kc.init lib disk cls R T out rmap lo hi n ab dm w = (w', .ok K))
    (hlo : lo < hi) (hn : 2 ≤ n) (bs : ℝ) (hbs : bs < lo ∨ hi < bs) :
    (∀ z c, c.length = T.nsed → K.kcorrect (some (.scalar z)) (some (.vec c)) bs = .error .valueError) ∧
    (∀ zs cs, zs ≠ [] → cs.length = zs.length →
      K.kcorrect (some (.vec zs)) (some (.arr [zs.length] T.nsed cs)) bs = .error .valueError) := by
  obtain ⟨w1, A, hcalc, hF, _, _, _, _, _, hO⟩ := init_ok h
  have hA : K.Amatrix = some A := by rw [hF]
  have hT : K.templates = T := by rw [hF]; rfl
  obtain ⟨_, hne, hh, hg⟩ := calc_grid hlo hn hcalc
  rcases hO with ⟨_, hAo, _⟩ | ⟨_, Ao, hco, hAo⟩
  · have := C69_value_error K A A hA hAo hne hne bs (by rw [hh, hg]; exact hbs)
    rw [hT] at this; exact this
  · obtain ⟨_, hne', hh', hg'⟩ := calc_grid hlo hn hco
    have := C69_value_error K A Ao hA hAo hne hne' bs (by rw [hh', hg']; exact hbs)
    rw [hT] at this; exact this

/-- C46 for `kcorrect`: a redshift off the grid anywhere in the batch and the call raises `ValueError`. -/
theorem C46_kcorrect (K : Kc ℝ) (A Ao : AMat ℝ) (hA : K.Amatrix = some A) (hAo : K.AmatrixOut = some Ao) (hne : A.x ≠ []) (hne' : Ao.x ≠ [])
    (bs z : ℝ) (hz : z < A.x.headD 0 ∨ A.x.getLastD 0 < z) :
    (∀ c, c.length = K.templates.nsed → K.kcorrect (some (.scalar z)) (some (.vec c)) bs = .error .valueError) ∧
    (∀ zs cs, z ∈ zs → cs.length = zs.length →
      K.kcorrect (some (.vec zs)) (some (.arr [zs.length] K.templates.nsed cs)) bs = .error .valueError) := by
  have hb : A.at z = .error .valueError := at_out hne (by rintro ⟨h1, h2⟩; rcases hz with h | h <;> linarith)
  have hk : ∀ c, kReal K.imap A Ao bs z c = .error .valueError := by
    intro c
    unfold kReal
    rw [hb]; rfl
  constructor
  · intro c hc
    rw [kcorrect_real hA hAo _ _ hc, hk]; rfl
  · intro zs cs hzs hcs
    obtain ⟨h1, h2⟩ := kcorrect_array hA hAo zs cs hcs bs
    cases h : K.kcorrect (some (.vec zs)) (some (.arr [zs.length] K.templates.nsed cs)) bs with
    | error e =>
      rcases h2 e h with h | h | h
      · rw [h]
      · exact absurd h hne
      · exact absurd h hne'
    | ok out =>
      exfalso
      obtain ⟨rows, hf, _⟩ := (h1 out).mp h
      obtain ⟨i, hi, rfl⟩ := List.mem_iff_getElem.mp hzs
      have hi3 : i < (List.zip zs cs).length := by simp; omega
      have hi4 : i < rows.length := by rw [← hf.length_eq]; exact hi3
      have := (List.forall₂_iff_get.mp hf).2 i hi3 hi4
      simp only [List.get_eq_getElem, List.getElem_zip] at this
      have e : kOne K.imap A Ao id bs zs[i] (cs[i].map f32) = .ok rows[i] := this
      rw [kOne_real, hk] at e; cases e

/-! ### A concrete object -/

/-- One band and two templates: `demoFitter` with the default output band. -/
noncomputable def demoKc : Kc ℝ := ⟨demoFitter, [['x']], [['x']], some demoAm, [0], fun z => z⟩

theorem demoKc_default : DefaultBands demoKc demoAm := by
  refine ⟨rfl, rfl, rfl, ?_⟩
  intro q M _ j i hj
  match j, hj with
  | 0, hj => cases hj; rfl

theorem demoAm_at {q : ℝ} (k : Nat) (hk : k < 3) (hq : ent demoAm.x k = q) : demoAm.at q = .ok (demoAm.ys.getD k []) := by
  rw [← hq]; exact at_node demoAm_good hk

theorem demoAm_at0 : demoAm.at 0 = .ok [[1, 2]] := demoAm_at 0 (by norm_num) rfl
theorem demoAm_at1 : demoAm.at 1 = .ok [[2, 0]] := demoAm_at 1 (by norm_num) rfl
theorem demoAm_at3 : demoAm.at 3 = .ok [[0, 4]] := demoAm_at 2 (by norm_num) rfl

/-- Fluxes of the demonstration object with coefficients (1, 1): 3, 2 and 4 at redshifts 0, 1 and 3. -/
theorem demo_flux : demoKc.reconstruct (some (.scalar 0)) (some (.vec [1, 1])) 0 = .ok (.arr [] 1 [[3]]) ∧
    demoKc.reconstruct (some (.scalar 1)) (some (.vec [1, 1])) 0 = .ok (.arr [] 1 [[2]]) ∧
    demoKc.reconstructOut (some (.scalar 0)) (some (.vec [1, 1])) 0 = .ok (.arr [] 1 [[3]]) ∧
    demoKc.reconstructOut (some (.scalar 0)) (some (.vec [1, 1])) 1 = .ok (.arr [] 1 [[1]]) := by
  have e : ∀ z bs : ℝ, reconstructWith demoKc.toFitter (some demoAm) (some (.scalar z)) (some (.vec [1, 1])) bs =
      (demoAm.at ((1 + z) * (1 + bs) - 1)).map (fun M => .arr [] demoAm.nrow [reconRow bs M [1, 1]]) :=
    fun z bs => recon_real demoKc.toFitter demoAm z [1, 1] bs rfl
  refine ⟨(e 0 0).trans ?_, (e 1 0).trans ?_, (e 0 0).trans ?_, (e 0 1).trans ?_⟩
  · rw [show ((1 : ℝ) + 0) * (1 + 0) - 1 = 0 by norm_num, demoAm_at0]
    simp [Except.map, reconRow, demoAm, dot, sumL_real]; norm_num
  · rw [show ((1 : ℝ) + 1) * (1 + 0) - 1 = 1 by norm_num, demoAm_at1]
    simp [Except.map, reconRow, demoAm, dot, sumL_real]
  · rw [show ((1 : ℝ) + 0) * (1 + 0) - 1 = 0 by norm_num, demoAm_at0]
    simp [Except.map, reconRow, demoAm, dot, sumL_real]; norm_num
  · rw [show ((1 : ℝ) + 0) * (1 + 1) - 1 = 1 by norm_num, demoAm_at1]
    simp [Except.map, reconRow, demoAm, dot, sumL_real]; norm_num

/-- Not vacuous (C64–C67): the demonstration object at rest, at redshift 1 with band shift 1, and at redshift 1 without. -/
example : (∃ k, demoKc.kcorrect (some (.scalar 0)) (some (.vec [1, 1])) 0 = .ok k ∧ entry k 0 0 = some 0) ∧
    (∃ k, demoKc.kcorrect (some (.scalar 1)) (some (.vec [1, 1])) 1 = .ok k ∧ entry k 0 0 = some (-2.5 * Real.logb 10 (1 + 1))) ∧
    ∃ k, demoKc.kcorrect (some (.scalar 1)) (some (.vec [1, 1])) 0 = .ok k ∧ entry k 0 0 = some (mag 2 - mag 3) := by
  obtain ⟨h1, h2, h3, _⟩ := demo_flux
  refine ⟨?_, ?_, ?_⟩
  · obtain ⟨k, hk, _, h⟩ := C64_bands demoKc demoAm demoKc_default [1, 1] rfl _ h1
    exact ⟨k, hk, h 0 3 (by decide) rfl (by norm_num)⟩
  · obtain ⟨k, hk, _, h⟩ := C65_bands demoKc demoAm demoKc_default 1 (by norm_num) [1, 1] rfl (by norm_num) _ h2
    exact ⟨k, hk, h 0 2 (by decide) rfl (by norm_num)⟩
  · obtain ⟨hex, h⟩ := C67_model_magnitudes demoKc demoAm demoAm rfl rfl 1 0 [1, 1] rfl
    obtain ⟨k, hk⟩ := hex.mpr ⟨⟨_, h2⟩, ⟨_, h3⟩⟩
    exact ⟨k, hk, (h k _ _ hk h2 h3).2.2 (by norm_num) 0 0 2 3 rfl rfl rfl (by norm_num) (by norm_num)⟩

/-- Not vacuous (C46, C69): band shift -1/2 and redshift 4 are off the grid of the demonstration object. -/
example : demoKc.Amatrix = some demoAm ∧ demoKc.AmatrixOut = some demoAm ∧ demoAm.x ≠ [] ∧ ((-1 / 2 : ℝ) < demoAm.x.headD 0) ∧
    demoAm.x.getLastD 0 < (4 : ℝ) := ⟨rfl, rfl, demoAm_good.ne, by norm_num [demoAm], by norm_num [demoAm]⟩

/-- Not vacuous (C68): a batch of two objects. -/
example : (f32 (lit 0 : ℝ) = lit 0) ∧ ∃ out, demoKc.kcorrect (some (.vec [0, 1])) (some (.arr [2] 2 [[1, 1], [1, 1]])) 0 = .ok out := by
  refine ⟨rfl, ((C68_batch rfl demoKc demoAm demoAm rfl rfl [0, 1] [[1, 1], [1, 1]] 0 rfl ?_).1).mpr ?_⟩
  · intro c hc; simp at hc; subst hc; rfl
  · obtain ⟨h1, h2, h3, _⟩ := demo_flux
    intro i z c hz hc
    match i, hz, hc with
    | 0, hz, hc =>
      cases hz; cases hc
      exact (C67_model_magnitudes demoKc demoAm demoAm rfl rfl 0 0 [1, 1] rfl).1.mpr ⟨⟨_, h1⟩, ⟨_, h3⟩⟩
    | 1, hz, hc =>
      cases hz; cases hc
      exact (C67_model_magnitudes demoKc demoAm demoAm rfl rfl 1 0 [1, 1] rfl).1.mpr ⟨⟨_, h2⟩, ⟨_, h3⟩⟩

end KC
