import Verif.Props.ErrorLimit
import Verif.Props.AbClasses
import Verif.Props.LawsonHanson
import Verif.Props.SolverChoice

/-!
# The limit of the documented errors, from the photometry (C219)
-/

namespace KC
open Spec MeasureTheory ProbabilityTheory Filter Topology

theorem rows_range {β : Type} (d : β) (l : List β) (n : Nat) (h : l.length = n) : l = (List.range n).map (fun i => l.getD i d) := by
  subst h
  apply List.ext_getElem
  · simp
  · intro i h1 h2
    simp [h1]

/-- blocks of equal size form a cube -/
theorem blocks_cube (n w mc : Nat) (bs : List (List (List ℝ))) (hb : bs.length = n) (hw : ∀ b ∈ bs, b.length = w) (hr : ∀ b ∈ bs, ∀ r ∈ b, r.length = mc) :
    NDA.arr [n, w] mc bs.flatten = cubeOf n w mc (fun g j k => ((bs.getD g []).getD j []).getD k 0) := by
  unfold cubeOf
  rw [List.flatMap_def]
  congr 2
  conv_lhs => rw [rows_range [] bs n hb]
  apply List.map_congr_left
  intro g hg
  have hg' : g < bs.length := by rw [hb]; exact List.mem_range.mp hg
  have hmem : bs.getD g [] ∈ bs := by rw [getD_lt hg']; exact List.getElem_mem _
  conv_lhs => rw [rows_range [] _ w (hw _ hmem)]
  apply List.map_congr_left
  intro j hj
  have hj' : j < (bs.getD g []).length := by rw [hw _ hmem]; exact List.mem_range.mp hj
  have hrm : (bs.getD g []).getD j [] ∈ bs.getD g [] := by rw [getD_lt hj']; exact List.getElem_mem _
  exact rows_range 0 _ mc (hr _ hmem _ hrm)

theorem cube_entry (n w mc : Nat) (f : Nat → Nat → Nat → ℝ) (g j k : Nat) (hg : g < n) (hj : j < w) (hk : k < mc) :
    entry (cubeOf n w mc f) (g * w + j) k = some (f g j k) := by
  have h := flatten_row w ((List.range n).map (fun g => (List.range w).map (fun j => (List.range mc).map (f g j)))) g j (by simp) hj
  simp only [entry, cubeOf, List.flatMap_def]
  rw [h]
  simp [hg, hj, hk]

/-- the Monte Carlo arrays of a batch are cubes: galaxies, templates or bands, samples; the coefficients of a sample are those of a fit to its maggies -/
theorem fit_cubes (nnls : Nnls ℝ) (hlen : NnlsLen nnls) (F : Fitter ℝ) (hr : AbReady F.abCls F.responses.length) (hnb : F.responses.length ≠ 1) (Am : AMat ℝ)
    (hA : F.Amatrix = some Am) (zs : List ℝ) (ms ivs : List (List ℝ)) (hn : zs.length ≠ 1) (hm : ms.length = zs.length) (hiv : ivs.length = zs.length)
    (hmr : ∀ r ∈ ms, r.length = F.responses.length) (hivr : ∀ r ∈ ivs, r.length = F.responses.length) (hpos : ∀ r ∈ ivs, ∀ v ∈ r, 0 ≤ v) (mc : Nat) (hmc : 0 < mc)
    (noise : Nat → Nat → Nat → ℝ) (out : FitOut ℝ)
    (h : F.fitCoeffs nnls (some (.vec zs)) (some (.arr [zs.length] F.responses.length ms)) (some (.arr [zs.length] F.responses.length ivs)) mc noise = .ok out) :
    ∃ c m, out.mc = some (cubeOf zs.length F.templates.nsed mc c, cubeOf zs.length F.responses.length mc m) ∧
      ∀ (g k : Nat) z iv, zs[g]? = some z → ivs[g]? = some iv → k < mc →
        F.plain.fitCoeffs nnls (some (.scalar z)) (some (.vec ((List.range F.responses.length).map (fun j => m g j k)))) (some (.vec (abIv F.abCls iv))) 0
          (fun _ => noise g) = .ok ⟨.vec ((List.range F.templates.nsed).map (fun t => c g t k)), none⟩ := by
  rw [fit_batch_eff nnls F hr zs ms ivs hm hiv hmr hivr] at h
  have hm' : (ms.map (abM F.abCls)).length = zs.length := by simpa using hm
  have hiv' : (ivs.map (abIv F.abCls)).length = zs.length := by simpa using hiv
  have hmr' := map_rows (abM_length F.abCls) hmr
  have hivr' := map_rows (abIv_length F.abCls) hivr
  have hpos' := map_nonneg (cls := F.abCls) hpos
  generalize ms.map (abM F.abCls) = ms at h hm' hmr'
  have hget : ∀ (g : Nat) iv, ivs[g]? = some iv → (ivs.map (abIv F.abCls))[g]? = some (abIv F.abCls iv) := by
    intro g iv h
    rw [List.getElem?_map, h]; rfl
  generalize ivs.map (abIv F.abCls) = ivs at h hiv' hivr' hpos' hget
  obtain ⟨cs, hcl, hcs, _, hmcv⟩ := (C52_batch_partial nnls hlen F.plain (Or.inl rfl) hnb zs ms ivs hn hm' hiv' hmr' hivr' mc noise).2 out h
  rw [if_neg (by omega)] at hmcv
  have each : ∀ i (hi : i < cs.length), cs[i].2.1.length = F.templates.nsed ∧ cs[i].2.2.length = F.responses.length ∧ (∀ l ∈ cs[i].2.1, l.length = mc) ∧
      (∀ l ∈ cs[i].2.2, l.length = mc) ∧ ∀ k < mc, F.plain.fitCoeffs nnls (some (.scalar (ent zs i))) (some (.vec (column cs[i].2.2 k))) (some (.vec (ivs.getD i []))) 0
        (fun _ => noise i) = .ok ⟨.vec (column cs[i].2.1 k), none⟩ := by
    intro i hi
    have h1 := hcs i _ (List.getElem?_eq_getElem hi)
    have i1 : i < ms.length := by omega
    have i2 : i < ivs.length := by omega
    obtain ⟨p, _, hp⟩ := C55_monte_carlo nnls hlen F.plain (Or.inl rfl) hnb Am hA (ent zs i) (ms.getD i []) (ivs.getD i [])
      (by rw [getD_lt i1]; exact hmr' _ (List.getElem_mem _)) (by rw [getD_lt i2]; exact hivr' _ (List.getElem_mem _))
      (by rw [getD_lt i2]; exact hpos' _ (List.getElem_mem _))
    obtain ⟨_, cm, mm, q1, q2, q3, q4, q5, q6⟩ := hp mc hmc _ _ h1
    rw [if_neg (by omega)] at q1
    simp only [Option.some.injEq, Prod.mk.injEq, NDA.arr.injEq, true_and] at q1
    rw [q1.1, q1.2]
    exact ⟨q2, q3, q4, q5, fun k hk => (q6 k hk).1⟩
  have mem : ∀ {f : List ℝ × List (List ℝ) × List (List ℝ) → List (List ℝ)} {Q : List (List ℝ) → Prop}, (∀ i (hi : i < cs.length), Q (f cs[i])) → ∀ b ∈ cs.map f, Q b := by
    intro f Q hQ b hb
    obtain ⟨r, hr, rfl⟩ := List.mem_map.mp hb
    obtain ⟨i, hi, rfl⟩ := List.mem_iff_getElem.mp hr
    exact hQ i hi
  have hc := blocks_cube zs.length F.templates.nsed mc (cs.map (fun r => r.2.1)) (by simpa using hcl) (mem fun r hr => (each r hr).1)
    (mem fun r hr => (each r hr).2.2.1)
  have hm := blocks_cube zs.length F.responses.length mc (cs.map (fun r => r.2.2)) (by simpa using hcl) (mem fun r hr => (each r hr).2.1)
    (mem fun r hr => (each r hr).2.2.2.1)
  refine ⟨_, _, by rw [hmcv, ← hc, ← hm]; rfl, ?_⟩
  intro g k z iv hg hgi hk
  have hgl : g < cs.length := by rw [hcl]; exact (List.getElem?_eq_some_iff.mp hg).1
  obtain ⟨e1, e2, _, _, e5⟩ := each g hgl
  have col : ∀ (l : List (List ℝ)) (w : Nat), l.length = w → column l k = (List.range w).map (fun j => (l.getD j []).getD k 0) := by
    intro l w hl
    unfold column
    conv_lhs => rw [rows_range [] l w hl]
    rw [List.map_map]
    rfl
  have b1 : ∀ f : List ℝ × List (List ℝ) × List (List ℝ) → List (List ℝ), (cs.map f).getD g [] = f cs[g] := by
    intro f
    simp [List.getD, hgl]
  have h5 := e5 k hk
  rw [col _ _ e1, col _ _ e2, ent_eq hg, List.getD_eq_getElem?_getD, hget g iv hgi, Option.getD_some] at h5
  simp only [b1]
  exact h5

/-- C219: fit a table of galaxies with more and more Monte Carlo samples, compute the absolute magnitudes of the samples and take their documented errors.  With independent standard
normal deviates, and where the K-correction in the band is the same for all samples with flux (C217), the error of a galaxy in a band with a positive inverse variance tends, with probability
one, to the standard deviation of the magnitude of a normal flux, given that it is positive; the flux has the AB corrected maggies of the galaxy as mean and the inverse of the
AB corrected ivar as variance. -/
theorem C219_fit {Ω : Type} [MeasurableSpace Ω] (P : Measure Ω) (noise : Ω → Nat → Nat → Nat → ℝ) (hdev : Deviates P noise) (nnls : Nnls ℝ) (hlen : NnlsLen nnls)
    (K : Kc ℝ) (hr : AbReady K.abCls K.responses.length) (hnb : K.responses.length ≠ 1) (A Ao : AMat ℝ) (hA : K.Amatrix = some A) (hAo : K.AmatrixOut = some Ao) (hG : Ao.Good)
    (hn : Ao.nrow = K.responses.length) (him : K.imap.length = Ao.nrow) (zs : List ℝ) (ms ivs : List (List ℝ)) (hl : zs.length ≠ 1) (hm : ms.length = zs.length)
    (hiv : ivs.length = zs.length) (hmr : ∀ r ∈ ms, r.length = K.responses.length) (hivr : ∀ r ∈ ivs, r.length = K.responses.length) (hpos : ∀ r ∈ ivs, ∀ v ∈ r, 0 ≤ v)
    (bs : ℝ) (dist : Option (List ℝ)) (hd : ∀ ds ∈ dist, ds.length = zs.length ∧ ∀ d ∈ ds, 0 < d) (out : Ω → Nat → FitOut ℝ)
    (hfit : ∀ ω mc, 0 < mc → K.toFitter.fitCoeffs nnls (some (.vec zs)) (some (.arr [zs.length] K.responses.length ms)) (some (.arr [zs.length] K.responses.length ivs)) mc
      (noise ω) = .ok (out ω mc))
    (x : Ω → Nat → NDA ℝ) (hx : ∀ ω mc cm mm, 0 < mc → (out ω mc).mc = some (cm, mm) →
      K.absmagMc mm (some (.arr [zs.length] K.responses.length ivs)) (some (.vec zs)) cm bs (dist.map .vec) false false = .ok (.one (x ω mc)))
    (g j i : Nat) (z f v κ : ℝ) (m iv : List ℝ) (hg : zs[g]? = some z) (hgm : ms[g]? = some m) (hgi : ivs[g]? = some iv) (hj : K.imap[j]? = some i)
    (hf : m[i]? = some f) (hv : iv[i]? = some v) (hv0 : 0 < v)
    (hk : ∀ ω mc cm mm k y, (out ω mc).mc = some (cm, mm) → k < mc → entry mm (g * K.responses.length + i) k = some y → 0 < y →
      ∃ kc, K.kcorrect (some (.scalar z)) (some (.vec ((List.range K.templates.nsed).map (fun t => (entry cm (g * K.templates.nsed + t) k).getD 0)))) bs = .ok kc ∧
        entry kc 0 j = some κ) :
    ∀ᵐ ω ∂P, Tendsto (fun mc => ((mcErrors (x ω mc))[g * K.responses.length + j]?).getD 0) atTop
      (𝓝 (condSd (gaussianReal (f * abFactor K.abCls i) (Real.toNNReal (abFactor K.abCls i ^ 2 / v))) {y | 0 < y} mag)) := by
  obtain ⟨S, hS1, hS2, _, hS4⟩ := C115_ab_batch P noise hdev nnls hlen K.toFitter hr hnb A hA zs ms ivs hl hm hiv hmr hivr hpos
  have hgl : g < zs.length := (List.getElem?_eq_some_iff.mp hg).1
  have hil : i < K.responses.length := by rw [← hivr iv (List.mem_of_getElem? hgi)]; exact (List.getElem?_eq_some_iff.mp hv).1
  have hcube : ∀ ω mc, ∃ c mf, 0 < mc → (out ω mc).mc = some (cubeOf zs.length K.templates.nsed mc c, cubeOf zs.length K.responses.length mc mf) := by
    intro ω mc
    by_cases h0 : 0 < mc
    · obtain ⟨c, mf, h, _⟩ := fit_cubes nnls hlen K.toFitter hr hnb A hA zs ms ivs hl hm hiv hmr hivr hpos mc h0 (noise ω) (out ω mc) (hfit ω mc h0)
      exact ⟨c, mf, fun _ => h⟩
    · exact ⟨fun _ _ _ => 0, fun _ _ _ => 0, fun h => absurd h h0⟩
  choose c mf hc using hcube
  have hmag : ∀ ω mc k, k < mc → mf ω mc g i k = S (g, i, k) ω := by
    intro ω mc k hkm
    obtain ⟨cm, mm, h1, _, h3⟩ := hS1 mc (by omega) ω (out ω mc) (hfit ω mc (by omega))
    rw [hc ω mc (by omega)] at h1
    simp only [Option.some.injEq, Prod.mk.injEq] at h1
    have h4 := h3 g i k hgl hil hkm
    rw [← h1.2, cube_entry _ _ _ _ _ _ _ hgl hil hkm] at h4
    exact Option.some.inj h4
  have hfac := abFactor_pos K.abCls i
  have hvar : Real.toNNReal (abFactor K.abCls i ^ 2 / v) ≠ 0 := by
    rw [Ne, Real.toNNReal_eq_zero, not_le]
    positivity
  refine C218_photometry P (fun k => S (g, i, k)) (hS4.precomp (g := fun k : ℕ => (g, i, k)) (fun a b h => by simpa using h)) _ _ hvar
    (fun k => hS2 g i k m iv f v hgm hgi hf hv hv0) κ K hr A Ao hA hAo hG hn him mf c zs (by intro h; rw [h] at hgl; simp at hgl) ivs hiv hivr bs dist hd x
    (fun ω mc h0 => hx ω mc _ _ h0 (hc ω mc h0)) g j i z v iv hg hgi hj hv hv0 hmag ?_
  intro ω mc k hkm hy
  obtain ⟨kc, h1, h2⟩ := hk ω mc _ _ k _ (hc ω mc (by omega)) hkm (cube_entry _ _ _ _ _ _ _ hgl hil hkm) (by rw [hmag ω mc k hkm]; exact hy)
  refine ⟨kc, ?_, h2⟩
  rw [← h1]
  congr 3
  apply List.map_congr_left
  intro t ht
  rw [cube_entry _ _ _ _ _ _ _ hgl (List.mem_range.mp ht) hkm]
  rfl

/-! ### Not vacuous -/

/-- at rest the K-corrections are zero, whatever the coefficients -/
theorem demo_rest (c : List ℝ) (hc : c.length = 2) : ∃ kc, demoKc2.kcorrect (some (.scalar 0)) (some (.vec c)) 0 = .ok kc ∧ entry kc 0 0 = some 0 := by
  rw [kcorrect_real (K := demoKc2) (A := demoAm2) (Ao := demoAm2) rfl rfl 0 c hc]
  unfold kReal
  rw [demoAm2_at0']
  refine ⟨_, rfl, ?_⟩
  have hm : ∀ y : ℝ, magOf (y / y) = 0 := by
    intro y
    by_cases h : y = 0
    · subst h; simp [magOf]
    · rw [div_self h]; simp [magOf]
  unfold kRow
  split
  · simp [entry, gather, reconRow, demoKc2, hm]
  · simp [entry, zeros, reconRow]

/-- two galaxies at rest, fitted with the solver of C184: every hypothesis of C219 holds -/
example : ∃ (Ω : Type) (_ : MeasurableSpace Ω) (P : Measure Ω) (x : Ω → Nat → NDA ℝ), IsProbabilityMeasure P ∧
    ∀ᵐ ω ∂P, Tendsto (fun mc => ((mcErrors (x ω mc))[0]?).getD 0) atTop
      (𝓝 (condSd (gaussianReal (5 * abFactor .base 0) (Real.toNNReal (abFactor .base 0 ^ 2 / 4))) {y | 0 < y} mag)) := by
  have hdev := deviates_exist
  generalize (fun (ω : ℕ × ℕ × ℕ → ℝ) i k p => ω (i, k, p)) = noise at hdev
  generalize Measure.infinitePi (fun _ : ℕ × ℕ × ℕ => gaussianReal 0 1) = P at hdev
  have hP : IsProbabilityMeasure P := hdev.indep.isProbabilityMeasure
  have hlen : NnlsLen (lhNnls 0) := C184_contract.len
  have hmr : ∀ r ∈ [[(5 : ℝ), 3], [2, 4]], r.length = demoKc2.responses.length := by intro r h; fin_cases h <;> rfl
  have hivr : ∀ r ∈ [[(4 : ℝ), 1], [2, 0]], r.length = demoKc2.responses.length := by intro r h; fin_cases h <;> rfl
  have hpos : ∀ r ∈ [[(4 : ℝ), 1], [2, 0]], ∀ v ∈ r, 0 ≤ v := by
    intro r h v hv
    simp only [List.mem_cons, List.not_mem_nil, or_false] at h
    rcases h with rfl | rfl <;> simp only [List.mem_cons, List.not_mem_nil, or_false] at hv <;> rcases hv with rfl | rfl <;> norm_num
  have hf : ∀ ω mc, ∃ out, 0 < mc → demoKc2.toFitter.fitCoeffs (lhNnls 0) (some (.vec [0, 0])) (some (.arr [2] 2 [[5, 3], [2, 4]])) (some (.arr [2] 2 [[4, 1], [2, 0]])) mc
      (noise ω) = .ok out := by
    intro ω mc
    by_cases h0 : 0 < mc
    · obtain ⟨out, h⟩ := (C52_batch_partial (lhNnls 0) hlen demoKc2.toFitter (Or.inl rfl) (by decide) [0, 0] [[5, 3], [2, 4]] [[4, 1], [2, 0]] (by simp) rfl rfl hmr hivr mc (noise ω)).1.mpr (by
        intro k hk
        have hz : InRange demoAm2.x (ent [(0 : ℝ), 0] k) := by
          have : ent [(0 : ℝ), 0] k = 0 := by
            have hk2 : k < 2 := hk
            interval_cases k <;> rfl
          rw [this]
          norm_num [InRange, demoAm2]
        obtain ⟨c, cm, mm, h⟩ := C184_mc demoKc2.toFitter (by decide) (Or.inl rfl) (by decide) demoAm2 demo_ready (ent [0, 0] k) hz ([[5, 3], [2, 4]].getD k []) ([[4, 1], [2, 0]].getD k [])
          (by rw [getD_lt (by simpa using hk)]; exact hmr _ (List.getElem_mem _)) (by rw [getD_lt (by simpa using hk)]; exact hivr _ (List.getElem_mem _)) mc h0 (fun _ => noise ω k)
        exact ⟨_, h⟩)
      exact ⟨out, fun _ => h⟩
    · exact ⟨⟨.scalar 0, none⟩, fun h => absurd h h0⟩
  choose out hout using hf
  have hx : ∀ ω mc, ∃ x, ∀ cm mm, 0 < mc → (out ω mc).mc = some (cm, mm) →
      demoKc2.absmagMc mm (some (.arr [2] 2 [[4, 1], [2, 0]])) (some (.vec [0, 0])) cm 0 none false false = .ok (.one x) := by
    intro ω mc
    by_cases h0 : 0 < mc
    · obtain ⟨c, m, hcm, _⟩ := fit_cubes (lhNnls 0) hlen demoKc2.toFitter trivial (by decide) demoAm2 rfl [0, 0] [[5, 3], [2, 4]] [[4, 1], [2, 0]] (by simp) rfl rfl hmr hivr hpos mc h0 (noise ω) _ (hout ω mc h0)
      obtain ⟨ret, hret⟩ := (C75_table_partial demoKc2 trivial demoAm2 demoAm2 rfl rfl demo_ready.good rfl rfl mc m c [0, 0] (by simp) [[4, 1], [2, 0]] rfl hivr 0 none (by simp) false false).1.mpr (by
        intro g k z iv hg hiv hk
        have hz : z = 0 := by have := List.mem_of_getElem? hg; simpa using this
        subst hz
        obtain ⟨kc, hkc, _⟩ := demo_rest ((List.range demoKc2.templates.nsed).map (fun t => c g t k)) (by rw [List.length_map, List.length_range]; rfl)
        obtain ⟨a, ha⟩ := (C70_corrected_partial demoKc2 trivial demoAm2 demoAm2 rfl rfl 0 ((List.range demoKc2.responses.length).map (fun j => m g j k)) iv
          ((List.range demoKc2.templates.nsed).map (fun t => c g t k)) (by simp) (hivr iv (List.mem_of_getElem? hiv)) (by simp) 0 none (by simp)).1.mpr ⟨_, hkc⟩
        exact ⟨_, ha⟩)
      obtain ⟨x, rfl⟩ := absmagMc_single _ _ _ _ _ _ _ _ hret
      refine ⟨x, fun cm mm _ h => ?_⟩
      rw [hcm] at h
      cases h
      exact hret
    · exact ⟨.scalar 0, fun _ _ h => absurd h h0⟩
  choose x hx using hx
  refine ⟨_, _, P, x, hP, ?_⟩
  exact C219_fit P noise hdev (lhNnls 0) hlen demoKc2 trivial (by decide) demoAm2 demoAm2 rfl rfl demo_ready.good rfl rfl [0, 0] [[5, 3], [2, 4]] [[4, 1], [2, 0]] (by simp) rfl rfl
    hmr hivr hpos 0 none (by simp) out hout x (fun ω mc cm mm h1 h2 => hx ω mc cm mm h1 h2) 0 0 0 0 5 4 0 [5, 3] [4, 1] rfl rfl rfl rfl rfl rfl (by norm_num)
    (fun ω mc cm mm k y _ _ _ _ => demo_rest _ (by rw [List.length_map, List.length_range]; rfl))

end KC
