import Verif.Props.HalfMax

/-!
# Effective wavelengths of curves that do not vanish at their ends (C164)
-/

namespace KC
open Spec

/-! ### specification -/

/-- the integral of `R(λ)/λ` over the samples -/
noncomputable def logWeight (w r : List ℝ) : ℝ := trapRule w (List.zipWith (fun w r => r / w) w r)

/-- the integral of `ln(λ/c) R(λ)/λ` over the samples -/
noncomputable def logMoment (c : ℝ) (w r : List ℝ) : ℝ := trapRule w (List.zipWith (fun w r => Real.log (w / c) * (r / w)) w r)

/-! ### the value -/

theorem logMoment_shift {c : ℝ} (hc : 0 < c) (w r : List ℝ) (hw : ∀ x ∈ w, 0 < x) (hl : r.length = w.length) :
    trapRule w (List.zipWith (fun w r => Real.log w * r / w) w r) = logMoment c w r + Real.log c * logWeight w r := by
  unfold logMoment logWeight
  rw [← trapRule_smul, ← trapRule_add _ _ _ (by simp)]
  congr 1
  refine List.ext_getElem (by simp) fun i h1 h2 => ?_
  simp only [List.getElem_zipWith, List.getElem_map]
  have hi : i < w.length := by simp [hl] at h1; exact h1
  rw [Real.log_div (hw _ (List.getElem_mem hi)).ne' hc.ne']
  ring

/-- `λ_eff` relative to any wavelength -/
theorem lambdaEff_rel {c : ℝ} (hc : 0 < c) (w r : List ℝ) (hw : ∀ x ∈ w, 0 < x) (hl : r.length = w.length) (hne : w ≠ [])
    (hD : logWeight w r - (r.getLastD 0 - r.headD 0) ≠ 0) :
    Real.log (lambdaEffOf w r) - Real.log c =
      (logMoment c w r - (Real.log (w.getLastD 0 / c) * r.getLastD 0 - Real.log (w.headD 0 / c) * r.headD 0)) / (logWeight w r - (r.getLastD 0 - r.headD 0)) := by
  have ha : 0 < w.headD 0 := hw _ (headD_mem hne)
  have hb : 0 < w.getLastD 0 := hw _ (getLastD_mem hne)
  unfold lambdaEffOf
  rw [trapezoid_swap _ _ (by simp [hl]), trapezoid_swap _ _ (by simp [hl]), zipWith_headD _ _ _ hl hne, zipWith_headD _ _ _ hl hne,
    zipWith_getLastD _ _ _ hl hne, zipWith_getLastD _ _ _ hl hne]
  simp only [real_exp, real_log, Real.log_exp]
  rw [logMoment_shift hc w r hw hl, Real.log_div ha.ne' hc.ne', Real.log_div hb.ne' hc.ne']
  change _ / (_ - _ - logWeight w r) - _ = _
  have e1 : w.getLastD 0 * (Real.log (w.getLastD 0) * r.getLastD 0 / w.getLastD 0) = Real.log (w.getLastD 0) * r.getLastD 0 := by field_simp
  have e2 : w.headD 0 * (Real.log (w.headD 0) * r.headD 0 / w.headD 0) = Real.log (w.headD 0) * r.headD 0 := by field_simp
  have e3 : w.getLastD 0 * (r.getLastD 0 / w.getLastD 0) = r.getLastD 0 := by field_simp
  have e4 : w.headD 0 * (r.headD 0 / w.headD 0) = r.headD 0 := by field_simp
  rw [e1, e2, e3, e4]
  have hD' : r.getLastD 0 - r.headD 0 - logWeight w r ≠ 0 := fun h => hD (by linarith)
  rw [eq_div_iff hD, sub_mul, div_mul_eq_mul_div, eq_comm, ← sub_eq_zero]
  field_simp
  ring

/-- for a nonnegative curve the moment about the upper end is negative -/
theorem moment_upper {w r : List ℝ} (hw : w.Pairwise (· < ·)) (hpos : ∀ x ∈ w, 0 < x) (hl : r.length = w.length) (h2 : 2 ≤ w.length) (hnn : ∀ v ∈ r, 0 ≤ v)
    (hp : ∃ v ∈ r.dropLast, 0 < v) : logMoment (w.getLastD 0) w r < 0 := by
  have hne : w ≠ [] := by rintro rfl; simp at h2
  have hb : 0 < w.getLastD 0 := hpos _ (getLastD_mem hne)
  suffices h : 0 < -logMoment (w.getLastD 0) w r by linarith
  have e : -logMoment (w.getLastD 0) w r = trapRule w ((List.zipWith (fun x r => Real.log (x / w.getLastD 0) * (r / x)) w r).map (fun v => -1 * v)) := by
    rw [trapRule_smul]; unfold logMoment; ring
  rw [e]
  have hlog : ∀ x ∈ w, Real.log (x / w.getLastD 0) ≤ 0 := fun x hx =>
    Real.log_nonpos (div_nonneg (hpos x hx).le hb.le) ((div_le_one hb).mpr (le_last hw hx))
  refine trapRule_pos _ _ hw (by simp [hl]) ?_ (by simp [hl]; omega) ?_
  · intro v hv
    simp only [List.mem_map] at hv
    obtain ⟨u, hu, rfl⟩ := hv
    obtain ⟨i, hi, rfl⟩ := List.mem_iff_getElem.mp hu
    have hi' : i < w.length := by simp [hl] at hi; exact hi
    simp only [List.getElem_zipWith]
    have h1 := hlog _ (List.getElem_mem hi')
    have h2 : 0 ≤ r[i]'(by omega) / w[i] := div_nonneg (hnn _ (List.getElem_mem _)) (hpos _ (List.getElem_mem _)).le
    nlinarith
  · obtain ⟨v, hv, hv0⟩ := hp
    obtain ⟨i, hi, rfl⟩ := List.mem_iff_getElem.mp hv
    rw [List.length_dropLast] at hi
    rw [List.getElem_dropLast] at hv0
    have hi' : i < w.length := by omega
    refine ⟨_, List.mem_map.mpr ⟨_, List.getElem_mem (n := i) (by simp [hl]; omega), rfl⟩, ?_⟩
    simp only [List.getElem_zipWith]
    have hlt : w[i] < w.getLastD 0 := by
      rw [List.getLastD_eq_getLast?, List.getLast?_eq_getElem?, List.getElem?_eq_getElem (by omega)]
      exact List.pairwise_iff_getElem.mp hw i (w.length - 1) hi' (by omega) (by omega)
    have hwi := hpos _ (List.getElem_mem hi')
    have h1 : Real.log (w[i] / w.getLastD 0) < 0 := Real.log_neg (div_pos hwi hb) ((div_lt_one hb).mpr hlt)
    have h2 : 0 < r[i] / w[i] := div_pos hv0 hwi
    nlinarith

/-- C164: the effective wavelength of a nonnegative curve, whatever its values at the two ends, lies inside the curve exactly when the integral of `R/λ` exceeds the
difference of the two end values and the moment about the lower end is at least `ln(b/a)` times the response at the upper end. -/
theorem C164_inside_iff (lib : Lib ℝ) (wave resp : List ℝ) (R : Resp ℝ) (hR : mkResponse lib wave resp = .ok R) (hpos : ∀ w ∈ R.wave, 0 < w)
    (hnn : ∀ v ∈ R.resp, 0 ≤ v) (hp : ∃ v ∈ R.resp.dropLast, 0 < v) (hD : logWeight R.wave R.resp ≠ R.resp.getLastD 0 - R.resp.headD 0) :
    (R.wave.headD 0 ≤ R.lambdaEff ∧ R.lambdaEff ≤ R.wave.getLastD 0) ↔
      R.resp.getLastD 0 - R.resp.headD 0 < logWeight R.wave R.resp ∧
      Real.log (R.wave.getLastD 0 / R.wave.headD 0) * R.resp.getLastD 0 ≤ logMoment (R.wave.headD 0) R.wave R.resp := by
  obtain ⟨_, hw, _, h3⟩ := mkResponse_ok hR
  obtain ⟨_, _, hc, hle, _⟩ := respSetup_ok (by rw [hw]; exact gather_sorted wave) h3
  have hne := ne_nil_of_four hc.four
  have ha : 0 < R.wave.headD 0 := hpos _ (headD_mem hne)
  have hb : 0 < R.wave.getLastD 0 := hpos _ (getLastD_mem hne)
  rw [hle]
  have hle' : 0 < lambdaEffOf R.wave R.resp := Real.exp_pos _
  have hD' : logWeight R.wave R.resp - (R.resp.getLastD 0 - R.resp.headD 0) ≠ 0 := sub_ne_zero.mpr hD
  have ea := lambdaEff_rel ha R.wave R.resp hpos hc.len hne hD'
  have eb := lambdaEff_rel hb R.wave R.resp hpos hc.len hne hD'
  rw [div_self ha.ne', Real.log_one, zero_mul, sub_zero] at ea
  rw [div_self hb.ne', Real.log_one, zero_mul, zero_sub, sub_neg_eq_add] at eb
  have hm := moment_upper hc.incr hpos hc.len (by have := hc.four; omega) hnn hp
  have hr0 : 0 ≤ R.resp.headD 0 := by
    refine hnn _ (headD_mem ?_)
    rintro h
    have := hc.len
    have := hc.four
    rw [h] at *
    simp at *
    omega
  have hab : R.wave.headD 0 ≤ R.wave.getLastD 0 := le_last hc.incr (headD_mem hne)
  have hlog : Real.log (R.wave.headD 0 / R.wave.getLastD 0) ≤ 0 := Real.log_nonpos (div_nonneg ha.le hb.le) ((div_le_one hb).mpr hab)
  have hN : logMoment (R.wave.getLastD 0) R.wave R.resp + Real.log (R.wave.headD 0 / R.wave.getLastD 0) * R.resp.headD 0 < 0 := by nlinarith
  have h1 : R.wave.headD 0 ≤ lambdaEffOf R.wave R.resp ↔ 0 ≤ Real.log (lambdaEffOf R.wave R.resp) - Real.log (R.wave.headD 0) := by
    rw [sub_nonneg, Real.log_le_log_iff ha hle']
  have h2 : lambdaEffOf R.wave R.resp ≤ R.wave.getLastD 0 ↔ Real.log (lambdaEffOf R.wave R.resp) - Real.log (R.wave.getLastD 0) ≤ 0 := by
    rw [sub_nonpos, Real.log_le_log_iff hle' hb]
  rw [h1, h2, ea, eb]
  rcases lt_or_gt_of_ne hD' with hneg | hposD
  · constructor
    · rintro ⟨_, h⟩
      exact absurd h (not_le.mpr (div_pos_of_neg_of_neg hN hneg))
    · rintro ⟨h, _⟩
      linarith
  · constructor
    · rintro ⟨h, _⟩
      refine ⟨by linarith, ?_⟩
      rw [le_div_iff₀ hposD, zero_mul] at h
      linarith
    · rintro ⟨_, h⟩
      exact ⟨div_nonneg (by linarith) hposD.le, (div_neg_of_neg_of_pos hN hposD).le⟩

/-- C164: where the response at the upper end exceeds that at the lower end by more than the integral of `R/λ`, the effective wavelength is above the whole curve. -/
theorem C164_above (lib : Lib ℝ) (wave resp : List ℝ) (R : Resp ℝ) (hR : mkResponse lib wave resp = .ok R) (hpos : ∀ w ∈ R.wave, 0 < w)
    (hnn : ∀ v ∈ R.resp, 0 ≤ v) (hp : ∃ v ∈ R.resp.dropLast, 0 < v) (hD : logWeight R.wave R.resp < R.resp.getLastD 0 - R.resp.headD 0) :
    R.wave.getLastD 0 < R.lambdaEff := by
  obtain ⟨_, hw, _, h3⟩ := mkResponse_ok hR
  obtain ⟨_, _, hc, hle, _⟩ := respSetup_ok (by rw [hw]; exact gather_sorted wave) h3
  have hne := ne_nil_of_four hc.four
  have ha : 0 < R.wave.headD 0 := hpos _ (headD_mem hne)
  have hb : 0 < R.wave.getLastD 0 := hpos _ (getLastD_mem hne)
  rw [hle]
  have hle' : 0 < lambdaEffOf R.wave R.resp := Real.exp_pos _
  have hD' : logWeight R.wave R.resp - (R.resp.getLastD 0 - R.resp.headD 0) < 0 := by linarith
  have eb := lambdaEff_rel hb R.wave R.resp hpos hc.len hne hD'.ne
  rw [div_self hb.ne', Real.log_one, zero_mul, zero_sub, sub_neg_eq_add] at eb
  have hm := moment_upper hc.incr hpos hc.len (by have := hc.four; omega) hnn hp
  have hr0 : 0 ≤ R.resp.headD 0 := by
    refine hnn _ (headD_mem ?_)
    rintro h
    have := hc.len
    have := hc.four
    rw [h] at *
    simp at *
    omega
  have hab : R.wave.headD 0 ≤ R.wave.getLastD 0 := le_last hc.incr (headD_mem hne)
  have hlog : Real.log (R.wave.headD 0 / R.wave.getLastD 0) ≤ 0 := Real.log_nonpos (div_nonneg ha.le hb.le) ((div_le_one hb).mpr hab)
  have hN : logMoment (R.wave.getLastD 0) R.wave R.resp + Real.log (R.wave.headD 0 / R.wave.getLastD 0) * R.resp.headD 0 < 0 := by nlinarith
  rw [← Real.log_lt_log_iff hb hle', ← sub_pos, eb]
  exact div_pos_of_neg_of_neg hN hD'

/-! ### a curve of the package -/

/-- `data/responses/epsi_I.dat`: wavelengths in units of 0.1 Å, responses in units of 0.001 -/
def epsiI : List (Nat × Nat) :=
  [(73050, 46), (73150, 54), (73250, 62), (73300, 67), (73350, 73), (73400, 79), (73450, 85), (73500, 92), (73550, 101), (73570, 104), (73600, 108),
   (73650, 117), (73700, 127), (73750, 137), (73800, 148), (73850, 160), (73900, 174), (73950, 187), (74000, 203), (74050, 217), (74100, 234),
   (74150, 252), (74200, 269), (74250, 291), (74300, 314), (74301, 315), (74350, 340), (74400, 367), (74450, 396), (74500, 427), (74515, 437),
   (74550, 461), (74600, 499), (74650, 539), (74700, 581), (74750, 625), (74800, 675), (74850, 726), (74900, 782), (74950, 841), (75000, 903),
   (75050, 969), (75100, 1039), (75150, 1115), (75200, 1193), (75209, 1208), (75250, 1276), (75300, 1365), (75350, 1455), (75400, 1555), (75450, 1660),
   (75500, 1766), (75550, 1878), (75600, 1997), (75650, 2123), (75700, 2260), (75750, 2401), (75800, 2547), (75850, 2705), (75860, 2737), (75900, 2865),
   (75950, 3032), (76000, 3205), (76050, 3393), (76100, 3586), (76150, 3782), (76200, 3976), (76250, 4171), (76262, 4219), (76300, 4371), (76350, 4590),
   (76400, 4822), (76450, 5062), (76500, 5316), (76550, 5577), (76554, 5599), (76600, 5846), (76650, 6123), (76700, 6413), (76750, 6713), (76800, 7016),
   (76850, 7330), (76900, 7647), (76950, 7974), (77000, 8321), (77050, 8673), (77100, 9015), (77134, 9246), (77150, 9358), (77200, 9720),
   (77250, 10073), (77300, 10432), (77350, 10805), (77400, 11172), (77450, 11545), (77500, 11912), (77550, 12296), (77600, 12667), (77650, 13040),
   (77700, 13418), (77750, 13796), (77800, 14176), (77806, 14221), (77850, 14556), (77900, 14950), (77950, 15340), (78000, 15729), (78050, 16111),
   (78100, 16492), (78150, 16867), (78200, 17239), (78250, 17615), (78292, 17931), (78300, 17989), (78350, 18343), (78400, 18668), (78423, 18823),
   (78450, 19002), (78500, 19336), (78550, 19680), (78600, 20030), (78650, 20381), (78700, 20734), (78750, 21082), (78800, 21402), (78850, 21745),
   (78872, 21890), (78900, 22074), (78950, 22405), (79000, 22719), (79050, 23013), (79100, 23341), (79150, 23635), (79200, 23921), (79250, 24210),
   (79300, 24488), (79350, 24749), (79400, 24999), (79450, 25233), (79488, 25418), (79500, 25476), (79550, 25696), (79600, 25917), (79650, 26129),
   (79700, 26323), (79750, 26524), (79800, 26708), (79850, 26898), (79900, 27080), (79950, 26973), (79988, 26891), (80000, 26869), (80050, 27021),
   (80100, 27172), (80150, 27314), (80200, 27456), (80250, 27588), (80300, 27720), (80350, 27844), (80400, 27968), (80450, 28081), (80500, 28193),
   (80519, 28233), (80550, 28293), (80600, 28387), (80650, 28470), (80700, 28553), (80750, 28628), (80779, 28672), (80800, 28702), (80850, 28772),
   (80900, 28841), (80950, 28899), (81000, 28958), (81050, 29008), (81055, 29013), (81100, 29068), (81150, 29123), (81200, 29177), (81250, 29226),
   (81300, 29274), (81350, 29316), (81400, 29357), (81450, 29389), (81500, 29421), (81550, 29444), (81600, 29467), (81650, 29486), (81700, 29504),
   (81750, 29522), (81800, 29539), (81807, 29540), (81850, 29545), (81900, 29551), (81950, 29556), (82000, 29561), (82050, 29563), (82100, 29564),
   (82150, 29561), (82200, 29557), (82230, 29554), (82250, 29548), (82300, 29532), (82350, 29514), (82400, 29496), (82450, 29474), (82500, 29451),
   (82550, 29426), (82600, 29401), (82650, 29372), (82700, 29342), (82750, 29307), (82800, 29272), (82809, 29266), (82850, 29256), (82900, 29243),
   (82950, 29227), (83000, 29211), (83050, 29194), (83100, 29175), (83150, 29151), (83198, 29128), (83200, 29127), (83250, 29099), (83300, 29070),
   (83350, 29039), (83400, 29008), (83450, 28975), (83464, 28966), (83500, 28942), (83550, 28906), (83600, 28869), (83629, 28848), (83650, 28832),
   (83700, 28792), (83750, 28751), (83800, 28708), (83850, 28666), (83900, 28623), (83950, 28577), (84000, 28531), (84050, 28486), (84100, 28441),
   (84150, 28392), (84200, 28343), (84232, 28311), (84250, 28298), (84300, 28261), (84350, 28223), (84400, 28184), (84450, 28145), (84500, 28105),
   (84550, 28064), (84600, 28024), (84650, 27982), (84700, 27940), (84750, 27897), (84800, 27853), (84816, 27840), (84827, 27827), (84850, 27800),
   (84900, 27742), (84950, 27683), (85000, 27625), (85050, 27539), (85100, 27453), (85150, 27368), (85200, 27284), (85250, 27199), (85300, 27113),
   (85333, 27056), (85350, 27039), (85400, 26991), (85450, 26942), (85500, 26894), (85550, 26844), (85594, 26799), (85600, 26789), (85650, 26701),
   (85700, 26614), (85750, 26523), (85800, 26432), (85850, 26342), (85900, 26252), (85950, 26160), (86000, 26069), (86050, 25978), (86097, 25892),
   (86100, 25889), (86200, 25735), (86250, 25660), (86272, 25627), (86300, 25584), (86350, 25508), (86400, 25431), (86500, 25274), (86550, 25198),
   (86600, 25122), (86632, 25072), (86700, 24951), (86800, 24773), (86850, 24684), (86900, 24596), (87000, 24417), (87050, 24329), (87150, 24151),
   (87229, 24007), (87250, 23973), (87350, 23807), (87450, 23639), (87550, 23471), (87593, 23399), (87634, 23328), (87650, 23301), (87750, 23134),
   (87850, 22966), (87950, 22797), (88016, 22683), (88200, 22357), (88250, 22269), (88350, 22092), (88428, 21951), (88500, 21808), (88600, 21610),
   (88700, 21411), (88750, 21313), (88800, 21214), (88900, 21008), (89000, 20808), (89011, 20785), (89250, 20343), (89380, 20102), (89400, 20064),
   (89477, 19923), (89650, 19591), (89748, 19402), (90000, 18907), (90124, 18730), (90400, 18301), (90500, 18147), (90599, 17992), (90850, 17570),
   (91038, 17253), (91150, 17094), (91350, 16809), (91359, 16796), (91550, 16512), (91602, 16434), (91850, 16014), (92048, 15676), (92300, 15254),
   (92600, 14749), (92711, 14561), (93050, 13999), (93188, 13770), (93400, 13409), (93591, 13083), (93634, 13009), (93700, 12891), (94000, 12354),
   (94023, 12312), (94448, 11549), (94800, 10907), (94900, 10723), (94995, 10551), (95000, 10542), (95261, 10163), (95585, 9714), (95628, 9653),
   (96000, 9149), (96018, 9124), (96100, 9005), (96350, 8645), (96558, 8346), (96610, 8274), (96750, 8078), (96889, 7884), (97235, 7385), (97350, 7218),
   (97517, 6976), (97710, 6693)]

noncomputable def epsiWave : List ℝ := epsiI.map (fun p => (p.1 : ℝ) / 10)

noncomputable def epsiPass : List ℝ := epsiI.map (fun p => (p.2 : ℝ) / 1000)

/-- an upper bound of `10^9 r/w` -/
def ratioUp (p : Nat × Nat) : Nat := 10 ^ 9 * p.2 / p.1 + 1

def trapUp : List (Nat × Nat) → Nat
  | p :: q :: l => (q.1 - p.1) * (ratioUp p + ratioUp q) + trapUp (q :: l)
  | _ => 0

theorem ratioUp_le (p : Nat × Nat) (hp : 0 < p.1) : ((p.2 : ℝ) / 1000) / ((p.1 : ℝ) / 10) ≤ ratioUp p / 10 ^ 11 := by
  have h : 10 ^ 9 * p.2 < p.1 * ratioUp p := by
    unfold ratioUp
    exact Nat.lt_mul_div_succ _ hp
  have h' : (10 ^ 9 * p.2 : ℝ) < p.1 * ratioUp p := by exact_mod_cast h
  have hp' : (0 : ℝ) < p.1 := by exact_mod_cast hp
  rw [div_div_eq_mul_div, div_le_div_iff₀ (by positivity) (by positivity)]
  nlinarith

theorem trapUp_bound : ∀ l : List (Nat × Nat), (∀ p ∈ l, 0 < p.1) → l.IsChain (fun p q => p.1 ≤ q.1) →
    logWeight (l.map (fun p => (p.1 : ℝ) / 10)) (l.map (fun p => (p.2 : ℝ) / 1000)) ≤ trapUp l / (2 * 10 ^ 12)
  | [], _, _ => by simp [logWeight, trapRule, trapUp]
  | [p], _, _ => by simp [logWeight, trapRule, trapUp]
  | p :: q :: l, hp, hc => by
    have ih := trapUp_bound (q :: l) (fun x hx => hp x (List.mem_cons_of_mem _ hx)) hc.tail
    unfold logWeight at ih ⊢
    simp only [List.map_cons, List.zipWith_cons_cons, trapRule] at ih ⊢
    have h1 := ratioUp_le p (hp p (by simp))
    have h2 := ratioUp_le q (hp q (by simp))
    have hle : p.1 ≤ q.1 := by
      simp only [List.isChain_cons_cons] at hc
      exact hc.1
    have hd : (0 : ℝ) ≤ (q.1 : ℝ) - p.1 := sub_nonneg.mpr (by exact_mod_cast hle)
    have e : ((trapUp (p :: q :: l) : Nat) : ℝ) = ((q.1 : ℝ) - p.1) * (ratioUp p + ratioUp q) + trapUp (q :: l) := by
      simp only [trapUp]
      push_cast [Nat.cast_sub hle]
      ring
    rw [e]
    have := mul_le_mul_of_nonneg_left (add_le_add h1 h2) hd
    have e2 : ((q.1 : ℝ) / 10 - p.1 / 10) * (((p.2 : ℝ) / 1000 / (p.1 / 10) + (q.2 : ℝ) / 1000 / (q.1 / 10)) / 2) =
        ((q.1 : ℝ) - p.1) * ((p.2 : ℝ) / 1000 / (p.1 / 10) + (q.2 : ℝ) / 1000 / (q.1 / 10)) / 20 := by ring
    rw [e2, add_div]
    refine add_le_add ?_ ih
    calc _ ≤ ((q.1 : ℝ) - p.1) * (ratioUp p / 10 ^ 11 + ratioUp q / 10 ^ 11) / 20 := by linarith
      _ = _ := by ring

theorem epsi_chain : epsiI.IsChain (fun p q => p.1 < q.1) := by decide +kernel

theorem epsi_sorted : epsiWave.Pairwise (· < ·) := by
  have h : epsiI.Pairwise (fun p q => p.1 < q.1) := List.isChain_iff_pairwise.mp epsi_chain
  unfold epsiWave
  rw [List.pairwise_map]
  refine h.imp fun {p q} hpq => ?_
  have : (p.1 : ℝ) < q.1 := by exact_mod_cast hpq
  linarith

theorem epsi_pos : ∀ p ∈ epsiI, 0 < p.1 := by decide +kernel

theorem epsi_first : (73050, 46) ∈ epsiI.dropLast := by decide +kernel

theorem epsi_bound : trapUp epsiI < 2 * 10 ^ 9 * 6647 := by decide +kernel

theorem epsi_ends : epsiPass.getLastD 0 - epsiPass.headD 0 = 6.647 := by
  have h1 : epsiI.head? = some (73050, 46) := rfl
  have h2 : epsiI.getLast? = some (97710, 6693) := by decide +kernel
  unfold epsiPass
  rw [List.getLastD_eq_getLast?, List.getLast?_map, h2, List.headD_eq_head?_getD, List.head?_map, h1]
  norm_num

/-- C164: the response `epsi_I` of the package gets an effective wavelength above its whole wavelength range. -/
theorem C164_false (lib : Lib ℝ) (R : Resp ℝ) (hR : mkResponse lib epsiWave epsiPass = .ok R) : R.wave.getLastD 0 < R.lambdaEff := by
  obtain ⟨e1, e2⟩ := mkResponse_sorted (epsi_sorted.imp le_of_lt) (by simp [epsiWave, epsiPass]) hR
  refine C164_above lib _ _ R hR ?_ ?_ ?_ ?_
  · rw [e1]
    intro w hw
    simp only [epsiWave, List.mem_map] at hw
    obtain ⟨p, hp, rfl⟩ := hw
    have : (0 : ℝ) < p.1 := by exact_mod_cast epsi_pos p hp
    positivity
  · rw [e2]
    intro v hv
    simp only [epsiPass, List.mem_map] at hv
    obtain ⟨p, _, rfl⟩ := hv
    positivity
  · rw [e2]
    refine ⟨46 / 1000, ?_, by norm_num⟩
    unfold epsiPass
    rw [← List.map_dropLast]
    exact List.mem_map.mpr ⟨(73050, 46), epsi_first, by norm_num⟩
  · rw [e1, e2, epsi_ends]
    have h := trapUp_bound epsiI epsi_pos (epsi_chain.imp fun _ _ h => le_of_lt h)
    have hb : (trapUp epsiI : ℝ) < 2 * 10 ^ 9 * 6647 := by exact_mod_cast epsi_bound
    refine lt_of_le_of_lt h ?_
    rw [div_lt_iff₀ (by norm_num)]
    linarith

/-- the object exists -/
example : ∃ R, mkResponse demoLib epsiWave epsiPass = .ok R :=
  C91_response_builds demoLib demo_knot demo_brentq demo_star demo_star epsiWave epsiPass (epsi_sorted.imp fun h => h.ne)
    (by rw [epsiWave, List.length_map]; decide +kernel) (by simp [epsiWave, epsiPass])
    ⟨46 / 1000, List.mem_map.mpr ⟨(73050, 46), List.mem_of_mem_dropLast epsi_first, by norm_num⟩, by norm_num⟩

end KC
