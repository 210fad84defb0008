import Verif.Props.MeanAccuracy

/-!
# C69 needs a width: groups narrower than the rounding of logarithms

Two neighbouring double-precision numbers have logarithms that round to the same number.  A group between them passes the
validation of group bounds, but all its samples have width zero.
-/

namespace Opac.Photons
open Arith Outcome Spiner Spec Accuracy Tables

/-- `10^15`, a double-precision number -/
noncomputable def narrowLo : Fl rn53 := ⟨10 ^ 15⟩

/-- `10^15 + 1/8`, the next double-precision number -/
noncomputable def narrowHi : Fl rn53 := ⟨10 ^ 15 + 1 / 8⟩

/-- both are double-precision numbers -/
theorem narrow_representable : rn53 narrowLo.val = narrowLo.val ∧ rn53 narrowHi.val = narrowHi.val := by
  constructor
  · have := rn53_of (x := 10 ^ 15) (e := 49) (k := 8 * 10 ^ 15) (by norm_num) (by norm_num) (by norm_num)
    show rn53 (10 ^ 15) = 10 ^ 15
    rw [this]; norm_num
  · have := rn53_of (x := 10 ^ 15 + 1 / 8) (e := 49) (k := 8 * 10 ^ 15 + 1) (by norm_num) (by norm_num) (by norm_num)
    show rn53 (10 ^ 15 + 1 / 8) = 10 ^ 15 + 1 / 8
    rw [this]; norm_num

theorem tiny_val : 0 < (lit 10 * dmin : Fl rn53).val ∧ (lit 10 * dmin : Fl rn53).val ≤ 1 / 100 := by
  have h := small_pf' rn53_binary
  refine ⟨h.pos', ?_⟩
  have e := (rn53_rounding).err ((lit 10 : Fl rn53).val * 2 ^ (-1022 : ℤ))
  have e2 := (rn53_rounding).err ((10 : ℚ) : ℝ)
  have l10 : (lit 10 : Fl rn53).val ≤ 11 := by
    show rn53 ((10 : ℚ) : ℝ) ≤ 11
    norm_num [abs_le] at e2 ⊢
    linarith [e2.2]
  have l0 : 0 ≤ (lit 10 : Fl rn53).val := by
    show 0 ≤ rn53 ((10 : ℚ) : ℝ)
    norm_num [abs_le] at e2 ⊢
    linarith [e2.1]
  have t : (2 : ℝ) ^ (-1022 : ℤ) ≤ 2 ^ (-60 : ℤ) := zpow_le_zpow_right₀ (by norm_num) (by norm_num)
  have t0 : (0 : ℝ) < 2 ^ (-1022 : ℤ) := by positivity
  show rn53 ((lit 10 : Fl rn53).val * 2 ^ (-1022 : ℤ)) ≤ 1 / 100
  have hx : 0 ≤ (lit 10 : Fl rn53).val * 2 ^ (-1022 : ℤ) := by positivity
  have hx2 : (lit 10 : Fl rn53).val * 2 ^ (-1022 : ℤ) ≤ 11 * 2 ^ (-60 : ℤ) := by gcongr
  rw [abs_of_nonneg hx] at e
  generalize (lit 10 : Fl rn53).val * 2 ^ (-1022 : ℤ) = z at *
  norm_num [abs_le] at e hx2 ⊢
  linarith [e.2]

/-- the logarithms round to the same number -/
theorem narrow_logs : (ToLog narrowLo).val = 15 ∧ (ToLog narrowHi).val = 15 := by
  obtain ⟨t0, t1⟩ := tiny_val
  have log15 : Real.logb 10 (10 ^ 15) = 15 := by
    rw [Real.logb_pow, Real.logb_self_eq_one (by norm_num)]; norm_num
  have r15 : ∀ x : ℝ, 15 ≤ x → x ≤ 15 + 2e-16 → rn53 x = 15 := by
    intro x h1 h2
    have := rn53_of (x := x) (e := 3) (k := 15 * 2 ^ 49) (by norm_num; linarith) (by norm_num; linarith) (by
      norm_num [abs_lt]
      constructor <;> linarith)
    rw [this]; norm_num
  constructor
  · show rn53 (Real.logb 10 (rn53 (|(10 : ℝ) ^ 15| + (lit 10 * dmin : Fl rn53).val))) = 15
    generalize (lit 10 * dmin : Fl rn53).val = t at *
    rw [rn53_of (x := |(10 : ℝ) ^ 15| + t) (e := 49) (k := 8 * 10 ^ 15) (by norm_num; linarith) (by norm_num; linarith) (by
      norm_num [abs_lt]
      constructor <;> linarith)]
    rw [show ((8 * 10 ^ 15 : ℤ) : ℝ) * 2 ^ ((49 : ℤ) - 52) = 10 ^ 15 by norm_num, log15]
    exact r15 _ le_rfl (by norm_num)
  · show rn53 (Real.logb 10 (rn53 (|(10 : ℝ) ^ 15 + 1 / 8| + (lit 10 * dmin : Fl rn53).val))) = 15
    generalize (lit 10 * dmin : Fl rn53).val = t at *
    rw [rn53_of (x := |(10 : ℝ) ^ 15 + 1 / 8| + t) (e := 49) (k := 8 * 10 ^ 15 + 1) (by norm_num; linarith)
      (by norm_num; linarith) (by norm_num [abs_lt]; constructor <;> linarith)]
    have e : ((8 * 10 ^ 15 + 1 : ℤ) : ℝ) * 2 ^ ((49 : ℤ) - 52) = 10 ^ 15 * (1 + 1.25e-16) := by norm_num
    rw [e, Real.logb_mul (by norm_num) (by norm_num), log15]
    have l1 : 1 ≤ Real.log 10 := by
      rw [Real.le_log_iff_exp_le (by norm_num)]
      have := Real.exp_one_lt_d9; linarith
    have h1 : 0 ≤ Real.logb 10 (1 + 1.25e-16) := Real.logb_nonneg (by norm_num) (by norm_num)
    have h2 : Real.logb 10 (1 + 1.25e-16) ≤ 1.25e-16 := by
      unfold Real.logb
      rw [div_le_iff₀ (by linarith)]
      have := Real.log_le_sub_one_of_pos (x := 1 + 1.25e-16) (by norm_num)
      norm_num at this ⊢
      nlinarith
    exact r15 _ (by linarith) (by norm_num at h2 ⊢; linarith)

theorem rn53_zero : rn53 0 = 0 := by simp [rn53]

/-- at temperatures around `10^15` (in units in which all constants are one) the group is its own window -/
theorem narrow_window {T : Fl rn53} {T' n : ℝ} (hT : PF (2 ^ (-53 : ℤ)) n T T') (hn0 : 0 ≤ n) (hn : n ≤ 1000)
    (h1 : 10 ^ 14 ≤ T') (h2 : T' ≤ 10 ^ 16) : SampleWindow exPC T narrowLo narrowHi = (narrowLo, narrowHi) := by
  have hu : (n + 10) * unit (2 ^ (-53 : ℤ)) ≤ 0.001 := by
    have := unit_le rn53_binary (by norm_num : (2 : ℝ) ^ (-53 : ℤ) ≤ 1 / 100)
    have h0 := unit_nonneg rn53_binary.toRounding
    norm_num at this ⊢
    nlinarith
  have hr := rn53_binary
  have hpc := exPC_pos
  have t1 : PF (2 ^ (-53 : ℤ)) (n + 4) (lit 1.e-3 * exPC.kb * T / exPC.h) ((lit 1.e-3 : ℝ) * exPC.exact.kb * T' / exPC.exact.h) :=
    ((((PF.dec hr 1.e-3 (by norm_num)).mul hr (PF.exact exPC.kb hpc.kb)).mul hr hT).div hr (PF.exact exPC.h hpc.h)).mono hr
      (by linarith)
  have t2 : PF (2 ^ (-53 : ℤ)) (n + 4) (lit 1.e3 * exPC.kb * T / exPC.h) ((lit 1.e3 : ℝ) * exPC.exact.kb * T' / exPC.exact.h) :=
    ((((PF.dec hr 1.e3 (by norm_num)).mul hr (PF.exact exPC.kb hpc.kb)).mul hr hT).div hr (PF.exact exPC.h hpc.h)).mono hr
      (by linarith)
  have e1 : (lit 1.e-3 : ℝ) * exPC.exact.kb * T' / exPC.exact.h = T' / 1000 := by
    simp [areal, exPC, PC.exact]; ring
  have e2 : (lit 1.e3 : ℝ) * exPC.exact.kb * T' / exPC.exact.h = 1000 * T' := by
    simp [areal, exPC, PC.exact]; norm_num
  rw [e1] at t1
  rw [e2] at t2
  have a : PF (2 ^ (-53 : ℤ)) (n + 6) (lit 0.1 * (lit 1.e-3 * exPC.kb * T / exPC.h)) ((lit 0.1 : ℝ) * (T' / 1000)) :=
    ((PF.dec hr 0.1 (by norm_num)).mul hr t1).mono hr (by linarith)
  have b : PF (2 ^ (-53 : ℤ)) (n + 6) (lit 10 * (lit 1.e3 * exPC.kb * T / exPC.h)) ((lit 10 : ℝ) * (1000 * T')) :=
    ((PF.dec hr 10 (by norm_num)).mul hr t2).mono hr (by linarith)
  have el : (lit 0.1 : ℝ) * (T' / 1000) = T' / 10000 := by simp only [areal]; norm_num; ring
  have eh : (lit 10 : ℝ) * (1000 * T') = 10000 * T' := by simp only [areal]; norm_num; ring
  rw [el] at a
  rw [eh] at b
  have hlo : 0 < narrowLo.val := by norm_num [narrowLo]
  have hhi : 0 < narrowHi.val := by norm_num [narrowHi]
  have hl : lt narrowLo (lit 0.1 * (lit 1.e-3 * exPC.kb * T / exPC.h)) = false := by
    rw [(same_lt (PF.exact (u := 2 ^ (-53 : ℤ)) narrowLo hlo) a (by
      refine le_trans (mul_le_mul_of_nonneg_right ?_ (unit_nonneg hr.toRounding)) hu; linarith) (by
      right; norm_num [narrowLo]; linarith)).1]
    rw [Bool.eq_false_iff, ne_eq, real_lt]
    norm_num [narrowLo]; linarith
  have hh : gt narrowHi (lit 10 * (lit 1.e3 * exPC.kb * T / exPC.h)) = false := by
    show lt (lit 10 * (lit 1.e3 * exPC.kb * T / exPC.h)) narrowHi = false
    rw [(same_lt b (PF.exact (u := 2 ^ (-53 : ℤ)) narrowHi hhi) (by
      refine le_trans (mul_le_mul_of_nonneg_right ?_ (unit_nonneg hr.toRounding)) hu; linarith) (by
      right; norm_num [narrowHi]; linarith)).1]
    rw [Bool.eq_false_iff, ne_eq, real_lt]
    norm_num [narrowHi]; linarith
  have hz : eqb narrowLo (lit 0) = false := by
    rw [Bool.eq_false_iff]
    show ¬ decide (narrowLo.val = (lit 0 : Fl rn53).val) = true
    rw [fl_zero rn53_binary]
    norm_num [narrowLo]
  have f : ∀ x : Fl rn53, isFinite x = true := fun _ => rfl
  have ho : ge narrowLo narrowHi = false := by
    rw [Bool.eq_false_iff]
    show ¬ decide (narrowHi.val ≤ narrowLo.val) = true
    norm_num [narrowLo, narrowHi]
  unfold SampleWindow
  simp only [hl, hh, hz, f, Bool.or_self, Bool.not_true, ho, Bool.false_eq_true, if_false]

/-- all samples have width zero -/
theorem narrow_samples {T : Fl rn53} (hw : SampleWindow exPC T narrowLo narrowHi = (narrowLo, narrowHi)) (N : ℤ) :
    ∀ s ∈ GroupFrequencySamples exPC T narrowLo narrowHi N, s.2 = ⟨0⟩ := by
  intro s hs
  unfold GroupFrequencySamples at hs
  simp only [hw, List.mem_map] at hs
  obtain ⟨i, -, rfl⟩ := hs
  have hd : (ToLog narrowHi - ToLog narrowLo) / lit N = (⟨0⟩ : Fl rn53) := by
    show (⟨rn53 (rn53 ((ToLog narrowHi).val - (ToLog narrowLo).val) / _)⟩ : Fl rn53) = ⟨0⟩
    rw [narrow_logs.1, narrow_logs.2, sub_self, rn53_zero, zero_div, rn53_zero]
  rw [hd]
  show (⟨rn53 (_ * 0)⟩ : Fl rn53) = ⟨0⟩
  rw [mul_zero, rn53_zero]

/-- the averages vanish, whatever the opacity -/
theorem narrow_means {T : Fl rn53} (hw : SampleWindow exPC T narrowLo narrowHi = (narrowLo, narrowHi)) (N : ℤ)
    (coef : Fl rn53 → Fl rn53 → Fl rn53 → Fl rn53) (rho : Fl rn53) :
    MGTables.GroupMeans exPC coef rho T narrowLo narrowHi N = (⟨0⟩, ⟨0⟩) := by
  have hs := narrow_samples hw N
  have z : (lit 0 : Fl rn53) = ⟨0⟩ := by
    have := fl_zero rn53_binary
    show (⟨(lit 0 : Fl rn53).val⟩ : Fl rn53) = ⟨0⟩
    rw [this]
  have add0 : ∀ x : Fl rn53, (⟨0⟩ : Fl rn53) + x * ⟨0⟩ = ⟨0⟩ := by
    intro x
    show (⟨rn53 (0 + rn53 (x.val * 0))⟩ : Fl rn53) = ⟨0⟩
    rw [mul_zero, rn53_zero, add_zero, rn53_zero]
  have n0 : MGTables.GroupNumerators exPC coef rho T narrowLo narrowHi N = (⟨0⟩, ⟨0⟩) := by
    unfold MGTables.GroupNumerators
    rw [z]
    revert hs
    generalize GroupFrequencySamples exPC T narrowLo narrowHi N = l
    intro hs
    induction l with
    | nil => rfl
    | cons s l ih =>
      simp only [List.foldl_cons]
      rw [hs s (by simp), add0, add0, ite_self]
      exact ih fun s' h => hs s' (by simp [h])
  have d0 : MGTables.GroupDenominators exPC T narrowLo narrowHi N = (⟨0⟩, ⟨0⟩) := by
    unfold MGTables.GroupDenominators
    rw [z]
    revert hs
    generalize GroupFrequencySamples exPC T narrowLo narrowHi N = l
    intro hs
    induction l with
    | nil => rfl
    | cons s l ih =>
      simp only [List.foldl_cons]
      rw [hs s (by simp), add0, add0]
      exact ih fun s' h => hs s' (by simp [h])
  unfold MGTables.GroupMeans
  rw [n0, d0]
  unfold MGTables.MeansOfSums
  have r0 : ∀ x : Fl rn53, Robust.ratio ⟨0⟩ x = ⟨0⟩ := by
    intro x
    show (⟨rn53 (0 / _)⟩ : Fl rn53) = ⟨0⟩
    rw [zero_div, rn53_zero]
  have g0 : gt (⟨0⟩ : Fl rn53) Robust.SMALL = false := by
    rw [Bool.eq_false_iff]
    show ¬ decide ((lit 10 * dmin : Fl rn53).val < 0) = true
    have := tiny_val.1
    simp only [decide_eq_true_eq, not_lt]; exact this.le
  simp only [r0, g0, Bool.and_self, Bool.false_eq_true, if_false, z]

theorem narrow_acceptable : AcceptableBounds [narrowLo, narrowHi] 1 := by
  refine ⟨by norm_num, by simp, fun _ _ _ _ => rfl, ?_, ?_, fun _ _ _ _ => rfl⟩
  · intro x hx
    simp at hx; subst hx
    show decide ((lit 0 : Fl rn53).val ≤ narrowLo.val) = true
    rw [fl_zero rn53_binary]
    norm_num [narrowLo]
  · intro i x y hi hx hy
    obtain rfl : i = 0 := by omega
    simp at hx hy; subst hx hy
    show decide (narrowLo.val < narrowHi.val) = true
    norm_num [narrowLo, narrowHi]

/-- **C69 fails for narrow groups**: the claim that rounded group means are close to exact group means needs a lower bound
for the width of a group.  In double precision, the group between `10^15` and the next number passes the validation of
group bounds.  Then every entry of both tables is the logarithm of a mean of zero, whatever the opacity and the number of
frequencies. -/
theorem C69_narrow_false {O : Type} [PhotonAPI (Fl rn53) O] (o : O) (N : ℤ) (hN : 2 ≤ N) (junk : ℕ → Fl rn53) :
    AcceptableBounds [narrowLo, narrowHi] 1 ∧
    ∃ m, MeanOpacityBase.construct exPC junk o ⟨0⟩ ⟨1⟩ 2 ⟨14⟩ ⟨16⟩ 2 [narrowLo, narrowHi] 1 N = ok m ∧
      ∀ i j : ℕ, i < 2 → j < 2 → m.t.lPlanck.read [(j : ℤ), (i : ℤ), 0] = ok (ToLog ⟨0⟩) ∧
        m.t.lRosseland.read [(j : ℤ), (i : ℤ), 0] = ok (ToLog ⟨0⟩) := by
  refine ⟨narrow_acceptable, ?_⟩
  obtain ⟨t, ht⟩ := Impl_returns (pc := exPC) (junk := junk) (coef := PhotonAPI.AbsorptionCoefficient o)
    (lRhoMin := (⟨0⟩ : Fl rn53)) (lRhoMax := ⟨1⟩) (NRho := 2) (lTMin := ⟨14⟩) (lTMax := ⟨16⟩) (NT := 2) (dflt := ⟨0⟩)
    (NNu := N) hN narrow_acceptable (fun _ _ _ _ _ _ => ⟨rfl, rfl⟩)
  have F := Impl_filled (⟨0⟩ : Fl rn53) ht
  refine ⟨⟨exPC, t⟩, ?_, fun i j hi hj => ?_⟩
  · unfold MeanOpacityBase.construct
    rw [ht]; rfl
  have hg : GridOK (⟨⟨14⟩, ⟨16⟩, 2⟩ : Grid (Fl rn53)) 16 :=
    ⟨by norm_num, by norm_num, by norm_num, by norm_num, by norm_num⟩
  have hx : FromLog ((⟨⟨14⟩, ⟨16⟩, 2⟩ : Grid (Fl rn53)).exact.x i) = (10 : ℝ) ^ ((i * 2 + 14 : ℕ) : ℝ) := by
    simp [FromLog, areal, Grid.x, Grid.dx, Grid.exact]
    norm_num
  have hT := node_pf hg rn53_binary (by norm_num) (le_refl 16) (by norm_num) (i := i) (by show (i : ℤ) < 2; exact_mod_cast hi)
  have hw := narrow_window hT (by norm_num) (by norm_num) (by
      rw [hx, Real.rpow_natCast]; exact pow_le_pow_right₀ (by norm_num) (by omega)) (by
      rw [hx, Real.rpow_natCast]; exact pow_le_pow_right₀ (by norm_num) (by omega))
  have c := F.cell i j 0 (by omega) (by omega) (by norm_num) trivial
  have k : cellMeans exPC (PhotonAPI.AbsorptionCoefficient o) [narrowLo, narrowHi] N
      (freshGrid ⟨0⟩ ⟨1⟩ 2 ⟨14⟩ ⟨16⟩ 2) ⟨0⟩ i j 0 = (⟨0⟩, ⟨0⟩) := by
    unfold cellMeans
    exact narrow_means hw N _ _
  rw [k] at c
  exact c

end Opac.Photons
