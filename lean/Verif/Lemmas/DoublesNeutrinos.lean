import Verif.Lemmas.DoublesPhotons
import Verif.Lemmas.AccuracyNeutrinos

/-! Neutrino opacities in double precision. -/

namespace Opac.Doubles
open Arith Accuracy Neutrinos

theorem rd64_neg (x : ℝ) : rd64 (-x) = -rd64 x := by
  unfold rd64
  rw [abs_neg]
  split_ifs
  · exact double64.near_neg x
  · rfl

theorem rd_eq_neg {l h : ℤ} {x : ℝ} (hl : -1022 ≤ l) (hh : h ≤ 1023) (hx : Bits l h x) :
    binary64.rd (-x) = .fin (-rd64 x) := by
  have hp : 0 < x := lt_of_lt_of_le (by positivity) hx.1
  have hb := near_bits hl hh hx
  have e : rd64 x = double64.near x := by
    unfold rd64
    rw [if_pos]
    rw [abs_of_pos hp]
    exact ⟨(zle hl).trans hx.1, hx.2.trans (zle hh)⟩
  rw [e, ← double64.near_neg]
  refine double64.rd_of_lt ?_
  rw [double64.near_neg, abs_neg, abs_of_pos (lt_of_lt_of_le (by positivity) hb.1)]
  refine lt_of_le_of_lt (hb.2.trans (zle hh)) ?_
  exact zpow_lt_zpow_right₀ (by norm_num) (show (1023 : ℤ) < 1024 by norm_num)

/-- `3 g g`, whatever the sign of `g` -/
theorem square_sim {g : ℝ} (hg : Bits (-4) 4 |g|) :
    Sim (-7) 10 (lit 3 * dbl g * dbl g) (lit 3 * ⟨g⟩ * ⟨g⟩ : Fl rd64) := by
  have s3 := Sim.lit 3 1 2
  have sg : Sim (-4) 4 (dbl |g|) (⟨|g|⟩ : Fl rd64) := ⟨rfl, hg⟩
  have s := ((s3.mul sg).mul sg).mono (l' := -7) (h' := 10) (by norm_num) (by norm_num)
  rcases le_or_gt 0 g with h | h
  · rw [abs_of_nonneg h] at s
    exact s
  · rw [abs_of_neg h] at s sg
    have hb : Bits (-3) 6 ((lit 3 : Fl rd64).val * -g) := by
      have h1 := s3.2
      have h2 := sg.2
      have := s3.pos
      have := sg.pos
      simp only at this h2
      constructor
      · rw [show (-3 : ℤ) = 1 + -4 by norm_num, zpow_add₀ (by norm_num)]
        exact mul_le_mul h1.1 h2.1 (by positivity) s3.pos.le
      · rw [show (6 : ℤ) = 2 + 4 by norm_num, zpow_add₀ (by norm_num)]
        exact mul_le_mul h1.2 h2.2 this.le (by positivity)
    have e1 : (lit 3 * dbl g : IE binary64).val = .fin (-rd64 ((lit 3 : Fl rd64).val * -g)) := by
      show IE.round binary64 (XR.mul (lit 3 : IE binary64).val (.fin g)) = _
      rw [s3.1]
      show binary64.rd ((lit 3 : Fl rd64).val * g) = _
      rw [show (lit 3 : Fl rd64).val * g = -((lit 3 : Fl rd64).val * -g) by ring]
      exact rd_eq_neg (by norm_num) (by norm_num) hb
    have e2 : (lit 3 * dbl (-g) : IE binary64).val = .fin (rd64 ((lit 3 : Fl rd64).val * -g)) := (s3.mul sg).1
    have e3 : (lit 3 * dbl g * dbl g : IE binary64).val = (lit 3 * dbl (-g) * dbl (-g) : IE binary64).val := by
      show IE.round binary64 (XR.mul (lit 3 * dbl g : IE binary64).val (.fin g)) =
        IE.round binary64 (XR.mul (lit 3 * dbl (-g) : IE binary64).val (.fin (-g)))
      rw [e1, e2]
      show IE.round binary64 (.fin (_ * g)) = IE.round binary64 (.fin (_ * -g))
      rw [neg_mul, ← mul_neg]
    have e4 : (lit 3 * ⟨g⟩ * ⟨g⟩ : Fl rd64).val = (lit 3 * ⟨-g⟩ * ⟨-g⟩ : Fl rd64).val := by
      show rd64 (rd64 ((lit 3 : Fl rd64).val * g) * g) = rd64 (rd64 ((lit 3 : Fl rd64).val * -g) * -g)
      rw [mul_neg (lit 3 : Fl rd64).val, rd64_neg, neg_mul_neg]
    exact ⟨by rw [e3, e4]; exact s.1, by rw [e4]; exact s.2⟩

/-- a positive result of rounded arithmetic, or zero -/
def SimZ (l h : ℤ) (a : IE binary64) (b : Fl rd64) : Prop := Sim l h a b ∨ (a.val = .fin 0 ∧ b.val = 0)

namespace SimZ
variable {l h l' h' : ℤ} {a a' : IE binary64} {b b' : Fl rd64}

theorem mono (s : SimZ l h a b) (h1 : l' ≤ l) (h2 : h ≤ h') : SimZ l' h' a b := s.imp (fun s => s.mono h1 h2) id

theorem mul (s : SimZ l h a b) (s' : Sim l' h' a' b') (hl : -1022 ≤ l + l' := by norm_num)
    (hh : h + h' ≤ 1023 := by norm_num) : SimZ (l + l') (h + h') (a * a') (b * b') := by
  rcases s with s | ⟨h1, h2⟩
  · exact .inl (s.mul s' hl hh)
  · refine .inr ⟨?_, ?_⟩
    · show IE.round binary64 (XR.mul a.val a'.val) = _
      rw [h1, s'.1]
      simp [XR.mul, IE.round, binary64.rd_zero]
    · show rd64 (b.val * b'.val) = 0
      rw [h2, zero_mul]
      simpa using rd64_binary.ints 0 (by norm_num)

theorem mul' (s' : Sim l' h' a' b') (s : SimZ l h a b) (hl : -1022 ≤ l' + l := by norm_num)
    (hh : h' + h ≤ 1023 := by norm_num) : SimZ (l' + l) (h' + h) (a' * a) (b' * b) := by
  rcases s with s | ⟨h1, h2⟩
  · exact .inl (s'.mul s hl hh)
  · refine .inr ⟨?_, ?_⟩
    · show IE.round binary64 (XR.mul a'.val a.val) = _
      rw [h1, s'.1]
      simp [XR.mul, IE.round, binary64.rd_zero]
    · show rd64 (b'.val * b.val) = 0
      rw [h2, mul_zero]
      simpa using rd64_binary.ints 0 (by norm_num)

theorem zero : SimZ l h (lit 0 : IE binary64) (lit 0 : Fl rd64) := .inr ⟨lit0_ie, rd_zero rd64_binary⟩

end SimZ

/-- what is claimed of a pair of objects: the double-precision results are those of rounded arithmetic -/
structure SafeN (k : ℝ) {O O' : Type} (i : NeutrinoAPI (IE binary64) O) (i' : NeutrinoAPI (Fl rd64) O') (o : O) (o' : O')
    (n : ℕ) (D : Domain) (L H E F l h : ℤ) : Prop where
  spectral : ∀ (fn : VFn) (type : RadiationType) ⦃rho T Y nu : IE binary64⦄ ⦃rho' T' Y' nu' : Fl rd64⦄ ⦃ρ T₀ ν : ℝ⦄,
    Near k rho rho' ρ → Near k T T' T₀ → Near k nu nu' ν → D.dens ρ → D.temp T₀ → D.freq T₀ ν →
    SameEnd (SimZ L H) (scalarFn i o fn rho T Y type nu) (scalarFn i' o' fn rho' T' Y' type nu')
  thermal : ∀ (type : RadiationType) ⦃T nu : IE binary64⦄ ⦃T' nu' : Fl rd64⦄ ⦃T₀ ν : ℝ⦄, Near k T T' T₀ → Near k nu nu' ν →
    D.temp T₀ → D.freq T₀ ν → Sim l h (i.ThermalDistributionOfTNu o T type nu) (i'.ThermalDistributionOfTNu o' T' type nu')
  derivative : ∀ (type : RadiationType) ⦃T nu : IE binary64⦄ ⦃T' nu' : Fl rd64⦄ ⦃T₀ ν : ℝ⦄, n = 0 → Near k T T' T₀ →
    Near k nu nu' ν → D.temp T₀ → D.freq T₀ ν →
    Sim L H (i.DThermalDistributionOfTNuDT o T type nu) (i'.DThermalDistributionOfTNuDT o' T' type nu')
  emissivity : ∀ (type : RadiationType) ⦃rho T Y : IE binary64⦄ ⦃rho' T' Y' : Fl rd64⦄ ⦃ρ T₀ : ℝ⦄, Near k rho rho' ρ →
    Near k T T' T₀ → D.dens ρ → D.temp T₀ →
    SameEnd (SimZ E F) (i.Emissivity o rho T Y type) (i'.Emissivity o' rho' T' Y' type) ∧
    SameEnd (SimZ E F) (i.NumberEmissivity o rho T Y type) (i'.NumberEmissivity o' rho' T' Y' type)
  totals : ∀ (type : RadiationType) ⦃T : IE binary64⦄ ⦃T' : Fl rd64⦄ ⦃T₀ : ℝ⦄, Near k T T' T₀ → D.temp T₀ →
    Sim l h (i.ThermalDistributionOfT o T type) (i'.ThermalDistributionOfT o' T' type) ∧
    Sim l h (i.ThermalNumberDistributionOfT o T type) (i'.ThermalNumberDistributionOfT o' T' type) ∧
    Sim l h (i.EnergyDensityFromTemperature o T type) (i'.EnergyDensityFromTemperature o' T' type) ∧
    Sim l h (i.NumberDensityFromTemperature o T type) (i'.NumberDensityFromTemperature o' T' type)
  inverse : ∀ (type : RadiationType) ⦃e : IE binary64⦄ ⦃e' : Fl rd64⦄ ⦃e₀ : ℝ⦄, Near k e e' e₀ → D.energy e₀ →
    Sim l h (i.TemperatureFromEnergyDensity o e type) (i'.TemperatureFromEnergyDensity o' e' type)

/-- the distribution, for rounded arithmetic -/
noncomputable def flD (d : FermiDirac ℝ) : FermiDirac (Fl rd64) := ⟨d.NSPECIES, fl d.pc⟩

section base
variable {d : FermiDirac ℝ} {pc : PC ℝ} (hd : CgsSized d.pc) (hN : 0 < d.NSPECIES) (hN' : d.NSPECIES ≤ 16) (hpc : CgsSized pc)
  {rho T nu e : IE binary64} {rho' T' nu' e' : Fl rd64} {ρ T₀ ν e₀ : ℝ}

theorem species_sim {N : ℤ} (hN : 0 < N) (hN' : N ≤ 16) : Sim 0 4 (lit N : IE binary64) (lit N : Fl rd64) := by
  refine Sim.lit (N : ℚ) 0 4 ?_ ?_
  · rw [Rat.cast_intCast, zpow_zero]; exact_mod_cast hN
  · rw [Rat.cast_intCast]
    have : (N : ℝ) ≤ 16 := by exact_mod_cast hN'
    norm_num
    linarith

include hd hN hN'

theorem FB_sim (hT : Near 8 T T' T₀) (hn : Near 8 nu nu' ν) (dT : (cgsDomain d.pc).temp T₀)
    (dn : (cgsDomain d.pc).freq T₀ ν) :
    Sim (-410) 290 (d.dbl.ThermalDistributionOfTNu T nu) ((flD d).ThermalDistributionOfTNu T' nu') := by
  have sn := freq_sim hn dn
  have sx := (x_sim hd (temp_sim hT dT) sn).exp (x_le hd hT.2 hn.2 dn.2)
  unfold FermiDirac.ThermalDistributionOfTNu
  exact ((((species_sim hN hN').mul (((((Sim.lit 2 1 1).mul (sh hd)).mul sn).mul sn).mul sn |>.div
    ((sc hd).mul (sc hd)))).mul (Sim.lit 1 0 0)).div (sx.add (Sim.lit 1 0 0) 186)).mono (by norm_num) (by norm_num)

theorem FdB_sim (hT : Near 8 T T' T₀) (hn : Near 8 nu nu' ν) (dT : (cgsDomain d.pc).temp T₀)
    (dn : (cgsDomain d.pc).freq T₀ ν) :
    Sim (-870) 620 (d.dbl.DThermalDistributionOfTNuDT T nu) ((flD d).DThermalDistributionOfTNuDT T' nu') := by
  have sn := freq_sim hn dn
  have sT := temp_sim hT dT
  have sx := (x_sim hd sT sn).exp_neg (x_le hd hT.2 hn.2 dn.2)
  have sd := (Sim.lit 1 0 0).add sx 1
  unfold FermiDirac.DThermalDistributionOfTNuDT
  exact ((((species_sim hN hN').mul ((((((Sim.lit 2 1 1).mul (sh hd)).mul (sh hd)).mul sn).mul sn).mul sn |>.mul sn |>.div
    ((((sT.mul sT).mul (sc hd)).mul (sc hd)).mul (skb hd)))).mul sx).div (sd.mul sd)).mono (by norm_num) (by norm_num)

theorem FBT_sim (hT : Near 8 T T' T₀) (dT : (cgsDomain d.pc).temp T₀) :
    Sim (-150) 260 (d.dbl.ThermalDistributionOfT T) ((flD d).ThermalDistributionOfT T') := by
  have sT := temp_sim hT dT
  unfold FermiDirac.ThermalDistributionOfT
  exact ((((((Sim.lit 7 2 3).mul (Sim.pi.powInt 5 5)).mul ((skb hd).powInt 4 4)).mul (species_sim hN hN')).mul
    (sT.powInt 4 4)).div (((Sim.lit 15 3 4).mul ((sc hd).powInt 2 2)).mul ((sh hd).powInt 3 3))).mono (by norm_num)
    (by norm_num)

theorem FNT_sim (hT : Near 8 T T' T₀) (dT : (cgsDomain d.pc).temp T₀) :
    Sim (-80) 260 (d.dbl.ThermalNumberDistributionOfT T) ((flD d).ThermalNumberDistributionOfT T') := by
  have sT := temp_sim hT dT
  unfold FermiDirac.ThermalNumberDistributionOfT
  exact (((((((Sim.lit 12 3 4).mul ((skb hd).powInt 3 3)).mul Sim.pi).mul (species_sim hN hN')).mul (sT.powInt 3 3)).mul
    (Sim.lit 1.20206 0 1)).div (((sc hd).powInt 2 2).mul ((sh hd).powInt 3 3))).mono (by norm_num) (by norm_num)

theorem FTE_sim (he : Near 8 e e' e₀) (de : (cgsDomain d.pc).energy e₀) :
    Sim (-45) 100 (d.dbl.TemperatureFromEnergyDensity e) ((flD d).TemperatureFromEnergyDensity e') := by
  have se := energy_sim he de
  unfold FermiDirac.TemperatureFromEnergyDensity
  have s := ((((Sim.lit 15 3 4).mul ((sc hd).powInt 3 3)).mul ((sh hd).powInt 3 3)).mul se).div
    ((((Sim.lit 7 2 3).mul (Sim.pi.powInt 5 5)).mul ((skb hd).powInt 4 4)).mul (species_sim hN hN'))
  have q : Sim (-2) (-2) (lit 1 / lit 4 : IE binary64) (lit 1 / lit 4 : Fl rd64) :=
    ((Sim.lit 1 0 0).div (Sim.lit 4 2 2)).mono (by norm_num) (by norm_num)
  have e : (lit 1 / lit 4 : Fl rd64).val = 1 / 4 := by rw [lit14 rd64_binary]; simp [areal]
  obtain ⟨b1, b2⟩ := s.log_bounds
  refine s.pow q.1 ?_ ?_
  · rw [e]; push_cast at b1 ⊢; linarith
  · rw [e]; push_cast at b2 ⊢; linarith

theorem Ftotals_safe (hT : Near 8 T T' T₀) (dT : (cgsDomain d.pc).temp T₀) :
    Sim (-420) 300 (d.dbl.ThermalDistributionOfT T) ((flD d).ThermalDistributionOfT T') ∧
    Sim (-420) 300 (d.dbl.ThermalNumberDistributionOfT T) ((flD d).ThermalNumberDistributionOfT T') ∧
    Sim (-420) 300 (d.dbl.EnergyDensityFromTemperature T) ((flD d).EnergyDensityFromTemperature T') ∧
    Sim (-420) 300 (d.dbl.NumberDensityFromTemperature T) ((flD d).NumberDensityFromTemperature T') := by
  have s1 := FBT_sim hd hN hN' hT dT
  have s2 := FNT_sim hd hN hN' hT dT
  exact ⟨s1.mono (by norm_num) (by norm_num), s2.mono (by norm_num) (by norm_num),
    (s1.div (sc hd)).mono (by norm_num) (by norm_num), (s2.div (sc hd)).mono (by norm_num) (by norm_num)⟩

theorem grayN_safe {k : ℝ} (hk : Bits (-60) 60 k) :
    SafeN 8 (inferInstance : NeutrinoAPI (IE binary64) (GrayOpacity (IE binary64)))
      (inferInstance : NeutrinoAPI (Fl rd64) (GrayOpacity (Fl rd64))) ⟨d.dbl, pc.dbl, dbl k⟩ ⟨flD d, fl pc, ⟨k⟩⟩ 0
      (cgsDomain d.pc) (-870) 620 (-500) 600 (-420) 300 where
  spectral fn type rho T Y nu rho' T' Y' nu' ρ T₀ ν hρ hT hn dρ dT dn := by
    have sk : Sim (-60) 60 (dbl k) (⟨k⟩ : Fl rd64) := ⟨rfl, hk⟩
    have a := (dens_sim hρ dρ).mul sk
    have b := a.mul (FB_sim hd hN hN' hT hn dT dn)
    cases fn
    · exact .inl (a.mono (by norm_num) (by norm_num))
    · exact .inl (a.mono (by norm_num) (by norm_num))
    · exact .inl (b.mono (by norm_num) (by norm_num))
    · exact .inl ((four_pi_sim.mul b).mono (by norm_num) (by norm_num))
  thermal _ T nu T' nu' T₀ ν hT hn dT dn := (FB_sim hd hN hN' hT hn dT dn).mono (by norm_num) (by norm_num)
  derivative _ T nu T' nu' T₀ ν _ hT hn dT dn := FdB_sim hd hN hN' hT hn dT dn
  emissivity type rho T Y rho' T' Y' ρ T₀ hρ hT dρ dT := by
    have sk : Sim (-60) 60 (dbl k) (⟨k⟩ : Fl rd64) := ⟨rfl, hk⟩
    exact ⟨.inl ((((dens_sim hρ dρ).mul sk).mul (FBT_sim hd hN hN' hT dT)).mono (by norm_num) (by norm_num)),
      .inl ((sk.mul (FNT_sim hd hN hN' hT dT)).mono (by norm_num) (by norm_num))⟩
  totals _ T T' T₀ hT dT := Ftotals_safe hd hN hN' hT dT
  inverse _ e e' e₀ he de := (FTE_sim hd hN hN' he de).mono (by norm_num) (by norm_num)

omit hd hN hN'
include hpc

theorem gA_sim : Sim 0 11 (lit 1 + lit 3 * pc.dbl.gA * pc.dbl.gA) (lit 1 + lit 3 * (fl pc).gA * (fl pc).gA) :=
  (Sim.lit 1 0 0).add (square_sim hpc.gA) 11

theorem sigma0_sim : Sim (-250) (-140) pc.dbl.nu_sigma0 (fl pc).nu_sigma0 := ⟨rfl, hpc.sigma0⟩

omit hpc in
theorem delta_sim : Sim (-19) (-18) (BRTOpacity.Deltanp_ : IE binary64) (BRTOpacity.Deltanp_ : Fl rd64) :=
  Sim.lit 2.072126995e-6 (-19) (-18)

theorem sigmac_sim (type : RadiationType) (sn : Sim (-21) 101 nu nu') :
    SimZ (-275) (-25) (BRTOpacity.GetSigmac ⟨d.dbl, pc.dbl⟩ type nu) (BRTOpacity.GetSigmac ⟨flD d, fl pc⟩ type nu') := by
  have s := ((sigma0_sim hpc).mul ((gA_sim hpc).div (Sim.lit 4 2 2))).mul
    ((((delta_sim.add ((sh hpc).mul sn) 22)).div (((sme hpc).mul (sc hpc)).mul (sc hpc))).powInt 2 2)
  have comm1 : (pc.dbl.h * nu + BRTOpacity.Deltanp_ : IE binary64) = BRTOpacity.Deltanp_ + pc.dbl.h * nu := by
    have a := ((sh hpc).mul sn).1
    have b := delta_sim.1
    show (⟨IE.round binary64 (XR.add (pc.dbl.h * nu : IE binary64).val (BRTOpacity.Deltanp_ : IE binary64).val)⟩ : IE binary64) =
      ⟨IE.round binary64 (XR.add (BRTOpacity.Deltanp_ : IE binary64).val (pc.dbl.h * nu : IE binary64).val)⟩
    rw [a, b]
    simp only [XR.add]
    rw [add_comm]
  have comm2 : ((fl pc).h * nu' + BRTOpacity.Deltanp_ : Fl rd64) = BRTOpacity.Deltanp_ + (fl pc).h * nu' := by
    show (⟨rd64 (_ + _)⟩ : Fl rd64) = ⟨rd64 (_ + _)⟩
    rw [add_comm]
  cases type with
  | NU_ELECTRON =>
    refine .inl ?_
    unfold BRTOpacity.GetSigmac
    rw [comm1, comm2]
    exact s.mono (by norm_num) (by norm_num)
  | _ => exact SimZ.zero

theorem alphac_sim (type : RadiationType) (sρ : Sim (-61) 61 rho rho') (sT : Sim (-21) 61 T T') :
    SimZ (-500) 480 (BRTOpacity.GetAlphac ⟨d.dbl, pc.dbl⟩ rho T type) (BRTOpacity.GetAlphac ⟨flD d, fl pc⟩ rho' T' type) := by
  have sk := (skb hpc).mul sT
  have h1 := ((Sim.lit 310 8 9).mul (sk.powInt 2 2)).mul (Sim.pi.powInt 6 6)
  have h2 := (((Sim.lit 147 7 8).mul (Sim.pi.powInt 4 4)).mul delta_sim).mul delta_sim
  have h3 := ((((Sim.lit 113400 16 17).mul (skb hpc)).mul sT).mul delta_sim).mul (Sim.lit 1.0369277551433699263 0 1)
  have h4 := (h1.add h2 60).add h3 61
  have hd := (((((Sim.lit 5040 12 13).mul ((sc hpc).powInt 6 6))).mul ((sh hpc).powInt 3 3)).mul ((sme hpc).powInt 2 2)).mul
    (smp hpc)
  have s := (((((gA_sim hpc).mul (sk.powInt 4 4)).mul sρ).mul (sigma0_sim hpc)).mul h4).div hd
  cases type with
  | NU_ELECTRON => exact .inl (s.mono (by norm_num) (by norm_num))
  | _ => exact SimZ.zero

theorem nalphac_sim (type : RadiationType) (sρ : Sim (-61) 61 rho rho') (sT : Sim (-21) 61 T T') :
    Sim (-480) 480 (BRTOpacity.GetNAlphac ⟨d.dbl, pc.dbl⟩ rho T type) (BRTOpacity.GetNAlphac ⟨flD d, fl pc⟩ rho' T' type) := by
  have sk := (skb hpc).mul sT
  have h1 := ((((Sim.lit 7 2 3).mul (skb hpc)).mul (Sim.pi.powInt 4 4)).mul sT).mul delta_sim
  have h2 := ((Sim.lit 90 6 7).mul (delta_sim.powInt 2 2)).mul (Sim.lit 1.2020569031595942853 0 1)
  have h3 := ((Sim.lit 1350 10 11).mul (sk.powInt 2 2)).mul (Sim.lit 1.0369277551433699263 0 1)
  have h4 := (h1.add h2 60).add h3 61
  have hd := (((((Sim.lit 120 6 7).mul ((sc hpc).powInt 6 6))).mul ((sh hpc).powInt 3 3)).mul ((sme hpc).powInt 2 2)).mul
    (smp hpc)
  have s := (((((gA_sim hpc).mul (sk.powInt 3 3)).mul sρ).mul (sigma0_sim hpc)).mul h4).div hd
  exact s.mono (by norm_num) (by norm_num)

include hd hN hN'

theorem brt_safe :
    SafeN 8 (inferInstance : NeutrinoAPI (IE binary64) (BRTOpacity (IE binary64)))
      (inferInstance : NeutrinoAPI (Fl rd64) (BRTOpacity (Fl rd64))) ⟨d.dbl, pc.dbl⟩ ⟨flD d, fl pc⟩ 0
      (cgsDomain d.pc) (-870) 620 (-500) 600 (-420) 300 where
  spectral fn type rho T Y nu rho' T' Y' nu' ρ T₀ ν hρ hT hn dρ dT dn := by
    have a := SimZ.mul' ((dens_sim hρ dρ).div (smp hpc)) (sigmac_sim (d := d) hpc type (freq_sim hn dn))
    have b := a.mul (FB_sim hd hN hN' hT hn dT dn)
    cases fn
    · exact a.mono (by norm_num) (by norm_num)
    · exact a.mono (by norm_num) (by norm_num)
    · exact b.mono (by norm_num) (by norm_num)
    · exact (SimZ.mul' four_pi_sim b).mono (by norm_num) (by norm_num)
  thermal _ T nu T' nu' T₀ ν hT hn dT dn := (FB_sim hd hN hN' hT hn dT dn).mono (by norm_num) (by norm_num)
  derivative _ T nu T' nu' T₀ ν _ hT hn dT dn := FdB_sim hd hN hN' hT hn dT dn
  emissivity type rho T Y rho' T' Y' ρ T₀ hρ hT dρ dT :=
    ⟨(SimZ.mul' four_pi_sim (alphac_sim (d := d) hpc type (dens_sim hρ dρ) (temp_sim hT dT))).mono (by norm_num) (by norm_num),
      .inl ((four_pi_sim.mul (nalphac_sim (d := d) hpc type (dens_sim hρ dρ) (temp_sim hT dT))).mono (by norm_num)
        (by norm_num))⟩
  totals _ T T' T₀ hT dT := Ftotals_safe hd hN hN' hT dT
  inverse _ e e' e₀ he de := (FTE_sim hd hN hN' he de).mono (by norm_num) (by norm_num)

end base

section wrapper
variable {O O' : Type} {i : NeutrinoAPI (IE binary64) O} {i' : NeutrinoAPI (Fl rd64) O'} {o : O} {o' : O'} {D : Domain}
  {t m l te : ℝ}

theorem nonCGSN_safe (hu : UnitSized t m l te)
    (hD : (∀ x, D.dens x → Bits (-60) 60 x) ∧ (∀ x, D.temp x → Bits (-20) 60 x) ∧
      (∀ T x, D.freq T x → Bits (-20) 100 x) ∧ ∀ x, D.energy x → Bits (-150) 250 x)
    (H : SafeN 8 i i' o o' 0 D (-870) 620 (-500) 600 (-420) 300) :
    SafeN 4 (inferInstance : NeutrinoAPI (IE binary64) (NonCGSUnits (IE binary64) O))
      (inferInstance : NeutrinoAPI (Fl rd64) (NonCGSUnits (Fl rd64) O'))
      (NonCGSUnits.construct o (dbl t) (dbl m) (dbl l) (dbl te)) (NonCGSUnits.construct o' ⟨t⟩ ⟨m⟩ ⟨l⟩ ⟨te⟩) 1
      (D.inUnits t m l te) (-1022) 1023 (-1022) 1023 (-1022) 1023 := by
  obtain ⟨st, sm, sl, ste, srho, sem, sen, snum, sint, crho, crho', cT, cT', cn, ce⟩ := conv hu hD
  exact
    { spectral := by
        intro fn type rho T Y nu rho' T' Y' nu' ρ T₀ ν hρ hT hn dρ dT dn
        cases fn
        · exact SameEnd.map (H.spectral .AbsorptionCoefficient type (crho' hρ dρ) (cT' hT dT) (cn hn dn) dρ dT dn)
            fun a b s => (s.mul sl).mono (by norm_num) (by norm_num)
        · exact SameEnd.map (H.spectral .AngleAveragedAbsorptionCoefficient type (crho hρ dρ) (cT hT dT) (cn hn dn) dρ dT dn)
            fun a b s => (s.mul sl).mono (by norm_num) (by norm_num)
        · exact SameEnd.map (H.spectral .EmissivityPerNuOmega type (crho hρ dρ) (cT hT dT) (cn hn dn) dρ dT dn)
            fun a b s => (s.mul sem).mono (by norm_num) (by norm_num)
        · exact SameEnd.map (H.spectral .EmissivityPerNu type (crho hρ dρ) (cT hT dT) (cn hn dn) dρ dT dn)
            fun a b s => (s.mul sem).mono (by norm_num) (by norm_num)
      thermal := fun type _ _ _ _ _ _ hT hn dT dn => ((H.thermal type (cT hT dT) (cn hn dn) dT dn).mul sint).mono (by norm_num)
        (by norm_num)
      derivative := fun _ _ _ _ _ _ _ h => absurd h (by norm_num)
      emissivity := fun type _ _ _ _ _ _ _ _ hρ hT dρ dT => by
        obtain ⟨h1, h2⟩ := H.emissivity type (crho hρ dρ) (cT hT dT) dρ dT
        exact ⟨SameEnd.map h1 fun a b s => ((s.mul sem).mul st).mono (by norm_num) (by norm_num),
          SameEnd.map h2 fun a b s => (s.mul snum).mono (by norm_num) (by norm_num)⟩
      totals := fun type T T' T₀ hT dT => by
        obtain ⟨h1, h2, h3, h4⟩ := H.totals type (cT hT dT) dT
        exact ⟨(((h1.mul sen).mul st).div sl).mono (by norm_num) (by norm_num),
          ((((h2.mul sm).div srho).mul st).div sl).mono (by norm_num) (by norm_num),
          (h3.mul sen).mono (by norm_num) (by norm_num), ((h4.mul sm).div srho).mono (by norm_num) (by norm_num)⟩
      inverse := fun type _ _ _ he de => ((H.inverse type (ce he de) de).div ste).mono (by norm_num) (by norm_num) }

end wrapper

/-- everything known of a pair of the specification -/
structure GoodN {O O' : Type} (i : NeutrinoAPI (IE binary64) O) (i' : NeutrinoAPI ℝ O') (o : O) (o' : O') (n : ℕ)
    (D : Domain) : Prop where
  le_one : n ≤ 1
  dens_pos : ∀ x, D.dens x → 0 < x
  temp_pos : ∀ x, D.temp x → 0 < x
  freq_pos : ∀ T x, D.freq T x → 0 < x
  energy_pos : ∀ x, D.energy x → 0 < x
  size : n = 0 → (∀ x, D.dens x → Bits (-60) 60 x) ∧ (∀ x, D.temp x → Bits (-20) 60 x) ∧
      (∀ T x, D.freq T x → Bits (-20) 100 x) ∧ ∀ x, D.energy x → Bits (-150) 250 x
  mid : ∃ (O'' : Type) (i'' : NeutrinoAPI (Fl rd64) O'') (o'' : O'') (K : ℝ), AccN u64 i'' i' o'' o' n K ∧
    SafeN 4 i i'' o o'' n D (-1022) 1023 (-1022) 1023 (-1022) 1023 ∧
    (n = 0 → SafeN 8 i i'' o o'' n D (-870) 620 (-500) 600 (-420) 300) ∧
    ∀ T x, D.temp T → D.freq T x → K * x / T ≤ 120

theorem SafeN.weaken {O O'' : Type} {i : NeutrinoAPI (IE binary64) O} {i'' : NeutrinoAPI (Fl rd64) O''} {o : O} {o'' : O''}
    {n : ℕ} {D : Domain} (H : SafeN 8 i i'' o o'' n D (-870) 620 (-500) 600 (-420) 300) :
    SafeN 4 i i'' o o'' n D (-1022) 1023 (-1022) 1023 (-1022) 1023 := by
  have w : ∀ {a : IE binary64} {b : Fl rd64} {x : ℝ}, Near 4 a b x → Near 8 a b x := fun h => h.mono (by norm_num)
  exact
    { spectral := fun fn type _ _ _ _ _ _ _ _ _ _ _ h1 h2 h3 d1 d2 d3 =>
        sameEnd_mono (fun _ _ s => s.mono (by norm_num) (by norm_num)) (H.spectral fn type (w h1) (w h2) (w h3) d1 d2 d3)
      thermal := fun type _ _ _ _ _ _ h1 h2 d1 d2 => (H.thermal type (w h1) (w h2) d1 d2).mono (by norm_num) (by norm_num)
      derivative := fun type _ _ _ _ _ _ h0 h1 h2 d1 d2 => (H.derivative type h0 (w h1) (w h2) d1 d2).mono (by norm_num) (by norm_num)
      emissivity := fun type _ _ _ _ _ _ _ _ h1 h2 d1 d2 => by
        obtain ⟨a, b⟩ := H.emissivity type (w h1) (w h2) d1 d2
        exact ⟨sameEnd_mono (fun _ _ s => s.mono (by norm_num) (by norm_num)) a,
          sameEnd_mono (fun _ _ s => s.mono (by norm_num) (by norm_num)) b⟩
      totals := fun type _ _ _ h1 d1 => by
        obtain ⟨a, b, c, d⟩ := H.totals type (w h1) d1
        exact ⟨a.mono (by norm_num) (by norm_num), b.mono (by norm_num) (by norm_num), c.mono (by norm_num) (by norm_num),
          d.mono (by norm_num) (by norm_num)⟩
      inverse := fun type _ _ _ h1 d1 => (H.inverse type (w h1) d1).mono (by norm_num) (by norm_num) }

theorem cgs_goodN {O O' O'' : Type} {i : NeutrinoAPI (IE binary64) O} {i' : NeutrinoAPI ℝ O'} {o : O} {o' : O'} {pc : PC ℝ}
    (hpc : CgsSized pc) {i'' : NeutrinoAPI (Fl rd64) O''} {o'' : O''} (A : AccN u64 i'' i' o'' o' 0 (pc.h / pc.kb))
    (B : SafeN 8 i i'' o o'' 0 (cgsDomain pc) (-870) 620 (-500) 600 (-420) 300) : GoodN i i' o o' 0 (cgsDomain pc) where
  le_one := by norm_num
  dens_pos _ := Bits.pos
  temp_pos _ := Bits.pos
  freq_pos _ _ h := Bits.pos h.1
  energy_pos _ := Bits.pos
  size _ := ⟨fun _ => id, fun _ => id, fun _ _ h => h.1, fun _ => id⟩
  mid := ⟨O'', i'', o'', _, A, B.weaken, fun _ => B, fun _ _ hT h => cgs_x hpc hT h⟩

theorem doubledN_good {O O' : Type} {i : NeutrinoAPI (IE binary64) O} {i' : NeutrinoAPI ℝ O'} {o : O} {o' : O'} {n : ℕ}
    {D : Domain} (H : Doubled O O' i i' o o' n D) : GoodN i i' o o' n D := by
  induction H with
  | gray d pc k hN hN' hd hk =>
    exact cgs_goodN hd (grayN_acc rd64_binary (d := flD d) (pc := fl pc) hN (CgsSized.pos hd) ⟨k⟩ (Bits.pos hk))
      (grayN_safe hd hN hN' hk)
  | brt d pc hN hN' hd hpc =>
    exact cgs_goodN hd (brt_acc rd64_binary (d := flD d) (pc := fl pc) hN (CgsSized.pos hd) (CgsSized.pos hpc))
      (brt_safe hd hN hN' hpc)
  | nonCGS t m l te hu _ ih =>
    obtain ⟨O'', i'', o'', K, A, -, B, hx⟩ := ih.mid
    have t0 := Bits.pos hu.time
    have m0 := Bits.pos hu.mass
    have l0 := Bits.pos hu.length
    have te0 := Bits.pos hu.temp
    exact
      { le_one := le_rfl
        dens_pos := fun x h => (mul_pos_iff_of_pos_left (by positivity)).1 (ih.dens_pos _ h)
        temp_pos := fun x h => (mul_pos_iff_of_pos_right te0).1 (ih.temp_pos _ h)
        freq_pos := fun T x h => (div_pos_iff_of_pos_right t0).1 (ih.freq_pos _ _ h)
        energy_pos := fun x h => (div_pos_iff_of_pos_right (by positivity)).1 (ih.energy_pos _ h)
        size := fun h => absurd h (by norm_num)
        mid := ⟨_, _, _, _, nonCGSN_acc rd64_binary A (t := ⟨t⟩) (m := ⟨m⟩) (l := ⟨l⟩) (te := ⟨te⟩) t0 m0 l0 te0,
          nonCGSN_safe hu (ih.size rfl) (B rfl), fun h => absurd h (by norm_num), fun T x hT h => by
            have h1 := hx _ _ hT h
            have hT0 := (mul_pos_iff_of_pos_right te0).1 (ih.temp_pos _ hT)
            rwa [show K * (x / t) / (T * te) = K / (t * te) * x / T by field_simp] at h1⟩ }
  | vScaleFree _ ih | vBRTOpac _ ih | vGray _ ih | vNonCGSBRT _ ih | vNonCGSGray _ ih =>
    obtain ⟨O'', i'', o'', K, A, B, C, hx⟩ := ih.mid
    exact ⟨ih.le_one, ih.dens_pos, ih.temp_pos, ih.freq_pos, ih.energy_pos, ih.size, O'', i'', o'', K,
      ⟨A.K_pos, fun fn => by have := A.spectral fn; cases fn <;> exact this, A.thermal, A.derivative, A.emissivity, A.totals⟩,
      ⟨fun fn => by have := B.spectral fn; cases fn <;> exact this, B.thermal, B.derivative, B.emissivity, B.totals, B.inverse⟩,
      fun h => ⟨fun fn => by have := (C h).spectral fn; cases fn <;> exact this, (C h).thermal, (C h).derivative,
        (C h).emissivity, (C h).totals, (C h).inverse⟩, hx⟩

end Opac.Doubles
