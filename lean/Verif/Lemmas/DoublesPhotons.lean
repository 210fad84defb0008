import Verif.Lemmas.AccuracyPhotons
import Verif.Lemmas.Doubles
import Verif.Lemmas.Outcome

/-! Photon opacities of moderate size neither overflow nor underflow in double precision. -/

namespace Opac.Doubles
open Arith Photons Accuracy

noncomputable abbrev u64 : ℝ := 2 ^ (-53 : ℤ)

theorem unit_le : unit u64 ≤ 2 ^ (-52 : ℤ) := by
  unfold unit
  have h := Real.one_sub_inv_le_log_of_pos (show (0 : ℝ) < 1 - u64 by norm_num)
  have : (1 - u64)⁻¹ - 1 ≤ (2 : ℝ) ^ (-52 : ℤ) := by norm_num
  refine le_trans ?_ this
  generalize (1 - u64)⁻¹ = v at *
  generalize Real.log (1 - u64) = w at *
  linarith

/-- a number off by a few roundings is off by at most a hundredth -/
theorem PF.slack {n : ℝ} {b : Fl rd64} {x : ℝ} (h : PF u64 n b x) (hn : n ≤ 100) :
    x * (99 / 100) ≤ b.val ∧ b.val ≤ x * (101 / 100) := by
  have h0 := unit_nonneg rd64_binary.toRounding
  have h1 : n * unit u64 ≤ 1 / 200 := by
    refine (mul_le_mul_of_nonneg_right hn h0).trans ?_
    have h2 : 100 * (2 : ℝ) ^ (-52 : ℤ) ≤ 1 / 200 := by norm_num
    exact (mul_le_mul_of_nonneg_left unit_le (by norm_num)).trans h2
  have h2 := Close.sub_le h.1 h.2 (h1.trans (by norm_num))
  rw [abs_le] at h2
  have hp := h.1
  generalize unit u64 = w at *
  have h3 : 2 * x * (n * w) ≤ 2 * x * (1 / 200) := mul_le_mul_of_nonneg_left h1 (by linarith)
  constructor <;> linarith [h2.1, h2.2]

theorem Bits.slack {l h : ℤ} {x y : ℝ} (hx : Bits l h x) (h1 : x / 2 ≤ y) (h2 : y ≤ x * 2) : Bits (l - 1) (h + 1) y := by
  constructor
  · rw [zpow_sub_one₀ (by norm_num), ← div_eq_mul_inv]; linarith [hx.1]
  · rw [zpow_add_one₀ (by norm_num)]; linarith [hx.2]

/-- `a` is the number `b`, which is `x` up to `n` roundings -/
def Near (n : ℝ) (a : IE binary64) (b : Fl rd64) (x : ℝ) : Prop := a.val = .fin b.val ∧ PF u64 n b x

namespace Near
variable {n m : ℝ} {a a' : IE binary64} {b b' : Fl rd64} {x x' : ℝ} {l h : ℤ}

theorem exact (x : ℝ) (hx : 0 < x) : Near 0 (dbl x) ⟨x⟩ x := ⟨rfl, PF.exact (rd := rd64) ⟨x⟩ hx⟩

theorem mono (s : Near n a b x) (hn : n ≤ m) : Near m a b x := ⟨s.1, s.2.mono rd64_binary hn⟩

theorem bits (s : Near n a b x) (hn : n ≤ 100) (hb : Bits l h x) : Bits (l - 1) (h + 1) b.val := by
  obtain ⟨h1, h2⟩ := PF.slack s.2 hn
  have := s.2.pos
  exact Bits.slack hb (by linarith) (by linarith)

theorem sim (s : Near n a b x) (hn : n ≤ 100) (hb : Bits l h x) : Sim (l - 1) (h + 1) a b := ⟨s.1, s.bits hn hb⟩

/-- a rounded result -/
theorem round {r : ℝ} (hr : Close (unit u64) n r x) (hx : 0 < x) (hn : n ≤ 100) (hb : Bits l h x) (hl : -1021 ≤ l)
    (hh : h ≤ 1022) (ha : a.val = binary64.rd r) : Near (n + 1) a ⟨rd64 r⟩ x := by
  have hs : Bits (l - 1) (h + 1) r := by
    obtain ⟨h1, h2⟩ := PF.slack (b := ⟨r⟩) ⟨hx, hr⟩ hn
    exact Bits.slack hb (by simp only at h1; linarith) (by simp only at h2; linarith)
  exact ⟨by rw [ha]; exact (rd_eq (by omega) (by omega) hs).1, hx, CF.round rd64_binary hr⟩

theorem mul (s : Near n a b x) (s' : Near m a' b' x') (hb : Bits l h (x * x')) (hn : n + m ≤ 100 := by norm_num)
    (hl : -1021 ≤ l := by norm_num) (hh : h ≤ 1022 := by norm_num) : Near (n + m + 1) (a * a') (b * b') (x * x') := by
  refine round (r := b.val * b'.val) (Close.mul s.2.2 s'.2.2) (mul_pos s.2.1 s'.2.1) hn hb hl hh ?_
  show IE.round binary64 (XR.mul a.val a'.val) = _
  rw [s.1, s'.1]
  rfl

theorem div (s : Near n a b x) (s' : Near m a' b' x') (hb : Bits l h (x / x')) (hn : n + m ≤ 100 := by norm_num)
    (hl : -1021 ≤ l := by norm_num) (hh : h ≤ 1022 := by norm_num) : Near (n + m + 1) (a / a') (b / b') (x / x') := by
  refine round (r := b.val / b'.val) (Close.div s.2.2 s'.2.2) (div_pos s.2.1 s'.2.1) hn hb hl hh ?_
  show IE.round binary64 (XR.div a.val a'.val) = _
  rw [s.1, s'.1]
  have h0 : b'.val ≠ 0 := s'.2.pos'.ne'
  simp [XR.div, h0, IE.round]

/-- adding an exact nonnegative number -/
theorem add_exact {y : ℝ} (s : Near n a b x) (hy : 0 ≤ y) (hb : Bits l h (x + y)) (h0 : 0 ≤ n) (hn : n ≤ 100 := by norm_num)
    (hl : -1021 ≤ l := by norm_num) (hh : h ≤ 1022 := by norm_num) : Near (n + 1) (a + dbl y) (b + ⟨y⟩) (x + y) := by
  refine round (r := b.val + y) (Close.add_exact (mul_nonneg h0 (unit_nonneg rd64_binary.toRounding)) s.2.1 hy s.2.2)
    (by have := s.2.1; linarith) hn hb hl hh ?_
  show IE.round binary64 (XR.add a.val (.fin y)) = _
  rw [s.1]
  rfl

end Near

/-- the constants, for rounded arithmetic -/
noncomputable def fl (pc : PC ℝ) : PC (Fl rd64) :=
  { na := ⟨pc.na⟩, alpha := ⟨pc.alpha⟩, h := ⟨pc.h⟩, hbar := ⟨pc.hbar⟩, kb := ⟨pc.kb⟩, r_gas := ⟨pc.r_gas⟩, qe := ⟨pc.qe⟩,
    c := ⟨pc.c⟩, g_newt := ⟨pc.g_newt⟩, me := ⟨pc.me⟩, mp := ⟨pc.mp⟩, mn := ⟨pc.mn⟩, amu := ⟨pc.amu⟩, sb := ⟨pc.sb⟩,
    ar := ⟨pc.ar⟩, eV := ⟨pc.eV⟩, Fc := ⟨pc.Fc⟩, nu_sigma0 := ⟨pc.nu_sigma0⟩, gA := ⟨pc.gA⟩ }

theorem fl_exact (pc : PC ℝ) : (fl pc).exact = pc := rfl

theorem Bits.pos {l h : ℤ} {x : ℝ} (hb : Bits l h x) : 0 < x := lt_of_lt_of_le (by positivity) hb.1

theorem CgsSized.pos {pc : PC ℝ} (h : CgsSized pc) : PosConsts (fl pc).exact :=
  ⟨Bits.pos h.h, Bits.pos h.hbar, Bits.pos h.kb, Bits.pos h.c, Bits.pos h.me, Bits.pos h.mp, Bits.pos h.qe,
    Bits.pos h.alpha, Bits.pos h.sigma0, abs_pos.1 (Bits.pos h.gA)⟩

section planck
variable {pc : PC ℝ} (hpc : CgsSized pc) {rho T nu e : IE binary64} {rho' T' nu' e' : Fl rd64}
include hpc

theorem sh : Sim (-90) (-80) pc.dbl.h (fl pc).h := ⟨rfl, hpc.h⟩
theorem skb : Sim (-56) (-50) pc.dbl.kb (fl pc).kb := ⟨rfl, hpc.kb⟩
theorem sc : Sim 34 36 pc.dbl.c (fl pc).c := ⟨rfl, hpc.c⟩
theorem sme : Sim (-92) (-88) pc.dbl.me (fl pc).me := ⟨rfl, hpc.me⟩
theorem smp : Sim (-82) (-76) pc.dbl.mp (fl pc).mp := ⟨rfl, hpc.mp⟩
theorem sqe : Sim (-34) (-28) pc.dbl.qe (fl pc).qe := ⟨rfl, hpc.qe⟩

theorem x_sim (sT : Sim (-21) 61 T T') (sn : Sim (-21) 101 nu nu') :
    Sim (-122) 98 (pc.dbl.h * nu / (pc.dbl.kb * T)) ((fl pc).h * nu' / ((fl pc).kb * T')) :=
  (((sh hpc).mul sn).div ((skb hpc).mul sT)).mono (by norm_num) (by norm_num)

theorem B_sim (sT : Sim (-21) 61 T T') (sn : Sim (-21) 101 nu nu')
    (hx : ((fl pc).h * nu' / ((fl pc).kb * T')).val ≤ 128) :
    Sim (-409) 278 (Planck.ThermalDistributionOfTNu pc.dbl T nu) (Planck.ThermalDistributionOfTNu (fl pc) T' nu') := by
  unfold Planck.ThermalDistributionOfTNu
  exact (((((((Sim.lit 2 1 1).mul (sh hpc)).mul sn).mul sn).mul sn).div ((sc hpc).mul (sc hpc))).mul (Sim.lit 1 0 0)).div
    ((x_sim hpc sT sn).expm1 hx) |>.mono (by norm_num) (by norm_num)

theorem dB_sim (sT : Sim (-21) 61 T T') (sn : Sim (-21) 101 nu nu')
    (hx : ((fl pc).h * nu' / ((fl pc).kb * T')).val ≤ 128) :
    Sim (-600) 600 (Planck.DThermalDistributionOfTNuDT pc.dbl T nu) (Planck.DThermalDistributionOfTNuDT (fl pc) T' nu') := by
  unfold Planck.DThermalDistributionOfTNuDT
  have s := (x_sim hpc sT sn).one_sub_exp
  exact (((((((((Sim.lit 2 1 1).mul (sh hpc)).mul (sh hpc)).mul sn).mul sn).mul sn).mul sn).div
    ((((sT.mul sT).mul (sc hpc)).mul (sc hpc)).mul (skb hpc))).mul ((x_sim hpc sT sn).exp_neg hx)).div (s.mul s) |>.mono
    (by norm_num) (by norm_num)

theorem BT_sim (sT : Sim (-21) 61 T T') :
    Sim (-136) 256 (Planck.ThermalDistributionOfT pc.dbl T) (Planck.ThermalDistributionOfT (fl pc) T') := by
  unfold Planck.ThermalDistributionOfT
  exact (((((Sim.lit 8 3 3).mul (Sim.pi.powInt 5 5)).mul ((skb hpc).powInt 4 4)).mul (sT.powInt 4 4)).div
    (((Sim.lit 15 3 4).mul ((sc hpc).powInt 2 2)).mul ((sh hpc).powInt 3 3))).mono (by norm_num) (by norm_num)

theorem NT_sim (sT : Sim (-21) 61 T T') :
    Sim (-60) 245 (Planck.ThermalNumberDistributionOfT pc.dbl T) (Planck.ThermalNumberDistributionOfT (fl pc) T') := by
  unfold Planck.ThermalNumberDistributionOfT
  exact ((((((Sim.lit 16 4 4).mul ((skb hpc).powInt 3 3)).mul Sim.pi).mul (sT.powInt 3 3)).mul (Sim.lit 1.20206 0 1)).div
    (((sc hpc).powInt 2 2).mul ((sh hpc).powInt 3 3))).mono (by norm_num) (by norm_num)

theorem EDT_sim (sT : Sim (-21) 61 T T') :
    Sim (-180) 256 (Planck.EnergyDensityFromTemperature pc.dbl T) (Planck.EnergyDensityFromTemperature (fl pc) T') :=
  ((BT_sim hpc sT).div (sc hpc)).mono (by norm_num) (by norm_num)

theorem NDT_sim (sT : Sim (-21) 61 T T') :
    Sim (-100) 256 (Planck.NumberDensityFromTemperature pc.dbl T) (Planck.NumberDensityFromTemperature (fl pc) T') :=
  ((NT_sim hpc sT).div (sc hpc)).mono (by norm_num) (by norm_num)

theorem TE_sim (se : Sim (-151) 251 e e') :
    Sim (-40) 100 (Planck.TemperatureFromEnergyDensity pc.dbl e) (Planck.TemperatureFromEnergyDensity (fl pc) e') := by
  unfold Planck.TemperatureFromEnergyDensity
  have s := ((((Sim.lit 15 3 4).mul ((sc hpc).powInt 3 3)).mul ((sh hpc).powInt 3 3)).mul se).div
    (((Sim.lit 8 3 3).mul (Sim.pi.powInt 5 5)).mul ((skb hpc).powInt 4 4))
  have q : Sim (-2) (-2) (lit 1 / lit 4 : IE binary64) (lit 1 / lit 4 : Fl rd64) :=
    ((Sim.lit 1 0 0).div (Sim.lit 4 2 2)).mono (by norm_num) (by norm_num)
  have e : (lit 1 / lit 4 : Fl rd64).val = 1 / 4 := by rw [lit14 rd64_binary]; simp [areal]
  obtain ⟨b1, b2⟩ := s.log_bounds
  refine s.pow q.1 ?_ ?_
  · rw [e]; push_cast at b1 ⊢; linarith
  · rw [e]; push_cast at b2 ⊢; linarith

theorem x_le {ν T₀ : ℝ} (hT : PF u64 8 T' T₀) (hn : PF u64 8 nu' ν) (hx : pc.h * ν / (pc.kb * T₀) ≤ 120) :
    ((fl pc).h * nu' / ((fl pc).kb * T')).val ≤ 128 := by
  have h := x_acc rd64_binary (CgsSized.pos hpc) hT hn
  rw [fl_exact] at h
  have := (PF.slack h (by norm_num)).2
  linarith

end planck

theorem four_pi_sim : Sim 3 4 (lit 4 * pi : IE binary64) (lit 4 * pi : Fl rd64) := (Sim.lit 4 2 2).mul Sim.pi

theorem lit0_ie : (lit 0 : IE binary64).val = .fin 0 := by
  show binary64.rd ((0 : ℚ) : ℝ) = _
  rw [Rat.cast_zero]
  exact binary64.rd_zero

theorem sgn_ie {l h : ℤ} {a : IE binary64} {b : Fl rd64} (s : Sim l h a b) : Robust.sgn a = 1 ∧ Robust.sgn b = 1 := by
  have hb := s.pos
  constructor
  · unfold Robust.sgn
    have h1 : le (lit 0) a = true := by
      show XR.le (lit 0 : IE binary64).val a.val = true
      rw [lit0_ie, s.1]
      simp [XR.le, hb.le]
    have h2 : lt a (lit 0) = false := by
      show XR.lt a.val (lit 0 : IE binary64).val = false
      rw [lit0_ie, s.1]
      simp [XR.lt, hb.le]
    rw [h1, h2]; rfl
  · unfold Robust.sgn
    have z := rd_zero rd64_binary
    have h1 : le (lit 0) b = true := by
      show decide ((lit 0 : Fl rd64).val ≤ b.val) = true
      rw [z]; exact decide_eq_true hb.le
    have h2 : lt b (lit 0) = false := by
      show decide (b.val < (lit 0 : Fl rd64).val) = false
      rw [z]; exact decide_eq_false (not_lt.2 hb.le)
    rw [h1, h2]; rfl

theorem ratio_sim {l h l' h' : ℤ} {a a' : IE binary64} {b b' : Fl rd64} (s : Sim l h a b) (s' : Sim l' h' a' b')
    (hl : -1022 ≤ l - (h' + 1) := by norm_num) (hh : h - l' ≤ 1023 := by norm_num) (h1 : -1022 ≤ l' := by norm_num)
    (h2 : h' + 1 ≤ 1023 := by norm_num) (h3 : -1018 ≤ h' := by norm_num) :
    Sim (l - (h' + 1)) (h - l') (Robust.ratio a a') (Robust.ratio b b') := by
  unfold Robust.ratio
  obtain ⟨e1, e2⟩ := sgn_ie s'
  rw [e1, e2]
  have hd : Sim (-1022) (-1022) (dmin : IE binary64) (dmin : Fl rd64) := by
    refine ⟨?_, le_rfl, le_rfl⟩
    show binary64.rd (2 ^ (-1022 : ℤ)) = .fin (2 ^ (-1022 : ℤ))
    have := (rd_eq (l := -1022) (h := -1022) (x := 2 ^ (-1022 : ℤ)) (by norm_num) (by norm_num) ⟨le_rfl, le_rfl⟩).1
    rwa [rd64_two (by norm_num)] at this
  have hs : Sim (-1022) (-1018) (lit (1 : ℤ) * Robust.SMALL : IE binary64) (lit (1 : ℤ) * Robust.SMALL : Fl rd64) :=
    ((Sim.lit ((1 : ℤ) : ℚ) 0 0).mul ((Sim.lit 10 3 4).mul hd)).mono (by norm_num) (by norm_num)
  exact s.div (s'.add hs (h' + 1) le_rfl (by omega) h1 h2) hl hh

/-- what is claimed of a pair of objects: the double-precision results are those of rounded arithmetic, with exponents
between `L` and `H` for opacities and emissivities, `E` and `F` for total emissivities, between `l` and `h` for the thermal distributions -/
structure Safe (k : ℝ) {O O' : Type} (i : PhotonAPI (IE binary64) O) (i' : PhotonAPI (Fl rd64) O') (o : O) (o' : O') (n : ℕ)
    (D : Domain) (L H E F l h : ℤ) : Prop where
  spectral : ∀ (fn : VFn) {rho T nu : IE binary64} {rho' T' nu' : Fl rd64} {ρ T₀ ν : ℝ}, Near k rho rho' ρ →
    Near k T T' T₀ → Near k nu nu' ν → D.dens ρ → D.temp T₀ → D.freq T₀ ν →
    Sim L H (scalarFn i o fn rho T nu) (scalarFn i' o' fn rho' T' nu')
  thermal : ∀ {T nu : IE binary64} {T' nu' : Fl rd64} {T₀ ν : ℝ}, Near k T T' T₀ → Near k nu nu' ν → D.temp T₀ →
    D.freq T₀ ν → Sim l h (i.ThermalDistributionOfTNu o T nu) (i'.ThermalDistributionOfTNu o' T' nu')
  derivative : ∀ {T nu : IE binary64} {T' nu' : Fl rd64} {T₀ ν : ℝ}, n = 0 → Near k T T' T₀ → Near k nu nu' ν →
    D.temp T₀ → D.freq T₀ ν →
    Sim L H (i.DThermalDistributionOfTNuDT o T nu) (i'.DThermalDistributionOfTNuDT o' T' nu')
  emissivity : ∀ {rho T : IE binary64} {rho' T' : Fl rd64} {ρ T₀ : ℝ}, Near k rho rho' ρ → Near k T T' T₀ → D.dens ρ →
    D.temp T₀ → SameEnd (Sim E F) (i.Emissivity o rho T) (i'.Emissivity o' rho' T')
  number : ∀ {rho T : IE binary64} {rho' T' : Fl rd64} {ρ T₀ : ℝ}, Near k rho rho' ρ → Near k T T' T₀ → D.dens ρ →
    D.temp T₀ → SameEnd (fun a b => (a.val = .pinf ∧ b.val = 0) ∨ Sim E F a b) (i.NumberEmissivity o rho T)
      (i'.NumberEmissivity o' rho' T')
  totals : ∀ {T : IE binary64} {T' : Fl rd64} {T₀ : ℝ}, Near k T T' T₀ → D.temp T₀ →
    Sim l h (i.ThermalDistributionOfT o T) (i'.ThermalDistributionOfT o' T') ∧
    Sim l h (i.ThermalNumberDistributionOfT o T) (i'.ThermalNumberDistributionOfT o' T') ∧
    Sim l h (i.EnergyDensityFromTemperature o T) (i'.EnergyDensityFromTemperature o' T') ∧
    Sim l h (i.NumberDensityFromTemperature o T) (i'.NumberDensityFromTemperature o' T')
  inverse : ∀ {e : IE binary64} {e' : Fl rd64} {e₀ : ℝ}, Near k e e' e₀ → D.energy e₀ →
    Sim l h (i.TemperatureFromEnergyDensity o e) (i'.TemperatureFromEnergyDensity o' e')

section base
variable {pc : PC ℝ} (hpc : CgsSized pc) {rho T nu e : IE binary64} {rho' T' nu' e' : Fl rd64} {ρ T₀ ν e₀ : ℝ}

theorem dens_sim (h : Near 8 rho rho' ρ) (hd : (cgsDomain pc).dens ρ) : Sim (-61) 61 rho rho' :=
  (h.sim (by norm_num) hd).mono (by norm_num) (by norm_num)
theorem temp_sim (h : Near 8 T T' T₀) (hd : (cgsDomain pc).temp T₀) : Sim (-21) 61 T T' :=
  (h.sim (by norm_num) hd).mono (by norm_num) (by norm_num)
theorem freq_sim (h : Near 8 nu nu' ν) (hd : (cgsDomain pc).freq T₀ ν) : Sim (-21) 101 nu nu' :=
  (h.sim (by norm_num) hd.1).mono (by norm_num) (by norm_num)
theorem energy_sim (h : Near 8 e e' e₀) (hd : (cgsDomain pc).energy e₀) : Sim (-151) 251 e e' :=
  (h.sim (by norm_num) hd).mono (by norm_num) (by norm_num)

include hpc

theorem thermal_safe (hT : Near 8 T T' T₀) (hn : Near 8 nu nu' ν) (dT : (cgsDomain pc).temp T₀)
    (dn : (cgsDomain pc).freq T₀ ν) :
    Sim (-409) 278 (Planck.ThermalDistributionOfTNu pc.dbl T nu) (Planck.ThermalDistributionOfTNu (fl pc) T' nu') :=
  B_sim hpc (temp_sim hT dT) (freq_sim hn dn) (x_le hpc hT.2 hn.2 dn.2)

theorem derivative_safe (hT : Near 8 T T' T₀) (hn : Near 8 nu nu' ν) (dT : (cgsDomain pc).temp T₀)
    (dn : (cgsDomain pc).freq T₀ ν) :
    Sim (-870) 620 (Planck.DThermalDistributionOfTNuDT pc.dbl T nu) (Planck.DThermalDistributionOfTNuDT (fl pc) T' nu') :=
  (dB_sim hpc (temp_sim hT dT) (freq_sim hn dn) (x_le hpc hT.2 hn.2 dn.2)).mono (by norm_num) (by norm_num)

theorem totals_safe (hT : Near 8 T T' T₀) (dT : (cgsDomain pc).temp T₀) :
    Sim (-420) 300 (Planck.ThermalDistributionOfT pc.dbl T) (Planck.ThermalDistributionOfT (fl pc) T') ∧
    Sim (-420) 300 (Planck.ThermalNumberDistributionOfT pc.dbl T) (Planck.ThermalNumberDistributionOfT (fl pc) T') ∧
    Sim (-420) 300 (Planck.EnergyDensityFromTemperature pc.dbl T) (Planck.EnergyDensityFromTemperature (fl pc) T') ∧
    Sim (-420) 300 (Planck.NumberDensityFromTemperature pc.dbl T) (Planck.NumberDensityFromTemperature (fl pc) T') := by
  have s := temp_sim hT dT
  exact ⟨(BT_sim hpc s).mono (by norm_num) (by norm_num), (NT_sim hpc s).mono (by norm_num) (by norm_num),
    (EDT_sim hpc s).mono (by norm_num) (by norm_num), (NDT_sim hpc s).mono (by norm_num) (by norm_num)⟩

theorem inverse_safe (he : Near 8 e e' e₀) (de : (cgsDomain pc).energy e₀) :
    Sim (-420) 300 (Planck.TemperatureFromEnergyDensity pc.dbl e) (Planck.TemperatureFromEnergyDensity (fl pc) e') :=
  (TE_sim hpc (energy_sim he de)).mono (by norm_num) (by norm_num)

theorem gray_safe {k : ℝ} (hk : Bits (-60) 60 k) :
    Safe 8 (inferInstance : PhotonAPI (IE binary64) (GrayOpacity (IE binary64)))
      (inferInstance : PhotonAPI (Fl rd64) (GrayOpacity (Fl rd64))) ⟨pc.dbl, dbl k⟩ ⟨fl pc, ⟨k⟩⟩ 0 (cgsDomain pc)
      (-870) 620 (-500) 600 (-420) 300 where
  spectral fn rho T nu rho' T' nu' ρ T₀ ν hρ hT hn dρ dT dn := by
    have sk : Sim (-60) 60 (dbl k) (⟨k⟩ : Fl rd64) := ⟨rfl, hk⟩
    have a := (dens_sim hρ dρ).mul sk
    have b := a.mul (thermal_safe hpc hT hn dT dn)
    cases fn
    · exact a.mono (by norm_num) (by norm_num)
    · exact a.mono (by norm_num) (by norm_num)
    · exact b.mono (by norm_num) (by norm_num)
    · exact (four_pi_sim.mul b).mono (by norm_num) (by norm_num)
  thermal hT hn dT dn := (thermal_safe hpc hT hn dT dn).mono (by norm_num) (by norm_num)
  derivative _ hT hn dT dn := derivative_safe hpc hT hn dT dn
  emissivity hρ hT dρ dT := by
    have sk : Sim (-60) 60 (dbl k) (⟨k⟩ : Fl rd64) := ⟨rfl, hk⟩
    exact (((dens_sim hρ dρ).mul sk).mul (BT_sim hpc (temp_sim hT dT))).mono (by norm_num) (by norm_num)
  number hρ hT dρ dT := by
    have sk : Sim (-60) 60 (dbl k) (⟨k⟩ : Fl rd64) := ⟨rfl, hk⟩
    exact .inr ((sk.mul (NT_sim hpc (temp_sim hT dT))).mono (by norm_num) (by norm_num))
  totals hT dT := totals_safe hpc hT dT
  inverse he de := inverse_safe hpc he de

theorem theta_sim (sT : Sim (-21) 61 T T') :
    Sim (-31) 18 (sqrt (pc.dbl.kb * T / (pc.dbl.me * pc.dbl.c * pc.dbl.c)))
      (sqrt ((fl pc).kb * T' / ((fl pc).me * (fl pc).c * (fl pc).c))) :=
  ((((skb hpc).mul sT).div (((sme hpc).mul (sc hpc)).mul (sc hpc))).mono (l' := 2 * (-31)) (h' := 2 * 18) (by norm_num)
    (by norm_num)).sqrt

theorem prefac_sim : Sim (-171) (-117) (EPBremsstrahlungOpacity.prefac_ ⟨pc.dbl⟩) (EPBremsstrahlungOpacity.prefac_ ⟨fl pc⟩) := by
  unfold EPBremsstrahlungOpacity.prefac_
  have m := ((sme hpc).mul (sc hpc)).mul (sc hpc)
  have s : Sim (2 * 0) (2 * 1) (lit 2 * pi / lit 3 : IE binary64) (lit 2 * pi / lit 3 : Fl rd64) :=
    (((Sim.lit 2 1 1).mul Sim.pi).div (Sim.lit 3 1 2)).mono (by norm_num) (by norm_num)
  exact ((((Sim.lit 8 3 3).mul ((sqe hpc).powInt 6 6)).div ((Sim.lit 3 1 2).mul (m.powInt 2 2))).mul s.sqrt).mono
    (by norm_num) (by norm_num)

theorem ne_sim (sρ : Sim (-61) 61 rho rho') :
    Sim 14 143 (rho / EPBremsstrahlungOpacity.mmw_ ⟨pc.dbl⟩ / lit 2) (rho' / EPBremsstrahlungOpacity.mmw_ ⟨fl pc⟩ / lit 2) := by
  unfold EPBremsstrahlungOpacity.mmw_
  exact ((sρ.div (((smp hpc).add (sme hpc) (-75)).div (Sim.lit 2 1 1))).div (Sim.lit 2 1 1)).mono (by norm_num)
    (by norm_num)

theorem brems_safe : Safe 8 (inferInstance : PhotonAPI (IE binary64) (EPBremsstrahlungOpacity (IE binary64)))
      (inferInstance : PhotonAPI (Fl rd64) (EPBremsstrahlungOpacity (Fl rd64))) ⟨pc.dbl⟩ ⟨fl pc⟩ 0 (cgsDomain pc)
      (-870) 620 (-500) 600 (-420) 300 where
  spectral fn rho T nu rho' T' nu' ρ T₀ ν hρ hT hn dρ dT dn := by
    have sT := temp_sim hT dT
    have sn := freq_sim hn dn
    have hx := x_le hpc hT.2 hn.2 dn.2
    have n := ne_sim hpc (dens_sim hρ dρ)
    have j : Sim (-346) 201 (EPBremsstrahlungOpacity.EmissivityPerNuOmega ⟨pc.dbl⟩ rho T nu)
        (EPBremsstrahlungOpacity.EmissivityPerNuOmega ⟨fl pc⟩ rho' T' nu') :=
      ((((((prefac_sim hpc).div (theta_sim hpc sT)).mul n).mul n).mul ((x_sim hpc sT sn).exp_neg hx)).mul
        (Sim.lit 1.2 0 1)).mono (by norm_num) (by norm_num)
    have J : Sim (-343) 205 (EPBremsstrahlungOpacity.EmissivityPerNu ⟨pc.dbl⟩ rho T nu)
        (EPBremsstrahlungOpacity.EmissivityPerNu ⟨fl pc⟩ rho' T' nu') :=
      (four_pi_sim.mul j).mono (by norm_num) (by norm_num)
    have B := B_sim hpc sT sn hx
    cases fn
    · exact (ratio_sim j B).mono (by norm_num) (by norm_num)
    · exact (ratio_sim (J.div four_pi_sim) B).mono (by norm_num) (by norm_num)
    · exact j.mono (by norm_num) (by norm_num)
    · exact J.mono (by norm_num) (by norm_num)
  thermal hT hn dT dn := (thermal_safe hpc hT hn dT dn).mono (by norm_num) (by norm_num)
  derivative _ hT hn dT dn := derivative_safe hpc hT hn dT dn
  emissivity hρ hT dρ dT := by
    have sT := temp_sim hT dT
    have n := ne_sim hpc (dens_sim hρ dρ)
    exact ((((((((four_pi_sim.mul (skb hpc)).mul sT).div (sh hpc)).mul (prefac_sim hpc)).div (theta_sim hpc sT)).mul n).mul
      n).mul (Sim.lit 1.2 0 1)).mono (by norm_num) (by norm_num)
  number hρ hT dρ dT := .inl ⟨rfl, rfl⟩
  totals hT dT := totals_safe hpc hT dT
  inverse he de := inverse_safe hpc he de

omit hpc in
/-- one factor of a power law -/
theorem factor_sim {x : IE binary64} {x' : Fl rd64} {x₀ off ref p : ℝ} {m : ℤ} (hx : Near 8 x x' x₀) (ho : 0 ≤ off)
    (hr : Bits (-100) 100 ref) (hb : Bits (-40) 40 ((x₀ + off) / ref)) (hm : |p| * 41 ≤ m) (hm1 : m ≤ 1000) :
    Sim (-m) m (pow ((x + dbl off) / dbl ref) (dbl p)) (pow ((x' + ⟨off⟩) / ⟨ref⟩) (⟨p⟩ : Fl rd64)) := by
  have hr0 := Bits.pos hr
  have hs : Bits (-140) 140 (x₀ + off) := by
    have e : x₀ + off = (x₀ + off) / ref * ref := by field_simp
    rw [e, show (-140 : ℤ) = -40 + -100 by norm_num, show (140 : ℤ) = 40 + 100 by norm_num]
    constructor
    · rw [zpow_add₀ (by norm_num)]
      exact mul_le_mul hb.1 hr.1 (by positivity) (Bits.pos hb).le
    · rw [zpow_add₀ (by norm_num)]
      exact mul_le_mul hb.2 hr.2 hr0.le (by positivity)
  have n := (hx.add_exact ho hs (by norm_num)).div (Near.exact ref hr0) hb
  have s : Sim (-41) 41 _ _ := (n.sim (by norm_num) hb).mono (by norm_num) (by norm_num)
  obtain ⟨b1, b2⟩ := s.log_bounds
  have hl : |Real.logb 2 ((x' + ⟨off⟩) / ⟨ref⟩ : Fl rd64).val| ≤ 41 := by
    rw [abs_le]; push_cast at b1 b2; exact ⟨b1, b2⟩
  have hq : |p * Real.logb 2 ((x' + ⟨off⟩) / ⟨ref⟩ : Fl rd64).val| ≤ m := by
    rw [abs_mul]
    exact (mul_le_mul_of_nonneg_left hl (abs_nonneg p)).trans hm
  rw [abs_le] at hq
  exact s.pow (q := ⟨p⟩) rfl (by push_cast; exact hq.1) hq.2 (by omega) (by omega)

theorem powerLaw_safe {k re te ne nr no rr ro tr tof : ℝ} {st : Bool} {o : PowerLawOpacity (IE binary64)}
    {o' : PowerLawOpacity ℝ} (hk : Bits (-60) 60 k) (hS : |re| + |te| + |ne| ≤ 5) (hnr : Bits (-100) 100 nr)
    (hrr : Bits (-100) 100 rr) (htr : Bits (-100) 100 tr)
    (ho : PowerLawOpacity.construct pc.dbl (dbl k) (dbl re) (dbl te) (dbl ne) (dbl nr) (dbl no) (dbl rr) (dbl ro) (dbl tr)
      (dbl tof) st = .ok o)
    (ho' : PowerLawOpacity.construct pc k re te ne nr no rr ro tr tof st = .ok o') :
    ∃ o'' : PowerLawOpacity (Fl rd64),
      PowerLawOpacity.construct (fl pc) ⟨k⟩ ⟨re⟩ ⟨te⟩ ⟨ne⟩ ⟨nr⟩ ⟨no⟩ ⟨rr⟩ ⟨ro⟩ ⟨tr⟩ ⟨tof⟩ st = .ok o'' ∧
      Safe 8 (inferInstance : PhotonAPI (IE binary64) (PowerLawOpacity (IE binary64)))
        (inferInstance : PhotonAPI (Fl rd64) (PowerLawOpacity (Fl rd64))) o o'' 0
        ((cgsDomain pc).powerLaw nr no rr ro tr tof) (-870) 620 (-500) 600 (-420) 300 := by
  obtain ⟨-, -, -, -, -, -, rfl⟩ := powerLaw_inv ho
  obtain ⟨-, -, -, h4, h5, h6, -⟩ := powerLaw_inv ho'
  have z : (lit 0 : ℝ) = 0 := by simp [areal]
  rw [Bool.eq_false_iff, Ne, real_lt, z, not_lt] at h4 h5 h6
  have zf := rd_zero rd64_binary
  have p (a : ℝ) (h : Bits (-100) 100 a) : gt (⟨a⟩ : Fl rd64) (lit 0) = true := by
    show decide ((lit 0 : Fl rd64).val < a) = true
    rw [zf]; exact decide_eq_true (Bits.pos h)
  have q (a : ℝ) (h : 0 ≤ a) : lt (⟨a⟩ : Fl rd64) (lit 0) = false := by
    show decide (a < (lit 0 : Fl rd64).val) = false
    rw [zf]; exact decide_eq_false (not_lt.2 h)
  have hcon : PowerLawOpacity.construct (fl pc) ⟨k⟩ ⟨re⟩ ⟨te⟩ ⟨ne⟩ ⟨nr⟩ ⟨no⟩ ⟨rr⟩ ⟨ro⟩ ⟨tr⟩ ⟨tof⟩ st =
      .ok ⟨fl pc, ⟨k⟩, ⟨re⟩, ⟨te⟩, ⟨rr⟩, ⟨ro⟩, ⟨tr⟩, ⟨tof⟩, ⟨ne⟩, ⟨nr⟩, ⟨no⟩, st⟩ := by
    unfold PowerLawOpacity.construct
    rw [p rr hrr, p tr htr, p nr hnr, q ro h4, q tof h5, q no h6]
    rfl
  refine ⟨_, hcon, ?_⟩
  -- integer bounds for the exponents
  have c (a : ℝ) : ∃ m : ℤ, |a| * 41 ≤ m ∧ (m : ℝ) < |a| * 41 + 1 ∧ 0 ≤ m := ⟨⌈|a| * 41⌉, Int.le_ceil _, Int.ceil_lt_add_one _,
    Int.ceil_nonneg (by positivity)⟩
  obtain ⟨m1, a1, b1, z1⟩ := c re
  obtain ⟨m2, a2, b2, z2⟩ := c te
  obtain ⟨m3, a3, b3, z3⟩ := c ne
  have hm : m1 + m2 + m3 ≤ 208 := by
    have : ((m1 + m2 + m3 : ℤ) : ℝ) < ((208 : ℤ) : ℝ) := by push_cast; linarith
    exact (Int.cast_lt.1 this).le
  have sk : Sim (-60) 60 (dbl k) (⟨k⟩ : Fl rd64) := ⟨rfl, hk⟩
  set o : PowerLawOpacity (IE binary64) := ⟨pc.dbl, dbl k, dbl re, dbl te, dbl rr, dbl ro, dbl tr, dbl tof, dbl ne, dbl nr,
    dbl no, st⟩ with hodef
  set o'' : PowerLawOpacity (Fl rd64) := ⟨fl pc, ⟨k⟩, ⟨re⟩, ⟨te⟩, ⟨rr⟩, ⟨ro⟩, ⟨tr⟩, ⟨tof⟩, ⟨ne⟩, ⟨nr⟩, ⟨no⟩, st⟩ with hodef'
  set D := (cgsDomain pc).powerLaw nr no rr ro tr tof with hD
  have hpre : ∀ {rho T : IE binary64} {rho' T' : Fl rd64} {ρ T₀ : ℝ}, Near 8 rho rho' ρ → Near 8 T T' T₀ → D.dens ρ →
      D.temp T₀ → Sim (-60 - m1 - m2) (60 + m1 + m2) (o.OpacityPrefactor_ rho T) (o''.OpacityPrefactor_ rho' T') := by
    intro rho T rho' T' ρ T₀ hρ hT dρ dT
    exact ((sk.mul (factor_sim hρ h4 hrr dρ.2 a1 (by omega)) (by omega) (by omega)).mul
      (factor_sim hT h5 htr dT.2 a2 (by omega)) (by omega) (by omega)).mono (by omega) (by omega)
  have hscale : ∀ {rho T nu : IE binary64} {rho' T' nu' : Fl rd64} {ρ T₀ ν : ℝ}, Near 8 rho rho' ρ → Near 8 T T' T₀ →
      Near 8 nu nu' ν → D.dens ρ → D.temp T₀ → D.freq T₀ ν →
      Sim (-452) 329 (rho * o.OpacityScale_ rho T nu) (rho' * o''.OpacityScale_ rho' T' nu') := by
    intro rho T nu rho' T' nu' ρ T₀ ν hρ hT hn dρ dT dn
    have s := (hpre hρ hT dρ dT).mul (factor_sim hn h6 hnr dn.2 a3 (by omega)) (by omega) (by omega)
    have x := x_sim hpc (temp_sim hT dT.1) (freq_sim hn dn.1)
    have sd := dens_sim hρ dρ.1
    have e1 : o.do_stim_emit_ = st := rfl
    unfold PowerLawOpacity.OpacityScale_
    rw [e1]
    cases st
    · exact (sd.mul (s.mul (Sim.lit 1 0 0) (by omega) (by omega)) (by omega) (by omega)).mono (by omega) (by omega)
    · exact (sd.mul (s.mul x.one_sub_exp (by omega) (by omega)) (by omega) (by omega)).mono (by omega) (by omega)
  have hzero : eqb o.nu_exp_ (lit 0) = eqb o''.nu_exp_ (lit 0) := by
    show XR.eqb (.fin ne) (lit 0 : IE binary64).val = decide (ne = (lit 0 : Fl rd64).val)
    rw [zf, lit0_ie]
    simp [XR.eqb]
  exact
    { spectral := by
        intro fn rho T nu rho' T' nu' ρ T₀ ν hρ hT hn dρ dT dn
        have a := hscale hρ hT hn dρ dT dn
        have b := a.mul (thermal_safe hpc hT hn dT.1 dn.1)
        cases fn
        · exact a.mono (by norm_num) (by norm_num)
        · exact a.mono (by norm_num) (by norm_num)
        · exact b.mono (by norm_num) (by norm_num)
        · exact (four_pi_sim.mul b).mono (by norm_num) (by norm_num)
      thermal := fun hT hn dT dn => (thermal_safe hpc hT hn dT.1 dn.1).mono (by norm_num) (by norm_num)
      derivative := fun _ hT hn dT dn => derivative_safe hpc hT hn dT.1 dn.1
      emissivity := by
        intro rho T rho' T' ρ T₀ hρ hT dρ dT
        show SameEnd _ (o.Emissivity rho T) (o''.Emissivity rho' T')
        unfold PowerLawOpacity.Emissivity
        rw [hzero]
        split
        · rfl
        · exact (((dens_sim hρ dρ.1).mul (hpre hρ hT dρ dT) (by omega) (by omega)).mul (BT_sim hpc (temp_sim hT dT.1))
            (by omega) (by omega)).mono (by omega) (by omega)
      number := by
        intro rho T rho' T' ρ T₀ hρ hT dρ dT
        show SameEnd _ (o.NumberEmissivity rho T) (o''.NumberEmissivity rho' T')
        unfold PowerLawOpacity.NumberEmissivity
        rw [hzero]
        split
        · rfl
        · exact .inr (((hpre hρ hT dρ dT).mul (NT_sim hpc (temp_sim hT dT.1)) (by omega) (by omega)).mono (by omega)
            (by omega))
      totals := fun hT dT => totals_safe hpc hT dT.1
      inverse := fun he de => inverse_safe hpc he de }

end base

section wrapper
variable {O O' : Type} {i : PhotonAPI (IE binary64) O} {i' : PhotonAPI (Fl rd64) O'} {o : O} {o' : O'} {D : Domain}
  {t m l te : ℝ}

theorem Bits.le {l h : ℤ} {x : ℝ} (hb : Bits l h x) : l ≤ h := by
  by_contra hc
  have := (zpow_lt_zpow_iff_right₀ (show (1 : ℝ) < 2 by norm_num)).2 (not_le.1 hc)
  linarith [hb.1, hb.2]

/-- the conversion factors of a unit wrapper and the converted arguments -/
structure Conv (D : Domain) (t m l te : ℝ) : Prop where
  st : Sim (-40) 40 (dbl t) (⟨t⟩ : Fl rd64)
  sm : Sim (-120) 120 (dbl m) (⟨m⟩ : Fl rd64)
  sl : Sim (-60) 60 (dbl l) (⟨l⟩ : Fl rd64)
  ste : Sim (-40) 40 (dbl te) (⟨te⟩ : Fl rd64)
  srho : Sim (-300) 300 (dbl m / (dbl l * dbl l * dbl l)) (⟨m⟩ / (⟨l⟩ * ⟨l⟩ * ⟨l⟩) : Fl rd64)
  sem : Sim (-131) 131 (dbl l * dbl t * dbl t / dbl m) (⟨l⟩ * ⟨t⟩ * ⟨t⟩ / ⟨m⟩ : Fl rd64)
  sen : Sim (-131) 131 (dbl t * dbl t * dbl l / dbl m) (⟨t⟩ * ⟨t⟩ * ⟨l⟩ / ⟨m⟩ : Fl rd64)
  snum : Sim (-220) 220 (dbl l * dbl l * dbl l * dbl t) (⟨l⟩ * ⟨l⟩ * ⟨l⟩ * ⟨t⟩ : Fl rd64)
  sint : Sim (-200) 200 (dbl t * dbl t / dbl m) (⟨t⟩ * ⟨t⟩ / ⟨m⟩ : Fl rd64)
  crho : ∀ {a : IE binary64} {b : Fl rd64} {x : ℝ}, Near 4 a b x → (D.inUnits t m l te).dens x →
      Near 8 (a * (dbl m / (dbl l * dbl l * dbl l))) (b * (⟨m⟩ / (⟨l⟩ * ⟨l⟩ * ⟨l⟩))) (m / l ^ 3 * x)
  crho' : ∀ {a : IE binary64} {b : Fl rd64} {x : ℝ}, Near 4 a b x → (D.inUnits t m l te).dens x →
      Near 8 (dbl m / (dbl l * dbl l * dbl l) * a) (⟨m⟩ / (⟨l⟩ * ⟨l⟩ * ⟨l⟩) * b) (m / l ^ 3 * x)
  cT : ∀ {a : IE binary64} {b : Fl rd64} {x : ℝ}, Near 4 a b x → (D.inUnits t m l te).temp x →
      Near 8 (a * dbl te) (b * ⟨te⟩) (x * te)
  cT' : ∀ {a : IE binary64} {b : Fl rd64} {x : ℝ}, Near 4 a b x → (D.inUnits t m l te).temp x →
      Near 8 (dbl te * a) (⟨te⟩ * b) (x * te)
  cn : ∀ {a : IE binary64} {b : Fl rd64} {x T : ℝ}, Near 4 a b x → (D.inUnits t m l te).freq T x →
      Near 8 (a * (lit 1 / dbl t)) (b * (lit 1 / ⟨t⟩)) (x / t)
  ce : ∀ {a : IE binary64} {b : Fl rd64} {x : ℝ}, Near 4 a b x → (D.inUnits t m l te).energy x →
      Near 8 (a / (dbl t * dbl t * dbl l / dbl m)) (b / (⟨t⟩ * ⟨t⟩ * ⟨l⟩ / ⟨m⟩)) (x / (t ^ 2 * l / m))

theorem conv (hu : UnitSized t m l te)
    (hD : (∀ x, D.dens x → Bits (-60) 60 x) ∧ (∀ x, D.temp x → Bits (-20) 60 x) ∧
      (∀ T x, D.freq T x → Bits (-20) 100 x) ∧ ∀ x, D.energy x → Bits (-150) 250 x) : Conv D t m l te := by
  have st : Sim (-40) 40 (dbl t) (⟨t⟩ : Fl rd64) := ⟨rfl, hu.time⟩
  have sm : Sim (-120) 120 (dbl m) (⟨m⟩ : Fl rd64) := ⟨rfl, hu.mass⟩
  have sl : Sim (-60) 60 (dbl l) (⟨l⟩ : Fl rd64) := ⟨rfl, hu.length⟩
  have ste : Sim (-40) 40 (dbl te) (⟨te⟩ : Fl rd64) := ⟨rfl, hu.temp⟩
  have pt := PF.exact (rd := rd64) (u := u64) ⟨t⟩ st.pos
  have pm := PF.exact (rd := rd64) (u := u64) ⟨m⟩ sm.pos
  have pl := PF.exact (rd := rd64) (u := u64) ⟨l⟩ sl.pos
  have nte := Near.exact te ste.pos
  have t0 := st.pos
  have m0 := sm.pos
  have l0 := sl.pos
  have te0 := ste.pos
  simp only at t0 m0 l0 te0
  have hr := rd64_binary
  -- the unit conversions
  have srho : Sim (-300) 300 (dbl m / (dbl l * dbl l * dbl l)) (⟨m⟩ / (⟨l⟩ * ⟨l⟩ * ⟨l⟩) : Fl rd64) :=
    (sm.div ((sl.mul sl).mul sl)).mono (by norm_num) (by norm_num)
  have nrho : Near 3 (dbl m / (dbl l * dbl l * dbl l)) (⟨m⟩ / (⟨l⟩ * ⟨l⟩ * ⟨l⟩) : Fl rd64) (m / l ^ 3) := by
    refine ⟨srho.1, ?_⟩
    have := pm.div hr ((pl.mul hr pl).mul hr pl)
    rw [show m / (l * l * l) = m / l ^ 3 by ring_nf] at this
    exact this.mono hr (by norm_num)
  have sfreq : Sim (-40) 40 (lit 1 / dbl t) (lit 1 / ⟨t⟩ : Fl rd64) := ((Sim.lit 1 0 0).div st).mono (by norm_num) (by norm_num)
  have nfreq : Near 1 (lit 1 / dbl t) (lit 1 / ⟨t⟩ : Fl rd64) (1 / t) := by
    refine ⟨sfreq.1, ?_⟩
    have := (PF.int hr 1 1 (by norm_num) (by norm_num) (by norm_num)).div hr pt
    rw [show (lit 1 : ℝ) = 1 by simp [areal]] at this
    exact this.mono hr (by norm_num)
  have hem0 : Sim (-300) 300 (dbl l * dbl t * dbl t / dbl m) (⟨l⟩ * ⟨t⟩ * ⟨t⟩ / ⟨m⟩ : Fl rd64) :=
    (((sl.mul st).mul st).div sm).mono (by norm_num) (by norm_num)
  have sem : Sim (-131) 131 (dbl l * dbl t * dbl t / dbl m) (⟨l⟩ * ⟨t⟩ * ⟨t⟩ / ⟨m⟩ : Fl rd64) := by
    have n : Near 3 (dbl l * dbl t * dbl t / dbl m) (⟨l⟩ * ⟨t⟩ * ⟨t⟩ / ⟨m⟩ : Fl rd64) (t ^ 2 * l / m) := by
      refine ⟨hem0.1, ?_⟩
      have := ((pl.mul hr pt).mul hr pt).div hr pm
      rw [show l * t * t / m = t ^ 2 * l / m by ring] at this
      exact this.mono hr (by norm_num)
    exact (n.sim (by norm_num) hu.emissivity).mono (by norm_num) (by norm_num)
  have hen0 : Sim (-300) 300 (dbl t * dbl t * dbl l / dbl m) (⟨t⟩ * ⟨t⟩ * ⟨l⟩ / ⟨m⟩ : Fl rd64) :=
    (((st.mul st).mul sl).div sm).mono (by norm_num) (by norm_num)
  have nen : Near 3 (dbl t * dbl t * dbl l / dbl m) (⟨t⟩ * ⟨t⟩ * ⟨l⟩ / ⟨m⟩ : Fl rd64) (t ^ 2 * l / m) := by
    refine ⟨hen0.1, ?_⟩
    have := ((pt.mul hr pt).mul hr pl).div hr pm
    rw [show t * t * l / m = t ^ 2 * l / m by ring] at this
    exact this.mono hr (by norm_num)
  have sen : Sim (-131) 131 (dbl t * dbl t * dbl l / dbl m) (⟨t⟩ * ⟨t⟩ * ⟨l⟩ / ⟨m⟩ : Fl rd64) :=
    (nen.sim (by norm_num) hu.emissivity).mono (by norm_num) (by norm_num)
  have snum : Sim (-220) 220 (dbl l * dbl l * dbl l * dbl t) (⟨l⟩ * ⟨l⟩ * ⟨l⟩ * ⟨t⟩ : Fl rd64) :=
    (((sl.mul sl).mul sl).mul st).mono (by norm_num) (by norm_num)
  have sint : Sim (-200) 200 (dbl t * dbl t / dbl m) (⟨t⟩ * ⟨t⟩ / ⟨m⟩ : Fl rd64) :=
    ((st.mul st).div sm).mono (by norm_num) (by norm_num)
  -- the converted arguments
  have crho : ∀ {a : IE binary64} {b : Fl rd64} {x : ℝ}, Near 4 a b x → (D.inUnits t m l te).dens x →
      Near 8 (a * (dbl m / (dbl l * dbl l * dbl l))) (b * (⟨m⟩ / (⟨l⟩ * ⟨l⟩ * ⟨l⟩))) (m / l ^ 3 * x) := by
    intro a b x n d
    have := n.mul nrho (l := -60) (h := 60) (by rw [mul_comm]; exact hD.1 _ d)
    rw [mul_comm x] at this
    exact this.mono (by norm_num)
  have crho' : ∀ {a : IE binary64} {b : Fl rd64} {x : ℝ}, Near 4 a b x → (D.inUnits t m l te).dens x →
      Near 8 (dbl m / (dbl l * dbl l * dbl l) * a) (⟨m⟩ / (⟨l⟩ * ⟨l⟩ * ⟨l⟩) * b) (m / l ^ 3 * x) := by
    intro a b x n d
    exact (nrho.mul n (l := -60) (h := 60) (hD.1 _ d)).mono (by norm_num)
  have cT : ∀ {a : IE binary64} {b : Fl rd64} {x : ℝ}, Near 4 a b x → (D.inUnits t m l te).temp x →
      Near 8 (a * dbl te) (b * ⟨te⟩) (x * te) := by
    intro a b x n d
    exact (n.mul nte (l := -20) (h := 60) (hD.2.1 _ d)).mono (by norm_num)
  have cT' : ∀ {a : IE binary64} {b : Fl rd64} {x : ℝ}, Near 4 a b x → (D.inUnits t m l te).temp x →
      Near 8 (dbl te * a) (⟨te⟩ * b) (x * te) := by
    intro a b x n d
    have := nte.mul n (l := -20) (h := 60) (by rw [mul_comm]; exact hD.2.1 _ d)
    rw [mul_comm te] at this
    exact this.mono (by norm_num)
  have cn : ∀ {a : IE binary64} {b : Fl rd64} {x T : ℝ}, Near 4 a b x → (D.inUnits t m l te).freq T x →
      Near 8 (a * (lit 1 / dbl t)) (b * (lit 1 / ⟨t⟩)) (x / t) := by
    intro a b x T n d
    have := n.mul nfreq (l := -20) (h := 100) (by rw [mul_one_div]; exact hD.2.2.1 _ _ d)
    rw [mul_one_div] at this
    exact this.mono (by norm_num)
  have ce : ∀ {a : IE binary64} {b : Fl rd64} {x : ℝ}, Near 4 a b x → (D.inUnits t m l te).energy x →
      Near 8 (a / (dbl t * dbl t * dbl l / dbl m)) (b / (⟨t⟩ * ⟨t⟩ * ⟨l⟩ / ⟨m⟩)) (x / (t ^ 2 * l / m)) := by
    intro a b x n d
    exact (n.div nen (l := -150) (h := 250) (hD.2.2.2 _ d)).mono (by norm_num)
  exact ⟨st, sm, sl, ste, srho, sem, sen, snum, sint, crho, crho', cT, cT', cn, ce⟩

theorem nonCGS_safe (hu : UnitSized t m l te)
    (hD : (∀ x, D.dens x → Bits (-60) 60 x) ∧ (∀ x, D.temp x → Bits (-20) 60 x) ∧
      (∀ T x, D.freq T x → Bits (-20) 100 x) ∧ ∀ x, D.energy x → Bits (-150) 250 x)
    (H : Safe 8 i i' o o' 0 D (-870) 620 (-500) 600 (-420) 300) :
    Safe 4 (inferInstance : PhotonAPI (IE binary64) (NonCGSUnits (IE binary64) O))
      (inferInstance : PhotonAPI (Fl rd64) (NonCGSUnits (Fl rd64) O'))
      (NonCGSUnits.construct o (dbl t) (dbl m) (dbl l) (dbl te)) (NonCGSUnits.construct o' ⟨t⟩ ⟨m⟩ ⟨l⟩ ⟨te⟩) 1
      (D.inUnits t m l te) (-1022) 1023 (-1022) 1023 (-1022) 1023 := by
  obtain ⟨st, sm, sl, ste, srho, sem, sen, snum, sint, crho, crho', cT, cT', cn, ce⟩ := conv hu hD
  exact
    { spectral := by
        intro fn rho T nu rho' T' nu' ρ T₀ ν hρ hT hn dρ dT dn
        cases fn
        · exact ((H.spectral .AbsorptionCoefficient (crho' hρ dρ) (cT' hT dT) (cn hn dn) dρ dT dn).mul sl).mono (by norm_num)
            (by norm_num)
        · exact ((H.spectral .AngleAveragedAbsorptionCoefficient (crho hρ dρ) (cT hT dT) (cn hn dn) dρ dT dn).mul sl).mono
            (by norm_num) (by norm_num)
        · exact ((H.spectral .EmissivityPerNuOmega (crho hρ dρ) (cT hT dT) (cn hn dn) dρ dT dn).mul sem).mono (by norm_num)
            (by norm_num)
        · exact ((H.spectral .EmissivityPerNu (crho hρ dρ) (cT hT dT) (cn hn dn) dρ dT dn).mul sem).mono (by norm_num)
            (by norm_num)
      thermal := fun hT hn dT dn => ((H.thermal (cT hT dT) (cn hn dn) dT dn).mul sint).mono (by norm_num) (by norm_num)
      derivative := fun h => absurd h (by norm_num)
      emissivity := fun hρ hT dρ dT => SameEnd.map (H.emissivity (crho hρ dρ) (cT hT dT) dρ dT) fun a b s =>
        ((s.mul sem).mul st).mono (by norm_num) (by norm_num)
      number := fun hρ hT dρ dT => SameEnd.map (H.number (crho hρ dρ) (cT hT dT) dρ dT) fun a b s => by
        rcases s with ⟨h1, h2⟩ | s
        · refine .inl ⟨?_, ?_⟩
          · show IE.round binary64 (XR.mul a.val (dbl l * dbl l * dbl l * dbl t).val) = _
            rw [h1, snum.1]
            have := snum.pos
            simp [XR.mul, XR.signInf, this, IE.round]
          · show rd64 (b.val * _) = 0
            rw [h2, zero_mul]
            simpa using rd64_binary.ints 0 (by norm_num)
        · exact .inr ((s.mul snum).mono (by norm_num) (by norm_num))
      totals := by
        intro T T' T₀ hT dT
        obtain ⟨h1, h2, h3, h4⟩ := H.totals (cT hT dT) dT
        exact ⟨(((h1.mul sen).mul st).div sl).mono (by norm_num) (by norm_num),
          ((((h2.mul sm).div srho).mul st).div sl).mono (by norm_num) (by norm_num),
          (h3.mul sen).mono (by norm_num) (by norm_num), ((h4.mul sm).div srho).mono (by norm_num) (by norm_num)⟩
      inverse := fun he de => ((H.inverse (ce he de) de).div ste).mono (by norm_num) (by norm_num) }

end wrapper

/-- everything known of a pair of the specification -/
structure Good {O O' : Type} (i : PhotonAPI (IE binary64) O) (i' : PhotonAPI ℝ O') (o : O) (o' : O') (n : ℕ) (D : Domain) :
    Prop where
  le_one : n ≤ 1
  dens_pos : ∀ x, D.dens x → 0 < x
  temp_pos : ∀ x, D.temp x → 0 < x
  freq_pos : ∀ T x, D.freq T x → 0 < x
  energy_pos : ∀ x, D.energy x → 0 < x
  size : n = 0 → (∀ x, D.dens x → Bits (-60) 60 x) ∧ (∀ x, D.temp x → Bits (-20) 60 x) ∧
      (∀ T x, D.freq T x → Bits (-20) 100 x) ∧ ∀ x, D.energy x → Bits (-150) 250 x
  number_inf : ∀ (rho T : IE binary64) (ρ T₀ : ℝ), 0 < ρ → 0 < T₀ → ∀ a x, i.NumberEmissivity o rho T = .ok a →
    i'.NumberEmissivity o' ρ T₀ = .ok x → x = infinity → a.val = .pinf
  mid : ∃ (O'' : Type) (i'' : PhotonAPI (Fl rd64) O'') (o'' : O'') (S K : ℝ), Acc u64 i'' i' o'' o' n S K ∧
    Safe 4 i i'' o o'' n D (-1022) 1023 (-1022) 1023 (-1022) 1023 ∧
    (n = 0 → Safe 8 i i'' o o'' n D (-870) 620 (-500) 600 (-420) 300) ∧ S ≤ 5 ∧
    ∀ T x, D.temp T → D.freq T x → K * x / T ≤ 120

theorem sameEnd_mono {α β : Type} {P Q : α → β → Prop} (hPQ : ∀ a b, P a b → Q a b) {x : Outcome α} {y : Outcome β} :
    SameEnd P x y → SameEnd Q x y := by
  cases x <;> cases y <;> first | exact hPQ _ _ | exact id

theorem Safe.weaken {O O'' : Type} {i : PhotonAPI (IE binary64) O} {i'' : PhotonAPI (Fl rd64) O''} {o : O} {o'' : O''}
    {n : ℕ} {D : Domain} (H : Safe 8 i i'' o o'' n D (-870) 620 (-500) 600 (-420) 300) :
    Safe 4 i i'' o o'' n D (-1022) 1023 (-1022) 1023 (-1022) 1023 := by
  have w : (4 : ℝ) ≤ 8 := by norm_num
  exact
    { spectral := fun fn _ _ _ _ _ _ _ _ _ h1 h2 h3 d1 d2 d3 =>
        (H.spectral fn (h1.mono w) (h2.mono w) (h3.mono w) d1 d2 d3).mono (by norm_num) (by norm_num)
      thermal := fun h1 h2 d1 d2 => (H.thermal (h1.mono w) (h2.mono w) d1 d2).mono (by norm_num) (by norm_num)
      derivative := fun h h1 h2 d1 d2 => (H.derivative h (h1.mono w) (h2.mono w) d1 d2).mono (by norm_num) (by norm_num)
      emissivity := fun h1 h2 d1 d2 => sameEnd_mono (fun _ _ s => s.mono (by norm_num) (by norm_num))
        (H.emissivity (h1.mono w) (h2.mono w) d1 d2)
      number := fun h1 h2 d1 d2 => sameEnd_mono (fun _ _ s => s.imp id fun s => s.mono (by norm_num) (by norm_num))
        (H.number (h1.mono w) (h2.mono w) d1 d2)
      totals := fun h d => by
        obtain ⟨a, b, c, e⟩ := H.totals (h.mono w) d
        exact ⟨a.mono (by norm_num) (by norm_num), b.mono (by norm_num) (by norm_num), c.mono (by norm_num) (by norm_num),
          e.mono (by norm_num) (by norm_num)⟩
      inverse := fun h d => (H.inverse (h.mono w) d).mono (by norm_num) (by norm_num) }

theorem cgs_x {pc : PC ℝ} (hpc : CgsSized pc) {T x : ℝ} (hT : (cgsDomain pc).temp T) (h : (cgsDomain pc).freq T x) :
    pc.h / pc.kb * x / T ≤ 120 := by
  have h2 := h.2
  have := Bits.pos hpc.kb
  have := Bits.pos hT
  rwa [show pc.h * x / (pc.kb * T) = pc.h / pc.kb * x / T by field_simp] at h2

theorem cgs_good {O O' : Type} {i : PhotonAPI (IE binary64) O} {i' : PhotonAPI ℝ O'} {o : O} {o' : O'} {pc : PC ℝ}
    {O'' : Type} {i'' : PhotonAPI (Fl rd64) O''} {o'' : O''} {S : ℝ} {D : Domain} (hpc : CgsSized pc)
    (A : Acc u64 i'' i' o'' o' 0 S (pc.h / pc.kb)) (B : Safe 8 i i'' o o'' 0 D (-870) 620 (-500) 600 (-420) 300) (hS : S ≤ 5)
    (h1 : ∀ x, D.dens x → (cgsDomain pc).dens x) (h2 : ∀ x, D.temp x → (cgsDomain pc).temp x)
    (h3 : ∀ T x, D.freq T x → (cgsDomain pc).freq T x) (h4 : ∀ x, D.energy x → (cgsDomain pc).energy x)
    (h5 : ∀ (rho T : IE binary64) (ρ T₀ : ℝ), 0 < ρ → 0 < T₀ → ∀ a x, i.NumberEmissivity o rho T = .ok a →
      i'.NumberEmissivity o' ρ T₀ = .ok x → x = infinity → a.val = .pinf) :
    Good i i' o o' 0 D where
  le_one := by norm_num
  dens_pos x h := Bits.pos (h1 x h)
  temp_pos x h := Bits.pos (h2 x h)
  freq_pos T x h := Bits.pos (h3 T x h).1
  energy_pos x h := Bits.pos (h4 x h)
  size _ := ⟨h1, h2, fun T x h => (h3 T x h).1, h4⟩
  number_inf := h5
  mid := ⟨O'', i'', o'', S, _, A, B.weaken, fun _ => B, hS, fun T x hT h => cgs_x hpc (h2 _ hT) (h3 _ _ h)⟩

theorem NT_pos {pc : PC ℝ} (hpc : CgsSized pc) {T : ℝ} (hT : 0 < T) : 0 < Planck.ThermalNumberDistributionOfT pc T :=
  (NT_acc rd64_binary (pc := fl pc) (CgsSized.pos hpc) (PF.exact (rd := rd64) ⟨T⟩ hT)).pos

theorem doubled_good {O O' : Type} {i : PhotonAPI (IE binary64) O} {i' : PhotonAPI ℝ O'} {o : O} {o' : O'} {n : ℕ}
    {D : Domain} (H : Doubled O O' i i' o o' n D) : Good i i' o o' n D := by
  induction H with
  | gray pc k hpc hk =>
    exact cgs_good hpc (gray_acc rd64_binary (pc := fl pc) (CgsSized.pos hpc) ⟨k⟩ (Bits.pos hk)) (gray_safe hpc hk)
      (by norm_num) (fun _ => id) (fun _ => id) (fun _ _ => id) (fun _ => id) fun rho T ρ T₀ _ hT a x _ hx h => by
        have e : k * Planck.ThermalNumberDistributionOfT pc T₀ = x := Outcome.ok.inj hx
        have := mul_pos (Bits.pos hk) (NT_pos hpc hT)
        rw [e, h] at this
        exact absurd this (lt_irrefl _)
  | epbremss pc hpc =>
    exact cgs_good hpc (brems_acc rd64_binary (pc := fl pc) (CgsSized.pos hpc)) (brems_safe hpc)
      (by norm_num) (fun _ => id) (fun _ => id) (fun _ _ => id) (fun _ => id) fun rho T ρ T₀ _ hT a x ha _ _ => by
        rw [← Outcome.ok.inj ha]; rfl
  | powerLaw pc k re te ne nr no rr ro tr tof st o o' hpc hk hS hnr hrr htr ho ho' =>
    obtain ⟨o'', e, s⟩ := powerLaw_safe hpc hk hS hnr hrr htr ho ho'
    exact cgs_good hpc (powerLaw_acc rd64_binary (pc := fl pc) (CgsSized.pos hpc) (Bits.pos hk) e ho') s hS
      (fun _ h => h.1) (fun _ h => h.1) (fun _ _ h => h.1) (fun _ => id) fun rho T ρ T₀ hρ hT a x _ hx h => by
        obtain ⟨h1, h2, h3, h4, h5, h6, rfl⟩ := powerLaw_inv ho'
        have z : (lit 0 : ℝ) = 0 := by simp [areal]
        rw [gt, real_lt, z] at h1 h2 h3
        rw [Bool.eq_false_iff, Ne, real_lt, z, not_lt] at h4 h5 h6
        simp only [PhotonAPI.NumberEmissivity, PowerLawOpacity.NumberEmissivity] at hx
        split at hx
        · cases hx
        have e := Outcome.ok.inj hx
        have : 0 < k * ((ρ + ro) / rr) ^ re * ((T₀ + tof) / tr) ^ te := by
          have := Bits.pos hk
          positivity
        have := mul_pos this (NT_pos hpc hT)
        rw [show k * ((ρ + ro) / rr) ^ re * ((T₀ + tof) / tr) ^ te * Planck.ThermalNumberDistributionOfT pc T₀ = x from e, h]
          at this
        exact absurd this (lt_irrefl _)
  | nonCGS t m l te hu _ ih =>
    obtain ⟨O'', i'', o'', S, K, A, -, B, hS, hx⟩ := ih.mid
    have t0 := Bits.pos hu.time
    have m0 := Bits.pos hu.mass
    have l0 := Bits.pos hu.length
    have te0 := Bits.pos hu.temp
    exact
      { le_one := le_rfl
        dens_pos := fun x h => by
          have := ih.dens_pos _ h
          exact (mul_pos_iff_of_pos_left (by positivity)).1 this
        temp_pos := fun x h => (mul_pos_iff_of_pos_right te0).1 (ih.temp_pos _ h)
        freq_pos := fun T x h => by
          have := ih.freq_pos _ _ h
          exact (div_pos_iff_of_pos_right t0).1 this
        energy_pos := fun x h => by
          have := ih.energy_pos _ h
          exact (div_pos_iff_of_pos_right (by positivity)).1 this
        size := fun h => absurd h (by norm_num)
        number_inf := fun rho T ρ T₀ hρ hT a x ha hx h => by
          obtain ⟨a', ha', rfl⟩ := Outcome.map'_eq_ok.1 ha
          obtain ⟨x', hx', rfl⟩ := Outcome.map'_eq_ok.1 hx
          have h0 : x' = infinity := (mul_eq_zero_iff_right (by show l * l * l * t ≠ 0; positivity)).1 h
          have ha0 := ih.number_inf _ _ _ _ (show 0 < ρ * (m / (l * l * l)) by positivity) (mul_pos hT te0) _ _ ha' hx' h0
          have st : Sim (-40) 40 (dbl t) (⟨t⟩ : Fl rd64) := ⟨rfl, hu.time⟩
          have sl : Sim (-60) 60 (dbl l) (⟨l⟩ : Fl rd64) := ⟨rfl, hu.length⟩
          have snum := ((sl.mul sl).mul sl).mul st
          show IE.round binary64 (XR.mul a'.val (dbl l * dbl l * dbl l * dbl t).val) = _
          rw [ha0, snum.1]
          have := snum.pos
          simp [XR.mul, XR.signInf, this, IE.round]
        mid := ⟨_, _, _, S, _, nonCGS_acc rd64_binary A (t := ⟨t⟩) (m := ⟨m⟩) (l := ⟨l⟩) (te := ⟨te⟩) t0 m0 l0 te0,
          nonCGS_safe hu (ih.size rfl) (B rfl), fun h => absurd h (by norm_num), hS, fun T x hT h => by
            have h1 := hx _ _ hT h
            have hT0 := (mul_pos_iff_of_pos_right te0).1 (ih.temp_pos _ hT)
            rwa [show K * (x / t) / (T * te) = K / (t * te) * x / T by field_simp] at h1⟩ }
  | vScaleFree _ ih | vGray _ ih | vPowerLawScaleFree _ ih | vPowerLaw _ ih | vEPBremss _ ih | vNonCGSGray _ ih
  | vNonCGSPowerLaw _ ih | vNonCGSEPBremss _ ih =>
    obtain ⟨O'', i'', o'', S, K, A, B, C, hS, hx⟩ := ih.mid
    exact ⟨ih.le_one, ih.dens_pos, ih.temp_pos, ih.freq_pos, ih.energy_pos, ih.size, ih.number_inf, O'', i'', o'', S, K,
      ⟨A.S_nonneg, A.K_pos, fun fn => by have := A.spectral fn; cases fn <;> exact this, A.thermal, A.derivative,
        A.emissivity, A.number, A.totals⟩,
      ⟨fun fn _ _ _ _ _ _ _ _ _ h1 h2 h3 d1 d2 d3 => by
          have := B.spectral fn h1 h2 h3 d1 d2 d3
          cases fn <;> exact this, B.thermal, B.derivative, B.emissivity, B.number,
        B.totals, B.inverse⟩,
      fun h => ⟨fun fn _ _ _ _ _ _ _ _ _ h1 h2 h3 d1 d2 d3 => by
          have := (C h).spectral fn h1 h2 h3 d1 d2 d3
          cases fn <;> exact this, (C h).thermal, (C h).derivative,
        (C h).emissivity, (C h).number, (C h).totals, (C h).inverse⟩, hS, hx⟩

end Opac.Doubles
