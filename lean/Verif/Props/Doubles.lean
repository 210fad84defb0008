import Verif.Lemmas.DoublesConstants
import Verif.Props.Accuracy

/-!
# C67: double precision

For constants of the size of the CGS constants and arguments of moderate size (`Spec/Doubles.lean`), no photon opacity
overflows, underflows or loses accuracy in IEEE double precision: the result is within a billionth of the exact one.
`C67_extreme_false`: at larger `hν/kT` the emissivity underflows to zero.
-/

namespace Opac
open Arith Accuracy Doubles

/-- a result known up to few enough roundings -/
theorem accurate_of {l h : ℤ} {a : IE binary64} {b : Fl rd64} {x N : ℝ} (s : Sim l h a b) (p : PF u64 N b x) (hN0 : 0 ≤ N)
    (hN : N ≤ 64 * 6 * 121 * 12) : Accurate a x := by
  refine ⟨p.pos, b.val, (eq_dbl s).symm, ?_⟩
  have hsmall : 2 * N * (2 : ℝ) ^ (-53 : ℤ) ≤ 1e-9 * (1 - 2 ^ (-53 : ℤ)) := by
    have h0 : (0 : ℝ) ≤ 2 ^ (-53 : ℤ) := by positivity
    have := mul_le_mul_of_nonneg_right hN h0
    have h2 : 2 * (64 * 6 * 121 * 12 * (2 : ℝ) ^ (-53 : ℤ)) ≤ 1e-9 * (1 - 2 ^ (-53 : ℤ)) := by norm_num
    linarith
  have hp : (0 : ℝ) < 1 - 2 ^ (-53 : ℤ) := by norm_num
  refine ((p.agrees rd64_binary).relative (by positivity) (by norm_num) hN0 p.pos.le (hsmall.trans (by linarith))).trans ?_
  exact mul_le_mul_of_nonneg_right (by rw [div_le_iff₀ hp]; exact hsmall) p.pos.le

theorem count_le {S x : ℝ} {n : ℕ} (hS0 : 0 ≤ S) (hS : S ≤ 5) (hx0 : 0 ≤ x) (hx : x ≤ 120) (hn : n ≤ 1) :
    0 ≤ 64 * (1 + S) * (1 + x) * (0 + 11 * (n : ℝ) + 1) ∧
    64 * (1 + S) * (1 + x) * (0 + 11 * (n : ℝ) + 1) ≤ 64 * 6 * 121 * 12 := by
  have hn' : (n : ℝ) ≤ 1 := by exact_mod_cast hn
  refine ⟨by positivity, ?_⟩
  exact mul_le_mul (mul_le_mul (by linarith) (by linarith) (by positivity) (by norm_num)) (by linarith) (by positivity)
    (by norm_num)

theorem count_le' {S : ℝ} {n : ℕ} (hS0 : 0 ≤ S) (hS : S ≤ 5) (hn : n ≤ 1) :
    0 ≤ 64 * (1 + S) * (0 + 11 * (n : ℝ) + 1) ∧ 64 * (1 + S) * (0 + 11 * (n : ℝ) + 1) ≤ 64 * 6 * 121 * 12 := by
  have := count_le hS0 hS le_rfl (by norm_num) hn
  rw [add_zero, mul_one] at this
  exact this

theorem unit_small64 {n : ℕ} (hn : n ≤ 1) : (2 * (0 + 4 * (n : ℝ)) + 3) * unit u64 ≤ 1 := by
  refine unit_small rd64_binary.toRounding ?_
  have hn' : (n : ℝ) ≤ 1 := by exact_mod_cast hn
  have : (2 : ℝ) ^ (-53 : ℤ) ≤ 1 / 12 := by norm_num
  have h0 : (0 : ℝ) ≤ 2 ^ (-53 : ℤ) := by positivity
  exact (mul_le_mul (show 8 * (n : ℝ) + 4 ≤ 12 by linarith) this h0 (by norm_num)).trans (by norm_num)

namespace Photons
variable {O O' : Type} {i : PhotonAPI (IE binary64) O} {i' : PhotonAPI ℝ O'} {o : O} {o' : O'} {n : ℕ} {D : Domain}
  {ρ T ν e : ℝ}

/-- C67: absorption coefficients and emissivities at a frequency -/
theorem C67_spectral (H : Doubled O O' i i' o o' n D) (fn : VFn) (hρ : D.dens ρ) (hT : D.temp T) (hν : D.freq T ν) :
    Accurate (scalarFn i o fn (dbl ρ) (dbl T) (dbl ν)) (scalarFn i' o' fn ρ T ν) := by
  have G := doubled_good H
  obtain ⟨O'', i'', o'', S, K, A, B, -, hS, hx⟩ := G.mid
  have p1 := G.dens_pos _ hρ
  have p2 := G.temp_pos _ hT
  have p3 := G.freq_pos _ _ hν
  have hK := A.K_pos
  have c := count_le A.S_nonneg hS (x := K * ν / T) (by positivity) (hx _ _ hT hν) G.le_one
  exact accurate_of (B.spectral fn ((Near.exact ρ p1).mono (by norm_num)) ((Near.exact T p2).mono (by norm_num))
    ((Near.exact ν p3).mono (by norm_num)) hρ hT hν)
    (A.spectral fn 0 _ _ _ _ _ _ le_rfl (unit_small64 G.le_one) (PF.exact (rd := rd64) ⟨ρ⟩ p1) (PF.exact (rd := rd64) ⟨T⟩ p2)
      (PF.exact (rd := rd64) ⟨ν⟩ p3)) c.1 c.2

/-- C67: the Planck function -/
theorem C67_planck (H : Doubled O O' i i' o o' n D) (hT : D.temp T) (hν : D.freq T ν) :
    Accurate (i.ThermalDistributionOfTNu o (dbl T) (dbl ν)) (i'.ThermalDistributionOfTNu o' T ν) := by
  have G := doubled_good H
  obtain ⟨O'', i'', o'', S, K, A, B, -, hS, hx⟩ := G.mid
  have p2 := G.temp_pos _ hT
  have p3 := G.freq_pos _ _ hν
  have hK := A.K_pos
  have c := count_le A.S_nonneg hS (x := K * ν / T) (by positivity) (hx _ _ hT hν) G.le_one
  exact accurate_of (B.thermal ((Near.exact T p2).mono (by norm_num)) ((Near.exact ν p3).mono (by norm_num)) hT hν)
    (A.thermal 0 _ _ _ _ le_rfl (unit_small64 G.le_one) (PF.exact (rd := rd64) ⟨T⟩ p2) (PF.exact (rd := rd64) ⟨ν⟩ p3))
    c.1 c.2

/-- C67: the temperature derivative of the Planck function, without unit wrapper (with one it is wrong anyway:
`C17_false`) -/
theorem C67_derivative_partial (H : Doubled O O' i i' o o' 0 D) (hT : D.temp T) (hν : D.freq T ν) :
    Accurate (i.DThermalDistributionOfTNuDT o (dbl T) (dbl ν)) (i'.DThermalDistributionOfTNuDT o' T ν) := by
  have G := doubled_good H
  obtain ⟨O'', i'', o'', S, K, A, B, -, hS, hx⟩ := G.mid
  have p2 := G.temp_pos _ hT
  have p3 := G.freq_pos _ _ hν
  have hK := A.K_pos
  have c := count_le A.S_nonneg hS (x := K * ν / T) (by positivity) (hx _ _ hT hν) G.le_one
  exact accurate_of (B.derivative rfl ((Near.exact T p2).mono (by norm_num)) ((Near.exact ν p3).mono (by norm_num)) hT hν)
    (A.derivative 0 _ _ _ _ rfl le_rfl (unit_small64 G.le_one) (PF.exact (rd := rd64) ⟨T⟩ p2)
      (PF.exact (rd := rd64) ⟨ν⟩ p3)) c.1 c.2

/-- C67: total emissivity; when one run stops with an error, so does the other, with the same message -/
theorem C67_emissivity (H : Doubled O O' i i' o o' n D) (hρ : D.dens ρ) (hT : D.temp T) :
    SameEnd Accurate (i.Emissivity o (dbl ρ) (dbl T)) (i'.Emissivity o' ρ T) := by
  have G := doubled_good H
  obtain ⟨O'', i'', o'', S, K, A, B, -, hS, hx⟩ := G.mid
  have p1 := G.dens_pos _ hρ
  have p2 := G.temp_pos _ hT
  have c := count_le' A.S_nonneg hS G.le_one
  have h1 := B.emissivity ((Near.exact ρ p1).mono (by norm_num)) ((Near.exact T p2).mono (by norm_num)) hρ hT
  have h2 := A.emissivity 0 _ _ _ _ le_rfl (PF.exact (rd := rd64) ⟨ρ⟩ p1) (PF.exact (rd := rd64) ⟨T⟩ p2)
  revert h1 h2
  generalize i.Emissivity o (dbl ρ) (dbl T) = x
  generalize i''.Emissivity o'' ⟨ρ⟩ ⟨T⟩ = y
  generalize i'.Emissivity o' ρ T = z
  intro h1 h2
  cases x <;> cases y <;> cases z <;> first | exact accurate_of h1 h2 c.1 c.2 | exact h1.trans h2 | exact h1.elim | exact h2.elim

/-- C67: total number emissivity; where the model says "infinite" (bremsstrahlung), double precision returns infinity -/
theorem C67_number (H : Doubled O O' i i' o o' n D) (hρ : D.dens ρ) (hT : D.temp T) :
    SameEnd (fun a x => (a = infinity ∧ x = infinity) ∨ Accurate a x) (i.NumberEmissivity o (dbl ρ) (dbl T))
      (i'.NumberEmissivity o' ρ T) := by
  have G := doubled_good H
  obtain ⟨O'', i'', o'', S, K, A, B, -, hS, hx⟩ := G.mid
  have p1 := G.dens_pos _ hρ
  have p2 := G.temp_pos _ hT
  have c := count_le' A.S_nonneg hS G.le_one
  have h1 := B.number ((Near.exact ρ p1).mono (by norm_num)) ((Near.exact T p2).mono (by norm_num)) hρ hT
  have h2 := A.number 0 _ _ _ _ le_rfl (PF.exact (rd := rd64) ⟨ρ⟩ p1) (PF.exact (rd := rd64) ⟨T⟩ p2)
  have h3 := G.number_inf (dbl ρ) (dbl T) ρ T p1 p2
  revert h1 h2 h3
  generalize i.NumberEmissivity o (dbl ρ) (dbl T) = x
  generalize i''.NumberEmissivity o'' ⟨ρ⟩ ⟨T⟩ = y
  generalize i'.NumberEmissivity o' ρ T = z
  have ok : ∀ (a : IE binary64) (b : Fl rd64) (r : ℝ), ((a.val = .pinf ∧ b.val = 0) ∨ Sim (-1022) 1023 a b) →
      (r ≠ infinity → PF u64 (64 * (1 + S) * (0 + 11 * n + 1)) b r) → (r = infinity → a.val = .pinf) →
      (a = infinity ∧ r = infinity) ∨ Accurate a r := by
    intro a b r h1 h2 h3
    by_cases hr : r = infinity
    · exact .inl ⟨congrArg IE.mk (h3 hr), hr⟩
    · rcases h1 with h1 | h1
      · exact absurd h1.2 (h2 hr).pos'.ne'
      · exact .inr (accurate_of h1 (h2 hr) c.1 c.2)
  intro h1 h2 h3
  cases x <;> cases y <;> cases z <;>
    first | exact ok _ _ _ h1 h2 (h3 _ _ rfl rfl) | exact h1.trans h2 | exact h1.elim | exact h2.elim

/-- C67: the frequency-integrated thermal distributions, energy and number density -/
theorem C67_totals (H : Doubled O O' i i' o o' n D) (hT : D.temp T) :
    Accurate (i.ThermalDistributionOfT o (dbl T)) (i'.ThermalDistributionOfT o' T) ∧
    Accurate (i.ThermalNumberDistributionOfT o (dbl T)) (i'.ThermalNumberDistributionOfT o' T) ∧
    Accurate (i.EnergyDensityFromTemperature o (dbl T)) (i'.EnergyDensityFromTemperature o' T) ∧
    Accurate (i.NumberDensityFromTemperature o (dbl T)) (i'.NumberDensityFromTemperature o' T) := by
  have G := doubled_good H
  obtain ⟨O'', i'', o'', S, K, A, B, -, hS, hx⟩ := G.mid
  have p2 := G.temp_pos _ hT
  have c := count_le' A.S_nonneg hS G.le_one
  obtain ⟨s1, s2, s3, s4⟩ := B.totals ((Near.exact T p2).mono (by norm_num)) hT
  obtain ⟨a1, a2, a3, -, a4⟩ := A.totals 0 _ _ le_rfl (PF.exact (rd := rd64) ⟨T⟩ p2)
  exact ⟨accurate_of s1 a1 c.1 c.2, accurate_of s2 a2 c.1 c.2, accurate_of s3 a3 c.1 c.2, accurate_of s4 a4 c.1 c.2⟩

/-- C67: the temperature of an energy density -/
theorem C67_temperature (H : Doubled O O' i i' o o' n D) (he : D.energy e) :
    Accurate (i.TemperatureFromEnergyDensity o (dbl e)) (i'.TemperatureFromEnergyDensity o' e) := by
  have G := doubled_good H
  obtain ⟨O'', i'', o'', S, K, A, B, -, hS, hx⟩ := G.mid
  have p2 := G.energy_pos _ he
  have c := count_le' A.S_nonneg hS G.le_one
  exact accurate_of (B.inverse ((Near.exact e p2).mono (by norm_num)) he)
    (A.totals 0 _ _ le_rfl (PF.exact (rd := rd64) ⟨e⟩ p2)).2.2.2.1 c.1 c.2

/-- an object of the specification is an opacity of C30 -/
theorem Doubled.constructed (H : Doubled O O' i i' o o' n D) : Constructed (IE binary64) O i o n := by
  induction H with
  | gray => exact .gray _
  | epbremss => exact .epbremss _
  | powerLaw => exact .powerLaw _
  | nonCGS t m l te _ _ ih => exact .nonCGS _ _ _ _ trivial trivial trivial trivial ih
  | vScaleFree _ ih => exact .vScaleFree ih
  | vGray _ ih => exact .vGray ih
  | vPowerLawScaleFree _ ih => exact .vPowerLawScaleFree ih
  | vPowerLaw _ ih => exact .vPowerLaw ih
  | vEPBremss _ ih => exact .vEPBremss ih
  | vNonCGSGray _ ih => exact .vNonCGSGray ih
  | vNonCGSPowerLaw _ ih => exact .vNonCGSPowerLaw ih
  | vNonCGSEPBremss _ ih => exact .vNonCGSEPBremss ih

/-- C67: what a vectorised call stores -/
theorem C67_vector (H : Doubled O O' i i' o o' n D) (fn : VFn) (hρ : D.dens ρ) (hT : D.temp T) (nb co : Indexer) (nbins : ℤ)
    (m : Heap (IE binary64)) (hs : Spec.Separate nb co nbins) (f : ℕ → ℝ) (hm : ∀ k : ℕ, (k : ℤ) < nbins → m (nb k) = dbl (f k))
    (hν : ∀ k : ℕ, (k : ℤ) < nbins → D.freq T (f k)) (k : ℕ) (hk : (k : ℤ) < nbins) :
    Accurate (vectorFn i o fn (dbl ρ) (dbl T) nb co nbins m (co k)) (scalarFn i' o' fn ρ T (f k)) := by
  have hc : ∀ a b : IE binary64, a * b = b * a := fun a b => by
    show (⟨IE.round binary64 (XR.mul a.val b.val)⟩ : IE binary64) = ⟨IE.round binary64 (XR.mul b.val a.val)⟩
    congr 2
    cases a.val <;> cases b.val <;> simp [XR.mul, mul_comm]
  rw [(C30_bits hc H.constructed fn _ _ nb co nbins m hs).1 k hk, hm k hk]
  exact C67_spectral H fn hρ hT (hν k hk)

/-- double precision overflows in `expm1` of a large number -/
theorem expm1_inf {l h : ℤ} {a : IE binary64} {b : Fl rd64} (s : Sim l h a b) (hb : 1025 ≤ b.val) :
    (expm1 a).val = .pinf := by
  show XR.lift binary64.expm1 (.fin (-1)) .pinf a.val = _
  rw [s.1]
  show binary64.rd (Real.exp b.val - 1) = .pinf
  have h1 : (2 : ℝ) ^ (1024 : ℤ) ≤ Real.exp b.val - 1 := by
    have e1 : Real.exp 1025 ≤ Real.exp b.val := Real.exp_le_exp.2 hb
    have e2 : Real.exp 1025 = Real.exp 1 ^ (1025 : ℕ) := by rw [← Real.exp_nat_mul]; norm_num
    have e3 : (2 : ℝ) ^ (1025 : ℕ) ≤ Real.exp 1 ^ (1025 : ℕ) :=
      pow_le_pow_left₀ (by norm_num) (le_of_lt (lt_trans (by norm_num) Real.exp_one_gt_d9)) 1025
    have e4 : (2 : ℝ) ^ (1025 : ℕ) = 2 ^ (1024 : ℕ) * 2 := pow_succ _ _
    have e5 : (1 : ℝ) ≤ 2 ^ (1024 : ℕ) := one_le_pow₀ one_le_two
    have e6 : (2 : ℝ) ^ (1024 : ℤ) = 2 ^ (1024 : ℕ) := zpow_natCast _ 1024
    rw [e6]
    rw [e2] at e1
    clear e2 e6
    generalize Real.exp 1 ^ (1025 : ℕ) = X at *
    generalize Real.exp b.val = W at *
    generalize (2 : ℝ) ^ (1025 : ℕ) = Y at *
    generalize (2 : ℝ) ^ (1024 : ℕ) = Z at *
    linarith
  have h2 := double64.near_mono h1
  have h3 : double64.near (2 ^ (1024 : ℤ)) = 2 ^ (1024 : ℤ) := by
    have := double64.near_fix (e := 1024) (k := 1) (show (-1074 : ℤ) ≤ 1024 by norm_num) (by norm_num [double64])
    simpa using this
  show double64.rd _ = _
  unfold BinaryParams.rd
  rw [if_pos]
  rw [h3] at h2
  exact h2

/-- C67 fails without the bound on `hν/kT`: with the library's CGS constants, density, opacity and temperature 1 and
frequency `2^60`, the emissivity is positive, but double precision returns zero -/
theorem C67_extreme_false : ∃ pc : PC ℝ, pc.dbl = PhysicalConstantsCGS ∧ CgsSized pc ∧
    PhotonAPI.EmissivityPerNuOmega (⟨pc.dbl, dbl 1⟩ : GrayOpacity (IE binary64)) (dbl 1) (dbl 1) (dbl (2 ^ 60)) = dbl 0 ∧
    0 < PhotonAPI.EmissivityPerNuOmega (⟨pc, 1⟩ : GrayOpacity ℝ) (1 : ℝ) 1 (2 ^ 60) := by
  obtain ⟨pc, e, hpc⟩ := cgs_sized
  refine ⟨pc, e, hpc, ?_, ?_⟩
  · have s1 : Sim 0 0 (dbl 1) (⟨1⟩ : Fl rd64) := ⟨rfl, by norm_num [Bits]⟩
    have sν : Sim 60 60 (dbl (2 ^ 60)) (⟨2 ^ 60⟩ : Fl rd64) := ⟨rfl, by norm_num [Bits]⟩
    have sx := ((sh hpc).mul sν).div ((skb hpc).mul s1)
    have hx : (1025 : ℝ) ≤ ((fl pc).h * ⟨2 ^ 60⟩ / ((fl pc).kb * ⟨1⟩) : Fl rd64).val := by
      refine le_trans ?_ sx.2.1
      norm_num
    have hinf := expm1_inf sx hx
    have sn := ((((((Sim.lit 2 1 1).mul (sh hpc)).mul sν).mul sν).mul sν).div ((sc hpc).mul (sc hpc))).mul (Sim.lit 1 0 0)
    have z : binary64.rd 0 = .fin 0 := binary64.rd_zero
    have hB : (Planck.ThermalDistributionOfTNu pc.dbl (dbl 1) (dbl (2 ^ 60))).val = .fin 0 := by
      show IE.round binary64 (XR.div _ (expm1 _ : IE binary64).val) = _
      rw [hinf]
      erw [sn.1]
      simp [XR.div, IE.round, z]
    have sk := s1.mul s1
    show (⟨IE.round binary64 (XR.mul (dbl 1 * dbl 1 : IE binary64).val _)⟩ : IE binary64) = ⟨.fin 0⟩
    rw [hB, sk.1]
    simp [XR.mul, IE.round, z]
  · exact (gray_acc rd64_binary (pc := fl pc) (CgsSized.pos hpc) ⟨1⟩ one_pos).spectral .EmissivityPerNuOmega 0 ⟨1⟩ ⟨1⟩ ⟨2 ^ 60⟩
      1 1 (2 ^ 60) le_rfl (unit_small64 (by norm_num)) (PF.exact (rd := rd64) ⟨1⟩ one_pos) (PF.exact (rd := rd64) ⟨1⟩ one_pos)
      (PF.exact (rd := rd64) ⟨2 ^ 60⟩ (by norm_num)) |>.pos

/-- the hypotheses of C67 are met: with the library's CGS constants, bremsstrahlung in code units of 1000 s, 2e33 g, 1e5 cm
and 1e6 K -/
theorem exDoubled : ∃ (pc : PC ℝ) (D : Domain), pc.dbl = PhysicalConstantsCGS ∧
    Doubled (Opacity (IE binary64)) (Opacity ℝ) inferInstance inferInstance
      (.NonCGSEPBremss (NonCGSUnits.construct ⟨PhysicalConstantsCGS⟩ (dbl 1024) (dbl (2 ^ 110)) (dbl (2 ^ 17)) (dbl (2 ^ 20))))
      (.NonCGSEPBremss (NonCGSUnits.construct ⟨pc⟩ 1024 (2 ^ 110) (2 ^ 17) (2 ^ 20))) 1 D ∧
    D.dens (2 ^ (-60 : ℤ)) ∧ D.temp 1 ∧ (∀ ν, 1 ≤ ν → ν ≤ 2 ^ 56 → D.freq 1 ν) ∧ D.energy 1 := by
  obtain ⟨pc, e, hpc⟩ := cgs_sized
  refine ⟨pc, (cgsDomain pc).inUnits 1024 (2 ^ 110) (2 ^ 17) (2 ^ 20), e, ?_, ?_, ?_, ?_, ?_⟩
  · rw [← e]
    exact .vNonCGSEPBremss (.nonCGS _ _ _ _ ⟨by norm_num [Bits], by norm_num [Bits], by norm_num [Bits], by norm_num [Bits],
      by norm_num [Bits]⟩ (.epbremss pc hpc))
  · show Bits _ _ _
    norm_num [Bits]
  · show Bits _ _ _
    norm_num [Bits]
  · intro ν h1 h2
    refine ⟨?_, ?_⟩
    · constructor
      · rw [le_div_iff₀ (by norm_num)]
        refine le_trans ?_ h1
        norm_num
      · rw [div_le_iff₀ (by norm_num)]
        refine h2.trans ?_
        norm_num
    · have hk := hpc.kb.1
      have hh := hpc.h.2
      have k0 : 0 < pc.kb := lt_of_lt_of_le (by positivity) hk
      rw [div_le_iff₀ (by positivity)]
      have a1 : pc.h * (ν / 1024) ≤ 2 ^ (-80 : ℤ) * 2 ^ (46 : ℤ) := by
        refine mul_le_mul hh ?_ (by positivity) (by positivity)
        rw [div_le_iff₀ (by norm_num)]
        refine h2.trans ?_
        norm_num
      have a2 : (2 : ℝ) ^ (-80 : ℤ) * 2 ^ (46 : ℤ) ≤ 120 * (2 ^ (-56 : ℤ) * (1 * 2 ^ 20)) := by norm_num
      refine a1.trans (a2.trans ?_)
      gcongr
  · show Bits _ _ _
    norm_num [Bits]

/-- the hypotheses of C67 are met -/
example (fn : VFn) (ν : ℝ) (h1 : 1 ≤ ν) (h2 : ν ≤ 2 ^ 56) : ∃ (pc : PC ℝ), pc.dbl = PhysicalConstantsCGS ∧
    Accurate
      (scalarFn (inferInstance : PhotonAPI (IE binary64) (Opacity (IE binary64))) (.NonCGSEPBremss (NonCGSUnits.construct
        ⟨PhysicalConstantsCGS⟩ (dbl 1024) (dbl (2 ^ 110)) (dbl (2 ^ 17)) (dbl (2 ^ 20)))) fn (dbl (2 ^ (-60 : ℤ))) (dbl 1) (dbl ν))
      (scalarFn (inferInstance : PhotonAPI ℝ (Opacity ℝ)) (.NonCGSEPBremss (NonCGSUnits.construct ⟨pc⟩ 1024 (2 ^ 110) (2 ^ 17)
        (2 ^ 20))) fn (2 ^ (-60 : ℤ)) 1 ν) := by
  obtain ⟨pc, D, e, H, d1, d2, d3, d4⟩ := exDoubled
  exact ⟨pc, e, C67_spectral H fn d1 d2 (d3 ν h1 h2)⟩

end Photons
end Opac
