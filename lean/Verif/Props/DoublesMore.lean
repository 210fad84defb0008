import Verif.Props.Doubles
import Verif.Lemmas.DoublesScattering
import Verif.Lemmas.DoublesNeutrinos

/-!
# C67, continued: scattering and neutrinos in double precision

Cross sections, scattering coefficients and the gray and Burrows–Reddy–Thompson neutrino opacities: no overflow, underflow
or loss of accuracy over the ranges of `Spec/Doubles.lean`.
-/

namespace Opac
open Arith Accuracy Doubles

namespace Photons
variable {O O' : Type} {i : PhotonSAPI (IE binary64) O} {i' : PhotonSAPI ℝ O'} {o : O} {o' : O'} {n : ℕ} {D : Domain} {ρ T ν : ℝ}

/-- C67: scattering of photons -/
theorem C67_scattering (H : DoubledS O O' i i' o o' n D) (hρ : D.dens ρ) (hT : D.temp T) (hν : D.freq T ν)
    (mu : IE binary64) (mu' : ℝ) :
    Accurate (i.TotalCrossSection o (dbl ρ) (dbl T) (dbl ν)) (i'.TotalCrossSection o' ρ T ν) ∧
    Accurate (i.DifferentialCrossSection o (dbl ρ) (dbl T) (dbl ν) mu) (i'.DifferentialCrossSection o' ρ T ν mu') ∧
    Accurate (i.TotalScatteringCoefficient o (dbl ρ) (dbl T) (dbl ν)) (i'.TotalScatteringCoefficient o' ρ T ν) := by
  have G := doubledS_good H
  obtain ⟨O'', i'', o'', S, A, B, -, hS⟩ := G.mid
  have p1 := G.dens_pos _ hρ
  have p2 := G.temp_pos _ hT
  have p3 := G.freq_pos _ _ hν
  have hn : (n : ℝ) ≤ 1 := by exact_mod_cast G.le_one
  have h0 := A.S_nonneg
  have c0 : 0 ≤ 16 * (1 + S) * (0 + 5 * (n : ℝ) + 1) := by positivity
  have c1 : 16 * (1 + S) * (0 + 5 * (n : ℝ) + 1) ≤ 64 * 6 * 121 * 12 := by
    have : 16 * (1 + S) * (0 + 5 * (n : ℝ) + 1) ≤ (16 * 6) * 6 :=
      mul_le_mul (by linarith) (by linarith) (by positivity) (by norm_num)
    linarith
  obtain ⟨a1, a2, a3⟩ := A.all 0 _ _ _ (⟨0⟩ : Fl rd64) _ _ _ mu' le_rfl (PF.exact (rd := rd64) ⟨ρ⟩ p1)
    (PF.exact (rd := rd64) ⟨T⟩ p2) (PF.exact (rd := rd64) ⟨ν⟩ p3)
  obtain ⟨b1, b2, b3⟩ := B (mu := mu) (mu' := ⟨0⟩) ((Near.exact ρ p1).mono (by norm_num)) ((Near.exact T p2).mono (by norm_num))
    ((Near.exact ν p3).mono (by norm_num)) hρ hT hν
  exact ⟨accurate_of b1 a1 c0 c1, accurate_of b2 a2 c0 c1, accurate_of b3 a3 c0 c1⟩

/-- the hypotheses of C67 are met: Thomson scattering with the library's CGS constants, in code units -/
example : ∃ pc : PC ℝ, pc.dbl = PhysicalConstantsCGS ∧
    Accurate
      (PhotonSAPI.TotalScatteringCoefficient (SOpacity.NonCGSThomsonS (NonCGSUnitsS.construct
        (ThomsonSOpacity.construct PhysicalConstantsCGS (dbl (2 ^ (-80 : ℤ)))) (dbl 1024) (dbl (2 ^ 110)) (dbl (2 ^ 17))
        (dbl (2 ^ 20)))) (dbl (2 ^ (-60 : ℤ))) (dbl 1) (dbl 1024))
      (PhotonSAPI.TotalScatteringCoefficient (SOpacity.NonCGSThomsonS (NonCGSUnitsS.construct
        (ThomsonSOpacity.construct pc ((2 : ℝ) ^ (-80 : ℤ))) 1024 (2 ^ 110) (2 ^ 17) (2 ^ 20))) ((2 : ℝ) ^ (-60 : ℤ)) 1 1024) := by
  obtain ⟨pc, e, hpc⟩ := cgs_sized
  refine ⟨pc, e, ?_⟩
  rw [← e]
  exact (C67_scattering (.vNonCGSThomsonS (.nonCGS 1024 (2 ^ 110) (2 ^ 17) (2 ^ 20) ⟨by norm_num [Bits], by norm_num [Bits],
    by norm_num [Bits], by norm_num [Bits], by norm_num [Bits]⟩ (.thomson pc (2 ^ (-80 : ℤ)) hpc (by norm_num [Bits]))))
    (ρ := 2 ^ (-60 : ℤ)) (T := 1) (ν := 1024) (show Bits _ _ _ by norm_num [Bits]) (show Bits _ _ _ by norm_num [Bits])
    (show Bits _ _ _ by norm_num [Bits]) (dbl 0) 0).2.2

end Photons

namespace Neutrinos

/-- a result known up to few enough roundings, or zero -/
theorem accurateOrZero_of {l h : ℤ} {a : IE binary64} {b : Fl rd64} {x N : ℝ} (s : SimZ l h a b) (p : ZF u64 N b x)
    (hN0 : 0 ≤ N) (hN : N ≤ 64 * 6 * 121 * 12) : AccurateOrZero a x := by
  rcases s with s | ⟨s1, s2⟩
  · rcases p with p | ⟨p1, p2⟩
    · exact .inl (accurate_of s p hN0 hN)
    · exact absurd p1 s.pos.ne'
  · rcases p with p | ⟨p1, p2⟩
    · exact absurd s2 (PF.pos' p).ne'
    · refine .inr ⟨?_, p2⟩
      cases a
      simp only at s1
      rw [s1]
      rfl

theorem sameEnd_of {l h : ℤ} {N : ℝ} {x : Outcome (IE binary64)} {y : Outcome (Fl rd64)} {z : Outcome ℝ}
    (h1 : SameEnd (SimZ l h) x y) (h2 : SameEnd (fun b w => ZF u64 N b w) y z) (hN0 : 0 ≤ N) (hN : N ≤ 64 * 6 * 121 * 12) :
    SameEnd AccurateOrZero x z := by
  cases x <;> cases y <;> cases z <;>
    first | exact accurateOrZero_of h1 h2 hN0 hN | exact h1.trans h2 | exact h1.elim | exact h2.elim

theorem countN {x : ℝ} {n : ℕ} (hx0 : 0 ≤ x) (hx : x ≤ 120) (hn : n ≤ 1) :
    0 ≤ 64 * (1 + x) * (0 + 11 * (n : ℝ) + 1) ∧ 64 * (1 + x) * (0 + 11 * (n : ℝ) + 1) ≤ 64 * 6 * 121 * 12 := by
  have := count_le (S := 0) le_rfl (by norm_num) hx0 hx hn
  rw [add_zero, mul_one] at this
  exact this

theorem countN' {n : ℕ} (hn : n ≤ 1) :
    0 ≤ 64 * (0 + 11 * (n : ℝ) + 1) ∧ 64 * (0 + 11 * (n : ℝ) + 1) ≤ 64 * 6 * 121 * 12 := by
  have := countN (x := 0) le_rfl (by norm_num) hn
  rw [add_zero, mul_one] at this
  exact this

section
variable {O O' : Type} {i : NeutrinoAPI (IE binary64) O} {i' : NeutrinoAPI ℝ O'} {o : O} {o' : O'} {n : ℕ} {D : Domain}
  {ρ T ν e : ℝ}

/-- C67: absorption coefficients and emissivities at a frequency, whatever the electron fractions passed (gray and BRT do
not read them) -/
theorem C67_spectral (H : Doubled O O' i i' o o' n D) (fn : VFn) (type : RadiationType) (Ye : IE binary64) (Ye' : ℝ)
    (hρ : D.dens ρ) (hT : D.temp T) (hν : D.freq T ν) :
    SameEnd AccurateOrZero (scalarFn i o fn (dbl ρ) (dbl T) Ye type (dbl ν)) (scalarFn i' o' fn ρ T Ye' type ν) := by
  have G := doubledN_good H
  obtain ⟨O'', i'', o'', K, A, B, -, hx⟩ := G.mid
  have p1 := G.dens_pos _ hρ
  have p2 := G.temp_pos _ hT
  have p3 := G.freq_pos _ _ hν
  have hK := A.K_pos
  have c := countN (x := K * ν / T) (by positivity) (hx _ _ hT hν) G.le_one
  exact sameEnd_of (B.spectral fn type (Y := Ye) (Y' := ⟨0⟩) ((Near.exact ρ p1).mono (by norm_num))
    ((Near.exact T p2).mono (by norm_num)) ((Near.exact ν p3).mono (by norm_num)) hρ hT hν)
    (A.spectral fn 0 _ _ ⟨0⟩ _ type _ _ Ye' _ le_rfl (unit_small64 G.le_one) (PF.exact (rd := rd64) ⟨ρ⟩ p1)
      (PF.exact (rd := rd64) ⟨T⟩ p2) (PF.exact (rd := rd64) ⟨ν⟩ p3)) c.1 c.2

/-- C67: the Fermi–Dirac spectrum -/
theorem C67_fermi (H : Doubled O O' i i' o o' n D) (type : RadiationType) (hT : D.temp T) (hν : D.freq T ν) :
    Accurate (i.ThermalDistributionOfTNu o (dbl T) type (dbl ν)) (i'.ThermalDistributionOfTNu o' T type ν) := by
  have G := doubledN_good H
  obtain ⟨O'', i'', o'', K, A, B, -, hx⟩ := G.mid
  have p2 := G.temp_pos _ hT
  have p3 := G.freq_pos _ _ hν
  have hK := A.K_pos
  have c := countN (x := K * ν / T) (by positivity) (hx _ _ hT hν) G.le_one
  exact accurate_of (B.thermal type ((Near.exact T p2).mono (by norm_num)) ((Near.exact ν p3).mono (by norm_num)) hT hν)
    (A.thermal 0 _ _ type _ _ le_rfl (unit_small64 G.le_one) (PF.exact (rd := rd64) ⟨T⟩ p2)
      (PF.exact (rd := rd64) ⟨ν⟩ p3)) c.1 c.2

/-- C67: its temperature derivative, without unit wrapper (with one it is wrong anyway: `C17_false`) -/
theorem C67_derivative_partial (H : Doubled O O' i i' o o' 0 D) (type : RadiationType) (hT : D.temp T) (hν : D.freq T ν) :
    Accurate (i.DThermalDistributionOfTNuDT o (dbl T) type (dbl ν)) (i'.DThermalDistributionOfTNuDT o' T type ν) := by
  have G := doubledN_good H
  obtain ⟨O'', i'', o'', K, A, B, -, hx⟩ := G.mid
  have p2 := G.temp_pos _ hT
  have p3 := G.freq_pos _ _ hν
  have hK := A.K_pos
  have c := countN (x := K * ν / T) (by positivity) (hx _ _ hT hν) G.le_one
  exact accurate_of (B.derivative type rfl ((Near.exact T p2).mono (by norm_num)) ((Near.exact ν p3).mono (by norm_num)) hT hν)
    (A.derivative 0 _ _ type _ _ rfl le_rfl (unit_small64 G.le_one) (PF.exact (rd := rd64) ⟨T⟩ p2)
      (PF.exact (rd := rd64) ⟨ν⟩ p3)) c.1 c.2

/-- C67: total emissivity and number emissivity -/
theorem C67_emissivity (H : Doubled O O' i i' o o' n D) (type : RadiationType) (Ye : IE binary64) (Ye' : ℝ)
    (hρ : D.dens ρ) (hT : D.temp T) :
    SameEnd AccurateOrZero (i.Emissivity o (dbl ρ) (dbl T) Ye type) (i'.Emissivity o' ρ T Ye' type) ∧
    SameEnd AccurateOrZero (i.NumberEmissivity o (dbl ρ) (dbl T) Ye type) (i'.NumberEmissivity o' ρ T Ye' type) := by
  have G := doubledN_good H
  obtain ⟨O'', i'', o'', K, A, B, -, hx⟩ := G.mid
  have p1 := G.dens_pos _ hρ
  have p2 := G.temp_pos _ hT
  have c := countN' G.le_one
  have h1 := B.emissivity type (Y := Ye) (Y' := ⟨0⟩) ((Near.exact ρ p1).mono (by norm_num))
    ((Near.exact T p2).mono (by norm_num)) hρ hT
  have h2 := A.emissivity 0 _ _ ⟨0⟩ type _ _ Ye' le_rfl (PF.exact (rd := rd64) ⟨ρ⟩ p1) (PF.exact (rd := rd64) ⟨T⟩ p2)
  exact ⟨sameEnd_of h1.1 h2.1 c.1 c.2, sameEnd_of h1.2 h2.2 c.1 c.2⟩

/-- C67: the frequency-integrated thermal distributions, energy and number density -/
theorem C67_totals (H : Doubled O O' i i' o o' n D) (type : RadiationType) (hT : D.temp T) :
    Accurate (i.ThermalDistributionOfT o (dbl T) type) (i'.ThermalDistributionOfT o' T type) ∧
    Accurate (i.ThermalNumberDistributionOfT o (dbl T) type) (i'.ThermalNumberDistributionOfT o' T type) ∧
    Accurate (i.EnergyDensityFromTemperature o (dbl T) type) (i'.EnergyDensityFromTemperature o' T type) ∧
    Accurate (i.NumberDensityFromTemperature o (dbl T) type) (i'.NumberDensityFromTemperature o' T type) := by
  have G := doubledN_good H
  obtain ⟨O'', i'', o'', K, A, B, -, hx⟩ := G.mid
  have p2 := G.temp_pos _ hT
  have c := countN' G.le_one
  obtain ⟨a1, a2, a3, a4⟩ := B.totals type ((Near.exact T p2).mono (by norm_num)) hT
  obtain ⟨b1, b2, b3, -, b4⟩ := A.totals 0 _ type _ le_rfl (PF.exact (rd := rd64) ⟨T⟩ p2)
  exact ⟨accurate_of a1 b1 c.1 c.2, accurate_of a2 b2 c.1 c.2, accurate_of a3 b3 c.1 c.2, accurate_of a4 b4 c.1 c.2⟩

/-- C67: the temperature of an energy density -/
theorem C67_temperature (H : Doubled O O' i i' o o' n D) (type : RadiationType) (he : D.energy e) :
    Accurate (i.TemperatureFromEnergyDensity o (dbl e) type) (i'.TemperatureFromEnergyDensity o' e type) := by
  have G := doubledN_good H
  obtain ⟨O'', i'', o'', K, A, B, -, hx⟩ := G.mid
  have p2 := G.energy_pos _ he
  have c := countN' G.le_one
  exact accurate_of (B.inverse type ((Near.exact e p2).mono (by norm_num)) he)
    (A.totals 0 _ type _ le_rfl (PF.exact (rd := rd64) ⟨e⟩ p2)).2.2.2.1 c.1 c.2

/-- the hypotheses of C67 are met: Burrows–Reddy–Thompson opacities with the library's CGS constants and three species, in
code units of 1000 s, 1e33 g, 1e5 cm and 1e6 K, at a temperature of 1e9 K and all frequencies up to 1e20 Hz -/
theorem exDoubled : ∃ (pc : PC ℝ) (D : Domain), pc.dbl = PhysicalConstantsCGS ∧
    Doubled (Opacity (IE binary64)) (Opacity ℝ) inferInstance inferInstance
      (.NonCGSBRT (NonCGSUnits.construct ⟨⟨3, PhysicalConstantsCGS⟩, PhysicalConstantsCGS⟩ (dbl 1024) (dbl (2 ^ 110))
        (dbl (2 ^ 17)) (dbl (2 ^ 20))))
      (.NonCGSBRT (NonCGSUnits.construct ⟨⟨3, pc⟩, pc⟩ 1024 (2 ^ 110) (2 ^ 17) (2 ^ 20))) 1 D ∧
    D.dens (2 ^ (-20 : ℤ)) ∧ D.temp 1024 ∧ (∀ ν, 1 ≤ ν → ν ≤ 2 ^ 66 → D.freq 1024 ν) ∧ D.energy 1 := by
  obtain ⟨pc, e, hpc⟩ := cgs_sized
  refine ⟨pc, (cgsDomain pc).inUnits 1024 (2 ^ 110) (2 ^ 17) (2 ^ 20), e, ?_, ?_, ?_, ?_, ?_⟩
  · rw [← e]
    exact .vNonCGSBRT (.nonCGS _ _ _ _ ⟨by norm_num [Bits], by norm_num [Bits], by norm_num [Bits], by norm_num [Bits],
      by norm_num [Bits]⟩ (.brt ⟨3, pc⟩ pc (by norm_num) (by norm_num) hpc hpc))
  · show Bits _ _ _
    norm_num [Bits]
  · show Bits _ _ _
    norm_num [Bits]
  · intro ν h1 h2
    refine ⟨?_, ?_⟩
    · constructor
      · rw [le_div_iff₀ (by norm_num)]
        refine le_trans ?_ h1
        norm_num
      · rw [div_le_iff₀ (by norm_num)]
        refine h2.trans ?_
        norm_num
    · have hk := hpc.kb.1
      have hh := hpc.h.2
      have k0 : 0 < pc.kb := lt_of_lt_of_le (by positivity) hk
      rw [div_le_iff₀ (by positivity)]
      have a1 : pc.h * (ν / 1024) ≤ 2 ^ (-80 : ℤ) * 2 ^ (56 : ℤ) := by
        refine mul_le_mul hh ?_ (by positivity) (by positivity)
        rw [div_le_iff₀ (by norm_num)]
        refine h2.trans ?_
        norm_num
      have a2 : (2 : ℝ) ^ (-80 : ℤ) * 2 ^ (56 : ℤ) ≤ 120 * (2 ^ (-56 : ℤ) * (1024 * 2 ^ 20)) := by norm_num
      refine a1.trans (a2.trans ?_)
      gcongr
  · show Bits _ _ _
    norm_num [Bits]

/-- the hypotheses of C67 are met -/
example (fn : VFn) (Ye : IE binary64) (Ye' ν : ℝ) (h1 : 1 ≤ ν) (h2 : ν ≤ 2 ^ 66) : ∃ (pc : PC ℝ), pc.dbl = PhysicalConstantsCGS ∧
    SameEnd AccurateOrZero
      (scalarFn (inferInstance : NeutrinoAPI (IE binary64) (Opacity (IE binary64))) (.NonCGSBRT (NonCGSUnits.construct
        ⟨⟨3, PhysicalConstantsCGS⟩, PhysicalConstantsCGS⟩ (dbl 1024) (dbl (2 ^ 110)) (dbl (2 ^ 17)) (dbl (2 ^ 20)))) fn
        (dbl (2 ^ (-20 : ℤ))) (dbl 1024) Ye .NU_ELECTRON (dbl ν))
      (scalarFn (inferInstance : NeutrinoAPI ℝ (Opacity ℝ)) (.NonCGSBRT (NonCGSUnits.construct ⟨⟨3, pc⟩, pc⟩ 1024 (2 ^ 110)
        (2 ^ 17) (2 ^ 20))) fn (2 ^ (-20 : ℤ)) 1024 Ye' .NU_ELECTRON ν) := by
  obtain ⟨pc, D, e, H, d1, d2, d3, d4⟩ := exDoubled
  exact ⟨pc, e, C67_spectral H fn .NU_ELECTRON Ye Ye' d1 d2 (d3 ν h1 h2)⟩

end

/-- C67: scattering of neutrinos -/
theorem C67_scattering {O O' : Type} {i : NeutrinoSAPI (IE binary64) O} {i' : NeutrinoSAPI ℝ O'} {o : O} {o' : O'} {n : ℕ}
    {D : Domain} {ρ T ν : ℝ} (H : DoubledS O O' i i' o o' n D) (type : RadiationType) (Ye mu : IE binary64) (Ye' mu' : ℝ)
    (hρ : D.dens ρ) (hT : D.temp T) (hν : D.freq T ν) :
    Accurate (i.TotalCrossSection o (dbl ρ) (dbl T) Ye type (dbl ν)) (i'.TotalCrossSection o' ρ T Ye' type ν) ∧
    Accurate (i.DifferentialCrossSection o (dbl ρ) (dbl T) Ye type (dbl ν) mu)
      (i'.DifferentialCrossSection o' ρ T Ye' type ν mu') ∧
    Accurate (i.TotalScatteringCoefficient o (dbl ρ) (dbl T) Ye type (dbl ν))
      (i'.TotalScatteringCoefficient o' ρ T Ye' type ν) := by
  have G := doubledSN_good H
  obtain ⟨O'', i'', o'', A, B, -⟩ := G.mid
  have p1 := G.dens_pos _ hρ
  have p2 := G.temp_pos _ hT
  have p3 := G.freq_pos _ _ hν
  have hn : (n : ℝ) ≤ 1 := by exact_mod_cast G.le_one
  have c0 : 0 ≤ 16 * (0 + 5 * (n : ℝ) + 1) := by positivity
  have c1 : 16 * (0 + 5 * (n : ℝ) + 1) ≤ 64 * 6 * 121 * 12 := by linarith
  obtain ⟨a1, a2, a3⟩ := A 0 _ _ ⟨0⟩ _ (⟨0⟩ : Fl rd64) type _ _ Ye' _ mu' le_rfl (PF.exact (rd := rd64) ⟨ρ⟩ p1)
    (PF.exact (rd := rd64) ⟨T⟩ p2) (PF.exact (rd := rd64) ⟨ν⟩ p3)
  obtain ⟨b1, b2, b3⟩ := B (Y := Ye) (Y' := ⟨0⟩) (mu := mu) (mu' := ⟨0⟩) type ((Near.exact ρ p1).mono (by norm_num))
    ((Near.exact T p2).mono (by norm_num)) ((Near.exact ν p3).mono (by norm_num)) hρ hT hν
  exact ⟨accurate_of b1 a1 c0 c1, accurate_of b2 a2 c0 c1, accurate_of b3 a3 c0 c1⟩

/-- the hypotheses of C67 are met -/
example (type : RadiationType) (Ye mu : IE binary64) (Ye' mu' : ℝ) :=
  C67_scattering (.vGrayS (.gray (2 ^ (-140 : ℤ)) (2 ^ (-80 : ℤ)) (by norm_num [Bits]) (by norm_num [Bits]))) type Ye mu Ye' mu'
    (ρ := 1024) (T := 1024) (ν := 1024) (show Bits _ _ _ by norm_num [Bits]) (show Bits _ _ _ by norm_num [Bits])
    (show Bits _ _ _ by norm_num [Bits])

end Neutrinos
end Opac
