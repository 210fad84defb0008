import Verif.Lemmas.Thermal
import Verif.Spec.Built

/-! Every opacity that can be built radiates thermally with Planck's law (Fermi–Dirac law) for a positive set of
physical constants: those of its code units. -/

set_option linter.unusedSimpArgs false

namespace Opac
open Spec Real

/-- the constants that enter thermal radiation, in code units -/
noncomputable def codePC (u : Units) (pc : PC ℝ) : PC ℝ :=
  { pc with
    h := pc.h * u.time / (u.mass * u.length ^ 2)
    kb := pc.kb * u.time ^ 2 * u.temp / (u.mass * u.length ^ 2)
    c := pc.c * u.time / u.length
    ar := pc.ar * u.time ^ 2 * u.length / u.mass * u.temp ^ 4 }

theorem codePC_pos {u : Units} (hu : u.Pos) {pc : PC ℝ} (P : PosPC pc) : PosPC (codePC u pc) := by
  obtain ⟨h1, h2, h3, h4⟩ := P
  obtain ⟨u1, u2, u3, u4⟩ := hu
  refine ⟨?_, ?_, ?_, ?_⟩ <;> simp only [codePC] <;> try positivity
  rw [h4]; field_simp

/-- reported constants, as far as thermal radiation is concerned -/
structure Reports (r : RPC ℝ) (pc : PC ℝ) : Prop where
  h : r.pc.h = pc.h
  kb : r.pc.kb = pc.kb
  c : r.pc.c = pc.c
  ar : r.pc.ar = pc.ar

theorem reports_ofUnits (pc : PC ℝ) {u : Units} (hu : u.Pos) :
    Reports (RPC.ofUnits pc u.time u.mass u.length u.temp) (codePC u pc) := by
  obtain ⟨u1, u2, u3, u4⟩ := hu
  have hm2 : u.length ^ (-2 : ℝ) = (u.length ^ 2)⁻¹ := by
    rw [rpow_neg u3.le, rpow2]
  constructor <;> simp only [RPC.ofUnits, codePC, areal] <;> push_cast <;> simp only [rpow2, rpow4, hm2] <;>
    field_simp

theorem planckE_eq (pc : PC ℝ) (T : ℝ) : Planck.EnergyDensityFromTemperature pc T =
    8 * π ^ 5 * pc.kb ^ 4 * T ^ 4 / (15 * pc.c ^ 2 * pc.h ^ 3) / pc.c := by
  simp only [Planck.EnergyDensityFromTemperature, areal, planckT_eq]

theorem planckND_eq (pc : PC ℝ) (T : ℝ) : Planck.NumberDensityFromTemperature pc T =
    16 * pc.kb ^ 3 * π * T ^ 3 * 1.20206 / (pc.c ^ 2 * pc.h ^ 3) / pc.c := by
  simp only [Planck.NumberDensityFromTemperature, areal, planckN_eq]

theorem planckTE_eq (pc : PC ℝ) (er : ℝ) : Planck.TemperatureFromEnergyDensity pc er =
    (15 * pc.c ^ 3 * pc.h ^ 3 * er / (8 * π ^ 5 * pc.kb ^ 4)) ^ (1 / 4 : ℝ) := by
  simp only [Planck.TemperatureFromEnergyDensity, areal]
  push_cast; simp only [rpow2, rpow3, rpow4, rpow5]

theorem fermiE_eq (d : Neutrinos.FermiDirac ℝ) (T : ℝ) : d.EnergyDensityFromTemperature T =
    7 * π ^ 5 * d.pc.kb ^ 4 * d.NSPECIES * T ^ 4 / (15 * d.pc.c ^ 2 * d.pc.h ^ 3) / d.pc.c := by
  simp only [Neutrinos.FermiDirac.EnergyDensityFromTemperature, areal, fermiT_eq]

theorem fermiND_eq (d : Neutrinos.FermiDirac ℝ) (T : ℝ) : d.NumberDensityFromTemperature T =
    12 * d.pc.kb ^ 3 * π * d.NSPECIES * T ^ 3 * 1.20206 / (d.pc.c ^ 2 * d.pc.h ^ 3) / d.pc.c := by
  simp only [Neutrinos.FermiDirac.NumberDensityFromTemperature, areal, fermiN_eq]

theorem fermiTE_eq (d : Neutrinos.FermiDirac ℝ) (er : ℝ) : d.TemperatureFromEnergyDensity er =
    (15 * d.pc.c ^ 3 * d.pc.h ^ 3 * er / (7 * π ^ 5 * d.pc.kb ^ 4 * d.NSPECIES)) ^ (1 / 4 : ℝ) := by
  simp only [Neutrinos.FermiDirac.TemperatureFromEnergyDensity, areal]
  push_cast; simp only [rpow2, rpow3, rpow4, rpow5]

theorem quarter_div {a t : ℝ} (ha : 0 ≤ a) (ht : 0 < t) :
    a ^ (1 / 4 : ℝ) / t = (a / t ^ 4) ^ (1 / 4 : ℝ) := by
  rw [div_rpow ha (by positivity)]
  congr 1
  rw [← rpow_natCast t 4, ← rpow_mul ht.le]; norm_num

/-- normal form of the thermal part of a photon opacity -/
structure PlanckNF {O : Type} (inst : Photons.PhotonAPI ℝ O) (o : O) (pc : PC ℝ) : Prop where
  pos : PosPC pc
  BTNu : ∀ T ν, inst.ThermalDistributionOfTNu o T ν = Planck.ThermalDistributionOfTNu pc T ν
  BT : ∀ T, inst.ThermalDistributionOfT o T = Planck.ThermalDistributionOfT pc T
  NT : ∀ T, inst.ThermalNumberDistributionOfT o T = Planck.ThermalNumberDistributionOfT pc T
  E : ∀ T, inst.EnergyDensityFromTemperature o T = Planck.EnergyDensityFromTemperature pc T
  N : ∀ T, inst.NumberDensityFromTemperature o T = Planck.NumberDensityFromTemperature pc T
  TE : ∀ er, 0 ≤ er → inst.TemperatureFromEnergyDensity o er = Planck.TemperatureFromEnergyDensity pc er

/-- normal form of the thermal part of a neutrino opacity -/
structure FermiNF {O : Type} (inst : Neutrinos.NeutrinoAPI ℝ O) (o : O) (d : Neutrinos.FermiDirac ℝ) : Prop where
  pos : Neutrinos.PosDist d
  BTNu : ∀ T type ν, inst.ThermalDistributionOfTNu o T type ν = d.ThermalDistributionOfTNu T ν
  BT : ∀ T type, inst.ThermalDistributionOfT o T type = d.ThermalDistributionOfT T
  NT : ∀ T type, inst.ThermalNumberDistributionOfT o T type = d.ThermalNumberDistributionOfT T
  E : ∀ T type, inst.EnergyDensityFromTemperature o T type = d.EnergyDensityFromTemperature T
  N : ∀ T type, inst.NumberDensityFromTemperature o T type = d.NumberDensityFromTemperature T
  TE : ∀ er type, 0 ≤ er → inst.TemperatureFromEnergyDensity o er type = d.TemperatureFromEnergyDensity er

open Photons in
theorem PlanckNF.nonCGS {O : Type} {inst : PhotonAPI ℝ O} {o : O} {pc : PC ℝ} (h : PlanckNF inst o pc)
    {u : Units} (hu : u.Pos) :
    PlanckNF (inferInstance : PhotonAPI ℝ (NonCGSUnits ℝ O))
      (NonCGSUnits.construct o u.time u.mass u.length u.temp) (codePC u pc) := by
  have hpos := codePC_pos hu h.pos
  obtain ⟨u1, u2, u3, u4⟩ := hu
  obtain ⟨p1, p2, p3, -⟩ := h.pos
  refine ⟨hpos, ?_, ?_, ?_, ?_, ?_, ?_⟩
  · intro T ν
    show (inst.ThermalDistributionOfTNu o (T * u.temp) (ν * (Arith.lit 1 / u.time)) : ℝ) *
      (u.time * u.time / u.mass) = _
    rw [h.BTNu, planck_eq, planck_eq]
    simp only [planckLaw, codePC, areal]; push_cast
    have e : pc.h * (ν * (1 / u.time)) / (pc.kb * (T * u.temp)) =
      pc.h * u.time / (u.mass * u.length ^ 2) * ν /
        (pc.kb * u.time ^ 2 * u.temp / (u.mass * u.length ^ 2) * T) := by
      field_simp
    rw [e]
    generalize Real.exp _ - 1 = D
    field_simp
  · intro T
    show (inst.ThermalDistributionOfT o (T * u.temp) : ℝ) * (u.time * u.time * u.length / u.mass) * u.time /
      u.length = _
    rw [h.BT, planckT_eq, planckT_eq]
    simp only [codePC]
    field_simp
  · intro T
    show (inst.ThermalNumberDistributionOfT o (T * u.temp) : ℝ) * u.mass /
      (u.mass / (u.length * u.length * u.length)) * u.time / u.length = _
    rw [h.NT, planckN_eq, planckN_eq]
    simp only [codePC]
    field_simp
  · intro T
    show (inst.EnergyDensityFromTemperature o (T * u.temp) : ℝ) * (u.time * u.time * u.length / u.mass) = _
    rw [h.E, planckE_eq, planckE_eq]
    simp only [codePC]
    field_simp
  · intro T
    show (inst.NumberDensityFromTemperature o (T * u.temp) : ℝ) * u.mass /
      (u.mass / (u.length * u.length * u.length)) = _
    rw [h.N, planckND_eq, planckND_eq]
    simp only [codePC]
    field_simp
  · intro er her
    show (inst.TemperatureFromEnergyDensity o (er / (u.time * u.time * u.length / u.mass)) : ℝ) / u.temp = _
    rw [h.TE _ (by positivity), planckTE_eq, planckTE_eq, quarter_div (by positivity) u4]
    congr 1
    simp only [codePC]
    field_simp

open Photons in
theorem Photons.Built.nf {O : Type} {inst : PhotonAPI ℝ O} {o : O} {n : ℕ} (h : Built O inst o n) :
    ∃ pc, PlanckNF inst o pc ∧ (n = 0 → inst.PCof o = pc) ∧
      (n ≤ 1 → Reports (inst.GetRuntimePhysicalConstants o) pc) := by
  induction h with
  | gray o P => exact ⟨o.pc, ⟨P, fun _ _ => rfl, fun _ => rfl, fun _ => rfl, fun _ => rfl, fun _ => rfl,
      fun _ _ => rfl⟩, fun _ => rfl, fun _ => ⟨rfl, rfl, rfl, rfl⟩⟩
  | epbremss o P => exact ⟨o.pc, ⟨P, fun _ _ => rfl, fun _ => rfl, fun _ => rfl, fun _ => rfl, fun _ => rfl,
      fun _ _ => rfl⟩, fun _ => rfl, fun _ => ⟨rfl, rfl, rfl, rfl⟩⟩
  | powerLaw o P => exact ⟨o.pc, ⟨P, fun _ _ => rfl, fun _ => rfl, fun _ => rfl, fun _ => rfl, fun _ => rfl,
      fun _ _ => rfl⟩, fun _ => rfl, fun _ => ⟨rfl, rfl, rfl, rfl⟩⟩
  | nonCGS u hu _ ih =>
    obtain ⟨pc, h, h0, h1⟩ := ih
    refine ⟨_, h.nonCGS hu, fun h => by omega, fun hn => ?_⟩
    have e := h0 (by omega)
    have := reports_ofUnits pc hu
    rw [← e] at this ⊢
    exact this
  | vScaleFree _ ih | vGray _ ih | vPowerLawScaleFree _ ih | vPowerLaw _ ih | vEPBremss _ ih
  | vNonCGSGray _ ih | vNonCGSPowerLaw _ ih | vNonCGSEPBremss _ ih =>
    obtain ⟨pc, h, h0, h1⟩ := ih
    exact ⟨pc, ⟨h.pos, h.BTNu, h.BT, h.NT, h.E, h.N, h.TE⟩, h0, h1⟩

open Neutrinos in
theorem FermiNF.nonCGS {O : Type} {inst : NeutrinoAPI ℝ O} {o : O} {d : FermiDirac ℝ} (h : FermiNF inst o d)
    {u : Units} (hu : u.Pos) :
    FermiNF (inferInstance : NeutrinoAPI ℝ (NonCGSUnits ℝ O))
      (NonCGSUnits.construct o u.time u.mass u.length u.temp) ⟨d.NSPECIES, codePC u d.pc⟩ := by
  have hpos := codePC_pos hu h.pos.pc
  obtain ⟨u1, u2, u3, u4⟩ := hu
  obtain ⟨p1, p2, p3, -⟩ := h.pos.pc
  have hs : (0 : ℝ) < d.NSPECIES := by exact_mod_cast h.pos.species
  refine ⟨⟨h.pos.species, hpos⟩, ?_, ?_, ?_, ?_, ?_, ?_⟩
  · intro T ty ν
    show (inst.ThermalDistributionOfTNu o (T * u.temp) ty (ν * (Arith.lit 1 / u.time)) : ℝ) *
      (u.time * u.time / u.mass) = _
    rw [h.BTNu, fermi_eq, fermi_eq]
    simp only [fermiDiracLaw, codePC, areal]; push_cast
    have e : d.pc.h * (ν * (1 / u.time)) / (d.pc.kb * (T * u.temp)) =
      d.pc.h * u.time / (u.mass * u.length ^ 2) * ν /
        (d.pc.kb * u.time ^ 2 * u.temp / (u.mass * u.length ^ 2) * T) := by
      field_simp
    rw [e]
    generalize Real.exp _ + 1 = D
    field_simp
  · intro T ty
    show (inst.ThermalDistributionOfT o (T * u.temp) ty : ℝ) * (u.time * u.time * u.length / u.mass) * u.time /
      u.length = _
    rw [h.BT, fermiT_eq, fermiT_eq]
    simp only [codePC]
    field_simp
  · intro T ty
    show (inst.ThermalNumberDistributionOfT o (T * u.temp) ty : ℝ) * u.mass /
      (u.mass / (u.length * u.length * u.length)) * u.time / u.length = _
    rw [h.NT, fermiN_eq, fermiN_eq]
    simp only [codePC]
    field_simp
  · intro T ty
    show (inst.EnergyDensityFromTemperature o (T * u.temp) ty : ℝ) * (u.time * u.time * u.length / u.mass) = _
    rw [h.E, fermiE_eq, fermiE_eq]
    simp only [codePC]
    field_simp
  · intro T ty
    show (inst.NumberDensityFromTemperature o (T * u.temp) ty : ℝ) * u.mass /
      (u.mass / (u.length * u.length * u.length)) = _
    rw [h.N, fermiND_eq, fermiND_eq]
    simp only [codePC]
    field_simp
  · intro er ty her
    show (inst.TemperatureFromEnergyDensity o (er / (u.time * u.time * u.length / u.mass)) ty : ℝ) / u.temp = _
    rw [h.TE _ _ (by positivity), fermiTE_eq, fermiTE_eq, quarter_div (by positivity) u4]
    congr 1
    simp only [codePC]
    field_simp

open Neutrinos in
theorem Neutrinos.Built.nf {O : Type} {inst : NeutrinoAPI ℝ O} {o : O} {n : ℕ} (h : Built O inst o n) :
    ∃ d, FermiNF inst o d ∧ (n = 0 → inst.PCof o = d.pc) ∧
      (n ≤ 1 → Reports (inst.GetRuntimePhysicalConstants o) d.pc) := by
  induction h with
  | gray o P e => exact ⟨o.dist, ⟨P, fun _ _ _ => rfl, fun _ _ => rfl, fun _ _ => rfl, fun _ _ => rfl, fun _ _ => rfl,
      fun _ _ _ => rfl⟩, fun _ => e.symm, fun _ => by rw [e]; exact ⟨rfl, rfl, rfl, rfl⟩⟩
  | tophat o P e => exact ⟨o.dist, ⟨P, fun _ _ _ => rfl, fun _ _ => rfl, fun _ _ => rfl, fun _ _ => rfl, fun _ _ => rfl,
      fun _ _ _ => rfl⟩, fun _ => e.symm, fun _ => by rw [e]; exact ⟨rfl, rfl, rfl, rfl⟩⟩
  | brt o P e => exact ⟨o.dist, ⟨P, fun _ _ _ => rfl, fun _ _ => rfl, fun _ _ => rfl, fun _ _ => rfl, fun _ _ => rfl,
      fun _ _ _ => rfl⟩, fun _ => e.symm, fun _ => by rw [e]; exact ⟨rfl, rfl, rfl, rfl⟩⟩
  | spiner o P e => exact ⟨o.dist, ⟨P, fun _ _ _ => rfl, fun _ _ => rfl, fun _ _ => rfl, fun _ _ => rfl, fun _ _ => rfl,
      fun _ _ _ => rfl⟩, fun _ => e.symm, fun _ => by rw [e]; exact ⟨rfl, rfl, rfl, rfl⟩⟩
  | nonCGS u hu _ ih =>
    obtain ⟨pc, h, h0, h1⟩ := ih
    refine ⟨_, h.nonCGS hu, fun h => by omega, fun hn => ?_⟩
    have e := h0 (by omega)
    have := reports_ofUnits pc.pc hu
    rw [← e] at this ⊢
    exact this
  | vScaleFree _ ih | vBRTOpac _ ih | vGray _ ih | vTophat _ ih | vSpinerOpac _ ih
  | vNonCGSBRT _ ih | vNonCGSGray _ ih | vNonCGSTophat _ ih | vNonCGSSpiner _ ih =>
    obtain ⟨pc, h, h0, h1⟩ := ih
    exact ⟨pc, ⟨h.pos, h.BTNu, h.BT, h.NT, h.E, h.N, h.TE⟩, h0, h1⟩

end Opac
