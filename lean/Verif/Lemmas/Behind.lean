import Verif.Spec.Behind
import Verif.Props.Units
import Verif.Props.UnitsNeutrino

/-! A model behind wrappers is the model seen in the total unit system. -/

namespace Opac
open Spec Real Outcome

theorem unit_mul {u v : Spec.Units} (hu : u.Pos) (hv : v.Pos) (d : Dim) : (u.mul v).unit d = u.unit d * v.unit d := by
  simp only [Units.mul, Units.unit]
  rw [mul_rpow hu.time.le hv.time.le, mul_rpow hu.mass.le hv.mass.le, mul_rpow hu.length.le hv.length.le,
    mul_rpow hu.temp.le hv.temp.le]
  ring

theorem unit_pos {u : Spec.Units} (hu : u.Pos) (d : Dim) : 0 < u.unit d := by
  have := hu.time; have := hu.mass; have := hu.length; have := hu.temp
  unfold Units.unit; positivity

theorem mul_pos' {u v : Spec.Units} (hu : u.Pos) (hv : v.Pos) : (u.mul v).Pos :=
  ⟨_root_.mul_pos hu.time hv.time, _root_.mul_pos hu.mass hv.mass, _root_.mul_pos hu.length hv.length,
    _root_.mul_pos hu.temp hv.temp⟩

theorem unit_cgs (d : Dim) : Spec.Units.cgs.unit d = 1 := by simp [Units.cgs, Units.unit]

theorem cgs_pos : Spec.Units.cgs.Pos := ⟨one_pos, one_pos, one_pos, one_pos⟩

theorem toCode_cgs (d : Dim) : Spec.Units.cgs.toCode d = id := by funext x; simp [Units.toCode, unit_cgs]
theorem toCGS_cgs (d : Dim) : Spec.Units.cgs.toCGS d = id := by funext x; simp [Units.toCGS, unit_cgs]

theorem toCode_mul {u v : Spec.Units} (hu : u.Pos) (hv : v.Pos) (d : Dim) (x : ℝ) :
    (u.mul v).toCode d x = v.toCode d (u.toCode d x) := by
  simp only [Units.toCode, unit_mul hu hv, div_div]
theorem toCGS_mul {u v : Spec.Units} (hu : u.Pos) (hv : v.Pos) (d : Dim) (x : ℝ) :
    (u.mul v).toCGS d x = u.toCGS d (v.toCGS d x) := by
  simp only [Units.toCGS, unit_mul hu hv]; ring

theorem toCGS_pos {u : Spec.Units} (hu : u.Pos) (d : Dim) {x : ℝ} (hx : 0 < x) : 0 < u.toCGS d x :=
  _root_.mul_pos hx (unit_pos hu d)
theorem toCode_pos {u : Spec.Units} (hu : u.Pos) (d : Dim) {x : ℝ} (hx : 0 < x) : 0 < u.toCode d x :=
  div_pos hx (unit_pos hu d)

theorem map'_id' {α : Type} (x : Outcome α) : x.map' id = x := by cases x <;> rfl

namespace Photons

theorem InUnitsMain.self {O : Type} {i : PhotonAPI ℝ O} {o : O} (h : VectorOK i o id) :
    InUnitsMain .cgs i o i o := by
  refine ⟨rfl, ?_, ?_, ?_, ?_, ?_, ?_, ?_, ?_, ?_, ?_⟩ <;> intros <;>
    simp only [toCode_cgs, toCGS_cgs, id, map'_id']
  exact VectorWith.elementwise (h _ _ _)

theorem InUnitsMain.trans {u v : Spec.Units} (hu : u.Pos) (hv : v.Pos) {O O' O'' : Type} {i : PhotonAPI ℝ O} {o : O}
    {i' : PhotonAPI ℝ O'} {w : O'} {i'' : PhotonAPI ℝ O''} {x : O''} (h : InUnitsMain u i o i' w)
    (h' : InUnitsMain v i' w i'' x) : InUnitsMain (u.mul v) i o i'' x := by
  refine ⟨h'.nlambda.trans h.nlambda, ?_, fun fn rho T => ?_, ?_, ?_, ?_, ?_, ?_, ?_, ?_, ?_⟩
  · intros; simp only [toCode_mul hu hv, toCGS_mul hu hv, h'.scalar, h.scalar]
  · have := h'.vector fn rho T
    simp only [toCode_mul hu hv, toCGS_mul hu hv]
    simp only [h.scalar] at this
    exact this
  · intros
    simp only [toCGS_mul hu hv, h'.Emissivity, h.Emissivity, map'_map']
    exact map'_congr _ fun a => (toCode_mul hu hv _ _).symm
  · intros
    simp only [toCGS_mul hu hv, h'.NumberEmissivity, h.NumberEmissivity, map'_map']
    exact map'_congr _ fun a => (toCode_mul hu hv _ _).symm
  · intros; simp only [toCode_mul hu hv, toCGS_mul hu hv, h'.ThermalDistributionOfTNu, h.ThermalDistributionOfTNu]
  · intros; simp only [toCode_mul hu hv, toCGS_mul hu hv, h'.ThermalDistributionOfT, h.ThermalDistributionOfT]
  · intros
    simp only [toCode_mul hu hv, toCGS_mul hu hv, h'.ThermalNumberDistributionOfT, h.ThermalNumberDistributionOfT]
  · intros
    simp only [toCode_mul hu hv, toCGS_mul hu hv, h'.EnergyDensityFromTemperature, h.EnergyDensityFromTemperature]
  · intros
    simp only [toCode_mul hu hv, toCGS_mul hu hv, h'.TemperatureFromEnergyDensity, h.TemperatureFromEnergyDensity]
  · intros
    simp only [toCode_mul hu hv, toCGS_mul hu hv, h'.NumberDensityFromTemperature, h.NumberDensityFromTemperature]

theorem InUnitsMain.variant {u : Spec.Units} {O₀ : Type} {i₀ : PhotonAPI ℝ O₀} {o₀ : O₀} {v : Opacity ℝ} {O : Type}
    {i : PhotonAPI ℝ O} {o : O} (hv : Holds v O i o) (h : InUnitsMain u i₀ o₀ i o) :
    InUnitsMain u i₀ o₀ inferInstance v := by
  cases hv <;>
    exact ⟨h.nlambda, fun fn => by have := h.scalar fn; cases fn <;> exact this,
      fun fn => by have := h.vector fn; cases fn <;> exact this, h.Emissivity, h.NumberEmissivity,
      h.ThermalDistributionOfTNu, h.ThermalDistributionOfT, h.ThermalNumberDistributionOfT,
      h.EnergyDensityFromTemperature, h.TemperatureFromEnergyDensity, h.NumberDensityFromTemperature⟩

section
variable {O₀ : Type} {i₀ : PhotonAPI ℝ O₀} {o₀ : O₀} {O : Type} {inst : PhotonAPI ℝ O} {o : O} {us : List Spec.Units}

theorem Behind.pos (H : Behind o₀ O inst o us) : (Spec.Units.total us).Pos := by
  induction H with
  | self => exact cgs_pos
  | nonCGS u hu h ih => exact mul_pos' ih hu
  | variant hv h ih => exact ih

theorem Behind.constructed (H : Behind o₀ O inst o us) (h₀ : ConstructedIn ℝ (fun x => 0 < x) O₀ i₀ o₀ 0) :
    ConstructedIn ℝ (fun x => 0 < x) O inst o us.length := by
  induction H with
  | self => exact h₀
  | nonCGS u hu h ih => exact .nonCGS _ _ _ _ hu.time hu.mass hu.length hu.temp ih
  | variant hv h ih =>
    cases hv
    · exact .vScaleFree ih
    · exact .vGray ih
    · exact .vPowerLawScaleFree ih
    · exact .vPowerLaw ih
    · exact .vEPBremss ih
    · exact .vNonCGSGray ih
    · exact .vNonCGSPowerLaw ih
    · exact .vNonCGSEPBremss ih

theorem Behind.built (H : Behind o₀ O inst o us) (h₀ : Built O₀ i₀ o₀ 0) : Built O inst o us.length := by
  induction H with
  | self => exact h₀
  | nonCGS u hu h ih => exact .nonCGS _ hu ih
  | variant hv h ih =>
    cases hv
    · exact .vScaleFree ih
    · exact .vGray ih
    · exact .vPowerLawScaleFree ih
    · exact .vPowerLaw ih
    · exact .vEPBremss ih
    · exact .vNonCGSGray ih
    · exact .vNonCGSPowerLaw ih
    · exact .vNonCGSEPBremss ih

theorem Behind.inUnits (H : Behind o₀ O inst o us) (h₀ : ConstructedIn ℝ (fun x => 0 < x) O₀ i₀ o₀ 0) :
    InUnitsMain (Spec.Units.total us) i₀ o₀ inst o := by
  induction H with
  | self => exact InUnitsMain.self h₀.vectorOK_real
  | nonCGS u hu h ih => exact ih.trans h.pos hu (C25_units_partial (h.constructed h₀) hu)
  | variant hv h ih => exact ih.variant hv
end
end Photons

namespace Neutrinos

theorem InUnitsMain.self {O : Type} {i : NeutrinoAPI ℝ O} {o : O} (h : VectorOK i o id) :
    InUnitsMain .cgs i o i o := by
  refine ⟨rfl, ?_, ?_, ?_, ?_, ?_, ?_, ?_, ?_, ?_, ?_⟩ <;> intros <;>
    simp only [toCode_cgs, toCGS_cgs, id, map'_id']
  exact VectorWithM.elementwise (h _ _ _ _ _)

theorem InUnitsMain.trans {u v : Spec.Units} (hu : u.Pos) (hv : v.Pos) {O O' O'' : Type} {i : NeutrinoAPI ℝ O} {o : O}
    {i' : NeutrinoAPI ℝ O'} {w : O'} {i'' : NeutrinoAPI ℝ O''} {x : O''} (h : InUnitsMain u i o i' w)
    (h' : InUnitsMain v i' w i'' x) : InUnitsMain (u.mul v) i o i'' x := by
  refine ⟨h'.nlambda.trans h.nlambda, ?_, fun fn rho T Ye s => ?_, ?_, ?_, ?_, ?_, ?_, ?_, ?_, ?_⟩
  · intros
    simp only [toCGS_mul hu hv, h'.scalar, h.scalar, map'_map']
    exact map'_congr _ fun a => (toCode_mul hu hv _ _).symm
  · have := h'.vector fn rho T Ye s
    simp only [h.scalar, map'_map'] at this
    simp only [toCGS_mul hu hv]
    rw [show (u.mul v).toCode fn.dim = fun x => v.toCode fn.dim (u.toCode fn.dim x) from
      funext fun x => toCode_mul hu hv _ x]
    exact this
  · intros
    simp only [toCGS_mul hu hv, h'.Emissivity, h.Emissivity, map'_map']
    exact map'_congr _ fun a => (toCode_mul hu hv _ _).symm
  · intros
    simp only [toCGS_mul hu hv, h'.NumberEmissivity, h.NumberEmissivity, map'_map']
    exact map'_congr _ fun a => (toCode_mul hu hv _ _).symm
  · intros; simp only [toCode_mul hu hv, toCGS_mul hu hv, h'.ThermalDistributionOfTNu, h.ThermalDistributionOfTNu]
  · intros; simp only [toCode_mul hu hv, toCGS_mul hu hv, h'.ThermalDistributionOfT, h.ThermalDistributionOfT]
  · intros
    simp only [toCode_mul hu hv, toCGS_mul hu hv, h'.ThermalNumberDistributionOfT, h.ThermalNumberDistributionOfT]
  · intros
    simp only [toCode_mul hu hv, toCGS_mul hu hv, h'.EnergyDensityFromTemperature, h.EnergyDensityFromTemperature]
  · intros
    simp only [toCode_mul hu hv, toCGS_mul hu hv, h'.TemperatureFromEnergyDensity, h.TemperatureFromEnergyDensity]
  · intros
    simp only [toCode_mul hu hv, toCGS_mul hu hv, h'.NumberDensityFromTemperature, h.NumberDensityFromTemperature]

theorem InUnitsMain.variant {u : Spec.Units} {O₀ : Type} {i₀ : NeutrinoAPI ℝ O₀} {o₀ : O₀} {v : Opacity ℝ} {O : Type}
    {i : NeutrinoAPI ℝ O} {o : O} (hv : Holds v O i o) (h : InUnitsMain u i₀ o₀ i o) :
    InUnitsMain u i₀ o₀ inferInstance v := by
  cases hv <;>
    exact ⟨h.nlambda, fun fn => by have := h.scalar fn; cases fn <;> exact this,
      fun fn => by have := h.vector fn; cases fn <;> exact this, h.Emissivity, h.NumberEmissivity,
      h.ThermalDistributionOfTNu, h.ThermalDistributionOfT, h.ThermalNumberDistributionOfT,
      h.EnergyDensityFromTemperature, h.TemperatureFromEnergyDensity, h.NumberDensityFromTemperature⟩

section
variable {O₀ : Type} {i₀ : NeutrinoAPI ℝ O₀} {o₀ : O₀} {O : Type} {inst : NeutrinoAPI ℝ O} {o : O} {us : List Spec.Units}

theorem Behind.pos (H : Behind o₀ O inst o us) : (Spec.Units.total us).Pos := by
  induction H with
  | self => exact cgs_pos
  | nonCGS u hu h ih => exact mul_pos' ih hu
  | variant hv h ih => exact ih

theorem Behind.constructed (H : Behind o₀ O inst o us) (h₀ : ConstructedIn ℝ (fun x => 0 < x) O₀ i₀ o₀ 0) :
    ConstructedIn ℝ (fun x => 0 < x) O inst o us.length := by
  induction H with
  | self => exact h₀
  | nonCGS u hu h ih => exact .nonCGS _ _ _ _ hu.time hu.mass hu.length hu.temp ih
  | variant hv h ih =>
    cases hv
    · exact .vScaleFree ih
    · exact .vBRTOpac ih
    · exact .vGray ih
    · exact .vTophat ih
    · exact .vSpinerOpac ih
    · exact .vNonCGSBRT ih
    · exact .vNonCGSGray ih
    · exact .vNonCGSTophat ih
    · exact .vNonCGSSpiner ih

theorem Behind.built (H : Behind o₀ O inst o us) (h₀ : Built O₀ i₀ o₀ 0) : Built O inst o us.length := by
  induction H with
  | self => exact h₀
  | nonCGS u hu h ih => exact .nonCGS _ hu ih
  | variant hv h ih =>
    cases hv
    · exact .vScaleFree ih
    · exact .vBRTOpac ih
    · exact .vGray ih
    · exact .vTophat ih
    · exact .vSpinerOpac ih
    · exact .vNonCGSBRT ih
    · exact .vNonCGSGray ih
    · exact .vNonCGSTophat ih
    · exact .vNonCGSSpiner ih

theorem Behind.inUnits (H : Behind o₀ O inst o us) (h₀ : ConstructedIn ℝ (fun x => 0 < x) O₀ i₀ o₀ 0) :
    InUnitsMain (Spec.Units.total us) i₀ o₀ inst o := by
  induction H with
  | self => exact InUnitsMain.self h₀.vectorOK_real
  | nonCGS u hu h ih => exact ih.trans h.pos hu (C26_units_partial (h.constructed h₀) hu)
  | variant hv h ih => exact ih.variant hv
end
end Neutrinos
end Opac
