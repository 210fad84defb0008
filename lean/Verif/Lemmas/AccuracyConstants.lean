import Verif.Lemmas.Accuracy
import Verif.Model.Constants

/-! Rounding errors of the physical constants (lemmas for C65) -/

namespace Opac.Accuracy
open Arith
variable {rd : ℝ → ℝ} {u : ℝ}

/-- constants computed with rounding from rounded base constants and unit conversions -/
structure BaseAcc (u : ℝ) (B : BaseConsts (Fl rd)) (B' : BaseConsts ℝ) : Prop where
  avogadro : PF u 1 B.avogadro B'.avogadro
  fine_structure : PF u 1 B.fine_structure B'.fine_structure
  planck : PF u 1 B.planck B'.planck
  boltzmann : PF u 1 B.boltzmann B'.boltzmann
  elementary_charge : PF u 1 B.elementary_charge B'.elementary_charge
  speed_of_light : PF u 1 B.speed_of_light B'.speed_of_light
  gravitational_constant : PF u 1 B.gravitational_constant B'.gravitational_constant
  electron_mass : PF u 1 B.electron_mass B'.electron_mass
  proton_mass : PF u 1 B.proton_mass B'.proton_mass
  neutron_mass : PF u 1 B.neutron_mass B'.neutron_mass
  atomic_mass_unit : PF u 1 B.atomic_mass_unit B'.atomic_mass_unit
  fermi : PF u 1 B.fermi_coupling_constant B'.fermi_coupling_constant

/-- the same for unit conversions -/
structure UnitAcc (u : ℝ) (U : UnitConv (Fl rd)) (U' : UnitConv ℝ) : Prop where
  length : PF u 1 U.length U'.length
  mass : PF u 1 U.mass U'.mass
  time : PF u 1 U.time U'.time
  temperature : PF u 1 U.temperature U'.temperature
  charge : PF u 1 U.charge U'.charge

/-- the same constants, up to `n` rounding errors each -/
structure PCAcc (u n : ℝ) (p : PC (Fl rd)) (p' : PC ℝ) : Prop where
  na : PF u n p.na p'.na
  alpha : PF u n p.alpha p'.alpha
  h : PF u n p.h p'.h
  hbar : PF u n p.hbar p'.hbar
  kb : PF u n p.kb p'.kb
  r_gas : PF u n p.r_gas p'.r_gas
  qe : PF u n p.qe p'.qe
  c : PF u n p.c p'.c
  g_newt : PF u n p.g_newt p'.g_newt
  me : PF u n p.me p'.me
  mp : PF u n p.mp p'.mp
  mn : PF u n p.mn p'.mn
  amu : PF u n p.amu p'.amu
  sb : PF u n p.sb p'.sb
  ar : PF u n p.ar p'.ar
  eV : PF u n p.eV p'.eV
  Fc : PF u n p.Fc p'.Fc
  nu_sigma0 : PF u n p.nu_sigma0 p'.nu_sigma0
  gA : CF u n p.gA p'.gA

theorem constants_acc (hr : BinaryRounding rd u) {B : BaseConsts (Fl rd)} {B' : BaseConsts ℝ} {U : UnitConv (Fl rd)}
    {U' : UnitConv ℝ} (hB : BaseAcc u B B') (hU : UnitAcc u U U') :
    PCAcc u 128 (PhysicalConstants B U) (PhysicalConstants B' U') := by
  have i2 : PF u 0 (lit 2 : Fl rd) (lit 2 : ℝ) := PF.int hr 2 2 (by norm_num) (by norm_num) (by norm_num)
  have i4 : PF u 0 (lit 4 : Fl rd) (lit 4 : ℝ) := PF.int hr 4 4 (by norm_num) (by norm_num) (by norm_num)
  have i15 : PF u 0 (lit 15 : Fl rd) (lit 15 : ℝ) := PF.int hr 15 15 (by norm_num) (by norm_num) (by norm_num)
  have p := PF.pi hr
  have force := (hU.mass.mul hr hU.length).div hr (hU.time.mul hr hU.time)
  have energy := force.mul hr hU.length
  have h := (hB.planck.mul hr energy).mul hr hU.time
  have hbar := h.div hr (i2.mul hr p)
  have kb := (hB.boltzmann.mul hr energy).div hr hU.temperature
  have c := (hB.speed_of_light.mul hr hU.length).div hr hU.time
  have me := hB.electron_mass.mul hr hU.mass
  have sb := (((((((((i2.mul hr p).mul hr p).mul hr p).mul hr p).mul hr p).mul hr kb).mul hr kb).mul hr kb).mul hr kb).div hr
    (((((i15.mul hr h).mul hr h).mul hr h).mul hr c).mul hr c)
  have Fc := hB.fermi.div hr (energy.mul hr energy)
  exact {
    na := hB.avogadro.mono hr (by norm_num)
    alpha := hB.fine_structure.mono hr (by norm_num)
    h := h.mono hr (by norm_num)
    hbar := hbar.mono hr (by norm_num)
    kb := kb.mono hr (by norm_num)
    r_gas := (hB.avogadro.mul hr kb).mono hr (by norm_num)
    qe := (hB.elementary_charge.mul hr hU.charge).mono hr (by norm_num)
    c := c.mono hr (by norm_num)
    g_newt := ((((hB.gravitational_constant.mul hr hU.length).mul hr hU.length).mul hr hU.length).div hr
      ((hU.mass.mul hr hU.time).mul hr hU.time)).mono hr (by norm_num)
    me := me.mono hr (by norm_num)
    mp := (hB.proton_mass.mul hr hU.mass).mono hr (by norm_num)
    mn := (hB.neutron_mass.mul hr hU.mass).mono hr (by norm_num)
    amu := (hB.atomic_mass_unit.mul hr hU.mass).mono hr (by norm_num)
    sb := sb.mono hr (by norm_num)
    ar := ((i4.mul hr sb).div hr c).mono hr (by norm_num)
    eV := (hB.elementary_charge.mul hr energy).mono hr (by norm_num)
    Fc := Fc.mono hr (by norm_num)
    nu_sigma0 := (((((((((((((((i4.mul hr hU.length).mul hr hU.length).mul hr Fc).mul hr Fc).mul hr c).mul hr c).mul hr
      hbar).mul hr hbar).mul hr me).mul hr me).mul hr c).mul hr c).mul hr c).mul hr c).div hr p).mono hr (by norm_num)
    gA := (CF.lit' hr _ (by norm_num)).mono hr (by norm_num) }

theorem cgs_acc (hr : BinaryRounding rd u) : PCAcc u 128 (PhysicalConstantsCGS : PC (Fl rd)) (PhysicalConstantsCGS : PC ℝ) :=
  constants_acc hr (by constructor <;> exact PF.dec hr _ (by norm_num)) (by constructor <;> exact PF.dec hr _ (by norm_num))

theorem si_acc (hr : BinaryRounding rd u) : PCAcc u 128 (PhysicalConstantsSI : PC (Fl rd)) (PhysicalConstantsSI : PC ℝ) :=
  constants_acc hr (by constructor <;> exact PF.dec hr _ (by norm_num)) (by constructor <;> exact PF.dec hr _ (by norm_num))

theorem unity_acc (hr : BinaryRounding rd u) :
    PCAcc u 128 (PhysicalConstantsUnity : PC (Fl rd)) (PhysicalConstantsUnity : PC ℝ) :=
  constants_acc hr (by constructor <;> exact PF.dec hr _ (by norm_num)) (by constructor <;> exact PF.dec hr _ (by norm_num))

/-- the rounded constants of the library are positive -/
theorem PCAcc.pos {p : PC (Fl rd)} {p' : PC ℝ} {n : ℝ} (h : PCAcc u n p p') : PosConsts p.exact where
  h := h.h.pos'
  hbar := h.hbar.pos'
  kb := h.kb.pos'
  c := h.c.pos'
  me := h.me.pos'
  mp := h.mp.pos'
  qe := h.qe.pos'
  alpha := h.alpha.pos'
  sigma0 := h.nu_sigma0.pos'
  gA := h.gA.ne.1

end Opac.Accuracy
