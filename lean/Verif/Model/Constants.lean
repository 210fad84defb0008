import Verif.Model.Base

/-!
# Physical constants
Models `singularity-opac/constants/constants.hpp`.
-/

namespace Opac
open Arith

variable {R : Type} [Arith R]

/-- The members of `BaseUnity`/`BaseSICODATA2010` (`constants.hpp:27-76`) that `PhysicalConstants` reads.
`acceleration_from_gravity`, `vacuum_permeability` and the base's axial coupling are declared but never
read and are left out. -/
structure BaseConsts (R : Type) where
  avogadro : R
  fine_structure : R
  planck : R
  boltzmann : R
  elementary_charge : R
  speed_of_light : R
  gravitational_constant : R
  electron_mass : R
  proton_mass : R
  neutron_mass : R
  atomic_mass_unit : R
  fermi_coupling_constant : R

/-- `constants.hpp:27-43` -/
def BaseUnity : BaseConsts R :=
  { avogadro := lit 1, fine_structure := lit 1, planck := lit 1, boltzmann := lit 1,
    elementary_charge := lit 1, speed_of_light := lit 1, gravitational_constant := lit 1,
    electron_mass := lit 1, proton_mass := lit 1, neutron_mass := lit 1, atomic_mass_unit := lit 1,
    fermi_coupling_constant := lit 1 }

/-- `constants.hpp:45-76` -/
def BaseSICODATA2010 : BaseConsts R :=
  { avogadro := lit 6.02214129e23
    fine_structure := lit 7.2973525698e-3
    planck := lit 6.62606957e-34
    boltzmann := lit 1.380648800e-23
    elementary_charge := lit 1.602176565e-19
    speed_of_light := lit 2.99792458e8
    gravitational_constant := lit 6.67384e-11
    electron_mass := lit 9.10938291e-31
    proton_mass := lit 1.672621777e-27
    neutron_mass := lit 1.674927351e-27
    atomic_mass_unit := lit 1.660538921e-27
    fermi_coupling_constant := lit 4.543791885043567014 }

/-- `constants.hpp:78-94` (`current` is declared but never read) -/
structure UnitConv (R : Type) where
  length : R
  mass : R
  time : R
  temperature : R
  charge : R

/-- `constants.hpp:78-85` -/
def UnitConversionDefault : UnitConv R :=
  { length := lit 1, mass := lit 1, time := lit 1, temperature := lit 1, charge := lit 1 }

/-- `constants.hpp:87-94` -/
def UnitConversionSIToCGS : UnitConv R :=
  { length := lit 1.e2, mass := lit 1.e3, time := lit 1, temperature := lit 1,
    charge := lit 2.997924580e9 }

/-- The public constants of `PhysicalConstants` (`constants.hpp:112-181`), under their short names. -/
@[ext] structure PC (R : Type) where
  na : R
  alpha : R
  h : R
  hbar : R
  kb : R
  r_gas : R
  qe : R
  c : R
  g_newt : R
  me : R
  mp : R
  mn : R
  amu : R
  sb : R
  ar : R
  eV : R
  Fc : R
  nu_sigma0 : R
  gA : R

/-- `constants.hpp:96-182` -/
def PhysicalConstants (B : BaseConsts R) (U : UnitConv R) : PC R :=
  let force := U.mass * U.length / (U.time * U.time)
  let energy := force * U.length
  let h := B.planck * energy * U.time
  let hbar := h / (lit 2 * pi)
  let kb := B.boltzmann * energy / U.temperature
  let c := B.speed_of_light * U.length / U.time
  let me := B.electron_mass * U.mass
  let sb := lit 2 * pi * pi * pi * pi * pi * kb * kb * kb * kb / (lit 15 * h * h * h * c * c)
  let Fc := B.fermi_coupling_constant / (energy * energy)
  { na := B.avogadro
    alpha := B.fine_structure
    h := h
    hbar := hbar
    kb := kb
    r_gas := B.avogadro * kb
    qe := B.elementary_charge * U.charge
    c := c
    g_newt := B.gravitational_constant * U.length * U.length * U.length / (U.mass * U.time * U.time)
    me := me
    mp := B.proton_mass * U.mass
    mn := B.neutron_mass * U.mass
    amu := B.atomic_mass_unit * U.mass
    sb := sb
    ar := lit 4 * sb / c
    eV := B.elementary_charge * energy
    Fc := Fc
    nu_sigma0 := lit 4 * U.length * U.length * Fc * Fc * c * c * hbar * hbar * me * me * c * c * c * c / pi
    gA := lit (-1.23) }

/-- `constants.hpp:275-276` -/
def PhysicalConstantsUnity : PC R := PhysicalConstants BaseUnity UnitConversionDefault
/-- `constants.hpp:277-278` -/
def PhysicalConstantsSI : PC R := PhysicalConstants BaseSICODATA2010 UnitConversionDefault
/-- `constants.hpp:279-280` -/
def PhysicalConstantsCGS : PC R := PhysicalConstants BaseSICODATA2010 UnitConversionSIToCGS

/-- `constants.hpp:184-236` -/
@[ext] structure RPC (R : Type) where
  time : R
  mass : R
  length : R
  temp : R
  pc : PC R

/-- `constants.hpp:185-191` -/
def RPC.ofPC (pc : PC R) : RPC R :=
  { time := lit 1, mass := lit 1, length := lit 1, temp := lit 1, pc := pc }

/-- `constants.hpp:193-210` -/
def RPC.ofUnits (pc : PC R) (time mass length temp : R) : RPC R :=
  { time := time, mass := mass, length := length, temp := temp
    pc :=
    { na := pc.na
      alpha := pc.alpha
      h := pc.h * time / mass * pow length (lit (-2))
      hbar := pc.hbar * time / mass * pow length (lit (-2))
      kb := pc.kb * pow time (lit 2) / mass * pow length (lit (-2)) * temp
      r_gas := pc.r_gas * pow time (lit 2) / mass * pow length (lit (-2))
      qe := pc.qe
      c := pc.c * time / length
      g_newt := pc.g_newt * pow length (lit (-3)) / mass * pow time (lit 2)
      me := pc.me / mass
      mp := pc.mp / mass
      mn := pc.mn / mass
      amu := pc.amu / mass
      sb := pc.sb * pow time (lit 3) / mass * pow temp (lit 4)
      ar := pc.ar * pow time (lit 2) * length / mass * pow temp (lit 4)
      eV := pc.eV * pow time (lit 2) / mass * pow length (lit (-2))
      Fc := pc.Fc * pow time (lit 2) * length / mass
      nu_sigma0 := pc.nu_sigma0 / pow length (lit 2)
      gA := pc.gA } }

/-- `constants.hpp:268-272`, with the macro `EPS` of `constants.hpp:25` -/
def eps_equal (a b : R) : Bool :=
  let diff := abs (a - b)
  let scale := lit 0.5 * (abs a + abs b)
  le (diff / (scale + lit 1e-100)) (lit 10.0 * dmin)

/-- `constants.hpp:239-265` -/
def RPC.beq (x y : RPC R) : Bool :=
  true && eps_equal x.time y.time && eps_equal x.mass y.mass && eps_equal x.length y.length
    && eps_equal x.temp y.temp && eps_equal x.pc.na y.pc.na && eps_equal x.pc.alpha y.pc.alpha
    && eps_equal x.pc.h y.pc.h && eps_equal x.pc.hbar y.pc.hbar && eps_equal x.pc.kb y.pc.kb
    && eps_equal x.pc.r_gas y.pc.r_gas && eps_equal x.pc.qe y.pc.qe && eps_equal x.pc.c y.pc.c
    && eps_equal x.pc.g_newt y.pc.g_newt && eps_equal x.pc.me y.pc.me && eps_equal x.pc.mp y.pc.mp
    && eps_equal x.pc.mn y.pc.mn && eps_equal x.pc.amu y.pc.amu && eps_equal x.pc.sb y.pc.sb
    && eps_equal x.pc.ar y.pc.ar && eps_equal x.pc.eV y.pc.eV && eps_equal x.pc.Fc y.pc.Fc
    && eps_equal x.pc.nu_sigma0 y.pc.nu_sigma0 && eps_equal x.pc.gA y.pc.gA

end Opac
