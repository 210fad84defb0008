import Verif.Lemmas.DoublesPhotons

/-! The CGS constants of the library in double precision. -/

namespace Opac.Doubles
open Arith

theorem eq_dbl {l h : ℤ} {a : IE binary64} {b : Fl rd64} (s : Sim l h a b) : dbl b.val = a :=
  congrArg IE.mk s.1.symm

/-- the library's CGS constants are doubles of the expected size -/
theorem cgs_sized : ∃ pc : PC ℝ, pc.dbl = (PhysicalConstantsCGS : PC (IE binary64)) ∧ CgsSized pc := by
  have len : Sim 6 7 (UnitConversionSIToCGS : UnitConv (IE binary64)).length (UnitConversionSIToCGS : UnitConv (Fl rd64)).length :=
    Sim.lit 1.e2 6 7
  have mass : Sim 9 10 (UnitConversionSIToCGS : UnitConv (IE binary64)).mass (UnitConversionSIToCGS : UnitConv (Fl rd64)).mass :=
    Sim.lit 1.e3 9 10
  have time : Sim 0 0 (UnitConversionSIToCGS : UnitConv (IE binary64)).time (UnitConversionSIToCGS : UnitConv (Fl rd64)).time :=
    Sim.lit 1 0 0
  have temp : Sim 0 0 (UnitConversionSIToCGS : UnitConv (IE binary64)).temperature
      (UnitConversionSIToCGS : UnitConv (Fl rd64)).temperature := Sim.lit 1 0 0
  have energy := ((mass.mul len).div (time.mul time)).mul len
  have na := Sim.lit 6.02214129e23 78 79
  have alpha := Sim.lit 7.2973525698e-3 (-8) (-7)
  have h := ((Sim.lit 6.62606957e-34 (-111) (-110)).mul energy).mul time
  have hbar := h.div ((Sim.lit 2 1 1).mul Sim.pi)
  have kb := ((Sim.lit 1.380648800e-23 (-76) (-75)).mul energy).div temp
  have c := ((Sim.lit 2.99792458e8 28 29).mul len).div time
  have me := (Sim.lit 9.10938291e-31 (-100) (-99)).mul mass
  have mp := (Sim.lit 1.672621777e-27 (-90) (-88)).mul mass
  have mn := (Sim.lit 1.674927351e-27 (-90) (-88)).mul mass
  have amu := (Sim.lit 1.660538921e-27 (-90) (-88)).mul mass
  have qe := (Sim.lit 1.602176565e-19 (-63) (-62)).mul (Sim.lit 2.997924580e9 31 32)
  have eV := (Sim.lit 1.602176565e-19 (-63) (-62)).mul energy
  have g := ((((Sim.lit 6.67384e-11 (-34) (-33)).mul len).mul len).mul len).div ((mass.mul time).mul time)
  have sb := ((((((((((Sim.lit 2 1 1).mul Sim.pi).mul Sim.pi).mul Sim.pi).mul Sim.pi).mul Sim.pi).mul kb).mul kb).mul kb).mul
    kb).div ((((((Sim.lit 15 3 4).mul h).mul h).mul h).mul c).mul c)
  have ar := ((Sim.lit 4 2 2).mul sb).div c
  have Fc := (Sim.lit 4.543791885043567014 2 3).div (energy.mul energy)
  have s0 := (((((((((((((((Sim.lit 4 2 2).mul len).mul len).mul Fc).mul Fc).mul c).mul c).mul hbar).mul hbar).mul me).mul
    me).mul c).mul c).mul c).mul c).div Sim.pi
  have gA' := Sim.lit 1.23 0 1
  have gneg : rd64 (((-1.23 : ℚ)) : ℝ) = -rd64 ((1.23 : ℚ) : ℝ) := by
    rw [Rat.cast_neg]
    unfold rd64
    rw [abs_neg, double64.near_neg]
    split_ifs <;> rfl
  have gv : (lit (-1.23) : IE binary64).val = .fin (lit (-1.23) : Fl rd64).val := by
    show binary64.rd (((-1.23 : ℚ)) : ℝ) = .fin (rd64 (((-1.23 : ℚ)) : ℝ))
    have e : binary64.rd ((1.23 : ℚ) : ℝ) = .fin (rd64 ((1.23 : ℚ) : ℝ)) := gA'.1
    rw [gneg, Rat.cast_neg, binary64.rd_neg, e]
    rfl
  have gp : |(lit (-1.23) : Fl rd64).val| = (lit 1.23 : Fl rd64).val := by
    show |rd64 (((-1.23 : ℚ)) : ℝ)| = _
    rw [gneg, abs_neg]
    exact abs_of_pos gA'.pos
  refine ⟨(PhysicalConstantsCGS : PC (Fl rd64)).exact, ?_, ?_⟩
  · exact PC.ext (eq_dbl na) (eq_dbl alpha) (eq_dbl h) (eq_dbl hbar) (eq_dbl kb) (eq_dbl (na.mul kb)) (eq_dbl qe) (eq_dbl c)
      (eq_dbl g) (eq_dbl me) (eq_dbl mp) (eq_dbl mn) (eq_dbl amu) (eq_dbl sb) (eq_dbl ar) (eq_dbl eV) (eq_dbl Fc)
      (eq_dbl s0) (congrArg IE.mk gv.symm)
  · exact ⟨(h.mono (by norm_num) (by norm_num)).2, (hbar.mono (by norm_num) (by norm_num)).2,
      (kb.mono (by norm_num) (by norm_num)).2, (c.mono (by norm_num) (by norm_num)).2,
      (me.mono (by norm_num) (by norm_num)).2, (mp.mono (by norm_num) (by norm_num)).2,
      (qe.mono (by norm_num) (by norm_num)).2, (alpha.mono (by norm_num) (by norm_num)).2,
      (s0.mono (by norm_num) (by norm_num)).2, by
        show Bits (-4) 4 |(lit (-1.23) : Fl rd64).val|
        rw [gp]
        exact (gA'.mono (by norm_num) (by norm_num)).2⟩

end Opac.Doubles
