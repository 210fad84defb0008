import Verif.Spec.Signs
import Mathlib.Tactic.NormNum

/-!
# Signs propagate through every formula of the library

`SignLaws` are the sign rules of an arithmetic.  From them alone, every quantity of every opacity with physical
parameters is shown to have its sign.
-/

namespace Opac
open Arith

/-- sign rules: `P` is "positive", `N` "not negative", `M` "not negative, perhaps infinite", `E` "allowed exponent" -/
structure SignLaws (R : Type) [Arith R] (N P M E : R → Prop) (tables : Prop) : Prop where
  nonneg : ∀ {a : R}, P a → N a
  big : ∀ {a : R}, N a → M a
  inf : M (Arith.infinity : R)
  lit_pos : ∀ {q : ℚ}, 0 < q → P (Arith.lit q : R)
  lit_zero : N (Arith.lit 0 : R)
  pi : P (Arith.pi : R)
  dmin : P (Arith.dmin : R)
  add : ∀ {a b : R}, N a → N b → N (a + b)
  add_pos : ∀ {a b : R}, P a → N b → P (a + b)
  sub : ∀ {a b : R}, N a → N b → Arith.le b a = true → N (a - b)
  mul : ∀ {a b : R}, N a → N b → N (a * b)
  mul_pos : ∀ {a b : R}, P a → P b → P (a * b)
  mul_big : ∀ {a b : R}, M a → P b → M (a * b)
  div : ∀ {a b : R}, N a → P b → N (a / b)
  div_pos : ∀ {a b : R}, P a → P b → P (a / b)
  pow : ∀ {a b : R}, P a → E b → P (Arith.pow a b)
  lit_exp : ∀ {q : ℚ}, E (Arith.lit q : R)
  quarter : E (Arith.lit 1 / Arith.lit 4 : R)
  sqrt : ∀ {a : R}, P a → P (Arith.sqrt a)
  exp : ∀ {a : R}, P a → P (Arith.exp a)
  exp_neg : ∀ {a : R}, P a → P (Arith.exp (-a))
  expm1 : ∀ {a b : R}, P a → P b → P (Arith.expm1 (a / b))
  neg_expm1 : ∀ {a b : R}, P a → P b → P (-(Arith.expm1 (-(a / b))))
  max : ∀ {a b : R}, N a → P b → P (Arith.stdMax a b)
  ratio : ∀ {a b : R}, N a → P b → N (Robust.ratio a b)
  log : ∀ {a b : R}, P a → P b → Arith.le b a = true → N (Arith.log (a / b))
  fromLog : tables → ∀ x : R, N (Neutrinos.SpinerOpacity.fromLog_ x)
  tenPow : tables → ∀ x : R, N (Arith.pow (Arith.lit 10) x)

/-- apply the sign rules as far as they go -/
macro "signs" L:ident : tactic => `(tactic|
  repeat' first
    | assumption
    | exact SignLaws.nonneg $L (by assumption)
    | exact SignLaws.lit_pos $L (by norm_num)
    | exact SignLaws.lit_zero $L
    | exact SignLaws.lit_exp $L
    | exact SignLaws.quarter $L
    | exact SignLaws.pi $L
    | exact SignLaws.dmin $L
    | apply SignLaws.neg_expm1 $L
    | apply SignLaws.expm1 $L
    | apply SignLaws.exp_neg $L
    | apply SignLaws.exp $L
    | apply SignLaws.sqrt $L
    | apply SignLaws.pow $L
    | apply SignLaws.max $L
    | apply SignLaws.ratio $L
    | apply SignLaws.mul_pos $L
    | apply SignLaws.div_pos $L
    | apply SignLaws.add_pos $L
    | apply SignLaws.mul $L
    | apply SignLaws.div $L
    | apply SignLaws.add $L
    | apply SignLaws.nonneg $L)

variable {R : Type} [Arith R] {N P M E : R → Prop} {tables : Prop}

theorem map'_ok_elim {α β : Type} {f : α → β} {x : Outcome α} {v : β} (h : x.map' f = .ok v) :
    ∃ a, x = .ok a ∧ f a = v := by
  cases x with
  | ok a => exact ⟨a, rfl, by simpa [Outcome.map'] using h⟩
  | abort m => simp [Outcome.map'] at h
  | ub m => simp [Outcome.map'] at h

/-! ## thermal distributions -/

section Planck
variable (L : SignLaws R N P M E tables) {pc : PC R} (hp : SignedPC N P pc) {T ν : R} (hT : P T) (hν : P ν)
include L hp hT

theorem planck_signs : P (Planck.ThermalDistributionOfT pc T) ∧ P (Planck.ThermalNumberDistributionOfT pc T) ∧
    P (Planck.EnergyDensityFromTemperature pc T) ∧ P (Planck.NumberDensityFromTemperature pc T) ∧
    P (Planck.TemperatureFromEnergyDensity pc T) := by
  obtain ⟨h1, h2, h3, h4, h5, h6, h7, h8, h9, h10⟩ := hp
  simp only [Planck.ThermalDistributionOfT, Planck.ThermalNumberDistributionOfT, Planck.EnergyDensityFromTemperature,
    Planck.NumberDensityFromTemperature, Planck.TemperatureFromEnergyDensity]
  refine ⟨?_, ?_, ?_, ?_, ?_⟩ <;> signs L

include hν in
theorem planck_signs_nu : P (Planck.ThermalDistributionOfTNu pc T ν) ∧ P (Planck.DThermalDistributionOfTNuDT pc T ν) := by
  obtain ⟨h1, h2, h3, h4, h5, h6, h7, h8, h9, h10⟩ := hp
  simp only [Planck.ThermalDistributionOfTNu, Planck.DThermalDistributionOfTNuDT]
  refine ⟨?_, ?_⟩ <;> signs L

end Planck

/-! ## photon opacities -/

namespace Photons
variable (L : SignLaws R N P M E tables)
include L

theorem gray_signs {o : GrayOpacity R} (hp : SignedPC N P o.pc) (hk : N o.kappa_) :
    Signed (inferInstance : PhotonAPI R (GrayOpacity R)) o N P M where
  absorption rho T ν hr hT hν := L.mul (L.nonneg hr) hk
  angleAveraged rho T ν hr hT hν := L.mul (L.nonneg hr) hk
  perNuOmega rho T ν hr hT hν := by
    have := (planck_signs_nu L hp hT hν).1
    show N (rho * o.kappa_ * _)
    exact L.mul (L.mul (L.nonneg hr) hk) (L.nonneg this)
  perNu rho T ν hr hT hν := by
    have := (planck_signs_nu L hp hT hν).1
    show N (lit 4 * Arith.pi * (rho * o.kappa_ * _))
    exact L.mul (L.nonneg (L.mul_pos (L.lit_pos (by norm_num)) L.pi)) (L.mul (L.mul (L.nonneg hr) hk) (L.nonneg this))
  emissivity rho T v hr hT h := by
    have := (planck_signs L hp hT).1
    obtain rfl := Outcome.ok.inj h
    exact L.mul (L.mul (L.nonneg hr) hk) (L.nonneg this)
  number rho T v hr hT h := by
    have := (planck_signs L hp hT).2.1
    obtain rfl := Outcome.ok.inj h
    exact L.big (L.mul hk (L.nonneg this))
  spectrum T ν hT hν := L.nonneg (planck_signs_nu L hp hT hν).1
  derivative T ν hT hν := L.nonneg (planck_signs_nu L hp hT hν).2
  thermal T hT := L.nonneg (planck_signs L hp hT).1
  thermalNumber T hT := L.nonneg (planck_signs L hp hT).2.1
  energyDensity T hT := L.nonneg (planck_signs L hp hT).2.2.1
  temperature T hT := L.nonneg (planck_signs L hp hT).2.2.2.2
  numberDensity T hT := L.nonneg (planck_signs L hp hT).2.2.2.1

theorem epb_j {o : EPBremsstrahlungOpacity R} (hp : SignedPC N P o.pc) {rho T ν : R} (hr : P rho) (hT : P T) (hν : P ν) :
    P (o.EmissivityPerNuOmega rho T ν) := by
  obtain ⟨h1, h2, h3, h4, h5, h6, h7, h8, h9, h10⟩ := hp
  simp only [EPBremsstrahlungOpacity.EmissivityPerNuOmega, EPBremsstrahlungOpacity.prefac_, EPBremsstrahlungOpacity.mmw_,
    EPBremsstrahlungOpacity.gff_]
  have := L.nonneg h5
  signs L

theorem epb_signs {o : EPBremsstrahlungOpacity R} (hp : SignedPC N P o.pc) :
    Signed (inferInstance : PhotonAPI R (EPBremsstrahlungOpacity R)) o N P M where
  absorption rho T ν hr hT hν := L.ratio (L.nonneg (epb_j L hp hr hT hν)) (planck_signs_nu L hp hT hν).1
  angleAveraged rho T ν hr hT hν := by
    have h1 := epb_j L hp hr hT hν
    have h2 := (planck_signs_nu L hp hT hν).1
    show N (Robust.ratio (lit 4 * Arith.pi * o.EmissivityPerNuOmega rho T ν / (lit 4 * Arith.pi)) _)
    signs L
  perNuOmega rho T ν hr hT hν := L.nonneg (epb_j L hp hr hT hν)
  perNu rho T ν hr hT hν := by
    have h1 := epb_j L hp hr hT hν
    show N (lit 4 * Arith.pi * o.EmissivityPerNuOmega rho T ν)
    signs L
  emissivity rho T v hr hT h := by
    obtain rfl := Outcome.ok.inj h
    obtain ⟨h1, h2, h3, h4, h5, h6, h7, h8, h9, h10⟩ := hp
    simp only [EPBremsstrahlungOpacity.Emissivity, EPBremsstrahlungOpacity.prefac_, EPBremsstrahlungOpacity.mmw_,
      EPBremsstrahlungOpacity.gff_]
    have := L.nonneg h5
    apply L.nonneg
    signs L
  number rho T v hr hT h := by
    obtain rfl := Outcome.ok.inj h
    exact L.inf
  spectrum T ν hT hν := L.nonneg (planck_signs_nu L hp hT hν).1
  derivative T ν hT hν := L.nonneg (planck_signs_nu L hp hT hν).2
  thermal T hT := L.nonneg (planck_signs L hp hT).1
  thermalNumber T hT := L.nonneg (planck_signs L hp hT).2.1
  energyDensity T hT := L.nonneg (planck_signs L hp hT).2.2.1
  temperature T hT := L.nonneg (planck_signs L hp hT).2.2.2.2
  numberDensity T hT := L.nonneg (planck_signs L hp hT).2.2.2.1

omit L in
/-- what the constructor of the power law stores -/
theorem powerLaw_stored {pc : PC R} {k re te ne nr no rr ro tr tf : R} {st : Bool} {o : PowerLawOpacity R}
    (h : PowerLawOpacity.construct pc k re te ne nr no rr ro tr tf st = .ok o) :
    o = { pc := pc, kappa0_ := k, rho_exp_ := re, temp_exp_ := te, rho_ref_ := rr, rho_off_ := ro, temp_ref_ := tr,
          temp_off_ := tf, nu_exp_ := ne, nu_ref_ := nr, nu_off_ := no, do_stim_emit_ := st } := by
  unfold PowerLawOpacity.construct at h
  split_ifs at h
  exact (Outcome.ok.inj h).symm

theorem powerLaw_signs {pc : PC R} {k re te ne nr no rr ro tr tf : R} {st : Bool} {o : PowerLawOpacity R}
    (hp : SignedPC N P pc) (hk : N k) (e1 : E re) (e2 : E te) (e3 : E ne) (p1 : P nr) (n1 : N no) (p2 : P rr)
    (n2 : N ro) (p3 : P tr) (n3 : N tf) (h : PowerLawOpacity.construct pc k re te ne nr no rr ro tr tf st = .ok o) :
    Signed (inferInstance : PhotonAPI R (PowerLawOpacity R)) o N P M := by
  obtain rfl := powerLaw_stored h
  have pre : ∀ rho T, P rho → P T → N (k * pow ((rho + ro) / rr) re * pow ((T + tf) / tr) te) := by
    intro rho T hr hT
    signs L
  have sc : ∀ rho T ν, P rho → P T → P ν → N ((k * pow ((rho + ro) / rr) re * pow ((T + tf) / tr) te) *
      pow ((ν + no) / nr) ne * (if st then -(expm1 (-(pc.h * ν / (pc.kb * T)))) else lit 1)) := by
    intro rho T ν hr hT hν
    have h0 := pre rho T hr hT
    have h1 := hp.h
    have h2 := hp.kb
    refine L.mul (L.mul h0 ?_) ?_
    · signs L
    · cases st <;> simp only [if_true, Bool.false_eq_true, if_false] <;> signs L
  constructor
  case absorption => exact fun rho T ν hr hT hν => L.mul (L.nonneg hr) (sc rho T ν hr hT hν)
  case angleAveraged => exact fun rho T ν hr hT hν => L.mul (L.nonneg hr) (sc rho T ν hr hT hν)
  case perNuOmega =>
    intro rho T ν hr hT hν
    have := L.mul (L.mul (L.nonneg hr) (sc rho T ν hr hT hν)) (L.nonneg (planck_signs_nu L hp hT hν).1)
    exact this
  case perNu =>
    intro rho T ν hr hT hν
    have := L.mul (L.nonneg (L.mul_pos (L.lit_pos (q := 4) (by norm_num)) L.pi))
      (L.mul (L.mul (L.nonneg hr) (sc rho T ν hr hT hν)) (L.nonneg (planck_signs_nu L hp hT hν).1))
    exact this
  case emissivity =>
    intro rho T v hr hT hv
    change PowerLawOpacity.Emissivity _ _ _ = _ at hv
    unfold PowerLawOpacity.Emissivity at hv
    split_ifs at hv
    obtain rfl := Outcome.ok.inj hv
    exact L.mul (L.mul (L.nonneg hr) (pre rho T hr hT)) (L.nonneg (planck_signs L hp hT).1)
  case number =>
    intro rho T v hr hT hv
    change PowerLawOpacity.NumberEmissivity _ _ _ = _ at hv
    unfold PowerLawOpacity.NumberEmissivity at hv
    split_ifs at hv
    obtain rfl := Outcome.ok.inj hv
    exact L.big (L.mul (pre rho T hr hT) (L.nonneg (planck_signs L hp hT).2.1))
  case spectrum => exact fun T ν hT hν => L.nonneg (planck_signs_nu L hp hT hν).1
  case derivative => exact fun T ν hT hν => L.nonneg (planck_signs_nu L hp hT hν).2
  case thermal => exact fun T hT => L.nonneg (planck_signs L hp hT).1
  case thermalNumber => exact fun T hT => L.nonneg (planck_signs L hp hT).2.1
  case energyDensity => exact fun T hT => L.nonneg (planck_signs L hp hT).2.2.1
  case temperature => exact fun T hT => L.nonneg (planck_signs L hp hT).2.2.2.2
  case numberDensity => exact fun T hT => L.nonneg (planck_signs L hp hT).2.2.2.1

theorem nonCGS_signs {O : Type} {inst : PhotonAPI R O} {o : O} {t m l θ : R} (ht : P t) (hm : P m) (hl : P l) (hθ : P θ)
    (h : Signed inst o N P M) :
    Signed (inferInstance : PhotonAPI R (NonCGSUnits R O)) (NonCGSUnits.construct o t m l θ) N P M := by
  have u1 : P (m / (l * l * l)) := by signs L
  have u2 : P (lit 1 / t) := by signs L
  have u3 : P (l * t * t / m) := by signs L
  have u4 : P (l * l * l * t) := by signs L
  have u5 : P (t * t / m) := by signs L
  have u6 : P (t * t * l / m) := by signs L
  constructor
  case absorption =>
    intro rho T ν hr hT hν
    have := L.mul (h.absorption _ _ _ (L.mul_pos u1 hr) (L.mul_pos hθ hT) (L.mul_pos hν u2)) (L.nonneg hl)
    exact this
  case angleAveraged =>
    intro rho T ν hr hT hν
    have := L.mul (h.angleAveraged _ _ _ (L.mul_pos hr u1) (L.mul_pos hT hθ) (L.mul_pos hν u2)) (L.nonneg hl)
    exact this
  case perNuOmega =>
    intro rho T ν hr hT hν
    have := L.mul (h.perNuOmega _ _ _ (L.mul_pos hr u1) (L.mul_pos hT hθ) (L.mul_pos hν u2)) (L.nonneg u3)
    exact this
  case perNu =>
    intro rho T ν hr hT hν
    have := L.mul (h.perNu _ _ _ (L.mul_pos hr u1) (L.mul_pos hT hθ) (L.mul_pos hν u2)) (L.nonneg u3)
    exact this
  case emissivity =>
    intro rho T v hr hT hv
    obtain ⟨a, ha, rfl⟩ := map'_ok_elim hv
    exact L.mul (L.mul (h.emissivity _ _ _ (L.mul_pos hr u1) (L.mul_pos hT hθ) ha) (L.nonneg u3)) (L.nonneg ht)
  case number =>
    intro rho T v hr hT hv
    obtain ⟨a, ha, rfl⟩ := map'_ok_elim hv
    exact L.mul_big (h.number _ _ _ (L.mul_pos hr u1) (L.mul_pos hT hθ) ha) u4
  case spectrum =>
    intro T ν hT hν
    have := L.mul (h.spectrum _ _ (L.mul_pos hT hθ) (L.mul_pos hν u2)) (L.nonneg u5)
    exact this
  case derivative =>
    intro T ν hT hν
    have := L.mul (L.mul (h.derivative _ _ hT hν) (L.nonneg u5)) (L.nonneg hθ)
    exact this
  case thermal =>
    intro T hT
    have := L.div (L.mul (L.mul (h.thermal _ (L.mul_pos hT hθ)) (L.nonneg u6)) (L.nonneg ht)) hl
    exact this
  case thermalNumber =>
    intro T hT
    have := L.div (L.mul (L.div (L.mul (h.thermalNumber _ (L.mul_pos hT hθ)) (L.nonneg hm)) u1) (L.nonneg ht)) hl
    exact this
  case energyDensity =>
    intro T hT
    have := L.mul (h.energyDensity _ (L.mul_pos hT hθ)) (L.nonneg u6)
    exact this
  case temperature =>
    intro e he
    have := L.div (h.temperature _ (L.div_pos he u6)) hθ
    exact this
  case numberDensity =>
    intro T hT
    have := L.div (L.mul (h.numberDensity _ (L.mul_pos hT hθ)) (L.nonneg hm)) u1
    exact this

theorem signed {O : Type} {inst : PhotonAPI R O} {o : O} (H : Physical R N P E O inst o) : Signed inst o N P M := by
  induction H with
  | gray o hp hk => exact gray_signs L hp hk
  | epbremss o hp => exact epb_signs L hp
  | powerLaw o hp hk e1 e2 e3 p1 n1 p2 n2 p3 n3 h => exact powerLaw_signs L hp hk e1 e2 e3 p1 n1 p2 n2 p3 n3 h
  | nonCGS t m l θ ht hm hl hθ _ ih => exact nonCGS_signs L ht hm hl hθ ih
  | vScaleFree _ ih | vGray _ ih | vPowerLawScaleFree _ ih | vPowerLaw _ ih | vEPBremss _ ih | vNonCGSGray _ ih
  | vNonCGSPowerLaw _ ih | vNonCGSEPBremss _ ih => exact { ih with }

/-! ## photon scattering -/

theorem signedS {O : Type} {inst : PhotonSAPI R O} {o : O} (H : PhysicalS R N P E O inst o) : SignedS inst o N P := by
  have h4 : P (lit 4 * Arith.pi : R) := L.mul_pos (L.lit_pos (by norm_num)) L.pi
  induction H with
  | gray o hs hm =>
    exact ⟨fun _ _ _ _ _ _ => hs, fun _ _ _ _ _ _ _ => L.div hs h4,
      fun rho _ _ hr _ _ => L.mul (L.div (L.nonneg hr) hm) hs⟩
  | thomson pc m hp hm =>
    have hs : P (lit 8 * Arith.pi / lit 3 * pow (pc.alpha * pc.hbar / (pc.me * pc.c)) (lit 2)) := by
      obtain ⟨h1, h2, h3, h4, h5, h6, h7, h8, h9, h10⟩ := hp
      signs L
    exact ⟨fun _ _ _ _ _ _ => L.nonneg hs, fun _ _ _ _ _ _ _ => L.div (L.nonneg hs) h4,
      fun rho _ _ hr _ _ => L.mul (L.div (L.div (L.nonneg hr) hm) (L.lit_pos (by norm_num))) (L.nonneg hs)⟩
  | @powerLaw k re te ne nr no rr ro tr tf m o hk e1 e2 e3 p1 n1 p2 n2 p3 n3 pm h =>
    have ho : o = ⟨k, re, te, rr, ro, tr, tf, ne, nr, no, m⟩ := by
      unfold PowerLawSOpacity.construct at h
      split_ifs at h
      exact (Outcome.ok.inj h).symm
    subst ho
    have sc : ∀ rho T ν, P rho → P T → P ν → N ((k * pow ((rho + ro) / rr) re * pow ((T + tf) / tr) te) *
        pow ((ν + no) / nr) ne) := by
      intro rho T ν hr hT hν
      signs L
    exact ⟨fun rho T ν hr hT hν => sc rho T ν hr hT hν, fun rho T ν _ hr hT hν => L.div (sc rho T ν hr hT hν) h4,
      fun rho T ν hr hT hν => L.mul (L.div (L.nonneg hr) pm) (sc rho T ν hr hT hν)⟩
  | nonCGS t m l θ ht hm hl hθ _ ih =>
    have u1 : P (m / (l * l * l)) := by signs L
    have u2 : P (lit 1 / t) := by signs L
    refine ⟨fun rho T ν hr hT hν => ?_, fun rho T ν mu hr hT hν => ?_, fun rho T ν hr hT hν => ?_⟩
    · have := L.div (ih.total _ _ _ (L.mul_pos u1 hr) (L.mul_pos hθ hT) (L.mul_pos hν u2)) (L.mul_pos hl hl)
      exact this
    · have := L.div (ih.differential _ _ _ mu (L.mul_pos u1 hr) (L.mul_pos hθ hT) (L.mul_pos hν u2)) (L.mul_pos hl hl)
      exact this
    · have := L.mul (ih.coefficient _ _ _ (L.mul_pos u1 hr) (L.mul_pos hθ hT) (L.mul_pos hν u2)) (L.nonneg hl)
      exact this
  | vScaleFreeS _ ih | vGrayS _ ih | vThomsonS _ ih | vPowerLawS _ ih | vNonCGSGrayS _ ih | vNonCGSThomsonS _ ih
  | vNonCGSPowerLawS _ ih => exact { ih with }
end Photons

/-! ## neutrinos -/

namespace Neutrinos
variable (L : SignLaws R N P M E tables)
include L

theorem species_pos {d : FermiDirac R} (hd : SignedDist N P d) : P (lit d.NSPECIES : R) :=
  L.lit_pos (by exact_mod_cast hd.species)

theorem fermi_signs {d : FermiDirac R} (hd : SignedDist N P d) {T : R} (hT : P T) :
    P (d.ThermalDistributionOfT T) ∧ P (d.ThermalNumberDistributionOfT T) ∧ P (d.EnergyDensityFromTemperature T) ∧
    P (d.NumberDensityFromTemperature T) ∧ P (d.TemperatureFromEnergyDensity T) := by
  have hs := species_pos L hd
  obtain ⟨h1, h2, h3, h4, h5, h6, h7, h8, h9, h10⟩ := hd.pc
  simp only [FermiDirac.ThermalDistributionOfT, FermiDirac.ThermalNumberDistributionOfT,
    FermiDirac.EnergyDensityFromTemperature, FermiDirac.NumberDensityFromTemperature,
    FermiDirac.TemperatureFromEnergyDensity]
  refine ⟨?_, ?_, ?_, ?_, ?_⟩ <;> signs L

theorem fermi_signs_nu {d : FermiDirac R} (hd : SignedDist N P d) {T ν : R} (hT : P T) (hν : P ν) :
    P (d.ThermalDistributionOfTNu T ν) ∧ P (d.DThermalDistributionOfTNuDT T ν) := by
  have hs := species_pos L hd
  obtain ⟨h1, h2, h3, h4, h5, h6, h7, h8, h9, h10⟩ := hd.pc
  simp only [FermiDirac.ThermalDistributionOfTNu, FermiDirac.DThermalDistributionOfTNuDT]
  refine ⟨?_, ?_⟩ <;> signs L

/-- the part of the claim that only depends on the thermal distribution -/
theorem thermal_part {O : Type} {i : NeutrinoAPI R O} {o : O} {d : FermiDirac R} (hd : SignedDist N P d)
    (h1 : ∀ T s ν, i.ThermalDistributionOfTNu o T s ν = d.ThermalDistributionOfTNu T ν)
    (h2 : ∀ T s ν, i.DThermalDistributionOfTNuDT o T s ν = d.DThermalDistributionOfTNuDT T ν)
    (h3 : ∀ T s, i.ThermalDistributionOfT o T s = d.ThermalDistributionOfT T)
    (h4 : ∀ T s, i.ThermalNumberDistributionOfT o T s = d.ThermalNumberDistributionOfT T)
    (h5 : ∀ T s, i.EnergyDensityFromTemperature o T s = d.EnergyDensityFromTemperature T)
    (h6 : ∀ T s, i.TemperatureFromEnergyDensity o T s = d.TemperatureFromEnergyDensity T)
    (h7 : ∀ T s, i.NumberDensityFromTemperature o T s = d.NumberDensityFromTemperature T) :
    (∀ T s ν, P T → P ν → N (i.ThermalDistributionOfTNu o T s ν)) ∧
    (∀ T s ν, P T → P ν → N (i.DThermalDistributionOfTNuDT o T s ν)) ∧
    (∀ T s, P T → N (i.ThermalDistributionOfT o T s)) ∧ (∀ T s, P T → N (i.ThermalNumberDistributionOfT o T s)) ∧
    (∀ T s, P T → N (i.EnergyDensityFromTemperature o T s)) ∧ (∀ T s, P T → N (i.TemperatureFromEnergyDensity o T s)) ∧
    (∀ T s, P T → N (i.NumberDensityFromTemperature o T s)) := by
  refine ⟨fun T s ν hT hν => ?_, fun T s ν hT hν => ?_, fun T s hT => ?_, fun T s hT => ?_, fun T s hT => ?_,
    fun T s hT => ?_, fun T s hT => ?_⟩
  · rw [h1]; exact L.nonneg (fermi_signs_nu L hd hT hν).1
  · rw [h2]; exact L.nonneg (fermi_signs_nu L hd hT hν).2
  · rw [h3]; exact L.nonneg (fermi_signs L hd hT).1
  · rw [h4]; exact L.nonneg (fermi_signs L hd hT).2.1
  · rw [h5]; exact L.nonneg (fermi_signs L hd hT).2.2.1
  · rw [h6]; exact L.nonneg (fermi_signs L hd hT).2.2.2.2
  · rw [h7]; exact L.nonneg (fermi_signs L hd hT).2.2.2.1

theorem four_pi : P (lit 4 * Arith.pi : R) := L.mul_pos (L.lit_pos (by norm_num)) L.pi

theorem gray_signs {o : GrayOpacity R} (hd : SignedDist N P o.dist) (hk : N o.kappa_) :
    Signed (inferInstance : NeutrinoAPI R (GrayOpacity R)) o N P := by
  obtain ⟨t1, t2, t3, t4, t5, t6, t7⟩ := thermal_part L (i := (inferInstance : NeutrinoAPI R (GrayOpacity R))) (o := o) hd
    (fun _ _ _ => rfl) (fun _ _ _ => rfl) (fun _ _ => rfl) (fun _ _ => rfl) (fun _ _ => rfl) (fun _ _ => rfl)
    (fun _ _ => rfl)
  refine ⟨?_, ?_, ?_, ?_, ?_, ?_, t1, t2, t3, t4, t5, t6, t7⟩
  · intro rho T Ye s ν v hr hT _ _ hν h
    obtain rfl := Outcome.ok.inj h
    exact L.mul (L.nonneg hr) hk
  · intro rho T Ye s ν v hr hT _ _ hν h
    obtain rfl := Outcome.ok.inj h
    exact L.mul (L.nonneg hr) hk
  · intro rho T Ye s ν v hr hT _ _ hν h
    obtain rfl := Outcome.ok.inj h
    have := L.mul (L.mul (L.nonneg hr) hk) (t1 T s ν hT hν)
    exact this
  · intro rho T Ye s ν v hr hT _ _ hν h
    obtain rfl := Outcome.ok.inj h
    have := L.mul (L.nonneg (four_pi L)) (L.mul (L.mul (L.nonneg hr) hk) (t1 T s ν hT hν))
    exact this
  · intro rho T Ye s v hr hT _ _ h
    obtain rfl := Outcome.ok.inj h
    have := L.mul (L.mul (L.nonneg hr) hk) (t3 T s hT)
    exact this
  · intro rho T Ye s v hr hT _ _ h
    obtain rfl := Outcome.ok.inj h
    have := L.mul hk (t4 T s hT)
    exact this

theorem YeF_sign {Ye : R} (hY : N Ye) (hle : le (lit 2 * Ye) (lit 1) = true) (s : RadiationType) :
    N (TophatEmissivity.GetYeF s Ye) := by
  have h2 : N (lit 2 * Ye) := L.mul (L.nonneg (L.lit_pos (by norm_num))) hY
  cases s
  case NU_ELECTRON => exact h2
  case NU_ELECTRON_ANTI => exact L.sub (L.nonneg (L.lit_pos (by norm_num))) h2 hle
  all_goals exact L.lit_zero

theorem kirchhoff_sign {d : FermiDirac R} (hd : SignedDist N P d) {T ν : R} (hT : P T) (hν : P ν) {j : R} (hj : N j) :
    N (d.AbsorptionCoefficientFromKirchhoff j T ν) ∧ N (d.AngleAveragedAbsorptionCoefficientFromKirchhoff j T ν) := by
  have hB := L.nonneg (fermi_signs_nu L hd hT hν).1
  have hE : P (FermiDirac.EPS : R) := L.mul_pos (L.lit_pos (by norm_num)) L.dmin
  have h4 := four_pi L
  exact ⟨L.ratio (L.nonneg (L.max hj hE)) (L.max hB hE), L.ratio (L.div (L.nonneg (L.max hj hE)) h4) (L.max hB hE)⟩

theorem tophat_signs {o : TophatEmissivity R} (hd : SignedDist N P o.dist) (hp : SignedPC N P o.pc) (hC : N o.C_)
    (h0 : P o.numin_) (h1 : P o.numax_) (hle : le o.numin_ o.numax_ = true) :
    Signed (inferInstance : NeutrinoAPI R (TophatEmissivity R)) o N P := by
  obtain ⟨t1, t2, t3, t4, t5, t6, t7⟩ := thermal_part L (i := (inferInstance : NeutrinoAPI R (TophatEmissivity R)))
    (o := o) hd
    (fun _ _ _ => rfl) (fun _ _ _ => rfl) (fun _ _ => rfl) (fun _ _ => rfl) (fun _ _ => rfl) (fun _ _ => rfl)
    (fun _ _ => rfl)
  have j : ∀ rho T Ye s ν, N Ye → le (lit 2 * Ye) (lit 1) = true → N (o.EmissivityPerNuOmega rho T Ye s ν) := by
    intro rho T Ye s ν hY hYe
    unfold TophatEmissivity.EmissivityPerNuOmega
    split_ifs
    · exact L.mul hC (YeF_sign L hY hYe s)
    · exact L.lit_zero
  have h4 := four_pi L
  refine ⟨?_, ?_, ?_, ?_, ?_, ?_, t1, t2, t3, t4, t5, t6, t7⟩
  · intro rho T Ye s ν v hr hT hY hYe hν h
    obtain rfl := Outcome.ok.inj h
    exact L.div (kirchhoff_sign L hd hT hν (j rho T Ye s ν hY hYe)).1 h4
  · intro rho T Ye s ν v hr hT hY hYe hν h
    obtain rfl := Outcome.ok.inj h
    exact (kirchhoff_sign L hd hT hν (L.mul (L.nonneg h4) (j rho T Ye s ν hY hYe))).2
  · intro rho T Ye s ν v hr hT hY hYe hν h
    obtain rfl := Outcome.ok.inj h
    exact j rho T Ye s ν hY hYe
  · intro rho T Ye s ν v hr hT hY hYe hν h
    obtain rfl := Outcome.ok.inj h
    exact L.mul (L.nonneg h4) (j rho T Ye s ν hY hYe)
  · intro rho T Ye s v hr hT hY hYe h
    obtain rfl := Outcome.ok.inj h
    have := L.mul (L.mul (L.nonneg h4) (L.mul hC (L.sub (L.nonneg h1) (L.nonneg h0) hle))) (YeF_sign L hY hYe s)
    exact this
  · intro rho T Ye s v hr hT hY hYe h
    obtain rfl := Outcome.ok.inj h
    have a : N (lit 1 / (o.pc.h * rho) * o.C_ * log (o.numax_ / o.numin_)) :=
      L.mul (L.mul (L.div (L.nonneg (L.lit_pos (by norm_num))) (L.mul_pos hp.h hr)) hC) (L.log h1 h0 hle)
    have := L.mul (L.mul (L.mul (L.nonneg h4) (L.nonneg hr)) a) (YeF_sign L hY hYe s)
    exact this

theorem brt_sigma_sign {o : BRTOpacity R} (hp : SignedPC N P o.pc) (s : RadiationType) {ν : R} (hν : P ν) :
    N (o.GetSigmac s ν) := by
  obtain ⟨h1, h2, h3, h4, h5, h6, h7, h8, h9, h10⟩ := hp
  have hD : P (BRTOpacity.Deltanp_ : R) := L.lit_pos (by norm_num)
  cases s <;> simp only [BRTOpacity.GetSigmac]
  case NU_ELECTRON => apply L.nonneg; signs L
  all_goals exact L.lit_zero

theorem brt_alpha {o : BRTOpacity R} (hp : SignedPC N P o.pc) (s : RadiationType) {rho T : R} (hr : P rho) (hT : P T) :
    N (o.GetAlphac rho T s) ∧ N (o.GetNAlphac rho T s) := by
  obtain ⟨h1, h2, h3, h4, h5, h6, h7, h8, h9, h10⟩ := hp
  have hD : P (BRTOpacity.Deltanp_ : R) := L.lit_pos (by norm_num)
  have z3 : P (BRTOpacity.zeta3_ : R) := L.lit_pos (by norm_num)
  have z5 : P (BRTOpacity.zeta5_ : R) := L.lit_pos (by norm_num)
  have hm : P o.mu_ := h6
  constructor
  · cases s <;> simp only [BRTOpacity.GetAlphac]
    case NU_ELECTRON => apply L.nonneg; signs L
    all_goals exact L.lit_zero
  · simp only [BRTOpacity.GetNAlphac]
    apply L.nonneg; signs L

theorem brt_signs {o : BRTOpacity R} (hd : SignedDist N P o.dist) (hp : SignedPC N P o.pc) :
    Signed (inferInstance : NeutrinoAPI R (BRTOpacity R)) o N P := by
  obtain ⟨t1, t2, t3, t4, t5, t6, t7⟩ := thermal_part L (i := (inferInstance : NeutrinoAPI R (BRTOpacity R)))
    (o := o) hd
    (fun _ _ _ => rfl) (fun _ _ _ => rfl) (fun _ _ => rfl) (fun _ _ => rfl) (fun _ _ => rfl) (fun _ _ => rfl)
    (fun _ _ => rfl)
  have h4 := four_pi L
  have a : ∀ {rho : R} (s : RadiationType) {ν : R}, P rho → P ν → N (rho / o.mu_ * o.GetSigmac s ν) := by
    intro rho s ν hr hν
    exact L.mul (L.div (L.nonneg hr) hp.mp) (brt_sigma_sign L hp s hν)
  refine ⟨?_, ?_, ?_, ?_, ?_, ?_, t1, t2, t3, t4, t5, t6, t7⟩
  · intro rho T Ye s ν v hr hT _ _ hν h
    obtain rfl := Outcome.ok.inj h
    exact a s hr hν
  · intro rho T Ye s ν v hr hT _ _ hν h
    obtain rfl := Outcome.ok.inj h
    exact a s hr hν
  · intro rho T Ye s ν v hr hT _ _ hν h
    obtain rfl := Outcome.ok.inj h
    have := L.mul (a s hr hν) (t1 T s ν hT hν)
    exact this
  · intro rho T Ye s ν v hr hT _ _ hν h
    obtain rfl := Outcome.ok.inj h
    have := L.mul (L.nonneg h4) (L.mul (a s hr hν) (t1 T s ν hT hν))
    exact this
  · intro rho T Ye s v hr hT _ _ h
    obtain rfl := Outcome.ok.inj h
    exact L.mul (L.nonneg h4) (brt_alpha L hp s hr hT).1
  · intro rho T Ye s v hr hT _ _ h
    obtain rfl := Outcome.ok.inj h
    exact L.mul (L.nonneg h4) (brt_alpha L hp s hr hT).2

theorem spiner_signs (ht : tables) {o : SpinerOpacity R} (hd : SignedDist N P o.dist) :
    Signed (inferInstance : NeutrinoAPI R (SpinerOpacity R)) o N P := by
  obtain ⟨t1, t2, t3, t4, t5, t6, t7⟩ := thermal_part L (i := (inferInstance : NeutrinoAPI R (SpinerOpacity R)))
    (o := o) hd
    (fun _ _ _ => rfl) (fun _ _ _ => rfl) (fun _ _ => rfl) (fun _ _ => rfl) (fun _ _ => rfl) (fun _ _ => rfl)
    (fun _ _ => rfl)
  have h4 := four_pi L
  have l5 : ∀ {d : Spiner.DataBox R} {rho T Ye ν v : R} {s : RadiationType}, o.lookup5 d rho T Ye s ν = .ok v → N v := by
    intro d rho T Ye ν v s h
    obtain ⟨x, _, rfl⟩ := map'_ok_elim h
    exact L.fromLog ht x
  have l4 : ∀ {d : Spiner.DataBox R} {rho T Ye v : R} {s : RadiationType},
      SpinerOpacity.lookup4 d rho T Ye s = .ok v → N v := by
    intro d rho T Ye v s h
    obtain ⟨x, _, rfl⟩ := map'_ok_elim h
    exact L.fromLog ht x
  refine ⟨?_, ?_, ?_, ?_, ?_, ?_, t1, t2, t3, t4, t5, t6, t7⟩
  · intro rho T Ye s ν v _ _ _ _ _ h
    exact l5 h
  · intro rho T Ye s ν v _ _ _ _ _ h
    exact l5 h
  · intro rho T Ye s ν v _ _ _ _ _ h
    exact l5 h
  · intro rho T Ye s ν v _ _ _ _ _ h
    obtain ⟨x, hx, rfl⟩ := map'_ok_elim h
    exact L.mul (L.nonneg h4) (l5 hx)
  · intro rho T Ye s v _ _ _ _ h
    exact l4 h
  · intro rho T Ye s v _ _ _ _ h
    exact l4 h

theorem nonCGS_signs {O : Type} {inst : NeutrinoAPI R O} {o : O} {t m l θ : R} (ht : P t) (hm : P m) (hl : P l)
    (hθ : P θ) (h : Signed inst o N P) :
    Signed (inferInstance : NeutrinoAPI R (NonCGSUnits R O)) (NonCGSUnits.construct o t m l θ) N P := by
  have u1 : P (m / (l * l * l)) := by signs L
  have u2 : P (lit 1 / t) := by signs L
  have u3 : P (l * t * t / m) := by signs L
  have u4 : P (l * l * l * t) := by signs L
  have u5 : P (t * t / m) := by signs L
  have u6 : P (t * t * l / m) := by signs L
  constructor
  case absorption =>
    intro rho T Ye s ν v hr hT hY hYe hν hv
    obtain ⟨a, ha, rfl⟩ := map'_ok_elim hv
    exact L.mul (h.absorption _ _ _ _ _ _ (L.mul_pos u1 hr) (L.mul_pos hθ hT) hY hYe (L.mul_pos hν u2) ha) (L.nonneg hl)
  case angleAveraged =>
    intro rho T Ye s ν v hr hT hY hYe hν hv
    obtain ⟨a, ha, rfl⟩ := map'_ok_elim hv
    exact L.mul (h.angleAveraged _ _ _ _ _ _ (L.mul_pos hr u1) (L.mul_pos hT hθ) hY hYe (L.mul_pos hν u2) ha)
      (L.nonneg hl)
  case perNuOmega =>
    intro rho T Ye s ν v hr hT hY hYe hν hv
    obtain ⟨a, ha, rfl⟩ := map'_ok_elim hv
    exact L.mul (h.perNuOmega _ _ _ _ _ _ (L.mul_pos hr u1) (L.mul_pos hT hθ) hY hYe (L.mul_pos hν u2) ha) (L.nonneg u3)
  case perNu =>
    intro rho T Ye s ν v hr hT hY hYe hν hv
    obtain ⟨a, ha, rfl⟩ := map'_ok_elim hv
    exact L.mul (h.perNu _ _ _ _ _ _ (L.mul_pos hr u1) (L.mul_pos hT hθ) hY hYe (L.mul_pos hν u2) ha) (L.nonneg u3)
  case emissivity =>
    intro rho T Ye s v hr hT hY hYe hv
    obtain ⟨a, ha, rfl⟩ := map'_ok_elim hv
    exact L.mul (L.mul (h.emissivity _ _ _ _ _ (L.mul_pos hr u1) (L.mul_pos hT hθ) hY hYe ha) (L.nonneg u3))
      (L.nonneg ht)
  case number =>
    intro rho T Ye s v hr hT hY hYe hv
    obtain ⟨a, ha, rfl⟩ := map'_ok_elim hv
    exact L.mul (h.number _ _ _ _ _ (L.mul_pos hr u1) (L.mul_pos hT hθ) hY hYe ha) (L.nonneg u4)
  case spectrum =>
    intro T s ν hT hν
    have := L.mul (h.spectrum _ s _ (L.mul_pos hT hθ) (L.mul_pos hν u2)) (L.nonneg u5)
    exact this
  case derivative =>
    intro T s ν hT hν
    have := L.mul (L.mul (h.derivative _ s _ hT hν) (L.nonneg u5)) (L.nonneg hθ)
    exact this
  case thermal =>
    intro T s hT
    have := L.div (L.mul (L.mul (h.thermal _ s (L.mul_pos hT hθ)) (L.nonneg u6)) (L.nonneg ht)) hl
    exact this
  case thermalNumber =>
    intro T s hT
    have := L.div (L.mul (L.div (L.mul (h.thermalNumber _ s (L.mul_pos hT hθ)) (L.nonneg hm)) u1) (L.nonneg ht)) hl
    exact this
  case energyDensity =>
    intro T s hT
    have := L.mul (h.energyDensity _ s (L.mul_pos hT hθ)) (L.nonneg u6)
    exact this
  case temperature =>
    intro e s he
    have := L.div (h.temperature _ s (L.div_pos he u6)) hθ
    exact this
  case numberDensity =>
    intro T s hT
    have := L.div (L.mul (h.numberDensity _ s (L.mul_pos hT hθ)) (L.nonneg hm)) u1
    exact this

theorem signed {O : Type} {inst : NeutrinoAPI R O} {o : O} (H : Physical R N P E tables O inst o) :
    Signed inst o N P := by
  induction H with
  | gray o hd _ hk => exact gray_signs L hd hk
  | tophat o hd hp hC h0 h1 hle => exact tophat_signs L hd hp hC h0 h1 hle
  | brt o hd hp => exact brt_signs L hd hp
  | spiner o ht hd _ => exact spiner_signs L ht hd
  | nonCGS t m l θ ht hm hl hθ _ ih => exact nonCGS_signs L ht hm hl hθ ih
  | vScaleFree _ ih | vBRTOpac _ ih | vGray _ ih | vTophat _ ih | vSpinerOpac _ ih | vNonCGSBRT _ ih
  | vNonCGSGray _ ih | vNonCGSTophat _ ih | vNonCGSSpiner _ ih => exact { ih with }

theorem signedS {O : Type} {inst : NeutrinoSAPI R O} {o : O} (H : PhysicalS R N P O inst o) : SignedS inst o N P := by
  have h4 := four_pi L
  induction H with
  | gray o hs hm =>
    exact ⟨fun _ _ _ _ _ _ _ _ => hs, fun _ _ _ _ _ _ _ _ _ => L.div hs h4,
      fun rho _ _ _ _ hr _ _ => L.mul (L.div (L.nonneg hr) hm) hs⟩
  | nonCGS t m l θ ht hm hl hθ _ ih =>
    have u1 : P (m / (l * l * l)) := by signs L
    have u2 : P (lit 1 / t) := by signs L
    refine ⟨fun rho T Ye s ν hr hT hν => ?_, fun rho T Ye s ν mu hr hT hν => ?_, fun rho T Ye s ν hr hT hν => ?_⟩
    · have := L.div (ih.total _ _ Ye s _ (L.mul_pos u1 hr) (L.mul_pos hθ hT) (L.mul_pos hν u2)) (L.mul_pos hl hl)
      exact this
    · have := L.div (ih.differential _ _ Ye s _ mu (L.mul_pos u1 hr) (L.mul_pos hθ hT) (L.mul_pos hν u2))
        (L.mul_pos hl hl)
      exact this
    · have := L.mul (ih.coefficient _ _ Ye s _ (L.mul_pos u1 hr) (L.mul_pos hθ hT) (L.mul_pos hν u2)) (L.nonneg hl)
      exact this
  | vScaleFreeS _ ih | vGrayS _ ih | vNonCGSGrayS _ ih => exact { ih with }

end Neutrinos
end Opac
