import Verif.Lemmas.UninitialisedApi
import Verif.Lemmas.UninitialisedNuLib
import Verif.Spec.SameResults
import Verif.Props.MeanOutcome

/-!
# C76: results do not depend on what fresh memory happened to hold

Two runs that differ only in the contents of freshly allocated tables end in the same way, with objects that hold the
same numbers (`Alike`) and so answer every call alike.
-/

namespace Opac
open Arith Spiner Outcome Hdf
variable {R : Type} [Arith R]

namespace Photons

/-- **C76 for photon absorption means**, made from an opacity, for any number type -/
theorem C76_absorption {O : Type} [PhotonAPI R O] (pc : PC R) (junk junk' : ℕ → R) (opac : O) (lRhoMin lRhoMax : R)
    (NRho : ℤ) (lTMin lTMax : R) (NT : ℤ) (b : List R) (ngroups NNu : ℤ) :
    SameOutcome (fun m m' : MeanOpacityBase R => m.pc = m'.pc ∧ m.t.Alike m'.t)
      (MeanOpacityBase.construct pc junk opac lRhoMin lRhoMax NRho lTMin lTMax NT b ngroups NNu)
      (MeanOpacityBase.construct pc junk' opac lRhoMin lRhoMax NRho lTMin lTMax NT b ngroups NNu) :=
  (MGTables.Impl_same pc junk junk' _ lRhoMin lRhoMax NRho lTMin lTMax NT b ngroups NNu).map' fun _ _ h => ⟨rfl, h⟩

/-- **C76 for photon scattering means**, made from a scattering opacity -/
theorem C76_scattering {O : Type} [PhotonSAPI R O] (pc : PC R) (junk junk' : ℕ → R) (opac : O) (lRhoMin lRhoMax : R)
    (NRho : ℤ) (lTMin lTMax : R) (NT : ℤ) (b : List R) (ngroups NNu : ℤ) :
    SameOutcome (fun m m' : MeanSOpacityBase R => m.pc = m'.pc ∧ m.t.Alike m'.t)
      (MeanSOpacityBase.construct pc junk opac lRhoMin lRhoMax NRho lTMin lTMax NT b ngroups NNu)
      (MeanSOpacityBase.construct pc junk' opac lRhoMin lRhoMax NRho lTMin lTMax NT b ngroups NNu) :=
  (MGTables.Impl_same pc junk junk' _ lRhoMin lRhoMax NRho lTMin lTMax NT b ngroups NNu).map' fun _ _ h => ⟨rfl, h⟩

/-- **C76 for photon means made from tables** that hold the same numbers -/
theorem C76_tables {kP kR kP' kR' : DataBox R} (hP : kP.Alike kP') (hR : kR.Alike kR') (pc : PC R) (junk junk' : ℕ → R)
    (b : List R) :
    SameOutcome (fun m m' : MeanOpacityBase R => m.pc = m'.pc ∧ m.t.Alike m'.t)
      (MeanOpacityBase.ofTables pc junk kP kR b) (MeanOpacityBase.ofTables pc junk' kP' kR' b) ∧
    SameOutcome (fun m m' : MeanSOpacityBase R => m.pc = m'.pc ∧ m.t.Alike m'.t)
      (MeanSOpacityBase.ofTables pc junk kP kR b) (MeanSOpacityBase.ofTables pc junk' kP' kR' b) :=
  ⟨(MGTables.LoadTables_alike hP hR junk junk' b).map' fun _ _ h => ⟨rfl, h⟩,
    (MGTables.LoadTables_alike hP hR junk junk' b).map' fun _ _ h => ⟨rfl, h⟩⟩

/-- **C76 for photon means read from files** that hold the same numbers and keep the group bounds in a table of rank one
(as the library writes them) -/
theorem C76_file {f f' : Option (H5File R)} (hf : Hdf.Alike f f')
    (hb : ∀ g d, f = some g → g.get "group bounds" = some d → d.dims.length = 1) (pc : PC R) (junk junk' : ℕ → R)
    (ioFail : Bool) :
    SameOutcome (fun m m' : MeanOpacityBase R => m.pc = m'.pc ∧ m.t.Alike m'.t)
      (MeanOpacityBase.ofFile pc junk ioFail f) (MeanOpacityBase.ofFile pc junk' ioFail f') ∧
    SameOutcome (fun m m' : MeanSOpacityBase R => m.pc = m'.pc ∧ m.t.Alike m'.t)
      (MeanSOpacityBase.ofFile pc junk ioFail f) (MeanSOpacityBase.ofFile pc junk' ioFail f') :=
  ⟨(MGTables.LoadFile_alike _ hf junk junk' ioFail hb).map' fun _ _ h => ⟨rfl, h⟩,
    (MGTables.LoadFile_alike _ hf junk junk' ioFail hb).map' fun _ _ h => ⟨rfl, h⟩⟩

/-- **C76, the file left behind**: objects that hold the same numbers write files that hold the same numbers, or report
the same error -/
theorem C76_save {m m' : MeanOpacityBase R} (hm : m.t.Alike m'.t) {s s' : MeanSOpacityBase R} (hs : s.t.Alike s'.t)
    (hmd : m.t.lPlanck.dims = m.t.lRosseland.dims) (hsd : s.t.lPlanck.dims = s.t.lRosseland.dims)
    {f f' : Option (H5File R)} (hf : Hdf.Alike f f') (junk junk' : ℕ → R) (fails : ℕ → Bool) :
    SameOutcome Hdf.Alike (MeanPhotonAPI.Save m junk fails f) (MeanPhotonAPI.Save m' junk' fails f') ∧
    SameOutcome Hdf.Alike (s.Save junk fails f) (s'.Save junk' fails f') :=
  ⟨MGTables.Save_alike _ hm junk junk' fails hf (by unfold DataBox.size; rw [hmd]),
    MGTables.Save_alike _ hs junk junk' fails hf (by unfold DataBox.size; rw [hsd])⟩

/-- **C76, the answers**: absorption means that hold the same numbers answer every call of the API alike -/
theorem C76_answers {m m' : MeanOpacityBase R} (hpc : m.pc = m'.pc) (h : m.t.Alike m'.t) :
    (MeanPhotonAPI.GetRuntimePhysicalConstants m : RPC R) = MeanPhotonAPI.GetRuntimePhysicalConstants m' ∧
    MeanPhotonAPI.ngroups (R := R) m = MeanPhotonAPI.ngroups (R := R) m' ∧
    MeanPhotonAPI.HasGroupBounds (R := R) m = MeanPhotonAPI.HasGroupBounds (R := R) m' ∧
    m.t.GetGroupBounds = m'.t.GetGroupBounds ∧
    (∀ nu : R, MeanPhotonAPI.GroupOfNu m nu = MeanPhotonAPI.GroupOfNu m' nu) ∧
    (∀ (rho temp : R) g gmode, MeanPhotonAPI.AbsorptionCoefficient m rho temp g gmode =
      MeanPhotonAPI.AbsorptionCoefficient m' rho temp g gmode) ∧
    (∀ (rho temp : R) g, MeanPhotonAPI.PlanckGroupAbsorptionCoefficient m rho temp g =
      MeanPhotonAPI.PlanckGroupAbsorptionCoefficient m' rho temp g) ∧
    (∀ (rho temp : R) g, MeanPhotonAPI.RosselandGroupAbsorptionCoefficient m rho temp g =
      MeanPhotonAPI.RosselandGroupAbsorptionCoefficient m' rho temp g) ∧
    (∀ (rho temp nu : R) gmode, MeanPhotonAPI.AbsorptionCoefficientFromNu m rho temp nu gmode =
      MeanPhotonAPI.AbsorptionCoefficientFromNu m' rho temp nu gmode) ∧
    (∀ rho temp nu : R, MeanPhotonAPI.PlanckGroupAbsorptionCoefficientFromNu m rho temp nu =
      MeanPhotonAPI.PlanckGroupAbsorptionCoefficientFromNu m' rho temp nu) ∧
    (∀ rho temp nu : R, MeanPhotonAPI.RosselandGroupAbsorptionCoefficientFromNu m rho temp nu =
      MeanPhotonAPI.RosselandGroupAbsorptionCoefficientFromNu m' rho temp nu) ∧
    (∀ debug (rho temp : R), m.PlanckMeanAbsorptionCoefficient debug rho temp =
      m'.PlanckMeanAbsorptionCoefficient debug rho temp) ∧
    (∀ debug (rho temp : R), m.RosselandMeanAbsorptionCoefficient debug rho temp =
      m'.RosselandMeanAbsorptionCoefficient debug rho temp) ∧
    (∀ (rho temp : R) gmode, m.Emissivity rho temp gmode = m'.Emissivity rho temp gmode) := by
  have hP : m.t.PlanckGroupCoefficient = m'.t.PlanckGroupCoefficient := by
    funext rho temp g; exact congrArg _ (h.planck.interp3 _ _ g)
  have hR : m.t.RosselandGroupCoefficient = m'.t.RosselandGroupCoefficient := by
    funext rho temp g; exact congrArg _ (h.rosseland.interp3 _ _ g)
  have hC : m.t.Coefficient = m'.t.Coefficient := by
    funext rho temp g gm; unfold MGTables.Coefficient; rw [hP, hR]
  have hG : m.t.GroupOfNu = m'.t.GroupOfNu := by
    funext nu; unfold MGTables.GroupOfNu; rw [h.groupBounds, h.ngroups]
  have hF : m.t.CoefficientFromNu = m'.t.CoefficientFromNu := by
    funext rho temp nu gm; unfold MGTables.CoefficientFromNu; rw [hG, hC]
  refine ⟨congrArg RPC.ofPC hpc, h.ngroups, rfl, ?_, fun nu => congrFun hG nu, fun rho temp g gm => by
    exact congrFun (congrFun (congrFun (congrFun hC rho) temp) g) gm, fun rho temp g => by
    exact congrFun (congrFun (congrFun hP rho) temp) g, fun rho temp g => by
    exact congrFun (congrFun (congrFun hR rho) temp) g, fun rho temp nu gm => by
    exact congrFun (congrFun (congrFun (congrFun hF rho) temp) nu) gm, fun rho temp nu => by
    exact congrFun (congrFun (congrFun (congrFun hF rho) temp) nu) _, fun rho temp nu => by
    exact congrFun (congrFun (congrFun (congrFun hF rho) temp) nu) _, ?_, ?_, ?_⟩
  · unfold MGTables.GetGroupBounds; rw [h.groupBounds, h.ngroups]
  · intro debug rho temp; unfold MeanOpacityBase.PlanckMeanAbsorptionCoefficient; rw [h.ngroups, hP]
  · intro debug rho temp; unfold MeanOpacityBase.RosselandMeanAbsorptionCoefficient; rw [h.ngroups, hR]
  · intro rho temp gmode; unfold MeanOpacityBase.Emissivity; rw [h.ngroups, hC, hpc]

/-- **C76, the answers**: scattering means that hold the same numbers answer every call of the API alike -/
theorem C76_scattering_answers {m m' : MeanSOpacityBase R} (h : m.t.Alike m'.t) :
    MeanPhotonSAPI.ngroups (R := R) m = MeanPhotonSAPI.ngroups (R := R) m' ∧
    MeanPhotonSAPI.HasGroupBounds (R := R) m = MeanPhotonSAPI.HasGroupBounds (R := R) m' ∧
    (∀ nu : R, MeanPhotonSAPI.GroupOfNu m nu = MeanPhotonSAPI.GroupOfNu m' nu) ∧
    (∀ (rho temp : R) g gmode, MeanPhotonSAPI.ScatteringCoefficient m rho temp g gmode =
      MeanPhotonSAPI.ScatteringCoefficient m' rho temp g gmode) ∧
    (∀ (rho temp : R) g, MeanPhotonSAPI.PlanckGroupScatteringCoefficient m rho temp g =
      MeanPhotonSAPI.PlanckGroupScatteringCoefficient m' rho temp g) ∧
    (∀ (rho temp : R) g, MeanPhotonSAPI.RosselandGroupScatteringCoefficient m rho temp g =
      MeanPhotonSAPI.RosselandGroupScatteringCoefficient m' rho temp g) ∧
    (∀ (rho temp nu : R) gmode, MeanPhotonSAPI.ScatteringCoefficientFromNu m rho temp nu gmode =
      MeanPhotonSAPI.ScatteringCoefficientFromNu m' rho temp nu gmode) ∧
    (∀ rho temp nu : R, MeanPhotonSAPI.PlanckGroupScatteringCoefficientFromNu m rho temp nu =
      MeanPhotonSAPI.PlanckGroupScatteringCoefficientFromNu m' rho temp nu) ∧
    (∀ rho temp nu : R, MeanPhotonSAPI.RosselandGroupScatteringCoefficientFromNu m rho temp nu =
      MeanPhotonSAPI.RosselandGroupScatteringCoefficientFromNu m' rho temp nu) := by
  have hP : m.t.PlanckGroupCoefficient = m'.t.PlanckGroupCoefficient := by
    funext rho temp g; exact congrArg _ (h.planck.interp3 _ _ g)
  have hR : m.t.RosselandGroupCoefficient = m'.t.RosselandGroupCoefficient := by
    funext rho temp g; exact congrArg _ (h.rosseland.interp3 _ _ g)
  have hC : m.t.Coefficient = m'.t.Coefficient := by
    funext rho temp g gm; unfold MGTables.Coefficient; rw [hP, hR]
  have hG : m.t.GroupOfNu = m'.t.GroupOfNu := by
    funext nu; unfold MGTables.GroupOfNu; rw [h.groupBounds, h.ngroups]
  have hF : m.t.CoefficientFromNu = m'.t.CoefficientFromNu := by
    funext rho temp nu gm; unfold MGTables.CoefficientFromNu; rw [hG, hC]
  exact ⟨h.ngroups, rfl, fun nu => congrFun hG nu, fun rho temp g gm => by
    exact congrFun (congrFun (congrFun (congrFun hC rho) temp) g) gm, fun rho temp g => by
    exact congrFun (congrFun (congrFun hP rho) temp) g, fun rho temp g => by
    exact congrFun (congrFun (congrFun hR rho) temp) g, fun rho temp nu gm => by
    exact congrFun (congrFun (congrFun (congrFun hF rho) temp) nu) gm, fun rho temp nu => by
    exact congrFun (congrFun (congrFun (congrFun hF rho) temp) nu) _, fun rho temp nu => by
    exact congrFun (congrFun (congrFun (congrFun hF rho) temp) nu) _⟩

/-- a case where the fresh memory differs and both runs return: two groups, two densities, two temperatures -/
example (pc : PC ℝ) (g : GrayOpacity ℝ) : ∃ m m' : MeanOpacityBase ℝ,
    MeanOpacityBase.construct pc (fun _ => 0) g 0 1 2 0 1 2 [0, 1, 2] 2 10 = ok m ∧
    MeanOpacityBase.construct pc (fun i => i + 1) g 0 1 2 0 1 2 [0, 1, 2] 2 10 = ok m' ∧ m.t.Alike m'.t := by
  have hr : ∀ junk : ℕ → ℝ, ∃ m, MeanOpacityBase.construct pc junk g 0 1 2 0 1 2 [0, 1, 2] 2 10 = ok m := by
    intro junk
    refine (C74_absorption g (by norm_num)).1.2 ⟨by norm_num, ⟨by norm_num, by norm_num, ?_, ?_, ?_, ?_⟩, ?_⟩
    · intros; rfl
    · intro x hx
      simp at hx; subst hx; simp [areal]
    · intro i x y hi hx hy
      have : i = 0 ∨ i = 1 := by omega
      rcases this with rfl | rfl <;> · simp at hx hy; subst hx; subst hy; simp [areal]
    · intros; rfl
    · intro i j g lo hi _ _ _ _ _; exact ⟨rfl, rfl⟩
  obtain ⟨m, hm⟩ := hr fun _ => 0
  obtain ⟨m', hm'⟩ := hr fun i => i + 1
  have h := C76_absorption pc (fun _ => 0) (fun i => (i : ℝ) + 1) g 0 1 2 0 1 2 [0, 1, 2] 2 10
  rw [hm, hm'] at h
  exact ⟨m, m', hm, hm', h.2⟩

end Photons

namespace Neutrinos

/-- **C76 for neutrino absorption means**, with a given frequency window and with the default one -/
theorem C76_absorption {O : Type} [NeutrinoAPI R O] (debug : Bool) (pc : PC R) (junk junk' : ℕ → ℕ → R) (opac : O)
    (lRhoMin lRhoMax : R) (NRho : ℤ) (lTMin lTMax : R) (NT : ℤ) (YeMin YeMax : R) (NYe : ℤ) :
    (∀ (lNuMin lNuMax : R) (NNu : ℤ), SameOutcome (fun m m' : MeanOpacityBase R => m.pc = m'.pc ∧ m.t.Alike m'.t)
      (MeanOpacityBase.construct debug pc junk opac lRhoMin lRhoMax NRho lTMin lTMax NT YeMin YeMax NYe lNuMin lNuMax NNu)
      (MeanOpacityBase.construct debug pc junk' opac lRhoMin lRhoMax NRho lTMin lTMax NT YeMin YeMax NYe lNuMin lNuMax NNu)) ∧
    SameOutcome (fun m m' : MeanOpacityBase R => m.pc = m'.pc ∧ m.t.Alike m'.t)
      (MeanOpacityBase.constructAuto debug pc junk opac lRhoMin lRhoMax NRho lTMin lTMax NT YeMin YeMax NYe)
      (MeanOpacityBase.constructAuto debug pc junk' opac lRhoMin lRhoMax NRho lTMin lTMax NT YeMin YeMax NYe) := by
  have key : ∀ (auto : Bool) (lNuMin lNuMax : R) (NNu : ℤ),
      SameOutcome (fun m m' : MeanOpacityBase R => m.pc = m'.pc ∧ m.t.Alike m'.t)
      (MeanOpacityBase.Impl_ debug auto pc junk opac lRhoMin lRhoMax NRho lTMin lTMax NT YeMin YeMax NYe lNuMin lNuMax NNu)
      (MeanOpacityBase.Impl_ debug auto pc junk' opac lRhoMin lRhoMax NRho lTMin lTMax NT YeMin YeMax NYe lNuMin lNuMax NNu) := by
    intro auto lNuMin lNuMax NNu
    unfold MeanOpacityBase.Impl_
    dsimp only
    cases debug && !(RPC.beq (RPC.ofPC pc) (NeutrinoAPI.GetRuntimePhysicalConstants opac)) with
    | true => rfl
    | false =>
      exact (MeanTables.loops_same junk junk' lRhoMin lRhoMax NRho lTMin lTMax NT YeMin YeMax NYe _
        fun iRho iT iYe idx D t t' h => MeanTables.fillCell_same _ _ _ _ iRho iT iYe idx _ D t t' h).bind
        fun t t' h => ⟨rfl, h⟩
  exact ⟨key false, key true _ _ _⟩

/-- **C76 for neutrino scattering means**, with a given frequency window and with the default one -/
theorem C76_scattering {O : Type} [NeutrinoSAPI R O] (dist : FermiDirac R) (pc : PC R) (junk junk' : ℕ → ℕ → R) (opac : O)
    (lRhoMin lRhoMax : R) (NRho : ℤ) (lTMin lTMax : R) (NT : ℤ) (YeMin YeMax : R) (NYe : ℤ) :
    (∀ (lNuMin lNuMax : R) (NNu : ℤ), SameOutcome (fun m m' : MeanSOpacityBase R => m.pc = m'.pc ∧ m.t.Alike m'.t)
      (MeanSOpacityBase.construct dist pc junk opac lRhoMin lRhoMax NRho lTMin lTMax NT YeMin YeMax NYe lNuMin lNuMax NNu)
      (MeanSOpacityBase.construct dist pc junk' opac lRhoMin lRhoMax NRho lTMin lTMax NT YeMin YeMax NYe lNuMin lNuMax NNu)) ∧
    SameOutcome (fun m m' : MeanSOpacityBase R => m.pc = m'.pc ∧ m.t.Alike m'.t)
      (MeanSOpacityBase.constructAuto dist pc junk opac lRhoMin lRhoMax NRho lTMin lTMax NT YeMin YeMax NYe)
      (MeanSOpacityBase.constructAuto dist pc junk' opac lRhoMin lRhoMax NRho lTMin lTMax NT YeMin YeMax NYe) := by
  have key : ∀ (auto : Bool) (lNuMin lNuMax : R),
      SameOutcome (fun m m' : MeanSOpacityBase R => m.pc = m'.pc ∧ m.t.Alike m'.t)
      (MeanSOpacityBase.Impl_ auto dist pc junk opac lRhoMin lRhoMax NRho lTMin lTMax NT YeMin YeMax NYe lNuMin lNuMax 100)
      (MeanSOpacityBase.Impl_ auto dist pc junk' opac lRhoMin lRhoMax NRho lTMin lTMax NT YeMin YeMax NYe lNuMin lNuMax 100) := by
    intro auto lNuMin lNuMax
    unfold MeanSOpacityBase.Impl_
    dsimp only
    exact (MeanTables.loops_same junk junk' lRhoMin lRhoMax NRho lTMin lTMax NT YeMin YeMax NYe _
      fun iRho iT iYe idx D t t' h => MeanTables.fillCellS_same _ _ _ _ (by norm_num) iRho iT iYe idx _ D t t' h).bind
      fun t t' h => ⟨rfl, h⟩
  exact ⟨fun a b _ => key false a b, key true _ _⟩

/-- **C76 for neutrino means read from files** that hold the same numbers -/
theorem C76_file {f f' : Option (H5File R)} (hf : Hdf.Alike f f') (dist : FermiDirac R) (pc : PC R) (ioFail : Bool) :
    SameOutcome (fun m m' : MeanOpacityBase R => m.pc = m'.pc ∧ m.t.Alike m'.t)
      (MeanOpacityBase.ofFile pc ioFail f) (MeanOpacityBase.ofFile pc ioFail f') ∧
    SameOutcome (fun m m' : MeanSOpacityBase R => m.pc = m'.pc ∧ m.t.Alike m'.t)
      (MeanSOpacityBase.ofFile dist pc ioFail f) (MeanSOpacityBase.ofFile dist pc ioFail f') :=
  ⟨(MeanTables.LoadFile_alike _ hf ioFail).map' fun _ _ h => ⟨rfl, h⟩,
    (MeanTables.LoadFile_alike _ hf ioFail).map' fun _ _ h => ⟨rfl, h⟩⟩

/-- **C76, the answers** of neutrino means that hold the same numbers, and the files they write -/
theorem C76_answers {m m' : MeanOpacityBase R} (hpc : m.pc = m'.pc) (h : m.t.Alike m'.t) :
    (MeanNeutrinoAPI.GetRuntimePhysicalConstants m : RPC R) = MeanNeutrinoAPI.GetRuntimePhysicalConstants m' ∧
    (∀ (rho temp Ye : R) s, MeanNeutrinoAPI.PlanckMeanAbsorptionCoefficient m rho temp Ye s =
      MeanNeutrinoAPI.PlanckMeanAbsorptionCoefficient m' rho temp Ye s) ∧
    (∀ (rho temp Ye : R) s, MeanNeutrinoAPI.RosselandMeanAbsorptionCoefficient m rho temp Ye s =
      MeanNeutrinoAPI.RosselandMeanAbsorptionCoefficient m' rho temp Ye s) ∧
    ∀ (fails : ℕ → Bool) (f : Option (H5File R)),
      (MeanNeutrinoAPI.Save m fails f).1 = (MeanNeutrinoAPI.Save m' fails f).1 ∧
      Hdf.Alike (MeanNeutrinoAPI.Save m fails f).2 (MeanNeutrinoAPI.Save m' fails f).2 :=
  ⟨congrArg RPC.ofPC hpc, fun rho temp Ye s => congrArg (fun l => l rho temp Ye s) (MeanTables.lookup_alike h.planck),
    fun rho temp Ye s => congrArg (fun l => l rho temp Ye s) (MeanTables.lookup_alike h.rosseland),
    fun fails f => MeanTables.Save_alike _ h fails (.refl f)⟩

/-- **C76, the answers** of neutrino scattering means that hold the same numbers, and the files they write -/
theorem C76_scattering_answers {m m' : MeanSOpacityBase R} (h : m.t.Alike m'.t) :
    (∀ (rho temp Ye : R) s, MeanNeutrinoSAPI.PlanckMeanTotalScatteringCoefficient m rho temp Ye s =
      MeanNeutrinoSAPI.PlanckMeanTotalScatteringCoefficient m' rho temp Ye s) ∧
    (∀ (rho temp Ye : R) s, MeanNeutrinoSAPI.RosselandMeanTotalScatteringCoefficient m rho temp Ye s =
      MeanNeutrinoSAPI.RosselandMeanTotalScatteringCoefficient m' rho temp Ye s) ∧
    ∀ (fails : ℕ → Bool) (f : Option (H5File R)),
      (m.Save fails f).1 = (m'.Save fails f).1 ∧ Hdf.Alike (m.Save fails f).2 (m'.Save fails f).2 :=
  ⟨fun rho temp Ye s => congrArg (fun l => l rho temp Ye s) (MeanTables.lookup_alike h.planck),
    fun rho temp Ye s => congrArg (fun l => l rho temp Ye s) (MeanTables.lookup_alike h.rosseland),
    fun fails f => MeanTables.Save_alike _ h fails (.refl f)⟩

/-- **C76 for tabulated neutrino opacities** made by sampling another opacity -/
theorem C76_tabulated (dist : FermiDirac R) (pc : PC R) (junk junk' : ℕ → ℕ → R) (opac : SpinerOpacity.Sampled R)
    (lRhoMin lRhoMax : R) (NRho : ℤ) (lTMin lTMax : R) (NT : ℤ) (YeMin YeMax : R) (NYe : ℤ) (leMin leMax : R) (Ne : ℤ) :
    SameOutcome SpinerOpacity.Alike
      (SpinerOpacity.fill dist pc junk opac lRhoMin lRhoMax NRho lTMin lTMax NT YeMin YeMax NYe leMin leMax Ne)
      (SpinerOpacity.fill dist pc junk' opac lRhoMin lRhoMax NRho lTMin lTMax NT YeMin YeMax NYe leMin leMax Ne) :=
  SpinerOpacity.fill_same dist pc junk junk' opac lRhoMin lRhoMax NRho lTMin lTMax NT YeMin YeMax NYe leMin leMax Ne

/-- **C76 for tabulated neutrino opacities read from SP5 files** that hold the same numbers -/
theorem C76_tabulated_file (dist : FermiDirac R) (pc : PC R) {f f' : Option (H5File R)} (hf : Hdf.Alike f f')
    (ioFail : Bool) :
    SameOutcome SpinerOpacity.Alike (SpinerOpacity.LoadFromSP5_ dist pc ioFail f)
      (SpinerOpacity.LoadFromSP5_ dist pc ioFail f') :=
  SpinerOpacity.Load_alike dist pc hf ioFail

/-- **C76, the answers** of tabulated neutrino opacities that hold the same numbers, and the files they write -/
theorem C76_tabulated_answers {o o' : SpinerOpacity R} (h : o.Alike o') :
    (∀ (rho temp Ye : R) s nu, o.AbsorptionCoefficient rho temp Ye s nu = o'.AbsorptionCoefficient rho temp Ye s nu) ∧
    (∀ (rho temp Ye : R) s nu, o.AngleAveragedAbsorptionCoefficient rho temp Ye s nu =
      o'.AngleAveragedAbsorptionCoefficient rho temp Ye s nu) ∧
    (∀ (rho temp Ye : R) s nu, o.EmissivityPerNuOmega rho temp Ye s nu = o'.EmissivityPerNuOmega rho temp Ye s nu) ∧
    (∀ (rho temp Ye : R) s nu, o.EmissivityPerNu rho temp Ye s nu = o'.EmissivityPerNu rho temp Ye s nu) ∧
    (∀ (rho temp Ye : R) s, o.Emissivity rho temp Ye s = o'.Emissivity rho temp Ye s) ∧
    (∀ (rho temp Ye : R) s, o.NumberEmissivity rho temp Ye s = o'.NumberEmissivity rho temp Ye s) ∧
    ∀ (fails : ℕ → Bool) (f : Option (H5File R)),
      (o.Save fails f).1 = (o'.Save fails f).1 ∧ Hdf.Alike (o.Save fails f).2 (o'.Save fails f).2 := by
  have h5 : ∀ {d d' : DataBox R}, d.Alike d' → o.lookup5 d = o'.lookup5 d' := by
    intro d d' hd
    funext rho temp Ye s nu
    unfold SpinerOpacity.lookup5
    dsimp only
    rw [h.pc, hd.interp5]
  have h4 : ∀ {d d' : DataBox R}, d.Alike d' → SpinerOpacity.lookup4 d = SpinerOpacity.lookup4 d' := by
    intro d d' hd
    funext rho temp Ye s
    unfold SpinerOpacity.lookup4
    dsimp only
    rw [hd.interp4]
  have ha := h5 h.lalphanu_
  have hj := h5 h.ljnu_
  refine ⟨fun rho temp Ye s nu => congrArg (fun l => l rho temp Ye s nu) ha,
    fun rho temp Ye s nu => congrArg (fun l => l rho temp Ye s nu) ha,
    fun rho temp Ye s nu => congrArg (fun l => l rho temp Ye s nu) hj,
    fun rho temp Ye s nu => congrArg (fun l => (l rho temp Ye s nu).map' fun j => lit 4 * pi * j) hj,
    fun rho temp Ye s => congrArg (fun l => l rho temp Ye s) (h4 h.lJ_),
    fun rho temp Ye s => congrArg (fun l => l rho temp Ye s) (h4 h.lJYe_),
    fun fails f => SpinerOpacity.Save_alike h fails (.refl f)⟩

/-- **C76 for NuLib files, in part**: only the array that the reader reads without having written it (`kappa`) matters.
Missing: independence of that array too, which fails (`C50_false`, `C50_swapped`). -/
theorem C76_nulib_partial (kappa : Option (ℕ → R)) (dist : FermiDirac R) (pc : PC R) (junk junk' : ℕ → ℕ → R)
    (f : Option (SpinerOpacity.NuLibFile R)) :
    SameOutcome SpinerOpacity.Alike (SpinerOpacity.LoadFromNuLibWith kappa dist pc junk f)
      (SpinerOpacity.LoadFromNuLibWith kappa dist pc junk' f) :=
  SpinerOpacity.nulib_same kappa dist pc junk junk' f

/-- a case where the fresh memory differs and both runs return -/
example (g : GrayOpacity ℝ) (pc : PC ℝ) : ∃ m m' : MeanOpacityBase ℝ,
    MeanOpacityBase.construct false pc (fun _ _ => 0) g 0 1 2 0 1 2 0 1 2 10 20 5 = ok m ∧
    MeanOpacityBase.construct false pc (fun i j => i + j + 1) g 0 1 2 0 1 2 0 1 2 10 20 5 = ok m' ∧
    m.t.Alike m'.t := by
  have hr : ∀ junk : ℕ → ℕ → ℝ, ∃ m, MeanOpacityBase.construct false pc junk g 0 1 2 0 1 2 0 1 2 10 20 5 = ok m :=
    fun junk => (((C74_absorption g false (fun _ _ _ _ _ => rfl)).1 _ _ _).1).2
      ⟨fun h => (by cases h), fun _ _ _ _ _ _ _ _ => ⟨rfl, rfl⟩⟩
  obtain ⟨m, hm⟩ := hr fun _ _ => 0
  obtain ⟨m', hm'⟩ := hr fun i j => i + j + 1
  have h := (C76_absorption false pc (fun _ _ => 0) (fun i j => (i : ℝ) + j + 1) g 0 1 2 0 1 2 0 1 2).1 10 20 5
  rw [hm, hm'] at h
  exact ⟨m, m', hm, hm', h.2⟩

end Neutrinos
end Opac
