import Verif.Lemmas.LookupDoublesRuns

/-!
# C71: table lookups in IEEE double precision

The functions of the API that answer from a table are run in double precision, with overflow, underflow and special values,
and exactly.  For the tables and states below no intermediate result overflows or underflows, the conversions to `int` are
defined, and the answer is accurate to a billionth.  For infinite and NaN densities the conversion is undefined behaviour.
-/

namespace Opac.Tables
open Arith Outcome Spec Spiner Photons Neutrinos Doubles
open SpinerOpacity (kelvinPerMeV hzPerMeV)

/-! ## Specification -/

/-- a function of the API that answers from a table, run in double precision and exactly on the same numbers -/
structure DoubleQuery where
  /-- what the call returns in double precision -/
  double : State → Outcome (IE binary64)
  /-- what it returns in exact arithmetic -/
  exact : State → Outcome ℝ
  /-- the table -/
  table : DataBox ℝ
  /-- the numbers of its interpolated axes (0 is the fastest index), with the coordinate of a state along each -/
  axes : List (ℕ × (State → ℝ))
  /-- the coordinates as they are computed in double precision, in the same order -/
  coords : List (State → IE binary64)

/-- photon mean opacities: logarithmic density and temperature -/
noncomputable def photonDouble (lk : DataBox ℝ) (f : State → Outcome (IE binary64)) (x : State → Outcome ℝ) : DoubleQuery :=
  ⟨f, x, lk, [(2, fun p => meanCoord p.rho), (1, fun p => meanCoord p.T)],
    [fun p => ToLog (dbl p.rho), fun p => ToLog (dbl p.T)]⟩

/-- neutrino mean opacities: logarithmic density and temperature, electron fraction -/
noncomputable def meanDouble (lk : DataBox ℝ) (f : State → Outcome (IE binary64)) (x : State → Outcome ℝ) : DoubleQuery :=
  ⟨f, x, lk, [(3, fun p => meanCoord p.rho), (2, fun p => meanCoord p.T), (1, State.Ye)],
    [fun p => MeanTables.toLog_ (dbl p.rho), fun p => MeanTables.toLog_ (dbl p.T), fun p => dbl p.Ye]⟩

/-- total emissivities of tabulated neutrino opacities -/
noncomputable def totalDouble (lk : DataBox ℝ) (f : State → Outcome (IE binary64)) (x : State → Outcome ℝ) : DoubleQuery :=
  ⟨f, x, lk, [(3, fun p => tableCoord p.rho), (2, fun p => tableCoord (p.T / kelvinPerMeV)), (1, State.Ye)],
    [fun p => SpinerOpacity.toLog_ (dbl p.rho), fun p => SpinerOpacity.toLog_ (dbl p.T * SpinerOpacity.K2MeV),
      fun p => dbl p.Ye]⟩

/-- spectral functions of tabulated neutrino opacities -/
noncomputable def spectralDouble (pc : PC ℝ) (lk : DataBox ℝ) (f : State → Outcome (IE binary64)) (x : State → Outcome ℝ) :
    DoubleQuery :=
  ⟨f, x, lk, [(4, fun p => tableCoord p.rho), (3, fun p => tableCoord (p.T / kelvinPerMeV)), (2, State.Ye),
    (0, fun p => tableCoord (p.nu / hzPerMeV pc))],
    [fun p => SpinerOpacity.toLog_ (dbl p.rho), fun p => SpinerOpacity.toLog_ (dbl p.T * SpinerOpacity.K2MeV),
      fun p => dbl p.Ye, fun p => SpinerOpacity.toLog_ (SpinerOpacity.Hz2MeV pc.dbl * dbl p.nu)]⟩

/-- constants of the size they have in CGS units, for the conversion of frequencies to MeV -/
structure SpectralSized (pc : PC ℝ) : Prop where
  pos : PosConsts pc
  h : Bits (-90) (-80) pc.h
  eV : Bits (-45) (-35) pc.eV

/-- the functions of the API that answer from a table: photon groups are numbered from 0 below the last dimension of the
table, neutrino tables hold three species -/
inductive DoubledTable : DoubleQuery → Prop
  | photonPlanck (o : Photons.MeanOpacityBase ℝ) {g : ℤ} : o.t.lPlanck.rank = 3 → 0 ≤ g → g < o.t.lPlanck.dim 1 →
      DoubledTable (photonDouble o.t.lPlanck
        (fun p => MeanPhotonAPI.PlanckGroupAbsorptionCoefficient o.dbl (dbl p.rho) (dbl p.T) g)
        fun p => MeanPhotonAPI.PlanckGroupAbsorptionCoefficient o p.rho p.T g)
  | photonRosseland (o : Photons.MeanOpacityBase ℝ) {g : ℤ} : o.t.lRosseland.rank = 3 → 0 ≤ g → g < o.t.lRosseland.dim 1 →
      DoubledTable (photonDouble o.t.lRosseland
        (fun p => MeanPhotonAPI.RosselandGroupAbsorptionCoefficient o.dbl (dbl p.rho) (dbl p.T) g)
        fun p => MeanPhotonAPI.RosselandGroupAbsorptionCoefficient o p.rho p.T g)
  | photonSPlanck (o : Photons.MeanSOpacityBase ℝ) {g : ℤ} : o.t.lPlanck.rank = 3 → 0 ≤ g → g < o.t.lPlanck.dim 1 →
      DoubledTable (photonDouble o.t.lPlanck
        (fun p => MeanPhotonSAPI.PlanckGroupScatteringCoefficient o.dbl (dbl p.rho) (dbl p.T) g)
        fun p => MeanPhotonSAPI.PlanckGroupScatteringCoefficient o p.rho p.T g)
  | photonSRosseland (o : Photons.MeanSOpacityBase ℝ) {g : ℤ} : o.t.lRosseland.rank = 3 → 0 ≤ g → g < o.t.lRosseland.dim 1 →
      DoubledTable (photonDouble o.t.lRosseland
        (fun p => MeanPhotonSAPI.RosselandGroupScatteringCoefficient o.dbl (dbl p.rho) (dbl p.T) g)
        fun p => MeanPhotonSAPI.RosselandGroupScatteringCoefficient o p.rho p.T g)
  | planck (o : Neutrinos.MeanOpacityBase ℝ) {s : RadiationType} {d : ℕ} : o.t.lPlanck.rank = 4 → o.t.lPlanck.dim 1 = 3 →
      SpeciesIndex s d →
      DoubledTable (meanDouble o.t.lPlanck
        (fun p => MeanNeutrinoAPI.PlanckMeanAbsorptionCoefficient o.dbl (dbl p.rho) (dbl p.T) (dbl p.Ye) s)
        fun p => MeanNeutrinoAPI.PlanckMeanAbsorptionCoefficient o p.rho p.T p.Ye s)
  | rosseland (o : Neutrinos.MeanOpacityBase ℝ) {s : RadiationType} {d : ℕ} : o.t.lRosseland.rank = 4 →
      o.t.lRosseland.dim 1 = 3 → SpeciesIndex s d →
      DoubledTable (meanDouble o.t.lRosseland
        (fun p => MeanNeutrinoAPI.RosselandMeanAbsorptionCoefficient o.dbl (dbl p.rho) (dbl p.T) (dbl p.Ye) s)
        fun p => MeanNeutrinoAPI.RosselandMeanAbsorptionCoefficient o p.rho p.T p.Ye s)
  | planckScattering (o : Neutrinos.MeanSOpacityBase ℝ) {s : RadiationType} {d : ℕ} : o.t.lPlanck.rank = 4 →
      o.t.lPlanck.dim 1 = 3 → SpeciesIndex s d →
      DoubledTable (meanDouble o.t.lPlanck
        (fun p => MeanNeutrinoSAPI.PlanckMeanTotalScatteringCoefficient o.dbl (dbl p.rho) (dbl p.T) (dbl p.Ye) s)
        fun p => MeanNeutrinoSAPI.PlanckMeanTotalScatteringCoefficient o p.rho p.T p.Ye s)
  | rosselandScattering (o : Neutrinos.MeanSOpacityBase ℝ) {s : RadiationType} {d : ℕ} : o.t.lRosseland.rank = 4 →
      o.t.lRosseland.dim 1 = 3 → SpeciesIndex s d →
      DoubledTable (meanDouble o.t.lRosseland
        (fun p => MeanNeutrinoSAPI.RosselandMeanTotalScatteringCoefficient o.dbl (dbl p.rho) (dbl p.T) (dbl p.Ye) s)
        fun p => MeanNeutrinoSAPI.RosselandMeanTotalScatteringCoefficient o p.rho p.T p.Ye s)
  | emissivity (o : SpinerOpacity ℝ) {s : RadiationType} {d : ℕ} : o.lJ_.rank = 4 → o.lJ_.dim 1 = 3 → SpeciesIndex s d →
      DoubledTable (totalDouble o.lJ_ (fun p => o.dbl.Emissivity (dbl p.rho) (dbl p.T) (dbl p.Ye) s)
        fun p => o.Emissivity p.rho p.T p.Ye s)
  | numberEmissivity (o : SpinerOpacity ℝ) {s : RadiationType} {d : ℕ} : o.lJYe_.rank = 4 → o.lJYe_.dim 1 = 3 →
      SpeciesIndex s d →
      DoubledTable (totalDouble o.lJYe_ (fun p => o.dbl.NumberEmissivity (dbl p.rho) (dbl p.T) (dbl p.Ye) s)
        fun p => o.NumberEmissivity p.rho p.T p.Ye s)
  | absorption (o : SpinerOpacity ℝ) {s : RadiationType} {d : ℕ} : SpectralSized o.pc → o.lalphanu_.rank = 5 →
      o.lalphanu_.dim 2 = 3 → SpeciesIndex s d →
      DoubledTable (spectralDouble o.pc o.lalphanu_
        (fun p => o.dbl.AbsorptionCoefficient (dbl p.rho) (dbl p.T) (dbl p.Ye) s (dbl p.nu))
        fun p => o.AbsorptionCoefficient p.rho p.T p.Ye s p.nu)
  | angleAveraged (o : SpinerOpacity ℝ) {s : RadiationType} {d : ℕ} : SpectralSized o.pc → o.lalphanu_.rank = 5 →
      o.lalphanu_.dim 2 = 3 → SpeciesIndex s d →
      DoubledTable (spectralDouble o.pc o.lalphanu_
        (fun p => o.dbl.AngleAveragedAbsorptionCoefficient (dbl p.rho) (dbl p.T) (dbl p.Ye) s (dbl p.nu))
        fun p => o.AngleAveragedAbsorptionCoefficient p.rho p.T p.Ye s p.nu)
  | perNuOmega (o : SpinerOpacity ℝ) {s : RadiationType} {d : ℕ} : SpectralSized o.pc → o.ljnu_.rank = 5 →
      o.ljnu_.dim 2 = 3 → SpeciesIndex s d →
      DoubledTable (spectralDouble o.pc o.ljnu_
        (fun p => o.dbl.EmissivityPerNuOmega (dbl p.rho) (dbl p.T) (dbl p.Ye) s (dbl p.nu))
        fun p => o.EmissivityPerNuOmega p.rho p.T p.Ye s p.nu)
  | perNu (o : SpinerOpacity ℝ) {s : RadiationType} {d : ℕ} : SpectralSized o.pc → o.ljnu_.rank = 5 →
      o.ljnu_.dim 2 = 3 → SpeciesIndex s d →
      DoubledTable (spectralDouble o.pc o.ljnu_
        (fun p => o.dbl.EmissivityPerNu (dbl p.rho) (dbl p.T) (dbl p.Ye) s (dbl p.nu))
        fun p => o.EmissivityPerNu p.rho p.T p.Ye s p.nu)

/-- the state lies within the table -/
def DoubleQuery.Inside (q : DoubleQuery) (p : State) : Prop :=
  ∀ a ∈ q.axes, (q.table.grid a.1).min ≤ a.2 p ∧ a.2 p ≤ (q.table.grid a.1).max

/-! ## Helpers -/

/-- the state with rounding alone -/
noncomputable def fstate (p : State) : FState rd64 := ⟨⟨p.rho⟩, ⟨p.T⟩, ⟨p.Ye⟩, ⟨p.nu⟩⟩

theorem accurate_of {q : TwinQuery rd64} (H : TwinTable rd64 q)
    (S : Smooth q.table (q.axes.map Prod.fst) 40 (1 / 100) 200 1) {p : State} (hp : (fstate p).Positive)
    (hin : q.Inside p) {f : Outcome (IE binary64)} (hf : Same f (q.rounded (fstate p))) :
    ∃ a x, f = ok a ∧ q.exact p = ok x ∧ Accurate a x := by
  obtain ⟨b, h1, h2, -⟩ := hf
  obtain ⟨a, x, k1, k2, k3, k4⟩ := C68_lookup rd64_binary (by norm_num) H S (by norm_num) (by norm_num) (by norm_num)
    (by norm_num) (by norm_num) (fstate p) hp hin
  rw [k1] at h1
  injection h1 with h1
  subst h1
  refine ⟨_, x, h2, k2, k3, a.val, rfl, k4.trans ?_⟩
  have : (2 : ℝ) ^ (-53 : ℤ) * (1800 * (40 / (1 / 100)) * 1 + 180 * 200) ≤ 1e-9 := by norm_num
  exact mul_le_mul_of_nonneg_right this k3.le

/-- the same photon mean opacity with rounding alone -/
noncomputable def pofl (o : Photons.MeanOpacityBase ℝ) : Photons.MeanOpacityBase (Fl rd64) :=
  ⟨fl o.pc, ⟨dfl o.t.lPlanck, dfl o.t.lRosseland, o.t.groupBounds.map fun x => ⟨x⟩, o.t.ngroups⟩⟩

theorem pofl_exact (o : Photons.MeanOpacityBase ℝ) : (pofl o).exact.t.lPlanck = o.t.lPlanck ∧
    (pofl o).exact.t.lRosseland = o.t.lRosseland := ⟨rfl, rfl⟩

/-- the same photon mean scattering opacity with rounding alone -/
noncomputable def psfl (o : Photons.MeanSOpacityBase ℝ) : Photons.MeanSOpacityBase (Fl rd64) :=
  ⟨fl o.pc, ⟨dfl o.t.lPlanck, dfl o.t.lRosseland, o.t.groupBounds.map fun x => ⟨x⟩, o.t.ngroups⟩⟩

/-- the same neutrino mean opacity with rounding alone -/
noncomputable def nofl (o : Neutrinos.MeanOpacityBase ℝ) : Neutrinos.MeanOpacityBase (Fl rd64) :=
  ⟨fl o.pc, ⟨dfl o.t.lPlanck, dfl o.t.lRosseland⟩⟩

/-- the same neutrino mean scattering opacity with rounding alone -/
noncomputable def nsfl (o : Neutrinos.MeanSOpacityBase ℝ) : Neutrinos.MeanSOpacityBase (Fl rd64) :=
  ⟨⟨o.dist.NSPECIES, fl o.dist.pc⟩, fl o.pc, ⟨dfl o.t.lPlanck, dfl o.t.lRosseland⟩⟩

/-! ## The property -/

/-- C71: a lookup inside a table, in double precision. -/
theorem C71_lookup {q : DoubleQuery} (H : DoubledTable q) (S : DoubleTable q.table (q.axes.map Prod.fst)) (p : State)
    (hρ : 0 < p.rho) (hT : 0 < p.T) (hν : 0 < p.nu) (hY : TableNumber p.Ye) (hin : q.Inside p) :
    ∃ a x, q.double p = ok a ∧ q.exact p = ok x ∧ Accurate a x := by
  have hp : (fstate p).Positive := ⟨hρ, hT, hν⟩
  cases H with
  | photonPlanck o hd g0 g1 =>
    exact accurate_of (TwinTable.photonPlanck (pofl o) hd g0 g1) (smooth S) hp hin
      (photon_same S hd g0 g1 hρ hT (hin (2, fun p => meanCoord p.rho) (by simp [photonDouble]))
        (hin (1, fun p => meanCoord p.T) (by simp [photonDouble])))
  | photonRosseland o hd g0 g1 =>
    exact accurate_of (TwinTable.photonRosseland (pofl o) hd g0 g1) (smooth S) hp hin
      (photon_same S hd g0 g1 hρ hT (hin (2, fun p => meanCoord p.rho) (by simp [photonDouble]))
        (hin (1, fun p => meanCoord p.T) (by simp [photonDouble])))
  | photonSPlanck o hd g0 g1 =>
    exact accurate_of (TwinTable.photonSPlanck (psfl o) hd g0 g1) (smooth S) hp hin
      (photon_same S hd g0 g1 hρ hT (hin (2, fun p => meanCoord p.rho) (by simp [photonDouble]))
        (hin (1, fun p => meanCoord p.T) (by simp [photonDouble])))
  | photonSRosseland o hd g0 g1 =>
    exact accurate_of (TwinTable.photonSRosseland (psfl o) hd g0 g1) (smooth S) hp hin
      (photon_same S hd g0 g1 hρ hT (hin (2, fun p => meanCoord p.rho) (by simp [photonDouble]))
        (hin (1, fun p => meanCoord p.T) (by simp [photonDouble])))
  | planck o hd h3 hsp =>
    exact accurate_of (TwinTable.planck (nofl o) hd h3 hsp) (smooth S) hp hin
      (mean_same S hd h3 hsp hρ hT hY (hin (3, fun p => meanCoord p.rho) (by simp [meanDouble]))
        (hin (2, fun p => meanCoord p.T) (by simp [meanDouble])) (hin (1, State.Ye) (by simp [meanDouble])))
  | rosseland o hd h3 hsp =>
    exact accurate_of (TwinTable.rosseland (nofl o) hd h3 hsp) (smooth S) hp hin
      (mean_same S hd h3 hsp hρ hT hY (hin (3, fun p => meanCoord p.rho) (by simp [meanDouble]))
        (hin (2, fun p => meanCoord p.T) (by simp [meanDouble])) (hin (1, State.Ye) (by simp [meanDouble])))
  | planckScattering o hd h3 hsp =>
    exact accurate_of (TwinTable.planckScattering (nsfl o) hd h3 hsp) (smooth S) hp hin
      (mean_same S hd h3 hsp hρ hT hY (hin (3, fun p => meanCoord p.rho) (by simp [meanDouble]))
        (hin (2, fun p => meanCoord p.T) (by simp [meanDouble])) (hin (1, State.Ye) (by simp [meanDouble])))
  | rosselandScattering o hd h3 hsp =>
    exact accurate_of (TwinTable.rosselandScattering (nsfl o) hd h3 hsp) (smooth S) hp hin
      (mean_same S hd h3 hsp hρ hT hY (hin (3, fun p => meanCoord p.rho) (by simp [meanDouble]))
        (hin (2, fun p => meanCoord p.T) (by simp [meanDouble])) (hin (1, State.Ye) (by simp [meanDouble])))
  | emissivity o hd h3 hsp =>
    exact accurate_of (TwinTable.emissivity (ofl o) hd h3 hsp) (smooth S) hp hin
      (total_same S hd h3 hsp hρ hT hY (hin (3, fun p => tableCoord p.rho) (by simp [totalDouble]))
        (hin (2, fun p => tableCoord (p.T / kelvinPerMeV)) (by simp [totalDouble]))
        (hin (1, State.Ye) (by simp [totalDouble])))
  | numberEmissivity o hd h3 hsp =>
    exact accurate_of (TwinTable.numberEmissivity (ofl o) hd h3 hsp) (smooth S) hp hin
      (total_same S hd h3 hsp hρ hT hY (hin (3, fun p => tableCoord p.rho) (by simp [totalDouble]))
        (hin (2, fun p => tableCoord (p.T / kelvinPerMeV)) (by simp [totalDouble]))
        (hin (1, State.Ye) (by simp [totalDouble])))
  | absorption o hpc hd h3 hsp =>
    obtain ⟨b, k1, k2, k3⟩ := spectral_same S o hpc.h hpc.eV hpc.pos hd h3 hsp hρ hT hν hY
      (hin (4, fun p => tableCoord p.rho) (by simp [spectralDouble]))
      (hin (3, fun p => tableCoord (p.T / kelvinPerMeV)) (by simp [spectralDouble]))
      (hin (2, State.Ye) (by simp [spectralDouble]))
      (hin (0, fun p => tableCoord (p.nu / hzPerMeV o.pc)) (by simp [spectralDouble]))
    exact accurate_of (TwinTable.absorption (ofl o) hpc.pos (lt_of_lt_of_le (by positivity) hpc.eV.1) hd h3 hsp) (smooth S)
      hp hin ⟨b, k1, k2, k3.mono (by norm_num) (by norm_num)⟩
  | angleAveraged o hpc hd h3 hsp =>
    obtain ⟨b, k1, k2, k3⟩ := spectral_same S o hpc.h hpc.eV hpc.pos hd h3 hsp hρ hT hν hY
      (hin (4, fun p => tableCoord p.rho) (by simp [spectralDouble]))
      (hin (3, fun p => tableCoord (p.T / kelvinPerMeV)) (by simp [spectralDouble]))
      (hin (2, State.Ye) (by simp [spectralDouble]))
      (hin (0, fun p => tableCoord (p.nu / hzPerMeV o.pc)) (by simp [spectralDouble]))
    exact accurate_of (TwinTable.angleAveraged (ofl o) hpc.pos (lt_of_lt_of_le (by positivity) hpc.eV.1) hd h3 hsp)
      (smooth S) hp hin ⟨b, k1, k2, k3.mono (by norm_num) (by norm_num)⟩
  | perNuOmega o hpc hd h3 hsp =>
    obtain ⟨b, k1, k2, k3⟩ := spectral_same S o hpc.h hpc.eV hpc.pos hd h3 hsp hρ hT hν hY
      (hin (4, fun p => tableCoord p.rho) (by simp [spectralDouble]))
      (hin (3, fun p => tableCoord (p.T / kelvinPerMeV)) (by simp [spectralDouble]))
      (hin (2, State.Ye) (by simp [spectralDouble]))
      (hin (0, fun p => tableCoord (p.nu / hzPerMeV o.pc)) (by simp [spectralDouble]))
    exact accurate_of (TwinTable.perNuOmega (ofl o) hpc.pos (lt_of_lt_of_le (by positivity) hpc.eV.1) hd h3 hsp)
      (smooth S) hp hin ⟨b, k1, k2, k3.mono (by norm_num) (by norm_num)⟩
  | perNu o hpc hd h3 hsp =>
    obtain ⟨b, k1, k2, k3⟩ := spectral_same S o hpc.h hpc.eV hpc.pos hd h3 hsp hρ hT hν hY
      (hin (4, fun p => tableCoord p.rho) (by simp [spectralDouble]))
      (hin (3, fun p => tableCoord (p.T / kelvinPerMeV)) (by simp [spectralDouble]))
      (hin (2, State.Ye) (by simp [spectralDouble]))
      (hin (0, fun p => tableCoord (p.nu / hzPerMeV o.pc)) (by simp [spectralDouble]))
    have c4 : Sim 3 4 (lit 4 * Arith.pi : IE binary64) (lit 4 * Arith.pi : Fl rd64) := (Sim.lit 4 2 2).mul Sim.pi
    refine accurate_of (TwinTable.perNu (ofl o) hpc.pos (lt_of_lt_of_le (by positivity) hpc.eV.1) hd h3 hsp)
      (smooth S) hp hin (same_of_sim ?_ ?_ (c4.mul k3))
    · show (o.dbl.lookup5 o.ljnu_.dbl (dbl p.rho) (dbl p.T) (dbl p.Ye) _ (dbl p.nu)).map' _ = _
      rw [show o.dbl.lookup5 o.ljnu_.dbl (dbl p.rho) (dbl p.T) (dbl p.Ye) _ (dbl p.nu) = ok (dbl b.val) from k2]; rfl
    · show ((ofl o).lookup5 (dfl o.ljnu_) ⟨p.rho⟩ ⟨p.T⟩ ⟨p.Ye⟩ _ ⟨p.nu⟩).map' _ = _
      rw [show (ofl o).lookup5 (dfl o.ljnu_) ⟨p.rho⟩ ⟨p.T⟩ ⟨p.Ye⟩ _ ⟨p.nu⟩ = ok b from k1]; rfl

/-! ## Conversions to `int` -/

theorem convertible {g : Grid ℝ} (A : DoubleAxis g) {x : IE binary64} {x' : Fl rd64} (hx : SimG 112 10 x x') :
    Convertible (g.dbl.cell x) := by
  have s := sim_cell A hx
  have h := abs_le.1 s.size
  refine ⟨_, s.val, ?_, ?_⟩
  · refine lt_of_lt_of_le ?_ h.1
    norm_num
  · refine lt_of_le_of_lt h.2 ?_
    norm_num

/-- The number that each lookup converts to `int` along each of its axes fits an `int`, also for states outside the table:
densities, temperatures and frequencies between `2^-800` and `2^800`, electron fractions up to 1000. -/
theorem C71_conversion {q : DoubleQuery} (H : DoubledTable q) (S : ∀ a ∈ q.axes, DoubleAxis (q.table.grid a.1)) (p : State)
    (hρ : Bits (-800) 800 p.rho) (hT : Bits (-800) 800 p.T) (hν : Bits (-800) 800 p.nu) (hY : TableNumber p.Ye)
    (hY1 : |p.Ye| ≤ 1000) : ∀ c ∈ q.axes.zip q.coords, Convertible ((q.table.grid c.1.1).dbl.cell (c.2 p)) := by
  have sY : SimG 112 10 (dbl p.Ye) (⟨p.Ye⟩ : Fl rd64) := ⟨rfl, TableNumber.mult hY, hY1.trans (by norm_num)⟩
  have photon : ∀ (lk : DataBox ℝ) f x, (∀ a ∈ (photonDouble lk f x).axes, DoubleAxis (lk.grid a.1)) →
      ∀ c ∈ (photonDouble lk f x).axes.zip (photonDouble lk f x).coords, Convertible ((lk.grid c.1.1).dbl.cell (c.2 p)) := by
    intro lk f x A c hc
    have h := A c.1 (List.of_mem_zip hc).1
    simp only [photonDouble, List.zip_cons_cons, List.zip_nil_right, List.mem_cons, List.not_mem_nil, or_false] at hc
    rcases hc with rfl | rfl
    · exact convertible h (sim_ToLog (sim_dbl hρ) (by norm_num) (by norm_num))
    · exact convertible h (sim_ToLog (sim_dbl hT) (by norm_num) (by norm_num))
  have mean : ∀ (lk : DataBox ℝ) f x, (∀ a ∈ (meanDouble lk f x).axes, DoubleAxis (lk.grid a.1)) →
      ∀ c ∈ (meanDouble lk f x).axes.zip (meanDouble lk f x).coords, Convertible ((lk.grid c.1.1).dbl.cell (c.2 p)) := by
    intro lk f x A c hc
    have h := A c.1 (List.of_mem_zip hc).1
    simp only [meanDouble, List.zip_cons_cons, List.zip_nil_right, List.mem_cons, List.not_mem_nil, or_false] at hc
    rcases hc with rfl | rfl | rfl
    · exact convertible h (sim_meanLog (sim_dbl hρ) (by norm_num) (by norm_num))
    · exact convertible h (sim_meanLog (sim_dbl hT) (by norm_num) (by norm_num))
    · exact convertible h sY
  have total : ∀ (lk : DataBox ℝ) f x, (∀ a ∈ (totalDouble lk f x).axes, DoubleAxis (lk.grid a.1)) →
      ∀ c ∈ (totalDouble lk f x).axes.zip (totalDouble lk f x).coords, Convertible ((lk.grid c.1.1).dbl.cell (c.2 p)) := by
    intro lk f x A c hc
    have h := A c.1 (List.of_mem_zip hc).1
    simp only [totalDouble, List.zip_cons_cons, List.zip_nil_right, List.mem_cons, List.not_mem_nil, or_false] at hc
    rcases hc with rfl | rfl | rfl
    · exact convertible h (sim_tableLog (sim_dbl hρ) (by norm_num) (by norm_num))
    · exact convertible h (sim_tableLog ((sim_dbl hT).mul sim_K2MeV) (by norm_num) (by norm_num))
    · exact convertible h sY
  have spectral : ∀ (pc : PC ℝ) (lk : DataBox ℝ) f x, SpectralSized pc →
      (∀ a ∈ (spectralDouble pc lk f x).axes, DoubleAxis (lk.grid a.1)) →
      ∀ c ∈ (spectralDouble pc lk f x).axes.zip (spectralDouble pc lk f x).coords,
        Convertible ((lk.grid c.1.1).dbl.cell (c.2 p)) := by
    intro pc lk f x hpc A c hc
    have h := A c.1 (List.of_mem_zip hc).1
    simp only [spectralDouble, List.zip_cons_cons, List.zip_nil_right, List.mem_cons, List.not_mem_nil, or_false] at hc
    rcases hc with rfl | rfl | rfl | rfl
    · exact convertible h (sim_tableLog (sim_dbl hρ) (by norm_num) (by norm_num))
    · exact convertible h (sim_tableLog ((sim_dbl hT).mul sim_K2MeV) (by norm_num) (by norm_num))
    · exact convertible h sY
    · exact convertible h (sim_tableLog ((sim_Hz2MeV hpc.h hpc.eV).mul (sim_dbl hν)) (by norm_num) (by norm_num))
  cases H with
  | photonPlanck => exact photon _ _ _ S
  | photonRosseland => exact photon _ _ _ S
  | photonSPlanck => exact photon _ _ _ S
  | photonSRosseland => exact photon _ _ _ S
  | planck => exact mean _ _ _ S
  | rosseland => exact mean _ _ _ S
  | planckScattering => exact mean _ _ _ S
  | rosselandScattering => exact mean _ _ _ S
  | emissivity => exact total _ _ _ S
  | numberEmissivity => exact total _ _ _ S
  | absorption o hpc => exact spectral _ _ _ _ hpc S
  | angleAveraged o hpc => exact spectral _ _ _ _ hpc S
  | perNuOmega o hpc => exact spectral _ _ _ _ hpc S
  | perNu o hpc => exact spectral _ _ _ _ hpc S

/-- an infinity or NaN as a coordinate -/
theorem special_cell {g : Grid ℝ} (A : DoubleAxis g) {x : IE binary64} (hx : x.val = .pinf ∨ x.val = .nan) :
    (g.dbl.cell x).val = .pinf ∨ (g.dbl.cell x).val = .nan := by
  have s := sim_inv A
  have hp : 0 < (gfl g).inv_dx.val := by
    have h1 := (sim_dx A).2
    have h2 : Sim 0 0 (lit 1 : IE binary64) (lit 1 : Fl rd64) := Sim.lit 1 0 0
    exact (h2.div h1).pos
  have e : (g.dbl.cell x).val = IE.round binary64 (XR.mul g.dbl.inv_dx.val
      (IE.round binary64 (XR.add x.val (XR.neg (.fin g.min))))) := rfl
  rw [e, s.val]
  rcases hx with hx | hx <;> rw [hx]
  · left; simp [XR.add, XR.neg, IE.round, XR.mul, XR.signInf, hp]
  · right; rfl

theorem special_log {x c : IE binary64} {v : ℝ} (hc : c.val = .fin v) (hx : x.val = .pinf ∨ x.val = .nan) :
    (Arith.log10 (Arith.abs x + c)).val = .pinf ∨ (Arith.log10 (Arith.abs x + c)).val = .nan := by
  have e : (Arith.log10 (Arith.abs x + c)).val = XR.lift (fun x => if 0 < x then binary64.log10 x else if x = 0 then .ninf
      else .nan) .nan .pinf (IE.round binary64 (XR.add (XR.lift (fun x => .fin |x|) .pinf .pinf x.val) c.val)) := rfl
  rw [e, hc]
  rcases hx with hx | hx <;> rw [hx]
  · left; rfl
  · right; rfl

theorem not_convertible {a : IE binary64} (h : a.val = .pinf ∨ a.val = .nan) : ¬ Convertible a := by
  rintro ⟨v, hv, -⟩
  rw [hv] at h
  rcases h with h | h <;> cases h

/-- For an infinite or NaN density or temperature the number converted to `int` is infinite or NaN: the call has undefined
behaviour. -/
theorem C71_conversion_false {g : Grid ℝ} (A : DoubleAxis g) (x : IE binary64) (hx : x.val = .pinf ∨ x.val = .nan) :
    ¬ Convertible (g.dbl.cell (ToLog x)) ∧ ¬ Convertible (g.dbl.cell (MeanTables.toLog_ x)) ∧
      ¬ Convertible (g.dbl.cell (SpinerOpacity.toLog_ x)) := by
  have c : (lit 10 * dmin : IE binary64).val = .fin (lit 10 * dmin : Fl rd64).val := ((Sim.lit 10 3 4).mul sim_dmin).1
  refine ⟨not_convertible (special_cell A (special_log c hx)), ?_, ?_⟩
  · have c' : (lit 10.0 * dmin : IE binary64).val = .fin (lit 10 * dmin : Fl rd64).val := by
      rw [show (10.0 : ℚ) = 10 by norm_num]; exact c
    exact not_convertible (special_cell A (special_log c' hx))
  · have hm : stdMax x (-(lit 0)) = x := by
      unfold stdMax
      have : Arith.lt x (-(lit 0)) = false := by
        show XR.lt x.val (XR.neg (lit 0 : IE binary64).val) = false
        rw [zero_ie]
        rcases hx with hx | hx <;> rw [hx] <;> rfl
      simp [this]
    have h0 : (x + lit 0).val = .pinf ∨ (x + lit 0).val = .nan := by
      have e : (x + lit 0).val = IE.round binary64 (XR.add x.val (lit 0 : IE binary64).val) := rfl
      rw [e, zero_ie]
      rcases hx with hx | hx <;> rw [hx]
      · left; rfl
      · right; rfl
    have c' : (lit 10.0 * dmin : IE binary64).val = .fin (lit 10 * dmin : Fl rd64).val := by
      rw [show (10.0 : ℚ) = 10 by norm_num]; exact c
    unfold SpinerOpacity.toLog_ SpinerOpacity.EPS
    rw [hm]
    exact not_convertible (special_cell A (special_log c' h0))

/-! ## The hypotheses are met -/

/-- a table of two densities, two temperatures and two groups -/
noncomputable def exDouble : DataBox ℝ := ⟨[2, 2, 2], fun _ => ⟨-10, 10, 2⟩, fun i => if i % 3 = 0 then 1 else 2⟩

theorem tableNumber_int (k : ℤ) (h : |k| ≤ 2 ^ 53) (h0 : k ≠ 0) : TableNumber (k : ℝ) := by
  have h1 : (1 : ℝ) ≤ |(k : ℝ)| := by exact_mod_cast Int.one_le_abs h0
  refine ⟨?_, .inr (le_trans (by norm_num) h1)⟩
  have := double64.rd_fix (e := 0) (k := k) (by norm_num [double64]) h (by
    have h2 : |(k : ℝ)| ≤ 2 ^ (53 : ℕ) := by exact_mod_cast h
    rw [zpow_zero, mul_one]
    refine lt_of_le_of_lt h2 ?_
    rw [← zpow_natCast]
    exact zpow_lt_zpow_right₀ (by norm_num) (show ((53 : ℕ) : ℤ) < 1024 by norm_num))
  rw [zpow_zero, mul_one] at this
  exact this

theorem exDouble_table : DoubleTable exDouble [2, 1] := by
  have v : ∀ is v, exDouble.read is = ok v → v = 1 ∨ v = 2 := by
    intro is v h
    obtain ⟨o, -, h⟩ := bind_eq_ok.1 h
    injection h with h
    rw [← h]
    show (if o.toNat % 3 = 0 then (1 : ℝ) else 2) = 1 ∨ (if o.toNat % 3 = 0 then (1 : ℝ) else 2) = 2
    split <;> simp
  have t1 := tableNumber_int 1 (by norm_num) (by norm_num)
  have t2 := tableNumber_int 2 (by norm_num) (by norm_num)
  have t3 := tableNumber_int (-10) (by norm_num) (by norm_num)
  have t4 := tableNumber_int 10 (by norm_num) (by norm_num)
  push_cast at t1 t2 t3 t4
  refine ⟨fun k hk => ⟨⟨?_, ?_, ?_, ?_, ?_, t3, t4⟩, ?_⟩, ?_, ?_⟩
  · show (2 : ℤ) ≤ 2
    norm_num
  · show (2 : ℤ) ≤ 2 ^ 24
    norm_num
  · show |(-10 : ℝ)| ≤ 40
    norm_num
  · show |(10 : ℝ)| ≤ 40
    norm_num
  · show (((2 : ℤ) : ℝ) - 1) / 100 ≤ 10 - (-10)
    norm_num
  · simp only [List.mem_cons, List.not_mem_nil, or_false] at hk
    rcases hk with rfl | rfl <;> rfl
  · intro is w h
    rcases v is w h with rfl | rfl
    · exact ⟨t1, by norm_num⟩
    · exact ⟨t2, by norm_num⟩
  · intro k _ is w w' h h'
    rcases v is w h with rfl | rfl <;> rcases v _ w' h' with rfl | rfl <;> norm_num

/-- the state with density and temperature one, in the second group -/
example (pc : PC ℝ) : ∃ (a : IE binary64) (x : ℝ), MeanPhotonAPI.PlanckGroupAbsorptionCoefficient
      (⟨pc, ⟨exDouble, exDouble, [], 2⟩⟩ : Photons.MeanOpacityBase ℝ).dbl (dbl 1) (dbl 1) 1 = ok a ∧
    MeanPhotonAPI.PlanckGroupAbsorptionCoefficient
      (⟨pc, ⟨exDouble, exDouble, [], 2⟩⟩ : Photons.MeanOpacityBase ℝ) (1 : ℝ) (1 : ℝ) 1 = ok x ∧ Accurate a x := by
  have H := DoubledTable.photonPlanck (⟨pc, ⟨exDouble, exDouble, [], 2⟩⟩ : Photons.MeanOpacityBase ℝ) (g := 1) rfl
    (by norm_num) (by show (1 : ℤ) < 2; norm_num)
  have t1 := tableNumber_int 1 (by norm_num) (by norm_num)
  push_cast at t1
  refine C71_lookup H exDouble_table ⟨1, 1, 1, 1⟩ one_pos one_pos one_pos t1 ?_
  have m : -10 ≤ meanCoord 1 ∧ meanCoord 1 ≤ 10 := by
    unfold meanCoord
    constructor
    · refine le_trans (by norm_num) (Real.logb_nonneg (by norm_num) ?_)
      rw [abs_one]
      linarith [SpinerOpacity.tiny_pos]
    · rw [Real.logb_le_iff_le_rpow (by norm_num) (by rw [abs_one]; linarith [SpinerOpacity.tiny_pos]), abs_one]
      have := SpinerOpacity.tiny_le_one
      norm_num
      linarith
  intro a ha
  simp only [photonDouble, List.mem_cons, List.not_mem_nil, or_false] at ha
  rcases ha with rfl | rfl <;> exact m

/-- the same table, at a state far outside it -/
example (pc : PC ℝ) : ∀ c ∈ [(2, fun p : State => ToLog (dbl p.rho)), (1, fun p : State => ToLog (dbl p.T))],
    Convertible ((exDouble.grid c.1).dbl.cell (c.2 ⟨2 ^ (500 : ℤ), 2 ^ (-500 : ℤ), 1, 1⟩)) := by
  have H := DoubledTable.photonPlanck (⟨pc, ⟨exDouble, exDouble, [], 2⟩⟩ : Photons.MeanOpacityBase ℝ) (g := 1) rfl
    (by norm_num) (by show (1 : ℤ) < 2; norm_num)
  have t1 := tableNumber_int 1 (by norm_num) (by norm_num)
  push_cast at t1
  have one : Bits (-800) 800 1 := ⟨by rw [← zpow_zero (2 : ℝ)]; exact zle (by norm_num),
    by rw [← zpow_zero (2 : ℝ)]; exact zle (by norm_num)⟩
  have := C71_conversion H (fun a _ => (exDouble_table.grid 2 (by simp)).1) ⟨2 ^ (500 : ℤ), 2 ^ (-500 : ℤ), 1, 1⟩
    ⟨zle (by norm_num), zle (by norm_num)⟩ ⟨zle (by norm_num), zle (by norm_num)⟩ one t1 (by norm_num)
  intro c hc
  simp only [List.mem_cons, List.not_mem_nil, or_false] at hc
  rcases hc with rfl | rfl
  · exact this ((2, fun p => meanCoord p.rho), fun p => ToLog (dbl p.rho)) (by simp [photonDouble])
  · exact this ((1, fun p => meanCoord p.T), fun p => ToLog (dbl p.T)) (by simp [photonDouble])

end Opac.Tables
