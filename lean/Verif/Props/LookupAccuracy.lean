import Verif.Lemmas.LookupAccuracy
import Verif.Props.TableLookup
import Verif.Props.Accuracy

/-!
# C68: rounding errors of table lookups

The functions of the API that answer from a table are run twice on the same table: with every operation rounded and
exactly.  Rounding can put a state into the neighbouring cell; the answers nevertheless agree to a relative error that is
proportional to the unit roundoff, to the largest coordinate over the grid spacing, and to the difference of neighbouring
entries.
-/

namespace Opac.Tables
open Arith Outcome Spec Spiner Photons Neutrinos Accuracy
open SpinerOpacity (tiny kelvinPerMeV hzPerMeV)

variable {rd : ℝ → ℝ} {u : ℝ}

/-! ## Specification -/

/-- floating-point density, temperature, electron fraction and frequency -/
structure FState (rd : ℝ → ℝ) where
  rho : Fl rd
  T : Fl rd
  Ye : Fl rd
  nu : Fl rd

/-- the same state as real numbers -/
def FState.exact (p : FState rd) : State := ⟨p.rho.val, p.T.val, p.Ye.val, p.nu.val⟩

/-- positive density, temperature and frequency -/
def FState.Positive (p : FState rd) : Prop := 0 < p.rho.val ∧ 0 < p.T.val ∧ 0 < p.nu.val

/-- a function of the API that answers from a table, run with rounding and run exactly -/
structure TwinQuery (rd : ℝ → ℝ) where
  /-- what the call returns in floating point -/
  rounded : FState rd → Outcome (Fl rd)
  /-- what it returns in exact arithmetic -/
  exact : State → Outcome ℝ
  /-- the table -/
  table : DataBox (Fl rd)
  /-- the numbers of its interpolated axes (0 is the fastest index), with the coordinate of a state along each -/
  axes : List (ℕ × (State → ℝ))

/-- photon mean opacities: logarithmic density and temperature -/
noncomputable def photonTwin (lk : DataBox (Fl rd)) (f : FState rd → Outcome (Fl rd)) (x : State → Outcome ℝ) :
    TwinQuery rd :=
  ⟨f, x, lk, [(2, fun p => meanCoord p.rho), (1, fun p => meanCoord p.T)]⟩

/-- neutrino mean opacities: logarithmic density and temperature, electron fraction -/
noncomputable def meanTwin (lk : DataBox (Fl rd)) (f : FState rd → Outcome (Fl rd)) (x : State → Outcome ℝ) :
    TwinQuery rd :=
  ⟨f, x, lk, [(3, fun p => meanCoord p.rho), (2, fun p => meanCoord p.T), (1, State.Ye)]⟩

/-- total emissivities of tabulated neutrino opacities -/
noncomputable def totalTwin (lk : DataBox (Fl rd)) (f : FState rd → Outcome (Fl rd)) (x : State → Outcome ℝ) :
    TwinQuery rd :=
  ⟨f, x, lk, [(3, fun p => tableCoord p.rho), (2, fun p => tableCoord (p.T / kelvinPerMeV)), (1, State.Ye)]⟩

/-- spectral functions of tabulated neutrino opacities -/
noncomputable def spectralTwin (pc : PC ℝ) (lk : DataBox (Fl rd)) (f : FState rd → Outcome (Fl rd))
    (x : State → Outcome ℝ) : TwinQuery rd :=
  ⟨f, x, lk, [(4, fun p => tableCoord p.rho), (3, fun p => tableCoord (p.T / kelvinPerMeV)), (2, State.Ye),
    (0, fun p => tableCoord (p.nu / hzPerMeV pc))]⟩

/-- the functions of the API that answer from a table: photon groups are numbered from 0 below the last dimension of the
table, neutrino tables hold three species -/
inductive TwinTable (rd : ℝ → ℝ) : TwinQuery rd → Prop
  | photonPlanck (o : Photons.MeanOpacityBase (Fl rd)) {g : ℤ} : o.t.lPlanck.rank = 3 → 0 ≤ g → g < o.t.lPlanck.dim 1 →
      TwinTable rd (photonTwin o.t.lPlanck (fun p => MeanPhotonAPI.PlanckGroupAbsorptionCoefficient o p.rho p.T g)
        fun p => MeanPhotonAPI.PlanckGroupAbsorptionCoefficient o.exact p.rho p.T g)
  | photonRosseland (o : Photons.MeanOpacityBase (Fl rd)) {g : ℤ} : o.t.lRosseland.rank = 3 → 0 ≤ g →
      g < o.t.lRosseland.dim 1 →
      TwinTable rd (photonTwin o.t.lRosseland (fun p => MeanPhotonAPI.RosselandGroupAbsorptionCoefficient o p.rho p.T g)
        fun p => MeanPhotonAPI.RosselandGroupAbsorptionCoefficient o.exact p.rho p.T g)
  | photonSPlanck (o : Photons.MeanSOpacityBase (Fl rd)) {g : ℤ} : o.t.lPlanck.rank = 3 → 0 ≤ g → g < o.t.lPlanck.dim 1 →
      TwinTable rd (photonTwin o.t.lPlanck (fun p => MeanPhotonSAPI.PlanckGroupScatteringCoefficient o p.rho p.T g)
        fun p => MeanPhotonSAPI.PlanckGroupScatteringCoefficient o.exact p.rho p.T g)
  | photonSRosseland (o : Photons.MeanSOpacityBase (Fl rd)) {g : ℤ} : o.t.lRosseland.rank = 3 → 0 ≤ g →
      g < o.t.lRosseland.dim 1 →
      TwinTable rd (photonTwin o.t.lRosseland (fun p => MeanPhotonSAPI.RosselandGroupScatteringCoefficient o p.rho p.T g)
        fun p => MeanPhotonSAPI.RosselandGroupScatteringCoefficient o.exact p.rho p.T g)
  | planck (o : Neutrinos.MeanOpacityBase (Fl rd)) {s : RadiationType} {d : ℕ} : o.t.lPlanck.rank = 4 →
      o.t.lPlanck.dim 1 = 3 → SpeciesIndex s d →
      TwinTable rd (meanTwin o.t.lPlanck (fun p => MeanNeutrinoAPI.PlanckMeanAbsorptionCoefficient o p.rho p.T p.Ye s)
        fun p => MeanNeutrinoAPI.PlanckMeanAbsorptionCoefficient o.exact p.rho p.T p.Ye s)
  | rosseland (o : Neutrinos.MeanOpacityBase (Fl rd)) {s : RadiationType} {d : ℕ} : o.t.lRosseland.rank = 4 →
      o.t.lRosseland.dim 1 = 3 → SpeciesIndex s d →
      TwinTable rd (meanTwin o.t.lRosseland
        (fun p => MeanNeutrinoAPI.RosselandMeanAbsorptionCoefficient o p.rho p.T p.Ye s)
        fun p => MeanNeutrinoAPI.RosselandMeanAbsorptionCoefficient o.exact p.rho p.T p.Ye s)
  | planckScattering (o : Neutrinos.MeanSOpacityBase (Fl rd)) {s : RadiationType} {d : ℕ} : o.t.lPlanck.rank = 4 →
      o.t.lPlanck.dim 1 = 3 → SpeciesIndex s d →
      TwinTable rd (meanTwin o.t.lPlanck
        (fun p => MeanNeutrinoSAPI.PlanckMeanTotalScatteringCoefficient o p.rho p.T p.Ye s)
        fun p => MeanNeutrinoSAPI.PlanckMeanTotalScatteringCoefficient o.exact p.rho p.T p.Ye s)
  | rosselandScattering (o : Neutrinos.MeanSOpacityBase (Fl rd)) {s : RadiationType} {d : ℕ} : o.t.lRosseland.rank = 4 →
      o.t.lRosseland.dim 1 = 3 → SpeciesIndex s d →
      TwinTable rd (meanTwin o.t.lRosseland
        (fun p => MeanNeutrinoSAPI.RosselandMeanTotalScatteringCoefficient o p.rho p.T p.Ye s)
        fun p => MeanNeutrinoSAPI.RosselandMeanTotalScatteringCoefficient o.exact p.rho p.T p.Ye s)
  | emissivity (o : SpinerOpacity (Fl rd)) {s : RadiationType} {d : ℕ} : o.lJ_.rank = 4 → o.lJ_.dim 1 = 3 →
      SpeciesIndex s d →
      TwinTable rd (totalTwin o.lJ_ (fun p => o.Emissivity p.rho p.T p.Ye s)
        fun p => o.exact.Emissivity p.rho p.T p.Ye s)
  | numberEmissivity (o : SpinerOpacity (Fl rd)) {s : RadiationType} {d : ℕ} : o.lJYe_.rank = 4 → o.lJYe_.dim 1 = 3 →
      SpeciesIndex s d →
      TwinTable rd (totalTwin o.lJYe_ (fun p => o.NumberEmissivity p.rho p.T p.Ye s)
        fun p => o.exact.NumberEmissivity p.rho p.T p.Ye s)
  | absorption (o : SpinerOpacity (Fl rd)) {s : RadiationType} {d : ℕ} : PosConsts o.pc.exact → 0 < o.pc.eV.val →
      o.lalphanu_.rank = 5 → o.lalphanu_.dim 2 = 3 → SpeciesIndex s d →
      TwinTable rd (spectralTwin o.pc.exact o.lalphanu_ (fun p => o.AbsorptionCoefficient p.rho p.T p.Ye s p.nu)
        fun p => o.exact.AbsorptionCoefficient p.rho p.T p.Ye s p.nu)
  | angleAveraged (o : SpinerOpacity (Fl rd)) {s : RadiationType} {d : ℕ} : PosConsts o.pc.exact → 0 < o.pc.eV.val →
      o.lalphanu_.rank = 5 → o.lalphanu_.dim 2 = 3 → SpeciesIndex s d →
      TwinTable rd (spectralTwin o.pc.exact o.lalphanu_
        (fun p => o.AngleAveragedAbsorptionCoefficient p.rho p.T p.Ye s p.nu)
        fun p => o.exact.AngleAveragedAbsorptionCoefficient p.rho p.T p.Ye s p.nu)
  | perNuOmega (o : SpinerOpacity (Fl rd)) {s : RadiationType} {d : ℕ} : PosConsts o.pc.exact → 0 < o.pc.eV.val →
      o.ljnu_.rank = 5 → o.ljnu_.dim 2 = 3 → SpeciesIndex s d →
      TwinTable rd (spectralTwin o.pc.exact o.ljnu_ (fun p => o.EmissivityPerNuOmega p.rho p.T p.Ye s p.nu)
        fun p => o.exact.EmissivityPerNuOmega p.rho p.T p.Ye s p.nu)
  | perNu (o : SpinerOpacity (Fl rd)) {s : RadiationType} {d : ℕ} : PosConsts o.pc.exact → 0 < o.pc.eV.val →
      o.ljnu_.rank = 5 → o.ljnu_.dim 2 = 3 → SpeciesIndex s d →
      TwinTable rd (spectralTwin o.pc.exact o.ljnu_ (fun p => o.EmissivityPerNu p.rho p.T p.Ye s p.nu)
        fun p => o.exact.EmissivityPerNu p.rho p.T p.Ye s p.nu)

/-- the state lies within the table -/
def TwinQuery.Inside (q : TwinQuery rd) (p : State) : Prop :=
  ∀ a ∈ q.axes, (q.table.grid a.1).min.val ≤ a.2 p ∧ a.2 p ≤ (q.table.grid a.1).max.val

/-! ## Helpers -/

/-- relative distance of the logarithms, in units of the error bound -/
noncomputable def Err (u X s M D : ℝ) : ℝ := u * (120 * (X / s) * D + 12 * M)

section helpers
variable {X s M D : ℝ} {x z : Fl rd}

theorem small_pf (hr : BinaryRounding rd u) : PF u 1 (lit 10 * dmin : Fl rd) (lit 10 * dmin : ℝ) :=
  (PF.mul hr (PF.int hr 10 10 (by norm_num) (by norm_num) (by norm_num))
    (PF.exact (u := u) (dmin : Fl rd) (show (0 : ℝ) < 2 ^ (-1022 : ℤ) by positivity))).mono hr (by norm_num)

theorem log_pf (hr : BinaryRounding rd u) {n : ℝ} {y : ℝ} (hx : PF u n x y) (hn : 1 ≤ n) :
    PF u (n + 1) (Arith.abs x + lit 10 * dmin) (|y| + 10 * 2 ^ (-1022 : ℤ)) := by
  have h : PF u n (Arith.abs x) |y| := by
    have e : (Arith.abs x : Fl rd).val = x.val := abs_of_pos hx.pos'
    rw [abs_of_pos hx.pos]
    refine ⟨hx.pos, ?_⟩
    unfold CF
    rw [e]; exact hx.2
  have := PF.add hr h (small_pf hr)
  rw [max_eq_left hn] at this
  simpa [areal] using this

/-- the coordinates of mean opacities -/
theorem mean_coord (hr : BinaryRounding rd u) (hu : u ≤ 1 / 100) (hx : 0 < x.val) :
    |(ToLog x).val - meanCoord x.val| ≤ u * (4 + |meanCoord x.val|) := by
  have h := log_pf hr ((PF.exact (u := u) x hx).mono hr (show (0 : ℝ) ≤ 1 by norm_num)) le_rfl
  have := log10_err hr hu h (by norm_num)
  have e : meanCoord x.val = Real.logb 10 (|x.val| + 10 * 2 ^ (-1022 : ℤ)) := rfl
  rw [e]
  exact this

theorem mean_coord' (hr : BinaryRounding rd u) (hu : u ≤ 1 / 100) (hx : 0 < x.val) :
    |(MeanTables.toLog_ x).val - meanCoord x.val| ≤ u * (4 + |meanCoord x.val|) := by
  have e : (MeanTables.toLog_ x : Fl rd) = ToLog x := by
    unfold MeanTables.toLog_ ToLog
    norm_num
  rw [e]
  exact mean_coord hr hu hx

/-- the coordinates of tabulated neutrino opacities -/
theorem table_coord (hr : BinaryRounding rd u) (hu : u ≤ 1 / 100) {n y : ℝ} (hx : PF u n x y) (hn : 0 ≤ n) (hn5 : n ≤ 5) :
    |(SpinerOpacity.toLog_ x).val - tableCoord y| ≤ u * (4 + |tableCoord y|) := by
  have h0 : rd 0 = 0 := by
    have := hr.err 0
    simpa using this
  have hxp := hx.pos'
  have e1 : (stdMax x (-(lit 0)) : Fl rd) = x := by
    have : (-(lit 0) : Fl rd).val = 0 := by show -(rd ((0 : ℚ) : ℝ)) = 0; simp [h0]
    unfold stdMax
    have hc : Arith.lt x (-(lit 0)) = false := by
      simp only [Arith.lt, decide_eq_false_iff_not, this]; linarith
    simp [hc]
  have h1 : PF u (n + 1) (x + lit 0) y := by
    have := PF.add_exact hr hn (b := (lit 0 : Fl rd)) (by rw [fl_lit]; simp [h0]) hx
    have e : (lit 0 : Fl rd).val = 0 := by rw [fl_lit]; simp [h0]
    rwa [e, add_zero] at this
  have h := log_pf hr h1 (by linarith)
  have := log10_err hr hu h (by linarith)
  have e : tableCoord y = Real.logb 10 (|y| + 10 * 2 ^ (-1022 : ℤ)) := by
    unfold tableCoord
    rw [max_eq_left hx.pos.le, abs_of_pos hx.pos]; rfl
  rw [e]
  have e2 : (SpinerOpacity.toLog_ x : Fl rd) = Arith.log10 (Arith.abs (x + lit 0) + lit 10 * dmin) := by
    unfold SpinerOpacity.toLog_ SpinerOpacity.EPS
    rw [e1]
    norm_num
  rw [e2]
  exact this

theorem along {g : Grid (Fl rd)} (hA : Axis g X s) (hu0 : 0 ≤ u) (hX : 1 ≤ X) {x' : Fl rd} {y : ℝ}
    (hx : |x'.val - y| ≤ u * (4 + |y|)) (h0 : g.min.val ≤ y) (h1 : y ≤ g.max.val) :
    Along u g x' y (40 * u * X / s) := by
  refine hA.along hu0 hX (hx.trans ?_) h0 h1
  have : |y| ≤ X := by
    have := abs_le.1 hA.low
    have := abs_le.1 hA.high
    rw [abs_le]; constructor <;> linarith
  gcongr

theorem err_eq : 3 * (40 * u * X / s) * D + 12 * u * M = Err u X s M D := by unfold Err; ring

theorem err_nonneg (hu0 : 0 ≤ u) (hs : 0 < s) (hX : 1 ≤ X) (hM : 1 ≤ M) (hD : 0 ≤ D) : 0 ≤ Err u X s M D := by
  unfold Err; positivity

theorem u_le_err (hu0 : 0 ≤ u) (hs : 0 < s) (hX : 1 ≤ X) (hM : 1 ≤ M) (hD : 0 ≤ D) : 12 * u ≤ Err u X s M D := by
  unfold Err
  have : 0 ≤ u * (120 * (X / s) * D) := by positivity
  nlinarith

/-- the two runs return, and the results agree -/
def Agree (u X s M D : ℝ) (f : Outcome (Fl rd)) (x : Outcome ℝ) : Prop :=
  ∃ a a', f = ok a ∧ x = ok a' ∧ 0 < a' ∧ |a.val - a'| ≤ 15 * Err u X s M D * a'

/-- up to five roundings after the interpolation -/
theorem rel_of_close (hr : BinaryRounding rd u) (hu : u ≤ 1 / 100) (hs : 0 < s) (hX : 1 ≤ X) (hM : 1 ≤ M) (hD : 0 ≤ D)
    (hE : Err u X s M D ≤ 1 / 100) {a : Fl rd} {a' t : ℝ} (ha : 0 < a')
    (h : Accuracy.Close 1 t a.val a') (ht : t ≤ 2.33 * (5.4 * Err u X s M D) + 5 * unit u) :
    |a.val - a'| ≤ 15 * Err u X s M D * a' := by
  refine rel_err ha h (ht.trans ?_) hE
  have h1 := unit_le hr hu
  have h2 := u_le_err hr.nonneg hs hX hM hD
  have h3 := hr.nonneg
  linarith

theorem close_round (hr : BinaryRounding rd u) {t r x : ℝ} (h : Accuracy.Close 1 t r x) : Accuracy.Close 1 (t + unit u) (rd r) x := by
  rw [add_comm]
  exact (close_one (Accuracy.Close.round hr.toRounding h.ne.1) (by rw [one_mul])).trans h

theorem close_mul (hr : BinaryRounding rd u) {t t2 x x2 : ℝ} {a b : Fl rd} (h : Accuracy.Close 1 t a.val x) (h2 : Accuracy.Close 1 t2 b.val x2) :
    Accuracy.Close 1 (t + t2 + unit u) (a * b).val (x * x2) := close_round hr (h.mul h2)

theorem photon_agree (hr : BinaryRounding rd u) (hu : u ≤ 1 / 100) {lk : DataBox (Fl rd)} (S : Smooth lk [2, 1] X s M D)
    (hX : 1 ≤ X) (hM : 1 ≤ M) (hD : 0 ≤ D) (hτ : 40 * u * X / s ≤ 1 / 100) (hE : Err u X s M D ≤ 1 / 100)
    (hd : lk.rank = 3) {g : ℤ} (g0 : 0 ≤ g) (g1 : g < lk.dim 1) {rho T : Fl rd} (hρ : 0 < rho.val) (hT : 0 < T.val)
    (i2 : (lk.grid 2).min.val ≤ meanCoord rho.val ∧ meanCoord rho.val ≤ (lk.grid 2).max.val)
    (i1 : (lk.grid 1).min.val ≤ meanCoord T.val ∧ meanCoord T.val ≤ (lk.grid 1).max.val) :
    Agree u X s M D (MGTables.GroupCoefficient_ lk rho T g) (MGTables.GroupCoefficient_ lk.exact rho.val T.val g) := by
  have hu0 := hr.nonneg
  have a2 := (S.grid 2 (by simp)).1
  have a1 := (S.grid 1 (by simp)).1
  have hs := a1.spacing.1
  obtain ⟨y', y, h1, h2, h3, -⟩ := interp3_err S hd hr hu hτ (along a2 hu0 hX (mean_coord hr hu hρ) i2.1 i2.2)
    (along a1 hu0 hX (mean_coord hr hu hT) i1.1 i1.2) g0 g1
  rw [err_eq] at h3
  have hE0 := err_nonneg hu0 hs hX hM hD
  have e : ∀ x : ℝ, ToLog x = meanCoord x := fun x => by rw [toLog_coordinate, coordinate, MeanTables.SMALL_tiny']; rfl
  refine ⟨rho * FromLog y', rho.val * (10 : ℝ) ^ y, ?_, ?_, by positivity, ?_⟩
  · rw [MGTables.GroupCoefficient_, h1]; rfl
  · rw [MGTables.GroupCoefficient_, e, e, h2]
    simp [FromLog, areal]
  · have c := close_mul hr (Accuracy.Close.refl (δ := 1) hρ.ne') (pow10_err hr h3)
    exact rel_of_close hr hu hs hX hM hD hE (by positivity) c (by linarith [unit_nonneg hr.toRounding])

theorem mean_agree (hr : BinaryRounding rd u) (hu : u ≤ 1 / 100) {lk : DataBox (Fl rd)} (S : Smooth lk [3, 2, 1] X s M D)
    (hX : 1 ≤ X) (hM : 1 ≤ M) (hD : 0 ≤ D) (hτ : 40 * u * X / s ≤ 1 / 100) (hE : Err u X s M D ≤ 1 / 100)
    (hd : lk.rank = 4) (h3 : lk.dim 1 = 3) {sp : RadiationType} {d : ℕ} (hsp : SpeciesIndex sp d) {rho T Ye : Fl rd}
    (hρ : 0 < rho.val) (hT : 0 < T.val)
    (i3 : (lk.grid 3).min.val ≤ meanCoord rho.val ∧ meanCoord rho.val ≤ (lk.grid 3).max.val)
    (i2 : (lk.grid 2).min.val ≤ meanCoord T.val ∧ meanCoord T.val ≤ (lk.grid 2).max.val)
    (i1 : (lk.grid 1).min.val ≤ Ye.val ∧ Ye.val ≤ (lk.grid 1).max.val) :
    Agree u X s M D (MeanTables.lookup lk rho T Ye sp) (MeanTables.lookup lk.exact rho.val T.val Ye.val sp) := by
  have hu0 := hr.nonneg
  have a3 := (S.grid 3 (by simp)).1
  have a2 := (S.grid 2 (by simp)).1
  have a1 := (S.grid 1 (by simp)).1
  have hs := a1.spacing.1
  obtain ⟨hd3, hidx⟩ := hsp.spec
  have hYe : |Ye.val - Ye.val| ≤ u * (4 + |Ye.val|) := by rw [sub_self, abs_zero]; positivity
  obtain ⟨y', y, h1, h2, h3, -⟩ := interp4_err S hd hr hu hτ (along a3 hu0 hX (mean_coord' hr hu hρ) i3.1 i3.2)
    (along a2 hu0 hX (mean_coord' hr hu hT) i2.1 i2.2) (along a1 hu0 hX hYe i1.1 i1.2) (n := d) (by omega) (by omega)
  rw [err_eq] at h3
  have hE0 := err_nonneg hu0 hs hX hM hD
  have e : ∀ x : ℝ, MeanTables.toLog_ x = meanCoord x := MeanTables.toLog_eq
  refine ⟨rho * MeanTables.fromLog_ y', rho.val * (10 : ℝ) ^ y, ?_, ?_, by positivity, ?_⟩
  · simp only [MeanTables.lookup, hidx]; rw [h1]; rfl
  · simp only [MeanTables.lookup, hidx, e]; rw [h2]
    simp [MeanTables.fromLog_, areal]
  · have c := close_mul hr (Accuracy.Close.refl (δ := 1) hρ.ne') (pow10_err hr h3)
    exact rel_of_close hr hu hs hX hM hD hE (by positivity) c (by linarith [unit_nonneg hr.toRounding])

theorem kelvin_pf (hr : BinaryRounding rd u) (hx : 0 < x.val) : PF u 5 (x * SpinerOpacity.K2MeV) (x.val / kelvinPerMeV) := by
  have h1 : PF u 3 (SpinerOpacity.MeV2K : Fl rd) (SpinerOpacity.MeV2K : ℝ) :=
    (PF.mul hr (PF.dec hr 1.e9 (by norm_num)) (PF.dec hr 11.604525006 (by norm_num))).mono hr (by norm_num)
  have h2 : PF u 4 (SpinerOpacity.K2MeV : Fl rd) (SpinerOpacity.K2MeV : ℝ) :=
    (PF.div hr (PF.int hr 1 1 (by norm_num) (by norm_num) (by norm_num)) h1).mono hr (by norm_num)
  have h3 := (PF.mul hr (PF.exact (u := u) x hx) h2).mono hr (show (0 : ℝ) + 4 + 1 ≤ 5 by norm_num)
  rwa [SpinerOpacity.K2MeV_eq, show @HMul.hMul ℝ ℝ ℝ _ x.val (1 / kelvinPerMeV) = x.val / kelvinPerMeV from
    mul_one_div _ _] at h3

theorem hertz_pf (hr : BinaryRounding rd u) {pc : PC (Fl rd)} (hpc : PosConsts pc.exact) (hev : 0 < pc.eV.val)
    (hx : 0 < x.val) : PF u 4 (SpinerOpacity.Hz2MeV pc * x) (x.val / hzPerMeV pc.exact) := by
  have h1 : PF u 3 (SpinerOpacity.Hz2MeV pc) (SpinerOpacity.Hz2MeV pc.exact) :=
    (PF.div hr (PF.exact (u := u) pc.h hpc.h) (PF.mul hr (PF.dec hr 1e6 (by norm_num)) (PF.exact (u := u) pc.eV hev))).mono
      hr (by norm_num)
  have h3 := (PF.mul hr h1 (PF.exact (u := u) x hx)).mono hr (show (3 : ℝ) + 0 + 1 ≤ 4 by norm_num)
  rwa [SpinerOpacity.Hz2MeV_eq, show @HMul.hMul ℝ ℝ ℝ _ (1 / hzPerMeV pc.exact) x.val = x.val / hzPerMeV pc.exact by
    show 1 / hzPerMeV pc.exact * x.val = _
    rw [one_div, inv_mul_eq_div]] at h3

/-- `fromLog_` of tabulated neutrino opacities subtracts zero -/
theorem fromLog_close (hr : BinaryRounding rd u) {y' : Fl rd} {y B : ℝ} (h : |y'.val - y| ≤ B) :
    Accuracy.Close 1 (2.33 * B + unit u + unit u) (SpinerOpacity.fromLog_ y').val ((10 : ℝ) ^ y) := by
  have h0 : rd 0 = 0 := by
    have := hr.err 0
    simpa using this
  have e : (SpinerOpacity.fromLog_ y' : Fl rd).val = rd (Arith.pow (lit 10) y').val := by
    unfold SpinerOpacity.fromLog_
    rw [fl_sub, fl_lit]
    simp [h0]
  rw [e]
  exact close_round hr (pow10_err hr h)

theorem total_agree (hr : BinaryRounding rd u) (hu : u ≤ 1 / 100) {lk : DataBox (Fl rd)} (S : Smooth lk [3, 2, 1] X s M D)
    (hX : 1 ≤ X) (hM : 1 ≤ M) (hD : 0 ≤ D) (hτ : 40 * u * X / s ≤ 1 / 100) (hE : Err u X s M D ≤ 1 / 100)
    (hd : lk.rank = 4) (h3 : lk.dim 1 = 3) {sp : RadiationType} {d : ℕ} (hsp : SpeciesIndex sp d) {rho T Ye : Fl rd}
    (hρ : 0 < rho.val) (hT : 0 < T.val)
    (i3 : (lk.grid 3).min.val ≤ tableCoord rho.val ∧ tableCoord rho.val ≤ (lk.grid 3).max.val)
    (i2 : (lk.grid 2).min.val ≤ tableCoord (T.val / kelvinPerMeV) ∧
      tableCoord (T.val / kelvinPerMeV) ≤ (lk.grid 2).max.val)
    (i1 : (lk.grid 1).min.val ≤ Ye.val ∧ Ye.val ≤ (lk.grid 1).max.val) :
    Agree u X s M D (SpinerOpacity.lookup4 lk rho T Ye sp) (SpinerOpacity.lookup4 lk.exact rho.val T.val Ye.val sp) := by
  have hu0 := hr.nonneg
  have a3 := (S.grid 3 (by simp)).1
  have a2 := (S.grid 2 (by simp)).1
  have a1 := (S.grid 1 (by simp)).1
  have hs := a1.spacing.1
  obtain ⟨hd3, hidx⟩ := hsp.spec
  have hYe : |Ye.val - Ye.val| ≤ u * (4 + |Ye.val|) := by rw [sub_self, abs_zero]; positivity
  obtain ⟨y', y, h1, h2, h3, -⟩ := interp4_err S hd hr hu hτ
    (along a3 hu0 hX (table_coord hr hu (PF.exact rho hρ) le_rfl (by norm_num)) i3.1 i3.2)
    (along a2 hu0 hX (table_coord hr hu (kelvin_pf hr hT) (by norm_num) le_rfl) i2.1 i2.2)
    (along a1 hu0 hX hYe i1.1 i1.2) (n := d) (by omega) (by omega)
  rw [err_eq] at h3
  have hE0 := err_nonneg hu0 hs hX hM hD
  have e : ∀ x : ℝ, SpinerOpacity.toLog_ x = tableCoord x := SpinerOpacity.toLog_eq
  refine ⟨SpinerOpacity.fromLog_ y', (10 : ℝ) ^ y, ?_, ?_, by positivity, ?_⟩
  · simp only [SpinerOpacity.lookup4, hidx]; rw [h1]; rfl
  · simp only [SpinerOpacity.lookup4, hidx, T_coord]; rw [e, h2, map'_ok, SpinerOpacity.fromLog_eq]
  · exact rel_of_close hr hu hs hX hM hD hE (by positivity) (fromLog_close hr h3)
      (by linarith [unit_nonneg hr.toRounding])

theorem spectral_agree (hr : BinaryRounding rd u) (hu : u ≤ 1 / 100) {lk : DataBox (Fl rd)}
    (S : Smooth lk [4, 3, 2, 0] X s M D)
    (hX : 1 ≤ X) (hM : 1 ≤ M) (hD : 0 ≤ D) (hτ : 40 * u * X / s ≤ 1 / 100)
    (o : SpinerOpacity (Fl rd)) (hpc : PosConsts o.pc.exact) (hev : 0 < o.pc.eV.val)
    (hd : lk.rank = 5) (h3 : lk.dim 2 = 3) {sp : RadiationType} {d : ℕ} (hsp : SpeciesIndex sp d) {rho T Ye nu : Fl rd}
    (hρ : 0 < rho.val) (hT : 0 < T.val) (hν : 0 < nu.val)
    (i4 : (lk.grid 4).min.val ≤ tableCoord rho.val ∧ tableCoord rho.val ≤ (lk.grid 4).max.val)
    (i3 : (lk.grid 3).min.val ≤ tableCoord (T.val / kelvinPerMeV) ∧
      tableCoord (T.val / kelvinPerMeV) ≤ (lk.grid 3).max.val)
    (i2 : (lk.grid 2).min.val ≤ Ye.val ∧ Ye.val ≤ (lk.grid 2).max.val)
    (i0 : (lk.grid 0).min.val ≤ tableCoord (nu.val / hzPerMeV o.pc.exact) ∧
      tableCoord (nu.val / hzPerMeV o.pc.exact) ≤ (lk.grid 0).max.val) :
    ∃ a a', o.lookup5 lk rho T Ye sp nu = ok a ∧ o.exact.lookup5 lk.exact rho.val T.val Ye.val sp nu.val = ok a' ∧ 0 < a' ∧
      Accuracy.Close 1 (2.33 * (5.4 * Err u X s M D) + unit u + unit u) a.val a' := by
  have hu0 := hr.nonneg
  have a4 := (S.grid 4 (by simp)).1
  have a3 := (S.grid 3 (by simp)).1
  have a2 := (S.grid 2 (by simp)).1
  have a0 := (S.grid 0 (by simp)).1
  have hs := a3.spacing.1
  obtain ⟨hd3, hidx⟩ := hsp.spec
  have hYe : |Ye.val - Ye.val| ≤ u * (4 + |Ye.val|) := by rw [sub_self, abs_zero]; positivity
  obtain ⟨y', y, h1, h2, h3, -⟩ := interp5_err S hd hr hu hτ
    (along a4 hu0 hX (table_coord hr hu (PF.exact rho hρ) le_rfl (by norm_num)) i4.1 i4.2)
    (along a3 hu0 hX (table_coord hr hu (kelvin_pf hr hT) (by norm_num) le_rfl) i3.1 i3.2)
    (along a2 hu0 hX hYe i2.1 i2.2)
    (along a0 hu0 hX (table_coord hr hu (hertz_pf hr hpc hev hν) (by norm_num) (by norm_num)) i0.1 i0.2)
    (n := d) (by omega) (by omega)
  rw [err_eq] at h3
  have e : ∀ x : ℝ, SpinerOpacity.toLog_ x = tableCoord x := SpinerOpacity.toLog_eq
  refine ⟨SpinerOpacity.fromLog_ y', (10 : ℝ) ^ y, ?_, ?_, by positivity, fromLog_close hr h3⟩
  · simp only [SpinerOpacity.lookup5, hidx]; rw [h1]; rfl
  · simp only [SpinerOpacity.lookup5, hidx, T_coord, nu_coord]; rw [e]
    have : o.exact.pc = o.pc.exact := rfl
    rw [this, h2, map'_ok, SpinerOpacity.fromLog_eq]

end helpers

/-! ## The property -/

/-- C68: a lookup inside a table.  `X` bounds the coordinates at the ends of the grids, `s` their spacing from below, `M`
the logarithms in the table and `D` the difference of neighbours; `u` is the unit roundoff. -/
theorem C68_lookup (hr : BinaryRounding rd u) (hu : u ≤ 1 / 100) {q : TwinQuery rd} (H : TwinTable rd q) {X s M D : ℝ}
    (S : Smooth q.table (q.axes.map Prod.fst) X s M D) (hX : 1 ≤ X) (hM : 1 ≤ M) (hD : 0 ≤ D)
    (hτ : 40 * u * X / s ≤ 1 / 100) (hE : u * (120 * (X / s) * D + 12 * M) ≤ 1 / 100)
    (p : FState rd) (hp : p.Positive) (hin : q.Inside p.exact) :
    ∃ a a', q.rounded p = ok a ∧ q.exact p.exact = ok a' ∧ 0 < a' ∧
      |a.val - a'| ≤ u * (1800 * (X / s) * D + 180 * M) * a' := by
  have fin : ∀ {f : Outcome (Fl rd)} {x : Outcome ℝ}, Agree u X s M D f x →
      ∃ a a', f = ok a ∧ x = ok a' ∧ 0 < a' ∧ |a.val - a'| ≤ u * (1800 * (X / s) * D + 180 * M) * a' := by
    rintro f x ⟨a, a', h1, h2, h3, h4⟩
    refine ⟨a, a', h1, h2, h3, h4.trans (le_of_eq ?_)⟩
    unfold Err; ring
  have hs : 0 < s := by
    cases H <;> exact (S.grid _ (List.mem_cons_self ..)).1.spacing.1
  have hE0 := err_nonneg hr.nonneg hs hX hM hD
  have hu1 := unit_nonneg hr.toRounding
  obtain ⟨hρ, hT, hν⟩ := hp
  cases H with
  | photonPlanck o hd g0 g1 =>
    exact fin (photon_agree hr hu S hX hM hD hτ hE hd g0 g1 hρ hT (hin (2, fun p => meanCoord p.rho) (by simp [photonTwin]))
      (hin (1, fun p => meanCoord p.T) (by simp [photonTwin])))
  | photonRosseland o hd g0 g1 =>
    exact fin (photon_agree hr hu S hX hM hD hτ hE hd g0 g1 hρ hT (hin (2, fun p => meanCoord p.rho) (by simp [photonTwin]))
      (hin (1, fun p => meanCoord p.T) (by simp [photonTwin])))
  | photonSPlanck o hd g0 g1 =>
    exact fin (photon_agree hr hu S hX hM hD hτ hE hd g0 g1 hρ hT (hin (2, fun p => meanCoord p.rho) (by simp [photonTwin]))
      (hin (1, fun p => meanCoord p.T) (by simp [photonTwin])))
  | photonSRosseland o hd g0 g1 =>
    exact fin (photon_agree hr hu S hX hM hD hτ hE hd g0 g1 hρ hT (hin (2, fun p => meanCoord p.rho) (by simp [photonTwin]))
      (hin (1, fun p => meanCoord p.T) (by simp [photonTwin])))
  | planck o hd h3 hsp =>
    exact fin (mean_agree hr hu S hX hM hD hτ hE hd h3 hsp hρ hT (hin (3, fun p => meanCoord p.rho) (by simp [meanTwin]))
      (hin (2, fun p => meanCoord p.T) (by simp [meanTwin])) (hin (1, State.Ye) (by simp [meanTwin])))
  | rosseland o hd h3 hsp =>
    exact fin (mean_agree hr hu S hX hM hD hτ hE hd h3 hsp hρ hT (hin (3, fun p => meanCoord p.rho) (by simp [meanTwin]))
      (hin (2, fun p => meanCoord p.T) (by simp [meanTwin])) (hin (1, State.Ye) (by simp [meanTwin])))
  | planckScattering o hd h3 hsp =>
    exact fin (mean_agree hr hu S hX hM hD hτ hE hd h3 hsp hρ hT (hin (3, fun p => meanCoord p.rho) (by simp [meanTwin]))
      (hin (2, fun p => meanCoord p.T) (by simp [meanTwin])) (hin (1, State.Ye) (by simp [meanTwin])))
  | rosselandScattering o hd h3 hsp =>
    exact fin (mean_agree hr hu S hX hM hD hτ hE hd h3 hsp hρ hT (hin (3, fun p => meanCoord p.rho) (by simp [meanTwin]))
      (hin (2, fun p => meanCoord p.T) (by simp [meanTwin])) (hin (1, State.Ye) (by simp [meanTwin])))
  | emissivity o hd h3 hsp =>
    exact fin (total_agree hr hu S hX hM hD hτ hE hd h3 hsp hρ hT (hin (3, fun p => tableCoord p.rho) (by simp [totalTwin]))
      (hin (2, fun p => tableCoord (p.T / kelvinPerMeV)) (by simp [totalTwin])) (hin (1, State.Ye) (by simp [totalTwin])))
  | numberEmissivity o hd h3 hsp =>
    exact fin (total_agree hr hu S hX hM hD hτ hE hd h3 hsp hρ hT (hin (3, fun p => tableCoord p.rho) (by simp [totalTwin]))
      (hin (2, fun p => tableCoord (p.T / kelvinPerMeV)) (by simp [totalTwin])) (hin (1, State.Ye) (by simp [totalTwin])))
  | absorption o hpc hev hd h3 hsp =>
    obtain ⟨a, a', k1, k2, k3, k4⟩ := spectral_agree hr hu S hX hM hD hτ o hpc hev hd h3 hsp hρ hT hν
      (hin (4, fun p => tableCoord p.rho) (by simp [spectralTwin])) (hin (3, fun p => tableCoord (p.T / kelvinPerMeV)) (by simp [spectralTwin]))
      (hin (2, State.Ye) (by simp [spectralTwin]))
      (hin (0, fun p => tableCoord (p.nu / hzPerMeV o.pc.exact)) (by simp [spectralTwin]))
    exact fin ⟨a, a', k1, k2, k3, rel_of_close hr hu hs hX hM hD hE k3 k4 (by linarith)⟩
  | angleAveraged o hpc hev hd h3 hsp =>
    obtain ⟨a, a', k1, k2, k3, k4⟩ := spectral_agree hr hu S hX hM hD hτ o hpc hev hd h3 hsp hρ hT hν
      (hin (4, fun p => tableCoord p.rho) (by simp [spectralTwin])) (hin (3, fun p => tableCoord (p.T / kelvinPerMeV)) (by simp [spectralTwin]))
      (hin (2, State.Ye) (by simp [spectralTwin]))
      (hin (0, fun p => tableCoord (p.nu / hzPerMeV o.pc.exact)) (by simp [spectralTwin]))
    exact fin ⟨a, a', k1, k2, k3, rel_of_close hr hu hs hX hM hD hE k3 k4 (by linarith)⟩
  | perNuOmega o hpc hev hd h3 hsp =>
    obtain ⟨a, a', k1, k2, k3, k4⟩ := spectral_agree hr hu S hX hM hD hτ o hpc hev hd h3 hsp hρ hT hν
      (hin (4, fun p => tableCoord p.rho) (by simp [spectralTwin])) (hin (3, fun p => tableCoord (p.T / kelvinPerMeV)) (by simp [spectralTwin]))
      (hin (2, State.Ye) (by simp [spectralTwin]))
      (hin (0, fun p => tableCoord (p.nu / hzPerMeV o.pc.exact)) (by simp [spectralTwin]))
    exact fin ⟨a, a', k1, k2, k3, rel_of_close hr hu hs hX hM hD hE k3 k4 (by linarith)⟩
  | perNu o hpc hev hd h3 hsp =>
    obtain ⟨a, a', k1, k2, k3, k4⟩ := spectral_agree hr hu S hX hM hD hτ o hpc hev hd h3 hsp hρ hT hν
      (hin (4, fun p => tableCoord p.rho) (by simp [spectralTwin])) (hin (3, fun p => tableCoord (p.T / kelvinPerMeV)) (by simp [spectralTwin]))
      (hin (2, State.Ye) (by simp [spectralTwin]))
      (hin (0, fun p => tableCoord (p.nu / hzPerMeV o.pc.exact)) (by simp [spectralTwin]))
    have c4 : PF u 2 (lit 4 * Arith.pi : Fl rd) (4 * Real.pi) := by
      have := (PF.mul hr (PF.int hr 4 4 (by norm_num) (by norm_num) (by norm_num)) (PF.pi hr)).mono hr
        (show (0 : ℝ) + 1 + 1 ≤ 2 by norm_num)
      simpa [areal] using this
    have c := close_mul hr (close_one c4.2 (le_refl (2 * unit u))) k4
    refine fin ⟨lit 4 * Arith.pi * a, 4 * Real.pi * a', ?_, ?_, by have := Real.pi_pos; positivity,
      rel_of_close hr hu hs hX hM hD hE (by have := Real.pi_pos; positivity) c (by linarith)⟩
    · show (o.lookup5 o.ljnu_ p.rho p.T p.Ye _ p.nu).map' _ = _
      rw [show o.lookup5 o.ljnu_ p.rho p.T p.Ye _ p.nu = ok a from k1]; rfl
    · show (o.exact.lookup5 o.ljnu_.exact p.rho.val p.T.val p.Ye.val _ p.nu.val).map' _ = _
      rw [show o.exact.lookup5 o.ljnu_.exact p.rho.val p.T.val p.Ye.val _ p.nu.val = ok a' from k2, map'_ok]
      simp [areal]

/-- C68 in double precision: tables over forty decades on either side of one, with at most a hundred nodes per decade and
neighbours within a factor of ten, are looked up to a relative accuracy of `10⁻⁹`. -/
theorem C68_double {q : TwinQuery rn53} (H : TwinTable rn53 q)
    (S : Smooth q.table (q.axes.map Prod.fst) 40 (1 / 100) 308 1)
    (p : FState rn53) (hp : p.Positive) (hin : q.Inside p.exact) :
    ∃ a a', q.rounded p = ok a ∧ q.exact p.exact = ok a' ∧ 0 < a' ∧ |a.val - a'| ≤ 1e-9 * a' := by
  obtain ⟨a, a', h1, h2, h3, h4⟩ := C68_lookup rn53_binary (by norm_num) H S (by norm_num) (by norm_num) (by norm_num)
    (by norm_num) (by norm_num) p hp hin
  refine ⟨a, a', h1, h2, h3, h4.trans ?_⟩
  have : (2 : ℝ) ^ (-53 : ℤ) * (1800 * (40 / (1 / 100)) * 1 + 180 * 308) ≤ 1e-9 := by norm_num
  exact mul_le_mul_of_nonneg_right this h3.le

/-! ## The hypotheses are met -/

/-- a table of two densities, two temperatures and two groups -/
noncomputable def exTable : DataBox (Fl rn53) := ⟨[2, 2, 2], fun _ => ⟨⟨-10⟩, ⟨10⟩, 2⟩, fun i => ⟨if i % 3 = 0 then 1 else 2⟩⟩

theorem exTable_smooth : Smooth exTable [2, 1] 40 (1 / 100) 308 1 := by
  have v : ∀ is v, exTable.exact.read is = ok v → v = 1 ∨ v = 2 := by
    intro is v h
    obtain ⟨o, -, h⟩ := bind_eq_ok.1 h
    cases h
    show (if o.toNat % 3 = 0 then (1 : ℝ) else 2) = 1 ∨ (if o.toNat % 3 = 0 then (1 : ℝ) else 2) = 2
    split <;> simp
  refine ⟨fun k hk => ⟨⟨?_, ?_, ?_, ?_, ?_⟩, ?_⟩, ?_, ?_⟩
  · show (2 : ℤ) ≤ 2
    norm_num
  · show (2 : ℤ) ≤ 2 ^ 24
    norm_num
  · show |(-10 : ℝ)| ≤ 40
    norm_num
  · show |(10 : ℝ)| ≤ 40
    norm_num
  · show (0 : ℝ) < 1 / 100 ∧ (1 / 100 : ℝ) * (((2 : ℤ) : ℝ) - 1) ≤ 10 - (-10)
    norm_num
  · simp only [List.mem_cons, List.not_mem_nil, or_false] at hk
    rcases hk with rfl | rfl <;> rfl
  · intro is w h
    rcases v is w h with rfl | rfl <;> norm_num
  · intro k _ is w w' h h'
    rcases v is w h with rfl | rfl <;> rcases v _ w' h' with rfl | rfl <;> norm_num

/-- the state with density and temperature one, in the second group -/
example (pc : PC (Fl rn53)) : ∃ (a : Fl rn53) (a' : ℝ), MeanPhotonAPI.PlanckGroupAbsorptionCoefficient
      (⟨pc, ⟨exTable, exTable, [], 2⟩⟩ : Photons.MeanOpacityBase (Fl rn53)) (⟨1⟩ : Fl rn53) (⟨1⟩ : Fl rn53) 1 = ok a ∧
    MeanPhotonAPI.PlanckGroupAbsorptionCoefficient
      (⟨pc, ⟨exTable, exTable, [], 2⟩⟩ : Photons.MeanOpacityBase (Fl rn53)).exact (1 : ℝ) (1 : ℝ) 1 = ok a' ∧ 0 < a' ∧
    |a.val - a'| ≤ 1e-9 * a' := by
  have H := TwinTable.photonPlanck (⟨pc, ⟨exTable, exTable, [], 2⟩⟩ : Photons.MeanOpacityBase (Fl rn53)) (g := 1) rfl
    (by norm_num) (by show (1 : ℤ) < 2; norm_num)
  refine C68_double H exTable_smooth ⟨⟨1⟩, ⟨1⟩, ⟨0⟩, ⟨1⟩⟩ ⟨one_pos, one_pos, one_pos⟩ ?_
  have m : -10 ≤ meanCoord 1 ∧ meanCoord 1 ≤ 10 := by
    unfold meanCoord
    constructor
    · refine le_trans (by norm_num) (Real.logb_nonneg (by norm_num) ?_)
      rw [abs_one]
      linarith [SpinerOpacity.tiny_pos]
    · rw [Real.logb_le_iff_le_rpow (by norm_num) (by rw [abs_one]; linarith [SpinerOpacity.tiny_pos]), abs_one]
      have := SpinerOpacity.tiny_le_one
      norm_num
      linarith
  intro a ha
  simp only [photonTwin, List.mem_cons, List.not_mem_nil, or_false] at ha
  rcases ha with rfl | rfl <;> exact m

end Opac.Tables
