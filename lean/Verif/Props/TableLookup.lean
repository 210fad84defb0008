import Verif.Lemmas.Interp
import Verif.Props.MeanObjects
import Verif.Props.SpinerFill
import Verif.Props.NeutrinoMeans

/-!
# C56-C59: looking up tabulated opacities, photons and neutrinos

Over the reals.  `Query` below lists every function of the API that answers from a table, and says which table, along
which axes and with which factor it answers.  The theorems then hold of each of them:

* C56 every answer is a continuous function of density, temperature, electron fraction and frequency;
* C57 every answer lies between the entries at the corners of the surrounding cell, and is positive everywhere;
* C58 if the entries do not decrease along an axis, neither do the answers;
* C59 beyond the ends of a table the logarithm of the answer continues linearly.
-/

namespace Opac.Tables
open Arith Outcome Spec Spiner Photons Neutrinos
open SpinerOpacity (tiny kelvinPerMeV hzPerMeV)

/-! ## Specification -/

/-- density, temperature, electron fraction, frequency -/
structure State where
  rho : ℝ
  T : ℝ
  Ye : ℝ
  nu : ℝ

/-- the topology of four real numbers -/
instance : TopologicalSpace State :=
  TopologicalSpace.induced (fun p : State => (p.rho, p.T, p.Ye, p.nu)) inferInstance

/-- a function of the API that answers from a table -/
structure Query where
  /-- what the call returns -/
  answer : State → Outcome ℝ
  /-- the table -/
  table : DataBox ℝ
  /-- its interpolated axes -/
  axes : List (Grid ℝ)
  /-- the coordinates of a state along these axes -/
  coords : List (State → ℝ)
  /-- the place in the table of an index tuple of the axes (the other index is the group or the species) -/
  place : List ℤ → List ℤ
  /-- the answer is an opacity times this -/
  factor : State → ℝ

/-- the entry of the table at an index tuple of the axes -/
def Query.Entry (q : Query) (is : List ℤ) (v : ℝ) : Prop :=
  ∃ l, q.table.read (q.place is) = ok l ∧ v = (10 : ℝ) ^ l

/-- the coordinates of a state -/
def Query.at (q : Query) (p : State) : List ℝ := q.coords.map fun c => c p

/-- logarithmic coordinate with a floor, as photon and neutrino mean opacities use it -/
noncomputable def meanCoord (x : ℝ) : ℝ := Real.logb 10 (|x| + tiny)
/-- logarithmic coordinate with a floor, as tabulated neutrino opacities use it -/
noncomputable def tableCoord (x : ℝ) : ℝ := Real.logb 10 (max x 0 + tiny)

/-- photon mean opacities: table `lk`, group `g` -/
noncomputable def photonQuery (lk : DataBox ℝ) (g : ℕ) (answer : State → Outcome ℝ) : Query where
  answer := answer
  table := lk
  axes := [lk.grid 2, lk.grid 1]
  coords := [fun p => meanCoord p.rho, fun p => meanCoord p.T]
  place := fun is => is ++ [(g : ℤ)]
  factor := State.rho

/-- neutrino mean opacities: table `lk`, species index `d` -/
noncomputable def meanQuery (lk : DataBox ℝ) (d : ℕ) (answer : State → Outcome ℝ) : Query where
  answer := answer
  table := lk
  axes := [lk.grid 3, lk.grid 2, lk.grid 1]
  coords := [fun p => meanCoord p.rho, fun p => meanCoord p.T, State.Ye]
  place := fun is => is ++ [(d : ℤ)]
  factor := State.rho

/-- total emissivities of tabulated neutrino opacities -/
noncomputable def totalQuery (lk : DataBox ℝ) (d : ℕ) (answer : State → Outcome ℝ) : Query where
  answer := answer
  table := lk
  axes := [lk.grid 3, lk.grid 2, lk.grid 1]
  coords := [fun p => tableCoord p.rho, fun p => tableCoord (p.T / kelvinPerMeV), State.Ye]
  place := fun is => is ++ [(d : ℤ)]
  factor := fun _ => 1

/-- spectral functions of tabulated neutrino opacities -/
noncomputable def spectralQuery (pc : PC ℝ) (lk : DataBox ℝ) (d : ℕ) (factor : ℝ) (answer : State → Outcome ℝ) : Query where
  answer := answer
  table := lk
  axes := [lk.grid 4, lk.grid 3, lk.grid 2, lk.grid 0]
  coords := [fun p => tableCoord p.rho, fun p => tableCoord (p.T / kelvinPerMeV), State.Ye,
    fun p => tableCoord (p.nu / hzPerMeV pc)]
  place := fun is => is.take 3 ++ [(d : ℤ)] ++ is.drop 3
  factor := fun _ => factor

/-- the photon object's two tables lie on grids with at least two increasing nodes -/
def OnProperGrids (o : MeanObject ℝ) : Prop := OnGrids o.table

/-- a rank-4 neutrino table on grids with at least two increasing nodes, for three species -/
structure Proper4 (lk : DataBox ℝ) : Prop where
  dims : lk.dims = [(lk.grid 3).N, (lk.grid 2).N, (lk.grid 1).N, 3]
  proper : Proper (lk.grid 3) ∧ Proper (lk.grid 2) ∧ Proper (lk.grid 1)

/-- a rank-5 neutrino table on grids with at least two increasing nodes, for three species -/
structure Proper5 (lk : DataBox ℝ) : Prop where
  dims : lk.dims = [(lk.grid 4).N, (lk.grid 3).N, (lk.grid 2).N, 3, (lk.grid 0).N]
  proper : Proper (lk.grid 4) ∧ Proper (lk.grid 3) ∧ Proper (lk.grid 2) ∧ Proper (lk.grid 0)

/-- the index of a species in a table -/
inductive SpeciesIndex : RadiationType → ℕ → Prop
  | e : SpeciesIndex .NU_ELECTRON 0
  | ebar : SpeciesIndex .NU_ELECTRON_ANTI 1
  | x : SpeciesIndex .NU_HEAVY 2

/-- every function of the API that answers from a table -/
inductive FromTable : Query → Prop
  | photonPlanck (o : MeanObject ℝ) (g : ℕ) : OnProperGrids o → g < o.ngroups →
      FromTable (photonQuery o.table.lPlanck g fun p => o.Planck p.rho p.T g)
  | photonRosseland (o : MeanObject ℝ) (g : ℕ) : OnProperGrids o → g < o.ngroups →
      FromTable (photonQuery o.table.lRosseland g fun p => o.Rosseland p.rho p.T g)
  | photonPlanckMode (o : MeanObject ℝ) (g : ℕ) : OnProperGrids o → g < o.ngroups →
      FromTable (photonQuery o.table.lPlanck g fun p => o.Coefficient p.rho p.T g gmodePlanck)
  | photonRosselandMode (o : MeanObject ℝ) (g : ℕ) : OnProperGrids o → g < o.ngroups →
      FromTable (photonQuery o.table.lRosseland g fun p => o.Coefficient p.rho p.T g gmodeRosseland)
  | planck (o : Neutrinos.MeanOpacityBase ℝ) {s : RadiationType} {d : ℕ} : Proper4 o.t.lPlanck → SpeciesIndex s d →
      FromTable (meanQuery o.t.lPlanck d fun p =>
        MeanNeutrinoAPI.PlanckMeanAbsorptionCoefficient o p.rho p.T p.Ye s)
  | rosseland (o : Neutrinos.MeanOpacityBase ℝ) {s : RadiationType} {d : ℕ} : Proper4 o.t.lRosseland → SpeciesIndex s d →
      FromTable (meanQuery o.t.lRosseland d fun p =>
        MeanNeutrinoAPI.RosselandMeanAbsorptionCoefficient o p.rho p.T p.Ye s)
  | planckScattering (o : Neutrinos.MeanSOpacityBase ℝ) {s : RadiationType} {d : ℕ} : Proper4 o.t.lPlanck → SpeciesIndex s d →
      FromTable (meanQuery o.t.lPlanck d fun p =>
        MeanNeutrinoSAPI.PlanckMeanTotalScatteringCoefficient o p.rho p.T p.Ye s)
  | rosselandScattering (o : Neutrinos.MeanSOpacityBase ℝ) {s : RadiationType} {d : ℕ} : Proper4 o.t.lRosseland →
      SpeciesIndex s d →
      FromTable (meanQuery o.t.lRosseland d fun p =>
        MeanNeutrinoSAPI.RosselandMeanTotalScatteringCoefficient o p.rho p.T p.Ye s)
  | emissivity (o : SpinerOpacity ℝ) {s : RadiationType} {d : ℕ} : Proper4 o.lJ_ → SpeciesIndex s d →
      FromTable (totalQuery o.lJ_ d fun p => o.Emissivity p.rho p.T p.Ye s)
  | numberEmissivity (o : SpinerOpacity ℝ) {s : RadiationType} {d : ℕ} : Proper4 o.lJYe_ → SpeciesIndex s d →
      FromTable (totalQuery o.lJYe_ d fun p => o.NumberEmissivity p.rho p.T p.Ye s)
  | absorption (o : SpinerOpacity ℝ) {s : RadiationType} {d : ℕ} : Proper5 o.lalphanu_ → SpeciesIndex s d →
      FromTable (spectralQuery o.pc o.lalphanu_ d 1 fun p => o.AbsorptionCoefficient p.rho p.T p.Ye s p.nu)
  | angleAveraged (o : SpinerOpacity ℝ) {s : RadiationType} {d : ℕ} : Proper5 o.lalphanu_ → SpeciesIndex s d →
      FromTable (spectralQuery o.pc o.lalphanu_ d 1 fun p => o.AngleAveragedAbsorptionCoefficient p.rho p.T p.Ye s p.nu)
  | perNuOmega (o : SpinerOpacity ℝ) {s : RadiationType} {d : ℕ} : Proper5 o.ljnu_ → SpeciesIndex s d →
      FromTable (spectralQuery o.pc o.ljnu_ d 1 fun p => o.EmissivityPerNuOmega p.rho p.T p.Ye s p.nu)
  | perNu (o : SpinerOpacity ℝ) {s : RadiationType} {d : ℕ} : Proper5 o.ljnu_ → SpeciesIndex s d →
      FromTable (spectralQuery o.pc o.ljnu_ d (4 * Real.pi) fun p => o.EmissivityPerNu p.rho p.T p.Ye s p.nu)

/-! ## Helpers -/

/-- what the proofs use of a query -/
structure Query.Good (q : Query) : Prop where
  proper : ∀ g ∈ q.axes, Proper g
  length : q.coords.length = q.axes.length
  reads : ∀ is, Indexes q.axes is → ∃ l, q.table.read (q.place is) = ok l
  answer : ∀ p, q.answer p =
    (mlerp q.axes (fun is => q.table.read (q.place is)) (q.at p)).map' fun l => q.factor p * (10 : ℝ) ^ l
  coords : ∀ c ∈ q.coords, Continuous c
  factor : Continuous q.factor

theorem continuous_state : Continuous fun p : State => (p.rho, p.T, p.Ye, p.nu) := continuous_induced_dom
theorem continuous_rho : Continuous State.rho := continuous_fst.comp continuous_state
theorem continuous_T : Continuous State.T := (continuous_fst.comp continuous_snd).comp continuous_state
theorem continuous_Ye : Continuous State.Ye :=
  (continuous_fst.comp (continuous_snd.comp continuous_snd)).comp continuous_state
theorem continuous_nu : Continuous State.nu :=
  (continuous_snd.comp (continuous_snd.comp continuous_snd)).comp continuous_state

theorem continuous_logb {X : Type*} [TopologicalSpace X] {f : X → ℝ} (hf : Continuous f) (h0 : ∀ x, f x ≠ 0) :
    Continuous fun x => Real.logb 10 (f x) := by
  unfold Real.logb
  exact (hf.log h0).div_const _

theorem continuous_meanCoord : Continuous meanCoord := by
  have ht := SpinerOpacity.tiny_pos
  exact continuous_logb (by fun_prop) fun x => by have := abs_nonneg x; linarith

theorem continuous_tableCoord : Continuous tableCoord := by
  have ht := SpinerOpacity.tiny_pos
  exact continuous_logb (by fun_prop) fun x => by have := le_max_right x 0; linarith

theorem map'_map' {α β γ : Type} (x : Outcome α) (f : α → β) (g : β → γ) :
    (x.map' f).map' g = x.map' fun a => g (f a) := by cases x <;> rfl

theorem photon_good {lk : DataBox ℝ} {n g : ℕ} (hd : lk.dims = [(lk.grid 2).N, (lk.grid 1).N, (n : ℤ)])
    (h2 : Proper (lk.grid 2)) (h1 : Proper (lk.grid 1)) (hg : g < n) {a : State → Outcome ℝ}
    (ha : ∀ p, a p = MGTables.GroupCoefficient_ lk p.rho p.T g) : (photonQuery lk g a).Good where
  proper := by simp [photonQuery, h1, h2]
  length := rfl
  reads := by
    intro is his
    rcases is with _ | ⟨i, _ | ⟨j, _ | ⟨k, is⟩⟩⟩ <;> simp only [photonQuery, Indexes, and_false] at his
    obtain ⟨hi, hj, -⟩ := his
    refine read_ok lk _ ?_
    rw [hd]
    exact ⟨hi, hj, ⟨by omega, by omega⟩, trivial⟩
  answer := by
    intro p
    show a p = _
    rw [ha]
    have e : ∀ x : ℝ, ToLog x = meanCoord x := fun x => by rw [toLog_coordinate, coordinate, MeanTables.SMALL_tiny']; rfl
    have hf : ∀ l : ℝ, FromLog l = (10 : ℝ) ^ l := by intro l; simp [FromLog, areal]
    simp only [MGTables.GroupCoefficient_, e, hf]
    rfl
  coords := by
    intro c hc
    simp only [photonQuery, List.mem_cons, List.not_mem_nil, or_false] at hc
    rcases hc with rfl | rfl
    · exact continuous_meanCoord.comp continuous_rho
    · exact continuous_meanCoord.comp continuous_T
  factor := continuous_rho

theorem four_reads {lk : DataBox ℝ} (h : Proper4 lk) {d : ℕ} (hd : d < 3) (is : List ℤ)
    (his : Indexes [lk.grid 3, lk.grid 2, lk.grid 1] is) : ∃ l, lk.read (is ++ [(d : ℤ)]) = ok l := by
  rcases is with _ | ⟨i, _ | ⟨j, _ | ⟨k, _ | ⟨m, is⟩⟩⟩⟩ <;> simp only [Indexes, and_false] at his
  obtain ⟨hi, hj, hk, -⟩ := his
  refine read_ok lk _ ?_
  rw [h.dims]
  exact ⟨hi, hj, hk, ⟨by omega, by omega⟩, trivial⟩

theorem SpeciesIndex.spec {s : RadiationType} {d : ℕ} (h : SpeciesIndex s d) : d < 3 ∧ RadType2Idx s = (d : ℤ) := by
  cases h <;> exact ⟨by omega, rfl⟩

theorem mean_good {lk : DataBox ℝ} (h : Proper4 lk) {s : RadiationType} {d : ℕ} (hs : SpeciesIndex s d)
    {a : State → Outcome ℝ} (ha : ∀ p, a p = MeanTables.lookup lk p.rho p.T p.Ye s) : (meanQuery lk d a).Good where
  proper := by simp [meanQuery, h.proper]
  length := rfl
  reads := four_reads h hs.spec.1
  answer := by
    intro p
    show a p = _
    rw [ha]
    have e : ∀ x : ℝ, MeanTables.toLog_ x = meanCoord x := MeanTables.toLog_eq
    simp only [MeanTables.lookup, e, MeanTables.fromLog_eq, hs.spec.2]
    rfl
  coords := by
    intro c hc
    simp only [meanQuery, List.mem_cons, List.not_mem_nil, or_false] at hc
    rcases hc with rfl | rfl | rfl
    · exact continuous_meanCoord.comp continuous_rho
    · exact continuous_meanCoord.comp continuous_T
    · exact continuous_Ye
  factor := continuous_rho

theorem T_coord (T : ℝ) : SpinerOpacity.toLog_ (T * SpinerOpacity.K2MeV) = tableCoord (T / kelvinPerMeV) := by
  rw [SpinerOpacity.K2MeV_eq, SpinerOpacity.toLog_eq]
  unfold tableCoord
  rw [mul_one_div]

theorem nu_coord (pc : PC ℝ) (nu : ℝ) :
    SpinerOpacity.toLog_ (SpinerOpacity.Hz2MeV pc * nu) = tableCoord (nu / hzPerMeV pc) := by
  rw [SpinerOpacity.Hz2MeV_eq, SpinerOpacity.toLog_eq]
  unfold tableCoord
  rw [one_div, inv_mul_eq_div]

theorem total_good {lk : DataBox ℝ} (h : Proper4 lk) {s : RadiationType} {d : ℕ} (hs : SpeciesIndex s d)
    {a : State → Outcome ℝ} (ha : ∀ p, a p = SpinerOpacity.lookup4 lk p.rho p.T p.Ye s) : (totalQuery lk d a).Good where
  proper := by simp [totalQuery, h.proper]
  length := rfl
  reads := four_reads h hs.spec.1
  answer := by
    intro p
    show a p = _
    rw [ha]
    have e : ∀ x : ℝ, SpinerOpacity.toLog_ x = tableCoord x := SpinerOpacity.toLog_eq
    simp only [SpinerOpacity.lookup4, T_coord, hs.spec.2, totalQuery, one_mul]
    simp only [e]
    have : (SpinerOpacity.fromLog_ : ℝ → ℝ) = fun l => (10 : ℝ) ^ l := funext SpinerOpacity.fromLog_eq
    rw [this]
    rfl
  coords := by
    intro c hc
    simp only [totalQuery, List.mem_cons, List.not_mem_nil, or_false] at hc
    rcases hc with rfl | rfl | rfl
    · exact continuous_tableCoord.comp continuous_rho
    · exact continuous_tableCoord.comp (continuous_T.div_const _)
    · exact continuous_Ye
  factor := continuous_const

theorem spectral_good {pc : PC ℝ} {lk : DataBox ℝ} (h : Proper5 lk) {s : RadiationType} {d : ℕ} (hs : SpeciesIndex s d)
    {o : SpinerOpacity ℝ} (hpc : o.pc = pc) {c : ℝ}
    {a : State → Outcome ℝ} (ha : ∀ p, a p = (o.lookup5 lk p.rho p.T p.Ye s p.nu).map' fun x => c * x) :
    (spectralQuery pc lk d c a).Good where
  proper := by simp [spectralQuery, h.proper]
  length := rfl
  reads := by
    intro is his
    rcases is with _ | ⟨i, _ | ⟨j, _ | ⟨k, _ | ⟨m, _ | ⟨n, is⟩⟩⟩⟩⟩ <;> simp only [spectralQuery, Indexes, and_false] at his
    obtain ⟨hi, hj, hk, hm, -⟩ := his
    refine read_ok lk _ ?_
    rw [h.dims]
    have := hs.spec.1
    exact ⟨hi, hj, hk, ⟨by omega, by omega⟩, hm, trivial⟩
  answer := by
    intro p
    show a p = _
    rw [ha]
    have e : ∀ x : ℝ, SpinerOpacity.toLog_ x = tableCoord x := SpinerOpacity.toLog_eq
    simp only [SpinerOpacity.lookup5, T_coord, nu_coord, hs.spec.2, spectralQuery, hpc]
    simp only [e]
    have : (SpinerOpacity.fromLog_ : ℝ → ℝ) = fun l => (10 : ℝ) ^ l := funext SpinerOpacity.fromLog_eq
    rw [this, map'_map']
    rfl
  coords := by
    intro c hc
    simp only [spectralQuery, List.mem_cons, List.not_mem_nil, or_false] at hc
    rcases hc with rfl | rfl | rfl | rfl
    · exact continuous_tableCoord.comp continuous_rho
    · exact continuous_tableCoord.comp (continuous_T.div_const _)
    · exact continuous_Ye
    · exact continuous_tableCoord.comp (continuous_nu.div_const _)
  factor := continuous_const

theorem map'_one_mul (x : Outcome ℝ) : x = x.map' fun a => 1 * a := by cases x <;> simp [map']

theorem object_good {o : MeanObject ℝ} {g : ℕ} (h : OnProperGrids o) (hg : g < o.ngroups) {lk : DataBox ℝ}
    (hlk : lk = o.table.lPlanck ∨ lk = o.table.lRosseland) {a : State → Outcome ℝ}
    (ha : ∀ p, a p = MGTables.GroupCoefficient_ lk p.rho p.T g) : (photonQuery lk g a).Good := by
  have hn : o.ngroups = o.table.ngroups := by cases o <;> rfl
  exact photon_good (h.dims lk hlk) ⟨h.nodes lk hlk 2 (.inr rfl), h.increasing lk hlk 2 (.inr rfl)⟩
    ⟨h.nodes lk hlk 1 (.inl rfl), h.increasing lk hlk 1 (.inl rfl)⟩ (by rw [← hn]; exact hg) ha

theorem FromTable.good {q : Query} (h : FromTable q) : q.Good := by
  cases h with
  | photonPlanck o g h hg => exact object_good h hg (.inl rfl) fun p => by cases o <;> rfl
  | photonRosseland o g h hg => exact object_good h hg (.inr rfl) fun p => by cases o <;> rfl
  | photonPlanckMode o g h hg => exact object_good h hg (.inl rfl) fun p => by cases o <;> rfl
  | photonRosselandMode o g h hg => exact object_good h hg (.inr rfl) fun p => by cases o <;> rfl
  | planck o h hs => exact mean_good h hs fun p => rfl
  | rosseland o h hs => exact mean_good h hs fun p => rfl
  | planckScattering o h hs => exact mean_good h hs fun p => rfl
  | rosselandScattering o h hs => exact mean_good h hs fun p => rfl
  | emissivity o h hs => exact total_good h hs fun p => rfl
  | numberEmissivity o h hs => exact total_good h hs fun p => rfl
  | absorption o h hs => exact spectral_good h hs rfl fun p => map'_one_mul _
  | angleAveraged o h hs => exact spectral_good h hs rfl fun p => map'_one_mul _
  | perNuOmega o h hs => exact spectral_good h hs rfl fun p => map'_one_mul _
  | perNu o h hs =>
    refine spectral_good h hs rfl fun p => ?_
    show Outcome.map' _ _ = _
    congr 1

/-- the answer in closed form -/
theorem Query.Good.closed {q : Query} (h : q.Good) : ∃ v : List ℤ → ℝ,
    (∀ is, Indexes q.axes is → q.table.read (q.place is) = ok (v is)) ∧
    ∀ p, q.answer p = ok (q.factor p * (10 : ℝ) ^ mlin q.axes v (q.at p)) := by
  have hr : ∀ is, ∃ l, Indexes q.axes is → q.table.read (q.place is) = ok l := by
    intro is
    by_cases hi : Indexes q.axes is
    · obtain ⟨l, hl⟩ := h.reads is hi
      exact ⟨l, fun _ => hl⟩
    · exact ⟨0, fun hh => absurd hh hi⟩
  choose v hv using hr
  refine ⟨v, hv, fun p => ?_⟩
  rw [h.answer, mlerp_mlin q.axes (q.at p) _ v h.proper (by simp [Query.at, h.length]) hv, map'_ok]

/-! ## C56 -/

/-- **C56**: every function that answers from a table returns for every state, inside the table or not, and the answer
is a continuous function of the state: there are no jumps at cell boundaries or at the ends of the table -/
theorem C56_continuous {q : Query} (h : FromTable q) : ∃ F : State → ℝ, Continuous F ∧ ∀ p, q.answer p = ok (F p) := by
  obtain ⟨v, -, hv⟩ := h.good.closed
  refine ⟨_, ?_, hv⟩
  refine h.good.factor.mul (Continuous.rpow continuous_const ?_ fun _ => .inl (by norm_num))
  exact continuous_mlin q.axes (fun _ => v) q.coords (fun _ => continuous_const) h.good.coords

/-! ## C57 -/

/-- the corners of a cell are indexes of the table -/
theorem corner_indexes : ∀ (gs : List (Grid ℝ)) (cs : List ℕ) (xs : List ℝ) (is : List ℤ), InCell gs cs xs → Corner cs is →
    Indexes gs is := by
  intro gs
  induction gs with
  | nil =>
    intro cs xs is h1 h2
    rcases cs with _ | ⟨c, cs⟩
    · rcases is with _ | _ <;> simp_all [Corner, Indexes]
    · rcases xs with _ | _ <;> simp [InCell] at h1
  | cons g gs ih =>
    intro cs xs is h1 h2
    rcases cs with _ | ⟨c, cs⟩
    · simp [InCell] at h1
    rcases xs with _ | ⟨x, xs⟩
    · simp [InCell] at h1
    rcases is with _ | ⟨i, is⟩
    · simp [Corner] at h2
    refine ⟨?_, ih cs xs is h1.2 h2.2⟩
    rcases h2.1 with rfl | rfl
    · exact ⟨by omega, by have := h1.1.1; omega⟩
    · exact ⟨by omega, by have := h1.1.1; omega⟩

/-- **C57 (between the corners)**: in every cell that contains the state, the opacity lies between any bounds that hold
for the entries at the corners of the cell -/
theorem C57_between {q : Query} (h : FromTable q) (p : State) {cell : List ℕ} (hc : InCell q.axes cell (q.at p))
    {lo hi : ℝ} (hlo : 0 < lo) (hb : ∀ is v, Corner cell is → q.Entry is v → lo ≤ v ∧ v ≤ hi) :
    ∃ k, q.answer p = ok (q.factor p * k) ∧ lo ≤ k ∧ k ≤ hi := by
  obtain ⟨v, hv, he⟩ := h.good.closed
  have hlog : ∀ is, Corner cell is → Real.logb 10 lo ≤ v is ∧ v is ≤ Real.logb 10 hi := by
    intro is his
    obtain ⟨h1, h2⟩ := hb is _ his ⟨_, hv is (corner_indexes _ _ _ _ hc his), rfl⟩
    constructor
    · rwa [Real.logb_le_iff_le_rpow (by norm_num) hlo]
    · rwa [Real.le_logb_iff_rpow_le (by norm_num) (lt_of_lt_of_le (by positivity) h2)]
  obtain ⟨h1, h2⟩ := mlin_cell h.good.proper hc hlog
  refine ⟨_, he p, ?_, ?_⟩
  · rwa [← Real.logb_le_iff_le_rpow (by norm_num) hlo]
  · have hhi : 0 < hi := by
      obtain ⟨is, his⟩ : ∃ is, Corner cell is := by
        clear hc hb hlog h1 h2
        induction cell with
        | nil => exact ⟨[], trivial⟩
        | cons c cs ih =>
          obtain ⟨is, his⟩ := ih
          exact ⟨(c : ℤ) :: is, .inl rfl, his⟩
      have := hb is _ his ⟨_, hv is (corner_indexes _ _ _ _ hc his), rfl⟩
      linarith
    rwa [← Real.le_logb_iff_rpow_le (by norm_num) hhi]

/-- **C57 (positive)**: the answer is positive in every state of positive density, inside the table or not -/
theorem C57_positive {q : Query} (h : FromTable q) (p : State) (hρ : 0 < p.rho) : ∃ a, q.answer p = ok a ∧ 0 < a := by
  obtain ⟨v, hv, he⟩ := h.good.closed
  refine ⟨_, he p, mul_pos ?_ (by positivity)⟩
  cases h with
  | perNu _ _ _ => show 0 < 4 * Real.pi; positivity
  | emissivity _ _ _ => exact one_pos
  | numberEmissivity _ _ _ => exact one_pos
  | absorption _ _ _ => exact one_pos
  | angleAveraged _ _ _ => exact one_pos
  | perNuOmega _ _ _ => exact one_pos
  | _ => exact hρ

/-! ## C58 -/

/-- **C58**: if no entry is larger than the next one along an axis, then the opacity does not decrease along that axis,
not even beyond its ends, as long as the state is inside the table along the other axes -/
theorem C58_monotone {q : Query} (h : FromTable q) {m : ℕ} (hm : m < q.axes.length)
    (hinc : ∀ is i v w, is[m]? = some i → q.Entry is v → q.Entry (is.set m (i + 1)) w → Indexes q.axes is →
      Indexes q.axes (is.set m (i + 1)) → v ≤ w)
    {p p' : State} (hsame : ∀ k, k ≠ m → (q.at p)[k]? = (q.at p')[k]?)
    (hin : ∀ k g z, k ≠ m → q.axes[k]? = some g → (q.at p)[k]? = some z → g.min ≤ z ∧ z ≤ g.max)
    {x x' : ℝ} (hx : (q.at p)[m]? = some x) (hx' : (q.at p')[m]? = some x') (hle : x ≤ x') :
    ∃ k k', q.answer p = ok (q.factor p * k) ∧ q.answer p' = ok (q.factor p' * k') ∧ k ≤ k' := by
  obtain ⟨v, hv, he⟩ := h.good.closed
  refine ⟨_, _, he p, he p', ?_⟩
  apply Real.rpow_le_rpow_of_exponent_le (by norm_num)
  have hlen : (q.at p).length = q.axes.length := by simp [Query.at, h.good.length]
  have hv' : IncreasesAlong q.axes m v := by
    intro is i hi h1 h2
    have := hinc is i _ _ hi ⟨_, hv is h1, rfl⟩ ⟨_, hv _ h2, rfl⟩ h1 h2
    exact (Real.rpow_le_rpow_left_iff (by norm_num)).1 this
  have key := mlin_mono_x h.good.proper hlen hin hm hv' hle
  have e1 : (q.at p).set m x = q.at p := by
    apply List.ext_getElem?
    intro k
    rw [List.getElem?_set]
    split_ifs with a b
    · subst a; exact hx.symm
    · subst a; rw [List.getElem?_eq_none (by omega)]
    · rfl
  have e2 : (q.at p).set m x' = q.at p' := by
    apply List.ext_getElem?
    intro k
    rw [List.getElem?_set]
    split_ifs with a b
    · subst a; exact hx'.symm
    · subst a; rw [hlen] at b; exact absurd hm b
    · exact hsame k (Ne.symm a)
  rwa [e1, e2] at key

/-! ## C59 -/

/-- **C59**: beyond the last but one node of an axis, or before its second node, the logarithm of the opacity is a
linear function of the coordinate along that axis: outside the table the outermost cells are continued -/
theorem C59_extrapolation {q : Query} (h : FromTable q) {m : ℕ} {g : Grid ℝ} (hg : q.axes[m]? = some g)
    {p₁ p₂ p₃ : State} (hsame : ∀ k, k ≠ m → (q.at p₁)[k]? = (q.at p₂)[k]? ∧ (q.at p₁)[k]? = (q.at p₃)[k]?)
    {x₁ x₂ x₃ : ℝ} (h1 : (q.at p₁)[m]? = some x₁) (h2 : (q.at p₂)[m]? = some x₂) (h3 : (q.at p₃)[m]? = some x₃)
    (hout : (∀ t ∈ [x₁, x₂, x₃], node g (g.N - 2).toNat ≤ t) ∨ (∀ t ∈ [x₁, x₂, x₃], t ≤ node g 1)) :
    ∃ l₁ l₂ l₃ : ℝ, q.answer p₁ = ok (q.factor p₁ * (10 : ℝ) ^ l₁) ∧ q.answer p₂ = ok (q.factor p₂ * (10 : ℝ) ^ l₂) ∧
      q.answer p₃ = ok (q.factor p₃ * (10 : ℝ) ^ l₃) ∧ (x₂ - x₁) * (l₃ - l₁) = (x₃ - x₁) * (l₂ - l₁) := by
  obtain ⟨v, hv, he⟩ := h.good.closed
  refine ⟨_, _, _, he p₁, he p₂, he p₃, ?_⟩
  have hm : m < q.axes.length := (List.getElem?_eq_some_iff.1 hg).1
  have hlen : (q.at p₁).length = q.axes.length := by simp [Query.at, h.good.length]
  have key := mlin_affine (v := v) (h.good.proper g (List.mem_of_getElem? hg)) hg hlen hout
  have e : ∀ p x, (∀ k, k ≠ m → (q.at p₁)[k]? = (q.at p)[k]?) → (q.at p)[m]? = some x → (q.at p₁).set m x = q.at p := by
    intro p x hs hx
    apply List.ext_getElem?
    intro k
    rw [List.getElem?_set]
    split_ifs with a b
    · subst a; exact hx.symm
    · subst a; rw [hlen] at b; exact absurd hm b
    · exact hs k (Ne.symm a)
  rwa [e p₁ x₁ (fun _ _ => rfl) h1, e p₂ x₂ (fun k hk => (hsame k hk).1) h2, e p₃ x₃ (fun k hk => (hsame k hk).2) h3]
    at key

/-! ## The tables of the library meet the hypotheses -/

/-- every table filled from an opacity on proper ranges, and (as saving and loading is exact, C49) every one loaded from
a file it was saved to -/
theorem filled_proper {dist : FermiDirac ℝ} {pc : PC ℝ} {opac : SpinerOpacity.Sampled ℝ} {r : SpinerOpacity.Ranges}
    {o : SpinerOpacity ℝ} (h : SpinerOpacity.FilledFrom dist pc opac r o) (hr : r.Proper) :
    Proper4 o.lJ_ ∧ Proper4 o.lJYe_ ∧ Proper5 o.lalphanu_ ∧ Proper5 o.ljnu_ := by
  obtain ⟨-, ⟨d1, d2, d3, d4⟩, h4, h5, -⟩ := SpinerOpacity.filled_cells h
  have hT := hr.T.2
  have four : ∀ d, (d = o.lJ_ ∨ d = o.lJYe_) → d.dims = [r.NRho, r.NT, r.NYe, 3] → Proper4 d := by
    intro d hd hdim
    obtain ⟨g1, g2, g3⟩ := h4 d hd
    refine ⟨by rw [hdim, g1, g2, g3], ?_, ?_, ?_⟩
    · rw [g3]; exact hr.rho
    · rw [g2]; exact ⟨hr.T.1, by simp only; linarith⟩
    · rw [g1]; exact hr.Ye
  have five : ∀ d, (d = o.lalphanu_ ∨ d = o.ljnu_) → d.dims = [r.NRho, r.NT, r.NYe, 3, r.Ne] → Proper5 d := by
    intro d hd hdim
    obtain ⟨g0, g2, g3, g4⟩ := h5 d hd
    refine ⟨by rw [hdim, g0, g2, g3, g4], ?_, ?_, ?_, ?_⟩
    · rw [g4]; exact hr.rho
    · rw [g3]; exact ⟨hr.T.1, by simp only; linarith⟩
    · rw [g2]; exact hr.Ye
    · rw [g0]; exact hr.e
  exact ⟨four _ (.inl rfl) d1, four _ (.inr rfl) d2, five _ (.inl rfl) d3, five _ (.inr rfl) d4⟩

open MeanTables in
theorem loops_proper {r : MeanRanges} (hr : r.Proper) {junk : ℕ → ℕ → ℝ} {o : Sampler ℝ} {l1 l2 : ℝ} {NNu : ℤ}
    {cell : ℕ → ℕ → ℕ → ℕ → MeanTables ℝ → Outcome (MeanTables ℝ)} {t : MeanTables ℝ}
    (hcell : ∀ i j k d t t', Same (empty junk r) t → cell i j k d t = ok t' →
      Fills Cell.val (Same (empty junk r)) (Entry o l1 l2 NNu (empty junk r))
        {Cell.planck i j k d, Cell.rosseland i j k d} t t')
    (h : loops r.NRho r.NT r.NYe cell (empty junk r) = ok t) : Proper4 t.lPlanck ∧ Proper4 t.lRosseland := by
  obtain ⟨hS, -⟩ := loops_fills hcell h
  refine ⟨⟨?_, ?_⟩, ⟨?_, ?_⟩⟩
  · rw [hS.p1, hS.p2]; rfl
  · rw [hS.p2]; exact ⟨hr.rho, hr.T, hr.Ye⟩
  · rw [hS.r1, hS.r2]; rfl
  · rw [hS.r2]; exact ⟨hr.rho, hr.T, hr.Ye⟩

open MeanTables in
/-- every neutrino mean absorption opacity built by the library on proper ranges -/
theorem means_proper {O : Type} {inst : NeutrinoAPI ℝ O} {opac : O} {r : MeanRanges} {a b : ℝ} {N : ℕ}
    {m : Neutrinos.MeanOpacityBase ℝ} (h : AbsorptionMeans inst opac r a b N m) (hr : r.Proper) :
    Proper4 m.t.lPlanck ∧ Proper4 m.t.lRosseland := by
  cases h with
  | window h =>
    rename_i debug pc junk lNuMin lNuMax
    unfold Neutrinos.MeanOpacityBase.construct Neutrinos.MeanOpacityBase.Impl_ at h
    simp only [Bool.false_eq_true, if_false] at h
    split at h
    · simp at h
    simp only [bind_eq_ok] at h
    obtain ⟨t, h, h'⟩ := h
    cases h'
    exact loops_proper hr (junk := junk) (fun i j k d t t' ht h => fillCell_fills i j k d t t' ht h) h
  | auto hk hh h =>
    rename_i debug junk pc
    unfold Neutrinos.MeanOpacityBase.constructAuto Neutrinos.MeanOpacityBase.Impl_ at h
    simp only [if_true] at h
    split at h
    · simp at h
    simp only [bind_eq_ok] at h
    obtain ⟨t, h, h'⟩ := h
    cases h'
    exact loops_proper hr (junk := junk) (fun i j k d t t' ht h => fillCell_fills i j k d t t' ht h) h

open MeanTables in
/-- every neutrino mean scattering opacity built by the library on proper ranges -/
theorem scattering_means_proper {O : Type} {inst : NeutrinoSAPI ℝ O} {dist : FermiDirac ℝ} {opac : O} {r : MeanRanges}
    {a b : ℝ} {NNu : ℤ} {m : Neutrinos.MeanSOpacityBase ℝ} (h : ScatteringMeans inst dist opac r a b NNu m)
    (hr : r.Proper) : Proper4 m.t.lPlanck ∧ Proper4 m.t.lRosseland := by
  cases h with
  | window h =>
    rename_i pc junk lNuMin lNuMax
    unfold Neutrinos.MeanSOpacityBase.construct Neutrinos.MeanSOpacityBase.Impl_ at h
    simp only [bind_eq_ok] at h
    obtain ⟨t, h, h'⟩ := h
    cases h'
    exact loops_proper hr (junk := junk) (fun i j k d t t' ht h => fillCellS_fills (by norm_num) i j k d t t' ht h) h
  | auto hk hh h =>
    rename_i junk pc
    unfold Neutrinos.MeanSOpacityBase.constructAuto Neutrinos.MeanSOpacityBase.Impl_ at h
    simp only [bind_eq_ok, if_true] at h
    obtain ⟨t, h, h'⟩ := h
    cases h'
    exact loops_proper hr (junk := junk) (fun i j k d t t' ht h => fillCellS_fills (by norm_num) i j k d t t' ht h) h

/-- a table filled from a gray opacity, and a state in the middle of its only cell: all four theorems apply -/
example (g : Neutrinos.GrayOpacity ℝ) (dist : FermiDirac ℝ) (pc : PC ℝ) (hpc : 0 < hzPerMeV pc) :
    ∃ (q : Query) (p : State), FromTable q ∧ q.axes.length = 4 ∧ InCell q.axes [0, 0, 0, 0] (q.at p) ∧ 0 < p.rho := by
  obtain ⟨o, ho, -⟩ := SpinerOpacity.C48_gray g dist pc hpc SpinerOpacity.twoNodes
  obtain ⟨-, -, h3, -⟩ := filled_proper ho SpinerOpacity.twoNodes_proper
  obtain ⟨hp, -, -, h5, -⟩ := SpinerOpacity.filled_cells ho
  obtain ⟨g0, g2, g3, g4⟩ := h5 _ (.inl rfl)
  have ht := SpinerOpacity.tiny_pos
  have ht1 := SpinerOpacity.tiny_le_one
  have hkp := SpinerOpacity.kelvin_pos
  have hts := SpinerOpacity.tiny_small
  refine ⟨_, ⟨10 - tiny, 10 - tiny * kelvinPerMeV, 1 / 2, hzPerMeV pc * (10 - tiny)⟩, .absorption o h3 .e, rfl, ?_, ?_⟩
  · have c1 : tableCoord (10 - tiny) = 1 := by
      unfold tableCoord
      rw [max_eq_left (by linarith), sub_add_cancel, Real.logb_self_eq_one (by norm_num)]
    have c2 : tableCoord ((10 - tiny * kelvinPerMeV) / kelvinPerMeV) = 1 + log10 (SpinerOpacity.K2MeV : ℝ) := by
      unfold tableCoord
      rw [max_eq_left (div_nonneg (by linarith) hkp.le)]
      have e : (10 - tiny * kelvinPerMeV) / kelvinPerMeV + tiny = (10 : ℝ) ^ (1 + log10 (SpinerOpacity.K2MeV : ℝ)) := by
        rw [Real.rpow_add (by norm_num), SpinerOpacity.K2MeV_log]
        field_simp
        norm_num
      rw [e, Real.logb_rpow (by norm_num) (by norm_num)]
    have c3 : tableCoord (hzPerMeV pc * (10 - tiny) / hzPerMeV pc) = 1 := by
      rw [mul_div_cancel_left₀ _ hpc.ne', c1]
    simp only [spectralQuery, Query.at, List.map_cons, List.map_nil, hp, c1, c2, c3]
    rw [g0, g2, g3, g4]
    refine ⟨⟨?_, ?_, ?_⟩, ⟨?_, ?_, ?_⟩, ⟨?_, ?_, ?_⟩, ⟨?_, ?_, ?_⟩, trivial⟩ <;>
      norm_num [SpinerOpacity.twoNodes, node, add_comm]
  · show 0 < 10 - tiny
    linarith

/-- **C58 at the level of the user**: if the absorption coefficient an opacity is tabulated from never decreases with
density, then neither does the one looked up in the table, for all densities, also outside the table and between nodes,
as long as temperature, electron fraction and frequency are inside the table -/
theorem C58_filled_density {dist : FermiDirac ℝ} {pc : PC ℝ} {opac : SpinerOpacity.Sampled ℝ}
    {r : SpinerOpacity.Ranges} {o : SpinerOpacity ℝ} (h : SpinerOpacity.FilledFrom dist pc opac r o) (hr : r.Proper)
    {s : RadiationType} {d : ℕ} (hs : SpeciesIndex s d)
    (hmono : ∀ ρ ρ' T Ye ν v w, ρ ≤ ρ' → opac.AbsorptionCoefficient ρ T Ye s ν = ok v →
      opac.AbsorptionCoefficient ρ' T Ye s ν = ok w → v ≤ w)
    {T Ye ν : ℝ} (hT : r.lTMin ≤ Real.logb 10 (max T 0 + tiny * kelvinPerMeV) ∧
      Real.logb 10 (max T 0 + tiny * kelvinPerMeV) ≤ r.lTMax) (hY : r.YeMin ≤ Ye ∧ Ye ≤ r.YeMax)
    (hν : r.leMin ≤ Real.logb 10 (max (ν / hzPerMeV pc) 0 + tiny) ∧
      Real.logb 10 (max (ν / hzPerMeV pc) 0 + tiny) ≤ r.leMax) {ρ ρ' : ℝ} (hρ : ρ ≤ ρ') :
    ∃ k k', o.AbsorptionCoefficient ρ T Ye s ν = ok k ∧ o.AbsorptionCoefficient ρ' T Ye s ν = ok k' ∧ k ≤ k' := by
  obtain ⟨-, -, h3, -⟩ := filled_proper h hr
  obtain ⟨hp, -, -, h5, hcell⟩ := SpinerOpacity.filled_cells h
  obtain ⟨g0, g2, g3, g4⟩ := h5 _ (.inl rfl)
  have hkp := SpinerOpacity.kelvin_pos
  have ht := SpinerOpacity.tiny_pos
  have key := C58_monotone (.absorption o h3 hs) (m := 0) (by simp [spectralQuery]) ?_ (p := ⟨ρ, T, Ye, ν⟩)
    (p' := ⟨ρ', T, Ye, ν⟩) ?_ ?_ (x := tableCoord ρ) (x' := tableCoord ρ') rfl rfl ?_
  · obtain ⟨k, k', h1, h2, h3⟩ := key
    simp only [spectralQuery, one_mul] at h1 h2
    exact ⟨k, k', h1, h2, h3⟩
  · intro is i v w hi hv hw h1 h2
    rcases is with _ | ⟨i', _ | ⟨j, _ | ⟨k, _ | ⟨m, _ | ⟨n, is⟩⟩⟩⟩⟩ <;> simp only [spectralQuery, Indexes, and_false] at h1
    simp only [List.getElem?_cons_zero, Option.some.injEq] at hi
    subst hi
    simp only [spectralQuery, List.set_cons_zero, Indexes] at h2
    obtain ⟨hi, hj, hk, hm, -⟩ := h1
    rw [g0] at hm; rw [g2] at hk; rw [g3] at hj; rw [g4] at hi h2
    obtain ⟨i, rfl⟩ := Int.eq_ofNat_of_zero_le hi.1
    obtain ⟨j, rfl⟩ := Int.eq_ofNat_of_zero_le hj.1
    obtain ⟨k, rfl⟩ := Int.eq_ofNat_of_zero_le hk.1
    obtain ⟨m, rfl⟩ := Int.eq_ofNat_of_zero_le hm.1
    have hd : d < 3 ∧ Idx2RadType (d : ℤ) = ok s := by cases hs <;> exact ⟨by norm_num, rfl⟩
    obtain ⟨-, -, ha⟩ := hcell i j k d hi.2 hj.2 hk.2 hd.1 s hd.2
    obtain ⟨-, a, ha, ra⟩ := ha m hm.2
    obtain ⟨-, -, hb⟩ := hcell (i + 1) j k d (by push_cast; exact h2.1.2) hj.2 hk.2 hd.1 s hd.2
    obtain ⟨-, b, hb, rb⟩ := hb m hm.2
    obtain ⟨l, hl, rfl⟩ := hv
    obtain ⟨l', hl', rfl⟩ := hw
    simp only [spectralQuery, List.take, List.drop, List.cons_append, List.nil_append, List.set_cons_zero] at hl hl'
    push_cast at rb
    rw [ra] at hl; cases hl
    rw [rb] at hl'; cases hl'
    rw [← SpinerOpacity.fromLog_eq, ← SpinerOpacity.fromLog_eq, SpinerOpacity.fromLog_toLog, SpinerOpacity.fromLog_toLog]
    have : r.rhoNode i ≤ r.rhoNode (i + 1) := by
      unfold SpinerOpacity.Ranges.rhoNode
      refine Real.rpow_le_rpow_of_exponent_le (by norm_num) ?_
      have h2 : (2 : ℝ) ≤ r.NRho := by exact_mod_cast hr.rho.1
      have h3 : 0 ≤ (r.lRhoMax - r.lRhoMin) / (r.NRho - 1) :=
        div_nonneg (by linarith [hr.rho.2]) (by linarith)
      unfold SpinerOpacity.equi
      push_cast
      linarith
    have := hmono _ _ _ _ _ _ _ this ha hb
    gcongr
  · intro k hk
    rcases k with _ | k
    · exact absurd rfl hk
    · rfl
  · intro k g z hk hg hz
    rcases k with _ | _ | _ | _ | k
    · exact absurd rfl hk
    · simp only [spectralQuery, Query.at, List.map_cons, List.getElem?_cons_succ, List.getElem?_cons_zero,
        Option.some.injEq] at hg hz
      subst hg hz
      rw [g3]
      have e : tableCoord (T / kelvinPerMeV) = Real.logb 10 (max T 0 + tiny * kelvinPerMeV) +
          log10 (SpinerOpacity.K2MeV : ℝ) := by
        have e1 : max (T / kelvinPerMeV) 0 + tiny = (max T 0 + tiny * kelvinPerMeV) * (1 / kelvinPerMeV) := by
          rw [show (0 : ℝ) = 0 / kelvinPerMeV by simp, max_div_div_right hkp.le]
          field_simp
          simp
        have hm : 0 < max T 0 + tiny * kelvinPerMeV := by have := le_max_right T 0; positivity
        unfold tableCoord
        rw [e1, Real.logb_mul hm.ne' (by positivity), ← SpinerOpacity.K2MeV_log,
          Real.logb_rpow (by norm_num) (by norm_num)]
      simp only [e]
      exact ⟨by linarith, by linarith⟩
    · simp only [spectralQuery, Query.at, List.map_cons, List.getElem?_cons_succ, List.getElem?_cons_zero,
        Option.some.injEq] at hg hz
      subst hg hz
      rw [g2]
      exact hY
    · simp only [spectralQuery, Query.at, List.map_cons, List.getElem?_cons_succ, List.getElem?_cons_zero,
        Option.some.injEq] at hg hz
      subst hg hz
      rw [g0, hp]
      exact hν
    · simp [spectralQuery] at hg
  · unfold tableCoord
    refine Real.logb_le_logb_of_le (by norm_num) ?_ ?_
    · have := le_max_right ρ 0; linarith
    · gcongr

/-- a table of a gray opacity, and a state inside it -/
example (dist : FermiDirac ℝ) (pc : PC ℝ) (hpc : 0 < hzPerMeV pc) :
    ∃ (opac : SpinerOpacity.Sampled ℝ) (o : SpinerOpacity ℝ), SpinerOpacity.FilledFrom dist pc opac SpinerOpacity.twoNodes o ∧
      (∀ s ρ ρ' T Ye ν v w, ρ ≤ ρ' → opac.AbsorptionCoefficient ρ T Ye s ν = ok v →
        opac.AbsorptionCoefficient ρ' T Ye s ν = ok w → v ≤ w) ∧
      Real.logb 10 (max (10 - tiny * kelvinPerMeV) 0 + tiny * kelvinPerMeV) = 1 := by
  let g : Neutrinos.GrayOpacity ℝ := ⟨dist, pc, 2⟩
  obtain ⟨o, ho, -⟩ := SpinerOpacity.C48_gray g dist pc hpc SpinerOpacity.twoNodes
  have hts := SpinerOpacity.tiny_small
  refine ⟨_, o, ho, ?_, ?_⟩
  · intro s ρ ρ' T Ye ν v w hρ hv hw
    cases hv
    cases hw
    show ρ * 2 ≤ ρ' * 2
    linarith
  · rw [max_eq_left (by linarith), sub_add_cancel, Real.logb_self_eq_one (by norm_num)]

end Opac.Tables
