import Verif.Lemmas.TableAccess
import Verif.Lemmas.MeanFill
import Verif.Lemmas.Means
import Verif.Lemmas.NeutrinoMeans
import Verif.Lemmas.SpinerFill
import Verif.Lemmas.SingleNode

/-!
# C72: lookups never leave the table, unless an axis has a single node

For every carrier, `double` with its NaNs included.  (The conversion of a coordinate to `int` is the subject of C71.)  The
constructors accept a single node per axis; every lookup in such a table then uses the index -1.  An index outside its
axis counts as undefined behaviour here (`DataBox.offset`); the entry may lie before the table or in another row.
-/

namespace Opac.Tables
open Arith Outcome Spec Spiner

variable {R : Type} [Arith R]

/-! ## Photons -/

section photons
open Photons
variable [LawfulCmp R]

theorem group_defined {pc : PC R} {junk : ℕ → R} {coef : R → R → R → R} {lRhoMin lRhoMax : R} {NRho : ℤ} {lTMin lTMax : R}
    {NT : ℤ} {b : List R} {ng NNu : ℤ} {t : MGTables R}
    (h : MGTables.Impl_ pc junk coef lRhoMin lRhoMax NRho lTMin lTMax NT b ng NNu = ok t) (rho temp : R) (g : ℤ) :
    (t.PlanckGroupCoefficient rho temp g).DefinedIff (2 ≤ NRho ∧ 2 ≤ NT ∧ 0 ≤ g ∧ g < ng) ∧
    (t.RosselandGroupCoefficient rho temp g).DefinedIff (2 ≤ NRho ∧ 2 ≤ NT ∧ 0 ≤ g ∧ g < ng) := by
  have hf := Impl_filled (lit 0) h
  have hn := (Impl_ok h).2.1
  have ha := (Validate_ok_iff b ng).1 hn
  have e : (ng.toNat : ℤ) = ng := Int.toNat_of_nonneg (by have := ha.some_group; omega)
  constructor
  · refine DefinedIff.map ((interp3_iff _ hf.dims1 ?_ ?_ _ _ g).congr (by rw [e])) _
    · rw [hf.grid1]; rfl
    · rw [hf.grid1]; rfl
  · refine DefinedIff.map ((interp3_iff _ hf.dims2 ?_ ?_ _ _ g).congr (by rw [e])) _
    · rw [hf.grid2]; rfl
    · rw [hf.grid2]; rfl

/-- **C72**, photons: a mean opacity computed from an opacity answers for each of its groups at every density and
temperature if both axes have at least two nodes; otherwise, and for every other group, the lookup is undefined behaviour. -/
theorem C72_photons {O : Type} [PhotonAPI R O] (pc : PC R) (junk : ℕ → R) (o : O) (lRhoMin lRhoMax : R) (NRho : ℤ)
    (lTMin lTMax : R) (NT : ℤ) (b : List R) (ng NNu : ℤ) (m : Photons.MeanOpacityBase R)
    (h : (Photons.MeanOpacityBase.construct pc junk o lRhoMin lRhoMax NRho lTMin lTMax NT b ng NNu).Returns m)
    (rho temp : R) (g : ℤ) :
    (MeanPhotonAPI.PlanckGroupAbsorptionCoefficient m rho temp g).DefinedIff (2 ≤ NRho ∧ 2 ≤ NT ∧ 0 ≤ g ∧ g < ng) ∧
    (MeanPhotonAPI.RosselandGroupAbsorptionCoefficient m rho temp g).DefinedIff (2 ≤ NRho ∧ 2 ≤ NT ∧ 0 ≤ g ∧ g < ng) := by
  obtain ⟨t, ht, rfl⟩ := map'_eq_ok.1 h
  exact group_defined ht rho temp g

/-- **C72**, photon scattering -/
theorem C72_photon_scattering {O : Type} [PhotonSAPI R O] (pc : PC R) (junk : ℕ → R) (o : O) (lRhoMin lRhoMax : R)
    (NRho : ℤ) (lTMin lTMax : R) (NT : ℤ) (b : List R) (ng NNu : ℤ) (m : Photons.MeanSOpacityBase R)
    (h : (Photons.MeanSOpacityBase.construct pc junk o lRhoMin lRhoMax NRho lTMin lTMax NT b ng NNu).Returns m)
    (rho temp : R) (g : ℤ) :
    (MeanPhotonSAPI.PlanckGroupScatteringCoefficient m rho temp g).DefinedIff (2 ≤ NRho ∧ 2 ≤ NT ∧ 0 ≤ g ∧ g < ng) ∧
    (MeanPhotonSAPI.RosselandGroupScatteringCoefficient m rho temp g).DefinedIff
      (2 ≤ NRho ∧ 2 ≤ NT ∧ 0 ≤ g ∧ g < ng) := by
  obtain ⟨t, ht, rfl⟩ := map'_eq_ok.1 h
  exact group_defined ht rho temp g

/-- the library's gray opacity has means on a table with two densities and three temperatures, and `C72_photons` says
that group 0 can be looked up everywhere and group 1 nowhere -/
example (pc : PC ℝ) (junk : ℕ → ℝ) (o : GrayOpacity ℝ) :
    ∃ m, (Photons.MeanOpacityBase.construct pc junk o 0 1 2 0 1 3 [1, 2] 1 8).Returns m ∧
      ∀ rho temp : ℝ, (∃ v, (MeanPhotonAPI.PlanckGroupAbsorptionCoefficient m rho temp 0).Returns v) ∧
        (MeanPhotonAPI.PlanckGroupAbsorptionCoefficient m rho temp 1).IsUB := by
  obtain ⟨t, ht⟩ := Impl_returns (pc := pc) (coef := PhotonAPI.AbsorptionCoefficient o) (junk := junk) (lRhoMin := (0 : ℝ))
    (lRhoMax := 1) (NRho := 2) (lTMin := 0) (lTMax := 1) (NT := 3) (ngroups := 1) (b := [1, 2]) (NNu := 8)
    (dflt := 0) (by norm_num) ⟨by norm_num, by norm_num, fun _ _ _ _ => rfl, by
      intro x hx; simp at hx; subst hx; simp [areal], by
      intro i x y hi hx hy
      have : i = 0 := by omega
      subst this
      simp at hx hy; subst hx hy; norm_num [areal], fun _ _ _ _ => rfl⟩ (fun _ _ _ _ _ _ => ⟨rfl, rfl⟩)
  have hm : (Photons.MeanOpacityBase.construct pc junk o 0 1 2 0 1 3 [1, 2] 1 8).Returns ⟨pc, t⟩ :=
    map'_eq_ok.2 ⟨t, ht, rfl⟩
  refine ⟨_, hm, fun rho temp => ⟨?_, ?_⟩⟩
  · exact (C72_photons pc junk o 0 1 2 0 1 3 [1, 2] 1 8 _ hm rho temp 0).1.1 (by norm_num)
  · exact (C72_photons pc junk o 0 1 2 0 1 3 [1, 2] 1 8 _ hm rho temp 1).1.2 (by norm_num)

end photons

/-! ## Neutrinos -/

section neutrinos
open Neutrinos

theorem species_row (s : RadiationType) : (0 ≤ RadType2Idx s ∧ RadType2Idx s < 3) ↔ NeutrinoSpecies s := by
  cases s <;> simp [RadType2Idx, NeutrinoSpecies]

theorem species_defined {lRhoMin lRhoMax lTMin lTMax YeMin YeMax : R} {NRho NT NYe : ℤ} {junk : ℕ → ℕ → R} {t : MeanTables R}
    (h : MeanTables.Same (MeanTables.setup junk lRhoMin lRhoMax NRho lTMin lTMax NT YeMin YeMax NYe) t) (rho temp Ye : R)
    (s : RadiationType) :
    (MeanTables.lookup t.lPlanck rho temp Ye s).DefinedIff (2 ≤ NRho ∧ 2 ≤ NT ∧ 2 ≤ NYe ∧ NeutrinoSpecies s) ∧
    (MeanTables.lookup t.lRosseland rho temp Ye s).DefinedIff (2 ≤ NRho ∧ 2 ≤ NT ∧ 2 ≤ NYe ∧ NeutrinoSpecies s) := by
  constructor
  · refine DefinedIff.map ((interp4_iff (n1 := 3) (n2 := NYe) (n3 := NT) (n4 := NRho) _ ?_ ?_ ?_ ?_ _ _ _ _).congr
      (by rw [species_row])) _
    · rw [h.p1]; rfl
    all_goals rw [h.p2]; rfl
  · refine DefinedIff.map ((interp4_iff (n1 := 3) (n2 := NYe) (n3 := NT) (n4 := NRho) _ ?_ ?_ ?_ ?_ _ _ _ _).congr
      (by rw [species_row])) _
    · rw [h.r1]; rfl
    all_goals rw [h.r2]; rfl

theorem absorption_same {O : Type} [NeutrinoAPI R O] {debug auto : Bool} {pc : PC R} {junk : ℕ → ℕ → R} {o : O}
    {lRhoMin lRhoMax : R} {NRho : ℤ} {lTMin lTMax : R} {NT : ℤ} {YeMin YeMax : R} {NYe : ℤ} {lNuMin lNuMax : R} {NNu : ℤ}
    {m : Neutrinos.MeanOpacityBase R}
    (h : Neutrinos.MeanOpacityBase.Impl_ debug auto pc junk o lRhoMin lRhoMax NRho lTMin lTMax NT YeMin YeMax NYe lNuMin
      lNuMax NNu = ok m) :
    MeanTables.Same (MeanTables.setup junk lRhoMin lRhoMax NRho lTMin lTMax NT YeMin YeMax NYe) m.t := by
  unfold Neutrinos.MeanOpacityBase.Impl_ at h
  simp only at h
  split at h
  · simp at h
  simp only [bind_eq_ok] at h
  obtain ⟨t, h, h'⟩ := h
  cases h'
  exact (MeanTables.loops_fills (fun i j k d t t' ht h => MeanTables.fillCell_fills i j k d t t' ht h) h).1

theorem scattering_same {O : Type} [NeutrinoSAPI R O] {auto : Bool} {dist : FermiDirac R} {pc : PC R} {junk : ℕ → ℕ → R}
    {o : O} {lRhoMin lRhoMax : R} {NRho : ℤ} {lTMin lTMax : R} {NT : ℤ} {YeMin YeMax : R} {NYe : ℤ} {lNuMin lNuMax : R}
    {m : Neutrinos.MeanSOpacityBase R}
    (h : Neutrinos.MeanSOpacityBase.Impl_ auto dist pc junk o lRhoMin lRhoMax NRho lTMin lTMax NT YeMin YeMax NYe lNuMin
      lNuMax 100 = ok m) :
    MeanTables.Same (MeanTables.setup junk lRhoMin lRhoMax NRho lTMin lTMax NT YeMin YeMax NYe) m.t := by
  unfold Neutrinos.MeanSOpacityBase.Impl_ at h
  simp only [bind_eq_ok] at h
  obtain ⟨t, h, h'⟩ := h
  cases h'
  exact (MeanTables.loops_fills (fun i j k d t t' ht h => MeanTables.fillCellS_fills (by norm_num) i j k d t t' ht h) h).1

/-- **C72**, neutrino means: a mean opacity computed from an opacity (with or without a frequency window) answers for each
of the three species at every density, temperature and electron fraction if all three axes have at least two nodes;
otherwise, and for every other type of radiation, the lookup is undefined behaviour. -/
theorem C72_neutrino_means {O : Type} [NeutrinoAPI R O] (debug : Bool) (pc : PC R) (junk : ℕ → ℕ → R) (o : O)
    (lRhoMin lRhoMax : R) (NRho : ℤ) (lTMin lTMax : R) (NT : ℤ) (YeMin YeMax : R) (NYe : ℤ) (lNuMin lNuMax : R) (NNu : ℤ)
    (m : Neutrinos.MeanOpacityBase R)
    (h : (Neutrinos.MeanOpacityBase.construct debug pc junk o lRhoMin lRhoMax NRho lTMin lTMax NT YeMin YeMax NYe lNuMin
        lNuMax NNu).Returns m ∨
      (Neutrinos.MeanOpacityBase.constructAuto debug pc junk o lRhoMin lRhoMax NRho lTMin lTMax NT YeMin YeMax NYe).Returns m)
    (rho temp Ye : R) (s : RadiationType) :
    (MeanNeutrinoAPI.PlanckMeanAbsorptionCoefficient m rho temp Ye s).DefinedIff
      (2 ≤ NRho ∧ 2 ≤ NT ∧ 2 ≤ NYe ∧ NeutrinoSpecies s) ∧
    (MeanNeutrinoAPI.RosselandMeanAbsorptionCoefficient m rho temp Ye s).DefinedIff
      (2 ≤ NRho ∧ 2 ≤ NT ∧ 2 ≤ NYe ∧ NeutrinoSpecies s) := by
  rcases h with h | h
  · exact species_defined (absorption_same h) rho temp Ye s
  · exact species_defined (absorption_same h) rho temp Ye s

/-- **C72**, neutrino mean scattering -/
theorem C72_neutrino_scattering_means {O : Type} [NeutrinoSAPI R O] (dist : FermiDirac R) (pc : PC R) (junk : ℕ → ℕ → R)
    (o : O) (lRhoMin lRhoMax : R) (NRho : ℤ) (lTMin lTMax : R) (NT : ℤ) (YeMin YeMax : R) (NYe : ℤ) (lNuMin lNuMax : R)
    (NNu : ℤ) (m : Neutrinos.MeanSOpacityBase R)
    (h : (Neutrinos.MeanSOpacityBase.construct dist pc junk o lRhoMin lRhoMax NRho lTMin lTMax NT YeMin YeMax NYe lNuMin
        lNuMax NNu).Returns m ∨
      (Neutrinos.MeanSOpacityBase.constructAuto dist pc junk o lRhoMin lRhoMax NRho lTMin lTMax NT YeMin YeMax NYe).Returns m)
    (rho temp Ye : R) (s : RadiationType) :
    (MeanNeutrinoSAPI.PlanckMeanTotalScatteringCoefficient m rho temp Ye s).DefinedIff
      (2 ≤ NRho ∧ 2 ≤ NT ∧ 2 ≤ NYe ∧ NeutrinoSpecies s) ∧
    (MeanNeutrinoSAPI.RosselandMeanTotalScatteringCoefficient m rho temp Ye s).DefinedIff
      (2 ≤ NRho ∧ 2 ≤ NT ∧ 2 ≤ NYe ∧ NeutrinoSpecies s) := by
  rcases h with h | h
  · exact species_defined (scattering_same h) rho temp Ye s
  · exact species_defined (scattering_same h) rho temp Ye s

/-- **C72**, tabulated neutrino opacities: the same, with a fourth axis for the spectral functions. -/
theorem C72_tabulated {O : Type} [NeutrinoAPI R O] (dist : FermiDirac R) (pc : PC R) (junk : ℕ → ℕ → R) (o : O)
    (lRhoMin lRhoMax : R) (NRho : ℤ) (lTMin lTMax : R) (NT : ℤ) (YeMin YeMax : R) (NYe : ℤ) (leMin leMax : R) (Ne : ℤ)
    (m : SpinerOpacity R)
    (h : (SpinerOpacity.fill dist pc junk (SpinerOpacity.sampled o) lRhoMin lRhoMax NRho lTMin lTMax NT YeMin YeMax NYe leMin
      leMax Ne).Returns m) (rho temp Ye nu : R) (s : RadiationType) :
    (∀ f ∈ [NeutrinoAPI.AbsorptionCoefficient m, NeutrinoAPI.AngleAveragedAbsorptionCoefficient m,
        NeutrinoAPI.EmissivityPerNuOmega m, NeutrinoAPI.EmissivityPerNu m],
      (f rho temp Ye s nu).DefinedIff (2 ≤ NRho ∧ 2 ≤ NT ∧ 2 ≤ NYe ∧ 2 ≤ Ne ∧ NeutrinoSpecies s)) ∧
    ∀ f ∈ [NeutrinoAPI.Emissivity m, NeutrinoAPI.NumberEmissivity m],
      (f rho temp Ye s).DefinedIff (2 ≤ NRho ∧ 2 ≤ NT ∧ 2 ≤ NYe ∧ NeutrinoSpecies s) := by
  obtain ⟨S, -⟩ := SpinerOpacity.fill_entries h rfl
  have a5 : (m.lookup5 m.lalphanu_ rho temp Ye s nu).DefinedIff
      (2 ≤ NRho ∧ 2 ≤ NT ∧ 2 ≤ NYe ∧ 2 ≤ Ne ∧ NeutrinoSpecies s) := by
    refine DefinedIff.map ((interp5_iff (n1 := Ne) (n2 := 3) (n3 := NYe) (n4 := NT) (n5 := NRho) _ ?_ ?_ ?_ ?_ ?_
      _ _ _ _ _).congr (by rw [species_row])) _
    · rw [S.a1]; rfl
    all_goals rw [S.a2]; rfl
  have j5 : (m.lookup5 m.ljnu_ rho temp Ye s nu).DefinedIff
      (2 ≤ NRho ∧ 2 ≤ NT ∧ 2 ≤ NYe ∧ 2 ≤ Ne ∧ NeutrinoSpecies s) := by
    refine DefinedIff.map ((interp5_iff (n1 := Ne) (n2 := 3) (n3 := NYe) (n4 := NT) (n5 := NRho) _ ?_ ?_ ?_ ?_ ?_
      _ _ _ _ _).congr (by rw [species_row])) _
    · rw [S.j1]; rfl
    all_goals rw [S.j2]; rfl
  have J4 : (SpinerOpacity.lookup4 m.lJ_ rho temp Ye s).DefinedIff (2 ≤ NRho ∧ 2 ≤ NT ∧ 2 ≤ NYe ∧ NeutrinoSpecies s) := by
    refine DefinedIff.map ((interp4_iff (n1 := 3) (n2 := NYe) (n3 := NT) (n4 := NRho) _ ?_ ?_ ?_ ?_
      _ _ _ _).congr (by rw [species_row])) _
    · rw [S.J1]; rfl
    all_goals rw [S.J2]; rfl
  have N4 : (SpinerOpacity.lookup4 m.lJYe_ rho temp Ye s).DefinedIff (2 ≤ NRho ∧ 2 ≤ NT ∧ 2 ≤ NYe ∧ NeutrinoSpecies s) := by
    refine DefinedIff.map ((interp4_iff (n1 := 3) (n2 := NYe) (n3 := NT) (n4 := NRho) _ ?_ ?_ ?_ ?_
      _ _ _ _).congr (by rw [species_row])) _
    · rw [S.N1]; rfl
    all_goals rw [S.N2]; rfl
  constructor
  · intro f hf
    simp only [List.mem_cons, List.not_mem_nil, or_false] at hf
    rcases hf with rfl | rfl | rfl | rfl
    · exact a5
    · exact a5
    · exact j5
    · exact j5.map _
  · intro f hf
    simp only [List.mem_cons, List.not_mem_nil, or_false] at hf
    rcases hf with rfl | rfl
    · exact J4
    · exact N4

/-- the library's gray opacity is tabulated on every grid, and with two nodes per axis `C72_tabulated` says that it answers
for electron neutrinos everywhere, and for photons nowhere -/
example (d : FermiDirac R) (pc : PC R) (junk : ℕ → ℕ → R) (kappa : R) (a b : R) :
    ∃ m, (SpinerOpacity.fill d pc junk (SpinerOpacity.sampled (⟨d, pc, kappa⟩ : GrayOpacity R)) a b 2 a b 2 a b 2 a b
        2).Returns m ∧
      ∀ rho temp Ye nu : R, (∃ v, (NeutrinoAPI.AbsorptionCoefficient m rho temp Ye .NU_ELECTRON nu).Returns v) ∧
        (NeutrinoAPI.AbsorptionCoefficient m rho temp Ye .PHOTON nu).IsUB := by
  obtain ⟨m, hm⟩ := SpinerOpacity.fill_returns (pc := pc) (opac := SpinerOpacity.sampled (⟨d, pc, kappa⟩ : GrayOpacity R))
    (dist := d) (junk := junk) (lRhoMin := a) (lRhoMax := b) (NRho := 2) (lTMin := a) (lTMax := b) (NT := 2) (YeMin := a)
    (YeMax := b) (NYe := 2) (leMin := a) (leMax := b) (Ne := 2) (fun _ _ _ _ => ⟨_, rfl⟩) (fun _ _ _ _ => ⟨_, rfl⟩)
    (fun _ _ _ _ _ => ⟨_, rfl⟩) (fun _ _ _ _ _ => ⟨_, rfl⟩)
  refine ⟨m, hm, fun rho temp Ye nu => ⟨?_, ?_⟩⟩
  · exact ((C72_tabulated d pc junk _ a b 2 a b 2 a b 2 a b 2 m hm rho temp Ye nu .NU_ELECTRON).1 _ (by simp)).1
      (by simp [NeutrinoSpecies])
  · exact ((C72_tabulated d pc junk _ a b 2 a b 2 a b 2 a b 2 m hm rho temp Ye nu .PHOTON).1 _ (by simp)).2
      (by simp [NeutrinoSpecies])

end neutrinos

section single
open Photons hiding GrayOpacity
open Neutrinos

/-- **C72**, a single node for photons: whatever the opacity and the bounds are, no mean opacity is ever computed on a
density or a temperature axis with one node: the node is not a number, which the constructor notices. -/
theorem C72_photons_single {O : Type} [PhotonAPI XR O] (pc : PC XR) (junk : ℕ → XR) (o : O) (lRhoMin lRhoMax : ℝ) (NRho : ℤ)
    (lTMin lTMax : ℝ) (NT : ℤ) (b : List XR) (ng NNu : ℤ) (hR : 1 ≤ NRho) (hT : 1 ≤ NT) (h : NRho = 1 ∨ NT = 1)
    (m : Photons.MeanOpacityBase XR) :
    ¬ (Photons.MeanOpacityBase.construct pc junk o (.fin lRhoMin) (.fin lRhoMax) NRho (.fin lTMin) (.fin lTMax) NT b ng
      NNu).Returns m := by
  intro hm
  obtain ⟨t, ht, -⟩ := map'_eq_ok.1 hm
  exact no_single hR hT h t ht

/-- **C72**, a single node for photon scattering -/
theorem C72_photon_scattering_single {O : Type} [PhotonSAPI XR O] (pc : PC XR) (junk : ℕ → XR) (o : O)
    (lRhoMin lRhoMax : ℝ) (NRho : ℤ) (lTMin lTMax : ℝ) (NT : ℤ) (b : List XR) (ng NNu : ℤ) (hR : 1 ≤ NRho) (hT : 1 ≤ NT)
    (h : NRho = 1 ∨ NT = 1) (m : Photons.MeanSOpacityBase XR) :
    ¬ (Photons.MeanSOpacityBase.construct pc junk o (.fin lRhoMin) (.fin lRhoMax) NRho (.fin lTMin) (.fin lTMax) NT b ng
      NNu).Returns m := by
  intro hm
  obtain ⟨t, ht, -⟩ := map'_eq_ok.1 hm
  exact no_single hR hT h t ht

/-- **C72**, a single node in tabulated neutrino opacities: for every opacity that answers everywhere, a table with one
node along some axis is filled without complaint, and every spectral lookup in it is undefined behaviour. -/
theorem C72_tabulated_false {O : Type} [NeutrinoAPI R O] (dist : FermiDirac R) (pc : PC R) (junk : ℕ → ℕ → R) (o : O)
    (lRhoMin lRhoMax : R) (NRho : ℤ) (lTMin lTMax : R) (NT : ℤ) (YeMin YeMax : R) (NYe : ℤ) (leMin leMax : R) (Ne : ℤ)
    (h1 : ∀ (rho T Ye : R) s, ∃ v, (NeutrinoAPI.Emissivity o rho T Ye s).Returns v)
    (h2 : ∀ (rho T Ye : R) s, ∃ v, (NeutrinoAPI.NumberEmissivity o rho T Ye s).Returns v)
    (h3 : ∀ (rho T Ye : R) s (nu : R), ∃ v, (NeutrinoAPI.AbsorptionCoefficient o rho T Ye s nu).Returns v)
    (h4 : ∀ (rho T Ye : R) s (nu : R), ∃ v, (NeutrinoAPI.EmissivityPerNuOmega o rho T Ye s nu).Returns v)
    (hN : NRho = 1 ∨ NT = 1 ∨ NYe = 1 ∨ Ne = 1) :
    ∃ m, (SpinerOpacity.fill dist pc junk (SpinerOpacity.sampled o) lRhoMin lRhoMax NRho lTMin lTMax NT YeMin YeMax NYe
        leMin leMax Ne).Returns m ∧
      ∀ (rho temp Ye : R) s (nu : R), (NeutrinoAPI.AbsorptionCoefficient m rho temp Ye s nu).IsUB ∧
        (NeutrinoAPI.EmissivityPerNu m rho temp Ye s nu).IsUB := by
  obtain ⟨m, hm⟩ := SpinerOpacity.fill_returns (pc := pc) (opac := SpinerOpacity.sampled o) (dist := dist) (junk := junk)
    (lRhoMin := lRhoMin) (lRhoMax := lRhoMax) (NRho := NRho) (lTMin := lTMin) (lTMax := lTMax) (NT := NT) (YeMin := YeMin)
    (YeMax := YeMax) (NYe := NYe) (leMin := leMin) (leMax := leMax) (Ne := Ne) h1 h2 h3 h4
  refine ⟨m, hm, fun rho temp Ye s nu => ?_⟩
  have := (C72_tabulated dist pc junk o lRhoMin lRhoMax NRho lTMin lTMax NT YeMin YeMax NYe leMin leMax Ne m hm rho temp Ye nu
    s).1
  exact ⟨(this _ (by simp)).2 (by omega), (this _ (by simp)).2 (by omega)⟩

/-- a gray opacity answers everywhere -/
example (dist : FermiDirac R) (pc : PC R) (kappa : R) (rho T Ye nu : R) (s : RadiationType) :
    (∃ v, (NeutrinoAPI.Emissivity (⟨dist, pc, kappa⟩ : GrayOpacity R) rho T Ye s).Returns v) ∧
    ∃ v, (NeutrinoAPI.AbsorptionCoefficient (⟨dist, pc, kappa⟩ : GrayOpacity R) rho T Ye s nu).Returns v :=
  ⟨⟨_, rfl⟩, ⟨_, rfl⟩⟩

/-- **C72**, a single node in neutrino means: for every gray opacity of finite nonnegative strength, with positive
constants, the mean opacity on a table with one electron fraction is computed without complaint, and every lookup in it
is undefined behaviour. -/
theorem C72_neutrino_means_false {pc : PC XR} {h k c : ℝ} (hpc : Photons.FinitePC pc h k c) {kappa : ℝ} (hk : 0 ≤ kappa)
    (junk : ℕ → ℕ → XR) (lRhoMin lRhoMax lTMin lTMax YeMin YeMax lNuMin lNuMax : ℝ) {NRho NT NNu : ℤ} (hR : 2 ≤ NRho)
    (hT : 2 ≤ NT) (hNu : 1 ≤ NNu) (hw : lNuMin ≤ lNuMax) :
    ∃ m, (Neutrinos.MeanOpacityBase.construct false pc junk (⟨⟨3, pc⟩, pc, .fin kappa⟩ : GrayOpacity XR) (.fin lRhoMin)
        (.fin lRhoMax) NRho (.fin lTMin) (.fin lTMax) NT (.fin YeMin) (.fin YeMax) 1 (.fin lNuMin) (.fin lNuMax)
        NNu).Returns m ∧
      ∀ (rho temp Ye : XR) s, (MeanNeutrinoAPI.PlanckMeanAbsorptionCoefficient m rho temp Ye s).IsUB ∧
        (MeanNeutrinoAPI.RosselandMeanAbsorptionCoefficient m rho temp Ye s).IsUB := by
  set o : GrayOpacity XR := ⟨⟨3, pc⟩, pc, .fin kappa⟩ with ho
  set S : MeanTables.Sampler XR :=
    { coef := NeutrinoAPI.AbsorptionCoefficient o
      B := NeutrinoAPI.ThermalDistributionOfTNu o
      dBdT := NeutrinoAPI.DThermalDistributionOfTNuDT o } with hS
  set t₀ := MeanTables.setup junk (.fin lRhoMin) (.fin lRhoMax) NRho (.fin lTMin) (.fin lTMax) NT (.fin YeMin : XR)
    (.fin YeMax) 1 with ht₀
  have sums : ∀ (rho T Ye : XR) s, Pos rho → Pos T →
      ∃ r, MeanTables.cellSums S rho T Ye s (.fin lNuMin) (.fin lNuMax) NNu = ok r ∧ NonNegSums r := by
    intro rho T Ye s hrho hT'
    refine loop_ok (I := NonNegSums) NNu _ ?_ ?_
    · intro i _ r hr
      obtain ⟨h1, h2⟩ := sampleNu_pos hw hNu i
      obtain ⟨h3, h4⟩ := weights_nonNeg hpc (n := 3) (by norm_num) hT' h1
      exact ⟨_, rfl, addSample_nonNeg hrho (hrho.nonNeg.mul ⟨kappa, hk, rfl⟩) h3 h4 h1 h2 hr⟩
    · exact ⟨nonNeg_lit le_rfl, nonNeg_lit le_rfl, nonNeg_lit le_rfl, nonNeg_lit le_rfl⟩
  obtain ⟨t, ht⟩ := MeanTables.loops_returns (NRho := NRho) (NT := NT) (NYe := 1) (t₀ := t₀)
    (cell := MeanTables.fillCell S (.fin lNuMin) (.fin lNuMax) NNu) (by
    intro a b c' d ha hb hc hd t hs
    have hrho : Pos (MeanTables.fromLog_ ((t.lPlanck.range 3).x a)) := by
      refine pos_fromLog ?_
      unfold DataBox.range
      rw [hs.p2]
      exact node_finite lRhoMin lRhoMax hR a
    have hTT : Pos (MeanTables.fromLog_ ((t.lPlanck.range 2).x b)) := by
      refine pos_fromLog ?_
      unfold DataBox.range
      rw [hs.p2]
      exact node_finite lTMin lTMax hT b
    obtain ⟨s, hs'⟩ : ∃ s, Idx2RadType (d : ℤ) = ok s := by
      interval_cases d <;> exact ⟨_, rfl⟩
    obtain ⟨r, hr, hn⟩ := sums _ _ ((t.lPlanck.range 1).x c') s hrho hTT
    obtain ⟨m1, m2⟩ := means_nonNeg hn
    obtain ⟨t', ht'⟩ := MeanTables.store_returns (t := t) (k := MeanTables.means r) (hs.p1.trans rfl) (hs.r1.trans rfl) ha
      hb hc hd (number_toLog m1) (number_toLog m2)
    refine ⟨t', ?_, (MeanTables.store_effect hs ht').1⟩
    unfold MeanTables.fillCell
    simp only [hs', hr, ok_bind]
    exact ht')
  have hm : Neutrinos.MeanOpacityBase.construct false pc junk o (.fin lRhoMin) (.fin lRhoMax) NRho (.fin lTMin)
      (.fin lTMax) NT (.fin YeMin) (.fin YeMax) 1 (.fin lNuMin) (.fin lNuMax) NNu = ok ⟨pc, t⟩ := by
    show (MeanTables.loops NRho NT 1 (MeanTables.fillCell S (.fin lNuMin) (.fin lNuMax) NNu) t₀ >>= fun t =>
      pure (⟨pc, t⟩ : Neutrinos.MeanOpacityBase XR)) = _
    rw [ht]
    rfl
  refine ⟨⟨pc, t⟩, hm, fun rho temp Ye s => ?_⟩
  have := C72_neutrino_means false pc junk o (.fin lRhoMin) (.fin lRhoMax) NRho (.fin lTMin) (.fin lTMax) NT (.fin YeMin)
    (.fin YeMax) 1 (.fin lNuMin) (.fin lNuMax) NNu ⟨pc, t⟩ (.inl hm) rho temp Ye s
  exact ⟨this.1.2 (by omega), this.2.2 (by omega)⟩

end single

end Opac.Tables
