import Verif.Props.MeanDoubles
import Verif.Props.LookupDoubles
import Verif.Lemmas.MeanFiniteSums
import Verif.Lemmas.LookupFinite

/-!
# C75: mean opacities made in double precision can be looked up everywhere in the table, with finite results

C73 says that the constructors return.  They only check that the table has no NaN, not that it has no infinity.  Here: from an
ordinary opacity the tables have no infinity either, and each lookup at a density and a temperature inside the table returns
a finite nonnegative number.  (Photon Rosseland means need an opacity that is nowhere 0: the frequencies where it is 0 count
in the numerator only.)
-/

namespace Opac.Doubles
open Arith Photons Neutrinos Outcome

theorem returns_finite {h : ℤ} {f : Outcome (IE binary64)} (e : ∃ a, f = ok a ∧ Nn h a) : ReturnsFinite h f := by
  obtain ⟨a, e, x, ex, x0, hx⟩ := e
  exact ⟨a, e, x, dbl_of_val ex, x0, hx⟩

theorem between_nn {h : ℤ} {f : Outcome (IE binary64)} {a : IE binary64} (e : f = ok (ToLog a)) (s : Nn h a) (hh : h ≤ 420) :
    Between (-307) 128 f := by
  obtain ⟨y, ey, h0, h1⟩ := toLog_fin s hh
  exact ⟨_, y, e, ey, h0, h1⟩

end Opac.Doubles

namespace Opac.Photons
open Arith Spiner Outcome Doubles Tables Spec

variable {lRhoMin lRhoMax lTMin lTMax : ℝ} {NRho NT : ℤ}

/-- the bounds of a group -/
theorem group_bounds {b : List (IE binary64)} {ng : ℤ} (ha : AcceptableBounds b ng) (hb : OrdinaryBounds b) {g : ℕ}
    (hg : g < ng.toNat) : (b.getD g (lit 0)).val ≠ .nan ∧ UpperBound (b.getD (g + 1) (lit 0)) := by
  have := ha.enough
  have := ha.some_group
  constructor
  · have h1 := ha.not_nan g (b.getD g (lit 0)) (by omega) (by
      rw [List.getD_eq_getElem _ _ (by omega)]; exact List.getElem?_eq_getElem _)
    intro h2
    have : isNaN (b.getD g (lit 0)) = true := by
      show (match (b.getD g (lit 0)).val with | .nan => true | _ => false) = true
      rw [h2]
    rw [this] at h1
    cases h1
  · have hmem : b.getD (g + 1) (lit 0) ∈ b.tail := by
      rw [List.getD_eq_getElem _ _ (by omega)]
      have : b[g + 1]'(by omega) = b.tail[g]'(by rw [List.length_tail]; omega) := by rw [List.getElem_tail]
      rw [this]
      exact List.getElem_mem _
    rcases hb _ hmem with h | ⟨x, h, hx⟩
    · exact .inl (by rw [h]; rfl)
    · exact .inr ⟨x, by rw [h]; rfl, hx⟩

/-- **C75 for the tables**, absorption and scattering alike: they are made; in them each group's Planck mean, and its
Rosseland mean if the opacity is nowhere 0, is finite at every density and temperature inside the table. -/
theorem C75_tables {pc : PC ℝ} (hpc : CgsSized pc) (junk : ℕ → IE binary64)
    {coef : IE binary64 → IE binary64 → IE binary64 → IE binary64} (hc : OrdinaryCoefficient coef)
    (hr : OrdinaryAxis (-18) 18 lRhoMin lRhoMax NRho) (hr' : DoubleAxis ⟨lRhoMin, lRhoMax, NRho⟩)
    (hT : OrdinaryAxis (-6) 13.5 lTMin lTMax NT) (hT' : DoubleAxis ⟨lTMin, lTMax, NT⟩) {b : List (IE binary64)} {ng : ℤ}
    (ha : AcceptableBounds b ng) (hb : OrdinaryBounds b) {NNu : ℤ} (hN : 2 ≤ NNu) (hN' : NNu ≤ 2 ^ 31) :
    ∃ t, (MGTables.Impl_ pc.dbl junk coef (dbl lRhoMin) (dbl lRhoMax) NRho (dbl lTMin) (dbl lTMax) NT b ng NNu).Returns t ∧
      ∀ (g : ℤ) (ρ T : ℝ), 0 ≤ g → g < ng → 0 < ρ → 0 < T → lRhoMin ≤ meanCoord ρ → meanCoord ρ ≤ lRhoMax →
        lTMin ≤ meanCoord T → meanCoord T ≤ lTMax →
        ReturnsFinite 563 (t.PlanckGroupCoefficient (dbl ρ) (dbl T) g) ∧
        (OpaqueCoefficient coef → ReturnsFinite 563 (t.RosselandGroupCoefficient (dbl ρ) (dbl T) g)) := by
  obtain ⟨t, ht⟩ := C73_tables hpc junk hc hr hT ha hb hN hN'
  refine ⟨t, ht, ?_⟩
  intro g ρ T g0 g1 hρ hT0 a0 a1 b0 b1
  have F := Impl_filled (lit 0) ht
  obtain ⟨n, rfl⟩ := Int.eq_ofNat_of_zero_le g0
  have hg : n < ng.toNat := by omega
  obtain ⟨hlo, hhi⟩ := group_bounds ha hb hg
  have cell : ∀ i j : ℤ, 0 ≤ i → i < NRho → 0 ≤ j → j < NT →
      Between (-307) 128 (t.lPlanck.read [i, j, (n : ℤ)]) ∧
      (OpaqueCoefficient coef → Between (-307) 128 (t.lRosseland.read [i, j, (n : ℤ)])) := by
    intro i j i0 i1 j0 j1
    obtain ⟨i, rfl⟩ := Int.eq_ofNat_of_zero_le i0
    obtain ⟨j, rfl⟩ := Int.eq_ofNat_of_zero_le j0
    obtain ⟨c1, c2⟩ := F.cell j i n j1 i1 hg trivial
    obtain ⟨br, sr⟩ := node_sim hr (l := -60) (u := 60) (by norm_num) (by norm_num) (by norm_num) (by norm_num) (by norm_num)
      (by norm_num) (by norm_num) (by norm_num) i1
    obtain ⟨bT, sT⟩ := node_sim hT (l := -20) (u := 45) (by norm_num) (by norm_num) (by norm_num) (by norm_num) (by norm_num)
      (by norm_num) (by norm_num) (by norm_num) j1
    obtain ⟨m1, m2⟩ := means_finite hpc hc sr sT hlo hhi (N := NNu) (by omega) hN'
    exact ⟨between_nn c1 m1 (by norm_num), fun ho => between_nn c2 (m2 ho) (by norm_num)⟩
  have e2 : t.lPlanck.grid 2 = (⟨lRhoMin, lRhoMax, NRho⟩ : Grid ℝ).dbl := by rw [F.grid1]; rfl
  have e1 : t.lPlanck.grid 1 = (⟨lTMin, lTMax, NT⟩ : Grid ℝ).dbl := by rw [F.grid1]; rfl
  have e2' : t.lRosseland.grid 2 = (⟨lRhoMin, lRhoMax, NRho⟩ : Grid ℝ).dbl := by rw [F.grid2]; rfl
  have e1' : t.lRosseland.grid 1 = (⟨lTMin, lTMax, NT⟩ : Grid ℝ).dbl := by rw [F.grid2]; rfl
  exact ⟨returns_finite (photon_lookup hr' hT' e2 e1 (fun i j i0 i1 j0 j1 => (cell i j i0 i1 j0 j1).1) hρ hT0 ⟨a0, a1⟩ ⟨b0, b1⟩),
    fun ho => returns_finite (photon_lookup hr' hT' e2' e1' (fun i j i0 i1 j0 j1 => (cell i j i0 i1 j0 j1).2 ho) hρ hT0 ⟨a0, a1⟩
      ⟨b0, b1⟩)⟩

/-- **C75 for photon absorption** -/
theorem C75_absorption {O : Type} [PhotonAPI (IE binary64) O] {opac : O} {pc : PC ℝ} (hpc : CgsSized pc)
    (junk : ℕ → IE binary64) (hc : OrdinaryCoefficient (PhotonAPI.AbsorptionCoefficient opac))
    (hr : OrdinaryAxis (-18) 18 lRhoMin lRhoMax NRho) (hr' : DoubleAxis ⟨lRhoMin, lRhoMax, NRho⟩)
    (hT : OrdinaryAxis (-6) 13.5 lTMin lTMax NT) (hT' : DoubleAxis ⟨lTMin, lTMax, NT⟩) {b : List (IE binary64)} {ng : ℤ}
    (ha : AcceptableBounds b ng) (hb : OrdinaryBounds b) {NNu : ℤ} (hN : 2 ≤ NNu) (hN' : NNu ≤ 2 ^ 31) :
    ∃ m, (MeanOpacityBase.construct pc.dbl junk opac (dbl lRhoMin) (dbl lRhoMax) NRho (dbl lTMin) (dbl lTMax) NT b ng
        NNu).Returns m ∧
      ∀ (g : ℤ) (ρ T : ℝ), 0 ≤ g → g < ng → 0 < ρ → 0 < T → lRhoMin ≤ meanCoord ρ → meanCoord ρ ≤ lRhoMax →
        lTMin ≤ meanCoord T → meanCoord T ≤ lTMax →
        ReturnsFinite 563 (MeanPhotonAPI.PlanckGroupAbsorptionCoefficient m (dbl ρ) (dbl T) g) ∧
        (OpaqueCoefficient (PhotonAPI.AbsorptionCoefficient opac) →
          ReturnsFinite 563 (MeanPhotonAPI.RosselandGroupAbsorptionCoefficient m (dbl ρ) (dbl T) g)) := by
  obtain ⟨t, ht, h⟩ := C75_tables hpc junk hc hr hr' hT hT' ha hb hN hN'
  refine ⟨⟨pc.dbl, t⟩, ?_, h⟩
  unfold Outcome.Returns at ht
  unfold MeanOpacityBase.construct Outcome.Returns
  rw [ht]; rfl

/-- **C75 for photon scattering** -/
theorem C75_scattering {O : Type} [PhotonSAPI (IE binary64) O] {opac : O} {pc : PC ℝ} (hpc : CgsSized pc)
    (junk : ℕ → IE binary64) (hc : OrdinaryCoefficient (PhotonSAPI.TotalScatteringCoefficient opac))
    (hr : OrdinaryAxis (-18) 18 lRhoMin lRhoMax NRho) (hr' : DoubleAxis ⟨lRhoMin, lRhoMax, NRho⟩)
    (hT : OrdinaryAxis (-6) 13.5 lTMin lTMax NT) (hT' : DoubleAxis ⟨lTMin, lTMax, NT⟩) {b : List (IE binary64)} {ng : ℤ}
    (ha : AcceptableBounds b ng) (hb : OrdinaryBounds b) {NNu : ℤ} (hN : 2 ≤ NNu) (hN' : NNu ≤ 2 ^ 31) :
    ∃ m, (MeanSOpacityBase.construct pc.dbl junk opac (dbl lRhoMin) (dbl lRhoMax) NRho (dbl lTMin) (dbl lTMax) NT b ng
        NNu).Returns m ∧
      ∀ (g : ℤ) (ρ T : ℝ), 0 ≤ g → g < ng → 0 < ρ → 0 < T → lRhoMin ≤ meanCoord ρ → meanCoord ρ ≤ lRhoMax →
        lTMin ≤ meanCoord T → meanCoord T ≤ lTMax →
        ReturnsFinite 563 (MeanPhotonSAPI.PlanckGroupScatteringCoefficient m (dbl ρ) (dbl T) g) ∧
        (OpaqueCoefficient (PhotonSAPI.TotalScatteringCoefficient opac) →
          ReturnsFinite 563 (MeanPhotonSAPI.RosselandGroupScatteringCoefficient m (dbl ρ) (dbl T) g)) := by
  obtain ⟨t, ht, h⟩ := C75_tables hpc junk hc hr hr' hT hT' ha hb hN hN'
  refine ⟨⟨pc.dbl, t⟩, ?_, h⟩
  unfold Outcome.Returns at ht
  unfold MeanSOpacityBase.construct Outcome.Returns
  rw [ht]; rfl

/-- gray opacities other than 0 are nowhere transparent -/
theorem C75_gray_opaque (pc : PC (IE binary64)) {κ : ℝ} (hκ : Bits (-60) 60 κ) :
    OpaqueCoefficient (PhotonAPI.AbsorptionCoefficient (⟨pc, dbl κ⟩ : GrayOpacity (IE binary64))) := by
  intro ρ T ν hρ _ _
  show ∃ x, dbl ρ * dbl κ = dbl x ∧ _
  have sρ : Sim (-60) 60 (dbl ρ) (⟨ρ⟩ : Fl rd64) := ⟨rfl, hρ⟩
  have sκ : Sim (-60) 60 (dbl κ) (⟨κ⟩ : Fl rd64) := ⟨rfl, hκ⟩
  have s := (sρ.mul sκ).mono (l' := -270) (h' := 200) (by norm_num) (by norm_num)
  exact ⟨_, dbl_of_val s.1, s.2⟩

/-- gray scattering is nowhere 0 -/
theorem C75_gray_scattering_opaque {σ apm : ℝ} (hσ : Bits (-120) 40 σ) (ha : Bits (-90) 40 apm) :
    OpaqueCoefficient (PhotonSAPI.TotalScatteringCoefficient (⟨dbl σ, dbl apm⟩ : GraySOpacity (IE binary64))) := by
  intro ρ T ν hρ _ _
  have sρ : Sim (-60) 60 (dbl ρ) (⟨ρ⟩ : Fl rd64) := ⟨rfl, hρ⟩
  have sσ : Sim (-120) 40 (dbl σ) (⟨σ⟩ : Fl rd64) := ⟨rfl, hσ⟩
  have sa : Sim (-90) 40 (dbl apm) (⟨apm⟩ : Fl rd64) := ⟨rfl, ha⟩
  have s := ((sρ.div sa).mul sσ).mono (l' := -270) (h' := 200) (by norm_num) (by norm_num)
  exact ⟨_, dbl_of_val s.1, s.2⟩

/-- Thomson scattering is nowhere 0 -/
theorem C75_thomson_opaque {pc : PC ℝ} (hpc : CgsSized pc) {apm : ℝ} (ha : Bits (-90) 40 apm) :
    OpaqueCoefficient (PhotonSAPI.TotalScatteringCoefficient (ThomsonSOpacity.construct pc.dbl (dbl apm))) := by
  intro ρ T ν hρ _ _
  have sρ : Sim (-60) 60 (dbl ρ) (⟨ρ⟩ : Fl rd64) := ⟨rfl, hρ⟩
  have sa : Sim (-90) 40 (dbl apm) (⟨apm⟩ : Fl rd64) := ⟨rfl, ha⟩
  have sα : Sim (-10) (-4) pc.dbl.alpha (fl pc).alpha := ⟨rfl, hpc.alpha⟩
  have sb : Sim (-96) (-82) pc.dbl.hbar (fl pc).hbar := ⟨rfl, hpc.hbar⟩
  have s1 := (((Sim.lit 8 3 3).mul Sim.pi).div (Sim.lit 3 1 2)).mul
    (((sα.mul sb).div ((sme hpc).mul (sc hpc))).powInt 2 2)
  have s := (((sρ.div sa).div (Sim.lit 2 1 1)).mul s1).mono (l' := -270) (h' := 200) (by norm_num) (by norm_num)
  exact ⟨_, dbl_of_val s.1, s.2⟩

theorem tableNumber_zero : TableNumber 0 := ⟨binary64.rd_zero, .inl rfl⟩

/-- coordinates of ordinary numbers -/
theorem coord_between {x : ℝ} {m n : ℤ} (hx : 0 < x) (h0 : (10 : ℝ) ^ m ≤ x) (h1 : x + 1 ≤ (10 : ℝ) ^ n) :
    (m : ℝ) ≤ meanCoord x ∧ meanCoord x ≤ n := by
  have ht := Neutrinos.SpinerOpacity.tiny_pos
  have ht1 : Neutrinos.SpinerOpacity.tiny ≤ 1 := tiny_le.trans (by norm_num)
  unfold meanCoord
  rw [abs_of_pos hx]
  constructor
  · rw [Real.le_logb_iff_rpow_le (by norm_num) (by linarith), Real.rpow_intCast]
    linarith
  · rw [Real.logb_le_iff_le_rpow (by norm_num) (by linarith), Real.rpow_intCast]
    linarith

/-- The library's constants, a gray opacity of 0.4 cm²/g, densities from 1e-10 to 1e10 g/cm³, temperatures from 1 K to 1e9 K
and the groups 0–1e15 Hz and 1e15 Hz–infinity: at 1 g/cm³ and 10000 K both means of both groups are finite. -/
example (junk : ℕ → IE binary64) :
    ∃ m, (MeanOpacityBase.construct PhysicalConstantsCGS junk (⟨PhysicalConstantsCGS, dbl 0.4⟩ : GrayOpacity (IE binary64))
      (dbl (-10)) (dbl 10) 40 (dbl 0) (dbl 9) 50 [dbl 0, dbl 1e15, infinity] 2 64).Returns m ∧
      ∀ g : ℤ, 0 ≤ g → g < 2 →
        ReturnsFinite 563 (MeanPhotonAPI.PlanckGroupAbsorptionCoefficient m (dbl 1) (dbl 10000) g) ∧
        ReturnsFinite 563 (MeanPhotonAPI.RosselandGroupAbsorptionCoefficient m (dbl 1) (dbl 10000) g) := by
  obtain ⟨pc, e, hpc⟩ := cgs_sized
  rw [← e]
  have n1 := tableNumber_int (-10) (by norm_num) (by norm_num)
  have n2 := tableNumber_int 10 (by norm_num) (by norm_num)
  have n3 := tableNumber_int 9 (by norm_num) (by norm_num)
  push_cast at n1 n2 n3
  obtain ⟨m, hm, h⟩ := C75_absorption hpc junk (C73_gray_ordinary pc.dbl (κ := 0.4) (.inr (by norm_num [Bits]))) (lRhoMin := -10)
    (lRhoMax := 10) (NRho := 40) (lTMin := 0) (lTMax := 9) (NT := 50)
    ⟨by norm_num, by norm_num, by norm_num, by norm_num, by norm_num⟩
    ⟨by norm_num, by norm_num, by norm_num, by norm_num, by norm_num, n1, n2⟩
    ⟨by norm_num, by norm_num, by norm_num, by norm_num, by norm_num⟩
    ⟨by norm_num, by norm_num, by norm_num, by norm_num, by norm_num, tableNumber_zero, n3⟩ twoGroups.1 twoGroups.2 (NNu := 64)
    (by norm_num) (by norm_num)
  refine ⟨m, hm, fun g g0 g1 => ?_⟩
  have a := coord_between (x := 1) (m := -10) (n := 10) (by norm_num) (by norm_num) (by norm_num)
  have b := coord_between (x := 10000) (m := 0) (n := 9) (by norm_num) (by norm_num) (by norm_num)
  push_cast at a b
  obtain ⟨h1, h2⟩ := h g 1 10000 g0 g1 (by norm_num) (by norm_num) a.1 a.2 b.1 b.2
  exact ⟨h1, h2 (C75_gray_opaque pc.dbl (by norm_num [Bits]))⟩

end Opac.Photons

namespace Opac.Doubles
open Arith Neutrinos MeanTables Spiner Outcome Tables

section tables
variable {o : Sampler (IE binary64)} {l1 l2 : IE binary64} {y1 y2 : ℝ} {NNu : ℤ} {lRhoMin lRhoMax lTMin lTMax YeMin YeMax : ℝ}
  {NRho NT NYe : ℤ} {junk : ℕ → ℕ → IE binary64}

/-- the means of a node -/
theorem node_finite (hr : OrdinaryAxis (-18) 18 lRhoMin lRhoMax NRho) (hT : OrdinaryAxis (-6) 13.5 lTMin lTMax NT)
    (hY : OrdinaryAxis (-40) 40 YeMin YeMax NYe) (ho : OrdinarySource YeMin YeMax o.coef o.B o.dBdT)
    (e1 : l1.val = .fin y1) (e2 : l2.val = .fin y2) (hy : y1 ≤ y2) (h1 : -6.01 ≤ y1) (h2 : y2 ≤ 30.39) (hN : 1 ≤ NNu)
    (hN' : NNu ≤ 2 ^ 31) {a b c d : ℕ} (ha : (a : ℤ) < NRho) (hb : (b : ℤ) < NT) (hc : (c : ℤ) < NYe) {k : Sums (IE binary64)}
    (hk : NodeSums o l1 l2 NNu (fresh junk lRhoMin lRhoMax NRho lTMin lTMax NT YeMin YeMax NYe) a b c d k) :
    Nn 416 (means k).1 ∧ Nn 416 (means k).2 := by
  obtain ⟨ty, -, hk⟩ := hk
  obtain ⟨n, rfl⟩ := Int.eq_ofNat_of_zero_le (show 0 ≤ NNu by omega)
  set t₀ := fresh junk lRhoMin lRhoMax NRho lTMin lTMax NT YeMin YeMax NYe with ht₀
  obtain ⟨s, hs, hfin⟩ := forLoopM_inv n (fun inu s =>
      let nu := sampleNu l1 l2 (n : ℤ) inu
      (o.coef (fromLog_ ((t₀.lPlanck.range 3).x a)) (fromLog_ ((t₀.lPlanck.range 2).x b)) ((t₀.lPlanck.range 1).x c) ty nu).map' (fun alpha =>
        addSample (fromLog_ ((t₀.lPlanck.range 3).x a)) alpha (o.B (fromLog_ ((t₀.lPlanck.range 2).x b)) ty nu)
          (o.dBdT (fromLog_ ((t₀.lPlanck.range 2).x b)) ty nu) nu ((l2 - l1) / lit (n : ℤ)) s)) FinSums Sums.zero FinSums.zero (by
    intro i hi s hs
    have g3 : t₀.lPlanck.range 3 = ⟨dbl lRhoMin, dbl lRhoMax, NRho⟩ := rfl
    have g2 : t₀.lPlanck.range 2 = ⟨dbl lTMin, dbl lTMax, NT⟩ := rfl
    have g1 : t₀.lPlanck.range 1 = ⟨dbl YeMin, dbl YeMax, NYe⟩ := rfl
    rw [g1, g2, g3]
    obtain ⟨br, sr⟩ := node_sim hr (l := -60) (u := 60) (by norm_num) (by norm_num) (by norm_num) (by norm_num) (by norm_num)
      (by norm_num) (by norm_num) (by norm_num) ha
    obtain ⟨bT, sT⟩ := node_sim hT (l := -20) (u := 45) (by norm_num) (by norm_num) (by norm_num) (by norm_num) (by norm_num)
      (by norm_num) (by norm_num) (by norm_num) hb
    obtain ⟨v, ev, v1, v2⟩ := ye_node hY hc
    obtain ⟨hd, hp⟩ := points e1 e2 hy h1 h2 hN hN'
    obtain ⟨bn, sn⟩ := hp i (by exact_mod_cast hi)
    have er := dbl_of_val sr.1
    have eT := dbl_of_val sT.1
    have en := dbl_of_val sn.1
    obtain ⟨al, hal, oal⟩ := ho.coef _ _ _ ty _ sr.2 sT.2 v1 v2 sn.2
    have hB := weight_nn (ho.spectrum _ ty _ sT.2 sn.2)
    have hD := weight_nn (ho.derivative _ ty _ sT.2 sn.2)
    rw [← eT, ← en] at hB hD
    rw [← er, ← eT, ← en, ← ev] at hal
    have hal' : o.coef (fromLog_ ((⟨dbl lRhoMin, dbl lRhoMax, NRho⟩ : Grid (IE binary64)).x a))
      (fromLog_ ((⟨dbl lTMin, dbl lTMax, NT⟩ : Grid (IE binary64)).x b)) ((⟨dbl YeMin, dbl YeMax, NYe⟩ : Grid (IE binary64)).x c) ty
      (sampleNu l1 l2 (n : ℤ) i) = ok al := hal
    refine ⟨_, ?_, hs.step (by omega) sr oal hB hD sn hd⟩
    simp only [hal', map'_ok]
    rfl)
  have e : k = s := by
    have hk' := hk
    unfold cellSums at hk'
    rw [hs] at hk'
    injection hk' with h
    exact h.symm
  rw [e]
  exact hfin.finite (by omega)

/-- lookups of filled tables -/
theorem filled_lookup (hr : OrdinaryAxis (-18) 18 lRhoMin lRhoMax NRho) (hr' : DoubleAxis ⟨lRhoMin, lRhoMax, NRho⟩)
    (hT : OrdinaryAxis (-6) 13.5 lTMin lTMax NT) (hT' : DoubleAxis ⟨lTMin, lTMax, NT⟩)
    (hY : OrdinaryAxis (-40) 40 YeMin YeMax NYe) (hY' : DoubleAxis ⟨YeMin, YeMax, NYe⟩)
    (ho : OrdinarySource YeMin YeMax o.coef o.B o.dBdT) (e1 : l1.val = .fin y1) (e2 : l2.val = .fin y2) (hy : y1 ≤ y2)
    (h1 : -6.01 ≤ y1) (h2 : y2 ≤ 30.39) (hN : 1 ≤ NNu) (hN' : NNu ≤ 2 ^ 31) {t : MeanTables (IE binary64)}
    (hsame : MeanTables.Same (fresh junk lRhoMin lRhoMax NRho lTMin lTMax NT YeMin YeMax NYe) t)
    (hfill : ∀ a b c d : ℕ, (a : ℤ) < NRho → (b : ℤ) < NT → (c : ℤ) < NYe → d < 3 →
      ∃ k, NodeSums o l1 l2 NNu (fresh junk lRhoMin lRhoMax NRho lTMin lTMax NT YeMin YeMax NYe) a b c d k ∧
        Cell.val t (.planck a b c d) = ok (toLog_ (means k).1) ∧ Cell.val t (.rosseland a b c d) = ok (toLog_ (means k).2))
    {s : RadiationType} {d : ℕ} (hs : SpeciesIndex s d) {ρ T Ye : ℝ} (hρ : 0 < ρ) (hT0 : 0 < T) (hYe : TableNumber Ye)
    (a0 : lRhoMin ≤ meanCoord ρ) (a1 : meanCoord ρ ≤ lRhoMax) (b0 : lTMin ≤ meanCoord T) (b1 : meanCoord T ≤ lTMax)
    (c0 : YeMin ≤ Ye) (c1 : Ye ≤ YeMax) :
    ReturnsFinite 563 (MeanTables.lookup t.lPlanck (dbl ρ) (dbl T) (dbl Ye) s) ∧
      ReturnsFinite 563 (MeanTables.lookup t.lRosseland (dbl ρ) (dbl T) (dbl Ye) s) := by
  have cell : ∀ i j k : ℤ, 0 ≤ i → i < NRho → 0 ≤ j → j < NT → 0 ≤ k → k < NYe →
      Between (-307) 128 (t.lPlanck.read [i, j, k, (d : ℤ)]) ∧ Between (-307) 128 (t.lRosseland.read [i, j, k, (d : ℤ)]) := by
    intro i j k i0 i1 j0 j1 k0 k1
    obtain ⟨i, rfl⟩ := Int.eq_ofNat_of_zero_le i0
    obtain ⟨j, rfl⟩ := Int.eq_ofNat_of_zero_le j0
    obtain ⟨k, rfl⟩ := Int.eq_ofNat_of_zero_le k0
    obtain ⟨m, hm, p1, p2⟩ := hfill i j k d i1 j1 k1 hs.spec.1
    obtain ⟨n1, n2⟩ := node_finite hr hT hY ho e1 e2 hy h1 h2 hN hN' i1 j1 k1 hm
    rw [toLog_eq] at p1 p2
    exact ⟨between_nn p1 n1 (by norm_num), between_nn p2 n2 (by norm_num)⟩
  exact ⟨returns_finite (neutrino_lookup hr' hT' hY' (by rw [hsame.p2]; rfl) (by rw [hsame.p2]; rfl) (by rw [hsame.p2]; rfl) hs
      (fun i j k i0 i1 j0 j1 k0 k1 => (cell i j k i0 i1 j0 j1 k0 k1).1) hρ hT0 hYe ⟨a0, a1⟩ ⟨b0, b1⟩ ⟨c0, c1⟩),
    returns_finite (neutrino_lookup hr' hT' hY' (by rw [hsame.r2]; rfl) (by rw [hsame.r2]; rfl) (by rw [hsame.r2]; rfl) hs
      (fun i j k i0 i1 j0 j1 k0 k1 => (cell i j k i0 i1 j0 j1 k0 k1).2) hρ hT0 hYe ⟨a0, a1⟩ ⟨b0, b1⟩ ⟨c0, c1⟩)⟩

end tables

end Opac.Doubles

namespace Opac.Neutrinos
open Arith Spiner Outcome Doubles MeanTables Tables

variable {lRhoMin lRhoMax lTMin lTMax YeMin YeMax : ℝ} {NRho NT NYe : ℤ}

/-- **C75 for neutrino absorption**, over the window the user gives or the default one; here the opacity may be 0 somewhere.
(`SpeciesIndex`: electron neutrinos, electron antineutrinos and heavy neutrinos.) -/
theorem C75_absorption {O : Type} [NeutrinoAPI (IE binary64) O] {opac : O} {pc : PC ℝ} (hpc : CgsSized pc) {debug : Bool}
    (hdebug : debug = true → RPC.beq (RPC.ofPC pc.dbl) (NeutrinoAPI.GetRuntimePhysicalConstants opac) = true)
    (junk : ℕ → ℕ → IE binary64)
    (ho : OrdinarySource YeMin YeMax (NeutrinoAPI.AbsorptionCoefficient opac) (NeutrinoAPI.ThermalDistributionOfTNu opac)
      (NeutrinoAPI.DThermalDistributionOfTNuDT opac))
    (hr : OrdinaryAxis (-18) 18 lRhoMin lRhoMax NRho) (hr' : DoubleAxis ⟨lRhoMin, lRhoMax, NRho⟩)
    (hT : OrdinaryAxis (-6) 13.5 lTMin lTMax NT) (hT' : DoubleAxis ⟨lTMin, lTMax, NT⟩)
    (hY : OrdinaryAxis (-40) 40 YeMin YeMax NYe) (hY' : DoubleAxis ⟨YeMin, YeMax, NYe⟩) {lNuMin lNuMax : ℝ} (h1 : -6 ≤ lNuMin)
    (h2 : lNuMin ≤ lNuMax) (h3 : lNuMax ≤ 30) {NNu : ℤ} (hN : 1 ≤ NNu) (hN' : NNu ≤ 2 ^ 31)
    {f : Outcome (MeanOpacityBase (IE binary64))}
    (hf : f = MeanOpacityBase.construct debug pc.dbl junk opac (dbl lRhoMin) (dbl lRhoMax) NRho (dbl lTMin) (dbl lTMax) NT
        (dbl YeMin) (dbl YeMax) NYe (dbl lNuMin) (dbl lNuMax) NNu ∨
      f = MeanOpacityBase.constructAuto debug pc.dbl junk opac (dbl lRhoMin) (dbl lRhoMax) NRho (dbl lTMin) (dbl lTMax) NT
        (dbl YeMin) (dbl YeMax) NYe) :
    ∃ m, f.Returns m ∧
      ∀ (s : RadiationType) (d : ℕ) (ρ T Ye : ℝ), SpeciesIndex s d → 0 < ρ → 0 < T → TableNumber Ye →
        lRhoMin ≤ meanCoord ρ → meanCoord ρ ≤ lRhoMax → lTMin ≤ meanCoord T → meanCoord T ≤ lTMax → YeMin ≤ Ye → Ye ≤ YeMax →
        ReturnsFinite 563 (MeanNeutrinoAPI.PlanckMeanAbsorptionCoefficient m (dbl ρ) (dbl T) (dbl Ye) s) ∧
        ReturnsFinite 563 (MeanNeutrinoAPI.RosselandMeanAbsorptionCoefficient m (dbl ρ) (dbl T) (dbl Ye) s) := by
  have hd : (debug && !(RPC.beq (RPC.ofPC pc.dbl) (NeutrinoAPI.GetRuntimePhysicalConstants opac))) = false := by
    cases debug
    · rfl
    · rw [hdebug rfl]; rfl
  have key : ∀ {l1 l2 : IE binary64} {y1 y2 : ℝ} {NNu : ℤ}, l1.val = .fin y1 → l2.val = .fin y2 → y1 ≤ y2 → -6.01 ≤ y1 →
      y2 ≤ 30.39 → 1 ≤ NNu → NNu ≤ 2 ^ 31 →
      ∃ t, loops NRho NT NYe (fillCell ⟨NeutrinoAPI.AbsorptionCoefficient opac, NeutrinoAPI.ThermalDistributionOfTNu opac,
          NeutrinoAPI.DThermalDistributionOfTNuDT opac⟩ l1 l2 NNu)
          (fresh junk lRhoMin lRhoMax NRho lTMin lTMax NT YeMin YeMax NYe) = ok t ∧
        ∀ (s : RadiationType) (d : ℕ) (ρ T Ye : ℝ), SpeciesIndex s d → 0 < ρ → 0 < T → TableNumber Ye →
        lRhoMin ≤ meanCoord ρ → meanCoord ρ ≤ lRhoMax → lTMin ≤ meanCoord T → meanCoord T ≤ lTMax → YeMin ≤ Ye → Ye ≤ YeMax →
        ReturnsFinite 563 (MeanTables.lookup t.lPlanck (dbl ρ) (dbl T) (dbl Ye) s) ∧
        ReturnsFinite 563 (MeanTables.lookup t.lRosseland (dbl ρ) (dbl T) (dbl Ye) s) := by
    intro l1 l2 y1 y2 NNu e1 e2 hy g1 g2 n1 n2
    obtain ⟨t, ht⟩ := loops_returns (fun a b c d ha hb hc hd t hs =>
      cell_returns (junk := junk) (o := ⟨NeutrinoAPI.AbsorptionCoefficient opac, NeutrinoAPI.ThermalDistributionOfTNu opac,
        NeutrinoAPI.DThermalDistributionOfTNuDT opac⟩) hr hT hY ho e1 e2 hy g1 g2 n1 n2 ha hb hc hd hs)
    obtain ⟨k1, k2⟩ := loops_fills (fun a b c d t t' => fillCell_fills a b c d t t') ht
    refine ⟨t, ht, ?_⟩
    intro s d ρ T Ye hs hρ hT0 hYe a0 a1 b0 b1 c0 c1
    exact filled_lookup hr hr' hT hT' hY hY' ho e1 e2 hy g1 g2 n1 n2 k1 k2 hs hρ hT0 hYe a0 a1 b0 b1 c0 c1
  rcases hf with rfl | rfl
  · obtain ⟨t, ht, h⟩ := key (l1 := dbl lNuMin) (l2 := dbl lNuMax) rfl rfl h2 (by linarith) (by linarith) hN hN'
    refine ⟨⟨pc.dbl, t⟩, ?_, h⟩
    unfold MeanOpacityBase.construct MeanOpacityBase.Impl_ Outcome.Returns
    simp only [hd, Bool.false_eq_true, if_false]
    unfold fresh at ht
    rw [ht]; rfl
  · obtain ⟨y1, y2, e1, e2, hy, g1, g2⟩ := auto_window hpc hT
    obtain ⟨t, ht, h⟩ := key e1 e2 hy g1 g2 (NNu := 100) (by norm_num) (by norm_num)
    refine ⟨⟨pc.dbl, t⟩, ?_, h⟩
    unfold MeanOpacityBase.constructAuto MeanOpacityBase.Impl_ Outcome.Returns
    simp only [hd, Bool.false_eq_true, if_false, if_true]
    unfold fresh at ht
    rw [ht]; rfl

/-- **C75 for neutrino scattering** -/
theorem C75_scattering {O : Type} [NeutrinoSAPI (IE binary64) O] {opac : O} {pc : PC ℝ} (hpc : CgsSized pc)
    {D : FermiDirac ℝ} (junk : ℕ → ℕ → IE binary64)
    (ho : OrdinarySource YeMin YeMax (fun rho T Ye s nu => ok (NeutrinoSAPI.TotalScatteringCoefficient opac rho T Ye s nu))
      (fun T _ nu => D.dbl.ThermalDistributionOfTNu T nu) (fun T _ nu => D.dbl.DThermalDistributionOfTNuDT T nu))
    (hr : OrdinaryAxis (-18) 18 lRhoMin lRhoMax NRho) (hr' : DoubleAxis ⟨lRhoMin, lRhoMax, NRho⟩)
    (hT : OrdinaryAxis (-6) 13.5 lTMin lTMax NT) (hT' : DoubleAxis ⟨lTMin, lTMax, NT⟩)
    (hY : OrdinaryAxis (-40) 40 YeMin YeMax NYe) (hY' : DoubleAxis ⟨YeMin, YeMax, NYe⟩) {lNuMin lNuMax : ℝ} (h1 : -6 ≤ lNuMin)
    (h2 : lNuMin ≤ lNuMax) (h3 : lNuMax ≤ 30) (NNu : ℤ) {f : Outcome (MeanSOpacityBase (IE binary64))}
    (hf : f = MeanSOpacityBase.construct D.dbl pc.dbl junk opac (dbl lRhoMin) (dbl lRhoMax) NRho (dbl lTMin) (dbl lTMax) NT
        (dbl YeMin) (dbl YeMax) NYe (dbl lNuMin) (dbl lNuMax) NNu ∨
      f = MeanSOpacityBase.constructAuto D.dbl pc.dbl junk opac (dbl lRhoMin) (dbl lRhoMax) NRho (dbl lTMin) (dbl lTMax) NT
        (dbl YeMin) (dbl YeMax) NYe) :
    ∃ m, f.Returns m ∧
      ∀ (s : RadiationType) (d : ℕ) (ρ T Ye : ℝ), SpeciesIndex s d → 0 < ρ → 0 < T → TableNumber Ye →
        lRhoMin ≤ meanCoord ρ → meanCoord ρ ≤ lRhoMax → lTMin ≤ meanCoord T → meanCoord T ≤ lTMax → YeMin ≤ Ye → Ye ≤ YeMax →
        ReturnsFinite 563 (MeanNeutrinoSAPI.PlanckMeanTotalScatteringCoefficient m (dbl ρ) (dbl T) (dbl Ye) s) ∧
        ReturnsFinite 563 (MeanNeutrinoSAPI.RosselandMeanTotalScatteringCoefficient m (dbl ρ) (dbl T) (dbl Ye) s) := by
  have key : ∀ {l1 l2 : IE binary64} {y1 y2 : ℝ}, l1.val = .fin y1 → l2.val = .fin y2 → y1 ≤ y2 → -6.01 ≤ y1 →
      y2 ≤ 30.39 →
      ∃ t, loops NRho NT NYe (fillCellS ⟨fun rho T Ye s nu => ok (NeutrinoSAPI.TotalScatteringCoefficient opac rho T Ye s nu),
          fun T _ nu => D.dbl.ThermalDistributionOfTNu T nu, fun T _ nu => D.dbl.DThermalDistributionOfTNuDT T nu⟩ l1 l2 100)
          (fresh junk lRhoMin lRhoMax NRho lTMin lTMax NT YeMin YeMax NYe) = ok t ∧
        ∀ (s : RadiationType) (d : ℕ) (ρ T Ye : ℝ), SpeciesIndex s d → 0 < ρ → 0 < T → TableNumber Ye →
        lRhoMin ≤ meanCoord ρ → meanCoord ρ ≤ lRhoMax → lTMin ≤ meanCoord T → meanCoord T ≤ lTMax → YeMin ≤ Ye → Ye ≤ YeMax →
        ReturnsFinite 563 (MeanTables.lookup t.lPlanck (dbl ρ) (dbl T) (dbl Ye) s) ∧
        ReturnsFinite 563 (MeanTables.lookup t.lRosseland (dbl ρ) (dbl T) (dbl Ye) s) := by
    intro l1 l2 y1 y2 e1 e2 hy g1 g2
    obtain ⟨t, ht⟩ := loops_returns (fun a b c k ha hb hc hd t hs =>
      cellS_returns (junk := junk) (o := ⟨fun rho T Ye s nu => ok (NeutrinoSAPI.TotalScatteringCoefficient opac rho T Ye s nu),
        fun T _ nu => D.dbl.ThermalDistributionOfTNu T nu, fun T _ nu => D.dbl.DThermalDistributionOfTNuDT T nu⟩) hr hT hY ho
        e1 e2 hy g1 g2 (NNu := 100) (by norm_num) (by norm_num) ha hb hc hd hs)
    obtain ⟨k1, k2⟩ := loops_fills (fun a b c d t t' => fillCellS_fills (by norm_num) a b c d t t') ht
    refine ⟨t, ht, ?_⟩
    intro s d ρ T Ye hs hρ hT0 hYe a0 a1 b0 b1 c0 c1
    exact filled_lookup hr hr' hT hT' hY hY' ho e1 e2 hy g1 g2 (NNu := 100) (by norm_num) (by norm_num) k1 k2 hs hρ hT0 hYe
      a0 a1 b0 b1 c0 c1
  rcases hf with rfl | rfl
  · obtain ⟨t, ht, h⟩ := key (l1 := dbl lNuMin) (l2 := dbl lNuMax) rfl rfl h2 (by linarith) (by linarith)
    refine ⟨⟨D.dbl, pc.dbl, t⟩, ?_, h⟩
    unfold MeanSOpacityBase.construct MeanSOpacityBase.Impl_ Outcome.Returns
    simp only [Bool.false_eq_true, if_false]
    unfold fresh at ht
    rw [ht]; rfl
  · obtain ⟨y1, y2, e1, e2, hy, g1, g2⟩ := auto_window hpc hT
    obtain ⟨t, ht, h⟩ := key e1 e2 hy g1 g2
    refine ⟨⟨D.dbl, pc.dbl, t⟩, ?_, h⟩
    unfold MeanSOpacityBase.constructAuto MeanSOpacityBase.Impl_ Outcome.Returns
    simp only [if_true]
    unfold fresh at ht
    rw [ht]; rfl

/-- the library's constants and Burrows–Reddy–Thompson opacity, the default window, densities from 1e5 to 1e15 g/cm³,
temperatures from 1e8 to 1e12 K, electron fractions from 0 to 1: the means of electron neutrinos are finite at 1e10 g/cm³,
1e10 K and electron fraction 1/2 -/
example (junk : ℕ → ℕ → IE binary64) :
    ∃ m, (MeanOpacityBase.constructAuto false PhysicalConstantsCGS junk
      (⟨⟨3, PhysicalConstantsCGS⟩, PhysicalConstantsCGS⟩ : BRTOpacity (IE binary64)) (dbl 5) (dbl 15) 10 (dbl 8) (dbl 12) 20
      (dbl 0) (dbl 1) 5).Returns m ∧
      ReturnsFinite 563 (MeanNeutrinoAPI.PlanckMeanAbsorptionCoefficient m (dbl 1e10) (dbl 1e10) (dbl (1 / 2)) .NU_ELECTRON) ∧
      ReturnsFinite 563 (MeanNeutrinoAPI.RosselandMeanAbsorptionCoefficient m (dbl 1e10) (dbl 1e10) (dbl (1 / 2)) .NU_ELECTRON) := by
  obtain ⟨pc, e, hpc⟩ := cgs_sized
  rw [← e]
  have n1 := tableNumber_int 5 (by norm_num) (by norm_num)
  have n2 := tableNumber_int 15 (by norm_num) (by norm_num)
  have n3 := tableNumber_int 8 (by norm_num) (by norm_num)
  have n4 := tableNumber_int 12 (by norm_num) (by norm_num)
  have n5 := tableNumber_int 1 (by norm_num) (by norm_num)
  push_cast at n1 n2 n3 n4 n5
  have half : TableNumber (1 / 2) := by
    refine ⟨?_, .inr (by norm_num)⟩
    have := double64.rd_fix (e := -1) (k := 1) (by norm_num [double64]) (by norm_num [double64]) (by
      refine lt_of_lt_of_le (show _ < (2 : ℝ) ^ (0 : ℤ) by norm_num) (zle (by norm_num [double64])))
    norm_num at this ⊢
    exact this
  obtain ⟨m, hm, h⟩ := C75_absorption (opac := (⟨⟨3, pc.dbl⟩, pc.dbl⟩ : BRTOpacity (IE binary64))) hpc (debug := false)
    (fun h => by cases h) junk (C73_brt_ordinary (d := ⟨3, pc⟩) hpc (by norm_num) (by norm_num) hpc) (lRhoMin := 5) (lRhoMax := 15) (NRho := 10)
    ⟨by norm_num, by norm_num, by norm_num, by norm_num, by norm_num⟩
    ⟨by norm_num, by norm_num, by norm_num, by norm_num, by norm_num, n1, n2⟩ (lTMin := 8) (lTMax := 12) (NT := 20)
    ⟨by norm_num, by norm_num, by norm_num, by norm_num, by norm_num⟩
    ⟨by norm_num, by norm_num, by norm_num, by norm_num, by norm_num, n3, n4⟩ (YeMin := 0) (YeMax := 1) (NYe := 5)
    ⟨by norm_num, by norm_num, by norm_num, by norm_num, by norm_num⟩
    ⟨by norm_num, by norm_num, by norm_num, by norm_num, by norm_num, Photons.tableNumber_zero, n5⟩ (lNuMin := 0) (lNuMax := 1)
    (by norm_num) (by norm_num) (by norm_num) (NNu := 1) (by norm_num) (by norm_num) (.inr rfl)
  have a := Photons.coord_between (x := 1e10) (m := 5) (n := 15) (by norm_num) (by norm_num) (by norm_num)
  have b := Photons.coord_between (x := 1e10) (m := 8) (n := 12) (by norm_num) (by norm_num) (by norm_num)
  push_cast at a b
  exact ⟨m, hm, h .NU_ELECTRON 0 1e10 1e10 (1 / 2) .e (by norm_num) (by norm_num) half a.1 a.2 b.1 b.2 (by norm_num) (by norm_num)⟩

end Opac.Neutrinos
