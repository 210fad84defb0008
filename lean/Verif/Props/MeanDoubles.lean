import Verif.Lemmas.MeanAuto
import Verif.Lemmas.MeanOverflow
import Verif.Lemmas.MeanAbort
import Verif.Lemmas.DoublesNeutrinos
import Verif.Lemmas.DoublesConstants

/-! # C73: making mean opacities in double precision succeeds on ordinary inputs

Making a mean opacity ends the program when any entry of its tables is NaN.  In double precision products of frequencies
and spectra can overflow, the quotient of two sums can be 0/0 or inf/inf, and the frequency axis is rounded.  None of
this makes an entry NaN when the axes, the group bounds and the opacity are of ordinary size (Spec/MeanDoubles): the
constructors return. -/

namespace Opac.Photons
open Arith Spiner Outcome Doubles Spec

/-- **C73 for photon tables**: absorption and scattering share this code -/
theorem C73_tables {pc : PC ℝ} (hpc : CgsSized pc) (junk : ℕ → IE binary64)
    {coef : IE binary64 → IE binary64 → IE binary64 → IE binary64} (hc : OrdinaryCoefficient coef)
    {lRhoMin lRhoMax lTMin lTMax : ℝ} {NRho NT : ℤ} (hr : OrdinaryAxis (-18) 18 lRhoMin lRhoMax NRho)
    (hT : OrdinaryAxis (-6) 13.5 lTMin lTMax NT) {b : List (IE binary64)} {ng : ℤ} (ha : AcceptableBounds b ng)
    (hb : OrdinaryBounds b) {NNu : ℤ} (hN : 2 ≤ NNu) (hN' : NNu ≤ 2 ^ 31) :
    ∃ t, (MGTables.Impl_ pc.dbl junk coef (dbl lRhoMin) (dbl lRhoMax) NRho (dbl lTMin) (dbl lTMax) NT b ng NNu).Returns t := by
  refine Impl_returns (dflt := lit 0) hN ha ?_
  intro i j g hi hj hg
  obtain ⟨br, sr⟩ := node_sim hr (l := -60) (u := 60) (by norm_num) (by norm_num) (by norm_num) (by norm_num) (by norm_num)
    (by norm_num) (by norm_num) (by norm_num) hj
  obtain ⟨bT, sT⟩ := node_sim hT (l := -20) (u := 45) (by norm_num) (by norm_num) (by norm_num) (by norm_num) (by norm_num)
    (by norm_num) (by norm_num) (by norm_num) hi
  have := ha.enough
  have := ha.some_group
  have hlo : (b.getD g (lit 0)).val ≠ .nan := by
    have h1 := ha.not_nan g (b.getD g (lit 0)) (by omega) (by
      rw [List.getD_eq_getElem _ _ (by omega)]; exact List.getElem?_eq_getElem _)
    intro h2
    have : isNaN (b.getD g (lit 0)) = true := by
      show (match (b.getD g (lit 0)).val with | .nan => true | _ => false) = true
      rw [h2]
    rw [this] at h1
    cases h1
  have hhi : UpperBound (b.getD (g + 1) (lit 0)) := by
    have hmem : b.getD (g + 1) (lit 0) ∈ b.tail := by
      rw [List.getD_eq_getElem _ _ (by omega)]
      have : b[g + 1]'(by omega) = b.tail[g]'(by rw [List.length_tail]; omega) := by rw [List.getElem_tail]
      rw [this]
      exact List.getElem_mem _
    rcases hb _ hmem with h | ⟨x, h, hx⟩
    · exact .inl (by rw [h]; rfl)
    · exact .inr ⟨x, by rw [h]; rfl, hx⟩
  exact means_number hpc hc sr sT hlo hhi (by omega) hN'

/-- **C73 for photon absorption** -/
theorem C73_absorption {O : Type} [PhotonAPI (IE binary64) O] {opac : O} {pc : PC ℝ} (hpc : CgsSized pc)
    (junk : ℕ → IE binary64) (hc : OrdinaryCoefficient (PhotonAPI.AbsorptionCoefficient opac))
    {lRhoMin lRhoMax lTMin lTMax : ℝ} {NRho NT : ℤ} (hr : OrdinaryAxis (-18) 18 lRhoMin lRhoMax NRho)
    (hT : OrdinaryAxis (-6) 13.5 lTMin lTMax NT) {b : List (IE binary64)} {ng : ℤ} (ha : AcceptableBounds b ng)
    (hb : OrdinaryBounds b) {NNu : ℤ} (hN : 2 ≤ NNu) (hN' : NNu ≤ 2 ^ 31) :
    ∃ m, (MeanOpacityBase.construct pc.dbl junk opac (dbl lRhoMin) (dbl lRhoMax) NRho (dbl lTMin) (dbl lTMax) NT b ng
      NNu).Returns m := by
  obtain ⟨t, ht⟩ := C73_tables hpc junk hc hr hT ha hb hN hN'
  refine ⟨⟨pc.dbl, t⟩, ?_⟩
  unfold Outcome.Returns at ht
  unfold MeanOpacityBase.construct Outcome.Returns
  rw [ht]; rfl

/-- **C73 for photon scattering** -/
theorem C73_scattering {O : Type} [PhotonSAPI (IE binary64) O] {opac : O} {pc : PC ℝ} (hpc : CgsSized pc)
    (junk : ℕ → IE binary64) (hc : OrdinaryCoefficient (PhotonSAPI.TotalScatteringCoefficient opac))
    {lRhoMin lRhoMax lTMin lTMax : ℝ} {NRho NT : ℤ} (hr : OrdinaryAxis (-18) 18 lRhoMin lRhoMax NRho)
    (hT : OrdinaryAxis (-6) 13.5 lTMin lTMax NT) {b : List (IE binary64)} {ng : ℤ} (ha : AcceptableBounds b ng)
    (hb : OrdinaryBounds b) {NNu : ℤ} (hN : 2 ≤ NNu) (hN' : NNu ≤ 2 ^ 31) :
    ∃ m, (MeanSOpacityBase.construct pc.dbl junk opac (dbl lRhoMin) (dbl lRhoMax) NRho (dbl lTMin) (dbl lTMax) NT b ng
      NNu).Returns m := by
  obtain ⟨t, ht⟩ := C73_tables hpc junk hc hr hT ha hb hN hN'
  refine ⟨⟨pc.dbl, t⟩, ?_⟩
  unfold Outcome.Returns at ht
  unfold MeanSOpacityBase.construct Outcome.Returns
  rw [ht]; rfl

/-- gray opacities are ordinary -/
theorem C73_gray_ordinary (pc : PC (IE binary64)) {κ : ℝ} (hκ : κ = 0 ∨ Bits (-60) 60 κ) :
    OrdinaryCoefficient (PhotonAPI.AbsorptionCoefficient (⟨pc, dbl κ⟩ : GrayOpacity (IE binary64))) := by
  intro ρ T ν hρ _ _
  show OrdinaryOpacity (dbl ρ * dbl κ)
  have sρ : Sim (-60) 60 (dbl ρ) (⟨ρ⟩ : Fl rd64) := ⟨rfl, hρ⟩
  rcases hκ with rfl | hκ
  · refine ⟨0, dbl_of_val ?_, .inl rfl⟩
    show binary64.rd (ρ * 0) = _
    rw [mul_zero]; exact binary64.rd_zero
  · have sκ : Sim (-60) 60 (dbl κ) (⟨κ⟩ : Fl rd64) := ⟨rfl, hκ⟩
    have s := (sρ.mul sκ).mono (l' := -270) (h' := 200) (by norm_num) (by norm_num)
    exact ⟨_, dbl_of_val s.1, .inr s.2⟩

/-- gray scattering is ordinary -/
theorem C73_gray_scattering_ordinary {σ apm : ℝ} (hσ : Bits (-120) 40 σ) (ha : Bits (-90) 40 apm) :
    OrdinaryCoefficient (PhotonSAPI.TotalScatteringCoefficient (⟨dbl σ, dbl apm⟩ : GraySOpacity (IE binary64))) := by
  intro ρ T ν hρ _ _
  have sρ : Sim (-60) 60 (dbl ρ) (⟨ρ⟩ : Fl rd64) := ⟨rfl, hρ⟩
  have sσ : Sim (-120) 40 (dbl σ) (⟨σ⟩ : Fl rd64) := ⟨rfl, hσ⟩
  have sa : Sim (-90) 40 (dbl apm) (⟨apm⟩ : Fl rd64) := ⟨rfl, ha⟩
  have s := ((sρ.div sa).mul sσ).mono (l' := -270) (h' := 200) (by norm_num) (by norm_num)
  exact ⟨_, dbl_of_val s.1, .inr s.2⟩

/-- Thomson scattering is ordinary -/
theorem C73_thomson_ordinary {pc : PC ℝ} (hpc : CgsSized pc) {apm : ℝ} (ha : Bits (-90) 40 apm) :
    OrdinaryCoefficient (PhotonSAPI.TotalScatteringCoefficient (ThomsonSOpacity.construct pc.dbl (dbl apm))) := by
  intro ρ T ν hρ _ _
  have sρ : Sim (-60) 60 (dbl ρ) (⟨ρ⟩ : Fl rd64) := ⟨rfl, hρ⟩
  have sa : Sim (-90) 40 (dbl apm) (⟨apm⟩ : Fl rd64) := ⟨rfl, ha⟩
  have sα : Sim (-10) (-4) pc.dbl.alpha (fl pc).alpha := ⟨rfl, hpc.alpha⟩
  have sb : Sim (-96) (-82) pc.dbl.hbar (fl pc).hbar := ⟨rfl, hpc.hbar⟩
  have s1 := (((Sim.lit 8 3 3).mul Sim.pi).div (Sim.lit 3 1 2)).mul
    (((sα.mul sb).div ((sme hpc).mul (sc hpc))).powInt 2 2)
  have s := (((sρ.div sa).div (Sim.lit 2 1 1)).mul s1).mono (l' := -270) (h' := 200) (by norm_num) (by norm_num)
  exact ⟨_, dbl_of_val s.1, .inr s.2⟩

/-- one proton mass per particle -/
example {pc : PC ℝ} (hpc : CgsSized pc) :
    OrdinaryCoefficient (PhotonSAPI.TotalScatteringCoefficient (ThomsonSOpacity.construct pc.dbl (dbl 1.6726e-24))) :=
  C73_thomson_ordinary hpc (by norm_num [Bits])

/-- **C73 fails for a huge upper bound**: if the coldest temperature is 1 K, a group starts above the thermal range (2⁵¹ Hz or
more) and ends at a finite bound from 2⁷⁰⁰ to 2¹⁰⁰⁰ Hz, making the tables aborts, whatever the opacity.  The group is sampled
just below its upper bound; there `ν³` overflows, `exp(-x)` is 0 and their product is NaN.  (With infinity instead of
the huge bound the tables are made, see the example below.) -/
theorem C73_huge_bound_false {pc : PC ℝ} (hpc : CgsSized pc) (junk : ℕ → IE binary64)
    (coef : IE binary64 → IE binary64 → IE binary64 → IE binary64) {lRhoMin lRhoMax lTMax : ℝ} {NRho NT : ℤ}
    (hr : OrdinaryAxis (-18) 18 lRhoMin lRhoMax NRho) (hT : OrdinaryAxis (-6) 13.5 0 lTMax NT) {b : List (IE binary64)} {ng : ℤ}
    (ha : AcceptableBounds b ng) {g : ℕ} (hg : (g : ℤ) < ng) {lo hi : ℝ} (elo : b[g]? = some (dbl lo))
    (ehi : b[g + 1]? = some (dbl hi)) (hlo : Bits 51 1000 lo) (hhi : Bits 700 1000 hi) {NNu : ℤ} (hN : 2 ≤ NNu)
    (hN' : NNu ≤ 2 ^ 31) :
    (MGTables.Impl_ pc.dbl junk coef (dbl lRhoMin) (dbl lRhoMax) NRho (dbl 0) (dbl lTMax) NT b ng NNu).Aborts := by
  have hNT := hT.two
  have hNr := hr.two
  refine Impl_aborts (dflt := lit 0) hN ha (i := 0) (j := 0) (g := g) (by simp; omega) (by simp; omega) (by omega) ?_
  have e1 : b.getD g (lit 0) = dbl lo := by rw [List.getD_eq_getElem?_getD, elo]; rfl
  have e2 : b.getD (g + 1) (lit 0) = dbl hi := by rw [List.getD_eq_getElem?_getD, ehi]; rfl
  have h0 : ((⟨dbl 0, dbl lTMax, NT⟩ : Grid (IE binary64)).x 0).val = .fin 0 := by
    obtain ⟨d, ed, -, -, hd⟩ := line hT.order (by norm_num) (by linarith [hT.upper]) (A := dbl 0) (B := dbl lTMax) rfl rfl
      (N := NT - 1) (by omega) (by linarith [hT.fits])
    obtain ⟨p, ep, v, ev, -, -⟩ := hd (lit_nat (n := 0) (by norm_num)) (by norm_num) (by
      exact_mod_cast (by omega : (0 : ℤ) ≤ NT - 1))
    have ep' : (lit ((0 : ℕ) : ℚ) * ((dbl lTMax - dbl 0) / lit ((NT - 1 : ℤ) : ℚ)) : IE binary64).val = .fin 0 := by
      show IE.round binary64 (XR.mul (lit ((0 : ℕ) : ℚ) : IE binary64).val ((dbl lTMax - dbl 0) / lit ((NT - 1 : ℤ) : ℚ) : IE binary64).val) = _
      rw [ed, lit_nat (by norm_num)]
      show binary64.rd ((0 : ℕ) * d) = _
      simp only [Nat.cast_zero, zero_mul]
      exact binary64.rd_zero
    have := add_val ep' (show (dbl 0).val = .fin 0 from rfl)
    rw [add_zero, binary64.rd_zero] at this
    rw [← this]
    unfold Grid.x Grid.dx
    push_cast
    rfl
  have sT := (fromLog_val (l := -20) (h := 0) h0 (by norm_num) (by norm_num))
  have hs := samples_big hpc sT hlo hhi (N := NNu) (by omega) hN'
  have hne : GroupFrequencySamples pc.dbl (FromLog ((⟨dbl 0, dbl lTMax, NT⟩ : Grid (IE binary64)).x 0)) (dbl lo) (dbl hi) NNu ≠ [] := by
    unfold GroupFrequencySamples
    intro h
    have := congrArg List.length h
    simp at this; omega
  rintro ⟨h1, -⟩
  have key : ∀ rho : IE binary64, (MGTables.GroupMeans pc.dbl coef rho (FromLog ((⟨dbl 0, dbl lTMax, NT⟩ : Grid (IE binary64)).x 0))
      (dbl lo) (dbl hi) NNu).1.val = .nan := by
    intro rho
    refine ratio_nan ?_
    refine fold_nan hne (fun a s m => ?_)
    obtain ⟨_, sn⟩ := hs s m
    exact add_nan (mul_nan' (mul_nan (weights_big hpc sT sn)))
  have h2 := log_nan (key (FromLog ((⟨dbl lRhoMin, dbl lRhoMax, NRho⟩ : Grid (IE binary64)).x 0)))
  have e3 : cellMeans pc.dbl coef b NNu (freshGrid (dbl lRhoMin) (dbl lRhoMax) NRho (dbl 0) (dbl lTMax) NT) (lit 0) 0 0 g =
      MGTables.GroupMeans pc.dbl coef (FromLog ((⟨dbl lRhoMin, dbl lRhoMax, NRho⟩ : Grid (IE binary64)).x 0))
        (FromLog ((⟨dbl 0, dbl lTMax, NT⟩ : Grid (IE binary64)).x 0)) (dbl lo) (dbl hi) NNu := by
    unfold cellMeans
    rw [e1, e2]; rfl
  rw [e3, h2] at h1
  cases h1

/-- the groups 0–1e15 Hz and 1e15 Hz–infinity -/
theorem twoGroups : AcceptableBounds ([dbl 0, dbl 1e15, infinity] : List (IE binary64)) 2 ∧
    OrdinaryBounds [dbl 0, dbl 1e15, infinity] := by
  constructor
  · refine ⟨by norm_num, by norm_num, ?_, ?_, ?_, ?_⟩
    · intro i x hi hx
      have : i = 0 ∨ i = 1 ∨ i = 2 := by omega
      rcases this with rfl | rfl | rfl <;> · simp at hx; subst hx; rfl
    · intro x hx
      simp at hx; subst hx
      show XR.le (lit 0 : IE binary64).val (dbl 0).val = true
      rw [lit0_ie]; simp [dbl, XR.le]
    · intro i x y hi hx hy
      have : i = 0 ∨ i = 1 := by omega
      rcases this with rfl | rfl
      · simp at hx hy; subst hx; subst hy
        show XR.lt (.fin 0) (.fin 1e15) = true
        simp [XR.lt]; norm_num
      · simp at hx hy; subst hx; subst hy; rfl
    · intro i x hi hx
      have : i = 0 ∨ i = 1 := by omega
      rcases this with rfl | rfl <;> · simp at hx; subst hx; rfl
  · intro a ha
    simp at ha
    rcases ha with rfl | rfl
    · exact .inr ⟨1e15, rfl, by norm_num [Bits]⟩
    · exact .inl rfl

/-- the library's constants, a gray opacity of 0.4 cm²/g, densities from 1e-10 to 1e10 g/cm³, temperatures from 1 K to 1e9 K
and the groups 0–1e15 Hz and 1e15 Hz–infinity: the constructor returns -/
example (junk : ℕ → IE binary64) :
    ∃ m, (MeanOpacityBase.construct PhysicalConstantsCGS junk (⟨PhysicalConstantsCGS, dbl 0.4⟩ : GrayOpacity (IE binary64))
      (dbl (-10)) (dbl 10) 40 (dbl 0) (dbl 9) 50 [dbl 0, dbl 1e15, infinity] 2 64).Returns m := by
  obtain ⟨pc, e, hpc⟩ := cgs_sized
  rw [← e]
  refine C73_absorption hpc junk (C73_gray_ordinary _ (.inr (by norm_num [Bits]))) ⟨by norm_num, by norm_num, by norm_num,
    by norm_num, by norm_num⟩ ⟨by norm_num, by norm_num, by norm_num, by norm_num, by norm_num⟩ twoGroups.1
    twoGroups.2 (by norm_num) (by norm_num)

end Opac.Photons

namespace Opac.Neutrinos
open Arith Spiner Outcome Doubles MeanTables

variable {lRhoMin lRhoMax lTMin lTMax YeMin YeMax : ℝ} {NRho NT NYe : ℤ}

/-- **C73 for neutrino absorption**, over the window the user gives (logarithms from -6 to 30) or the default one.  In
debug builds the constants must be those of the opacity. -/
theorem C73_absorption {O : Type} [NeutrinoAPI (IE binary64) O] {opac : O} {pc : PC ℝ} (hpc : CgsSized pc) {debug : Bool}
    (hdebug : debug = true → RPC.beq (RPC.ofPC pc.dbl) (NeutrinoAPI.GetRuntimePhysicalConstants opac) = true)
    (junk : ℕ → ℕ → IE binary64)
    (ho : OrdinarySource YeMin YeMax (NeutrinoAPI.AbsorptionCoefficient opac) (NeutrinoAPI.ThermalDistributionOfTNu opac)
      (NeutrinoAPI.DThermalDistributionOfTNuDT opac))
    (hr : OrdinaryAxis (-18) 18 lRhoMin lRhoMax NRho) (hT : OrdinaryAxis (-6) 13.5 lTMin lTMax NT)
    (hY : OrdinaryAxis (-40) 40 YeMin YeMax NYe) {lNuMin lNuMax : ℝ} (h1 : -6 ≤ lNuMin) (h2 : lNuMin ≤ lNuMax) (h3 : lNuMax ≤ 30)
    {NNu : ℤ} (hN : 1 ≤ NNu) (hN' : NNu ≤ 2 ^ 31) :
    (∃ m, (MeanOpacityBase.construct debug pc.dbl junk opac (dbl lRhoMin) (dbl lRhoMax) NRho (dbl lTMin) (dbl lTMax) NT
      (dbl YeMin) (dbl YeMax) NYe (dbl lNuMin) (dbl lNuMax) NNu).Returns m) ∧
    (∃ m, (MeanOpacityBase.constructAuto debug pc.dbl junk opac (dbl lRhoMin) (dbl lRhoMax) NRho (dbl lTMin) (dbl lTMax) NT
      (dbl YeMin) (dbl YeMax) NYe).Returns m) := by
  have hd : (debug && !(RPC.beq (RPC.ofPC pc.dbl) (NeutrinoAPI.GetRuntimePhysicalConstants opac))) = false := by
    cases debug
    · rfl
    · rw [hdebug rfl]; rfl
  obtain ⟨y1, y2, e1, e2, hy, g1, g2⟩ := auto_window hpc hT
  obtain ⟨t, ht⟩ := loops_returns (fun a b c d ha hb hc hd t hs =>
    cell_returns (junk := junk) (o := ⟨NeutrinoAPI.AbsorptionCoefficient opac, NeutrinoAPI.ThermalDistributionOfTNu opac,
      NeutrinoAPI.DThermalDistributionOfTNuDT opac⟩) hr hT hY ho (l1 := dbl lNuMin) (l2 := dbl lNuMax) rfl rfl h2 (by linarith)
      (by linarith) hN hN' ha hb hc hd hs)
  obtain ⟨t', ht'⟩ := loops_returns (fun a b c d ha hb hc hd t hs =>
    cell_returns (junk := junk) (o := ⟨NeutrinoAPI.AbsorptionCoefficient opac, NeutrinoAPI.ThermalDistributionOfTNu opac,
      NeutrinoAPI.DThermalDistributionOfTNuDT opac⟩) hr hT hY ho e1 e2 hy g1 g2 (NNu := 100) (by norm_num) (by norm_num)
      ha hb hc hd hs)
  constructor
  · refine ⟨⟨pc.dbl, t⟩, ?_⟩
    unfold MeanOpacityBase.construct MeanOpacityBase.Impl_ Outcome.Returns
    simp only [hd, Bool.false_eq_true, if_false]
    unfold fresh at ht
    rw [ht]; rfl
  · refine ⟨⟨pc.dbl, t'⟩, ?_⟩
    unfold MeanOpacityBase.constructAuto MeanOpacityBase.Impl_ Outcome.Returns
    simp only [hd, Bool.false_eq_true, if_false, if_true]
    unfold fresh at ht'
    rw [ht']; rfl

/-- **C73 for neutrino scattering**; any number of frequencies can be given (it is not used, see C52_false) -/
theorem C73_scattering {O : Type} [NeutrinoSAPI (IE binary64) O] {opac : O} {pc : PC ℝ} (hpc : CgsSized pc)
    {d : FermiDirac ℝ} (junk : ℕ → ℕ → IE binary64)
    (ho : OrdinarySource YeMin YeMax (fun rho T Ye s nu => ok (NeutrinoSAPI.TotalScatteringCoefficient opac rho T Ye s nu))
      (fun T _ nu => d.dbl.ThermalDistributionOfTNu T nu) (fun T _ nu => d.dbl.DThermalDistributionOfTNuDT T nu))
    (hr : OrdinaryAxis (-18) 18 lRhoMin lRhoMax NRho) (hT : OrdinaryAxis (-6) 13.5 lTMin lTMax NT)
    (hY : OrdinaryAxis (-40) 40 YeMin YeMax NYe) {lNuMin lNuMax : ℝ} (h1 : -6 ≤ lNuMin) (h2 : lNuMin ≤ lNuMax) (h3 : lNuMax ≤ 30)
    (NNu : ℤ) :
    (∃ m, (MeanSOpacityBase.construct d.dbl pc.dbl junk opac (dbl lRhoMin) (dbl lRhoMax) NRho (dbl lTMin) (dbl lTMax) NT
      (dbl YeMin) (dbl YeMax) NYe (dbl lNuMin) (dbl lNuMax) NNu).Returns m) ∧
    (∃ m, (MeanSOpacityBase.constructAuto d.dbl pc.dbl junk opac (dbl lRhoMin) (dbl lRhoMax) NRho (dbl lTMin) (dbl lTMax) NT
      (dbl YeMin) (dbl YeMax) NYe).Returns m) := by
  obtain ⟨y1, y2, e1, e2, hy, g1, g2⟩ := auto_window hpc hT
  obtain ⟨t, ht⟩ := loops_returns (fun a b c k ha hb hc hd t hs =>
    cellS_returns (junk := junk) (o := ⟨fun rho T Ye s nu => ok (NeutrinoSAPI.TotalScatteringCoefficient opac rho T Ye s nu),
      fun T _ nu => d.dbl.ThermalDistributionOfTNu T nu, fun T _ nu => d.dbl.DThermalDistributionOfTNuDT T nu⟩) hr hT hY ho
      (l1 := dbl lNuMin) (l2 := dbl lNuMax) rfl rfl h2 (by linarith) (by linarith) (NNu := 100) (by norm_num) (by norm_num)
      ha hb hc hd hs)
  obtain ⟨t', ht'⟩ := loops_returns (fun a b c k ha hb hc hd t hs =>
    cellS_returns (junk := junk) (o := ⟨fun rho T Ye s nu => ok (NeutrinoSAPI.TotalScatteringCoefficient opac rho T Ye s nu),
      fun T _ nu => d.dbl.ThermalDistributionOfTNu T nu, fun T _ nu => d.dbl.DThermalDistributionOfTNuDT T nu⟩) hr hT hY ho
      e1 e2 hy g1 g2 (NNu := 100) (by norm_num) (by norm_num) ha hb hc hd hs)
  constructor
  · refine ⟨⟨d.dbl, pc.dbl, t⟩, ?_⟩
    unfold MeanSOpacityBase.construct MeanSOpacityBase.Impl_ Outcome.Returns
    simp only [Bool.false_eq_true, if_false]
    unfold fresh at ht
    rw [ht]; rfl
  · refine ⟨⟨d.dbl, pc.dbl, t'⟩, ?_⟩
    unfold MeanSOpacityBase.constructAuto MeanSOpacityBase.Impl_ Outcome.Returns
    simp only [if_true]
    unfold fresh at ht'
    rw [ht']; rfl

variable {d : FermiDirac ℝ} (hd : CgsSized d.pc) (hN : 0 ≤ d.NSPECIES) (hN' : d.NSPECIES ≤ 16)
include hd hN hN'

/-- the library's spectra are ordinary, also far beyond `kT` where the exponential overflows -/
theorem C73_spectra_ordinary {T ν : ℝ} (hT : Bits (-20) 45 T) (hν : Bits (-20) 101 ν) :
    OrdinaryWeight (d.dbl.ThermalDistributionOfTNu (dbl T) (dbl ν)) ∧
      OrdinaryWeight (d.dbl.DThermalDistributionOfTNuDT (dbl T) (dbl ν)) := by
  have := fermi_nn hN hN' hd (T := dbl T) (T' := ⟨T⟩) (nu := dbl ν) (nu' := ⟨ν⟩) ⟨rfl, hT⟩ ⟨rfl, hν⟩
  exact ⟨weight_of_nn this.1, weight_of_nn this.2⟩

/-- gray neutrino opacities are ordinary -/
theorem C73_gray_ordinary (pc : PC (IE binary64)) {κ : ℝ} (hκ : κ = 0 ∨ Bits (-60) 60 κ) :
    OrdinarySource YeMin YeMax (NeutrinoAPI.AbsorptionCoefficient (⟨d.dbl, pc, dbl κ⟩ : GrayOpacity (IE binary64)))
      (NeutrinoAPI.ThermalDistributionOfTNu (⟨d.dbl, pc, dbl κ⟩ : GrayOpacity (IE binary64)))
      (NeutrinoAPI.DThermalDistributionOfTNuDT (⟨d.dbl, pc, dbl κ⟩ : GrayOpacity (IE binary64))) where
  coef ρ T Ye s ν hρ hT _ _ hν := ⟨_, rfl, Photons.C73_gray_ordinary pc hκ ρ T ν hρ hT hν⟩
  spectrum T s ν hT hν := (C73_spectra_ordinary hd hN hN' hT hν).1
  derivative T s ν hT hν := (C73_spectra_ordinary hd hN hN' hT hν).2

/-- Burrows–Reddy–Thompson opacities are ordinary -/
theorem C73_brt_ordinary {pc : PC ℝ} (hpc : CgsSized pc) :
    OrdinarySource YeMin YeMax (NeutrinoAPI.AbsorptionCoefficient (⟨d.dbl, pc.dbl⟩ : BRTOpacity (IE binary64)))
      (NeutrinoAPI.ThermalDistributionOfTNu (⟨d.dbl, pc.dbl⟩ : BRTOpacity (IE binary64)))
      (NeutrinoAPI.DThermalDistributionOfTNuDT (⟨d.dbl, pc.dbl⟩ : BRTOpacity (IE binary64))) where
  coef ρ T Ye s ν hρ hT _ _ hν := by
    refine ⟨_, rfl, ?_⟩
    have sρ : Sim (-60) 60 (dbl ρ) (⟨ρ⟩ : Fl rd64) := ⟨rfl, hρ⟩
    have sν : Sim (-21) 101 (dbl ν) (⟨ν⟩ : Fl rd64) := ⟨rfl, (zle (by norm_num)).trans hν.1, hν.2⟩
    have a := SimZ.mul' (sρ.div (smp hpc)) (sigmac_sim (d := d) hpc s sν)
    rcases a with a | a
    · have a := a.mono (l' := -270) (h' := 200) (by norm_num) (by norm_num)
      exact ⟨_, dbl_of_val a.1, .inr a.2⟩
    · exact ⟨0, dbl_of_val a.1, .inl rfl⟩
  spectrum T s ν hT hν := (C73_spectra_ordinary hd hN hN' hT hν).1
  derivative T s ν hT hν := (C73_spectra_ordinary hd hN hN' hT hν).2

/-- gray neutrino scattering is ordinary -/
theorem C73_gray_scattering_ordinary {σ apm : ℝ} (hσ : Bits (-120) 40 σ) (ha : Bits (-90) 40 apm) :
    OrdinarySource YeMin YeMax (fun rho T Ye s nu => ok (NeutrinoSAPI.TotalScatteringCoefficient
        (⟨dbl σ, dbl apm⟩ : GraySOpacity (IE binary64)) rho T Ye s nu))
      (fun T _ nu => d.dbl.ThermalDistributionOfTNu T nu) (fun T _ nu => d.dbl.DThermalDistributionOfTNuDT T nu) where
  coef ρ T Ye s ν hρ hT _ _ hν := ⟨_, rfl, Photons.C73_gray_scattering_ordinary hσ ha ρ T ν hρ hT hν⟩
  spectrum T s ν hT hν := (C73_spectra_ordinary hd hN hN' hT hν).1
  derivative T s ν hT hν := (C73_spectra_ordinary hd hN hN' hT hν).2

omit hd hN hN' in
/-- the library's constants, Burrows–Reddy–Thompson absorption, three species, densities from 1e5 to 1e15 g/cm³, temperatures
from 1e8 to 1e12 K and electron fractions from 0 to 1: the constructor with the default window returns -/
example (junk : ℕ → ℕ → IE binary64) :
    ∃ m, (MeanOpacityBase.constructAuto false PhysicalConstantsCGS junk
      (⟨⟨3, PhysicalConstantsCGS⟩, PhysicalConstantsCGS⟩ : BRTOpacity (IE binary64)) (dbl 5) (dbl 15) 10 (dbl 8) (dbl 12) 20
      (dbl 0) (dbl 1) 5).Returns m := by
  obtain ⟨pc, e, hpc⟩ := cgs_sized
  rw [← e]
  have h := C73_absorption (opac := (⟨⟨3, pc.dbl⟩, pc.dbl⟩ : BRTOpacity (IE binary64))) hpc (debug := false)
    (fun h => by cases h) junk (C73_brt_ordinary (d := ⟨3, pc⟩) hpc (by norm_num) (by norm_num) hpc) (lRhoMin := 5) (lRhoMax := 15) (NRho := 10)
    ⟨by norm_num, by norm_num, by norm_num, by norm_num, by norm_num⟩ (lTMin := 8) (lTMax := 12) (NT := 20)
    ⟨by norm_num, by norm_num, by norm_num, by norm_num, by norm_num⟩ (YeMin := 0) (YeMax := 1) (NYe := 5)
    ⟨by norm_num, by norm_num, by norm_num, by norm_num, by norm_num⟩ (lNuMin := 0) (lNuMax := 1) (by norm_num) (by norm_num)
    (by norm_num) (NNu := 1) (by norm_num) (by norm_num)
  exact h.2

end Opac.Neutrinos
