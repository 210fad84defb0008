import Verif.Lemmas.MeanAbort
import Verif.Lemmas.NeutrinoMeanAbort
import Verif.Lemmas.TophatOverflow
import Verif.Lemmas.DoublesConstants
import Verif.Lemmas.SingleNode
import Verif.Props.Groups

/-! # C74: when making a mean opacity returns, and that it aborts otherwise -/

namespace Opac.Photons
open Arith Outcome Spec Spiner

variable {R : Type} [Arith R] [LawfulCmp R]

variable {pc : PC R} {junk : ℕ → R} {coef : R → R → R → R} {lRhoMin lRhoMax lTMin lTMax : R} {NRho NT : ℤ} {b : List R}
  {ngroups NNu : ℤ}

theorem fine_iff (ha : AcceptableBounds b ngroups) :
    MeansAreNumbers pc coef ⟨lRhoMin, lRhoMax, NRho⟩ ⟨lTMin, lTMax, NT⟩ b ngroups NNu ↔
    ∀ i j g : ℕ, (i : ℤ) < NT → (j : ℤ) < NRho → g < ngroups.toNat →
      FineCell (cellMeans pc coef b NNu (freshGrid lRhoMin lRhoMax NRho lTMin lTMax NT) (lit 0) i j g) := by
  have := ha.some_group; have := ha.enough
  constructor
  · intro h i j g hi hj hg
    have e1 : b[g]? = some (b.getD g (lit 0)) := by
      simp [List.getD, List.getElem?_eq_getElem (show g < b.length by omega)]
    have e2 : b[g + 1]? = some (b.getD (g + 1) (lit 0)) := by
      simp [List.getD, List.getElem?_eq_getElem (show g + 1 < b.length by omega)]
    exact h i j g _ _ hi hj (by omega) e1 e2
  · intro h i j g lo hi hi' hj hg e1 e2
    have := h i j g hi' hj (by omega)
    unfold cellMeans at this
    rw [List.getD_eq_getElem?_getD, List.getD_eq_getElem?_getD, e1, e2] at this
    exact this

/-- **C74**: the tables are made if and only if each group has at least two frequencies, the bounds are acceptable and no
mean is NaN; otherwise the constructor aborts.  (With fewer than `ngroups + 1` bounds it can read beyond them: `C03_short_bounds_ub`.) -/
theorem C74_tables (hlen : ngroups < b.length) :
    ((∃ t, (MGTables.Impl_ pc junk coef lRhoMin lRhoMax NRho lTMin lTMax NT b ngroups NNu).Returns t) ↔
      2 ≤ NNu ∧ AcceptableBounds b ngroups ∧
        MeansAreNumbers pc coef ⟨lRhoMin, lRhoMax, NRho⟩ ⟨lTMin, lTMax, NT⟩ b ngroups NNu) ∧
    ((¬ ∃ t, (MGTables.Impl_ pc junk coef lRhoMin lRhoMax NRho lTMin lTMax NT b ngroups NNu).Returns t) →
      (MGTables.Impl_ pc junk coef lRhoMin lRhoMax NRho lTMin lTMax NT b ngroups NNu).Aborts) := by
  by_cases hN : 2 ≤ NNu
  · by_cases ha : AcceptableBounds b ngroups
    · by_cases hm : MeansAreNumbers pc coef ⟨lRhoMin, lRhoMax, NRho⟩ ⟨lTMin, lTMax, NT⟩ b ngroups NNu
      · have h := Impl_returns (pc := pc) (junk := junk) (coef := coef) hN ha ((fine_iff ha).1 hm)
        exact ⟨⟨fun _ => ⟨hN, ha, hm⟩, fun _ => h⟩, fun h' => absurd h h'⟩
      · rw [fine_iff ha] at hm
        push Not at hm
        obtain ⟨i, j, g, hi, hj, hg, hn⟩ := hm
        have h := Impl_aborts (pc := pc) (junk := junk) (coef := coef) hN ha hi hj hg hn
        refine ⟨⟨?_, ?_⟩, fun _ => h⟩
        · rintro ⟨t, ht⟩
          obtain ⟨m, hm⟩ := h
          rw [Outcome.Returns, hm] at ht; cases ht
        · rintro ⟨-, -, hm⟩
          exact absurd ((fine_iff ha).1 hm i j g hi hj hg) hn
    · have h := (C03_from_opacity pc junk coef lRhoMin lRhoMax NRho lTMin lTMax NT b ngroups NNu hlen)
      exact ⟨⟨fun h' => absurd (h.1 h') ha, fun h' => absurd h'.2.1 ha⟩, fun _ => h.2 ha⟩
  · have h : (MGTables.Impl_ pc junk coef lRhoMin lRhoMax NRho lTMin lTMax NT b ngroups NNu).Aborts := by
      unfold MGTables.Impl_
      rw [if_pos (by omega)]
      exact ⟨_, rfl⟩
    refine ⟨⟨?_, fun h' => absurd h'.1 hN⟩, fun _ => h⟩
    rintro ⟨t, ht⟩
    obtain ⟨m, hm⟩ := h
    rw [Outcome.Returns, hm] at ht; cases ht

/-- **C74 for absorption** -/
theorem C74_absorption {O : Type} [PhotonAPI R O] (opac : O) (hlen : ngroups < b.length) :
    ((∃ m, (MeanOpacityBase.construct pc junk opac lRhoMin lRhoMax NRho lTMin lTMax NT b ngroups NNu).Returns m) ↔
      2 ≤ NNu ∧ AcceptableBounds b ngroups ∧
        MeansAreNumbers pc (PhotonAPI.AbsorptionCoefficient opac) ⟨lRhoMin, lRhoMax, NRho⟩ ⟨lTMin, lTMax, NT⟩ b ngroups NNu) ∧
    ((¬ ∃ m, (MeanOpacityBase.construct pc junk opac lRhoMin lRhoMax NRho lTMin lTMax NT b ngroups NNu).Returns m) →
      (MeanOpacityBase.construct pc junk opac lRhoMin lRhoMax NRho lTMin lTMax NT b ngroups NNu).Aborts) := by
  have h := C74_tables (pc := pc) (junk := junk) (coef := PhotonAPI.AbsorptionCoefficient opac) (lRhoMin := lRhoMin)
    (lRhoMax := lRhoMax) (NRho := NRho) (lTMin := lTMin) (lTMax := lTMax) (NT := NT) (NNu := NNu) hlen
  unfold MeanOpacityBase.construct
  rw [← h.1]
  revert h
  cases MGTables.Impl_ pc junk (PhotonAPI.AbsorptionCoefficient opac) lRhoMin lRhoMax NRho lTMin lTMax NT b ngroups NNu with
  | ok t => exact fun _ => ⟨⟨fun _ => ⟨t, rfl⟩, fun _ => ⟨_, rfl⟩⟩, fun h => absurd ⟨_, rfl⟩ h⟩
  | abort m => exact fun _ => ⟨⟨fun ⟨_, h⟩ => (by cases h), fun ⟨_, h⟩ => (by cases h)⟩, fun _ => ⟨m, rfl⟩⟩
  | ub m =>
    intro h
    obtain ⟨_, h⟩ := h.2 (fun ⟨_, h⟩ => by cases h)
    cases h

/-- **C74 for scattering** -/
theorem C74_scattering {O : Type} [PhotonSAPI R O] (opac : O) (hlen : ngroups < b.length) :
    ((∃ m, (MeanSOpacityBase.construct pc junk opac lRhoMin lRhoMax NRho lTMin lTMax NT b ngroups NNu).Returns m) ↔
      2 ≤ NNu ∧ AcceptableBounds b ngroups ∧
        MeansAreNumbers pc (PhotonSAPI.TotalScatteringCoefficient opac) ⟨lRhoMin, lRhoMax, NRho⟩ ⟨lTMin, lTMax, NT⟩ b ngroups NNu) ∧
    ((¬ ∃ m, (MeanSOpacityBase.construct pc junk opac lRhoMin lRhoMax NRho lTMin lTMax NT b ngroups NNu).Returns m) →
      (MeanSOpacityBase.construct pc junk opac lRhoMin lRhoMax NRho lTMin lTMax NT b ngroups NNu).Aborts) := by
  have h := C74_tables (pc := pc) (junk := junk) (coef := PhotonSAPI.TotalScatteringCoefficient opac) (lRhoMin := lRhoMin)
    (lRhoMax := lRhoMax) (NRho := NRho) (lTMin := lTMin) (lTMax := lTMax) (NT := NT) (NNu := NNu) hlen
  unfold MeanSOpacityBase.construct
  rw [← h.1]
  revert h
  cases MGTables.Impl_ pc junk (PhotonSAPI.TotalScatteringCoefficient opac) lRhoMin lRhoMax NRho lTMin lTMax NT b ngroups NNu with
  | ok t => exact fun _ => ⟨⟨fun _ => ⟨t, rfl⟩, fun _ => ⟨_, rfl⟩⟩, fun h => absurd ⟨_, rfl⟩ h⟩
  | abort m => exact fun _ => ⟨⟨fun ⟨_, h⟩ => (by cases h), fun ⟨_, h⟩ => (by cases h)⟩, fun _ => ⟨m, rfl⟩⟩
  | ub m =>
    intro h
    obtain ⟨_, h⟩ := h.2 (fun ⟨_, h⟩ => by cases h)
    cases h

/-- both outcomes occur: on two densities and temperatures and the groups 0–1 and 1–2 the tables are made, and with a
NaN as the smallest density (which nothing checks) the constructor aborts, though the bounds are acceptable -/
example (pc : PC ℝ) (pc' : PC XR) (junk : ℕ → ℝ) (junk' : ℕ → XR) (κ : ℝ → ℝ → ℝ → ℝ) (κ' : XR → XR → XR → XR) :
    (∃ t, (MGTables.Impl_ pc junk κ 0 1 2 0 1 2 [0, 1, 2] 2 10).Returns t) ∧
    (MGTables.Impl_ pc' junk' κ' .nan (.fin 1) 2 (.fin 0) (.fin 1) 2 exBounds 2 10).Aborts := by
  constructor
  · refine (C74_tables (by norm_num)).1.2 ⟨by norm_num, ⟨by norm_num, by norm_num, ?_, ?_, ?_, ?_⟩, ?_⟩
    · intros; rfl
    · intro x hx
      simp at hx; subst hx; simp [areal]
    · intro i x y hi hx hy
      have : i = 0 ∨ i = 1 := by omega
      rcases this with rfl | rfl <;> · simp at hx hy; subst hx; subst hy; simp [areal]
    · intros; rfl
    · intro i j g lo hi _ _ _ _ _; exact ⟨rfl, rfl⟩
  · refine (C74_tables (by decide)).2 fun h => ?_
    obtain ⟨-, -, h⟩ := (C74_tables (by decide)).1.1 h
    have h1 := (h 0 0 0 (.fin 0) (.fin 1) (by norm_num) (by norm_num) (by norm_num) rfl rfl).1
    have e : (⟨.nan, .fin 1, 2⟩ : Grid XR).x 0 = .nan := by
      unfold Grid.x
      exact Tables.add_nan _
    have e' : FromLog (XR.nan : XR) = .nan := by
      show XR.pow (.fin ((10 : ℚ) : ℝ)) .nan = _
      have : (((10 : ℚ)) : ℝ) ≠ 1 := by norm_num
      simp [XR.pow]
    rw [e, e', Tables.means_nan pc' κ' _ _ _ _ (by norm_num) (.inl rfl)] at h1
    cases h1

end Opac.Photons

namespace Opac.Neutrinos
open Arith Outcome Spiner MeanTables

variable {R : Type} [Arith R] {pc : PC R} {junk : ℕ → ℕ → R} {lRhoMin lRhoMax lTMin lTMax YeMin YeMax : R} {NRho NT NYe : ℤ}

theorem returns_or {α β : Type} {x : Outcome α} {f : α → β} {P : Prop} (h : (x.Aborts ∧ ¬ P) ∨ ((∃ t, x = ok t) ∧ P)) :
    ((∃ m, (x.bind fun t => ok (f t)).Returns m) ↔ P) ∧
      ((¬ ∃ m, (x.bind fun t => ok (f t)).Returns m) → (x.bind fun t => ok (f t)).Aborts) := by
  rcases h with ⟨⟨w, rfl⟩, hP⟩ | ⟨⟨t, rfl⟩, hP⟩
  · exact ⟨⟨fun ⟨m, hm⟩ => (by cases hm), fun h => absurd h hP⟩, fun _ => ⟨w, rfl⟩⟩
  · exact ⟨⟨fun _ => hP, fun _ => ⟨f t, rfl⟩⟩, fun h => absurd ⟨f t, rfl⟩ h⟩

/-- **C74 for neutrino absorption**, with a given window and with the default one, for an opacity whose coefficient `κ` is
defined everywhere: the tables are made if and only if no mean is NaN and, in a debug build, the constants are those of the
opacity; otherwise the constructor aborts -/
theorem C74_absorption {O : Type} [NeutrinoAPI R O] (opac : O) (debug : Bool) {κ : R → R → R → RadiationType → R → R}
    (hκ : ∀ rho T Ye s nu, NeutrinoAPI.AbsorptionCoefficient opac rho T Ye s nu = ok (κ rho T Ye s nu)) :
    (∀ (lNuMin lNuMax : R) (NNu : ℤ),
      let made := MeanOpacityBase.construct debug pc junk opac lRhoMin lRhoMax NRho lTMin lTMax NT YeMin YeMax NYe lNuMin lNuMax NNu;
      ((∃ m, made.Returns m) ↔
        (debug = true → RPC.beq (RPC.ofPC pc) (NeutrinoAPI.GetRuntimePhysicalConstants opac) = true) ∧
        MeansAreNumbers κ (NeutrinoAPI.ThermalDistributionOfTNu opac) (NeutrinoAPI.DThermalDistributionOfTNuDT opac)
          ⟨lRhoMin, lRhoMax, NRho⟩ ⟨lTMin, lTMax, NT⟩ ⟨YeMin, YeMax, NYe⟩ lNuMin lNuMax NNu) ∧
      ((¬ ∃ m, made.Returns m) → made.Aborts)) ∧
    (let made := MeanOpacityBase.constructAuto debug pc junk opac lRhoMin lRhoMax NRho lTMin lTMax NT YeMin YeMax NYe;
      ((∃ m, made.Returns m) ↔
        (debug = true → RPC.beq (RPC.ofPC pc) (NeutrinoAPI.GetRuntimePhysicalConstants opac) = true) ∧
        MeansAreNumbers κ (NeutrinoAPI.ThermalDistributionOfTNu opac) (NeutrinoAPI.DThermalDistributionOfTNuDT opac)
          ⟨lRhoMin, lRhoMax, NRho⟩ ⟨lTMin, lTMax, NT⟩ ⟨YeMin, YeMax, NYe⟩ (autoWindow pc lTMin lTMax).1
          (autoWindow pc lTMin lTMax).2 100) ∧
      ((¬ ∃ m, made.Returns m) → made.Aborts)) := by
  have hκ' : NeutrinoAPI.AbsorptionCoefficient opac = fun rho T Ye s nu => ok (κ rho T Ye s nu) := by
    funext rho T Ye s nu; exact hκ rho T Ye s nu
  have core : ∀ (auto : Bool) (l1 l2 : R) (NNu : ℤ),
      ((∃ m, (MeanOpacityBase.Impl_ debug auto pc junk opac lRhoMin lRhoMax NRho lTMin lTMax NT YeMin YeMax NYe l1 l2 NNu).Returns m) ↔
        (debug = true → RPC.beq (RPC.ofPC pc) (NeutrinoAPI.GetRuntimePhysicalConstants opac) = true) ∧
        MeansAreNumbers κ (NeutrinoAPI.ThermalDistributionOfTNu opac) (NeutrinoAPI.DThermalDistributionOfTNuDT opac)
          ⟨lRhoMin, lRhoMax, NRho⟩ ⟨lTMin, lTMax, NT⟩ ⟨YeMin, YeMax, NYe⟩ (if auto then autoWindow pc lTMin lTMax else (l1, l2)).1
          (if auto then autoWindow pc lTMin lTMax else (l1, l2)).2 NNu) ∧
      ((¬ ∃ m, (MeanOpacityBase.Impl_ debug auto pc junk opac lRhoMin lRhoMax NRho lTMin lTMax NT YeMin YeMax NYe l1 l2 NNu).Returns m) →
        (MeanOpacityBase.Impl_ debug auto pc junk opac lRhoMin lRhoMax NRho lTMin lTMax NT YeMin YeMax NYe l1 l2 NNu).Aborts) := by
    intro auto l1 l2 NNu
    unfold MeanOpacityBase.Impl_
    rw [hκ']
    by_cases hd : (debug && !(RPC.beq (RPC.ofPC pc) (NeutrinoAPI.GetRuntimePhysicalConstants opac))) = true
    · rw [if_pos hd]
      refine ⟨⟨fun ⟨m, hm⟩ => (by cases hm), fun ⟨h, _⟩ => ?_⟩, fun _ => ⟨_, rfl⟩⟩
      rw [Bool.and_eq_true] at hd
      rw [h hd.1] at hd
      exact absurd hd.2 (by decide)
    · rw [if_neg hd]
      have hd' : (debug = true → RPC.beq (RPC.ofPC pc) (NeutrinoAPI.GetRuntimePhysicalConstants opac) = true) := by
        rintro rfl
        simpa using hd
      have L := loops_iff (t₀ := setup junk lRhoMin lRhoMax NRho lTMin lTMax NT YeMin YeMax NYe)
        (fun a b c d ha hb hc hd t ht => fillCell_iff (κ := κ) (B := NeutrinoAPI.ThermalDistributionOfTNu opac)
          (dBdT := NeutrinoAPI.DThermalDistributionOfTNuDT opac) (NNu := NNu)
          (l1 := (if auto then autoWindow pc lTMin lTMax else (l1, l2)).1)
          (l2 := (if auto then autoWindow pc lTMin lTMax else (l1, l2)).2)
          (NRho := NRho) (NT := NT) (NYe := NYe) rfl rfl ha hb hc hd ht)
      have := returns_or (f := fun t => (⟨pc, t⟩ : MeanOpacityBase R)) L
      refine ⟨this.1.trans ⟨fun h => ⟨hd', h⟩, fun h => h.2⟩, this.2⟩
  exact ⟨fun l1 l2 N => core false l1 l2 N, core true _ _ 100⟩

/-- **C74 for neutrino scattering**: the tables are made if and only if the means of no initial part of the frequencies
are NaN (they are stored after every frequency); otherwise the constructor aborts.  The number of frequencies given by
the user is not used. -/
theorem C74_scattering {O : Type} [NeutrinoSAPI R O] (opac : O) (dist : FermiDirac R) :
    (∀ (lNuMin lNuMax : R) (NNu : ℤ),
      let made := MeanSOpacityBase.construct dist pc junk opac lRhoMin lRhoMax NRho lTMin lTMax NT YeMin YeMax NYe lNuMin lNuMax NNu;
      ((∃ m, made.Returns m) ↔
        PartialMeansAreNumbers (NeutrinoSAPI.TotalScatteringCoefficient opac) (fun T _ nu => dist.ThermalDistributionOfTNu T nu)
          (fun T _ nu => dist.DThermalDistributionOfTNuDT T nu)
          ⟨lRhoMin, lRhoMax, NRho⟩ ⟨lTMin, lTMax, NT⟩ ⟨YeMin, YeMax, NYe⟩ lNuMin lNuMax 100) ∧
      ((¬ ∃ m, made.Returns m) → made.Aborts)) ∧
    (let made := MeanSOpacityBase.constructAuto dist pc junk opac lRhoMin lRhoMax NRho lTMin lTMax NT YeMin YeMax NYe;
      ((∃ m, made.Returns m) ↔
        PartialMeansAreNumbers (NeutrinoSAPI.TotalScatteringCoefficient opac) (fun T _ nu => dist.ThermalDistributionOfTNu T nu)
          (fun T _ nu => dist.DThermalDistributionOfTNuDT T nu)
          ⟨lRhoMin, lRhoMax, NRho⟩ ⟨lTMin, lTMax, NT⟩ ⟨YeMin, YeMax, NYe⟩ (autoWindow pc lTMin lTMax).1
          (autoWindow pc lTMin lTMax).2 100) ∧
      ((¬ ∃ m, made.Returns m) → made.Aborts)) := by
  have core : ∀ (auto : Bool) (l1 l2 : R) (NNu : ℤ),
      ((∃ m, (MeanSOpacityBase.Impl_ auto dist pc junk opac lRhoMin lRhoMax NRho lTMin lTMax NT YeMin YeMax NYe l1 l2 NNu).Returns m) ↔
        PartialMeansAreNumbers (NeutrinoSAPI.TotalScatteringCoefficient opac) (fun T _ nu => dist.ThermalDistributionOfTNu T nu)
          (fun T _ nu => dist.DThermalDistributionOfTNuDT T nu)
          ⟨lRhoMin, lRhoMax, NRho⟩ ⟨lTMin, lTMax, NT⟩ ⟨YeMin, YeMax, NYe⟩ (if auto then autoWindow pc lTMin lTMax else (l1, l2)).1
          (if auto then autoWindow pc lTMin lTMax else (l1, l2)).2 NNu) ∧
      ((¬ ∃ m, (MeanSOpacityBase.Impl_ auto dist pc junk opac lRhoMin lRhoMax NRho lTMin lTMax NT YeMin YeMax NYe l1 l2 NNu).Returns m) →
        (MeanSOpacityBase.Impl_ auto dist pc junk opac lRhoMin lRhoMax NRho lTMin lTMax NT YeMin YeMax NYe l1 l2 NNu).Aborts) := by
    intro auto l1 l2 NNu
    have L := loops_iff (t₀ := setup junk lRhoMin lRhoMax NRho lTMin lTMax NT YeMin YeMax NYe)
      (fun a b c d ha hb hc hd t ht => fillCellS_iff (κ := NeutrinoSAPI.TotalScatteringCoefficient opac)
        (B := fun T _ nu => dist.ThermalDistributionOfTNu T nu) (dBdT := fun T _ nu => dist.DThermalDistributionOfTNuDT T nu)
        (l1 := (if auto then autoWindow pc lTMin lTMax else (l1, l2)).1) (NNu := NNu)
        (l2 := (if auto then autoWindow pc lTMin lTMax else (l1, l2)).2)
        (NRho := NRho) (NT := NT) (NYe := NYe) rfl rfl ha hb hc hd ht)
    exact returns_or (f := fun t => (⟨dist, pc, t⟩ : MeanSOpacityBase R)) L
  exact ⟨fun l1 l2 N => core false l1 l2 100, core true _ _ 100⟩

/-- both outcomes occur for gray opacities: over the reals (where nothing is NaN) the tables are made, and with a NaN as the
upper end of the frequency window the constructor aborts -/
example (g : GrayOpacity ℝ) (g' : GrayOpacity XR) (pc : PC ℝ) (pc' : PC XR) (junk : ℕ → ℕ → ℝ) (junk' : ℕ → ℕ → XR) :
    (∃ m, (MeanOpacityBase.construct false pc junk g 0 1 2 0 1 2 0 1 2 10 20 5).Returns m) ∧
    (MeanOpacityBase.construct false pc' junk' g' (.fin 0) (.fin 1) 2 (.fin 0) (.fin 1) 2 (.fin 0) (.fin 1) 2 (.fin 10) .nan 1).Aborts := by
  constructor
  · exact (((C74_absorption g false (fun _ _ _ _ _ => rfl)).1 _ _ _).1).2 ⟨fun h => (by cases h), fun _ _ _ _ _ _ _ _ => ⟨rfl, rfl⟩⟩
  · have h := (C74_absorption (pc := pc') (junk := junk') (lRhoMin := .fin 0) (lRhoMax := .fin 1) (NRho := 2) (lTMin := .fin 0)
      (lTMax := .fin 1) (NT := 2) (YeMin := .fin 0) (YeMax := .fin 1) (NYe := 2) g' false (fun _ _ _ _ _ => rfl)).1 (.fin 10) .nan 1
    refine h.2 fun h' => ?_
    have h1 := ((h.1.1 h').2 0 0 0 0 (by norm_num) (by norm_num) (by norm_num) (by norm_num)).1
    have hd : ((XR.nan - XR.fin 10) / lit ((1 : ℤ) : ℚ) : XR) = .nan := rfl
    have e : ∀ (rho al B D nu : XR), (means (addSample rho al B D nu ((XR.nan - XR.fin 10) / lit ((1 : ℤ) : ℚ)) Sums.zero)).1 = .nan := by
      intro rho al B D nu
      rw [hd]
      show Robust.ratio (_ + _ * XR.nan) _ = _
      rw [Tables.mul_nan, Tables.add_nan]
      unfold Robust.ratio
      exact Tables.nan_div _
    have h2 := (congrArg (fun x => isNaN (toLog_ x)) (e _ _ _ _ _)).symm.trans h1
    cases h2

section tophat
open Doubles

variable {lRhoMin lRhoMax lTMin lTMax YeMin YeMax : ℝ} {NRho NT NYe : ℤ}

/-- **C73 fails for a tophat emissivity far above the temperature**: a table that starts at 1e6 K or below, made from a tophat
whose band covers the whole frequency window (within 1e22 to 1e24 Hz) and whose strength `C` is 1e6 or more, cannot be made:
the constructor aborts, whatever the number of frequencies.  There `exp(hν/kT)` overflows, so the spectrum is 0; the
coefficient, strength over the floor 2e-307, overflows to infinity; and infinity times 0 is NaN. -/
theorem C73_tophat_false {pc' : PC (IE binary64)} (pc : PC (IE binary64)) {d : FermiDirac ℝ} (hd : CgsSized d.pc)
    (hN : 0 ≤ d.NSPECIES) (hN' : d.NSPECIES ≤ 16) (debug : Bool) (junk : ℕ → ℕ → IE binary64)
    {C numin numax : ℝ} (hC : Bits 20 200 C) (hmin : numin ≤ 2 ^ (71 : ℤ)) (hmax : 2 ^ (81 : ℤ) ≤ numax)
    (hr : OrdinaryAxis (-18) 18 lRhoMin lRhoMax NRho) (hT : OrdinaryAxis (-6) 13.5 lTMin lTMax NT)
    (hd6 : binary64.rd lTMin = .fin lTMin) (h6 : lTMin ≤ 6)
    (hY : OrdinaryAxis 0.01 1 YeMin YeMax NYe) {lNuMin lNuMax : ℝ} (h1 : 22 ≤ lNuMin) (h2 : lNuMin ≤ lNuMax) (h3 : lNuMax ≤ 24)
    {NNu : ℤ} (hM : 1 ≤ NNu) (hM' : NNu ≤ 2 ^ 31) :
    (MeanOpacityBase.construct debug pc junk
      (⟨d.dbl, pc', dbl C, dbl numin, dbl numax⟩ : TophatEmissivity (IE binary64)) (dbl lRhoMin) (dbl lRhoMax) NRho (dbl lTMin)
      (dbl lTMax) NT (dbl YeMin) (dbl YeMax) NYe (dbl lNuMin) (dbl lNuMax) NNu).Aborts := by
  set o : TophatEmissivity (IE binary64) := ⟨d.dbl, pc', dbl C, dbl numin, dbl numax⟩ with ho
  refine ((C74_absorption (pc := pc) (junk := junk) o debug (κ := o.AbsorptionCoefficient) (fun _ _ _ _ _ => rfl)).1
    (dbl lNuMin) (dbl lNuMax) NNu).2 ?_
  rw [((C74_absorption (pc := pc) (junk := junk) o debug (κ := o.AbsorptionCoefficient) (fun _ _ _ _ _ => rfl)).1
    (dbl lNuMin) (dbl lNuMax) NNu).1]
  rintro ⟨-, hf⟩
  have h0 : ∀ {a b lo hi : ℝ} {N : ℤ}, OrdinaryAxis a b lo hi N → ((0 : ℕ) : ℤ) < N := fun h => by have := h.two; omega
  have hf := (hf 0 0 0 0 (h0 hr) (h0 hT) (h0 hY) (by norm_num)).1
  -- the node
  obtain ⟨br, sr⟩ := node_sim hr (l := -60) (u := 60) (by norm_num) (by norm_num) (by norm_num) (by norm_num) (by norm_num)
    (by norm_num) (by norm_num) (by norm_num) (h0 hr)
  have eT := node_zero ⟨by linarith [hT.lower], hT.order, by linarith [hT.upper], hT.two, hT.fits⟩ hd6
  obtain ⟨bT, sT⟩ := fromLog_sim (a := dbl lTMin) (y := lTMin) rfl (l := -20) (h := 20) (by linarith [hT.lower]) (by linarith)
  obtain ⟨v, ev, v1, v2⟩ := ye_node (lo := YeMin) (hi := YeMax) ⟨by linarith [hY.lower], hY.order, by linarith [hY.upper], hY.two,
    hY.fits⟩ (h0 hY)
  have sY : Sim (-10) 10 (dbl v) (⟨v⟩ : Fl rd64) := ⟨rfl, by
    have := hY.lower; have := hY.upper
    constructor
    · exact le_trans (by norm_num) (show (0.01 : ℝ) - 1e-9 ≤ v by linarith)
    · exact le_trans (show v ≤ 1 + 1e-9 by linarith) (by norm_num)⟩
  -- the last sample
  obtain ⟨m, hm⟩ : ∃ m : ℕ, NNu = m + 1 := ⟨(NNu - 1).toNat, by omega⟩
  have hms : ∃ b, Sim 72 80 (sampleNu (dbl lNuMin) (dbl lNuMax) NNu m : IE binary64) b := by
    obtain ⟨dl, ed, d0, d7, hdl⟩ := line h2 (by linarith) (by linarith) (A := dbl lNuMin) (B := dbl lNuMax) rfl rfl hM hM'
    obtain ⟨p, ep, w, ew, w1, w2⟩ := hdl (half (i := m) (by omega)) (by positivity) (by
      rw [hm]; push_cast; linarith)
    exact fromLog_big (y := w) (by rw [add_val (show (dbl lNuMin).val = .fin lNuMin from rfl) ep]; exact ew) (by linarith)
      (by linarith) (by norm_num) (by norm_num) (by norm_num)
  obtain ⟨bn, sn⟩ := hms
  have g1 : gt (sampleNu (dbl lNuMin) (dbl lNuMax) NNu m) o.numin_ = true := by
    show XR.lt (dbl numin).val _ = true
    rw [sn.1]
    exact decide_eq_true (lt_of_le_of_lt hmin (lt_of_lt_of_le (by norm_num) sn.2.1))
  have g2 : lt (sampleNu (dbl lNuMin) (dbl lNuMax) NNu m) o.numax_ = true := by
    show XR.lt _ (dbl numax).val = true
    rw [sn.1]
    exact decide_eq_true (lt_of_le_of_lt sn.2.2 (lt_of_lt_of_le (by norm_num) hmax))
  have key := tophat_sample (o := o) (n := d.NSPECIES) hd rfl hN hN' (C := ⟨C⟩) ⟨rfl, hC⟩ (dlnu := (dbl lNuMax - dbl lNuMin) / lit NNu)
    (D := NeutrinoAPI.DThermalDistributionOfTNuDT o (fromLog_ (dbl lTMin)) .NU_ELECTRON (sampleNu (dbl lNuMin) (dbl lNuMax) NNu m))
    sr sT sY (sn.mono (by norm_num) (by norm_num)) g1 g2
    (SumsAt o.AbsorptionCoefficient (NeutrinoAPI.ThermalDistributionOfTNu o) (NeutrinoAPI.DThermalDistributionOfTNuDT o)
      (Photons.FromLog ((⟨dbl lRhoMin, dbl lRhoMax, NRho⟩ : Spiner.Grid (IE binary64)).x 0)) (fromLog_ (dbl lTMin)) (dbl v) .NU_ELECTRON
      (dbl lNuMin) (dbl lNuMax) NNu m)
  have hn := log_nan (ratio_nan (b := (SumsAt o.AbsorptionCoefficient (NeutrinoAPI.ThermalDistributionOfTNu o)
    (NeutrinoAPI.DThermalDistributionOfTNuDT o) (Photons.FromLog ((⟨dbl lRhoMin, dbl lRhoMax, NRho⟩ : Spiner.Grid (IE binary64)).x 0))
    (fromLog_ (dbl lTMin)) (dbl v) .NU_ELECTRON (dbl lNuMin) (dbl lNuMax) NNu (m + 1)).planckDenom) key)
  rw [← toLog_eq] at hn
  unfold NodeMeans at hf
  rw [eT, ev, show NNu.toNat = m + 1 by omega] at hf
  have : isNaN (toLog_ (means (SumsAt o.AbsorptionCoefficient (NeutrinoAPI.ThermalDistributionOfTNu o)
    (NeutrinoAPI.DThermalDistributionOfTNuDT o) (fromLog_ ((⟨dbl lRhoMin, dbl lRhoMax, NRho⟩ : Spiner.Grid (IE binary64)).x 0))
    (fromLog_ (dbl lTMin)) (dbl v) .NU_ELECTRON (dbl lNuMin) (dbl lNuMax) NNu (m + 1))).1) = true := hn
  rw [show species 0 = .NU_ELECTRON from rfl, this] at hf
  cases hf

/-- the library's constants, three species, strength 1e10 from 1e21 to 1e25 Hz; densities from 1e5 to 1e15 g/cm³, temperatures
from 1e6 to 1e12 K, electron fractions from 0.05 to 0.6 and 64 frequencies from 1e22 to 1e24 Hz: the constructor aborts -/
example (junk : ℕ → ℕ → IE binary64) :
    (MeanOpacityBase.construct false PhysicalConstantsCGS junk
      (⟨⟨3, PhysicalConstantsCGS⟩, PhysicalConstantsCGS, dbl 1e10, dbl 1e21, dbl 1e25⟩ : TophatEmissivity (IE binary64)) (dbl 5)
      (dbl 15) 10 (dbl 6) (dbl 12) 20 (dbl 0.05) (dbl 0.6) 5 (dbl 22) (dbl 24) 64).Aborts := by
  obtain ⟨pc, e, hpc⟩ := cgs_sized
  rw [← e]
  refine C73_tophat_false (d := ⟨3, pc⟩) pc.dbl hpc (by norm_num) (by norm_num) false junk (C := 1e10) (numin := 1e21)
    (numax := 1e25) (by norm_num [Bits]) (by norm_num) (by norm_num)
    ⟨by norm_num, by norm_num, by norm_num, by norm_num, by norm_num⟩
    ⟨by norm_num, by norm_num, by norm_num, by norm_num, by norm_num⟩ ?_ (by norm_num)
    ⟨by norm_num, by norm_num, by norm_num, by norm_num, by norm_num⟩ (by norm_num) (by norm_num) (by norm_num) (by norm_num)
    (by norm_num)
  have h6 := lit_nat (n := 6) (by norm_num)
  have : (lit ((6 : ℕ) : ℚ) : IE binary64).val = binary64.rd (((6 : ℕ) : ℚ) : ℝ) := rfl
  rw [h6] at this
  simpa using this.symm

end tophat

end Opac.Neutrinos
