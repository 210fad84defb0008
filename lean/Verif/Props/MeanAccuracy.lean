import Verif.Lemmas.MeanAccuracyTables
import Verif.Lemmas.AccuracyScattering
import Verif.Props.Accuracy

/-!
# C69: group means computed with rounding agree with exact group means

A mean opacity is built twice: with rounded arithmetic, and over the real numbers.  Averages of the spectral opacity over
each group, their logarithms, the interpolation and the way back are all rounded in the first case.
-/

namespace Opac.Photons
open Arith Outcome Spiner Spec Accuracy Tables

variable {rd : ℝ → ℝ} {u : ℝ}

/-- both runs return, and the results agree to the relative error `e` -/
def AgreesWithin (e : ℝ) (f : Outcome (Fl rd)) (x : Outcome ℝ) : Prop :=
  ∃ a a', f = ok a ∧ x = ok a' ∧ 0 < a' ∧ |a.val - a'| ≤ e * a'

/-- density and temperature inside the ranges of a table -/
def InsideTable (lRhoMin lRhoMax lTMin lTMax rho T : Fl rd) : Prop :=
  0 < rho.val ∧ 0 < T.val ∧ lRhoMin.val ≤ meanCoord rho.val ∧ meanCoord rho.val ≤ lRhoMax.val ∧
  lTMin.val ≤ meanCoord T.val ∧ meanCoord T.val ≤ lTMax.val

section main
variable {pc : PC (Fl rd)} {lRhoMin lRhoMax lTMin lTMax : Fl rd} {NRho NT ng N : ℤ} {b : List (Fl rd)}
  {X s L W Q M D : ℝ} {junk : ℕ → Fl rd} {junk' : ℕ → ℝ}

/-- The Rosseland mean is clear of the floor at all nodes of the table and in all groups. -/
def AllClear (pc : PC (Fl rd)) (lRhoMin lRhoMax : Fl rd) (NRho : ℤ) (lTMin lTMax : Fl rd) (NT : ℤ) (b : List (Fl rd))
    (ng N : ℤ) (α : ℝ → ℝ → ℝ → ℝ) : Prop :=
  ∀ i j g : ℕ, (i : ℤ) < NT → (j : ℤ) < NRho → (g : ℤ) < ng → ∀ lo hi, b[g]? = some lo → b[g + 1]? = some hi →
    ClearRosseland (10 * 2 ^ (-1022 : ℤ)) pc.h.val pc.kb.val pc.c.val (10 ^ nodeAt lRhoMin.val lRhoMax.val NRho j)
      (10 ^ nodeAt lTMin.val lTMax.val NT i) lo.val hi.val N.toNat
      (α (10 ^ nodeAt lRhoMin.val lRhoMax.val NRho j) (10 ^ nodeAt lTMin.val lTMax.val NT i))

theorem budget_ge {C : ℝ} (hC : 2 ≤ C) (H : WellPosed pc lRhoMin lRhoMax NRho lTMin lTMax NT b ng N X s L W Q) :
    C + 3400 * L ≤ Budget C L W Q N := by
  have hL : 1 ≤ L := H.ends.1.trans H.ends.2
  have hW := H.width
  have hQ := H.wien
  have hN2 : (2 : ℝ) ≤ N := by exact_mod_cast H.quad.1
  have : 0 ≤ L * (1212 * Q + 76 / W) := by positivity
  unfold Budget
  nlinarith

theorem small_of_err (hr : BinaryRounding rd u) {P : ℝ} (hP : 3400 ≤ P) (hs : 0 < s) (hX : 1 ≤ X) (hM : 1 ≤ M) (hD : 0 ≤ D)
    (hE : MeanErr u X s M D P ≤ 1 / 1000) : u ≤ 1 / 100 ∧ P * unit u ≤ 1 / 1000 := by
  have hu0 := hr.nonneg
  have h1 : u * (4 * P) ≤ 1 / 1000 := by
    refine le_trans ?_ hE
    unfold MeanErr
    have : 0 ≤ 1800 * (X / s) * D := by positivity
    exact mul_le_mul_of_nonneg_left (by linarith) hu0
  have hu : u ≤ 1 / 100 := by nlinarith
  have := unit_le hr hu
  exact ⟨hu, by nlinarith⟩

/-- the part common to absorption and scattering -/
theorem tables_agree (hr : BinaryRounding rd u) (hu2 : 2 ^ (-100 : ℤ) ≤ u) {C : ℝ} (hC : 2 ≤ C)
    (H : WellPosed pc lRhoMin lRhoMax NRho lTMin lTMax NT b ng N X s L W Q)
    (hM : 1 ≤ M) (hD : 0 ≤ D) (hτ : 40 * u * X / s ≤ 1 / 100) (hE : MeanErr u X s M D (Budget C L W Q N) ≤ 1 / 1000)
    {coef : Fl rd → Fl rd → Fl rd → Fl rd} {α : ℝ → ℝ → ℝ → ℝ} (hc : Source u C L Q pc coef α) {t' : MGTables ℝ}
    (ht : MGTables.Impl_ pc.exact junk' α lRhoMin.val lRhoMax.val NRho lTMin.val lTMax.val NT (b.map Fl.val) ng N = ok t') :
    ∃ t, MGTables.Impl_ pc junk coef lRhoMin lRhoMax NRho lTMin lTMax NT b ng N = ok t ∧ t.ngroups = t'.ngroups ∧
      t'.groupBounds = t.groupBounds.map Fl.val ∧
      (SmoothTable t'.lPlanck [2, 1] M D → ∀ rho T (g : ℤ), InsideTable lRhoMin lRhoMax lTMin lTMax rho T → 0 ≤ g → g < ng →
        AgreesWithin (MeanErr u X s M D (Budget C L W Q N)) (t.PlanckGroupCoefficient rho T g)
          (t'.PlanckGroupCoefficient rho.val T.val g)) ∧
      (SmoothTable t'.lRosseland [2, 1] M D → AllClear pc lRhoMin lRhoMax NRho lTMin lTMax NT b ng N α →
        ∀ rho T (g : ℤ), InsideTable lRhoMin lRhoMax lTMin lTMax rho T → 0 ≤ g → g < ng →
        AgreesWithin (MeanErr u X s M D (Budget C L W Q N)) (t.RosselandGroupCoefficient rho T g)
          (t'.RosselandGroupCoefficient rho.val T.val g)) := by
  have hL : 1 ≤ L := H.ends.1.trans H.ends.2
  have hB := budget_ge hC H
  obtain ⟨hu, hP⟩ := small_of_err hr (by linarith) H.rho.spacing.1 H.ends.1 hM hD hE
  obtain ⟨t, e, n1, n2, gb, d1, d2, g1, g2, hp, hro⟩ := impl_near (M := M) (junk := junk) hr hu2 H hC hP hc ht
  refine ⟨t, e, n1, gb, fun S rho T g hin g0 gn => ?_, fun S hcl rho T g hin g0 gn => ?_⟩
  · have := (hp S.size).lookup S hr hu H.ends.1 hM hD (by linarith) hτ (hE.trans (by norm_num)) g0 (by rw [d1]; omega)
      hin.1 hin.2.1 (by rw [g1]; exact ⟨hin.2.2.1, hin.2.2.2.1⟩) (by rw [g1]; exact hin.2.2.2.2)
    exact this
  · have N2 := hro S.size (fun i j g hi hj hg lo hi' k0 k1 k2 k3 =>
      rosseland_clear H.consts (by positivity) k2 k3 (H.window i g hi hg lo hi' k0 k1) H.width (by have := H.quad.1; omega)
        (hcl i j g hi hj hg lo hi' k0 k1))
    have := N2.lookup S hr hu H.ends.1 hM hD (by linarith) hτ (hE.trans (by norm_num)) g0 (by rw [d2]; omega)
      hin.1 hin.2.1 (by rw [g2]; exact ⟨hin.2.2.1, hin.2.2.2.1⟩) (by rw [g2]; exact hin.2.2.2.2)
    exact this

/-- **C69, absorption.**  An opacity is built twice from the same numbers, and so are its group means.  If the exact tables
are smooth, then at every state inside the table and in every group the rounded Planck means agree with the exact ones; so
do the Rosseland means, if they are clear of the floor.  Frequencies are assigned to the same groups. -/
theorem C69_absorption (hr : BinaryRounding rd u) (hu2 : 2 ^ (-100 : ℤ) ≤ u) {O O' : Type} {i : PhotonAPI (Fl rd) O}
    {i' : PhotonAPI ℝ O'} {o : O} {o' : O'} {n : ℕ} {S K : ℝ} (T : Twin rd O O' i i' o o' n S K)
    (H : WellPosed pc lRhoMin lRhoMax NRho lTMin lTMax NT b ng N X s L W Q)
    (hM : 1 ≤ M) (hD : 0 ≤ D) (hτ : 40 * u * X / s ≤ 1 / 100)
    (hE : MeanErr u X s M D (Budget (absorptionCost n S K Q pc.h.val pc.kb.val L) L W Q N) ≤ 1 / 1000)
    {m' : MeanOpacityBase ℝ}
    (hm : MeanOpacityBase.construct pc.exact junk' o' lRhoMin.val lRhoMax.val NRho lTMin.val lTMax.val NT (b.map Fl.val) ng N
      = ok m') :
    ∃ m, MeanOpacityBase.construct pc junk o lRhoMin lRhoMax NRho lTMin lTMax NT b ng N = ok m ∧
      (∀ nu : Fl rd, MeanPhotonAPI.GroupOfNu m nu = MeanPhotonAPI.GroupOfNu m' nu.val) ∧
      (SmoothTable m'.t.lPlanck [2, 1] M D → ∀ rho T (g : ℤ), InsideTable lRhoMin lRhoMax lTMin lTMax rho T → 0 ≤ g → g < ng →
        AgreesWithin (MeanErr u X s M D (Budget (absorptionCost n S K Q pc.h.val pc.kb.val L) L W Q N))
          (MeanPhotonAPI.PlanckGroupAbsorptionCoefficient m rho T g)
          (MeanPhotonAPI.PlanckGroupAbsorptionCoefficient m' rho.val T.val g)) ∧
      (SmoothTable m'.t.lRosseland [2, 1] M D →
        AllClear pc lRhoMin lRhoMax NRho lTMin lTMax NT b ng N (i'.AbsorptionCoefficient o') →
        ∀ rho T (g : ℤ), InsideTable lRhoMin lRhoMax lTMin lTMax rho T → 0 ≤ g → g < ng →
        AgreesWithin (MeanErr u X s M D (Budget (absorptionCost n S K Q pc.h.val pc.kb.val L) L W Q N))
          (MeanPhotonAPI.RosselandGroupAbsorptionCoefficient m rho T g)
          (MeanPhotonAPI.RosselandGroupAbsorptionCoefficient m' rho.val T.val g)) := by
  have A := twin_acc hr T
  have hS := A.S_nonneg
  have hK := A.K_pos
  have hL : 1 ≤ L := H.ends.1.trans H.ends.2
  have hh := H.consts.h
  have hk := H.consts.kb
  have hQ := H.wien
  have hh' : 0 < pc.h.val := hh
  have hk' : 0 < pc.kb.val := hk
  have hn0 : (0 : ℝ) ≤ n := Nat.cast_nonneg _
  have hCb : 64 * (150 * L + 11 * n + 1) ≤ absorptionCost n S K Q pc.h.val pc.kb.val L := by
    unfold absorptionCost
    have h1 : 0 ≤ K * (Q * pc.kb.val / pc.h.val) := by positivity
    have h2 : 1 ≤ (1 + S) * (1 + K * (Q * pc.kb.val / pc.h.val)) := by nlinarith
    have h3 : 0 ≤ 64 * (150 * L + 11 * n + 1) := by positivity
    nlinarith
  have hC : 2 ≤ absorptionCost n S K Q pc.h.val pc.kb.val L := by nlinarith
  have hB := budget_ge hC H
  obtain ⟨hu, hP⟩ := small_of_err hr (by linarith) H.rho.spacing.1 H.ends.1 hM hD hE
  have hun := unit_nonneg hr.toRounding
  have hc : Source u (absorptionCost n S K Q pc.h.val pc.kb.val L) L Q pc (i.AbsorptionCoefficient o)
      (i'.AbsorptionCoefficient o') := by
    intro ρ T ν ρ' T' ν' h1 h2 h3 hq
    have hsm : (2 * (150 * L + 4 * n) + 3) * unit u ≤ 1 :=
      (mul_le_mul_of_nonneg_right (by linarith) hun).trans (hP.trans (by norm_num))
    refine (A.spectral .AbsorptionCoefficient (150 * L) ρ T ν ρ' T' ν' (by linarith) hsm h1 h2 h3).mono hr ?_
    unfold absorptionCost
    have hT := h2.pos
    have h5 : ν' / T' ≤ Q * pc.kb.val / pc.h.val := by
      have : pc.h.val * ν' / (pc.kb.val * T') ≤ Q := hq
      rw [div_le_div_iff₀ hT hh']
      rw [div_le_iff₀ (by positivity)] at this
      linarith
    have : K * ν' / T' ≤ K * (Q * pc.kb.val / pc.h.val) := by
      rw [mul_div_assoc]; exact mul_le_mul_of_nonneg_left h5 hK.le
    gcongr
  unfold MeanOpacityBase.construct at hm ⊢
  rw [map'_eq_ok] at hm
  obtain ⟨t', ht', rfl⟩ := hm
  obtain ⟨t, e, n1, n2, q1, q2⟩ := tables_agree (junk := junk) hr hu2 hC H hM hD hτ hE hc ht'
  refine ⟨⟨pc, t⟩, ?_, fun nu => (groupOfNu_val n1 n2 nu).symm, q1, q2⟩
  rw [e]; rfl

/-- **C69, scattering.** -/
theorem C69_scattering (hr : BinaryRounding rd u) (hu2 : 2 ^ (-100 : ℤ) ≤ u) {O O' : Type} {i : PhotonSAPI (Fl rd) O}
    {i' : PhotonSAPI ℝ O'} {o : O} {o' : O'} {n : ℕ} {S : ℝ} (T : TwinS rd O O' i i' o o' n S)
    (H : WellPosed pc lRhoMin lRhoMax NRho lTMin lTMax NT b ng N X s L W Q)
    (hM : 1 ≤ M) (hD : 0 ≤ D) (hτ : 40 * u * X / s ≤ 1 / 100)
    (hE : MeanErr u X s M D (Budget (scatteringCost n S L) L W Q N) ≤ 1 / 1000)
    {m' : MeanSOpacityBase ℝ}
    (hm : MeanSOpacityBase.construct pc.exact junk' o' lRhoMin.val lRhoMax.val NRho lTMin.val lTMax.val NT (b.map Fl.val) ng N
      = ok m') :
    ∃ m, MeanSOpacityBase.construct pc junk o lRhoMin lRhoMax NRho lTMin lTMax NT b ng N = ok m ∧
      (∀ nu : Fl rd, MeanPhotonSAPI.GroupOfNu m nu = MeanPhotonSAPI.GroupOfNu m' nu.val) ∧
      (SmoothTable m'.t.lPlanck [2, 1] M D → ∀ rho T (g : ℤ), InsideTable lRhoMin lRhoMax lTMin lTMax rho T → 0 ≤ g → g < ng →
        AgreesWithin (MeanErr u X s M D (Budget (scatteringCost n S L) L W Q N))
          (MeanPhotonSAPI.PlanckGroupScatteringCoefficient m rho T g)
          (MeanPhotonSAPI.PlanckGroupScatteringCoefficient m' rho.val T.val g)) ∧
      (SmoothTable m'.t.lRosseland [2, 1] M D →
        AllClear pc lRhoMin lRhoMax NRho lTMin lTMax NT b ng N (i'.TotalScatteringCoefficient o') →
        ∀ rho T (g : ℤ), InsideTable lRhoMin lRhoMax lTMin lTMax rho T → 0 ≤ g → g < ng →
        AgreesWithin (MeanErr u X s M D (Budget (scatteringCost n S L) L W Q N))
          (MeanPhotonSAPI.RosselandGroupScatteringCoefficient m rho T g)
          (MeanPhotonSAPI.RosselandGroupScatteringCoefficient m' rho.val T.val g)) := by
  have A := twinS_acc hr T
  have hS := A.S_nonneg
  have hL : 1 ≤ L := H.ends.1.trans H.ends.2
  have hn0 : (0 : ℝ) ≤ n := Nat.cast_nonneg _
  have hC : 2 ≤ scatteringCost n S L := by
    unfold scatteringCost
    have : 0 ≤ S * (150 * L + 5 * n + 1) := by positivity
    nlinarith
  have hc : Source u (scatteringCost n S L) L Q pc (i.TotalScatteringCoefficient o) (i'.TotalScatteringCoefficient o') :=
    fun ρ T ν ρ' T' ν' h1 h2 h3 _ => (A.all (150 * L) ρ T ν ⟨0⟩ ρ' T' ν' 0 (by linarith) h1 h2 h3).2.2
  unfold MeanSOpacityBase.construct at hm ⊢
  rw [map'_eq_ok] at hm
  obtain ⟨t', ht', rfl⟩ := hm
  obtain ⟨t, e, n1, n2, q1, q2⟩ := tables_agree (junk := junk) hr hu2 hC H hM hD hτ hE hc ht'
  refine ⟨⟨pc, t⟩, ?_, fun nu => (groupOfNu_val n1 n2 nu).symm, q1, q2⟩
  rw [e]; rfl

end main

/-- **C69 in double precision**: with at most one unit wrapper, exponents of total size at most 10, grids of at least
1/100 decade within 40 decades of one, windows of at least 1/100 decade within 40 decades of one and `hν/kT ≤ 1100`, and
entries that change by at most a decade from node to node, Planck and Rosseland means have relative errors of at most
`10^-5`. -/
theorem C69_double {O O' : Type} {i : PhotonAPI (Fl rn53) O} {i' : PhotonAPI ℝ O'} {o : O} {o' : O'} {n : ℕ} {S K : ℝ}
    (T : Twin rn53 O O' i i' o o' n S K) (hn : n ≤ 1) (hS : S ≤ 10)
    {pc : PC (Fl rn53)} {lRhoMin lRhoMax lTMin lTMax : Fl rn53} {NRho NT ng N : ℤ} {b : List (Fl rn53)}
    {junk : ℕ → Fl rn53} {junk' : ℕ → ℝ} (hK : K * (1100 * pc.kb.val / pc.h.val) ≤ 1100)
    (H : WellPosed pc lRhoMin lRhoMax NRho lTMin lTMax NT b ng N 40 (1 / 100) 40 (1 / 100) 1100)
    {m' : MeanOpacityBase ℝ}
    (hm : MeanOpacityBase.construct pc.exact junk' o' lRhoMin.val lRhoMax.val NRho lTMin.val lTMax.val NT (b.map Fl.val) ng N
      = ok m')
    (hp : SmoothTable m'.t.lPlanck [2, 1] 308 1) (hro : SmoothTable m'.t.lRosseland [2, 1] 308 1)
    (hcl : AllClear pc lRhoMin lRhoMax NRho lTMin lTMax NT b ng N (i'.AbsorptionCoefficient o')) :
    ∃ m, MeanOpacityBase.construct pc junk o lRhoMin lRhoMax NRho lTMin lTMax NT b ng N = ok m ∧
      ∀ rho T (g : ℤ), InsideTable lRhoMin lRhoMax lTMin lTMax rho T → 0 ≤ g → g < ng →
        AgreesWithin 1e-5 (MeanPhotonAPI.PlanckGroupAbsorptionCoefficient m rho T g)
          (MeanPhotonAPI.PlanckGroupAbsorptionCoefficient m' rho.val T.val g) ∧
        AgreesWithin 1e-5 (MeanPhotonAPI.RosselandGroupAbsorptionCoefficient m rho T g)
          (MeanPhotonAPI.RosselandGroupAbsorptionCoefficient m' rho.val T.val g) := by
  have A := twin_acc rn53_binary T
  have hS0 := A.S_nonneg
  have hn' : (n : ℝ) ≤ 1 := by exact_mod_cast hn
  have hn0 : (0 : ℝ) ≤ n := Nat.cast_nonneg _
  have hN : (N : ℝ) ≤ 2 ^ 24 := by exact_mod_cast H.quad.2
  have hC : absorptionCost n S K 1100 pc.h.val pc.kb.val 40 ≤ 64 * (1 + 10) * (1 + 1100) * (150 * 40 + 11 * 1 + 1) := by
    have hh : 0 < pc.h.val := H.consts.h
    have hk : 0 < pc.kb.val := H.consts.kb
    have hK0 := A.K_pos
    have : 0 ≤ K * (1100 * pc.kb.val / pc.h.val) := by positivity
    unfold absorptionCost
    gcongr
  have hE : MeanErr (2 ^ (-53 : ℤ)) 40 (1 / 100) 308 1
      (Budget (absorptionCost n S K 1100 pc.h.val pc.kb.val 40) 40 (1 / 100) 1100 N) ≤ 1e-5 := by
    have hB : Budget (absorptionCost n S K 1100 pc.h.val pc.kb.val 40) 40 (1 / 100) 1100 N ≤ 5e9 := by
      unfold Budget
      norm_num at hC hN ⊢
      linarith
    unfold MeanErr
    calc (2 : ℝ) ^ (-53 : ℤ) * (1800 * (40 / (1 / 100)) * 1 + 184 * 308 +
          4 * Budget (absorptionCost n S K 1100 pc.h.val pc.kb.val 40) 40 (1 / 100) 1100 N)
        ≤ 2 ^ (-53 : ℤ) * (1800 * (40 / (1 / 100)) * 1 + 184 * 308 + 4 * 5e9) := by gcongr
      _ ≤ _ := by norm_num
  obtain ⟨m, e, -, q1, q2⟩ := C69_absorption (junk := junk) rn53_binary
    (zpow_le_zpow_right₀ (by norm_num) (by norm_num)) T H (by norm_num) (by norm_num) (by norm_num)
    (hE.trans (by norm_num)) hm
  have wk : ∀ {f : Outcome (Fl rn53)} {x : Outcome ℝ}, AgreesWithin (MeanErr (2 ^ (-53 : ℤ)) 40 (1 / 100) 308 1
      (Budget (absorptionCost n S K 1100 pc.h.val pc.kb.val 40) 40 (1 / 100) 1100 N)) f x → AgreesWithin 1e-5 f x := by
    rintro f x ⟨a, a', h1, h2, h3, h4⟩
    exact ⟨a, a', h1, h2, h3, h4.trans (mul_le_mul_of_nonneg_right hE h3.le)⟩
  exact ⟨m, e, fun rho T g hin g0 gn => ⟨wk (q1 hp rho T g hin g0 gn), wk (q2 hro hcl rho T g hin g0 gn)⟩⟩

/-! ## The hypotheses are met -/

section example_
open Accuracy

/-- all constants are one -/
noncomputable def exPC : PC (Fl rn53) := ⟨⟨1⟩, ⟨1⟩, ⟨1⟩, ⟨1⟩, ⟨1⟩, ⟨1⟩, ⟨1⟩, ⟨1⟩, ⟨1⟩, ⟨1⟩, ⟨1⟩, ⟨1⟩, ⟨1⟩, ⟨1⟩, ⟨1⟩, ⟨1⟩, ⟨1⟩, ⟨1⟩, ⟨1⟩⟩

theorem exPC_pos : PosConsts exPC.exact := by
  constructor <;> simp [exPC, PC.exact]

theorem exTiny : (0 : ℝ) < 10 * 2 ^ (-1022 : ℤ) ∧ (10 * 2 ^ (-1022 : ℤ) : ℝ) ≤ 1e-9 := by
  refine ⟨by positivity, ?_⟩
  have : (2 : ℝ) ^ (-1022 : ℤ) ≤ 2 ^ (-60 : ℤ) := zpow_le_zpow_right₀ (by norm_num) (by norm_num)
  norm_num at this ⊢
  linarith

/-- the group `[1, 2]` lies inside the thermal range -/
theorem exWindow {T : ℝ} (hT : T = 1 ∨ T = 10) : groupWindow 1 1 T 1 (some 2) = (1, 2) := by
  unfold groupWindow window
  rcases hT with rfl | rfl <;> norm_num

theorem exNode (i : ℕ) (hi : (i : ℤ) < 2) : (10 : ℝ) ^ nodeAt 0 1 2 i = 1 ∨ (10 : ℝ) ^ nodeAt 0 1 2 i = 10 := by
  have : i = 0 ∨ i = 1 := by omega
  rcases this with rfl | rfl
  · left; norm_num [nodeAt]
  · right; norm_num [nodeAt]

theorem exWide : (10 : ℝ) ^ (1 / 4 : ℝ) ≤ 1.8 := by
  rw [← Real.rpow_le_rpow_iff (z := 4) (by positivity) (by norm_num) (by norm_num), ← Real.rpow_mul (by norm_num)]
  norm_num

theorem exClear {T : ℝ} (hT : T = 1 ∨ T = 10) : ClearWindow (10 * 2 ^ (-1022 : ℤ)) 1 1 T 1 2 1 (1 / 4) 3 := by
  obtain ⟨t0, t1⟩ := exTiny
  generalize (10 * 2 ^ (-1022 : ℤ) : ℝ) = t at *
  have w := exWide
  refine ⟨Or.inr (Or.inr ?_), Or.inr ?_, Or.inl ?_, ?_, ?_, ?_, ?_⟩
  · rcases hT with rfl | rfl <;> norm_num
  · rcases hT with rfl | rfl <;> norm_num
  · unfold windowEnds
    rcases hT with rfl | rfl <;> norm_num
  · rw [exWindow hT]; norm_num
  · rw [exWindow hT]; norm_num; linarith
  · rw [exWindow hT]
    have h0 : (0 : ℝ) ≤ 10 ^ (1 / 4 : ℝ) := by positivity
    simp only []
    nlinarith
  · rw [exWindow hT]
    simp only []
    rcases hT with rfl | rfl <;> linarith

theorem exWell : WellPosed exPC ⟨-1⟩ ⟨1⟩ 2 ⟨0⟩ ⟨1⟩ 2 [⟨1⟩, ⟨2⟩] 1 2 1 1 1 (1 / 4) 3 where
  consts := exPC_pos
  rho := by constructor <;> norm_num
  temp := by constructor <;> norm_num
  ends := by norm_num
  width := by norm_num
  wien := by norm_num
  quad := by norm_num
  window i g hi hg lo hi' h0 h1 := by
    obtain rfl : g = 0 := by omega
    simp only [List.getElem?_cons_zero, Option.some.injEq] at h0
    simp only [zero_add, List.getElem?_cons_succ, List.getElem?_cons_zero, Option.some.injEq] at h1
    subst h0 h1
    exact exClear (exNode i hi)

/-- the sampled frequencies and their weights -/
theorem exSample {T : ℝ} (hT : T = 1 ∨ T = 10) (i : ℕ) (hi : i < 2) :
    1 ≤ groupNu (10 * 2 ^ (-1022 : ℤ)) 1 1 T 1 (some 2) 2 i ∧ groupNu (10 * 2 ^ (-1022 : ℤ)) 1 1 T 1 (some 2) 2 i ≤ 3 ∧
    1 / 8 ≤ groupDNu (10 * 2 ^ (-1022 : ℤ)) 1 1 T 1 (some 2) 2 i := by
  obtain ⟨t0, t1⟩ := exTiny
  unfold groupDNu groupNu
  rw [exWindow hT]
  generalize (10 * 2 ^ (-1022 : ℤ) : ℝ) = t at *
  unfold binCentre binWidth
  have e10 : (1 : ℝ) < 10 := by norm_num
  have hb : (1 / 4 : ℝ) ≤ Real.logb 10 (2 + t) - Real.logb 10 (1 + t) := by
    rw [← Real.logb_div (by linarith) (by linarith), Real.le_logb_iff_rpow_le e10 (by positivity),
      le_div_iff₀ (by linarith)]
    have := exWide
    have : (0 : ℝ) ≤ 10 ^ (1 / 4 : ℝ) := by positivity
    nlinarith
  have hl : 0 ≤ Real.logb 10 (1 + t) := Real.logb_nonneg e10 (by linarith)
  have hh : (10 : ℝ) ^ Real.logb 10 (2 + t) = 2 + t := Real.rpow_logb (by norm_num) (by norm_num) (by linarith)
  have i0 : (0 : ℝ) ≤ i := Nat.cast_nonneg _
  have i1 : (i : ℝ) ≤ 1 := by exact_mod_cast (by omega : i ≤ 1)
  push_cast
  set bw := (Real.logb 10 (2 + t) - Real.logb 10 (1 + t)) / 2 with hbw
  have b0 : 1 / 8 ≤ bw := by linarith
  have n1 : (1 : ℝ) ≤ 10 ^ (Real.logb 10 (1 + t) + (i + 1 / 2) * bw) :=
    Real.one_le_rpow (by norm_num) (by positivity)
  refine ⟨n1, ?_, by nlinarith⟩
  calc (10 : ℝ) ^ (Real.logb 10 (1 + t) + (i + 1 / 2) * bw) ≤ 10 ^ Real.logb 10 (2 + t) := by
        refine Real.rpow_le_rpow_of_exponent_le (by norm_num) ?_
        nlinarith
    _ = 2 + t := hh
    _ ≤ 3 := by linarith

theorem exWeight {T ν : ℝ} (hT : T = 1 ∨ T = 10) (h1 : 1 ≤ ν) (h3 : ν ≤ 3) :
    1 / 2000 ≤ planckWeight 1 1 1 T ν ∧ 1 / 2000 ≤ rosselandWeight 1 1 1 T ν := by
  have hT1 : 1 ≤ T := by rcases hT with rfl | rfl <;> norm_num
  have hT10 : T ≤ 10 := by rcases hT with rfl | rfl <;> norm_num
  have hx : 1 * ν / (1 * T) ≤ 3 := by rw [div_le_iff₀ (by linarith)]; nlinarith
  have hx0 : 0 < 1 * ν / (1 * T) := by positivity
  unfold planckWeight rosselandWeight
  rw [if_pos (by linarith), if_pos (by linarith)]
  unfold planckLaw planckLawDT
  generalize 1 * ν / (1 * T) = x at *
  have e3 : Real.exp 3 ≤ 27 := by
    have := Real.exp_one_lt_d9
    have e : Real.exp 3 = Real.exp 1 ^ 3 := by rw [← Real.exp_nat_mul]; norm_num
    rw [e]
    calc Real.exp 1 ^ 3 ≤ 3 ^ 3 := by gcongr; linarith
      _ = 27 := by norm_num
  have ex : Real.exp x ≤ 27 := (Real.exp_le_exp.2 hx).trans e3
  have ex0 : 1 < Real.exp x := Real.one_lt_exp_iff.2 hx0
  have en : Real.exp (-x) < 1 := by rw [← Real.exp_zero]; exact Real.exp_lt_exp.2 (by linarith)
  have en0 : 1 / 27 ≤ Real.exp (-x) := by
    rw [Real.exp_neg, one_div]; exact inv_anti₀ (by positivity) ex
  have hν3 : 1 ≤ ν ^ 3 := one_le_pow₀ h1
  have hν4 : 1 ≤ ν ^ 4 := one_le_pow₀ h1
  have hTT : T ^ 2 ≤ 100 := by nlinarith
  constructor
  · rw [le_div_iff₀ (by linarith)]
    norm_num
    linarith
  · have hd : (1 - Real.exp (-x)) ^ 2 ≤ 1 := pow_le_one₀ (by linarith) (by linarith)
    have hd0 : 0 < (1 - Real.exp (-x)) ^ 2 := by
      have : 0 < 1 - Real.exp (-x) := by linarith
      positivity
    have h5 : 1 / 50 ≤ 2 * 1 ^ 2 * ν ^ 4 / (T ^ 2 * 1 ^ 2 * 1) := by
      rw [le_div_iff₀ (by positivity)]; nlinarith
    rw [le_div_iff₀ hd0]
    nlinarith [mul_le_mul h5 en0 (by norm_num) (by positivity)]

theorem exTotals {T : ℝ} (hT : T = 1 ∨ T = 10) :
    1 / 16000 ≤ (MGTables.GroupDenominators exPC.exact T 1 2 2).1 ∧ 1 / 16000 ≤ (MGTables.GroupDenominators exPC.exact T 1 2 2).2 ∧
    1 / 16000 ≤ rosselandTotal (10 * 2 ^ (-1022 : ℤ)) 1 1 1 T 1 (some 2) 2 := by
  have hT0 : 0 < T := by rcases hT with rfl | rfl <;> norm_num
  have es := samples_real (pc := exPC) exPC_pos (lo := ⟨1⟩) (hi := ⟨2⟩) (by norm_num) (by norm_num) (exClear hT) (by norm_num)
    2 (by norm_num)
  have s0 := exSample hT 0 (by norm_num)
  have s1 := exSample hT 1 (by norm_num)
  have w0 := exWeight hT s0.1 s0.2.1
  have w1 := exWeight hT s1.1 s1.2.1
  have two : (2 : ℤ).toNat = 2 := rfl
  rw [two] at es
  have key : ∀ f : ℝ → ℝ, 1 / 2000 ≤ f (groupNu (10 * 2 ^ (-1022 : ℤ)) 1 1 T 1 (some 2) 2 0) →
      1 / 2000 ≤ f (groupNu (10 * 2 ^ (-1022 : ℤ)) 1 1 T 1 (some 2) 2 1) → 1 / 16000 ≤ ∑ i ∈ Finset.range 2,
        f (groupNu (10 * 2 ^ (-1022 : ℤ)) 1 1 T 1 (some 2) 2 i) * groupDNu (10 * 2 ^ (-1022 : ℤ)) 1 1 T 1 (some 2) 2 i := by
    intro f h0 h1
    rw [Finset.sum_range_succ, Finset.sum_range_one]
    have := mul_le_mul h0 s0.2.2 (by norm_num) (by linarith)
    have := mul_le_mul h1 s1.2.2 (by norm_num) (by linarith)
    linarith
  refine ⟨?_, ?_, key _ w0.2 w1.2⟩
  · rw [denominators_eq]
    simp only []
    rw [show GroupFrequencySamples exPC.exact T 1 2 2 = _ from es, loopSum_real, List.map_map, sum_range_list]
    refine key (fun ν => (ThermalWeightsAtNu exPC.exact T ν).1) ?_ ?_
    · rw [planck_weight exPC_pos hT0 (by linarith)]; exact w0.1
    · rw [planck_weight exPC_pos hT0 (by linarith)]; exact w1.1
  · rw [denominators_eq]
    simp only []
    rw [show GroupFrequencySamples exPC.exact T 1 2 2 = _ from es, loopSum_real, List.map_map, sum_range_list]
    refine key (fun ν => (ThermalWeightsAtNu exPC.exact T ν).2) ?_ ?_
    · rw [rosseland_weight exPC_pos hT0 (by linarith)]; exact w0.2
    · rw [rosseland_weight exPC_pos hT0 (by linarith)]; exact w1.2

/-- the exact gray opacity `1` -/
noncomputable def exGray : GrayOpacity ℝ := ⟨exPC.exact, 1⟩

theorem exRosseland {T ρ : ℝ} (hT : T = 1 ∨ T = 10) (hρ : 1 / 10 ≤ ρ) :
    ClearRosseland (10 * 2 ^ (-1022 : ℤ)) 1 1 1 ρ T 1 2 2 (exGray.AbsorptionCoefficient ρ T) := by
  obtain ⟨t0, t1⟩ := exTiny
  have h := (exTotals hT).2.2
  have s0 := exSample hT 0 (by norm_num)
  have s1 := exSample hT 1 (by norm_num)
  have e : ∀ ν, exGray.AbsorptionCoefficient ρ T ν = ρ := fun ν => mul_one ρ
  refine ⟨fun i _ => ?_, by linarith, ?_⟩
  · rw [e]; linarith
  · have hr : 1 / 2 ≤ ρ / (ρ + 10 * 2 ^ (-1022 : ℤ)) := by
      rw [le_div_iff₀ (by linarith)]; linarith
    simp only [e, mul_assoc]
    rw [← Finset.mul_sum]
    unfold rosselandTotal at h
    nlinarith

theorem exMean {T ρ : ℝ} (hT : T = 1 ∨ T = 10) (hρ : 1 / 10 ≤ ρ) :
    (1 / 2 ≤ (MGTables.GroupMeans exPC.exact exGray.AbsorptionCoefficient ρ T 1 2 2).1 ∧
      (MGTables.GroupMeans exPC.exact exGray.AbsorptionCoefficient ρ T 1 2 2).1 ≤ 2) ∧
    (1 / 2 ≤ (MGTables.GroupMeans exPC.exact exGray.AbsorptionCoefficient ρ T 1 2 2).2 ∧
      (MGTables.GroupMeans exPC.exact exGray.AbsorptionCoefficient ρ T 1 2 2).2 ≤ 2) := by
  obtain ⟨t0, t1⟩ := exTiny
  have hT0 : 0 < T := by rcases hT with rfl | rfl <;> norm_num
  have hρ0 : 0 < ρ := by linarith
  obtain ⟨d1, d2, -⟩ := exTotals hT
  have e : ∀ ν, exGray.AbsorptionCoefficient ρ T ν = ρ := fun ν => mul_one ρ
  have eS : (Robust.SMALL : ℝ) = 10 * 2 ^ (-1022 : ℤ) := by simp [Robust.SMALL, areal]
  have n1 : (MGTables.GroupNumerators exPC.exact exGray.AbsorptionCoefficient ρ T 1 2 2).1 =
      (MGTables.GroupDenominators exPC.exact T 1 2 2).1 := by
    rw [numerators_planck, denominators_eq]
    congr 1
    refine List.map_congr_left fun s _ => ?_
    rw [e]
    show ρ / ρ * _ * _ = _
    rw [div_self hρ0.ne']
    show 1 * (ThermalWeightsAtNu exPC.exact T s.1).1 * s.2 = (ThermalWeightsAtNu exPC.exact T s.1).1 * s.2
    rw [one_mul]
  have n2 : (MGTables.GroupNumerators exPC.exact exGray.AbsorptionCoefficient ρ T 1 2 2).2 =
      ρ / (ρ + 10 * 2 ^ (-1022 : ℤ)) * (MGTables.GroupDenominators exPC.exact T 1 2 2).2 := by
    rw [numerators_rosseland _ _ _ _ _ _ _ (fun s _ => by rw [e, gt, real_lt, eS]; linarith), denominators_eq]
    simp only []
    rw [loopSum_real, loopSum_real, ← List.sum_map_mul_left]
    congr 1
    refine List.map_congr_left fun s _ => ?_
    rw [e, ratio_pos hρ0]
    show _ * _ * _ = _ * (_ * _)
    rw [mul_assoc]
  unfold MGTables.GroupMeans MGTables.MeansOfSums
  simp only []
  rw [n1, n2]
  generalize (MGTables.GroupDenominators exPC.exact T 1 2 2).1 = D1 at *
  generalize (MGTables.GroupDenominators exPC.exact T 1 2 2).2 = D2 at *
  have hr1 : 1 / 2 ≤ ρ / (ρ + 10 * 2 ^ (-1022 : ℤ)) := by
    rw [le_div_iff₀ (by linarith)]; linarith
  have hr2 : ρ / (ρ + 10 * 2 ^ (-1022 : ℤ)) ≤ 1 := by
    rw [div_le_iff₀ (by linarith)]; linarith
  generalize ρ / (ρ + 10 * 2 ^ (-1022 : ℤ)) = r at *
  have k1 : gt D2 (Robust.SMALL : ℝ) = true := by rw [gt, real_lt, eS]; linarith
  have k2 : gt (r * D2) (Robust.SMALL : ℝ) = true := by rw [gt, real_lt, eS]; nlinarith
  rw [k1, k2]
  simp only [Bool.and_true, if_true]
  rw [ratio_pos (by linarith), ratio_pos (by nlinarith)]
  generalize (10 * 2 ^ (-1022 : ℤ) : ℝ) = t at *
  have hr0 : 0 < r * D2 := by nlinarith
  refine ⟨⟨?_, ?_⟩, ?_, ?_⟩
  · rw [le_div_iff₀ (by linarith)]; linarith
  · rw [div_le_iff₀ (by linarith)]; linarith
  · rw [le_div_iff₀ (by linarith)]; nlinarith
  · rw [div_le_iff₀ (by linarith)]; nlinarith

theorem exLog {v : ℝ} (h0 : 1 / 2 ≤ v) (h1 : v ≤ 2) : |(ToLog v : ℝ)| ≤ 1 := by
  obtain ⟨t0, t1⟩ := exTiny
  have e : (ToLog v : ℝ) = Real.logb 10 (v + 10 * 2 ^ (-1022 : ℤ)) := by
    unfold ToLog; simp [areal, abs_of_pos (show 0 < v by linarith)]
  rw [e]
  generalize (10 * 2 ^ (-1022 : ℤ) : ℝ) = t at *
  rw [abs_le, Real.le_logb_iff_rpow_le (by norm_num) (by linarith), Real.logb_le_iff_le_rpow (by norm_num) (by linarith)]
  norm_num
  constructor <;> linarith

theorem exAcceptable : AcceptableBounds (([⟨1⟩, ⟨2⟩] : List (Fl rn53)).map Fl.val) 1 := by
  refine ⟨by norm_num, by simp, fun _ _ _ _ => rfl, ?_, ?_, fun _ _ _ _ => rfl⟩
  · intro x hx
    simp at hx; subst hx
    rw [real_le]; norm_num [areal]
  · intro i x y hi hx hy
    obtain rfl : i = 0 := by omega
    simp at hx hy; subst hx hy
    rw [real_lt]; norm_num

/-- gray opacity `1`, group `[1, 2]`, densities 0.1 to 10 and temperatures 1 to 10: rounded means exist and agree with the
exact means at density 1 and temperature 5 -/
example (junk : ℕ → Fl rn53) : ∃ (m : MeanOpacityBase (Fl rn53)) (m' : MeanOpacityBase ℝ),
    MeanOpacityBase.construct exPC junk (⟨exPC, ⟨1⟩⟩ : GrayOpacity (Fl rn53)) ⟨-1⟩ ⟨1⟩ 2 ⟨0⟩ ⟨1⟩ 2 [⟨1⟩, ⟨2⟩] 1 2 = ok m ∧
    MeanOpacityBase.construct exPC.exact (fun _ => 0) exGray (-1) 1 2 0 1 2 [1, 2] 1 2 = ok m' ∧
    AgreesWithin 1e-10 (MeanPhotonAPI.PlanckGroupAbsorptionCoefficient m (⟨1⟩ : Fl rn53) ⟨5⟩ 0)
      (MeanPhotonAPI.PlanckGroupAbsorptionCoefficient m' (1 : ℝ) 5 0) ∧
    AgreesWithin 1e-10 (MeanPhotonAPI.RosselandGroupAbsorptionCoefficient m (⟨1⟩ : Fl rn53) ⟨5⟩ 0)
      (MeanPhotonAPI.RosselandGroupAbsorptionCoefficient m' (1 : ℝ) 5 0) := by
  obtain ⟨t', ht⟩ := Impl_returns (pc := exPC.exact) (junk := fun _ => (0 : ℝ)) (coef := exGray.AbsorptionCoefficient)
    (lRhoMin := (-1 : ℝ)) (lRhoMax := 1) (NRho := 2) (lTMin := 0) (lTMax := 1) (NT := 2) (dflt := 0) (NNu := 2) (by norm_num)
    exAcceptable (fun _ _ _ _ _ _ => ⟨rfl, rfl⟩)
  have F := Impl_filled (0 : ℝ) ht
  have hρ : ∀ j : ℕ, (1 / 10 : ℝ) ≤ 10 ^ nodeAt (-1) 1 2 j := by
    intro j
    have : (10 : ℝ) ^ (-1 : ℝ) ≤ 10 ^ nodeAt (-1) 1 2 j := by
      refine Real.rpow_le_rpow_of_exponent_le (by norm_num) ?_
      unfold nodeAt
      norm_num
    refine le_trans (le_of_eq ?_) this
    rw [Real.rpow_neg_one]; norm_num
  have cell : ∀ i j g : ℕ, (i : ℤ) < 2 → g < 1 →
      cellMeans exPC.exact exGray.AbsorptionCoefficient [1, 2] 2 (freshGrid (-1) 1 2 0 1 2) 0 i j g =
      MGTables.GroupMeans exPC.exact exGray.AbsorptionCoefficient (10 ^ nodeAt (-1) 1 2 j) (10 ^ nodeAt 0 1 2 i) 1 2 2 := by
    intro i j g _ hg
    obtain rfl : g = 0 := by omega
    unfold cellMeans
    have e1 : FromLog ((freshGrid (-1 : ℝ) 1 2 0 1 2 2).x j) = (10 : ℝ) ^ nodeAt (-1) 1 2 j := by
      simp [FromLog, areal, Grid.x, Grid.dx, nodeAt, freshGrid]
    have e2 : FromLog ((freshGrid (-1 : ℝ) 1 2 0 1 2 1).x i) = (10 : ℝ) ^ nodeAt 0 1 2 i := by
      simp [FromLog, areal, Grid.x, Grid.dx, nodeAt, freshGrid]
    rw [e1, e2]
    rfl
  have smooth : ∀ d : DataBox ℝ, d.dims = [2, 2, (1 : ℤ)] → (∀ i j g : ℕ, (i : ℤ) < 2 → (j : ℤ) < 2 → g < 1 →
      ∃ v, d.read [(j : ℤ), (i : ℤ), (g : ℤ)] = ok v ∧ |v| ≤ 1) → SmoothTable d [2, 1] 1 2 := by
    intro d hd h
    have key : ∀ is v, d.read is = ok v → |v| ≤ 1 := by
      intro is v hv
      obtain ⟨o, ho, -⟩ := bind_eq_ok.1 hv
      have hin := offset_inRange ho
      rw [hd] at hin
      match is, hin with
      | [a, b, c], ⟨⟨a0, a1⟩, ⟨b0, b1⟩, ⟨c0, c1⟩, _⟩ =>
        obtain ⟨w, hw, hb⟩ := h b.toNat a.toNat c.toNat (by omega) (by omega) (by omega)
        rw [Int.toNat_of_nonneg a0, Int.toNat_of_nonneg b0, Int.toNat_of_nonneg c0, hv] at hw
        cases hw
        exact hb
    refine ⟨key, fun k _ is v v' h1 h2 => ?_⟩
    have := abs_le.1 (key _ _ h1)
    have := abs_le.1 (key _ _ h2)
    rw [abs_le]; constructor <;> linarith
  have hm : MeanOpacityBase.construct exPC.exact (fun _ => 0) exGray (-1) 1 2 0 1 2 [1, 2] 1 2 = ok ⟨exPC.exact, t'⟩ := by
    have ht' : MGTables.Impl_ exPC.exact (fun _ => (0 : ℝ)) exGray.AbsorptionCoefficient (-1) 1 2 0 1 2 [1, 2] 1 2 = ok t' := ht
    unfold MeanOpacityBase.construct
    show Outcome.map' _ (MGTables.Impl_ exPC.exact (fun _ => (0 : ℝ)) exGray.AbsorptionCoefficient (-1) 1 2 0 1 2 [1, 2] 1 2) = _
    rw [ht']; rfl
  have hp : SmoothTable t'.lPlanck [2, 1] 1 2 := smooth _ F.dims1 fun i j g hi hj hg => ⟨_, (F.cell i j g hi hj hg trivial).1, by
    rw [show ([⟨1⟩, ⟨2⟩] : List (Fl rn53)).map Fl.val = [1, 2] from rfl, cell i j g hi hg]
    exact exLog (exMean (exNode i hi) (hρ j)).1.1 (exMean (exNode i hi) (hρ j)).1.2⟩
  have hro : SmoothTable t'.lRosseland [2, 1] 1 2 := smooth _ F.dims2 fun i j g hi hj hg => ⟨_, (F.cell i j g hi hj hg trivial).2, by
    rw [show ([⟨1⟩, ⟨2⟩] : List (Fl rn53)).map Fl.val = [1, 2] from rfl, cell i j g hi hg]
    exact exLog (exMean (exNode i hi) (hρ j)).2.1 (exMean (exNode i hi) (hρ j)).2.2⟩
  have hcl : AllClear exPC ⟨-1⟩ ⟨1⟩ 2 ⟨0⟩ ⟨1⟩ 2 [⟨1⟩, ⟨2⟩] 1 2 exGray.AbsorptionCoefficient := by
    intro i j g hi hj hg lo hi' h0 h1
    obtain rfl : g = 0 := by omega
    simp only [List.getElem?_cons_zero, Option.some.injEq] at h0
    simp only [zero_add, List.getElem?_cons_succ, List.getElem?_cons_zero, Option.some.injEq] at h1
    subst h0 h1
    exact exRosseland (exNode i hi) (hρ j)
  have hE : MeanErr (2 ^ (-53 : ℤ)) 1 1 1 2 (Budget (absorptionCost 0 0 (exPC.h.val / exPC.kb.val) 3 exPC.h.val exPC.kb.val 1) 1 (1 / 4) 3 2)
      ≤ 1e-10 := by
    have h1 : exPC.h.val = 1 := rfl
    have h2 : exPC.kb.val = 1 := rfl
    rw [h1, h2]
    unfold MeanErr Budget absorptionCost
    norm_num
  obtain ⟨m, e, -, q1, q2⟩ := C69_absorption (junk := junk) rn53_binary
    (zpow_le_zpow_right₀ (by norm_num) (by norm_num)) (Twin.gray exPC ⟨1⟩ exPC_pos (by norm_num)) exWell le_rfl (by norm_num)
    (by norm_num) (hE.trans (by norm_num)) hm
  have wk : ∀ {f : Outcome (Fl rn53)} {x : Outcome ℝ}, AgreesWithin (MeanErr (2 ^ (-53 : ℤ)) 1 1 1 2 (Budget (absorptionCost 0 0
      (exPC.h.val / exPC.kb.val) 3 exPC.h.val exPC.kb.val 1) 1 (1 / 4) 3 2)) f x → AgreesWithin 1e-10 f x := by
    rintro f x ⟨a, a', h1, h2, h3, h4⟩
    exact ⟨a, a', h1, h2, h3, h4.trans (mul_le_mul_of_nonneg_right hE h3.le)⟩
  have hin : InsideTable (⟨-1⟩ : Fl rn53) ⟨1⟩ ⟨0⟩ ⟨1⟩ ⟨1⟩ ⟨5⟩ := by
    obtain ⟨t0, t1⟩ := exTiny
    have m1 : -1 ≤ meanCoord 1 ∧ meanCoord 1 ≤ 1 := by
      have e : meanCoord 1 = Real.logb 10 (1 + 10 * 2 ^ (-1022 : ℤ)) := by
        show Real.logb 10 (|(1 : ℝ)| + 10 * 2 ^ (-1022 : ℤ)) = _
        rw [abs_one]
      rw [e]
      generalize (10 * 2 ^ (-1022 : ℤ) : ℝ) = t at *
      rw [Real.le_logb_iff_rpow_le (by norm_num) (by linarith), Real.logb_le_iff_le_rpow (by norm_num) (by linarith)]
      norm_num
      constructor <;> linarith
    have m5 : 0 ≤ meanCoord 5 ∧ meanCoord 5 ≤ 1 := by
      have e : meanCoord 5 = Real.logb 10 (5 + 10 * 2 ^ (-1022 : ℤ)) := by
        show Real.logb 10 (|(5 : ℝ)| + 10 * 2 ^ (-1022 : ℤ)) = _
        rw [abs_of_pos (show (0 : ℝ) < 5 by norm_num)]
      rw [e]
      generalize (10 * 2 ^ (-1022 : ℤ) : ℝ) = t at *
      rw [Real.le_logb_iff_rpow_le (by norm_num) (by linarith), Real.logb_le_iff_le_rpow (by norm_num) (by linarith)]
      norm_num
      constructor <;> linarith
    exact ⟨one_pos, show (0 : ℝ) < 5 by norm_num, m1.1, m1.2, m5.1, m5.2⟩
  exact ⟨m, _, e, hm, wk (q1 hp ⟨1⟩ ⟨5⟩ 0 hin le_rfl (by norm_num)), wk (q2 hro hcl ⟨1⟩ ⟨5⟩ 0 hin le_rfl (by norm_num))⟩

end example_

end Opac.Photons
