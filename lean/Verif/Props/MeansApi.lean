import Verif.Props.MeansFalse
import Verif.Props.MeanLookup

/-!
# C07–C09 and C11 through the API

The group coefficients returned by a mean absorption or scattering opacity, at every density and temperature inside the
table, in terms of the opacity the table was computed from.  Exact arithmetic with special values (`XR`), so that the last
group may be unbounded.
-/

namespace Opac.Photons
open Arith Outcome Spec Spiner Finset

/-- a real grid among the extended reals -/
def xrGrid (g : Grid ℝ) : Grid XR := ⟨.fin g.min, .fin g.max, g.N⟩

theorem xr_dx (g : Grid ℝ) (hN : 2 ≤ g.N) : (xrGrid g).dx = .fin g.dx := by
  have h2 : (2 : ℝ) ≤ g.N := by exact_mod_cast hN
  unfold Grid.dx xrGrid
  simp only [axr]
  rw [XR.fin_div (by push_cast; linarith)]
  simp [areal]

/-- interpolation along a grid -/
theorem xr_lerp (g : Grid ℝ) (hN : 2 ≤ g.N) (hlt : g.min < g.max) (x : ℝ) (f : ℤ → Outcome XR) (v : ℤ → ℝ)
    (hf : ∀ k : ℤ, 0 ≤ k → k < g.N → f k = ok (.fin (v k))) :
    DataBox.lerp (xrGrid g) (.fin x) f = (DataBox.lerp g x (fun k => ok (v k))).map' XR.fin := by
  have hdx := dx_pos g hN hlt
  have hinv : (xrGrid g).inv_dx = .fin g.inv_dx := by
    unfold Grid.inv_dx
    rw [xr_dx g hN]
    simp only [axr]
    rw [XR.fin_div hdx.ne']
    rfl
  have hix : (xrGrid g).index (.fin x) = g.index x := by
    unfold Grid.index
    rw [hinv, show (xrGrid g).min = .fin g.min from rfl]
    simp only [axr]
    rfl
  have hw : (xrGrid g).w1 (.fin x) = .fin (g.w1 x) := by
    unfold Grid.w1
    rw [hix, hinv, xr_dx g hN, show (xrGrid g).min = .fin g.min from rfl]
    simp only [axr]
    rfl
  have hr := Grid.index_range g x hN
  unfold DataBox.lerp
  rw [hix, hw, hf _ hr.1 (by omega), hf _ (by omega) (by omega)]
  simp only [axr, Outcome.bind, Outcome.map']
  simp [areal]

/-- a coordinate inside a grid lies in one of its cells -/
theorem cell_exists (g : Grid ℝ) (hN : 2 ≤ g.N) (hlt : g.min < g.max) {x : ℝ} (h0 : g.min ≤ x) (h1 : x ≤ g.max) :
    ∃ i : ℕ, (i : ℤ) + 1 < g.N ∧ node g i ≤ x ∧ x ≤ node g (i + 1) := by
  have hdx := dx_pos g hN hlt
  have e : ∀ m : ℕ, node g m = g.min + m * g.dx := by intro m; rw [dx_eq]; rfl
  have hN1 : (0 : ℝ) < (g.N : ℝ) - 1 := by
    have : (2 : ℝ) ≤ g.N := by exact_mod_cast hN
    linarith
  obtain ⟨M, hM⟩ : ∃ M : ℕ, g.N = M + 2 := ⟨(g.N - 2).toNat, by omega⟩
  have hmax : g.max = g.min + (M + 1) * g.dx := by
    have hM2 : (M : ℝ) + 2 - 1 = M + 1 := by ring
    rw [dx_eq, hM]; push_cast; rw [hM2, mul_div_cancel₀ _ (by positivity)]; ring
  by_cases hq : (x - g.min) / g.dx < M + 1
  · refine ⟨⌊(x - g.min) / g.dx⌋₊, ?_, ?_, ?_⟩
    · have : ⌊(x - g.min) / g.dx⌋₊ < M + 1 := by
        rw [Nat.floor_lt (div_nonneg (by linarith) hdx.le)]; exact_mod_cast hq
      omega
    · rw [e]
      have := Nat.floor_le (div_nonneg (by linarith : 0 ≤ x - g.min) hdx.le)
      rw [le_div_iff₀ hdx] at this
      linarith
    · rw [e]
      have := (Nat.lt_floor_add_one ((x - g.min) / g.dx)).le
      rw [div_le_iff₀ hdx] at this
      push_cast
      linarith
  · refine ⟨M, by omega, ?_, ?_⟩
    · push Not at hq
      rw [le_div_iff₀ hdx] at hq
      rw [e]; nlinarith
    · rw [e]; push_cast; linarith

/-- interpolation of four logarithms, linear in both directions -/
noncomputable def bilinear (s u : ℝ) (L : ℕ → ℕ → ℝ) (i j : ℕ) : ℝ :=
  (1 - s) * ((1 - u) * L i j + u * L i (j + 1)) + s * ((1 - u) * L (i + 1) j + u * L (i + 1) (j + 1))

/-- a state in the cell `i`, `j` of a table: its position in the cell determines the interpolated opacity -/
theorem lookup_value {gR gT : Grid ℝ} (hNR : 2 ≤ gR.N) (hNT : 2 ≤ gT.N) (hR : gR.min < gR.max) (hT : gT.min < gT.max)
    {rho T : ℝ} {i j : ℕ} (hi' : (i : ℤ) + 1 < gR.N) (hj' : (j : ℤ) + 1 < gT.N)
    (a0 : node gR i ≤ coordinate rho) (a1 : coordinate rho ≤ node gR (i + 1))
    (b0 : node gT j ≤ coordinate T) (b1 : coordinate T ≤ node gT (j + 1)) :
    ∃ s u, 0 ≤ s ∧ s ≤ 1 ∧ 0 ≤ u ∧ u ≤ 1 ∧ s = (coordinate rho - node gR i) / gR.dx ∧
      u = (coordinate T - node gT j) / gT.dx ∧
      ∀ (lk : DataBox XR) (g : ℕ) (K : ℕ → ℕ → ℝ), lk.grid 2 = xrGrid gR → lk.grid 1 = xrGrid gT →
        (∀ i j : ℕ, (i : ℤ) < gR.N → (j : ℤ) < gT.N → lk.read [i, j, g] = ok (.fin (Real.logb 10 (K i j)))) →
        MGTables.GroupCoefficient_ lk (.fin rho) (.fin T) g =
          ok (.fin (rho * 10 ^ bilinear s u (fun i j => Real.logb 10 (K i j)) i j)) := by
  obtain ⟨s, s0, s1, hs, -⟩ := lerp_eq gR hNR hR i hi' (coordinate rho) a0 a1 (fun _ => ok 0) (fun _ => 0) (fun _ _ _ => rfl)
  obtain ⟨u, u0, u1, hu, -⟩ := lerp_eq gT hNT hT j hj' (coordinate T) b0 b1 (fun _ => ok 0) (fun _ => 0) (fun _ _ _ => rfl)
  refine ⟨s, u, s0, s1, u0, u1, hs, hu, ?_⟩
  intro lk g K h2 h1 hread
  -- the logarithms
  obtain ⟨L, hL⟩ : ∃ L : ℤ → ℤ → ℝ, L = fun a b => Real.logb 10 (K a.toNat b.toNat) := ⟨_, rfl⟩
  have hL' : ∀ a b : ℤ, 0 ≤ a → a < gR.N → 0 ≤ b → b < gT.N → lk.read [a, b, g] = ok (.fin (L a b)) := by
    intro a b ha ha' hb hb'
    obtain ⟨a, rfl⟩ := Int.eq_ofNat_of_zero_le ha
    obtain ⟨b, rfl⟩ := Int.eq_ofNat_of_zero_le hb
    rw [hread a b ha' hb', hL]
    simp
  have hin : ∀ a : ℤ, 0 ≤ a → a < gR.N →
      DataBox.lerp (xrGrid gT) (.fin (coordinate T)) (fun b => lk.read [a, b, g]) =
        ok (.fin ((1 - u) * L a j + u * L a (j + 1))) := by
    intro a a0 a1
    rw [xr_lerp gT hNT hT _ _ (L a) (fun b b0 b1 => hL' a b a0 a1 b0 b1)]
    obtain ⟨u', -, -, hu', e⟩ := lerp_eq gT hNT hT j hj' (coordinate T) b0 b1 (fun k => ok (L a k)) (L a) (fun _ _ _ => rfl)
    rw [e, hu', hu]
    rfl
  obtain ⟨s', -, -, hs', e⟩ := lerp_eq gR hNR hR i hi' (coordinate rho) a0 a1
    (fun a => ok ((1 - u) * L a j + u * L a (j + 1))) _ (fun _ _ _ => rfl)
  have hss : s' = s := by rw [hs', hs]
  subst hss
  have hlerp : lk.interp3 (ToLog (.fin rho)) (ToLog (.fin T)) g =
      ok (.fin (bilinear s' u (fun i j => Real.logb 10 (K i j)) i j)) := by
    unfold DataBox.interp3
    rw [h2, h1, xr_toLog, xr_toLog]
    show DataBox.lerp (xrGrid gR) (.fin (coordinate rho))
      (fun a => DataBox.lerp (xrGrid gT) (.fin (coordinate T)) (fun b => lk.read [a, b, g])) = _
    rw [xr_lerp gR hNR hR _ _ (fun a => (1 - u) * L a j + u * L a (j + 1)) (fun a a0 a1 => hin a a0 a1)]
    rw [e, hL]
    simp [bilinear, Outcome.map', show ∀ m : ℕ, ((m : ℤ) + 1).toNat = m + 1 from fun m => by omega]
  unfold MGTables.GroupCoefficient_
  rw [hlerp, map'_ok, xr_fromLog]
  simp only [axr]

/-- an interpolated logarithm lies between bounds of the four -/
theorem bilinear_bounds {s u : ℝ} (s0 : 0 ≤ s) (s1 : s ≤ 1) (u0 : 0 ≤ u) (u1 : u ≤ 1) {L : ℕ → ℕ → ℝ} {i j : ℕ} {lo hi : ℝ}
    (h : ∀ a b, (a = i ∨ a = i + 1) → (b = j ∨ b = j + 1) → lo ≤ L a b ∧ L a b ≤ hi) :
    lo ≤ bilinear s u L i j ∧ bilinear s u L i j ≤ hi := by
  have c1 := h i j (.inl rfl) (.inl rfl)
  have c2 := h i (j + 1) (.inl rfl) (.inr rfl)
  have c3 := h (i + 1) j (.inr rfl) (.inl rfl)
  have c4 := h (i + 1) (j + 1) (.inr rfl) (.inr rfl)
  unfold bilinear
  constructor
  · have d1 : lo ≤ (1 - u) * L i j + u * L i (j + 1) := by nlinarith [c1.1, c2.1]
    have d2 : lo ≤ (1 - u) * L (i + 1) j + u * L (i + 1) (j + 1) := by nlinarith [c3.1, c4.1]
    nlinarith
  · have d1 : (1 - u) * L i j + u * L i (j + 1) ≤ hi := by nlinarith [c1.2, c2.2]
    have d2 : (1 - u) * L (i + 1) j + u * L (i + 1) (j + 1) ≤ hi := by nlinarith [c3.2, c4.2]
    nlinarith

/-- a state inside a table whose opacities lie between `lo` and `hi`: the coefficient is the density times an opacity
between them -/
theorem lookup_within {lk : DataBox XR} {gR gT : Grid ℝ} (h2 : lk.grid 2 = xrGrid gR) (h1 : lk.grid 1 = xrGrid gT)
    (hNR : 2 ≤ gR.N) (hNT : 2 ≤ gT.N) (hR : gR.min < gR.max) (hT : gT.min < gT.max) {g : ℕ} {K : ℕ → ℕ → ℝ}
    (hread : ∀ i j : ℕ, (i : ℤ) < gR.N → (j : ℤ) < gT.N → lk.read [i, j, g] = ok (.fin (Real.logb 10 (K i j))))
    {lo hi : ℝ} (hlo : 0 < lo) (hK : ∀ i j : ℕ, (i : ℤ) < gR.N → (j : ℤ) < gT.N → lo ≤ K i j ∧ K i j ≤ hi)
    {rho T : ℝ} (r0 : gR.min ≤ coordinate rho) (r1 : coordinate rho ≤ gR.max)
    (t0 : gT.min ≤ coordinate T) (t1 : coordinate T ≤ gT.max) :
    ∃ κ, MGTables.GroupCoefficient_ lk (.fin rho) (.fin T) g = ok (.fin (rho * κ)) ∧ lo ≤ κ ∧ κ ≤ hi := by
  obtain ⟨i, hi', a0, a1⟩ := cell_exists gR hNR hR r0 r1
  obtain ⟨j, hj', b0, b1⟩ := cell_exists gT hNT hT t0 t1
  obtain ⟨s, u, s0, s1, u0, u1, -, -, e⟩ := lookup_value hNR hNT hR hT hi' hj' a0 a1 b0 b1
  have hb := bilinear_bounds s0 s1 u0 u1 (L := fun i j => Real.logb 10 (K i j)) (i := i) (j := j)
    (lo := Real.logb 10 lo) (hi := Real.logb 10 hi) (by
      intro a b ha hb
      have := hK a b (by omega) (by omega)
      exact ⟨Real.logb_le_logb_of_le (by norm_num) hlo this.1,
        Real.logb_le_logb_of_le (by norm_num) (by linarith [this.1]) this.2⟩)
  have hhi : 0 < hi := by have := hK i j (by omega) (by omega); linarith [this.1, this.2]
  refine ⟨_, e lk g K h2 h1 hread, ?_, ?_⟩
  · calc lo = 10 ^ Real.logb 10 lo := (Real.rpow_logb (by norm_num) (by norm_num) hlo).symm
      _ ≤ _ := Real.rpow_le_rpow_of_exponent_le (by norm_num) hb.1
  · calc _ ≤ (10 : ℝ) ^ Real.logb 10 hi := Real.rpow_le_rpow_of_exponent_le (by norm_num) hb.2
      _ = hi := Real.rpow_logb (by norm_num) (by norm_num) hhi

/-- `qP` and `qR` are the Planck and Rosseland group coefficients of a mean absorption or scattering opacity that was
computed from an opacity with the real nonnegative values `α ρ T ν`, with constants `h, k, c`, on a grid of `NRho × NT`
nodes with the given decimal logarithms, for `n` groups with bounds `b` and `N` samples per group -/
inductive MeansOf (h k c : ℝ) (α : ℝ → ℝ → ℝ → ℝ) (lRhoMin lRhoMax : ℝ) (NRho : ℤ) (lTMin lTMax : ℝ) (NT : ℤ)
    (b : List XR) (n N : ℕ) : (XR → XR → ℤ → Outcome XR) → (XR → XR → ℤ → Outcome XR) → Prop
  | absorption {O : Type} [PhotonAPI XR O] (opac : O) (pc : PC XR) (junk : ℕ → XR) (o : MeanOpacityBase XR) :
      FinitePC pc h k c →
      (∀ ρ T ν : ℝ, 0 < ρ → 0 < T → 0 < ν →
        PhotonAPI.AbsorptionCoefficient opac (XR.fin ρ) (XR.fin T) (XR.fin ν) = XR.fin (α ρ T ν)) →
      MeanOpacityBase.construct pc junk opac (.fin lRhoMin) (.fin lRhoMax) NRho (.fin lTMin) (.fin lTMax) NT b n N = ok o →
      MeansOf h k c α lRhoMin lRhoMax NRho lTMin lTMax NT b n N (MeanPhotonAPI.PlanckGroupAbsorptionCoefficient o)
        (MeanPhotonAPI.RosselandGroupAbsorptionCoefficient o)
  | scattering {O : Type} [PhotonSAPI XR O] (opac : O) (pc : PC XR) (junk : ℕ → XR) (o : MeanSOpacityBase XR) :
      FinitePC pc h k c →
      (∀ ρ T ν : ℝ, 0 < ρ → 0 < T → 0 < ν →
        PhotonSAPI.TotalScatteringCoefficient opac (XR.fin ρ) (XR.fin T) (XR.fin ν) = XR.fin (α ρ T ν)) →
      MeanSOpacityBase.construct pc junk opac (.fin lRhoMin) (.fin lRhoMax) NRho (.fin lTMin) (.fin lTMax) NT b n N = ok o →
      MeansOf h k c α lRhoMin lRhoMax NRho lTMin lTMax NT b n N (MeanPhotonSAPI.PlanckGroupScatteringCoefficient o)
        (MeanPhotonSAPI.RosselandGroupScatteringCoefficient o)

section
variable {h k c : ℝ} {α : ℝ → ℝ → ℝ → ℝ} {lRhoMin lRhoMax lTMin lTMax : ℝ} {NRho NT : ℤ} {b : List XR} {n N : ℕ}
  {qP qR : XR → XR → ℤ → Outcome XR}

theorem MeansOf.averaged (hm : MeansOf h k c α lRhoMin lRhoMax NRho lTMin lTMax NT b n N qP qR)
    (hα : ∀ ρ T ν, 0 < ρ → 0 < T → 0 < ν → 0 ≤ α ρ T ν) (hNR : 2 ≤ NRho) (hNT : 2 ≤ NT) :
    ∃ t, Averaged h k c α lRhoMin lRhoMax NRho lTMin lTMax NT b n N t ∧ qP = t.PlanckGroupCoefficient ∧
      qR = t.RosselandGroupCoefficient ∧ t.lPlanck.grid 2 = xrGrid ⟨lRhoMin, lRhoMax, NRho⟩ ∧
      t.lPlanck.grid 1 = xrGrid ⟨lTMin, lTMax, NT⟩ ∧ t.lRosseland.grid 2 = xrGrid ⟨lRhoMin, lRhoMax, NRho⟩ ∧
      t.lRosseland.grid 1 = xrGrid ⟨lTMin, lTMax, NT⟩ := by
  have key : ∀ {pc junk coef} {t : MGTables XR}, FinitePC pc h k c →
      (∀ ρ T ν, 0 < ρ → 0 < T → 0 < ν → coef (.fin ρ) (.fin T) (.fin ν) = .fin (α ρ T ν)) →
      MGTables.Impl_ pc junk coef (.fin lRhoMin) (.fin lRhoMax) NRho (.fin lTMin) (.fin lTMax) NT b n N = ok t →
      Averaged h k c α lRhoMin lRhoMax NRho lTMin lTMax NT b n N t ∧ t.lPlanck.grid 2 = xrGrid ⟨lRhoMin, lRhoMax, NRho⟩ ∧
      t.lPlanck.grid 1 = xrGrid ⟨lTMin, lTMax, NT⟩ ∧ t.lRosseland.grid 2 = xrGrid ⟨lRhoMin, lRhoMax, NRho⟩ ∧
      t.lRosseland.grid 1 = xrGrid ⟨lTMin, lTMax, NT⟩ := by
    intro pc junk coef t h1 h2 h3
    have hf := Impl_filled (lit 0) h3
    refine ⟨⟨hα, hNR, hNT, pc, junk, coef, h1, h2, h3⟩, ?_, ?_, ?_, ?_⟩
    · rw [hf.grid1]; rfl
    · rw [hf.grid1]; rfl
    · rw [hf.grid2]; rfl
    · rw [hf.grid2]; rfl
  cases hm with
  | absorption opac pc junk o h1 h2 h3 =>
    unfold MeanOpacityBase.construct at h3
    obtain ⟨t, e, rfl⟩ := map'_eq_ok.1 h3
    obtain ⟨a, g⟩ := key h1 h2 e
    exact ⟨t, a, rfl, rfl, g⟩
  | scattering opac pc junk o h1 h2 h3 =>
    unfold MeanSOpacityBase.construct at h3
    obtain ⟨t, e, rfl⟩ := map'_eq_ok.1 h3
    obtain ⟨a, g⟩ := key h1 h2 e
    exact ⟨t, a, rfl, rfl, g⟩

/-- a density and a temperature inside the table (`coordinate x` is `log10` of `x`, with the library's floor) -/
structure Inside (lRhoMin lRhoMax lTMin lTMax rho T : ℝ) : Prop where
  rho_min : lRhoMin ≤ coordinate rho
  rho_max : coordinate rho ≤ lRhoMax
  temp_min : lTMin ≤ coordinate T
  temp_max : coordinate T ≤ lTMax

/-- `κ` is among the specific opacities sampled for a group: those at the nodes of the table and at the frequencies
at which the group is sampled -/
def Sampled (h k : ℝ) (α : ℝ → ℝ → ℝ → ℝ) (lRhoMin lRhoMax : ℝ) (NRho : ℤ) (lTMin lTMax : ℝ) (NT : ℤ) (lo : ℝ)
    (up : Option ℝ) (N : ℕ) (κ : ℝ) : Prop :=
  ∃ i j m : ℕ, (i : ℤ) < NRho ∧ (j : ℤ) < NT ∧ m < N ∧
    κ = α (nodeValue lRhoMin lRhoMax NRho i) (nodeValue lTMin lTMax NT j)
      (groupNu Robust.SMALL h k (nodeValue lTMin lTMax NT j) lo up N m) / nodeValue lRhoMin lRhoMax NRho i

/-- **C08 through the API**: everywhere inside the table, the Planck group coefficient is the density times an opacity that
is at most the largest sampled one plus the floor, and at least the smallest sampled one times `D/(D + SMALL)`, if the
thermal weights sum up to at least `D` at every temperature of the table -/
theorem C08_lookup (hm : MeansOf h k c α lRhoMin lRhoMax NRho lTMin lTMax NT b n N qP qR)
    (hα : ∀ ρ T ν, 0 < ρ → 0 < T → 0 < ν → 0 ≤ α ρ T ν) (hNR : 2 ≤ NRho) (hNT : 2 ≤ NT) (hlR : lRhoMin < lRhoMax)
    (hlT : lTMin < lTMax) {g : ℕ} (hg : g < n) {lo : ℝ} {up : Option ℝ} (hgr : GroupIs b g lo up)
    {κmin κmax D : ℝ} (hmin : 0 ≤ κmin) (hD : 0 ≤ D)
    (hκ : ∀ κ, Sampled h k α lRhoMin lRhoMax NRho lTMin lTMax NT lo up N κ → κmin ≤ κ ∧ κ ≤ κmax)
    (hDT : ∀ j : ℕ, (j : ℤ) < NT → D ≤ planckTotal Robust.SMALL h k c (nodeValue lTMin lTMax NT j) lo up N)
    {rho T : ℝ} (hin : Inside lRhoMin lRhoMax lTMin lTMax rho T) :
    ∃ κ, qP (.fin rho) (.fin T) g = ok (.fin (rho * κ)) ∧
      κmin * (D / (D + Robust.SMALL)) + Robust.SMALL ≤ κ ∧ κ ≤ κmax + Robust.SMALL := by
  have hS := SMALL_pos
  obtain ⟨t, A, rfl, -, g2, g1, -, -⟩ := hm.averaged hα hNR hNT
  refine lookup_within (gR := ⟨lRhoMin, lRhoMax, NRho⟩) (gT := ⟨lTMin, lTMax, NT⟩) g2 g1 hNR hNT hlR hlT
    (fun i j hi hj => (A.read hi hj hgr hg rfl rfl).1) (by positivity) ?_ hin.1 hin.2 hin.3 hin.4
  intro i j hi hj
  obtain ⟨K, D', hT, -, hD', e, u, l⟩ := C08_planck A hi hj hg hgr rfl rfl
  have hK : groupPlanckMean Robust.SMALL h k c (nodeValue lRhoMin lRhoMax NRho i) (nodeValue lTMin lTMax NT j) lo up N
      (α (nodeValue lRhoMin lRhoMax NRho i) (nodeValue lTMin lTMax NT j)) = K := by
    have h1 := (C08_table A hi hj hgr hg rfl rfl).1
    unfold Tabulated at h1 hT
    rw [h1] at hT
    have := XR.fin.inj (Outcome.ok.inj hT)
    linarith
  rw [hK]
  have u' := u κmax (fun m hm => (hκ _ ⟨i, j, m, hi, hj, hm, rfl⟩).2)
  have l' := l κmin (fun m hm => (hκ _ ⟨i, j, m, hi, hj, hm, rfl⟩).1)
  have hd := hDT j hj
  rw [← e] at hd
  refine ⟨?_, by linarith⟩
  have : D / (D + Robust.SMALL) ≤ D' / (D' + Robust.SMALL) := by
    rw [div_le_div_iff₀ (by linarith) (by linarith)]
    nlinarith
  nlinarith

/-- **C09 through the API, partial**: if the opacity is above the floor at every sample, then everywhere inside the table
the Rosseland group coefficient is the density times an opacity that is at most the largest sampled one and at least
`1 - ε` times the smallest one, up to the floor.  Here `ε` bounds the floor relative to the thermal weights. -/
theorem C09_lookup_partial (hm : MeansOf h k c α lRhoMin lRhoMax NRho lTMin lTMax NT b n N qP qR)
    (hα : ∀ ρ T ν, 0 < ρ → 0 < T → 0 < ν → 0 ≤ α ρ T ν) (hNR : 2 ≤ NRho) (hNT : 2 ≤ NT) (hlR : lRhoMin < lRhoMax)
    (hlT : lTMin < lTMax) {g : ℕ} (hg : g < n) {lo : ℝ} {up : Option ℝ} (hgr : GroupIs b g lo up)
    {κmin κmax ε : ℝ} (hmin : 0 ≤ κmin) (hε : 0 ≤ ε) (hε1 : ε < 1)
    (hκ : ∀ κ, Sampled h k α lRhoMin lRhoMax NRho lTMin lTMax NT lo up N κ → κmin ≤ κ ∧ κ ≤ κmax)
    (hopaque : ∀ i j m : ℕ, (i : ℤ) < NRho → (j : ℤ) < NT → m < N →
      Robust.SMALL < α (nodeValue lRhoMin lRhoMax NRho i) (nodeValue lTMin lTMax NT j)
        (groupNu Robust.SMALL h k (nodeValue lTMin lTMax NT j) lo up N m))
    (hDT : ∀ j : ℕ, (j : ℤ) < NT →
      Robust.SMALL < rosselandTotal Robust.SMALL h k c (nodeValue lTMin lTMax NT j) lo up N ∧
      Robust.SMALL * (κmax + Robust.SMALL / nodeValue lRhoMin lRhoMax NRho 0) ≤
        ε * rosselandTotal Robust.SMALL h k c (nodeValue lTMin lTMax NT j) lo up N)
    {rho T : ℝ} (hin : Inside lRhoMin lRhoMax lTMin lTMax rho T) :
    ∃ κ, qR (.fin rho) (.fin T) g = ok (.fin (rho * κ)) ∧
      κmin * (1 - ε) + Robust.SMALL ≤ κ ∧
      κ ≤ κmax + Robust.SMALL / nodeValue lRhoMin lRhoMax NRho 0 + Robust.SMALL := by
  have hS := SMALL_pos
  obtain ⟨t, A, -, rfl, -, -, g2, g1⟩ := hm.averaged hα hNR hNT
  have h1ε : 0 < 1 - ε := by linarith
  refine lookup_within (gR := ⟨lRhoMin, lRhoMax, NRho⟩) (gT := ⟨lTMin, lTMax, NT⟩) g2 g1 hNR hNT hlR hlT
    (fun i j hi hj => (A.read hi hj hgr hg rfl rfl).2.1) (by positivity) ?_ hin.1 hin.2 hin.3 hin.4
  intro i j hi hj
  obtain ⟨K, D', hT, -, hD', e, l⟩ := C09_partial A hi hj hg hgr rfl rfl (fun m hm => hopaque i j m hi hj hm)
  have hK : groupRosselandMean Robust.SMALL h k c (nodeValue lRhoMin lRhoMax NRho i) (nodeValue lTMin lTMax NT j) lo up N
      (α (nodeValue lRhoMin lRhoMax NRho i) (nodeValue lTMin lTMax NT j)) = K := by
    have h1 := (C08_table A hi hj hgr hg rfl rfl).2.1
    unfold Tabulated at h1 hT
    rw [h1] at hT
    have := XR.fin.inj (Outcome.ok.inj hT)
    linarith
  rw [hK]
  obtain ⟨u, l⟩ := l κmax (fun m hm => (hκ _ ⟨i, j, m, hi, hj, hm, rfl⟩).2)
  have hmono : nodeValue lRhoMin lRhoMax NRho 0 ≤ nodeValue lRhoMin lRhoMax NRho i := by
    unfold nodeValue
    apply Real.rpow_le_rpow_of_exponent_le (by norm_num)
    have : (2 : ℝ) ≤ NRho := by exact_mod_cast hNR
    have : 0 ≤ (lRhoMax - lRhoMin) / ((NRho : ℝ) - 1) := div_nonneg (by linarith) (by linarith)
    have : 0 ≤ (i : ℝ) * ((lRhoMax - lRhoMin) / ((NRho : ℝ) - 1)) := by positivity
    push_cast
    linarith
  have hq : Robust.SMALL / nodeValue lRhoMin lRhoMax NRho i ≤ Robust.SMALL / nodeValue lRhoMin lRhoMax NRho 0 :=
    div_le_div_of_nonneg_left hS.le (nodeValue_pos _ _ _ _) hmono
  obtain ⟨d1, d2⟩ := hDT j hj
  rw [← e] at d1 d2
  refine ⟨?_, by linarith⟩
  have := l ε κmin hε hε1 d1 (le_trans (by apply mul_le_mul_of_nonneg_left _ hS.le; linarith) d2) hmin
    (fun m hm => (hκ _ ⟨i, j, m, hi, hj, hm, rfl⟩).1)
  linarith

/-- **C07 through the API, partial**: for an opacity `α = ρ κ` above the floor, everywhere inside the table both group
coefficients are `ρ κ` up to the relative error `ε` and the floor — in every group whose thermal weights are not comparable
to the floor -/
theorem C07_lookup_partial {κ : ℝ} (hκ : 0 < κ)
    (hm : MeansOf h k c (fun ρ _ _ => ρ * κ) lRhoMin lRhoMax NRho lTMin lTMax NT b n N qP qR)
    (hNR : 2 ≤ NRho) (hNT : 2 ≤ NT) (hlR : lRhoMin < lRhoMax)
    (hlT : lTMin < lTMax) {g : ℕ} (hg : g < n) {lo : ℝ} {up : Option ℝ} (hgr : GroupIs b g lo up)
    {ε : ℝ} (hε : 0 ≤ ε) (hε1 : ε < 1) (hopaque : Robust.SMALL < 10 ^ lRhoMin * κ)
    (hDT : ∀ j : ℕ, (j : ℤ) < NT →
      Robust.SMALL ≤ ε * planckTotal Robust.SMALL h k c (nodeValue lTMin lTMax NT j) lo up N ∧
      Robust.SMALL < rosselandTotal Robust.SMALL h k c (nodeValue lTMin lTMax NT j) lo up N ∧
      Robust.SMALL * (κ + Robust.SMALL / 10 ^ lRhoMin) ≤
        ε * rosselandTotal Robust.SMALL h k c (nodeValue lTMin lTMax NT j) lo up N)
    {rho T : ℝ} (hin : Inside lRhoMin lRhoMax lTMin lTMax rho T) :
    ∃ κP κR, qP (.fin rho) (.fin T) g = ok (.fin (rho * κP)) ∧ qR (.fin rho) (.fin T) g = ok (.fin (rho * κR)) ∧
      κ * (1 - ε) ≤ κP ∧ κP ≤ κ + Robust.SMALL ∧
      κ * (1 - ε) ≤ κR ∧ κR ≤ κ + Robust.SMALL / 10 ^ lRhoMin + Robust.SMALL := by
  have hS := SMALL_pos
  have hα : ∀ ρ T ν : ℝ, 0 < ρ → 0 < T → 0 < ν → 0 ≤ ρ * κ := fun ρ _ _ h _ _ => by positivity
  obtain ⟨t, A, -⟩ := hm.averaged hα hNR hNT
  obtain ⟨-, hN, hh, hk, hc⟩ := A.bounds
  have hs : ∀ κ', Sampled h k (fun ρ _ _ => ρ * κ) lRhoMin lRhoMax NRho lTMin lTMax NT lo up N κ' → κ ≤ κ' ∧ κ' ≤ κ := by
    rintro κ' ⟨i, j, m, -, -, -, rfl⟩
    have := nodeValue_pos lRhoMin lRhoMax NRho i
    beta_reduce
    rw [mul_comm, mul_div_assoc, div_self this.ne', mul_one]
    exact ⟨le_refl _, le_refl _⟩
  have hmono : ∀ i : ℕ, (10 : ℝ) ^ lRhoMin ≤ nodeValue lRhoMin lRhoMax NRho i := by
    intro i
    unfold nodeValue
    apply Real.rpow_le_rpow_of_exponent_le (by norm_num)
    have : (2 : ℝ) ≤ NRho := by exact_mod_cast hNR
    have : 0 ≤ (lRhoMax - lRhoMin) / ((NRho : ℝ) - 1) := div_nonneg (by linarith) (by linarith)
    have : 0 ≤ (i : ℝ) * ((lRhoMax - lRhoMin) / ((NRho : ℝ) - 1)) := by positivity
    linarith
  obtain ⟨κR, r1, r2, r3⟩ := C09_lookup_partial hm hα hNR hNT hlR hlT hg hgr hκ.le hε hε1 hs
    (fun i j m hi hj hm => lt_of_lt_of_le hopaque (by have := hmono i; nlinarith))
    (fun j hj => by rw [node0]; exact (hDT j hj).2) hin
  -- the smallest sum of thermal weights
  have hεpos : 0 < ε := by
    rcases hε.lt_or_eq with h0 | h0
    · exact h0
    · have := (hDT 0 (by omega)).1
      rw [← h0, zero_mul] at this
      linarith
  obtain ⟨κP, p1, p2, p3⟩ := C08_lookup hm hα hNR hNT hlR hlT hg hgr (D := Robust.SMALL / ε) hκ.le (by positivity) hs
    (fun j hj => by rw [div_le_iff₀ hεpos, mul_comm]; exact (hDT j hj).1) hin
  rw [node0] at r3
  refine ⟨κP, κR, p1, r1, ?_, p3, by linarith, r3⟩
  have hfrac : 1 - ε ≤ Robust.SMALL / ε / (Robust.SMALL / ε + Robust.SMALL) := by
    rw [le_div_iff₀ (by positivity), div_add' _ _ _ hεpos.ne', ← mul_div_assoc]
    apply div_le_div_of_nonneg_right _ hεpos.le
    nlinarith [mul_nonneg hS.le (sq_nonneg ε)]
  nlinarith

/-- weights of the group `[1, 2]` with unit constants at temperatures from 1 to 10 -/
theorem weights_lower {T : ℝ} (hT1 : 1 ≤ T) (hT10 : T ≤ 10) :
    1 / 100000 ≤ planckTotal Robust.SMALL 1 1 1 T 1 (some 2) 2 ∧
    1 / 100000 ≤ rosselandTotal Robust.SMALL 1 1 1 T 1 (some 2) 2 := by
  have hS := SMALL_pos
  have hS' := SMALL_tiny
  have hw : groupWindow 1 1 T 1 (some 2) = (1, 2) := by
    unfold groupWindow window
    simp only [one_ne_zero, false_or, mul_one, div_one]
    have c1 : ¬ (1 : ℝ) < 0.1 * (1e-3 * T) := by norm_num; linarith
    have c2 : ¬ 10 * (1e3 * T) < (2 : ℝ) := by norm_num; linarith
    rw [if_neg c1, if_neg c2, if_neg (by norm_num)]
  have hΔ : 1 / 20 ≤ binWidth (1 + Robust.SMALL) (2 + Robust.SMALL) 2 := by
    have h1 : Real.logb 10 (3 / 2 * (1 + Robust.SMALL)) ≤ Real.logb 10 (2 + Robust.SMALL) :=
      Real.logb_le_logb_of_le (by norm_num) (by linarith) (by linarith)
    rw [Real.logb_mul (by norm_num) (by linarith)] at h1
    have h2 : (1 : ℝ) / 10 ≤ Real.logb 10 (3 / 2) := by
      rw [Real.le_logb_iff_rpow_le (by norm_num) (by norm_num)]
      have h3 : ((10 : ℝ) ^ ((1 : ℝ) / 10)) ^ (10 : ℕ) ≤ (3 / 2) ^ (10 : ℕ) := by
        rw [← Real.rpow_natCast, ← Real.rpow_mul (by norm_num)]
        norm_num
      exact le_of_pow_le_pow_left₀ (by norm_num) (by norm_num) h3
    unfold binWidth
    push_cast
    linarith
  have key : ∀ m < 2, 1 / 100000 ≤ planckWeight 1 1 1 T (groupNu Robust.SMALL 1 1 T 1 (some 2) 2 m) *
        groupDNu Robust.SMALL 1 1 T 1 (some 2) 2 m ∧
      1 / 100000 ≤ rosselandWeight 1 1 1 T (groupNu Robust.SMALL 1 1 T 1 (some 2) 2 m) *
        groupDNu Robust.SMALL 1 1 T 1 (some 2) 2 m := by
    intro m hm
    have hb := binCentre_bounds (N := 2) (a := 1 + Robust.SMALL) (b := 2 + Robust.SMALL) (by linarith) (by linarith) hm
    unfold groupDNu groupNu
    rw [hw]
    simp only
    generalize binCentre (1 + Robust.SMALL) (2 + Robust.SMALL) 2 m = ν at *
    generalize binWidth (1 + Robust.SMALL) (2 + Robust.SMALL) 2 = Δ at *
    have ν1 : 1 < ν := by linarith [hb.1]
    have ν3 : ν < 3 := by linarith [hb.2]
    have ex : 1 * ν / (1 * T) = ν / T := by rw [one_mul, one_mul]
    have hx0 : 0 < ν / T := by positivity
    have hx3 : ν / T ≤ 3 := by rw [div_le_iff₀ (by linarith)]; nlinarith
    unfold planckWeight rosselandWeight planckLawDT planckLaw
    rw [ex, if_pos (by linarith), if_pos (by linarith)]
    generalize ν / T = x at *
    have hexp3 : Real.exp 3 ≤ 27 := by
      have h2 : Real.exp 3 = Real.exp 1 ^ (3 : ℕ) := by rw [← Real.exp_nat_mul]; norm_num
      have h3 : Real.exp 1 ^ (3 : ℕ) ≤ 3 ^ 3 := pow_le_pow_left₀ (Real.exp_pos 1).le (by linarith [Real.exp_one_lt_d9]) 3
      rw [h2]; linarith
    have hexp : Real.exp x ≤ 27 := (Real.exp_le_exp.2 hx3).trans hexp3
    have hexp1 : 1 < Real.exp x := by rw [← Real.exp_zero]; exact Real.exp_lt_exp.2 hx0
    have e1 : 1 / 27 ≤ Real.exp (-x) := by
      rw [Real.exp_neg, one_div]
      exact inv_anti₀ (Real.exp_pos _) hexp
    have e2 : Real.exp (-x) < 1 := by rw [← Real.exp_zero]; exact Real.exp_lt_exp.2 (by linarith)
    have p3 : 1 ≤ ν ^ 3 := one_le_pow₀ ν1.le
    have p4 : 1 ≤ ν ^ 4 := one_le_pow₀ ν1.le
    constructor
    · have w : 1 / 27 ≤ 1 / (Real.exp x - 1) := one_div_le_one_div_of_le (by linarith) (by linarith)
      calc (1 : ℝ) / 100000 ≤ 2 * 1 * (1 / 27) * (1 * (1 / 20)) := by norm_num
        _ ≤ 2 * ν ^ 3 * (1 / (Real.exp x - 1)) * (ν * Δ) := by gcongr
        _ = _ := by ring
    · generalize Real.exp (-x) = E at *
      have q0 : 0 < (1 - E) ^ 2 := by
        have : 0 < 1 - E := by linarith
        positivity
      have q1 : (1 - E) ^ 2 ≤ 1 := by nlinarith
      have w1 : E ≤ E / (1 - E) ^ 2 := by
        rw [le_div_iff₀ q0]; nlinarith
      have w2 : (1 : ℝ) / 27 ≤ E / (1 - E) ^ 2 := e1.trans w1
      have w3 : (1 : ℝ) / 100 ≤ 1 / T ^ 2 := one_div_le_one_div_of_le (by positivity) (by nlinarith)
      calc (1 : ℝ) / 100000 ≤ 2 * 1 * (1 / 100) * (1 / 27) * (1 * (1 / 20)) := by norm_num
        _ ≤ 2 * ν ^ 4 * (1 / T ^ 2) * (E / (1 - E) ^ 2) * (ν * Δ) := by gcongr
        _ = _ := by ring
  unfold planckTotal rosselandTotal
  rw [sum_range_succ, sum_range_succ, sum_range_zero, sum_range_succ, sum_range_succ, sum_range_zero]
  have k0 := key 0 (by norm_num); have k1 := key 1 (by norm_num)
  exact ⟨by linarith [k0.1, k1.1], by linarith [k0.2, k1.2]⟩

/-- the hypotheses of the three theorems are met: a gray absorption and a gray scattering opacity of 1 cm²/g, densities and
temperatures from 1 to 10, unit constants, the group `[1, 2]`, any state inside -/
example : ∃ qP qR qP' qR' : XR → XR → ℤ → Outcome XR,
    MeansOf 1 1 1 (fun ρ _ _ => ρ * 1) 0 1 2 0 1 2 [.fin 1, .fin 2] 1 2 qP qR ∧
    MeansOf 1 1 1 (fun ρ _ _ => ρ * 1) 0 1 2 0 1 2 [.fin 1, .fin 2] 1 2 qP' qR' ∧
    Inside 0 1 0 1 2 3 ∧
    ∃ κP κR κP' κR', qP (.fin 2) (.fin 3) 0 = ok (.fin (2 * κP)) ∧ qR (.fin 2) (.fin 3) 0 = ok (.fin (2 * κR)) ∧
      qP' (.fin 2) (.fin 3) 0 = ok (.fin (2 * κP')) ∧ qR' (.fin 2) (.fin 3) 0 = ok (.fin (2 * κR')) ∧
      |κP - 1| ≤ 1 / 2 ∧ |κR - 1| ≤ 1 / 2 ∧ |κP' - 1| ≤ 1 / 2 ∧ |κR' - 1| ≤ 1 / 2 := by
  have hS := SMALL_pos
  have hS' := SMALL_tiny
  norm_num at hS'
  obtain ⟨hb, hgr⟩ := oneGroup (lo := 1) (hi := 2) (by norm_num) (by norm_num)
  obtain ⟨o, ho, -⟩ := C07_gray_exists onesPC_finite (κ := 1) one_pos 0 1 (NRho := 2) (by norm_num) 0 1 (NT := 2)
    (by norm_num) hb (N := 2) (by norm_num) (fun _ => .fin 0)
  obtain ⟨t, ht, -⟩ := averaged_exists onesPC_finite (α := fun ρ _ _ => ρ * 1)
    (coef := PhotonSAPI.TotalScatteringCoefficient (GraySOpacity.mk (XR.fin 1) (XR.fin 1)))
    (fun ρ _ _ h _ _ => by positivity)
    (fun ρ T ν _ _ _ => by
      show XR.fin ρ / XR.fin 1 * XR.fin 1 = _
      rw [XR.fin_div one_ne_zero]
      simp only [axr, div_one]) 0 1 (NRho := 2) (by norm_num) 0 1 (NT := 2) (by norm_num) hb (N := 2) (by norm_num)
    (fun _ => .fin 0)
  have m1 := MeansOf.absorption (α := fun ρ _ _ => ρ * 1) (GrayOpacity.mk onesPC (.fin 1)) onesPC (fun _ => .fin 0) o
    onesPC_finite (fun ρ T ν _ _ _ => gray_coef onesPC 1 ρ T ν) ho
  have m2 := MeansOf.scattering (α := fun ρ _ _ => ρ * 1) (lRhoMin := 0) (lRhoMax := 1) (NRho := 2) (lTMin := 0)
    (lTMax := 1) (NT := 2) (b := [.fin 1, .fin 2]) (n := 1) (N := 2) (GraySOpacity.mk (XR.fin 1) (.fin 1)) onesPC
    (fun _ => .fin 0) ⟨onesPC, t⟩
    onesPC_finite (fun ρ T ν _ _ _ => by
      show XR.fin ρ / XR.fin 1 * XR.fin 1 = _
      rw [XR.fin_div one_ne_zero]
      simp only [axr, div_one]) (by unfold MeanSOpacityBase.construct; rw [ht]; rfl)
  have hin : Inside 0 1 0 1 2 3 := by
    have l : ∀ x : ℝ, 1 ≤ x → x ≤ 10 → 0 ≤ Real.logb 10 x ∧ Real.logb 10 x ≤ 1 := by
      intro x h1 h2
      exact ⟨Real.logb_nonneg (by norm_num) h1, by
        calc Real.logb 10 x ≤ Real.logb 10 10 := Real.logb_le_logb_of_le (by norm_num) (by linarith) h2
          _ = 1 := by norm_num⟩
    have l2 := l (|2| + Robust.SMALL) (by norm_num; linarith) (by norm_num; linarith)
    have l3 := l (|3| + Robust.SMALL) (by norm_num; linarith) (by norm_num; linarith)
    exact ⟨l2.1, l2.2, l3.1, l3.2⟩
  have hDT : ∀ j : ℕ, (j : ℤ) < 2 →
      Robust.SMALL ≤ 1 / 2 * planckTotal Robust.SMALL 1 1 1 (nodeValue 0 1 2 j) 1 (some 2) 2 ∧
      Robust.SMALL < rosselandTotal Robust.SMALL 1 1 1 (nodeValue 0 1 2 j) 1 (some 2) 2 ∧
      Robust.SMALL * (1 + Robust.SMALL / 10 ^ (0 : ℝ)) ≤
        1 / 2 * rosselandTotal Robust.SMALL 1 1 1 (nodeValue 0 1 2 j) 1 (some 2) 2 := by
    intro j hj
    have hn : nodeValue 0 1 2 j = 10 ^ (j : ℝ) := by unfold nodeValue; norm_num
    have h1 : 1 ≤ nodeValue 0 1 2 j ∧ nodeValue 0 1 2 j ≤ 10 := by
      rw [hn, Real.rpow_natCast]
      have : j = 0 ∨ j = 1 := by omega
      rcases this with rfl | rfl <;> norm_num
    obtain ⟨w1, w2⟩ := weights_lower h1.1 h1.2
    have hSS : Robust.SMALL * Robust.SMALL ≤ (Robust.SMALL : ℝ) := by nlinarith
    refine ⟨by linarith, by linarith, ?_⟩
    rw [Real.rpow_zero, div_one]
    nlinarith
  have fin : ∀ {qP qR : XR → XR → ℤ → Outcome XR},
      MeansOf 1 1 1 (fun ρ _ _ => ρ * 1) 0 1 2 0 1 2 [.fin 1, .fin 2] 1 2 qP qR →
      ∃ κP κR, qP (.fin 2) (.fin 3) 0 = ok (.fin (2 * κP)) ∧ qR (.fin 2) (.fin 3) 0 = ok (.fin (2 * κR)) ∧
        |κP - 1| ≤ 1 / 2 ∧ |κR - 1| ≤ 1 / 2 := by
    intro qP qR hm
    obtain ⟨κP, κR, a, b, p1, p2, p3, p4⟩ := C07_lookup_partial one_pos hm (by norm_num) (by norm_num) (by norm_num)
      (by norm_num) (g := 0) (by norm_num) hgr (ε := 1 / 2) (by norm_num) (by norm_num)
      (by rw [Real.rpow_zero]; linarith) hDT hin
    rw [Real.rpow_zero, div_one] at p4
    exact ⟨κP, κR, a, b, abs_le.2 ⟨by linarith, by linarith⟩, abs_le.2 ⟨by linarith, by linarith⟩⟩
  obtain ⟨κP, κR, a1, a2, a3, a4⟩ := fin m1
  obtain ⟨κP', κR', b1, b2, b3, b4⟩ := fin m2
  exact ⟨_, _, _, _, m1, m2, hin, κP, κR, κP', κR', a1, a2, b1, b2, a3, a4, b3, b4⟩

end
end Opac.Photons
