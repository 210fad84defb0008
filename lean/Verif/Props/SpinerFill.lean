import Verif.Lemmas.SpinerFill
import Verif.Lemmas.TableNodes
import Verif.Model.Neutrinos

/-!
# C48: tabulated neutrino opacities reproduce the opacity they were filled from

Over the reals.  A table is requested on `NRho` densities, `NT` temperatures (in Kelvin), `NYe` electron fractions and
`Ne` energies (in MeV), all but the electron fractions equidistant in the decimal logarithm.
-/

namespace Opac.Neutrinos.SpinerOpacity
open Arith Outcome Spiner Photons

/-! ## Specification -/

/-- `n` points from `lo` to `hi` -/
noncomputable def equi (lo hi : ℝ) (n : ℤ) (i : ℕ) : ℝ := lo + i * ((hi - lo) / (n - 1))

/-- the additive floor under every logarithm -/
noncomputable def tiny : ℝ := 10 * 2 ^ (-1022 : ℤ)

/-- Kelvin per MeV, as used by the tables -/
noncomputable def kelvinPerMeV : ℝ := 11604525006

/-- frequency of a neutrino of one MeV -/
noncomputable def hzPerMeV (pc : PC ℝ) : ℝ := 1000000 * pc.eV / pc.h

/-- the requested ranges of a table -/
structure Ranges where
  lRhoMin : ℝ
  lRhoMax : ℝ
  NRho : ℤ
  lTMin : ℝ
  lTMax : ℝ
  NT : ℤ
  YeMin : ℝ
  YeMax : ℝ
  NYe : ℤ
  leMin : ℝ
  leMax : ℝ
  Ne : ℤ

/-- at least two points in each direction, in increasing order -/
structure Ranges.Proper (r : Ranges) : Prop where
  rho : 2 ≤ r.NRho ∧ r.lRhoMin < r.lRhoMax
  T : 2 ≤ r.NT ∧ r.lTMin < r.lTMax
  Ye : 2 ≤ r.NYe ∧ r.YeMin < r.YeMax
  e : 2 ≤ r.Ne ∧ r.leMin < r.leMax

/-- density of node `i` -/
noncomputable def Ranges.rhoNode (r : Ranges) (i : ℕ) : ℝ := (10 : ℝ) ^ equi r.lRhoMin r.lRhoMax r.NRho i
/-- temperature of node `j`, in Kelvin -/
noncomputable def Ranges.TNode (r : Ranges) (j : ℕ) : ℝ := (10 : ℝ) ^ equi r.lTMin r.lTMax r.NT j
/-- electron fraction of node `k` -/
noncomputable def Ranges.YeNode (r : Ranges) (k : ℕ) : ℝ := equi r.YeMin r.YeMax r.NYe k
/-- frequency of node `m` -/
noncomputable def Ranges.nuNode (r : Ranges) (pc : PC ℝ) (m : ℕ) : ℝ :=
  hzPerMeV pc * (10 : ℝ) ^ equi r.leMin r.leMax r.Ne m

/-- the table filled from `opac` on the ranges `r` -/
def FilledFrom (dist : FermiDirac ℝ) (pc : PC ℝ) (opac : Sampled ℝ) (r : Ranges) (o : SpinerOpacity ℝ) : Prop :=
  ∃ junk, fill dist pc junk opac r.lRhoMin r.lRhoMax r.NRho r.lTMin r.lTMax r.NT r.YeMin r.YeMax r.NYe r.leMin r.leMax
    r.Ne = ok o

/-- `rho` and `temp` are, up to the floor, those of node `i`, `j` -/
structure AtNode (r : Ranges) (i j : ℕ) (rho temp : ℝ) : Prop where
  rho0 : 0 ≤ rho
  temp0 : 0 ≤ temp
  rhoI : (i : ℤ) < r.NRho
  tempJ : (j : ℤ) < r.NT
  rho : rho + tiny = r.rhoNode i
  temp : temp + tiny * kelvinPerMeV = r.TNode j

/-- `nu` is, up to the floor, the frequency of node `m` -/
structure AtEnergy (r : Ranges) (pc : PC ℝ) (m : ℕ) (nu : ℝ) : Prop where
  nu0 : 0 ≤ nu
  inRange : (m : ℤ) < r.Ne
  nu : nu + tiny * hzPerMeV pc = r.nuNode pc m

/-- the three species that are tabulated -/
def Tabulated (s : RadiationType) : Prop := s = .NU_ELECTRON ∨ s = .NU_ELECTRON_ANTI ∨ s = .NU_HEAVY

/-! ## Helpers -/

theorem tiny_pos : 0 < tiny := by unfold tiny; positivity
theorem kelvin_pos : 0 < kelvinPerMeV := by unfold kelvinPerMeV; norm_num
theorem EPS_eq : (EPS : ℝ) = tiny := by simp [EPS, tiny, areal]; norm_num
theorem MeV2K_eq : (MeV2K : ℝ) = kelvinPerMeV := by
  simp [MeV2K, MeV2GK, kelvinPerMeV, areal]; norm_num
theorem K2MeV_eq : (K2MeV : ℝ) = 1 / kelvinPerMeV := by
  simp [K2MeV, MeV2K_eq, areal]
theorem MeV2Hz_eq (pc : PC ℝ) : MeV2Hz pc = hzPerMeV pc := by
  simp [MeV2Hz, Hz2MeV, hzPerMeV, areal]; norm_num
theorem Hz2MeV_eq (pc : PC ℝ) : Hz2MeV pc = 1 / hzPerMeV pc := by
  simp [Hz2MeV, hzPerMeV, areal]; norm_num

theorem toLog_eq (x : ℝ) : toLog_ x = Real.logb 10 (max x 0 + tiny) := by
  simp only [toLog_, EPS_eq, areal]
  congr 1
  norm_num

theorem fromLog_eq (x : ℝ) : fromLog_ x = (10 : ℝ) ^ x := by simp [fromLog_, areal]

theorem fromLog_toLog (v : ℝ) : fromLog_ (toLog_ (stdMax v (lit 0.0))) = max v 0 + tiny := by
  rw [fromLog_eq, toLog_eq]
  have h : (stdMax v (lit 0.0) : ℝ) = max v 0 := by simp [areal]; norm_num
  rw [h, max_eq_left (le_max_right v 0), Real.rpow_logb (by norm_num) (by norm_num)]
  have := tiny_pos
  have := le_max_right v 0
  linarith

theorem toLog_node {x l : ℝ} (hx : 0 ≤ x) (h : x + tiny = (10 : ℝ) ^ l) : toLog_ x = l := by
  rw [toLog_eq, max_eq_left hx, h, Real.logb_rpow (by norm_num) (by norm_num)]

theorem K2MeV_log : (10 : ℝ) ^ (log10 (K2MeV : ℝ)) = 1 / kelvinPerMeV := by
  have : log10 (K2MeV : ℝ) = Real.logb 10 (1 / kelvinPerMeV) := by rw [K2MeV_eq]; simp [areal]
  rw [this, Real.rpow_logb (by norm_num) (by norm_num) (div_pos one_pos kelvin_pos)]

/-- a shift of both ends shifts all nodes -/
theorem equi_shift (lo hi s : ℝ) (n : ℤ) (i : ℕ) : equi (lo + s) (hi + s) n i = equi lo hi n i + s := by
  unfold equi; ring

theorem node_equi (lo hi : ℝ) (n : ℤ) (i : ℕ) : node { min := lo, max := hi, N := n } i = equi lo hi n i := rfl

variable {dist : FermiDirac ℝ} {pc : PC ℝ} {opac : Sampled ℝ} {r : Ranges} {o : SpinerOpacity ℝ}

theorem temp_node {j : ℕ} : (10 : ℝ) ^ (equi r.lTMin r.lTMax r.NT j + log10 (K2MeV : ℝ)) = r.TNode j / kelvinPerMeV := by
  rw [Real.rpow_add (by norm_num), K2MeV_log]
  unfold Ranges.TNode
  ring

theorem toLog_rho {i j : ℕ} {rho temp : ℝ} (h : AtNode r i j rho temp) :
    toLog_ rho = equi r.lRhoMin r.lRhoMax r.NRho i := toLog_node h.rho0 h.rho

theorem toLog_temp {i j : ℕ} {rho temp : ℝ} (h : AtNode r i j rho temp) :
    toLog_ (temp * K2MeV) = equi (r.lTMin + log10 (K2MeV : ℝ)) (r.lTMax + log10 (K2MeV : ℝ)) r.NT j := by
  have hk := kelvin_pos
  rw [equi_shift]
  refine toLog_node ?_ ?_
  · rw [K2MeV_eq]; exact mul_nonneg h.temp0 (by positivity)
  · rw [temp_node, ← h.temp, K2MeV_eq]; field_simp

theorem toLog_nu {m : ℕ} {nu : ℝ} (hpc : 0 < hzPerMeV pc) (h : AtEnergy r pc m nu) :
    toLog_ (Hz2MeV pc * nu) = equi r.leMin r.leMax r.Ne m := by
  refine toLog_node ?_ ?_
  · rw [Hz2MeV_eq]; exact mul_nonneg (by positivity) h.nu0
  · have := h.nu
    unfold Ranges.nuNode at this
    rw [Hz2MeV_eq]
    field_simp
    linarith

theorem species {s : RadiationType} (hs : Tabulated s) :
    ∃ d : ℕ, d < 3 ∧ RadType2Idx s = (d : ℤ) ∧ Idx2RadType (d : ℤ) = ok s := by
  rcases hs with rfl | rfl | rfl
  · exact ⟨0, by omega, rfl, rfl⟩
  · exact ⟨1, by omega, rfl, rfl⟩
  · exact ⟨2, by omega, rfl, rfl⟩

/-- the cells, in the terms of the specification -/
theorem filled_cells (h : FilledFrom dist pc opac r o) :
    o.pc = pc ∧
    (o.lJ_.dims = [r.NRho, r.NT, r.NYe, 3] ∧ o.lJYe_.dims = [r.NRho, r.NT, r.NYe, 3] ∧
      o.lalphanu_.dims = [r.NRho, r.NT, r.NYe, 3, r.Ne] ∧ o.ljnu_.dims = [r.NRho, r.NT, r.NYe, 3, r.Ne]) ∧
    (∀ d, d = o.lJ_ ∨ d = o.lJYe_ →
      d.grid 1 = ⟨r.YeMin, r.YeMax, r.NYe⟩ ∧ d.grid 2 = ⟨r.lTMin + log10 K2MeV, r.lTMax + log10 K2MeV, r.NT⟩ ∧
      d.grid 3 = ⟨r.lRhoMin, r.lRhoMax, r.NRho⟩) ∧
    (∀ d, d = o.lalphanu_ ∨ d = o.ljnu_ →
      d.grid 0 = ⟨r.leMin, r.leMax, r.Ne⟩ ∧ d.grid 2 = ⟨r.YeMin, r.YeMax, r.NYe⟩ ∧
      d.grid 3 = ⟨r.lTMin + log10 K2MeV, r.lTMax + log10 K2MeV, r.NT⟩ ∧
      d.grid 4 = ⟨r.lRhoMin, r.lRhoMax, r.NRho⟩) ∧
    ∀ i j k d : ℕ, (i : ℤ) < r.NRho → (j : ℤ) < r.NT → (k : ℤ) < r.NYe → d < 3 → ∀ s, Idx2RadType (d : ℤ) = ok s →
      (∃ v, opac.Emissivity (r.rhoNode i) (r.TNode j) (r.YeNode k) s = ok v ∧
        o.lJ_.read [(i : ℤ), j, k, d] = ok (toLog_ (stdMax v (lit 0.0)))) ∧
      (∃ v, opac.NumberEmissivity (r.rhoNode i) (r.TNode j) (r.YeNode k) s = ok v ∧
        o.lJYe_.read [(i : ℤ), j, k, d] = ok (toLog_ (stdMax v (lit 0.0)))) ∧
      ∀ m : ℕ, (m : ℤ) < r.Ne →
        (∃ v, opac.EmissivityPerNuOmega (r.rhoNode i) (r.TNode j) (r.YeNode k) s (r.nuNode pc m) = ok v ∧
          o.ljnu_.read [(i : ℤ), j, k, d, m] = ok (toLog_ (stdMax v (lit 0.0)))) ∧
        (∃ v, opac.AbsorptionCoefficient (r.rhoNode i) (r.TNode j / kelvinPerMeV) (r.YeNode k) s (r.nuNode pc m) = ok v ∧
          o.lalphanu_.read [(i : ℤ), j, k, d, m] = ok (toLog_ (stdMax v (lit 0.0)))) := by
  obtain ⟨junk, h⟩ := h
  obtain ⟨hS, hE⟩ := fill_entries h rfl
  refine ⟨hS.pc, ⟨hS.J1, hS.N1, hS.a1, hS.j1⟩, ?_, ?_, ?_⟩
  · rintro d (rfl | rfl)
    · rw [hS.J2]; exact ⟨rfl, rfl, rfl⟩
    · rw [hS.N2]; exact ⟨rfl, rfl, rfl⟩
  · rintro d (rfl | rfl)
    · rw [hS.a2]; exact ⟨rfl, rfl, rfl, rfl⟩
    · rw [hS.j2]; exact ⟨rfl, rfl, rfl, rfl⟩
  · intro i j k d hi hj hk hd s hs
    obtain ⟨e1, e2, e3⟩ := hE i j k d hi hj hk hd
    set o₀ := emptyOpacity dist pc junk r.lRhoMin r.lRhoMax r.NRho r.lTMin r.lTMax r.NT r.YeMin r.YeMax r.NYe r.leMin
      r.leMax r.Ne
    have x4 : fromLog_ ((o₀.lalphanu_.range 4).x i) = r.rhoNode i := by rw [x_eq, fromLog_eq]; rfl
    have x3 : fromLog_ ((o₀.lalphanu_.range 3).x j) = r.TNode j / kelvinPerMeV := by
      rw [x_eq, fromLog_eq, ← temp_node, ← equi_shift]; rfl
    have x3' : fromLog_ ((o₀.lalphanu_.range 3).x j) * MeV2K = r.TNode j := by
      have := kelvin_pos
      rw [x3, MeV2K_eq]; field_simp
    have x2 : (o₀.lalphanu_.range 2).x k = r.YeNode k := by rw [x_eq]; rfl
    have x0 : ∀ m, MeV2Hz pc * fromLog_ ((o₀.lalphanu_.range 0).x m) = r.nuNode pc m := by
      intro m; rw [x_eq, fromLog_eq, MeV2Hz_eq]; rfl
    refine ⟨?_, ?_, fun m hm => ⟨?_, ?_⟩⟩
    · obtain ⟨s', v, hs', hv, hr⟩ := e1
      rw [hs] at hs'; cases hs'
      rw [x4, x3', x2] at hv
      exact ⟨v, hv, hr⟩
    · obtain ⟨s', v, hs', hv, hr⟩ := e2
      rw [hs] at hs'; cases hs'
      rw [x4, x3', x2] at hv
      exact ⟨v, hv, hr⟩
    · obtain ⟨s', v, hs', hv, hr⟩ := (e3 m hm).2
      rw [hs] at hs'; cases hs'
      rw [x4, x3', x2, x0] at hv
      exact ⟨v, hv, hr⟩
    · obtain ⟨s', v, hs', hv, hr⟩ := (e3 m hm).1
      rw [hs] at hs'; cases hs'
      rw [x4, x3, x2, x0] at hv
      exact ⟨v, hv, hr⟩

theorem lookup4_node (hr : r.Proper) {d : DataBox ℝ} (hd : d.dims = [r.NRho, r.NT, r.NYe, 3])
    (hg : d.grid 1 = ⟨r.YeMin, r.YeMax, r.NYe⟩ ∧ d.grid 2 = ⟨r.lTMin + log10 K2MeV, r.lTMax + log10 K2MeV, r.NT⟩ ∧
      d.grid 3 = ⟨r.lRhoMin, r.lRhoMax, r.NRho⟩) {i j k n : ℕ} {rho temp : ℝ} (h : AtNode r i j rho temp)
    (hk : (k : ℤ) < r.NYe) {s : RadiationType} (hn : n < 3) (hs : RadType2Idx s = (n : ℤ)) {v : ℝ}
    (hv : d.read [(i : ℤ), j, k, n] = ok (toLog_ (stdMax v (lit 0.0)))) :
    lookup4 d rho temp (r.YeNode k) s = ok (max v 0 + tiny) := by
  obtain ⟨g1, g2, g3⟩ := hg
  have := interp4_node hd (by rw [g1]) (by rw [g2]) (by rw [g3]) (by rw [g1]; exact hr.Ye)
    (by rw [g2]; exact ⟨hr.T.1, by have := hr.T.2; simp only; linarith⟩) (by rw [g3]; exact hr.rho) h.rhoI h.tempJ hk
    (l := n) ⟨by omega, by omega⟩ hv
  rw [g1, g2, g3] at this
  simp only [node_equi] at this
  simp only [lookup4, toLog_rho h, toLog_temp h, hs]
  rw [show r.YeNode k = equi r.YeMin r.YeMax r.NYe k from rfl, this]
  simp only [map'_ok, fromLog_toLog]

theorem lookup5_node (hr : r.Proper) (hpc : 0 < hzPerMeV pc) (ho : o.pc = pc) {d : DataBox ℝ}
    (hd : d.dims = [r.NRho, r.NT, r.NYe, 3, r.Ne])
    (hg : d.grid 0 = ⟨r.leMin, r.leMax, r.Ne⟩ ∧ d.grid 2 = ⟨r.YeMin, r.YeMax, r.NYe⟩ ∧
      d.grid 3 = ⟨r.lTMin + log10 K2MeV, r.lTMax + log10 K2MeV, r.NT⟩ ∧ d.grid 4 = ⟨r.lRhoMin, r.lRhoMax, r.NRho⟩)
    {i j k n m : ℕ} {rho temp nu : ℝ} (h : AtNode r i j rho temp) (hm : AtEnergy r pc m nu)
    (hk : (k : ℤ) < r.NYe) {s : RadiationType} (hn : n < 3) (hs : RadType2Idx s = (n : ℤ)) {v : ℝ}
    (hv : d.read [(i : ℤ), j, k, n, m] = ok (toLog_ (stdMax v (lit 0.0)))) :
    o.lookup5 d rho temp (r.YeNode k) s nu = ok (max v 0 + tiny) := by
  obtain ⟨g0, g2, g3, g4⟩ := hg
  have := interp5_node hd (by rw [g0]) (by rw [g2]) (by rw [g3]) (by rw [g4]) (by rw [g0]; exact hr.e)
    (by rw [g2]; exact hr.Ye) (by rw [g3]; exact ⟨hr.T.1, by have := hr.T.2; simp only; linarith⟩)
    (by rw [g4]; exact hr.rho) h.rhoI h.tempJ hk hm.inRange (l := n) ⟨by omega, by omega⟩ hv
  rw [g0, g2, g3, g4] at this
  simp only [node_equi] at this
  simp only [lookup5, toLog_rho h, toLog_temp h, hs, ho, toLog_nu hpc hm]
  rw [show r.YeNode k = equi r.YeMin r.YeMax r.NYe k from rfl, this]
  simp only [map'_ok, fromLog_toLog]

/-! ## C48 -/

/-- **C48 (total emissivity)**: at every node and for every species, the table returns the emissivity that the source
opacity has there, plus the floor.  (The sources' emissivities are non-negative; a negative one would count as zero.) -/
theorem C48_emissivity (h : FilledFrom dist pc opac r o) (hr : r.Proper) {i j k : ℕ} {rho temp : ℝ}
    (hn : AtNode r i j rho temp) (hk : (k : ℤ) < r.NYe) {s : RadiationType} (hs : Tabulated s) :
    ∃ v, opac.Emissivity (r.rhoNode i) (r.TNode j) (r.YeNode k) s = ok v ∧
      o.Emissivity rho temp (r.YeNode k) s = ok (max v 0 + tiny) := by
  obtain ⟨d, hd, h1, h2⟩ := species hs
  obtain ⟨hp, ⟨dJ, dN, da, dj⟩, gJ, ga, hc⟩ := filled_cells h
  obtain ⟨⟨v, hv, hv'⟩, -, -⟩ := hc i j k d hn.rhoI hn.tempJ hk hd s h2
  exact ⟨v, hv, lookup4_node hr dJ (gJ _ (.inl rfl)) hn hk hd h1 hv'⟩

/-- **C48 (number emissivity)** -/
theorem C48_number (h : FilledFrom dist pc opac r o) (hr : r.Proper) {i j k : ℕ} {rho temp : ℝ}
    (hn : AtNode r i j rho temp) (hk : (k : ℤ) < r.NYe) {s : RadiationType} (hs : Tabulated s) :
    ∃ v, opac.NumberEmissivity (r.rhoNode i) (r.TNode j) (r.YeNode k) s = ok v ∧
      o.NumberEmissivity rho temp (r.YeNode k) s = ok (max v 0 + tiny) := by
  obtain ⟨d, hd, h1, h2⟩ := species hs
  obtain ⟨hp, ⟨dJ, dN, da, dj⟩, gJ, ga, hc⟩ := filled_cells h
  obtain ⟨-, ⟨v, hv, hv'⟩, -⟩ := hc i j k d hn.rhoI hn.tempJ hk hd s h2
  exact ⟨v, hv, lookup4_node hr dN (gJ _ (.inr rfl)) hn hk hd h1 hv'⟩

/-- **C48 (spectral emissivity)** -/
theorem C48_spectral (h : FilledFrom dist pc opac r o) (hr : r.Proper) (hpc : 0 < hzPerMeV pc) {i j k m : ℕ}
    {rho temp nu : ℝ} (hn : AtNode r i j rho temp) (hk : (k : ℤ) < r.NYe) (hm : AtEnergy r pc m nu)
    {s : RadiationType} (hs : Tabulated s) :
    ∃ v, opac.EmissivityPerNuOmega (r.rhoNode i) (r.TNode j) (r.YeNode k) s (r.nuNode pc m) = ok v ∧
      o.EmissivityPerNuOmega rho temp (r.YeNode k) s nu = ok (max v 0 + tiny) ∧
      o.EmissivityPerNu rho temp (r.YeNode k) s nu = ok (4 * Real.pi * (max v 0 + tiny)) := by
  obtain ⟨d, hd, h1, h2⟩ := species hs
  obtain ⟨hp, ⟨dJ, dN, da, dj⟩, gJ, ga, hc⟩ := filled_cells h
  obtain ⟨-, -, h3⟩ := hc i j k d hn.rhoI hn.tempJ hk hd s h2
  obtain ⟨⟨v, hv, hv'⟩, -⟩ := h3 m hm.inRange
  have he := lookup5_node hr hpc hp dj (ga _ (.inr rfl)) hn hm hk hd h1 hv'
  refine ⟨v, hv, he, ?_⟩
  unfold EmissivityPerNu EmissivityPerNuOmega
  rw [he]
  simp [areal]

/-- what the table holds for the absorption coefficient: the source's value at the temperature `T / (1 MeV in Kelvin)`
handed to it as if it were Kelvin -/
theorem absorption_node (h : FilledFrom dist pc opac r o) (hr : r.Proper) (hpc : 0 < hzPerMeV pc) {i j k m : ℕ}
    {rho temp nu : ℝ} (hn : AtNode r i j rho temp) (hk : (k : ℤ) < r.NYe) (hm : AtEnergy r pc m nu)
    {s : RadiationType} (hs : Tabulated s) :
    ∃ v, opac.AbsorptionCoefficient (r.rhoNode i) (r.TNode j / kelvinPerMeV) (r.YeNode k) s (r.nuNode pc m) = ok v ∧
      o.AbsorptionCoefficient rho temp (r.YeNode k) s nu = ok (max v 0 + tiny) ∧
      o.AngleAveragedAbsorptionCoefficient rho temp (r.YeNode k) s nu = ok (max v 0 + tiny) := by
  obtain ⟨d, hd, h1, h2⟩ := species hs
  obtain ⟨hp, ⟨dJ, dN, da, dj⟩, gJ, ga, hc⟩ := filled_cells h
  obtain ⟨-, -, h3⟩ := hc i j k d hn.rhoI hn.tempJ hk hd s h2
  obtain ⟨-, ⟨v, hv, hv'⟩⟩ := h3 m hm.inRange
  have he := lookup5_node hr hpc hp da (ga _ (.inl rfl)) hn hm hk hd h1 hv'
  exact ⟨v, hv, he, he⟩

/-- **C48 (absorption)**, for sources whose absorption coefficient does not depend on the temperature.  For other
sources the claim is false (`C48_absorption_false`). -/
theorem C48_absorption_partial (h : FilledFrom dist pc opac r o) (hr : r.Proper) (hpc : 0 < hzPerMeV pc) {i j k m : ℕ}
    {rho temp nu : ℝ} (hn : AtNode r i j rho temp) (hk : (k : ℤ) < r.NYe) (hm : AtEnergy r pc m nu)
    {s : RadiationType} (hs : Tabulated s)
    (hT : ∀ rho T T' Ye s nu, opac.AbsorptionCoefficient rho T Ye s nu = opac.AbsorptionCoefficient rho T' Ye s nu) :
    ∃ v, opac.AbsorptionCoefficient (r.rhoNode i) (r.TNode j) (r.YeNode k) s (r.nuNode pc m) = ok v ∧
      o.AbsorptionCoefficient rho temp (r.YeNode k) s nu = ok (max v 0 + tiny) ∧
      o.AngleAveragedAbsorptionCoefficient rho temp (r.YeNode k) s nu = ok (max v 0 + tiny) := by
  obtain ⟨v, h1, h2⟩ := absorption_node h hr hpc hn hk hm hs
  exact ⟨v, by rw [hT _ _ (r.TNode j / kelvinPerMeV)]; exact h1, h2⟩

/-- the node values themselves can be queried (up to the floor) as soon as they are not below the floor -/
theorem atNode_exists {i j : ℕ} (hi : (i : ℤ) < r.NRho) (hj : (j : ℤ) < r.NT) (h1 : tiny ≤ r.rhoNode i)
    (h2 : tiny * kelvinPerMeV ≤ r.TNode j) :
    AtNode r i j (r.rhoNode i - tiny) (r.TNode j - tiny * kelvinPerMeV) :=
  ⟨by linarith, by linarith, hi, hj, by ring, by ring⟩

/-- the same for frequencies -/
theorem atEnergy_exists {m : ℕ} (hm : (m : ℤ) < r.Ne) (h1 : tiny * hzPerMeV pc ≤ r.nuNode pc m) :
    AtEnergy r pc m (r.nuNode pc m - tiny * hzPerMeV pc) :=
  ⟨by linarith, hm, by ring⟩

/-- the quantities the constructor asks of an opacity of the library -/
def sampledFrom {O : Type} [NeutrinoAPI ℝ O] (src : O) : Sampled ℝ where
  Emissivity := NeutrinoAPI.Emissivity src
  NumberEmissivity := NeutrinoAPI.NumberEmissivity src
  AbsorptionCoefficient := NeutrinoAPI.AbsorptionCoefficient src
  EmissivityPerNuOmega := NeutrinoAPI.EmissivityPerNuOmega src

/-- **C48 for gray opacities**: a table can be filled from every gray opacity on every ranges, and on proper ranges it
reproduces all four tabulated quantities at all nodes, for all species. -/
theorem C48_gray (g : GrayOpacity ℝ) (dist : FermiDirac ℝ) (pc : PC ℝ) (hpc : 0 < hzPerMeV pc) (r : Ranges) :
    ∃ o, FilledFrom dist pc (sampledFrom g) r o ∧ (r.Proper →
      ∀ {i j k m : ℕ} {rho temp nu : ℝ}, AtNode r i j rho temp → (k : ℤ) < r.NYe → AtEnergy r pc m nu →
        ∀ {s : RadiationType}, Tabulated s →
        o.AbsorptionCoefficient rho temp (r.YeNode k) s nu =
          ok (max (g.AbsorptionCoefficient (r.rhoNode i) (r.TNode j) (r.YeNode k) s (r.nuNode pc m)) 0 + tiny) ∧
        o.EmissivityPerNuOmega rho temp (r.YeNode k) s nu =
          ok (max (g.EmissivityPerNuOmega (r.rhoNode i) (r.TNode j) (r.YeNode k) s (r.nuNode pc m)) 0 + tiny) ∧
        o.Emissivity rho temp (r.YeNode k) s =
          ok (max (g.Emissivity (r.rhoNode i) (r.TNode j) (r.YeNode k) s) 0 + tiny) ∧
        o.NumberEmissivity rho temp (r.YeNode k) s =
          ok (max (g.NumberEmissivity (r.rhoNode i) (r.TNode j) (r.YeNode k) s) 0 + tiny)) := by
  obtain ⟨o, ho⟩ := fill_returns (dist := dist) (pc := pc) (opac := sampledFrom g) (junk := fun _ _ => (0 : ℝ))
    (lRhoMin := r.lRhoMin) (lRhoMax := r.lRhoMax) (NRho := r.NRho) (lTMin := r.lTMin) (lTMax := r.lTMax) (NT := r.NT)
    (YeMin := r.YeMin) (YeMax := r.YeMax) (NYe := r.NYe) (leMin := r.leMin) (leMax := r.leMax) (Ne := r.Ne)
    (fun _ _ _ _ => ⟨_, rfl⟩) (fun _ _ _ _ => ⟨_, rfl⟩) (fun _ _ _ _ _ => ⟨_, rfl⟩) (fun _ _ _ _ _ => ⟨_, rfl⟩)
  have hf : FilledFrom dist pc (sampledFrom g) r o := ⟨_, ho⟩
  refine ⟨o, hf, fun hr i j k m rho temp nu hn hk hm s hs => ⟨?_, ?_, ?_, ?_⟩⟩
  · obtain ⟨v, h1, h2, -⟩ := C48_absorption_partial hf hr hpc hn hk hm hs (fun _ _ _ _ _ _ => rfl)
    cases h1; exact h2
  · obtain ⟨v, h1, h2, -⟩ := C48_spectral hf hr hpc hn hk hm hs
    cases h1; exact h2
  · obtain ⟨v, h1, h2⟩ := C48_emissivity hf hr hn hk hs
    cases h1; exact h2
  · obtain ⟨v, h1, h2⟩ := C48_number hf hr hn hk hs
    cases h1; exact h2

/-- an opacity whose absorption coefficient is the temperature -/
def hot : Sampled ℝ where
  Emissivity _ _ _ _ := ok 1
  NumberEmissivity _ _ _ _ := ok 1
  AbsorptionCoefficient _ T _ _ _ := ok T
  EmissivityPerNuOmega _ _ _ _ _ := ok 1

/-- densities from 1 to 10, temperatures from 1 K to 10 K, energies from 1 MeV to 10 MeV -/
def twoNodes : Ranges :=
  ⟨0, 1, 2, 0, 1, 2, 0, 1, 2, 0, 1, 2⟩

theorem twoNodes_proper : twoNodes.Proper := by
  constructor <;> simp [twoNodes]

theorem tiny_small : tiny * kelvinPerMeV ≤ 1 := by
  unfold tiny kelvinPerMeV
  have h : (2 : ℝ) ^ (-1022 : ℤ) ≤ 2 ^ (-40 : ℤ) := zpow_le_zpow_right₀ (by norm_num) (by norm_num)
  have h' : (2 : ℝ) ^ (-40 : ℤ) = 1 / 1099511627776 := by norm_num
  rw [h'] at h
  generalize (2 : ℝ) ^ (-1022 : ℤ) = x at h
  linarith

theorem tiny_le_one : tiny ≤ 1 := by
  have := tiny_small
  have h := tiny_pos
  unfold kelvinPerMeV at this
  nlinarith

/-- **C48 is false for absorption**: a table filled, on proper ranges, from an opacity whose absorption coefficient
depends on the temperature; at a node, the table's absorption coefficient is not the source's, even up to the
floor: the filling constructor hands the source a temperature in MeV, not in Kelvin. -/
theorem C48_absorption_false (dist : FermiDirac ℝ) (pc : PC ℝ) (hpc : 0 < hzPerMeV pc) :
    ∃ (opac : Sampled ℝ) (r : Ranges) (o : SpinerOpacity ℝ) (rho temp nu : ℝ) (v w : ℝ),
      FilledFrom dist pc opac r o ∧ r.Proper ∧ AtNode r 0 0 rho temp ∧ AtEnergy r pc 0 nu ∧
      opac.AbsorptionCoefficient (r.rhoNode 0) (r.TNode 0) (r.YeNode 0) .NU_ELECTRON (r.nuNode pc 0) = ok v ∧
      0 ≤ v ∧ o.AbsorptionCoefficient rho temp (r.YeNode 0) .NU_ELECTRON nu = ok w ∧ w < v / 1000000000 := by
  obtain ⟨o, ho⟩ := fill_returns (dist := dist) (pc := pc) (opac := hot) (junk := fun _ _ => (0 : ℝ))
    (lRhoMin := 0) (lRhoMax := 1) (NRho := 2) (lTMin := 0) (lTMax := 1) (NT := 2) (YeMin := 0) (YeMax := 1) (NYe := 2)
    (leMin := 0) (leMax := 1) (Ne := 2) (fun _ _ _ _ => ⟨_, rfl⟩) (fun _ _ _ _ => ⟨_, rfl⟩)
    (fun _ _ _ _ _ => ⟨_, rfl⟩) (fun _ _ _ _ _ => ⟨_, rfl⟩)
  have hf : FilledFrom dist pc hot twoNodes o := ⟨_, ho⟩
  have e1 : twoNodes.rhoNode 0 = 1 := by simp [Ranges.rhoNode, equi, twoNodes]
  have e2 : twoNodes.TNode 0 = 1 := by simp [Ranges.TNode, equi, twoNodes]
  have e3 : twoNodes.nuNode pc 0 = hzPerMeV pc := by simp [Ranges.nuNode, equi, twoNodes]
  have hn := atNode_exists (r := twoNodes) (i := 0) (j := 0) (by simp [twoNodes]) (by simp [twoNodes])
    (by rw [e1]; exact tiny_le_one) (by rw [e2]; exact tiny_small)
  have hm := atEnergy_exists (r := twoNodes) (pc := pc) (m := 0) (by simp [twoNodes])
    (by rw [e3]; have := tiny_le_one; nlinarith)
  obtain ⟨v, h1, h2, -⟩ := absorption_node hf twoNodes_proper hpc hn (k := 0) (by simp [twoNodes]) hm
    (s := .NU_ELECTRON) (.inl rfl)
  have hv : v = 1 / kelvinPerMeV := by
    simp only [hot, e2] at h1
    cases h1; rfl
  refine ⟨hot, twoNodes, o, _, _, _, 1, _, hf, twoNodes_proper, hn, hm, by simp [hot, e2], by norm_num, h2, ?_⟩
  have h3 : tiny ≤ 1 / 1000000000000 := by
    unfold tiny
    have h : (2 : ℝ) ^ (-1022 : ℤ) ≤ 2 ^ (-60 : ℤ) := zpow_le_zpow_right₀ (by norm_num) (by norm_num)
    have h' : (2 : ℝ) ^ (-60 : ℤ) = 1 / 1152921504606846976 := by norm_num
    rw [h'] at h
    generalize (2 : ℝ) ^ (-1022 : ℤ) = x at h
    linarith
  have h4 : max v 0 = 1 / kelvinPerMeV := by
    rw [hv]; exact max_eq_left (by have := kelvin_pos; positivity)
  rw [h4]
  unfold kelvinPerMeV
  have : (1 : ℝ) / 11604525006 ≤ 1 / 10000000000 := by norm_num
  linarith

/-- a non-trivial instance of the hypotheses of the positive theorems: a source opacity with values that depend on all
arguments, on proper ranges, queried at the last node -/
example (dist : FermiDirac ℝ) (pc : PC ℝ) (hpc : 0 < hzPerMeV pc) :
    ∃ (opac : Sampled ℝ) (o : SpinerOpacity ℝ) (rho temp nu : ℝ), FilledFrom dist pc opac twoNodes o ∧
      AtNode twoNodes 1 1 rho temp ∧ AtEnergy twoNodes pc 1 nu ∧
      (∀ rho T T' Ye s nu, opac.AbsorptionCoefficient rho T Ye s nu = opac.AbsorptionCoefficient rho T' Ye s nu) ∧
      o.Emissivity rho temp 1 .NU_HEAVY = ok (100 + tiny) := by
  let opac : Sampled ℝ := ⟨fun rho T Ye _ => ok (rho * T * Ye), fun rho T Ye _ => ok (rho + T + Ye),
    fun rho _ Ye _ nu => ok (rho + Ye + nu), fun rho T Ye _ nu => ok (rho * T * Ye * nu)⟩
  obtain ⟨o, ho⟩ := fill_returns (dist := dist) (pc := pc) (opac := opac) (junk := fun _ _ => (0 : ℝ))
    (lRhoMin := 0) (lRhoMax := 1) (NRho := 2) (lTMin := 0) (lTMax := 1) (NT := 2) (YeMin := 0) (YeMax := 1) (NYe := 2)
    (leMin := 0) (leMax := 1) (Ne := 2) (fun _ _ _ _ => ⟨_, rfl⟩) (fun _ _ _ _ => ⟨_, rfl⟩)
    (fun _ _ _ _ _ => ⟨_, rfl⟩) (fun _ _ _ _ _ => ⟨_, rfl⟩)
  have hf : FilledFrom dist pc opac twoNodes o := ⟨_, ho⟩
  have e1 : twoNodes.rhoNode 1 = 10 := by simp [Ranges.rhoNode, equi, twoNodes]; norm_num
  have e2 : twoNodes.TNode 1 = 10 := by simp [Ranges.TNode, equi, twoNodes]; norm_num
  have e3 : twoNodes.nuNode pc 1 = hzPerMeV pc * 10 := by simp [Ranges.nuNode, equi, twoNodes]; norm_num
  have e4 : twoNodes.YeNode 1 = 1 := by simp [Ranges.YeNode, equi, twoNodes]; norm_num
  have hn := atNode_exists (r := twoNodes) (i := 1) (j := 1) (by simp [twoNodes]) (by simp [twoNodes])
    (by rw [e1]; have := tiny_le_one; linarith) (by rw [e2]; have := tiny_small; linarith)
  have hm := atEnergy_exists (r := twoNodes) (pc := pc) (m := 1) (by simp [twoNodes])
    (by rw [e3]; have := tiny_le_one; nlinarith)
  obtain ⟨v, h1, h2⟩ := C48_emissivity hf twoNodes_proper hn (k := 1) (by simp [twoNodes]) (s := .NU_HEAVY)
    (.inr (.inr rfl))
  refine ⟨opac, o, _, _, _, hf, hn, hm, fun _ _ _ _ _ _ => rfl, ?_⟩
  rw [e4] at h2 h1
  rw [h2]
  simp only [opac, e1, e2] at h1
  cases h1
  norm_num

end Opac.Neutrinos.SpinerOpacity
