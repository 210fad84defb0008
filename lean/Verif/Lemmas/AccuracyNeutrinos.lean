import Verif.Lemmas.AccuracyPhotons

/-! Rounding errors of the neutrino opacities. -/

namespace Opac.Accuracy
open Arith Neutrinos

variable {rd : ℝ → ℝ} {u : ℝ}

/-- close, or both zero -/
def ZF (u n : ℝ) (a : Fl rd) (x : ℝ) : Prop := PF u n a x ∨ (a.val = 0 ∧ x = 0)

namespace ZF
variable {n m : ℝ} {a b : Fl rd} {x y : ℝ}

theorem mono (hr : BinaryRounding rd u) (h : ZF u n a x) (hnm : n ≤ m) : ZF u m a x :=
  h.imp (fun h => h.mono hr hnm) id

theorem rd0 (hr : BinaryRounding rd u) : rd 0 = 0 := by
  have := hr.ints 0 (by norm_num)
  push_cast at this
  exact this

theorem mul (hr : BinaryRounding rd u) (h : ZF u n a x) (h' : PF u m b y) : ZF u (n + m + 1) (a * b) (x * y) := by
  rcases h with h | ⟨h1, h2⟩
  · exact .inl (h.mul hr h')
  · refine .inr ⟨?_, by rw [h2, zero_mul]⟩
    show rd (a.val * b.val) = 0
    rw [h1, zero_mul, rd0 hr]

theorem mul' (hr : BinaryRounding rd u) (h : PF u n a x) (h' : ZF u m b y) : ZF u (n + m + 1) (a * b) (x * y) := by
  rcases h' with h' | ⟨h1, h2⟩
  · exact .inl (h.mul hr h')
  · refine .inr ⟨?_, by rw [h2, mul_zero]⟩
    show rd (a.val * b.val) = 0
    rw [h1, mul_zero, rd0 hr]

theorem zero (hr : BinaryRounding rd u) : ZF u n (lit 0 : Fl rd) (lit 0 : ℝ) :=
  .inr ⟨rd_zero hr, by simp [areal]⟩

theorem agrees (hr : BinaryRounding rd u) (h : ZF u n a x) : AgreesTo u n a.val x := by
  rcases h with h | ⟨h1, h2⟩
  · exact h.agrees hr
  · rw [h1, h2]; simp [AgreesTo]

end ZF

/-- what is claimed of a pair of objects, for inputs that already carry `a` errors -/
structure AccN (u : ℝ) {O O' : Type} (i : NeutrinoAPI (Fl rd) O) (i' : NeutrinoAPI ℝ O') (o : O) (o' : O') (n : ℕ)
    (K : ℝ) : Prop where
  K_pos : 0 < K
  spectral : ∀ (fn : VFn) (a : ℝ) (rho temp Ye nu : Fl rd) (type : RadiationType) (rho' temp' Ye' nu' : ℝ), 0 ≤ a →
    (2 * (a + 4 * n) + 3) * unit u ≤ 1 → PF u a rho rho' → PF u a temp temp' → PF u a nu nu' →
    SameEnd (fun b y => ZF u (64 * (1 + K * nu' / temp') * (a + 11 * n + 1)) b y) (scalarFn i o fn rho temp Ye type nu)
      (scalarFn i' o' fn rho' temp' Ye' type nu')
  thermal : ∀ (a : ℝ) (temp nu : Fl rd) (type : RadiationType) (temp' nu' : ℝ), 0 ≤ a →
    (2 * (a + 4 * n) + 3) * unit u ≤ 1 → PF u a temp temp' → PF u a nu nu' →
    PF u (64 * (1 + K * nu' / temp') * (a + 11 * n + 1)) (i.ThermalDistributionOfTNu o temp type nu)
      (i'.ThermalDistributionOfTNu o' temp' type nu')
  derivative : ∀ (a : ℝ) (temp nu : Fl rd) (type : RadiationType) (temp' nu' : ℝ), n = 0 → 0 ≤ a →
    (2 * (a + 4 * n) + 3) * unit u ≤ 1 → PF u a temp temp' → PF u a nu nu' →
    PF u (64 * (1 + K * nu' / temp') * (a + 11 * n + 1)) (i.DThermalDistributionOfTNuDT o temp type nu)
      (i'.DThermalDistributionOfTNuDT o' temp' type nu')
  emissivity : ∀ (a : ℝ) (rho temp Ye : Fl rd) (type : RadiationType) (rho' temp' Ye' : ℝ), 0 ≤ a → PF u a rho rho' →
    PF u a temp temp' →
    SameEnd (fun b y => ZF u (64 * (a + 11 * n + 1)) b y) (i.Emissivity o rho temp Ye type)
      (i'.Emissivity o' rho' temp' Ye' type) ∧
    SameEnd (fun b y => ZF u (64 * (a + 11 * n + 1)) b y) (i.NumberEmissivity o rho temp Ye type)
      (i'.NumberEmissivity o' rho' temp' Ye' type)
  totals : ∀ (a : ℝ) (t : Fl rd) (type : RadiationType) (t' : ℝ), 0 ≤ a → PF u a t t' →
    PF u (64 * (a + 11 * n + 1)) (i.ThermalDistributionOfT o t type) (i'.ThermalDistributionOfT o' t' type) ∧
    PF u (64 * (a + 11 * n + 1)) (i.ThermalNumberDistributionOfT o t type) (i'.ThermalNumberDistributionOfT o' t' type) ∧
    PF u (64 * (a + 11 * n + 1)) (i.EnergyDensityFromTemperature o t type) (i'.EnergyDensityFromTemperature o' t' type) ∧
    PF u (64 * (a + 11 * n + 1)) (i.TemperatureFromEnergyDensity o t type) (i'.TemperatureFromEnergyDensity o' t' type) ∧
    PF u (64 * (a + 11 * n + 1)) (i.NumberDensityFromTemperature o t type) (i'.NumberDensityFromTemperature o' t' type)

section base
variable {a : ℝ} {rho temp nu : Fl rd} {rho' temp' nu' : ℝ} {d : FermiDirac (Fl rd)} {pc : PC (Fl rd)}

theorem species (hr : BinaryRounding rd u) (hN : 0 < d.NSPECIES) :
    PF u 1 (lit (d.NSPECIES : ℚ) : Fl rd) (lit (d.exact.NSPECIES : ℚ) : ℝ) :=
  PF.dec hr _ (by exact_mod_cast hN)

theorem FB_acc (hr : BinaryRounding rd u) (hN : 0 < d.NSPECIES) (hpc : PosConsts d.pc.exact) (ha : 0 ≤ a)
    (hs : (2 * a + 3) * unit u ≤ 1) (ht : PF u a temp temp') (hn : PF u a nu nu') :
    PF u (3 * a + 12 + (d.pc.exact.h * nu' / (d.pc.exact.kb * temp')) * (4 * a + 6))
      (d.ThermalDistributionOfTNu temp nu) (d.exact.ThermalDistributionOfTNu temp' nu') := by
  have hc := PF.exact (u := u) d.pc.c hpc.c
  have h1 := PF.int (u := u) hr 1 1 (by norm_num) (by norm_num) (by norm_num)
  have hX := x_acc hr hpc ht hn
  have := (((species hr hN).mul hr (((((((PF.int hr 2 2 (by norm_num) (by norm_num) (by norm_num)).mul hr
    (PF.exact d.pc.h hpc.h)).mul hr hn).mul hr hn).mul hr hn).div hr (hc.mul hr hc)))).mul hr h1).div hr
    ((hX.exp hr hs).add hr h1)
  refine PF.mono hr this ?_
  have hx := mul_nonneg hX.pos.le (show 0 ≤ 2 * a + 3 by linarith)
  rw [max_eq_left (by linarith)]
  linarith

theorem FdB_acc (hr : BinaryRounding rd u) (hN : 0 < d.NSPECIES) (hpc : PosConsts d.pc.exact) (ha : 0 ≤ a)
    (hs : (2 * a + 3) * unit u ≤ 1) (ht : PF u a temp temp') (hn : PF u a nu nu') :
    PF u (6 * a + 21 + (d.pc.exact.h * nu' / (d.pc.exact.kb * temp')) * (12 * a + 18))
      (d.DThermalDistributionOfTNuDT temp nu) (d.exact.DThermalDistributionOfTNuDT temp' nu') := by
  have hc := PF.exact (u := u) d.pc.c hpc.c
  have hh := PF.exact (u := u) d.pc.h hpc.h
  have h1 := PF.int (u := u) hr 1 1 (by norm_num) (by norm_num) (by norm_num)
  have hX := x_acc hr hpc ht hn
  have hx := mul_nonneg hX.pos.le (show 0 ≤ 2 * a + 3 by linarith)
  have hd := h1.add hr (hX.exp_neg hr hs)
  rw [max_eq_right (by linarith)] at hd
  have := (((species hr hN).mul hr ((((((((PF.int hr 2 2 (by norm_num) (by norm_num) (by norm_num)).mul hr hh).mul hr
    hh).mul hr hn).mul hr hn).mul hr hn).mul hr hn).div hr ((((ht.mul hr ht).mul hr hc).mul hr hc).mul hr
    (PF.exact d.pc.kb hpc.kb)))).mul hr (hX.exp_neg hr hs)).div hr (hd.mul hr hd)
  exact this.mono hr (by linarith)

theorem FBT_acc (hr : BinaryRounding rd u) (hN : 0 < d.NSPECIES) (hpc : PosConsts d.pc.exact)
    (ht : PF u a temp temp') :
    PF u (4 * a + 18) (d.ThermalDistributionOfT temp) (d.exact.ThermalDistributionOfT temp') := by
  have := (((((PF.int hr 7 7 (by norm_num) (by norm_num) (by norm_num)).mul hr
    ((PF.pi hr).powInt hr 5 5 (by norm_num) (by norm_num))).mul hr
    ((PF.exact d.pc.kb hpc.kb).powInt hr 4 4 (by norm_num) (by norm_num))).mul hr (species hr hN)).mul hr
    (ht.powInt hr 4 4 (by norm_num) (by norm_num))).div hr
    (((PF.int hr 15 15 (by norm_num) (by norm_num) (by norm_num)).mul hr
    ((PF.exact d.pc.c hpc.c).powInt hr 2 2 (by norm_num) (by norm_num))).mul hr
    ((PF.exact d.pc.h hpc.h).powInt hr 3 3 (by norm_num) (by norm_num)))
  exact this.mono hr (by push_cast; linarith)

theorem FNT_acc (hr : BinaryRounding rd u) (hN : 0 < d.NSPECIES) (hpc : PosConsts d.pc.exact)
    (ht : PF u a temp temp') :
    PF u (3 * a + 14) (d.ThermalNumberDistributionOfT temp) (d.exact.ThermalNumberDistributionOfT temp') := by
  have := ((((((PF.int hr 12 12 (by norm_num) (by norm_num) (by norm_num)).mul hr
    ((PF.exact d.pc.kb hpc.kb).powInt hr 3 3 (by norm_num) (by norm_num))).mul hr (PF.pi hr)).mul hr
    (species hr hN)).mul hr (ht.powInt hr 3 3 (by norm_num) (by norm_num))).mul hr
    (PF.dec hr 1.20206 (by norm_num))).div hr
    (((PF.exact d.pc.c hpc.c).powInt hr 2 2 (by norm_num) (by norm_num)).mul hr
    ((PF.exact d.pc.h hpc.h).powInt hr 3 3 (by norm_num) (by norm_num)))
  exact this.mono hr (by push_cast; linarith)

theorem FTE_acc (hr : BinaryRounding rd u) (hN : 0 < d.NSPECIES) (hpc : PosConsts d.pc.exact) (ha : 0 ≤ a)
    (ht : PF u a temp temp') :
    PF u (a + 6) (d.TemperatureFromEnergyDensity temp) (d.exact.TemperatureFromEnergyDensity temp') := by
  have := ((((((PF.int hr 15 15 (by norm_num) (by norm_num) (by norm_num)).mul hr
    ((PF.exact d.pc.c hpc.c).powInt hr 3 3 (by norm_num) (by norm_num))).mul hr
    ((PF.exact d.pc.h hpc.h).powInt hr 3 3 (by norm_num) (by norm_num))).mul hr ht).div hr
    ((((PF.int hr 7 7 (by norm_num) (by norm_num) (by norm_num)).mul hr
    ((PF.pi hr).powInt hr 5 5 (by norm_num) (by norm_num))).mul hr
    ((PF.exact d.pc.kb hpc.kb).powInt hr 4 4 (by norm_num) (by norm_num))).mul hr (species hr hN)))).pow hr
    (lit 1 / lit 4)
  have e : (lit 1 / lit 4 : ℝ) = 1 / 4 := by
    show ((1 : ℚ) : ℝ) / ((4 : ℚ) : ℝ) = 1 / 4
    norm_num
  rw [lit14 hr] at this
  refine PF.mono hr this ?_
  rw [e, abs_of_pos (by norm_num)]
  push_cast
  linarith

theorem Ftotals (hr : BinaryRounding rd u) (hN : 0 < d.NSPECIES) (hpc : PosConsts d.pc.exact) (ha : 0 ≤ a)
    (ht : PF u a temp temp') :
    PF u (64 * (a + 11 * (0 : ℕ) + 1)) (d.ThermalDistributionOfT temp) (d.exact.ThermalDistributionOfT temp') ∧
    PF u (64 * (a + 11 * (0 : ℕ) + 1)) (d.ThermalNumberDistributionOfT temp)
      (d.exact.ThermalNumberDistributionOfT temp') ∧
    PF u (64 * (a + 11 * (0 : ℕ) + 1)) (d.EnergyDensityFromTemperature temp)
      (d.exact.EnergyDensityFromTemperature temp') ∧
    PF u (64 * (a + 11 * (0 : ℕ) + 1)) (d.TemperatureFromEnergyDensity temp)
      (d.exact.TemperatureFromEnergyDensity temp') ∧
    PF u (64 * (a + 11 * (0 : ℕ) + 1)) (d.NumberDensityFromTemperature temp)
      (d.exact.NumberDensityFromTemperature temp') :=
  ⟨(FBT_acc hr hN hpc ht).mono hr (by push_cast; linarith), (FNT_acc hr hN hpc ht).mono hr (by push_cast; linarith),
    ((FBT_acc hr hN hpc ht).div hr (PF.exact d.pc.c hpc.c)).mono hr (by push_cast; linarith),
    (FTE_acc hr hN hpc ha ht).mono hr (by push_cast; linarith),
    ((FNT_acc hr hN hpc ht).div hr (PF.exact d.pc.c hpc.c)).mono hr (by push_cast; linarith)⟩

theorem roomN {N : ℝ} {x : ℝ} (hx : 0 ≤ x) {p q : ℝ} (hN : N = p + x * q) (hp : p ≤ 64 * (a + 1))
    (hq : q ≤ 64 * (a + 1)) : N ≤ 64 * (1 + x) * (a + 11 * (0 : ℕ) + 1) := by
  push_cast
  have h1 := mul_le_mul_of_nonneg_left hq hx
  linarith

theorem thermalN (hr : BinaryRounding rd u) (hN : 0 < d.NSPECIES) (hpc : PosConsts d.pc.exact) (ha : 0 ≤ a)
    (hs : (2 * (a + 4 * (0 : ℕ)) + 3) * unit u ≤ 1) (ht : PF u a temp temp') (hn : PF u a nu nu') :
    PF u (64 * (1 + d.pc.h.val / d.pc.kb.val * nu' / temp') * (a + 11 * (0 : ℕ) + 1))
      (d.ThermalDistributionOfTNu temp nu) (d.exact.ThermalDistributionOfTNu temp' nu') ∧
    PF u (64 * (1 + d.pc.h.val / d.pc.kb.val * nu' / temp') * (a + 11 * (0 : ℕ) + 1))
      (d.DThermalDistributionOfTNuDT temp nu) (d.exact.DThermalDistributionOfTNuDT temp' nu') := by
  have hs : (2 * a + 3) * unit u ≤ 1 := by simpa using hs
  rw [x_eq hpc ht.1]
  have hx := (x_acc hr hpc ht hn).pos.le
  exact ⟨(FB_acc hr hN hpc ha hs ht hn).mono hr (roomN hx (p := 3 * a + 12) (q := 4 * a + 6) (by ring) (by linarith)
    (by linarith)), (FdB_acc hr hN hpc ha hs ht hn).mono hr (roomN hx (p := 6 * a + 21) (q := 12 * a + 18) (by ring)
    (by linarith) (by linarith))⟩

theorem grayN_acc (hr : BinaryRounding rd u) (hN : 0 < d.NSPECIES) (hpc : PosConsts d.pc.exact) (kappa : Fl rd)
    (hk : 0 < kappa.val) :
    AccN u (inferInstance : NeutrinoAPI (Fl rd) (GrayOpacity (Fl rd))) (inferInstance : NeutrinoAPI ℝ (GrayOpacity ℝ))
      ⟨d, pc, kappa⟩ ⟨d.exact, pc.exact, kappa.val⟩ 0 (d.pc.h.val / d.pc.kb.val) where
  K_pos := div_pos hpc.h hpc.kb
  spectral fn a rho temp Ye nu type rho' temp' Ye' nu' ha hs hρ ht hn := by
    have hs : (2 * a + 3) * unit u ≤ 1 := by simpa using hs
    rw [x_eq hpc ht.1]
    have hx := (x_acc hr hpc ht hn).pos.le
    have hB := FB_acc hr hN hpc ha hs ht hn
    have h1 := hρ.mul hr (PF.exact kappa hk)
    have h2 := h1.mul hr hB
    have h3 := (four_pi hr).mul hr h2
    cases fn
    · exact .inl (h1.mono hr (roomN hx (p := a + 1) (q := 0) (by ring) (by linarith) (by linarith)))
    · exact .inl (h1.mono hr (roomN hx (p := a + 1) (q := 0) (by ring) (by linarith) (by linarith)))
    · exact .inl (h2.mono hr (roomN hx (p := 4 * a + 14) (q := 4 * a + 6) (by ring) (by linarith) (by linarith)))
    · exact .inl (h3.mono hr (roomN hx (p := 4 * a + 17) (q := 4 * a + 6) (by ring) (by linarith) (by linarith)))
  thermal a temp nu type temp' nu' ha hs ht hn := (thermalN hr hN hpc ha hs ht hn).1
  derivative a temp nu type temp' nu' _ ha hs ht hn := (thermalN hr hN hpc ha hs ht hn).2
  emissivity a rho temp Ye type rho' temp' Ye' ha hρ ht :=
    ⟨.inl (((hρ.mul hr (PF.exact kappa hk)).mul hr (FBT_acc hr hN hpc ht)).mono hr (by push_cast; linarith)),
      .inl (((PF.exact kappa hk).mul hr (FNT_acc hr hN hpc ht)).mono hr (by push_cast; linarith))⟩
  totals a t type t' ha ht := Ftotals hr hN hpc ha ht

/-- `1 + 3 gA gA`, whatever the sign of `gA` -/
theorem gA_acc (hr : BinaryRounding rd u) (hpc : PosConsts pc.exact) :
    PF u 3 (lit 1 + lit 3 * pc.gA * pc.gA) (lit 1 + lit 3 * pc.exact.gA * pc.exact.gA) := by
  have h1 := PF.int (u := u) hr 1 1 (by norm_num) (by norm_num) (by norm_num)
  have h3 := PF.int (u := u) hr 3 3 (by norm_num) (by norm_num) (by norm_num)
  have hg : CF u 0 pc.gA pc.gA.val := CF.exact pc.gA hpc.gA
  have h2 : PF u 2 (lit 3 * pc.gA * pc.gA) (lit 3 * pc.gA.val * pc.gA.val) := by
    refine ⟨?_, ((h3.2.mul hr hg).mul hr hg).mono hr (by norm_num)⟩
    have := mul_self_pos.2 (show pc.gA.val ≠ 0 from hpc.gA)
    show 0 < (lit 3 : ℝ) * pc.gA.val * pc.gA.val
    rw [mul_assoc]
    exact mul_pos h3.1 this
  have := h1.add hr h2
  exact this.mono hr (by norm_num)

theorem delta_acc (hr : BinaryRounding rd u) :
    PF u 1 (BRTOpacity.Deltanp_ : Fl rd) (BRTOpacity.Deltanp_ : ℝ) := PF.dec hr _ (by norm_num)

theorem sigmac_acc (hr : BinaryRounding rd u) (hpc : PosConsts pc.exact) (ha : 0 ≤ a) (hn : PF u a nu nu')
    (type : RadiationType) :
    ZF u (2 * a + 17) (BRTOpacity.GetSigmac ⟨d, pc⟩ type nu) (BRTOpacity.GetSigmac ⟨d.exact, pc.exact⟩ type nu') := by
  have hc := PF.exact (u := u) pc.c hpc.c
  have h4 := PF.int (u := u) hr 4 4 (by norm_num) (by norm_num) (by norm_num)
  have hs := ((PF.exact pc.h hpc.h).mul hr hn).add hr (delta_acc hr)
  rw [max_eq_left (by linarith)] at hs
  have := ((PF.exact pc.nu_sigma0 hpc.sigma0).mul hr ((gA_acc hr hpc).div hr h4)).mul hr
    ((hs.div hr (((PF.exact pc.me hpc.me).mul hr hc).mul hr hc)).powInt hr 2 2 (by norm_num) (by norm_num))
  cases type with
  | NU_ELECTRON => exact .inl (this.mono hr (by push_cast; linarith))
  | _ => exact ZF.zero hr

theorem kT_acc (hr : BinaryRounding rd u) (hpc : PosConsts pc.exact) (ht : PF u a temp temp') (q : ℚ) (k : ℕ)
    (hq : q = k) (hk : k ≤ 2 ^ 24) :
    PF u (k * (a + 1) + 1) (pow (pc.kb * temp) (lit q)) (pow (pc.exact.kb * temp') (lit q)) := by
  have := ((PF.exact pc.kb hpc.kb).mul hr ht).powInt hr q k hq hk
  rw [zero_add] at this
  exact this

theorem denom_acc (hr : BinaryRounding rd u) (hpc : PosConsts pc.exact) (q : ℚ) (k : ℕ) (hq : q = k) (hk : k ≤ 2 ^ 24)
    (h0 : 0 < k) :
    PF u 7 (lit q * pow pc.c (lit 6) * pow pc.h (lit 3) * pow pc.me (lit 2) * pc.mp)
      (lit q * pow pc.exact.c (lit 6) * pow pc.exact.h (lit 3) * pow pc.exact.me (lit 2) * pc.exact.mp) := by
  have := (((((PF.int hr q k hq hk h0)).mul hr ((PF.exact (u := u) pc.c hpc.c).powInt hr 6 6 (by norm_num)
    (by norm_num))).mul hr ((PF.exact pc.h hpc.h).powInt hr 3 3 (by norm_num) (by norm_num))).mul hr
    ((PF.exact pc.me hpc.me).powInt hr 2 2 (by norm_num) (by norm_num))).mul hr (PF.exact pc.mp hpc.mp)
  exact this.mono hr (by norm_num)

theorem alphac_acc (hr : BinaryRounding rd u) (hpc : PosConsts pc.exact) (ha : 0 ≤ a) (hρ : PF u a rho rho')
    (ht : PF u a temp temp') (type : RadiationType) :
    ZF u (7 * a + 34) (BRTOpacity.GetAlphac ⟨d, pc⟩ rho temp type)
      (BRTOpacity.GetAlphac ⟨d.exact, pc.exact⟩ rho' temp' type) := by
  have hD := delta_acc hr
  have h1 := ((PF.int (u := u) hr 310 310 (by norm_num) (by norm_num) (by norm_num)).mul hr
    (kT_acc hr hpc ht 2 2 (by norm_num) (by norm_num))).mul hr ((PF.pi hr).powInt hr 6 6 (by norm_num) (by norm_num))
  have h2 := (((PF.int (u := u) hr 147 147 (by norm_num) (by norm_num) (by norm_num)).mul hr
    ((PF.pi hr).powInt hr 4 4 (by norm_num) (by norm_num))).mul hr hD).mul hr hD
  have h3 := ((((PF.int (u := u) hr 113400 113400 (by norm_num) (by norm_num) (by norm_num)).mul hr
    (PF.exact pc.kb hpc.kb)).mul hr ht).mul hr hD).mul hr (PF.dec hr 1.0369277551433699263 (by norm_num))
  have h12 := (h1.mono (m := 2 * a + 12) hr (by push_cast; linarith)).add hr
    (h2.mono (m := 2 * a + 12) hr (by push_cast; linarith))
  rw [max_self] at h12
  have h123 := h12.add hr (h3.mono (m := 2 * a + 12 + 1) hr (by linarith))
  rw [max_self] at h123
  have := (((((gA_acc hr hpc).mul hr (kT_acc hr hpc ht 4 4 (by norm_num) (by norm_num))).mul hr hρ).mul hr
    (PF.exact pc.nu_sigma0 hpc.sigma0)).mul hr h123).div hr
    (denom_acc hr hpc 5040 5040 (by norm_num) (by norm_num) (by norm_num))
  cases type with
  | NU_ELECTRON => exact .inl (this.mono hr (by push_cast; linarith))
  | _ => exact ZF.zero hr

theorem nalphac_acc (hr : BinaryRounding rd u) (hpc : PosConsts pc.exact) (ha : 0 ≤ a) (hρ : PF u a rho rho')
    (ht : PF u a temp temp') (type : RadiationType) :
    PF u (6 * a + 31) (BRTOpacity.GetNAlphac ⟨d, pc⟩ rho temp type)
      (BRTOpacity.GetNAlphac ⟨d.exact, pc.exact⟩ rho' temp' type) := by
  have hD := delta_acc hr
  have h1 := ((((PF.int (u := u) hr 7 7 (by norm_num) (by norm_num) (by norm_num)).mul hr
    (PF.exact pc.kb hpc.kb)).mul hr ((PF.pi hr).powInt hr 4 4 (by norm_num) (by norm_num))).mul hr ht).mul hr hD
  have h2 := ((PF.int (u := u) hr 90 90 (by norm_num) (by norm_num) (by norm_num)).mul hr
    (hD.powInt hr 2 2 (by norm_num) (by norm_num))).mul hr (PF.dec hr 1.2020569031595942853 (by norm_num))
  have h3 := ((PF.int (u := u) hr 1350 1350 (by norm_num) (by norm_num) (by norm_num)).mul hr
    (kT_acc hr hpc ht 2 2 (by norm_num) (by norm_num))).mul hr (PF.dec hr 1.0369277551433699263 (by norm_num))
  have h12 := (h1.mono (m := a + 10) hr (by push_cast; linarith)).add hr
    (h2.mono (m := a + 10) hr (by push_cast; linarith))
  rw [max_self] at h12
  have h123 := (h12.mono (m := 2 * a + 11) hr (by linarith)).add hr
    (h3.mono (m := 2 * a + 11) hr (by push_cast; linarith))
  rw [max_self] at h123
  have := (((((gA_acc hr hpc).mul hr (kT_acc hr hpc ht 3 3 (by norm_num) (by norm_num))).mul hr hρ).mul hr
    (PF.exact pc.nu_sigma0 hpc.sigma0)).mul hr h123).div hr
    (denom_acc hr hpc 120 120 (by norm_num) (by norm_num) (by norm_num))
  exact this.mono hr (by push_cast; linarith)

theorem brt_acc (hr : BinaryRounding rd u) (hN : 0 < d.NSPECIES) (hpd : PosConsts d.pc.exact)
    (hpc : PosConsts pc.exact) :
    AccN u (inferInstance : NeutrinoAPI (Fl rd) (BRTOpacity (Fl rd))) (inferInstance : NeutrinoAPI ℝ (BRTOpacity ℝ))
      ⟨d, pc⟩ ⟨d.exact, pc.exact⟩ 0 (d.pc.h.val / d.pc.kb.val) where
  K_pos := div_pos hpd.h hpd.kb
  spectral fn a rho temp Ye nu type rho' temp' Ye' nu' ha hs hρ ht hn := by
    have hs : (2 * a + 3) * unit u ≤ 1 := by simpa using hs
    rw [x_eq hpd ht.1]
    have hx := (x_acc hr hpd ht hn).pos.le
    have hB := FB_acc hr hN hpd ha hs ht hn
    have h1 := ZF.mul' hr (hρ.div hr (PF.exact pc.mp hpc.mp)) (sigmac_acc (d := d) hr hpc ha hn type)
    have h2 := h1.mul hr hB
    have h3 := ZF.mul' hr (four_pi hr) h2
    cases fn
    · exact h1.mono hr (roomN hx (p := 3 * a + 19) (q := 0) (by ring) (by linarith) (by linarith))
    · exact h1.mono hr (roomN hx (p := 3 * a + 19) (q := 0) (by ring) (by linarith) (by linarith))
    · exact h2.mono hr (roomN hx (p := 6 * a + 32) (q := 4 * a + 6) (by ring) (by linarith) (by linarith))
    · exact h3.mono hr (roomN hx (p := 6 * a + 35) (q := 4 * a + 6) (by ring) (by linarith) (by linarith))
  thermal a temp nu type temp' nu' ha hs ht hn := (thermalN hr hN hpd ha hs ht hn).1
  derivative a temp nu type temp' nu' _ ha hs ht hn := (thermalN hr hN hpd ha hs ht hn).2
  emissivity a rho temp Ye type rho' temp' Ye' ha hρ ht :=
    ⟨(ZF.mul' hr (four_pi hr) (alphac_acc (d := d) hr hpc ha hρ ht type)).mono hr (by push_cast; linarith),
      .inl (((four_pi hr).mul hr (nalphac_acc (d := d) hr hpc ha hρ ht type)).mono hr (by push_cast; linarith))⟩
  totals a t type t' ha ht := Ftotals hr hN hpd ha ht

end base

section wrapper
variable {O O' : Type} {i : NeutrinoAPI (Fl rd) O} {i' : NeutrinoAPI ℝ O'} {o : O} {o' : O'} {n : ℕ} {K : ℝ}

theorem nonCGSN_acc (hr : BinaryRounding rd u) (H : AccN u i i' o o' n K) {t m l te : Fl rd} (h1 : 0 < t.val)
    (h2 : 0 < m.val) (h3 : 0 < l.val) (h4 : 0 < te.val) :
    AccN u (inferInstance : NeutrinoAPI (Fl rd) (NonCGSUnits (Fl rd) O))
      (inferInstance : NeutrinoAPI ℝ (NonCGSUnits ℝ O')) (NonCGSUnits.construct o t m l te)
      (NonCGSUnits.construct o' t.val m.val l.val te.val) (n + 1) (K / (t.val * te.val)) := by
  have ht := PF.exact (u := u) t h1
  have hm := PF.exact (u := u) m h2
  have hl := PF.exact (u := u) l h3
  have hte := PF.exact (u := u) te h4
  have hrho := hm.div hr ((hl.mul hr hl).mul hr hl)
  have hfreq := (PF.int hr 1 1 (by norm_num) (by norm_num) (by norm_num)).div hr ht
  have hem := ((hl.mul hr ht).mul hr ht).div hr hm
  have hnum := ((hl.mul hr hl).mul hr hl).mul hr ht
  have hint := (ht.mul hr ht).div hr hm
  have hen := ((ht.mul hr ht).mul hr hl).div hr hm
  have hK := H.K_pos
  have hx : ∀ T ν : ℝ, 0 < T → K * (ν * (lit 1 / t.val)) / (T * te.val) = K / (t.val * te.val) * ν / T := by
    intro T ν hT
    rw [show (lit 1 : ℝ) = 1 by simp [areal]]
    field_simp
  have hroom : ∀ {x a c : ℝ}, 0 ≤ x → 0 ≤ a → c ≤ 7 → 64 * (1 + x) * (a + 4 + 11 * n + 1) + c ≤
      64 * (1 + x) * (a + 11 * ((n + 1 : ℕ) : ℝ) + 1) := by
    intro x a c hx ha hc
    push_cast
    linarith
  have hroom' : ∀ {a c : ℝ}, 0 ≤ a → c ≤ 7 → 64 * (a + 4 + 11 * n + 1) + c ≤
      64 * (a + 11 * ((n + 1 : ℕ) : ℝ) + 1) := by
    intro a c ha hc
    push_cast
    linarith
  have hsm : ∀ {a : ℝ}, (2 * (a + 4 * ((n + 1 : ℕ) : ℝ)) + 3) * unit u ≤ 1 →
      (2 * (a + 4 + 4 * n) + 3) * unit u ≤ 1 := by
    intro a h
    push_cast at h
    rw [show a + 4 * ((n : ℝ) + 1) = a + 4 + 4 * n by ring] at h
    exact h
  exact {
    K_pos := div_pos hK (mul_pos h1 h4)
    spectral := by
      intro fn a rho temp Ye nu type rho' temp' Ye' nu' ha hs hρ hT hν
      have a1 := (hρ.mul hr hrho).mono (m := a + 4) hr (by linarith)
      have a1' := (hrho.mul hr hρ).mono (m := a + 4) hr (by linarith)
      have a2 := (hT.mul hr hte).mono (m := a + 4) hr (by linarith)
      have a2' := (hte.mul hr hT).mono (m := a + 4) hr (by linarith)
      have a3 := (hν.mul hr hfreq).mono (m := a + 4) hr (by linarith)
      have hx0 : 0 ≤ K / (t.val * te.val) * nu' / temp' := by have := hν.1; have := hT.1; positivity
      have e := hx temp' nu' hT.1
      have e' : K * (nu' * (lit 1 / t.val)) / (te.val * temp') = K / (t.val * te.val) * nu' / temp' := by
        rw [mul_comm te.val]; exact e
      cases fn
      · refine SameEnd.map (H.spectral .AbsorptionCoefficient (a + 4) _ _ Ye _ type _ _ Ye' _ (by linarith) (hsm hs) a1'
          a2' a3) fun b y h => (h.mul hr hl).mono hr ?_
        refine le_trans ?_ (hroom hx0 ha (show (1 : ℝ) ≤ 7 by norm_num))
        rw [← e']
        exact le_of_eq (by rw [add_zero]; rfl)
      · refine SameEnd.map (H.spectral .AngleAveragedAbsorptionCoefficient (a + 4) _ _ Ye _ type _ _ Ye' _ (by linarith)
          (hsm hs) a1 a2 a3) fun b y h => (h.mul hr hl).mono hr ?_
        refine le_trans ?_ (hroom hx0 ha (show (1 : ℝ) ≤ 7 by norm_num))
        rw [← e]
        exact le_of_eq (by rw [add_zero]; rfl)
      · refine SameEnd.map (H.spectral .EmissivityPerNuOmega (a + 4) _ _ Ye _ type _ _ Ye' _ (by linarith) (hsm hs) a1
          a2 a3) fun b y h => (h.mul hr hem).mono hr ?_
        refine le_trans ?_ (hroom hx0 ha (show (4 : ℝ) ≤ 7 by norm_num))
        rw [← e]
        exact le_of_eq (by rw [add_assoc]; congr 1; norm_num)
      · refine SameEnd.map (H.spectral .EmissivityPerNu (a + 4) _ _ Ye _ type _ _ Ye' _ (by linarith) (hsm hs) a1
          a2 a3) fun b y h => (h.mul hr hem).mono hr ?_
        refine le_trans ?_ (hroom hx0 ha (show (4 : ℝ) ≤ 7 by norm_num))
        rw [← e]
        exact le_of_eq (by rw [add_assoc]; congr 1; norm_num)
    thermal := by
      intro a temp nu type temp' nu' ha hs hT hν
      have a2 := (hT.mul hr hte).mono (m := a + 4) hr (by linarith)
      have a3 := (hν.mul hr hfreq).mono (m := a + 4) hr (by linarith)
      have hx0 : 0 ≤ K / (t.val * te.val) * nu' / temp' := by have := hν.1; have := hT.1; positivity
      have := (H.thermal (a + 4) _ _ type _ _ (by linarith) (hsm hs) a2 a3).mul hr hint
      refine PF.mono hr this ?_
      refine le_trans ?_ (hroom hx0 ha (show (3 : ℝ) ≤ 7 by norm_num))
      rw [← hx temp' nu' hT.1]
      exact le_of_eq (by rw [add_assoc]; congr 1; norm_num)
    derivative := fun a temp nu type temp' nu' h0 => absurd h0 (by omega)
    emissivity := by
      intro a rho temp Ye type rho' temp' Ye' ha hρ hT
      have a1 := (hρ.mul hr hrho).mono (m := a + 4) hr (by linarith)
      have a2 := (hT.mul hr hte).mono (m := a + 4) hr (by linarith)
      obtain ⟨b1, b2⟩ := H.emissivity (a + 4) _ _ Ye type _ _ Ye' (by linarith) a1 a2
      refine ⟨SameEnd.map b1 fun b y h => ((h.mul hr hem).mul hr ht).mono hr ?_,
        SameEnd.map b2 fun b y h => (h.mul hr hnum).mono hr ?_⟩
      · exact le_trans (by linarith) (hroom' ha (show (5 : ℝ) ≤ 7 by norm_num))
      · exact le_trans (by linarith) (hroom' ha (show (4 : ℝ) ≤ 7 by norm_num))
    totals := by
      intro a T type T' ha hT
      have a2 := (hT.mul hr hte).mono (m := a + 4) hr (by linarith)
      have a3 := (hT.div hr hen).mono (m := a + 4) hr (by linarith)
      obtain ⟨b1, b2, b3, -, b5⟩ := H.totals (a + 4) _ type _ (by linarith) a2
      obtain ⟨-, -, -, b4, -⟩ := H.totals (a + 4) _ type _ (by linarith) a3
      refine ⟨(((b1.mul hr hen).mul hr ht).div hr hl).mono hr ?_, ((((b2.mul hr hm).div hr hrho).mul hr ht).div hr
        hl).mono hr ?_, (b3.mul hr hen).mono hr ?_, (b4.div hr hte).mono hr ?_, ((b5.mul hr hm).div hr hrho).mono hr ?_⟩
      · exact le_trans (by linarith) (hroom' ha (show (6 : ℝ) ≤ 7 by norm_num))
      · exact le_trans (by linarith) (hroom' ha (show (7 : ℝ) ≤ 7 by norm_num))
      · exact le_trans (by linarith) (hroom' ha (show (4 : ℝ) ≤ 7 by norm_num))
      · exact le_trans (by linarith) (hroom' ha (show (1 : ℝ) ≤ 7 by norm_num))
      · exact le_trans (by linarith) (hroom' ha (show (5 : ℝ) ≤ 7 by norm_num)) }

theorem twinN_acc (hr : BinaryRounding rd u) (H : Twin rd O O' i i' o o' n K) : AccN u i i' o o' n K := by
  induction H with
  | gray d pc kappa hN hpc hk => exact grayN_acc hr hN hpc kappa hk
  | brt d pc hN hpd hpc => exact brt_acc hr hN hpd hpc
  | nonCGS t m l te h1 h2 h3 h4 _ ih => exact nonCGSN_acc hr ih h1 h2 h3 h4
  | vScaleFree _ ih | vBRTOpac _ ih | vGray _ ih | vNonCGSBRT _ ih | vNonCGSGray _ ih =>
    exact ⟨ih.K_pos, fun fn => by have := ih.spectral fn; cases fn <;> exact this, ih.thermal, ih.derivative,
      ih.emissivity, ih.totals⟩

end wrapper
end Opac.Accuracy
