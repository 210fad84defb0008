import Verif.Lemmas.Accuracy

/-! Rounding errors of the photon opacities. -/

namespace Opac.Accuracy
open Arith Photons

variable {rd : ℝ → ℝ} {u : ℝ}

section Planck
variable {a : ℝ} {rho temp nu : Fl rd} {rho' temp' nu' : ℝ} {pc : PC (Fl rd)}

theorem x_acc (hr : BinaryRounding rd u) (hpc : PosConsts pc.exact) (ht : PF u a temp temp') (hn : PF u a nu nu') :
    PF u (2 * a + 3) (pc.h * nu / (pc.kb * temp)) (pc.exact.h * nu' / (pc.exact.kb * temp')) :=
  (((PF.exact pc.h hpc.h).mul hr hn).div hr ((PF.exact pc.kb hpc.kb).mul hr ht)).mono hr (by linarith)

theorem B_acc (hr : BinaryRounding rd u) (hpc : PosConsts pc.exact) (ha : 0 ≤ a) (hs : (2 * a + 3) * unit u ≤ 1)
    (ht : PF u a temp temp') (hn : PF u a nu nu') :
    PF u (5 * a + 12 + (pc.exact.h * nu' / (pc.exact.kb * temp')) * (4 * a + 6))
      (Planck.ThermalDistributionOfTNu pc temp nu) (Planck.ThermalDistributionOfTNu pc.exact temp' nu') := by
  have hc := PF.exact (u := u) pc.c hpc.c
  have := (((((((PF.int hr 2 2 (by norm_num) (by norm_num) (by norm_num)).mul hr (PF.exact pc.h hpc.h)).mul hr hn).mul hr
    hn).mul hr hn).div hr (hc.mul hr hc)).mul hr (PF.int hr 1 1 (by norm_num) (by norm_num) (by norm_num))).div hr
    ((x_acc hr hpc ht hn).expm1 hr hs)
  exact this.mono hr (by linarith)

theorem dB_acc (hr : BinaryRounding rd u) (hpc : PosConsts pc.exact) (ha : 0 ≤ a) (hs : (2 * a + 3) * unit u ≤ 1)
    (ht : PF u a temp temp') (hn : PF u a nu nu') :
    PF u (10 * a + 23 + (pc.exact.h * nu' / (pc.exact.kb * temp')) * (4 * a + 6))
      (Planck.DThermalDistributionOfTNuDT pc temp nu) (Planck.DThermalDistributionOfTNuDT pc.exact temp' nu') := by
  have hc := PF.exact (u := u) pc.c hpc.c
  have hh := PF.exact (u := u) pc.h hpc.h
  have hx := x_acc hr hpc ht hn
  have hd := hx.one_sub_exp hr
  have := (((((((((PF.int hr 2 2 (by norm_num) (by norm_num) (by norm_num)).mul hr hh).mul hr hh).mul hr hn).mul hr
    hn).mul hr hn).mul hr hn).div hr ((((ht.mul hr ht).mul hr hc).mul hr hc).mul hr (PF.exact pc.kb hpc.kb))).mul hr
    (hx.exp_neg hr hs)).div hr (hd.mul hr hd)
  exact this.mono hr (by linarith)

theorem BT_acc (hr : BinaryRounding rd u) (hpc : PosConsts pc.exact) (ht : PF u a temp temp') :
    PF u (4 * a + 16) (Planck.ThermalDistributionOfT pc temp) (Planck.ThermalDistributionOfT pc.exact temp') := by
  have := ((((PF.int hr 8 8 (by norm_num) (by norm_num) (by norm_num)).mul hr
    ((PF.pi hr).powInt hr 5 5 (by norm_num) (by norm_num))).mul hr
    ((PF.exact pc.kb hpc.kb).powInt hr 4 4 (by norm_num) (by norm_num))).mul hr
    (ht.powInt hr 4 4 (by norm_num) (by norm_num))).div hr
    (((PF.int hr 15 15 (by norm_num) (by norm_num) (by norm_num)).mul hr
    ((PF.exact pc.c hpc.c).powInt hr 2 2 (by norm_num) (by norm_num))).mul hr
    ((PF.exact pc.h hpc.h).powInt hr 3 3 (by norm_num) (by norm_num)))
  exact this.mono hr (by push_cast; linarith)

theorem NT_acc (hr : BinaryRounding rd u) (hpc : PosConsts pc.exact) (ht : PF u a temp temp') :
    PF u (3 * a + 12) (Planck.ThermalNumberDistributionOfT pc temp)
      (Planck.ThermalNumberDistributionOfT pc.exact temp') := by
  have := (((((PF.int hr 16 16 (by norm_num) (by norm_num) (by norm_num)).mul hr
    ((PF.exact pc.kb hpc.kb).powInt hr 3 3 (by norm_num) (by norm_num))).mul hr (PF.pi hr)).mul hr
    (ht.powInt hr 3 3 (by norm_num) (by norm_num))).mul hr (PF.dec hr 1.20206 (by norm_num))).div hr
    (((PF.exact pc.c hpc.c).powInt hr 2 2 (by norm_num) (by norm_num)).mul hr
    ((PF.exact pc.h hpc.h).powInt hr 3 3 (by norm_num) (by norm_num)))
  exact this.mono hr (by push_cast; linarith)

theorem lit14 (hr : BinaryRounding rd u) : (lit 1 / lit 4 : Fl rd).val = (lit 1 / lit 4 : ℝ) := by
  show rd (rd ((1 : ℚ) : ℝ) / rd ((4 : ℚ) : ℝ)) = ((1 : ℚ) : ℝ) / ((4 : ℚ) : ℝ)
  have h4 := hr.ints 4 (by norm_num)
  push_cast at h4 ⊢
  rw [hr.one, h4, hr.quarter]

theorem TE_acc (hr : BinaryRounding rd u) (hpc : PosConsts pc.exact) (ha : 0 ≤ a) (ht : PF u a temp temp') :
    PF u (a + 5) (Planck.TemperatureFromEnergyDensity pc temp)
      (Planck.TemperatureFromEnergyDensity pc.exact temp') := by
  have := ((((((PF.int hr 15 15 (by norm_num) (by norm_num) (by norm_num)).mul hr
    ((PF.exact pc.c hpc.c).powInt hr 3 3 (by norm_num) (by norm_num))).mul hr
    ((PF.exact pc.h hpc.h).powInt hr 3 3 (by norm_num) (by norm_num))).mul hr ht).div hr
    (((PF.int hr 8 8 (by norm_num) (by norm_num) (by norm_num)).mul hr
    ((PF.pi hr).powInt hr 5 5 (by norm_num) (by norm_num))).mul hr
    ((PF.exact pc.kb hpc.kb).powInt hr 4 4 (by norm_num) (by norm_num))))).pow hr (lit 1 / lit 4)
  have e : (lit 1 / lit 4 : ℝ) = 1 / 4 := by
    show ((1 : ℚ) : ℝ) / ((4 : ℚ) : ℝ) = 1 / 4
    norm_num
  rw [lit14 hr] at this
  refine PF.mono hr this ?_
  rw [e, abs_of_pos (by norm_num)]
  push_cast
  linarith

theorem four_pi (hr : BinaryRounding rd u) : PF u 2 (lit 4 * pi : Fl rd) (lit 4 * pi : ℝ) :=
  ((PF.int hr 4 4 (by norm_num) (by norm_num) (by norm_num)).mul hr (PF.pi hr)).mono hr (by norm_num)

theorem sgn_acc {n : ℝ} {b : Fl rd} {y : ℝ} (h : PF u n b y) (hr : BinaryRounding rd u) :
    Robust.sgn b = 1 ∧ Robust.sgn y = 1 := by
  have hz : (lit 0 : Fl rd).val = 0 := by
    show rd ((0 : ℚ) : ℝ) = 0
    have := hr.ints 0 (by norm_num)
    push_cast at this ⊢
    exact this
  have hb := h.pos'
  have hy := h.pos
  constructor
  · have h1 : le (lit 0 : Fl rd) b = true := by
      show decide ((lit 0 : Fl rd).val ≤ b.val) = true
      rw [hz]; simp [hb.le]
    have h2 : lt b (lit 0 : Fl rd) = false := by
      show decide (b.val < (lit 0 : Fl rd).val) = false
      rw [hz]; simp [hb.le]
    simp [Robust.sgn, h1, h2]
  · have h1 : le (lit 0 : ℝ) y = true := by simp [areal, hy.le]
    have h2 : lt y (lit 0 : ℝ) = false := by
      rw [Bool.eq_false_iff, Ne, real_lt]; simp [areal, hy.le]
    simp [Robust.sgn, h1, h2]

theorem ratio_acc (hr : BinaryRounding rd u) {n m : ℝ} {a b : Fl rd} {x y : ℝ} (h : PF u n a x) (h' : PF u m b y)
    (hm : 2 ≤ m) : PF u (n + m + 2) (Robust.ratio a b) (Robust.ratio x y) := by
  obtain ⟨e1, e2⟩ := sgn_acc h' hr
  have hd : PF u 0 (dmin : Fl rd) (dmin : ℝ) := PF.exact (dmin : Fl rd) (show (0 : ℝ) < 2 ^ (-1022 : ℤ) by positivity)
  have := h.div hr (h'.add hr ((PF.int hr 1 1 (by norm_num) (by norm_num) (by norm_num)).mul hr
    ((PF.int hr 10 10 (by norm_num) (by norm_num) (by norm_num)).mul hr hd)))
  unfold Robust.ratio
  rw [e1, e2]
  refine PF.mono hr this ?_
  rw [max_eq_left (by linarith)]
  linarith

end Planck

/-- what is claimed of a pair of objects, for inputs that already carry `a` errors -/
structure Acc (u : ℝ) {O O' : Type} (i : PhotonAPI (Fl rd) O) (i' : PhotonAPI ℝ O') (o : O) (o' : O') (n : ℕ) (S K : ℝ) :
    Prop where
  S_nonneg : 0 ≤ S
  K_pos : 0 < K
  spectral : ∀ (fn : VFn) (a : ℝ) (rho temp nu : Fl rd) (rho' temp' nu' : ℝ), 0 ≤ a →
    (2 * (a + 4 * n) + 3) * unit u ≤ 1 → PF u a rho rho' → PF u a temp temp' → PF u a nu nu' →
    PF u (64 * (1 + S) * (1 + K * nu' / temp') * (a + 11 * n + 1)) (scalarFn i o fn rho temp nu)
      (scalarFn i' o' fn rho' temp' nu')
  thermal : ∀ (a : ℝ) (temp nu : Fl rd) (temp' nu' : ℝ), 0 ≤ a →
    (2 * (a + 4 * n) + 3) * unit u ≤ 1 → PF u a temp temp' → PF u a nu nu' →
    PF u (64 * (1 + S) * (1 + K * nu' / temp') * (a + 11 * n + 1)) (i.ThermalDistributionOfTNu o temp nu)
      (i'.ThermalDistributionOfTNu o' temp' nu')
  derivative : ∀ (a : ℝ) (temp nu : Fl rd) (temp' nu' : ℝ), n = 0 → 0 ≤ a →
    (2 * (a + 4 * n) + 3) * unit u ≤ 1 → PF u a temp temp' → PF u a nu nu' →
    PF u (64 * (1 + S) * (1 + K * nu' / temp') * (a + 11 * n + 1)) (i.DThermalDistributionOfTNuDT o temp nu)
      (i'.DThermalDistributionOfTNuDT o' temp' nu')
  emissivity : ∀ (a : ℝ) (rho temp : Fl rd) (rho' temp' : ℝ), 0 ≤ a → PF u a rho rho' → PF u a temp temp' →
    SameEnd (fun b y => PF u (64 * (1 + S) * (a + 11 * n + 1)) b y) (i.Emissivity o rho temp)
      (i'.Emissivity o' rho' temp')
  number : ∀ (a : ℝ) (rho temp : Fl rd) (rho' temp' : ℝ), 0 ≤ a → PF u a rho rho' → PF u a temp temp' →
    SameEnd (fun b y => y ≠ infinity → PF u (64 * (1 + S) * (a + 11 * n + 1)) b y) (i.NumberEmissivity o rho temp)
      (i'.NumberEmissivity o' rho' temp')
  totals : ∀ (a : ℝ) (t : Fl rd) (t' : ℝ), 0 ≤ a → PF u a t t' →
    PF u (64 * (1 + S) * (a + 11 * n + 1)) (i.ThermalDistributionOfT o t) (i'.ThermalDistributionOfT o' t') ∧
    PF u (64 * (1 + S) * (a + 11 * n + 1)) (i.ThermalNumberDistributionOfT o t) (i'.ThermalNumberDistributionOfT o' t') ∧
    PF u (64 * (1 + S) * (a + 11 * n + 1)) (i.EnergyDensityFromTemperature o t) (i'.EnergyDensityFromTemperature o' t') ∧
    PF u (64 * (1 + S) * (a + 11 * n + 1)) (i.TemperatureFromEnergyDensity o t) (i'.TemperatureFromEnergyDensity o' t') ∧
    PF u (64 * (1 + S) * (a + 11 * n + 1)) (i.NumberDensityFromTemperature o t) (i'.NumberDensityFromTemperature o' t')

section base
variable {a : ℝ} {rho temp nu : Fl rd} {rho' temp' nu' : ℝ} {pc : PC (Fl rd)}

theorem EDT_acc (hr : BinaryRounding rd u) (hpc : PosConsts pc.exact) (ht : PF u a temp temp') :
    PF u (4 * a + 17) (Planck.EnergyDensityFromTemperature pc temp)
      (Planck.EnergyDensityFromTemperature pc.exact temp') :=
  ((BT_acc hr hpc ht).div hr (PF.exact pc.c hpc.c)).mono hr (by linarith)

theorem NDT_acc (hr : BinaryRounding rd u) (hpc : PosConsts pc.exact) (ht : PF u a temp temp') :
    PF u (3 * a + 13) (Planck.NumberDensityFromTemperature pc temp)
      (Planck.NumberDensityFromTemperature pc.exact temp') :=
  ((NT_acc hr hpc ht).div hr (PF.exact pc.c hpc.c)).mono hr (by linarith)

theorem totals_acc (hr : BinaryRounding rd u) (hpc : PosConsts pc.exact) {S : ℝ} (hS : 0 ≤ S) (ha : 0 ≤ a)
    (ht : PF u a temp temp') :
    PF u (64 * (1 + S) * (a + 11 * (0 : ℕ) + 1)) (Planck.ThermalDistributionOfT pc temp)
      (Planck.ThermalDistributionOfT pc.exact temp') ∧
    PF u (64 * (1 + S) * (a + 11 * (0 : ℕ) + 1)) (Planck.ThermalNumberDistributionOfT pc temp)
      (Planck.ThermalNumberDistributionOfT pc.exact temp') ∧
    PF u (64 * (1 + S) * (a + 11 * (0 : ℕ) + 1)) (Planck.EnergyDensityFromTemperature pc temp)
      (Planck.EnergyDensityFromTemperature pc.exact temp') ∧
    PF u (64 * (1 + S) * (a + 11 * (0 : ℕ) + 1)) (Planck.TemperatureFromEnergyDensity pc temp)
      (Planck.TemperatureFromEnergyDensity pc.exact temp') ∧
    PF u (64 * (1 + S) * (a + 11 * (0 : ℕ) + 1)) (Planck.NumberDensityFromTemperature pc temp)
      (Planck.NumberDensityFromTemperature pc.exact temp') := by
  have h1 := mul_nonneg hS ha
  exact ⟨(BT_acc hr hpc ht).mono hr (by push_cast; linarith), (NT_acc hr hpc ht).mono hr (by push_cast; linarith),
    (EDT_acc hr hpc ht).mono hr (by push_cast; linarith), (TE_acc hr hpc ha ht).mono hr (by push_cast; linarith),
    (NDT_acc hr hpc ht).mono hr (by push_cast; linarith)⟩

theorem x_eq (hpc : PosConsts pc.exact) (ht : 0 < temp') :
    pc.h.val / pc.kb.val * nu' / temp' = pc.exact.h * nu' / (pc.exact.kb * temp') := by
  have h1 := hpc.kb.ne'
  show pc.exact.h / pc.exact.kb * nu' / temp' = _
  field_simp

/-- enough room for every unwrapped method -/
theorem room {N : ℝ} {S x : ℝ} (hS : 0 ≤ S) (hx : 0 ≤ x) (ha : 0 ≤ a) {p q r : ℝ}
    (hN : N = p + x * q + S * r) (hp : p ≤ 64 * (a + 1)) (hq : q ≤ 64 * (a + 1)) (hr : r ≤ 64 * (a + 1)) :
    N ≤ 64 * (1 + S) * (1 + x) * (a + 11 * (0 : ℕ) + 1) := by
  push_cast
  have h1 := mul_le_mul_of_nonneg_left hq hx
  have h2 := mul_le_mul_of_nonneg_left hr hS
  have h3 := mul_nonneg (mul_nonneg hS hx) ha
  have h4 := mul_nonneg hS hx
  linarith

theorem gray_acc (hr : BinaryRounding rd u) (hpc : PosConsts pc.exact) (kappa : Fl rd) (hk : 0 < kappa.val) :
    Acc u (inferInstance : PhotonAPI (Fl rd) (GrayOpacity (Fl rd))) (inferInstance : PhotonAPI ℝ (GrayOpacity ℝ))
      ⟨pc, kappa⟩ ⟨pc.exact, kappa.val⟩ 0 0 (pc.h.val / pc.kb.val) where
  S_nonneg := le_rfl
  K_pos := div_pos hpc.h hpc.kb
  spectral fn a rho temp nu rho' temp' nu' ha hs hρ ht hn := by
    have hk := PF.exact (u := u) kappa hk
    have hs : (2 * a + 3) * unit u ≤ 1 := by simpa using hs
    rw [x_eq hpc ht.1]
    have hx := (x_acc hr hpc ht hn).pos.le
    have hB := B_acc hr hpc ha hs ht hn
    have h1 := hρ.mul hr hk
    have h2 := h1.mul hr hB
    have h3 := (four_pi hr).mul hr h2
    cases fn
    · exact h1.mono hr (room le_rfl hx ha (p := a + 1) (q := 0) (r := 0) (by ring) (by linarith) (by linarith)
        (by linarith))
    · exact h1.mono hr (room le_rfl hx ha (p := a + 1) (q := 0) (r := 0) (by ring) (by linarith) (by linarith)
        (by linarith))
    · exact h2.mono hr (room le_rfl hx ha (p := 6 * a + 14) (q := 4 * a + 6) (r := 0) (by ring) (by linarith)
        (by linarith) (by linarith))
    · exact h3.mono hr (room le_rfl hx ha (p := 6 * a + 17) (q := 4 * a + 6) (r := 0) (by ring) (by linarith)
        (by linarith) (by linarith))
  thermal a temp nu temp' nu' ha hs ht hn := by
    have hs : (2 * a + 3) * unit u ≤ 1 := by simpa using hs
    rw [x_eq hpc ht.1]
    have hx := (x_acc hr hpc ht hn).pos.le
    exact (B_acc hr hpc ha hs ht hn).mono hr (room le_rfl hx ha (p := 5 * a + 12) (q := 4 * a + 6) (r := 0) (by ring)
      (by linarith) (by linarith) (by linarith))
  derivative a temp nu temp' nu' _ ha hs ht hn := by
    have hs : (2 * a + 3) * unit u ≤ 1 := by simpa using hs
    rw [x_eq hpc ht.1]
    have hx := (x_acc hr hpc ht hn).pos.le
    exact (dB_acc hr hpc ha hs ht hn).mono hr (room le_rfl hx ha (p := 10 * a + 23) (q := 4 * a + 6) (r := 0) (by ring)
      (by linarith) (by linarith) (by linarith))
  emissivity a rho temp rho' temp' ha hρ ht :=
    ((hρ.mul hr (PF.exact kappa hk)).mul hr (BT_acc hr hpc ht)).mono hr (by push_cast; linarith)
  number a rho temp rho' temp' ha hρ ht _ :=
    ((PF.exact kappa hk).mul hr (NT_acc hr hpc ht)).mono hr (by push_cast; linarith)
  totals a t t' ha ht := totals_acc hr hpc le_rfl ha ht

theorem prefac_acc (hr : BinaryRounding rd u) (hpc : PosConsts pc.exact) :
    PF u 12.5 (EPBremsstrahlungOpacity.prefac_ (⟨pc⟩ : EPBremsstrahlungOpacity (Fl rd)))
      (EPBremsstrahlungOpacity.prefac_ (⟨pc.exact⟩ : EPBremsstrahlungOpacity ℝ)) := by
  have hc := PF.exact (u := u) pc.c hpc.c
  have := (((PF.int hr 8 8 (by norm_num) (by norm_num) (by norm_num)).mul hr
    ((PF.exact pc.qe hpc.qe).powInt hr 6 6 (by norm_num) (by norm_num))).div hr
    ((PF.int hr 3 3 (by norm_num) (by norm_num) (by norm_num)).mul hr
    ((((PF.exact pc.me hpc.me).mul hr hc).mul hr hc).powInt hr 2 2 (by norm_num) (by norm_num)))).mul hr
    ((((PF.int hr 2 2 (by norm_num) (by norm_num) (by norm_num)).mul hr (PF.pi hr)).div hr
    (PF.int hr 3 3 (by norm_num) (by norm_num) (by norm_num))).sqrt hr)
  exact this.mono hr (by norm_num)

theorem theta_acc (hr : BinaryRounding rd u) (hpc : PosConsts pc.exact) (ht : PF u a temp temp') :
    PF u (a / 2 + 3) (sqrt (pc.kb * temp / (pc.me * pc.c * pc.c)))
      (sqrt (pc.exact.kb * temp' / (pc.exact.me * pc.exact.c * pc.exact.c))) := by
  have hc := PF.exact (u := u) pc.c hpc.c
  have := (((PF.exact pc.kb hpc.kb).mul hr ht).div hr (((PF.exact pc.me hpc.me).mul hr hc).mul hr hc)).sqrt hr
  exact this.mono hr (by linarith)

theorem ne_acc (hr : BinaryRounding rd u) (hpc : PosConsts pc.exact) (hρ : PF u a rho rho') :
    PF u (a + 4) (rho / EPBremsstrahlungOpacity.mmw_ (⟨pc⟩ : EPBremsstrahlungOpacity (Fl rd)) / lit 2)
      (rho' / EPBremsstrahlungOpacity.mmw_ (⟨pc.exact⟩ : EPBremsstrahlungOpacity ℝ) / lit 2) := by
  have h2 := PF.int hr 2 2 (by norm_num) (by norm_num) (by norm_num)
  have := (hρ.div hr (((PF.exact pc.mp hpc.mp).add hr (PF.exact pc.me hpc.me)).div hr h2)).div hr h2
  exact this.mono hr (by rw [max_self]; linarith)

theorem brems_acc (hr : BinaryRounding rd u) (hpc : PosConsts pc.exact) :
    Acc u (inferInstance : PhotonAPI (Fl rd) (EPBremsstrahlungOpacity (Fl rd)))
      (inferInstance : PhotonAPI ℝ (EPBremsstrahlungOpacity ℝ))
      ⟨pc⟩ ⟨pc.exact⟩ 0 0 (pc.h.val / pc.kb.val) where
  S_nonneg := le_rfl
  K_pos := div_pos hpc.h hpc.kb
  spectral fn a rho temp nu rho' temp' nu' ha hs hρ ht hn := by
    have hs : (2 * a + 3) * unit u ≤ 1 := by simpa using hs
    rw [x_eq hpc ht.1]
    have hX := x_acc hr hpc ht hn
    have hx := hX.pos.le
    have hB := B_acc hr hpc ha hs ht hn
    have hne := ne_acc hr hpc hρ
    have hm : 2 ≤ 5 * a + 12 + (pc.exact.h * nu' / (pc.exact.kb * temp')) * (4 * a + 6) := by
      have := mul_nonneg hx (show 0 ≤ 4 * a + 6 by linarith)
      linarith
    have h2 := (((((prefac_acc hr hpc).div hr (theta_acc hr hpc ht)).mul hr hne).mul hr hne).mul hr
      (hX.exp_neg hr hs)).mul hr (PF.dec hr 1.2 (by norm_num))
    have h3 := (four_pi hr).mul hr h2
    have h1 := ratio_acc hr h2 hB hm
    have h1' := ratio_acc hr (h3.div hr (four_pi hr)) hB hm
    cases fn
    · exact h1.mono hr (room le_rfl hx ha (p := 7.5 * a + 44.5) (q := 8 * a + 12) (r := 0) (by ring) (by linarith)
        (by linarith) (by linarith))
    · exact h1'.mono hr (room le_rfl hx ha (p := 7.5 * a + 50.5) (q := 8 * a + 12) (r := 0) (by ring) (by linarith)
        (by linarith) (by linarith))
    · exact h2.mono hr (room le_rfl hx ha (p := 2.5 * a + 30.5) (q := 4 * a + 6) (r := 0) (by ring) (by linarith)
        (by linarith) (by linarith))
    · exact h3.mono hr (room le_rfl hx ha (p := 2.5 * a + 33.5) (q := 4 * a + 6) (r := 0) (by ring) (by linarith)
        (by linarith) (by linarith))
  thermal := (gray_acc hr hpc ⟨1⟩ one_pos).thermal
  derivative := (gray_acc hr hpc ⟨1⟩ one_pos).derivative
  emissivity a rho temp rho' temp' ha hρ ht := by
    have hne := ne_acc hr hpc hρ
    have := ((((((((four_pi hr).mul hr (PF.exact pc.kb hpc.kb)).mul hr ht).div hr (PF.exact pc.h hpc.h)).mul hr
      (prefac_acc hr hpc)).div hr (theta_acc hr hpc ht)).mul hr hne).mul hr hne).mul hr (PF.dec hr 1.2 (by norm_num))
    exact this.mono hr (by push_cast; linarith)
  number a rho temp rho' temp' ha hρ ht h := absurd rfl h
  totals a t t' ha ht := totals_acc hr hpc le_rfl ha ht

/-- what the constructor of the power law has checked -/
theorem powerLaw_inv {R : Type} [Arith R] {pc : PC R} {k re te ne nr no rr ro tr tof : R} {st : Bool}
    {o : PowerLawOpacity R} (h : PowerLawOpacity.construct pc k re te ne nr no rr ro tr tof st = .ok o) :
    gt rr (lit 0) = true ∧ gt tr (lit 0) = true ∧ gt nr (lit 0) = true ∧ lt ro (lit 0) = false ∧
    lt tof (lit 0) = false ∧ lt no (lit 0) = false ∧
    o = { pc := pc, kappa0_ := k, rho_exp_ := re, temp_exp_ := te, rho_ref_ := rr, rho_off_ := ro, temp_ref_ := tr,
          temp_off_ := tof, nu_exp_ := ne, nu_ref_ := nr, nu_off_ := no, do_stim_emit_ := st } := by
  unfold PowerLawOpacity.construct at h
  split at h
  · cases h
  split at h
  · cases h
  split at h
  · cases h
  split at h
  · cases h
  split at h
  · cases h
  split at h
  · cases h
  cases h
  simp_all

/-- one factor of a power law -/
theorem factor_acc (hr : BinaryRounding rd u) {x off ref e : Fl rd} {x' : ℝ} (ha : 0 ≤ a) (hx : PF u a x x')
    (ho : 0 ≤ off.val) (hf : 0 < ref.val) :
    PF u (|e.val| * (a + 2) + 1) (pow ((x + off) / ref) e) (pow ((x' + off.val) / ref.val) e.val) :=
  (((hx.add_exact hr ha ho).div hr (PF.exact ref hf)).pow hr e).mono hr
    (by have := mul_le_mul_of_nonneg_left (show a + 1 + 0 + 1 ≤ a + 2 by linarith) (abs_nonneg e.val); linarith)

theorem rd_zero (hr : BinaryRounding rd u) : (lit 0 : Fl rd).val = 0 := by
  show rd ((0 : ℚ) : ℝ) = 0
  have := hr.ints 0 (by norm_num)
  push_cast at this ⊢
  exact this

theorem powerLaw_acc (hr : BinaryRounding rd u) (hpc : PosConsts pc.exact) {k re te ne nr no rr ro tr tof : Fl rd}
    {st : Bool} {o : PowerLawOpacity (Fl rd)} {o' : PowerLawOpacity ℝ} (hk : 0 < k.val)
    (ho : PowerLawOpacity.construct pc k re te ne nr no rr ro tr tof st = .ok o)
    (ho' : PowerLawOpacity.construct pc.exact k.val re.val te.val ne.val nr.val no.val rr.val ro.val tr.val tof.val st =
      .ok o') :
    Acc u (inferInstance : PhotonAPI (Fl rd) (PowerLawOpacity (Fl rd)))
      (inferInstance : PhotonAPI ℝ (PowerLawOpacity ℝ)) o o' 0 (|re.val| + |te.val| + |ne.val|)
      (pc.h.val / pc.kb.val) := by
  obtain ⟨-, -, -, -, -, -, rfl⟩ := powerLaw_inv ho
  obtain ⟨h1, h2, h3, h4, h5, h6, rfl⟩ := powerLaw_inv ho'
  have z : (lit 0 : ℝ) = 0 := by simp [areal]
  rw [gt, real_lt, z] at h1 h2 h3
  rw [Bool.eq_false_iff, Ne, real_lt, z, not_lt] at h4 h5 h6
  have hS : 0 ≤ |re.val| + |te.val| + |ne.val| := by positivity
  have hre := abs_nonneg re.val
  have hte := abs_nonneg te.val
  have hne := abs_nonneg ne.val
  have hpre : ∀ {a : ℝ} {rho temp : Fl rd} {rho' temp' : ℝ}, 0 ≤ a → PF u a rho rho' → PF u a temp temp' →
      PF u (4 + (|re.val| + |te.val|) * (a + 2)) (k * pow ((rho + ro) / rr) re * pow ((temp + tof) / tr) te)
        (k.val * pow ((rho' + ro.val) / rr.val) re.val * pow ((temp' + tof.val) / tr.val) te.val) := by
    intro a rho temp rho' temp' ha hρ ht
    exact (((PF.exact k hk).mul hr (factor_acc hr ha hρ h4 h1)).mul hr (factor_acc hr ha ht h5 h2)).mono hr
      (by ring_nf; rfl)
  have heq : eqb ne (lit 0 : Fl rd) = eqb ne.val (lit 0 : ℝ) := by
    show decide (ne.val = (lit 0 : Fl rd).val) = decide (ne.val = (lit 0 : ℝ))
    rw [rd_zero hr, z]
  exact {
    S_nonneg := hS
    K_pos := div_pos hpc.h hpc.kb
    spectral := by
      intro fn a rho temp nu rho' temp' nu' ha hs hρ ht hn
      have hs : (2 * a + 3) * unit u ≤ 1 := by simpa using hs
      rw [x_eq hpc ht.1]
      have hX := x_acc hr hpc ht hn
      have hx := hX.pos.le
      have hB := B_acc hr hpc ha hs ht hn
      have hst : PF u (2 * a + 4) (if st then -(expm1 (-(pc.h * nu / (pc.kb * temp)))) else lit 1 : Fl rd)
          (if st then -(expm1 (-(pc.exact.h * nu' / (pc.exact.kb * temp')))) else lit 1 : ℝ) := by
        cases st
        · exact (PF.int hr 1 1 (by norm_num) (by norm_num) (by norm_num)).mono hr (by linarith)
        · exact (hX.one_sub_exp hr).mono hr (by linarith)
      have h1 := hρ.mul hr (((hpre ha hρ ht).mul hr (factor_acc (e := ne) hr ha hn h6 h3)).mul hr hst)
      have h2 := h1.mul hr hB
      have h3 := (four_pi hr).mul hr h2
      cases fn
      · exact h1.mono hr (room hS hx ha (p := 3 * a + 12) (q := 0) (r := a + 2) (by ring) (by linarith) (by linarith)
          (by linarith))
      · exact h1.mono hr (room hS hx ha (p := 3 * a + 12) (q := 0) (r := a + 2) (by ring) (by linarith) (by linarith)
          (by linarith))
      · exact h2.mono hr (room hS hx ha (p := 8 * a + 25) (q := 4 * a + 6) (r := a + 2) (by ring) (by linarith)
          (by linarith) (by linarith))
      · exact h3.mono hr (room hS hx ha (p := 8 * a + 28) (q := 4 * a + 6) (r := a + 2) (by ring) (by linarith)
          (by linarith) (by linarith))
    thermal := by
      intro a temp nu temp' nu' ha hs ht hn
      have hs : (2 * a + 3) * unit u ≤ 1 := by simpa using hs
      rw [x_eq hpc ht.1]
      have hx := (x_acc hr hpc ht hn).pos.le
      exact (B_acc hr hpc ha hs ht hn).mono hr (room hS hx ha (p := 5 * a + 12) (q := 4 * a + 6) (r := 0) (by ring)
        (by linarith) (by linarith) (by linarith))
    derivative := by
      intro a temp nu temp' nu' _ ha hs ht hn
      have hs : (2 * a + 3) * unit u ≤ 1 := by simpa using hs
      rw [x_eq hpc ht.1]
      have hx := (x_acc hr hpc ht hn).pos.le
      exact (dB_acc hr hpc ha hs ht hn).mono hr (room hS hx ha (p := 10 * a + 23) (q := 4 * a + 6) (r := 0) (by ring)
        (by linarith) (by linarith) (by linarith))
    emissivity := by
      intro a rho temp rho' temp' ha hρ ht
      show SameEnd _ (PowerLawOpacity.Emissivity _ rho temp) (PowerLawOpacity.Emissivity _ rho' temp')
      simp only [PowerLawOpacity.Emissivity, heq]
      split
      · rfl
      · refine ((hρ.mul hr (hpre ha hρ ht)).mul hr (BT_acc hr hpc ht)).mono hr ?_
        push_cast
        have := mul_nonneg hS ha
        have := mul_nonneg hne ha
        linarith
    number := by
      intro a rho temp rho' temp' ha hρ ht
      show SameEnd _ (PowerLawOpacity.NumberEmissivity _ rho temp) (PowerLawOpacity.NumberEmissivity _ rho' temp')
      simp only [PowerLawOpacity.NumberEmissivity, heq]
      split
      · rfl
      · intro _
        refine ((hpre ha hρ ht).mul hr (NT_acc hr hpc ht)).mono hr ?_
        push_cast
        have := mul_nonneg hS ha
        have := mul_nonneg hne ha
        linarith
    totals := fun a t t' ha ht => totals_acc hr hpc hS ha ht }

end base

section wrapper
variable {O O' : Type} {i : PhotonAPI (Fl rd) O} {i' : PhotonAPI ℝ O'} {o : O} {o' : O'} {n : ℕ} {S K : ℝ}

theorem SameEnd.map {α β γ δ : Type} {P : α → β → Prop} {Q : γ → δ → Prop} {x : Outcome α} {y : Outcome β}
    {f : α → γ} {g : β → δ} (h : SameEnd P x y) (hfg : ∀ a b, P a b → Q (f a) (g b)) :
    SameEnd Q (x.map' f) (y.map' g) := by
  cases x <;> cases y <;> first | exact hfg _ _ h | exact h

theorem nonCGS_acc (hr : BinaryRounding rd u) (H : Acc u i i' o o' n S K) {t m l te : Fl rd} (h1 : 0 < t.val)
    (h2 : 0 < m.val) (h3 : 0 < l.val) (h4 : 0 < te.val) :
    Acc u (inferInstance : PhotonAPI (Fl rd) (NonCGSUnits (Fl rd) O))
      (inferInstance : PhotonAPI ℝ (NonCGSUnits ℝ O')) (NonCGSUnits.construct o t m l te)
      (NonCGSUnits.construct o' t.val m.val l.val te.val) (n + 1) S (K / (t.val * te.val)) := by
  have ht := PF.exact (u := u) t h1
  have hm := PF.exact (u := u) m h2
  have hl := PF.exact (u := u) l h3
  have hte := PF.exact (u := u) te h4
  have hrho := hm.div hr ((hl.mul hr hl).mul hr hl)
  have hfreq := (PF.int hr 1 1 (by norm_num) (by norm_num) (by norm_num)).div hr ht
  have hem := ((hl.mul hr ht).mul hr ht).div hr hm
  have hnum := ((hl.mul hr hl).mul hr hl).mul hr ht
  have hint := (ht.mul hr ht).div hr hm
  have hen := ((ht.mul hr ht).mul hr hl).div hr hm
  have hS := H.S_nonneg
  have hK := H.K_pos
  -- frequency and temperature seen by the wrapped object
  have hx : ∀ T ν : ℝ, 0 < T → K * (ν * (lit 1 / t.val)) / (T * te.val) = K / (t.val * te.val) * ν / T := by
    intro T ν hT
    rw [show (lit 1 : ℝ) = 1 by simp [areal]]
    field_simp
  have hroom : ∀ {x a c : ℝ}, 0 ≤ x → 0 ≤ a → c ≤ 7 → 64 * (1 + S) * (1 + x) * (a + 4 + 11 * n + 1) + c ≤
      64 * (1 + S) * (1 + x) * (a + 11 * ((n + 1 : ℕ) : ℝ) + 1) := by
    intro x a c hx ha hc
    push_cast
    have := mul_nonneg hS hx
    linarith
  have hroom' : ∀ {a c : ℝ}, 0 ≤ a → c ≤ 7 → 64 * (1 + S) * (a + 4 + 11 * n + 1) + c ≤
      64 * (1 + S) * (a + 11 * ((n + 1 : ℕ) : ℝ) + 1) := by
    intro a c ha hc
    push_cast
    linarith
  have hsm : ∀ {a : ℝ}, (2 * (a + 4 * ((n + 1 : ℕ) : ℝ)) + 3) * unit u ≤ 1 →
      (2 * (a + 4 + 4 * n) + 3) * unit u ≤ 1 := by
    intro a h
    push_cast at h
    rw [show a + 4 * ((n : ℝ) + 1) = a + 4 + 4 * n by ring] at h
    exact h
  exact {
    S_nonneg := hS
    K_pos := div_pos hK (mul_pos h1 h4)
    spectral := by
      intro fn a rho temp nu rho' temp' nu' ha hs hρ hT hν
      have a1 := (hρ.mul hr hrho).mono (m := a + 4) hr (by linarith)
      have a1' := (hrho.mul hr hρ).mono (m := a + 4) hr (by linarith)
      have a2 := (hT.mul hr hte).mono (m := a + 4) hr (by linarith)
      have a2' := (hte.mul hr hT).mono (m := a + 4) hr (by linarith)
      have a3 := (hν.mul hr hfreq).mono (m := a + 4) hr (by linarith)
      have hx0 : 0 ≤ K / (t.val * te.val) * nu' / temp' := by have := hν.1; have := hT.1; positivity
      have e := hx temp' nu' hT.1
      have e' : K * (nu' * (lit 1 / t.val)) / (te.val * temp') = K / (t.val * te.val) * nu' / temp' := by
        rw [mul_comm te.val]; exact e
      cases fn
      · have := (H.spectral .AbsorptionCoefficient (a + 4) _ _ _ _ _ _ (by linarith) (hsm hs) a1' a2' a3).mul hr hl
        refine PF.mono hr this ?_
        refine le_trans ?_ (hroom hx0 ha (show (1 : ℝ) ≤ 7 by norm_num))
        rw [← e']
        exact le_of_eq (by rw [add_zero])
      · have := (H.spectral .AngleAveragedAbsorptionCoefficient (a + 4) _ _ _ _ _ _ (by linarith) (hsm hs) a1 a2
          a3).mul hr hl
        refine PF.mono hr this ?_
        refine le_trans ?_ (hroom hx0 ha (show (1 : ℝ) ≤ 7 by norm_num))
        rw [← e]
        exact le_of_eq (by rw [add_zero])
      · have := (H.spectral .EmissivityPerNuOmega (a + 4) _ _ _ _ _ _ (by linarith) (hsm hs) a1 a2 a3).mul hr hem
        refine PF.mono hr this ?_
        refine le_trans ?_ (hroom hx0 ha (show (4 : ℝ) ≤ 7 by norm_num))
        rw [← e]
        exact le_of_eq (by rw [add_assoc]; congr 1; norm_num)
      · have := (H.spectral .EmissivityPerNu (a + 4) _ _ _ _ _ _ (by linarith) (hsm hs) a1 a2 a3).mul hr hem
        refine PF.mono hr this ?_
        refine le_trans ?_ (hroom hx0 ha (show (4 : ℝ) ≤ 7 by norm_num))
        rw [← e]
        exact le_of_eq (by rw [add_assoc]; congr 1; norm_num)
    thermal := by
      intro a temp nu temp' nu' ha hs hT hν
      have a2 := (hT.mul hr hte).mono (m := a + 4) hr (by linarith)
      have a3 := (hν.mul hr hfreq).mono (m := a + 4) hr (by linarith)
      have hx0 : 0 ≤ K / (t.val * te.val) * nu' / temp' := by have := hν.1; have := hT.1; positivity
      have := (H.thermal (a + 4) _ _ _ _ (by linarith) (hsm hs) a2 a3).mul hr hint
      refine PF.mono hr this ?_
      refine le_trans ?_ (hroom hx0 ha (show (3 : ℝ) ≤ 7 by norm_num))
      rw [← hx temp' nu' hT.1]
      exact le_of_eq (by rw [add_assoc]; congr 1; norm_num)
    derivative := fun a temp nu temp' nu' h0 => absurd h0 (by omega)
    emissivity := by
      intro a rho temp rho' temp' ha hρ hT
      have a1 := (hρ.mul hr hrho).mono (m := a + 4) hr (by linarith)
      have a2 := (hT.mul hr hte).mono (m := a + 4) hr (by linarith)
      refine SameEnd.map (H.emissivity (a + 4) _ _ _ _ (by linarith) a1 a2) fun b y h => ?_
      refine ((h.mul hr hem).mul hr ht).mono hr ?_
      exact le_trans (by linarith) (hroom' ha (show (5 : ℝ) ≤ 7 by norm_num))
    number := by
      intro a rho temp rho' temp' ha hρ hT
      have a1 := (hρ.mul hr hrho).mono (m := a + 4) hr (by linarith)
      have a2 := (hT.mul hr hte).mono (m := a + 4) hr (by linarith)
      refine SameEnd.map (H.number (a + 4) _ _ _ _ (by linarith) a1 a2) fun b y h hy => ?_
      have hy' : y ≠ infinity := by
        rintro rfl
        exact hy (zero_mul _)
      refine ((h hy').mul hr hnum).mono hr ?_
      exact le_trans (by linarith) (hroom' ha (show (4 : ℝ) ≤ 7 by norm_num))
    totals := by
      intro a T T' ha hT
      have a2 := (hT.mul hr hte).mono (m := a + 4) hr (by linarith)
      have a3 := (hT.div hr hen).mono (m := a + 4) hr (by linarith)
      obtain ⟨b1, b2, b3, -, b5⟩ := H.totals (a + 4) _ _ (by linarith) a2
      obtain ⟨-, -, -, b4, -⟩ := H.totals (a + 4) _ _ (by linarith) a3
      refine ⟨(((b1.mul hr hen).mul hr ht).div hr hl).mono hr ?_, ((((b2.mul hr hm).div hr hrho).mul hr ht).div hr
        hl).mono hr ?_, (b3.mul hr hen).mono hr ?_, (b4.div hr hte).mono hr ?_, ((b5.mul hr hm).div hr hrho).mono hr ?_⟩
      · exact le_trans (by linarith) (hroom' ha (show (6 : ℝ) ≤ 7 by norm_num))
      · exact le_trans (by linarith) (hroom' ha (show (7 : ℝ) ≤ 7 by norm_num))
      · exact le_trans (by linarith) (hroom' ha (show (4 : ℝ) ≤ 7 by norm_num))
      · exact le_trans (by linarith) (hroom' ha (show (1 : ℝ) ≤ 7 by norm_num))
      · exact le_trans (by linarith) (hroom' ha (show (5 : ℝ) ≤ 7 by norm_num)) }

theorem twin_acc (hr : BinaryRounding rd u) (H : Twin rd O O' i i' o o' n S K) : Acc u i i' o o' n S K := by
  induction H with
  | gray pc kappa hpc hk => exact gray_acc hr hpc kappa hk
  | epbremss pc hpc => exact brems_acc hr hpc
  | powerLaw pc _ _ _ _ _ _ _ _ _ _ _ o o' hpc hk ho ho' => exact powerLaw_acc hr hpc hk ho ho'
  | nonCGS t m l te h1 h2 h3 h4 _ ih => exact nonCGS_acc hr ih h1 h2 h3 h4
  | vScaleFree _ ih | vGray _ ih | vPowerLawScaleFree _ ih | vPowerLaw _ ih | vEPBremss _ ih | vNonCGSGray _ ih
  | vNonCGSPowerLaw _ ih | vNonCGSEPBremss _ ih =>
    exact ⟨ih.S_nonneg, ih.K_pos, fun fn => by have := ih.spectral fn; cases fn <;> exact this, ih.thermal, ih.derivative,
      ih.emissivity, ih.number, ih.totals⟩

end wrapper
end Opac.Accuracy
