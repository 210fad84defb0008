import Verif.Lemmas.LookupDoublesRuns
import Verif.Lemmas.MeanFinite

/-! Lookups of finite tables in double precision are finite. -/

namespace Opac.Doubles
open Arith Classical Outcome Spiner Photons Neutrinos Tables Accuracy

/-- a computed coordinate close to a point of the axis -/
def OnAxis (x : IE binary64) (g : Grid ℝ) : Prop :=
  ∃ (x' : Fl rd64) (y : ℝ), SimG 112 10 x x' ∧ |x'.val - y| ≤ 2 ^ (-53 : ℤ) * (4 + |y|) ∧ g.min ≤ y ∧ y ≤ g.max

theorem axis_fl {g : Grid ℝ} (A : DoubleAxis g) : Axis (gfl g) 40 (1 / 100) := by
  refine ⟨A.two, A.many, A.low, A.high, by norm_num, ?_⟩
  have := A.spacing
  show 1 / 100 * (g.N - 1 : ℝ) ≤ g.max - g.min
  linarith

/-- the weight -/
theorem weight_range {g : Grid ℝ} (A : DoubleAxis g) {x : IE binary64} (hx : OnAxis x g) :
    ∃ ω, (g.dbl.w1 x).val = .fin ω ∧ -1e-9 ≤ ω ∧ ω ≤ 1 + 1e-9 := by
  obtain ⟨x', y, sx, hy, h0, h1⟩ := hx
  have hu : (2 : ℝ) ^ (-53 : ℤ) ≤ 1 / 100 := by norm_num
  have L := along (axis_fl A) (by positivity) (by norm_num) hy h0 h1
  obtain ⟨X, e, G, he, hτ⟩ := L.ok
  have hq := G.q_range h0 h1
  have hi := G.idx x'
  have hqe := G.q_err rd64_binary hu he h0 h1 hτ
  have hw := abs_le.1 (G.w_err rd64_binary hu he h0 h1 hτ hi.nonneg hi.le)
  have hwt := hi.weight hqe hq.1 hq.2
  have ht : 40 * (2 : ℝ) ^ (-53 : ℤ) * 40 / (1 / 100) ≤ 5e-10 := by norm_num
  refine ⟨_, (sim_w1 A sx).val, ?_, ?_⟩
  · show _ ≤ ((gfl g).inv_dx * (x' - (lit (((gfl g).index x' : ℤ) : ℚ) * (gfl g).dx + (gfl g).min))).val
    linarith [hw.1, hwt.1]
  · show ((gfl g).inv_dx * (x' - (lit (((gfl g).index x' : ℤ) : ℚ) * (gfl g).dx + (gfl g).min))).val ≤ _
    linarith [hw.2, hwt.2]

/-- a finite number between bounds is returned -/
def Between (m M : ℝ) (f : Outcome (IE binary64)) : Prop := ∃ a v, f = ok a ∧ a.val = .fin v ∧ m ≤ v ∧ v ≤ M

theorem sub_val {a b : IE binary64} {x y : ℝ} (ha : a.val = .fin x) (hb : b.val = .fin y) : (a - b).val = binary64.rd (x - y) := by
  show IE.round binary64 (XR.add a.val (XR.neg b.val)) = _
  rw [ha, hb, sub_eq_add_neg]; rfl

theorem mul_val {a b : IE binary64} {x y : ℝ} (ha : a.val = .fin x) (hb : b.val = .fin y) : (a * b).val = binary64.rd (x * y) := by
  show IE.round binary64 (XR.mul a.val b.val) = _
  rw [ha, hb]; rfl

theorem lerp_between {g : Grid ℝ} (A : DoubleAxis g) {x : IE binary64} (hx : OnAxis x g) {m M : ℝ} (hm : -310 ≤ m) (hM : M ≤ 310)
    {f : ℤ → Outcome (IE binary64)} (hf : ∀ i, 0 ≤ i → i < g.N → Between m M (f i)) :
    Between (m - 1e-6) (M + 1e-6) (DataBox.lerp g.dbl x f) := by
  obtain ⟨ω, eω, w0, w1⟩ := weight_range A hx
  obtain ⟨i0, i1⟩ := g.dbl.index_range x A.two
  have hN : g.dbl.N = g.N := rfl
  obtain ⟨a, v, ea, ev, va, vb⟩ := hf (g.dbl.index x) i0 (by omega)
  obtain ⟨b, w, eb, ew, wa, wb⟩ := hf (g.dbl.index x + 1) (by omega) (by omega)
  have h1 : (lit 1 : IE binary64).val = .fin 1 := by
    have := lit_nat (n := 1) (by norm_num); simpa using this
  have q1 : |1 - ω| ≤ 1000 := by rw [abs_le]; constructor <;> linarith
  have s1 := (sub_val h1 eω).trans (rd_mid q1)
  have r1 := abs_le.1 (near_mid q1)
  generalize double64.near (1 - ω) = p at s1 r1
  have hv : |v| ≤ 310 := abs_le.2 ⟨by linarith, by linarith⟩
  have hw : |w| ≤ 310 := abs_le.2 ⟨by linarith, by linarith⟩
  have hp : |p| ≤ 2 := by rw [abs_le]; constructor <;> linarith
  have hω : |ω| ≤ 2 := by rw [abs_le]; constructor <;> linarith
  have q2 : |p * v| ≤ 1000 := by
    rw [abs_mul]; exact (mul_le_mul hp hv (abs_nonneg _) (by norm_num)).trans (by norm_num)
  have q3 : |ω * w| ≤ 1000 := by
    rw [abs_mul]; exact (mul_le_mul hω hw (abs_nonneg _) (by norm_num)).trans (by norm_num)
  have s2 := (mul_val s1 ev).trans (rd_mid q2)
  have s3 := (mul_val eω ew).trans (rd_mid q3)
  have r2 := abs_le.1 (near_mid q2)
  have r3 := abs_le.1 (near_mid q3)
  -- the sum before rounding
  have d : |p * v - (1 - ω) * v| ≤ 1e-12 * 310 := by
    rw [← sub_mul, abs_mul]
    exact mul_le_mul (abs_le.2 r1) hv (abs_nonneg _) (by norm_num)
  have d' := abs_le.1 d
  have up : (1 - ω) * v + ω * w ≤ M + 1e-9 * 620 := by
    have e : (1 - ω) * v + ω * w = M - (1 - ω) * (M - v) - ω * (M - w) := by ring
    have k1 : -(1e-9 * 620) ≤ (1 - ω) * (M - v) + ω * (M - w) := by
      have g1 : 0 ≤ M - v := by linarith
      have g2 : 0 ≤ M - w := by linarith
      have g3 : M - v ≤ 620 := by linarith
      have g4 : M - w ≤ 620 := by linarith
      rcases le_total 0 ω with hω0 | hω0
      · have := mul_nonneg hω0 g2
        have : -(1e-9) * (M - v) ≤ (1 - ω) * (M - v) := mul_le_mul_of_nonneg_right (by linarith) g1
        nlinarith
      · have : 0 ≤ (1 - ω) * (M - v) := mul_nonneg (by linarith) g1
        have : -(1e-9) * (M - w) ≤ ω * (M - w) := mul_le_mul_of_nonneg_right w0 g2
        nlinarith
    linarith
  have lo : m - 1e-9 * 620 ≤ (1 - ω) * v + ω * w := by
    have e : (1 - ω) * v + ω * w = m + (1 - ω) * (v - m) + ω * (w - m) := by ring
    have k1 : -(1e-9 * 620) ≤ (1 - ω) * (v - m) + ω * (w - m) := by
      have g1 : 0 ≤ v - m := by linarith
      have g2 : 0 ≤ w - m := by linarith
      have g3 : v - m ≤ 620 := by linarith
      have g4 : w - m ≤ 620 := by linarith
      rcases le_total 0 ω with hω0 | hω0
      · have := mul_nonneg hω0 g2
        have : -(1e-9) * (v - m) ≤ (1 - ω) * (v - m) := mul_le_mul_of_nonneg_right (by linarith) g1
        nlinarith
      · have : 0 ≤ (1 - ω) * (v - m) := mul_nonneg (by linarith) g1
        have : -(1e-9) * (w - m) ≤ ω * (w - m) := mul_le_mul_of_nonneg_right w0 g2
        nlinarith
    linarith
  generalize double64.near (p * v) = P at s2 r2
  generalize double64.near (ω * w) = Q at s3 r3
  have q4 : |P + Q| ≤ 1000 := by rw [abs_le]; constructor <;> linarith
  have s4 := (add_val s2 s3).trans (rd_mid q4)
  have r4 := abs_le.1 (near_mid q4)
  refine ⟨_, double64.near (P + Q), by unfold DataBox.lerp; rw [ea, eb]; rfl, s4, ?_, ?_⟩
  · linarith [r4.1]
  · linarith [r4.2]

theorem near_coord {g : Grid ℝ} (A : DoubleAxis g) {x : ℝ} (hx : 0 < x) (h0 : g.min ≤ meanCoord x) (h1 : meanCoord x ≤ g.max) :
    OnAxis (ToLog (dbl x)) g ∧ OnAxis (MeanTables.toLog_ (dbl x)) g ∧ Bits (-134) 133 x := by
  have w := within A h0 h1
  have b := bits_of_mean hx w.1 w.2
  have hu : (2 : ℝ) ^ (-53 : ℤ) ≤ 1 / 100 := by norm_num
  exact ⟨⟨_, _, sim_ToLog (sim_dbl b) (by norm_num) (by norm_num), mean_coord (x := ⟨x⟩) rd64_binary hu hx, h0, h1⟩,
    ⟨_, _, sim_meanLog (sim_dbl b) (by norm_num) (by norm_num), mean_coord' (x := ⟨x⟩) rd64_binary hu hx, h0, h1⟩, b⟩

theorem near_Ye {g : Grid ℝ} (A : DoubleAxis g) {Ye : ℝ} (hY : TableNumber Ye) (h0 : g.min ≤ Ye) (h1 : Ye ≤ g.max) :
    OnAxis (dbl Ye) g :=
  ⟨⟨Ye⟩, Ye, sim_Ye A hY h0 h1, by rw [sub_self, abs_zero]; positivity, h0, h1⟩

theorem pow_between {f : Outcome (IE binary64)} {m M : ℝ} (h : Between m M f) (hm : -307.1 ≤ m) (hM : M ≤ 129) :
    ∃ a b, f = ok a ∧ Sim (-1021) 430 (FromLog a) b := by
  obtain ⟨a, v, ea, ev, h0, h1⟩ := h
  obtain ⟨b, sb⟩ := fromLog_sim ev (l := -1021) (h := 430) (by norm_num; linarith) (by norm_num; linarith)
  exact ⟨a, b, ea, sb⟩

theorem rho_pow {rho : ℝ} (hr : Bits (-134) 133 rho) {a : IE binary64} {b : Fl rd64} (s : Sim (-1021) 430 a b) :
    Nn 563 (dbl rho * a) :=
  ((Nn.sim (sim_dbl hr)).mul (Nn.sim s)).mono (by norm_num)

/-- photons -/
theorem photon_lookup {e : DataBox (IE binary64)} {g2 g1 : Grid ℝ} (A2 : DoubleAxis g2) (A1 : DoubleAxis g1) (e2 : e.grid 2 = g2.dbl)
    (e1 : e.grid 1 = g1.dbl) {g : ℤ}
    (hr : ∀ i j : ℤ, 0 ≤ i → i < g2.N → 0 ≤ j → j < g1.N → Between (-307) 128 (e.read [i, j, g])) {rho T : ℝ} (hρ : 0 < rho) (hT : 0 < T)
    (i2 : g2.min ≤ meanCoord rho ∧ meanCoord rho ≤ g2.max) (i1 : g1.min ≤ meanCoord T ∧ meanCoord T ≤ g1.max) :
    ∃ a, MGTables.GroupCoefficient_ e (dbl rho) (dbl T) g = ok a ∧ Nn 563 a := by
  obtain ⟨n2, -, b2⟩ := near_coord A2 hρ i2.1 i2.2
  obtain ⟨n1, -, -⟩ := near_coord A1 hT i1.1 i1.2
  have h := lerp_between A2 n2 (by norm_num) (by norm_num) (fun i i0 i1 =>
    lerp_between A1 n1 (by norm_num) (by norm_num) (fun j j0 j1 => hr i j i0 i1 j0 j1))
  rw [← e2, ← e1] at h
  obtain ⟨a, b, ea, sb⟩ := pow_between h (by norm_num) (by norm_num)
  refine ⟨_, ?_, rho_pow b2 sb⟩
  have ea' : e.interp3 (ToLog (dbl rho)) (ToLog (dbl T)) g = ok a := ea
  rw [MGTables.GroupCoefficient_, ea']; rfl

/-- neutrinos -/
theorem neutrino_lookup {e : DataBox (IE binary64)} {g3 g2 g1 : Grid ℝ} (A3 : DoubleAxis g3) (A2 : DoubleAxis g2) (A1 : DoubleAxis g1)
    (e3 : e.grid 3 = g3.dbl) (e2 : e.grid 2 = g2.dbl) (e1 : e.grid 1 = g1.dbl) {sp : RadiationType} {d : ℕ} (hsp : SpeciesIndex sp d)
    (hr : ∀ i j k : ℤ, 0 ≤ i → i < g3.N → 0 ≤ j → j < g2.N → 0 ≤ k → k < g1.N → Between (-307) 128 (e.read [i, j, k, d]))
    {rho T Ye : ℝ} (hρ : 0 < rho) (hT : 0 < T) (hY : TableNumber Ye)
    (i3 : g3.min ≤ meanCoord rho ∧ meanCoord rho ≤ g3.max) (i2 : g2.min ≤ meanCoord T ∧ meanCoord T ≤ g2.max)
    (i1 : g1.min ≤ Ye ∧ Ye ≤ g1.max) :
    ∃ a, MeanTables.lookup e (dbl rho) (dbl T) (dbl Ye) sp = ok a ∧ Nn 563 a := by
  obtain ⟨-, n3, b3⟩ := near_coord A3 hρ i3.1 i3.2
  obtain ⟨-, n2, -⟩ := near_coord A2 hT i2.1 i2.2
  have n1 := near_Ye A1 hY i1.1 i1.2
  have h := lerp_between A3 n3 (by norm_num) (by norm_num) (fun i i0 i1 =>
    lerp_between A2 n2 (by norm_num) (by norm_num) (fun j j0 j1 =>
      lerp_between A1 n1 (by norm_num) (by norm_num) (fun k k0 k1 => hr i j k i0 i1 j0 j1 k0 k1)))
  rw [← e3, ← e2, ← e1] at h
  obtain ⟨a, b, ea, sb⟩ := pow_between h (by norm_num) (by norm_num)
  obtain ⟨-, hidx⟩ := hsp.spec
  refine ⟨_, ?_, rho_pow b3 sb⟩
  have ea' : e.interp4 (MeanTables.toLog_ (dbl rho)) (MeanTables.toLog_ (dbl T)) (dbl Ye) d = ok a := ea
  simp only [MeanTables.lookup, hidx]
  rw [ea']; rfl

end Opac.Doubles
