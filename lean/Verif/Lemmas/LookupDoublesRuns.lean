import Verif.Lemmas.LookupDoubles
import Verif.Lemmas.DoublesPhotons
import Verif.Props.LookupAccuracy

/-! The lookup functions in double precision are the lookup functions with rounding alone. -/

namespace Opac.Doubles
open Arith Classical Outcome Spiner Photons Neutrinos Tables
open SpinerOpacity (tiny kelvinPerMeV hzPerMeV)

/-! ## Coordinates -/

theorem sim_dbl {l h : ℤ} {x : ℝ} (hx : Bits l h x) : Sim l h (dbl x) (⟨x⟩ : Fl rd64) := ⟨rfl, hx⟩

theorem sim_abs {l h : ℤ} {a : IE binary64} {b : Fl rd64} (s : Sim l h a b) : Sim l h (Arith.abs a) (Arith.abs b) := by
  have e : |b.val| = b.val := abs_of_pos s.pos
  refine ⟨?_, ?_⟩
  · show XR.lift _ _ _ a.val = .fin |b.val|
    rw [s.1]; rfl
  · show Bits l h |b.val|
    rw [e]; exact s.2

theorem sim_dmin : Sim (-1022) (-1022) (dmin : IE binary64) (dmin : Fl rd64) := by
  have := Sim.round (a := (dmin : IE binary64)) (x := 2 ^ (-1022 : ℤ)) (l := -1022) (h := -1022) ⟨le_rfl, le_rfl⟩ (by norm_num)
    (by norm_num) rfl
  rwa [show (⟨rd64 (2 ^ (-1022 : ℤ))⟩ : Fl rd64) = dmin by rw [rd64_two (by norm_num)]; rfl] at this

/-- `log10(|x| + 10 DBL_MIN)` -/
theorem sim_log {l h : ℤ} {a : IE binary64} {b : Fl rd64} (s : Sim l h a b) (hl : -1021 ≤ l) (hh : h ≤ 1000) :
    SimG 112 10 (Arith.log10 (Arith.abs a + lit 10 * dmin)) (Arith.log10 (Arith.abs b + lit 10 * dmin)) := by
  have s1 := sim_abs s
  have s2 : Sim (-1019) (-1018) (lit 10 * dmin : IE binary64) (lit 10 * dmin : Fl rd64) := (Sim.lit 10 3 4).mul sim_dmin
  refine sim_log10 (a := Arith.abs a + lit 10 * dmin) (z := (Arith.abs b).val + (lit 10 * dmin : Fl rd64).val) (l := l)
    (h := 1001) ⟨?_, ?_⟩ (by omega) (by norm_num) ?_
  · linarith [s1.2.1, s2.pos]
  · have h1 := s1.2.2.trans (zle hh)
    have h2 := s2.2.2.trans (zle (show (-1018 : ℤ) ≤ 1000 by norm_num))
    rw [show (1001 : ℤ) = 1000 + 1 by norm_num, zpow_add_one₀ (by norm_num)]
    generalize (2 : ℝ) ^ (1000 : ℤ) = t at *
    linarith
  · show IE.round binary64 (XR.add _ _) = _
    rw [s1.1, s2.1]; rfl

theorem sim_ToLog {l h : ℤ} {a : IE binary64} {b : Fl rd64} (s : Sim l h a b) (hl : -1021 ≤ l) (hh : h ≤ 1000) :
    SimG 112 10 (ToLog a) (ToLog b) := sim_log s hl hh

theorem sim_meanLog {l h : ℤ} {a : IE binary64} {b : Fl rd64} (s : Sim l h a b) (hl : -1021 ≤ l) (hh : h ≤ 1000) :
    SimG 112 10 (MeanTables.toLog_ a) (MeanTables.toLog_ b) := by
  have := sim_log s hl hh
  unfold MeanTables.toLog_
  rw [show (10.0 : ℚ) = 10 by norm_num]
  exact this

theorem zero_ie : (lit 0 : IE binary64).val = .fin 0 := by
  show binary64.rd ((0 : ℚ) : ℝ) = _
  rw [Rat.cast_zero, binary64.rd_zero]

theorem zero_fl : (lit 0 : Fl rd64).val = 0 := by
  show rd64 ((0 : ℚ) : ℝ) = 0
  have := rd64_binary.err 0
  simpa using this

theorem sim_add_zero {l h : ℤ} {a : IE binary64} {b : Fl rd64} (s : Sim l h a b) (hl : -1022 ≤ l) (hh : h ≤ 1023) :
    Sim l h (a + lit 0) (b + lit 0) := by
  have := Sim.round (a := a + lit 0) (x := b.val + (lit 0 : Fl rd64).val) (l := l) (h := h)
    (by rw [zero_fl, add_zero]; exact s.2) hl hh (by
      show IE.round binary64 (XR.add _ _) = _
      rw [s.1, zero_ie, zero_fl]; rfl)
  exact this

theorem sim_sub_zero {l h : ℤ} {a : IE binary64} {b : Fl rd64} (s : Sim l h a b) (hl : -1022 ≤ l) (hh : h ≤ 1023) :
    Sim l h (a - lit 0) (b - lit 0) := by
  have := Sim.round (a := a - lit 0) (x := b.val - (lit 0 : Fl rd64).val) (l := l) (h := h)
    (by rw [zero_fl, sub_zero]; exact s.2) hl hh (by
      show IE.round binary64 (XR.add _ (XR.neg _)) = _
      rw [s.1, zero_ie, zero_fl]
      show binary64.rd (b.val + -0) = _
      rw [neg_zero, add_zero, sub_zero])
  exact this

theorem sim_max_zero {l h : ℤ} {a : IE binary64} {b : Fl rd64} (s : Sim l h a b) :
    stdMax a (-(lit 0)) = a ∧ stdMax b (-(lit 0)) = b := by
  have hp := s.pos
  constructor
  · unfold stdMax
    have : Arith.lt a (-(lit 0)) = false := by
      show XR.lt a.val (XR.neg (lit 0 : IE binary64).val) = false
      rw [s.1, zero_ie]
      simp [XR.lt, XR.neg]; linarith
    simp [this]
  · unfold stdMax
    have : Arith.lt b (-(lit 0)) = false := by
      show decide (b.val < -(lit 0 : Fl rd64).val) = false
      rw [zero_fl]; simp; linarith
    simp [this]

theorem sim_tableLog {l h : ℤ} {a : IE binary64} {b : Fl rd64} (s : Sim l h a b) (hl : -1021 ≤ l) (hh : h ≤ 1000) :
    SimG 112 10 (SpinerOpacity.toLog_ a) (SpinerOpacity.toLog_ b) := by
  have := sim_log (sim_add_zero s (by omega) (by omega)) hl hh
  unfold SpinerOpacity.toLog_ SpinerOpacity.EPS
  rw [(sim_max_zero s).1, (sim_max_zero s).2, show (10.0 : ℚ) = 10 by norm_num]
  exact this

theorem sim_K2MeV : Sim (-35) (-32) (SpinerOpacity.K2MeV : IE binary64) (SpinerOpacity.K2MeV : Fl rd64) :=
  (Sim.lit 1 0 0).div ((Sim.lit 1.e9 29 30).mul (Sim.lit 11.604525006 3 5))

theorem sim_Hz2MeV {pc : PC ℝ} (hh : Bits (-90) (-80) pc.h) (he : Bits (-45) (-35) pc.eV) :
    Sim (-75) (-54) (SpinerOpacity.Hz2MeV pc.dbl) (⟨pc.h⟩ / (lit 1e6 * ⟨pc.eV⟩) : Fl rd64) :=
  (sim_dbl hh).div ((Sim.lit 1e6 19 20).mul (sim_dbl he))

/-- ten to the power of an interpolated logarithm -/
theorem sim_pow10 {k h : ℤ} {a : IE binary64} {b : Fl rd64} (s : SimG k h a b) (hb : |b.val| ≤ 201) :
    Sim (-670) 670 (Arith.pow (lit 10) a) (Arith.pow (lit 10) b) := by
  have e : (lit 10 : Fl rd64).val = 10 := by
    show rd64 ((10 : ℚ) : ℝ) = 10
    have := rd64_binary.ints 10 (by norm_num)
    simpa using this
  have h1 : 0 ≤ Real.logb 2 10 := Real.logb_nonneg (by norm_num) (by norm_num)
  have h2 : Real.logb 2 10 ≤ 10 / 3 := by
    have h3 : 3 * Real.logb 2 10 ≤ 10 := by
      rw [show (3 : ℝ) * Real.logb 2 10 = Real.logb 2 (10 ^ (3 : ℕ)) by rw [Real.logb_pow]; norm_num,
        Real.logb_le_iff_le_rpow (by norm_num) (by norm_num)]
      norm_num
    linarith
  have hb' := abs_le.1 hb
  refine (Sim.lit 10 3 4).pow s.val ?_ ?_
  · rw [e]; push_cast; nlinarith
  · rw [e]; push_cast; nlinarith

theorem tiny_le : tiny ≤ 2 ^ (-134 : ℤ) := by
  unfold tiny
  have h : (2 : ℝ) ^ (-1022 : ℤ) ≤ 2 ^ (-138 : ℤ) := zle (by norm_num)
  have h' : (2 : ℝ) ^ (-134 : ℤ) = 16 * 2 ^ (-138 : ℤ) := by norm_num
  rw [h']
  have : (0 : ℝ) < 2 ^ (-138 : ℤ) := by positivity
  linarith

/-- positive numbers inside a table -/
theorem bits_of_coord {x : ℝ} (hx : 0 < x) (h0 : -40 ≤ Real.logb 10 (x + tiny)) (h1 : Real.logb 10 (x + tiny) ≤ 40) :
    Bits (-134) 133 x := by
  have ht := SpinerOpacity.tiny_pos
  rw [Real.le_logb_iff_rpow_le (by norm_num) (by linarith)] at h0
  rw [Real.logb_le_iff_le_rpow (by norm_num) (by linarith)] at h1
  have e1 : (2 : ℝ) ^ (-133 : ℤ) ≤ (10 : ℝ) ^ (-40 : ℝ) := by
    rw [show (-40 : ℝ) = ((-40 : ℤ) : ℝ) by norm_num, Real.rpow_intCast]; norm_num
  have e2 : (10 : ℝ) ^ (40 : ℝ) ≤ 2 ^ (133 : ℤ) := by
    rw [show (40 : ℝ) = ((40 : ℤ) : ℝ) by norm_num, Real.rpow_intCast]; norm_num
  have e3 : (2 : ℝ) ^ (-133 : ℤ) = 2 * 2 ^ (-134 : ℤ) := by norm_num
  have := tiny_le
  constructor
  · rw [e3] at e1
    generalize (2 : ℝ) ^ (-134 : ℤ) = t at *
    linarith
  · exact le_trans (by linarith) (h1.trans e2)

theorem bits_of_mean {x : ℝ} (hx : 0 < x) (h0 : -40 ≤ meanCoord x) (h1 : meanCoord x ≤ 40) : Bits (-134) 133 x := by
  unfold meanCoord at h0 h1
  rw [abs_of_pos hx] at h0 h1
  exact bits_of_coord hx h0 h1

theorem bits_of_table {x : ℝ} (hx : 0 < x) (h0 : -40 ≤ tableCoord x) (h1 : tableCoord x ≤ 40) : Bits (-134) 133 x := by
  unfold tableCoord at h0 h1
  rw [max_eq_left hx.le] at h0 h1
  exact bits_of_coord hx h0 h1

theorem bits_mul {l h l' h' : ℤ} {x y : ℝ} (hx : Bits l h x) (hy : Bits l' h' y) : Bits (l + l') (h + h') (x * y) := by
  have px : 0 < x := lt_of_lt_of_le (by positivity) hx.1
  have py : 0 < y := lt_of_lt_of_le (by positivity) hy.1
  constructor
  · rw [zpow_add₀ (by norm_num)]; exact mul_le_mul hx.1 hy.1 (by positivity) px.le
  · rw [zpow_add₀ (by norm_num)]; exact mul_le_mul hx.2 hy.2 py.le (by positivity)

theorem bits_kelvin {T : ℝ} (h : Bits (-134) 133 (T / kelvinPerMeV)) : Bits (-101) 167 T := by
  have hk : Bits 33 34 kelvinPerMeV := by unfold kelvinPerMeV; constructor <;> norm_num
  have := bits_mul h hk
  rw [div_mul_cancel₀ _ (by unfold kelvinPerMeV; norm_num)] at this
  exact this

theorem bits_hertz {pc : PC ℝ} (hh : Bits (-90) (-80) pc.h) (he : Bits (-45) (-35) pc.eV) {nu : ℝ}
    (h : Bits (-134) 133 (nu / hzPerMeV pc)) : Bits (-80) 208 nu := by
  have ph : 0 < pc.h := lt_of_lt_of_le (by positivity) hh.1
  have pe : 0 < pc.eV := lt_of_lt_of_le (by positivity) he.1
  have hk : Bits 54 75 (hzPerMeV pc) := by
    unfold hzPerMeV
    have e1 := mul_le_mul_of_nonneg_left hh.2 (show (0 : ℝ) ≤ 2 ^ (54 : ℤ) by positivity)
    have e2 := mul_le_mul_of_nonneg_left he.1 (show (0 : ℝ) ≤ 1000000 by norm_num)
    have e3 := mul_le_mul_of_nonneg_left he.2 (show (0 : ℝ) ≤ 1000000 by norm_num)
    have e4 := mul_le_mul_of_nonneg_left hh.1 (show (0 : ℝ) ≤ 2 ^ (75 : ℤ) by positivity)
    constructor
    · rw [le_div_iff₀ ph]
      exact e1.trans (le_trans (by norm_num) e2)
    · rw [div_le_iff₀ ph]
      exact e3.trans (le_trans (by norm_num) e4)
  have := bits_mul h hk
  rw [div_mul_cancel₀ _ (by unfold hzPerMeV; positivity)] at this
  exact this

/-! ## Tables -/

theorem smooth {d : DataBox ℝ} {axes : List ℕ} (T : DoubleTable d axes) : Smooth (dfl d) axes 40 (1 / 100) 200 1 where
  grid k hk := by
    obtain ⟨h, e⟩ := T.grid k hk
    refine ⟨⟨h.two, h.many, h.low, h.high, by norm_num, ?_⟩, e⟩
    have := h.spacing
    show 1 / 100 * ((d.grid k).N - 1 : ℝ) ≤ (d.grid k).max - (d.grid k).min
    linarith
  size is v h := (T.entry is v h).2
  step := T.step

theorem sim_Ye {Ye : ℝ} {g : Grid ℝ} (H : DoubleAxis g) (h : TableNumber Ye) (h0 : g.min ≤ Ye) (h1 : Ye ≤ g.max) :
    SimG 112 10 (dbl Ye) (⟨Ye⟩ : Fl rd64) := by
  refine ⟨rfl, TableNumber.mult h, ?_⟩
  have a := abs_le.1 H.low
  have b := abs_le.1 H.high
  show |Ye| ≤ _
  rw [abs_le]; norm_num
  constructor <;> linarith

theorem within {g : Grid ℝ} (H : DoubleAxis g) {x : ℝ} (h0 : g.min ≤ x) (h1 : x ≤ g.max) : -40 ≤ x ∧ x ≤ 40 := by
  have a := abs_le.1 H.low
  have b := abs_le.1 H.high
  constructor <;> linarith

/-- the two runs return the same number, of moderate size -/
def Same (f : Outcome (IE binary64)) (f' : Outcome (Fl rd64)) : Prop :=
  ∃ b, f' = ok b ∧ f = ok (dbl b.val) ∧ Sim (-900) 900 (dbl b.val) b

theorem dbl_eq {a : IE binary64} {x : ℝ} (h : a.val = .fin x) : a = dbl x := by
  cases a; simp only at h; rw [h]; rfl

theorem same_of_sim {l h : ℤ} {f : Outcome (IE binary64)} {f' : Outcome (Fl rd64)} {a : IE binary64} {b : Fl rd64}
    (hf : f = ok a) (hf' : f' = ok b) (s : Sim l h a b) (hl : -900 ≤ l := by norm_num) (hh : h ≤ 900 := by norm_num) :
    Same f f' := by
  have e := dbl_eq s.1
  exact ⟨b, hf', by rw [hf, e], rfl, (s.mono hl hh).2⟩

theorem hτ : 40 * (2 : ℝ) ^ (-53 : ℤ) * 40 / (1 / 100) ≤ 1 / 100 := by norm_num

theorem small {y' y c : ℝ} (hc : c ≤ 6)
    (h : |y' - y| ≤ c * (3 * (40 * 2 ^ (-53 : ℤ) * 40 / (1 / 100)) * 1 + 12 * 2 ^ (-53 : ℤ) * 200)) (hy : |y| ≤ 200) :
    |y'| ≤ 201 := by
  have h1 : c * (3 * (40 * (2 : ℝ) ^ (-53 : ℤ) * 40 / (1 / 100)) * 1 + 12 * 2 ^ (-53 : ℤ) * 200) ≤ 6 * (1 / 6) :=
    mul_le_mul hc (by norm_num) (by positivity) (by norm_num)
  have := abs_sub_abs_le_abs_sub y' y
  linarith

theorem photon_same {lk : DataBox ℝ} (D : DoubleTable lk [2, 1]) (hd : lk.rank = 3) {g : ℤ} (g0 : 0 ≤ g) (g1 : g < lk.dim 1)
    {rho T : ℝ} (hρ : 0 < rho) (hT : 0 < T)
    (i2 : (lk.grid 2).min ≤ meanCoord rho ∧ meanCoord rho ≤ (lk.grid 2).max)
    (i1 : (lk.grid 1).min ≤ meanCoord T ∧ meanCoord T ≤ (lk.grid 1).max) :
    Same (MGTables.GroupCoefficient_ lk.dbl (dbl rho) (dbl T) g) (MGTables.GroupCoefficient_ (dfl lk) ⟨rho⟩ ⟨T⟩ g) := by
  have S := smooth D
  have hu : (2 : ℝ) ^ (-53 : ℤ) ≤ 1 / 100 := by norm_num
  have hu0 : (0 : ℝ) ≤ 2 ^ (-53 : ℤ) := by positivity
  have A2 := (D.grid 2 (by simp)).1
  have A1 := (D.grid 1 (by simp)).1
  have w2 := within A2 i2.1 i2.2
  have w1 := within A1 i1.1 i1.2
  have bρ := bits_of_mean hρ w2.1 w2.2
  have bT := bits_of_mean hT w1.1 w1.2
  obtain ⟨y', y, h1, -, h3, h4⟩ := Accuracy.interp3_err S hd rd64_binary hu hτ
    (along (S.grid 2 (by simp)).1 hu0 (by norm_num) (mean_coord (x := ⟨rho⟩) rd64_binary hu hρ) i2.1 i2.2)
    (along (S.grid 1 (by simp)).1 hu0 (by norm_num) (mean_coord (x := ⟨T⟩) rd64_binary hu hT) i1.1 i1.2) g0 g1
  obtain ⟨a, ha, s⟩ := Both.interp3 D (sim_ToLog (sim_dbl bρ) (by norm_num) (by norm_num))
    (sim_ToLog (sim_dbl bT) (by norm_num) (by norm_num)) g y' h1
  have sp := sim_pow10 s (small (by norm_num) h3 h4)
  have sm := (sim_dbl bρ).mul sp
  refine same_of_sim (a := dbl rho * FromLog a) (b := (⟨rho⟩ : Fl rd64) * FromLog y') ?_ ?_ sm
  · rw [MGTables.GroupCoefficient_, ha]; rfl
  · rw [MGTables.GroupCoefficient_, h1]; rfl

theorem mean_same {lk : DataBox ℝ} (D : DoubleTable lk [3, 2, 1]) (hd : lk.rank = 4) (h3 : lk.dim 1 = 3) {sp : RadiationType}
    {d : ℕ} (hsp : SpeciesIndex sp d) {rho T Ye : ℝ} (hρ : 0 < rho) (hT : 0 < T) (hY : TableNumber Ye)
    (i3 : (lk.grid 3).min ≤ meanCoord rho ∧ meanCoord rho ≤ (lk.grid 3).max)
    (i2 : (lk.grid 2).min ≤ meanCoord T ∧ meanCoord T ≤ (lk.grid 2).max)
    (i1 : (lk.grid 1).min ≤ Ye ∧ Ye ≤ (lk.grid 1).max) :
    Same (MeanTables.lookup lk.dbl (dbl rho) (dbl T) (dbl Ye) sp) (MeanTables.lookup (dfl lk) ⟨rho⟩ ⟨T⟩ ⟨Ye⟩ sp) := by
  have S := smooth D
  have hu : (2 : ℝ) ^ (-53 : ℤ) ≤ 1 / 100 := by norm_num
  have hu0 : (0 : ℝ) ≤ 2 ^ (-53 : ℤ) := by positivity
  have A3 := (D.grid 3 (by simp)).1
  have A2 := (D.grid 2 (by simp)).1
  have A1 := (D.grid 1 (by simp)).1
  have w3 := within A3 i3.1 i3.2
  have w2 := within A2 i2.1 i2.2
  have bρ := bits_of_mean hρ w3.1 w3.2
  have bT := bits_of_mean hT w2.1 w2.2
  obtain ⟨hd3, hidx⟩ := hsp.spec
  have hYe : |Ye - Ye| ≤ (2 : ℝ) ^ (-53 : ℤ) * (4 + |Ye|) := by rw [sub_self, abs_zero]; positivity
  obtain ⟨y', y, h1, -, h5, h4⟩ := Accuracy.interp4_err S hd rd64_binary hu hτ
    (along (S.grid 3 (by simp)).1 hu0 (by norm_num) (mean_coord' (x := ⟨rho⟩) rd64_binary hu hρ) i3.1 i3.2)
    (along (S.grid 2 (by simp)).1 hu0 (by norm_num) (mean_coord' (x := ⟨T⟩) rd64_binary hu hT) i2.1 i2.2)
    (along (S.grid 1 (by simp)).1 hu0 (by norm_num) (x' := ⟨Ye⟩) hYe i1.1 i1.2) (n := d) (by omega)
    (by show (d : ℤ) < lk.dim 1; omega)
  obtain ⟨a, ha, s⟩ := Both.interp4 D (sim_meanLog (sim_dbl bρ) (by norm_num) (by norm_num))
    (sim_meanLog (sim_dbl bT) (by norm_num) (by norm_num)) (sim_Ye A1 hY i1.1 i1.2) d y' h1
  have sp' := sim_pow10 s (small (by norm_num) h5 h4)
  have sm := (sim_dbl bρ).mul sp'
  refine same_of_sim (a := dbl rho * MeanTables.fromLog_ a) (b := (⟨rho⟩ : Fl rd64) * MeanTables.fromLog_ y') ?_ ?_ sm
  · simp only [MeanTables.lookup, hidx]; rw [ha]; rfl
  · simp only [MeanTables.lookup, hidx]; rw [h1]; rfl

theorem total_same {lk : DataBox ℝ} (D : DoubleTable lk [3, 2, 1]) (hd : lk.rank = 4) (h3 : lk.dim 1 = 3) {sp : RadiationType}
    {d : ℕ} (hsp : SpeciesIndex sp d) {rho T Ye : ℝ} (hρ : 0 < rho) (hT : 0 < T) (hY : TableNumber Ye)
    (i3 : (lk.grid 3).min ≤ tableCoord rho ∧ tableCoord rho ≤ (lk.grid 3).max)
    (i2 : (lk.grid 2).min ≤ tableCoord (T / kelvinPerMeV) ∧ tableCoord (T / kelvinPerMeV) ≤ (lk.grid 2).max)
    (i1 : (lk.grid 1).min ≤ Ye ∧ Ye ≤ (lk.grid 1).max) :
    Same (SpinerOpacity.lookup4 lk.dbl (dbl rho) (dbl T) (dbl Ye) sp)
      (SpinerOpacity.lookup4 (dfl lk) ⟨rho⟩ ⟨T⟩ ⟨Ye⟩ sp) := by
  have S := smooth D
  have hu : (2 : ℝ) ^ (-53 : ℤ) ≤ 1 / 100 := by norm_num
  have hu0 : (0 : ℝ) ≤ 2 ^ (-53 : ℤ) := by positivity
  have A3 := (D.grid 3 (by simp)).1
  have A2 := (D.grid 2 (by simp)).1
  have A1 := (D.grid 1 (by simp)).1
  have w3 := within A3 i3.1 i3.2
  have w2 := within A2 i2.1 i2.2
  have bρ := bits_of_table hρ w3.1 w3.2
  have bT := bits_kelvin (bits_of_table (div_pos hT SpinerOpacity.kelvin_pos) w2.1 w2.2)
  obtain ⟨hd3, hidx⟩ := hsp.spec
  have hYe : |Ye - Ye| ≤ (2 : ℝ) ^ (-53 : ℤ) * (4 + |Ye|) := by rw [sub_self, abs_zero]; positivity
  obtain ⟨y', y, h1, -, h5, h4⟩ := Accuracy.interp4_err S hd rd64_binary hu hτ
    (along (S.grid 3 (by simp)).1 hu0 (by norm_num)
      (table_coord rd64_binary hu (Accuracy.PF.exact (⟨rho⟩ : Fl rd64) hρ) le_rfl (by norm_num)) i3.1 i3.2)
    (along (S.grid 2 (by simp)).1 hu0 (by norm_num)
      (table_coord rd64_binary hu (kelvin_pf (x := ⟨T⟩) rd64_binary hT) (by norm_num) le_rfl) i2.1 i2.2)
    (along (S.grid 1 (by simp)).1 hu0 (by norm_num) (x' := ⟨Ye⟩) hYe i1.1 i1.2) (n := d) (by omega)
    (by show (d : ℤ) < lk.dim 1; omega)
  obtain ⟨a, ha, s⟩ := Both.interp4 D (sim_tableLog (sim_dbl bρ) (by norm_num) (by norm_num))
    (sim_tableLog ((sim_dbl bT).mul sim_K2MeV) (by norm_num) (by norm_num)) (sim_Ye A1 hY i1.1 i1.2) d y' h1
  have sp' := sim_sub_zero (sim_pow10 s (small (by norm_num) h5 h4)) (by norm_num) (by norm_num)
  refine same_of_sim (a := SpinerOpacity.fromLog_ a) (b := SpinerOpacity.fromLog_ y') ?_ ?_ sp'
  · simp only [SpinerOpacity.lookup4, hidx]; rw [ha]; rfl
  · simp only [SpinerOpacity.lookup4, hidx]; rw [h1]; rfl

/-- the same tabulated neutrino opacity with rounding alone -/
noncomputable def ofl (o : SpinerOpacity ℝ) : SpinerOpacity (Fl rd64) :=
  ⟨⟨o.dist.NSPECIES, fl o.dist.pc⟩, fl o.pc, dfl o.lalphanu_, dfl o.ljnu_, dfl o.lJ_, dfl o.lJYe_⟩

theorem spectral_same {lk : DataBox ℝ} (D : DoubleTable lk [4, 3, 2, 0]) (o : SpinerOpacity ℝ)
    (hh : Bits (-90) (-80) o.pc.h) (he : Bits (-45) (-35) o.pc.eV) (hpc : PosConsts o.pc)
    (hd : lk.rank = 5) (h3 : lk.dim 2 = 3) {sp : RadiationType}
    {d : ℕ} (hsp : SpeciesIndex sp d) {rho T Ye nu : ℝ} (hρ : 0 < rho) (hT : 0 < T) (hν : 0 < nu) (hY : TableNumber Ye)
    (i4 : (lk.grid 4).min ≤ tableCoord rho ∧ tableCoord rho ≤ (lk.grid 4).max)
    (i3 : (lk.grid 3).min ≤ tableCoord (T / kelvinPerMeV) ∧ tableCoord (T / kelvinPerMeV) ≤ (lk.grid 3).max)
    (i2 : (lk.grid 2).min ≤ Ye ∧ Ye ≤ (lk.grid 2).max)
    (i0 : (lk.grid 0).min ≤ tableCoord (nu / hzPerMeV o.pc) ∧ tableCoord (nu / hzPerMeV o.pc) ≤ (lk.grid 0).max) :
    ∃ b, (ofl o).lookup5 (dfl lk) ⟨rho⟩ ⟨T⟩ ⟨Ye⟩ sp ⟨nu⟩ = ok b ∧
      o.dbl.lookup5 lk.dbl (dbl rho) (dbl T) (dbl Ye) sp (dbl nu) = ok (dbl b.val) ∧ Sim (-670) 670 (dbl b.val) b := by
  have S := smooth D
  have hu : (2 : ℝ) ^ (-53 : ℤ) ≤ 1 / 100 := by norm_num
  have hu0 : (0 : ℝ) ≤ 2 ^ (-53 : ℤ) := by positivity
  have pe : 0 < o.pc.eV := lt_of_lt_of_le (by positivity) he.1
  have A4 := (D.grid 4 (by simp)).1
  have A3 := (D.grid 3 (by simp)).1
  have A2 := (D.grid 2 (by simp)).1
  have A0 := (D.grid 0 (by simp)).1
  have w4 := within A4 i4.1 i4.2
  have w3 := within A3 i3.1 i3.2
  have w0 := within A0 i0.1 i0.2
  have bρ := bits_of_table hρ w4.1 w4.2
  have bT := bits_kelvin (bits_of_table (div_pos hT SpinerOpacity.kelvin_pos) w3.1 w3.2)
  have hhz : 0 < hzPerMeV o.pc := by have := hpc.h; unfold hzPerMeV; positivity
  have bν := bits_hertz hh he (bits_of_table (div_pos hν hhz) w0.1 w0.2)
  obtain ⟨hd3, hidx⟩ := hsp.spec
  have hYe : |Ye - Ye| ≤ (2 : ℝ) ^ (-53 : ℤ) * (4 + |Ye|) := by rw [sub_self, abs_zero]; positivity
  obtain ⟨y', y, h1, -, h5, h4⟩ := Accuracy.interp5_err S hd rd64_binary hu hτ
    (along (S.grid 4 (by simp)).1 hu0 (by norm_num)
      (table_coord rd64_binary hu (Accuracy.PF.exact (⟨rho⟩ : Fl rd64) hρ) le_rfl (by norm_num)) i4.1 i4.2)
    (along (S.grid 3 (by simp)).1 hu0 (by norm_num)
      (table_coord rd64_binary hu (kelvin_pf (x := ⟨T⟩) rd64_binary hT) (by norm_num) le_rfl) i3.1 i3.2)
    (along (S.grid 2 (by simp)).1 hu0 (by norm_num) (x' := ⟨Ye⟩) hYe i2.1 i2.2)
    (along (S.grid 0 (by simp)).1 hu0 (by norm_num)
      (table_coord rd64_binary hu (hertz_pf (x := ⟨nu⟩) (pc := fl o.pc) rd64_binary hpc pe hν) (by norm_num) (by norm_num))
      i0.1 i0.2) (n := d) (by omega) (by show (d : ℤ) < lk.dim 2; omega)
  obtain ⟨a, ha, s⟩ := Both.interp5 D (sim_tableLog (sim_dbl bρ) (by norm_num) (by norm_num))
    (sim_tableLog ((sim_dbl bT).mul sim_K2MeV) (by norm_num) (by norm_num)) (sim_Ye A2 hY i2.1 i2.2)
    (sim_tableLog ((sim_Hz2MeV hh he).mul (sim_dbl bν)) (by norm_num) (by norm_num)) d y' h1
  have sp' := sim_sub_zero (sim_pow10 s (small (by norm_num) h5 h4)) (by norm_num) (by norm_num)
  refine ⟨SpinerOpacity.fromLog_ y', ?_, ?_, rfl, sp'.2⟩
  · simp only [SpinerOpacity.lookup5, hidx]; rw [show (ofl o).pc = fl o.pc from rfl, h1]; rfl
  · simp only [SpinerOpacity.lookup5, hidx]; rw [show o.dbl.pc = o.pc.dbl from rfl, ha]
    exact congrArg ok (dbl_eq sp'.1)

end Opac.Doubles
