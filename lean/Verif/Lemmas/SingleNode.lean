import Verif.Lemmas.MeanFill
import Verif.Lemmas.Means
import Verif.Lemmas.NeutrinoMeans
import Verif.Spec.Tables

/-!
# Axes with a single node

The spacing of such an axis is infinite or not a number, and so its node is not a number.
-/

namespace Opac.Tables
open Arith Outcome Spec Spiner
/-! ## Axes with a single node -/

section nan

theorem nan_add (x : XR) : (XR.nan + x : XR) = .nan := by cases x <;> rfl
theorem add_nan (x : XR) : (x + XR.nan : XR) = .nan := by cases x <;> rfl
theorem nan_mul (x : XR) : (XR.nan * x : XR) = .nan := by cases x <;> rfl
theorem mul_nan (x : XR) : (x * XR.nan : XR) = .nan := by cases x <;> rfl
theorem nan_div (x : XR) : (XR.nan / x : XR) = .nan := by cases x <;> rfl
theorem div_nan (x : XR) : (x / XR.nan : XR) = .nan := by cases x <;> rfl

/-- the only node of an axis is not a number -/
theorem single_node (lo hi : ℝ) : (⟨.fin lo, .fin hi, 1⟩ : Grid XR).x 0 = .nan := by
  have e : (⟨.fin lo, .fin hi, 1⟩ : Grid XR).dx = XR.signInf (hi - lo) := by
    show ((XR.fin hi - XR.fin lo) / lit (((1 : ℤ) : ℚ) - 1) : XR) = _
    rw [XR.fin_sub]
    show XR.div (.fin (hi - lo)) (.fin (((((1 : ℤ) : ℚ) - 1 : ℚ)) : ℝ)) = _
    simp [XR.div]
  have e0 : (lit ((0 : ℕ) : ℚ) : XR) = .fin 0 := by simp [axr]
  unfold Grid.x
  rw [e, e0]
  have : (XR.fin 0 * XR.signInf (hi - lo) : XR) = .nan := by
    show XR.mul _ _ = _
    unfold XR.signInf
    split_ifs <;> simp [XR.mul, XR.signInf]
  rw [this, nan_add]

theorem foldl_nan {α : Type} {f : XR × XR → α → XR × XR} {l : List α} (hl : l ≠ []) (a : XR × XR)
    (h : ∀ a s, (f a s).1 = a.1 + XR.nan) : (l.foldl f a).1 = .nan := by
  have keep : ∀ (l : List α) (a : XR × XR), a.1 = .nan → (l.foldl f a).1 = .nan := by
    intro l
    induction l with
    | nil => exact fun a h => h
    | cons s l ih => exact fun a _ => ih _ (by rw [h, add_nan])
  cases l with
  | nil => exact absurd rfl hl
  | cons s l => exact keep l _ (by rw [h, add_nan])

theorem weights_nan (pc : PC XR) (nu : XR) : (Photons.ThermalWeightsAtNu pc .nan nu).1 = .nan := by
  have he : (exp (-(XR.nan : XR)) : XR) = .nan := rfl
  have hl : Arith.lt (XR.nan : XR) Photons.wien_tail_x = false := rfl
  unfold Photons.ThermalWeightsAtNu
  simp only [mul_nan, div_nan, hl, he, Bool.false_eq_true, if_false]

theorem means_nan (pc : PC XR) (coef : XR → XR → XR → XR) (rho T lo hi : XR) {N : ℤ} (hN : 2 ≤ N)
    (h : rho = .nan ∨ T = .nan) : (Photons.MGTables.GroupMeans pc coef rho T lo hi N).1 = .nan := by
  have hl : Photons.GroupFrequencySamples pc T lo hi N ≠ [] := by
    unfold Photons.GroupFrequencySamples
    intro h
    have := congrArg List.length h
    simp at this; omega
  have hn : (Photons.MGTables.GroupNumerators pc coef rho T lo hi N).1 = .nan := by
    unfold Photons.MGTables.GroupNumerators
    refine foldl_nan hl _ fun a s => ?_
    dsimp only
    congr 1
    rcases h with rfl | rfl
    · rw [div_nan, nan_mul, nan_mul]
    · rw [weights_nan, mul_nan, nan_mul]
  show Robust.ratio _ _ = _
  rw [hn]
  unfold Robust.ratio
  rw [nan_div]

theorem first_step {S : Type} {n : ℤ} (hn : 1 ≤ n) {body : ℕ → S → Outcome S} {s t : S} (h : forLoopM n body s = ok t) :
    ∃ s', body 0 s = ok s' := by
  unfold forLoopM at h
  obtain ⟨m, hm⟩ : ∃ m : ℕ, n.toNat = m + 1 := ⟨n.toNat - 1, by omega⟩
  rw [hm, List.range_succ_eq_map, List.foldlM_cons, bind_eq_ok] at h
  obtain ⟨s', h1, -⟩ := h
  exact ⟨s', h1⟩

theorem no_single {pc : PC XR} {junk : ℕ → XR} {coef : XR → XR → XR → XR} {lRhoMin lRhoMax lTMin lTMax : ℝ} {NRho NT : ℤ}
    (hR : 1 ≤ NRho) (hT : 1 ≤ NT) (h1 : NRho = 1 ∨ NT = 1) {b : List XR} {ng NNu : ℤ} (t : Photons.MGTables XR) :
    Photons.MGTables.Impl_ pc junk coef (.fin lRhoMin) (.fin lRhoMax) NRho (.fin lTMin) (.fin lTMax) NT b ng NNu ≠ ok t := by
  intro h
  unfold Photons.MGTables.Impl_ at h
  by_cases hN : NNu < 2
  · simp [hN] at h
  simp only [hN, if_false, bind_eq_ok, pure_def] at h
  obtain ⟨_, hv, gb, -, s, hs, -⟩ := h
  have ha := (Photons.Validate_ok_iff b ng).1 hv
  have hg := ha.some_group
  obtain ⟨s1, e1⟩ := first_step hT hs
  obtain ⟨s2, e2⟩ := first_step hR e1
  obtain ⟨s3, e3⟩ := first_step (by omega) e2
  unfold Photons.MGTables.FillCell at e3
  simp only [bind_eq_ok] at e3
  obtain ⟨lo, -, hi, -, P, -, Q, -, e⟩ := e3
  have hfrom : Photons.FromLog (XR.nan : XR) = .nan := by
    unfold Photons.FromLog
    show XR.pow (.fin ((10 : ℚ) : ℝ)) .nan = _
    have : (((10 : ℚ)) : ℝ) ≠ 1 := by norm_num
    simp [XR.pow]
  rw [means_nan pc coef _ _ lo hi (by omega : 2 ≤ NNu) (by
    rcases h1 with rfl | rfl
    · left
      exact (congrArg Photons.FromLog (single_node lRhoMin lRhoMax)).trans hfrom
    · right
      exact (congrArg Photons.FromLog (single_node lTMin lTMax)).trans hfrom)] at e
  have hlog : isNaN (Photons.ToLog (XR.nan : XR)) = true := rfl
  rw [hlog, Bool.true_or, if_pos rfl] at e
  simp at e

end nan

section number
open Neutrinos

/-! A single node in tables of neutrino means: the values stored are numbers, so nothing stops the constructor. -/

def NonNeg (x : XR) : Prop := ∃ r : ℝ, 0 ≤ r ∧ x = .fin r
def Pos (x : XR) : Prop := ∃ r : ℝ, 0 < r ∧ x = .fin r

theorem Pos.nonNeg {x : XR} : Pos x → NonNeg x := fun ⟨r, h, e⟩ => ⟨r, h.le, e⟩
theorem NonNeg.add {x y : XR} : NonNeg x → NonNeg y → NonNeg (x + y) := by
  rintro ⟨a, ha, rfl⟩ ⟨b, hb, rfl⟩; exact ⟨a + b, by positivity, XR.fin_add a b⟩
theorem NonNeg.mul {x y : XR} : NonNeg x → NonNeg y → NonNeg (x * y) := by
  rintro ⟨a, ha, rfl⟩ ⟨b, hb, rfl⟩; exact ⟨a * b, by positivity, XR.fin_mul a b⟩
theorem NonNeg.div {x y : XR} : NonNeg x → Pos y → NonNeg (x / y) := by
  rintro ⟨a, ha, rfl⟩ ⟨b, hb, rfl⟩; exact ⟨a / b, by positivity, XR.fin_div hb.ne'⟩
theorem NonNeg.ratio {x y : XR} : NonNeg x → NonNeg y → NonNeg (Robust.ratio x y) := by
  rintro ⟨a, ha, rfl⟩ ⟨b, hb, rfl⟩
  have := SMALL_pos
  exact ⟨_, by positivity, XR.fin_ratio hb⟩
theorem Pos.add {x y : XR} : Pos x → Pos y → Pos (x + y) := by
  rintro ⟨a, ha, rfl⟩ ⟨b, hb, rfl⟩; exact ⟨a + b, by positivity, XR.fin_add a b⟩
theorem Pos.mul {x y : XR} : Pos x → Pos y → Pos (x * y) := by
  rintro ⟨a, ha, rfl⟩ ⟨b, hb, rfl⟩; exact ⟨a * b, by positivity, XR.fin_mul a b⟩
theorem nonNeg_lit {q : ℚ} (h : 0 ≤ q) : NonNeg (lit q : XR) := ⟨q, by exact_mod_cast h, rfl⟩
theorem pos_lit {q : ℚ} (h : 0 < q) : Pos (lit q : XR) := ⟨q, by exact_mod_cast h, rfl⟩
theorem pos_exp {x : XR} (h : ∃ r, x = .fin r) : Pos (exp x) := by
  obtain ⟨r, rfl⟩ := h; exact ⟨_, Real.exp_pos r, rfl⟩
theorem pos_fromLog {x : XR} (h : ∃ r, x = .fin r) : Pos (MeanTables.fromLog_ x) := by
  obtain ⟨r, rfl⟩ := h
  exact ⟨10 ^ r, by positivity, by unfold MeanTables.fromLog_; simp only [axr]; rw [XR.fin_pow (by norm_num)]; norm_num⟩
theorem number_toLog {x : XR} (h : NonNeg x) : isNaN (MeanTables.toLog_ x) = false := by
  obtain ⟨r, hr, rfl⟩ := h
  unfold MeanTables.toLog_
  simp only [axr]
  rw [XR.fin_log10 (by positivity)]
  rfl

theorem node_finite (lo hi : ℝ) {N : ℤ} (hN : 2 ≤ N) (i : ℕ) : ∃ r, (⟨.fin lo, .fin hi, N⟩ : Grid XR).x i = .fin r := by
  have h : ((((N : ℚ) - 1 : ℚ)) : ℝ) ≠ 0 := by
    have : (1 : ℝ) < N := by exact_mod_cast hN
    push_cast; linarith
  refine ⟨(i : ℚ) * ((hi - lo) / (((N : ℚ) - 1 : ℚ) : ℝ)) + lo, ?_⟩
  unfold Grid.x Grid.dx
  simp only [axr]
  rw [XR.fin_div h]
  simp only [axr]

open Photons in
theorem pos_pc {pc : PC XR} {h k c : ℝ} (hpc : FinitePC pc h k c) : Pos pc.h ∧ Pos pc.kb ∧ Pos pc.c :=
  ⟨⟨h, hpc.h_pos, hpc.h_eq⟩, ⟨k, hpc.k_pos, hpc.k_eq⟩, ⟨c, hpc.c_pos, hpc.c_eq⟩⟩

open Photons in
theorem weights_nonNeg {pc : PC XR} {h k c : ℝ} (hpc : FinitePC pc h k c) {n : ℤ} (hn : 0 ≤ n) {T nu : XR} (hT : Pos T)
    (hnu : Pos nu) : NonNeg ((⟨n, pc⟩ : FermiDirac XR).ThermalDistributionOfTNu T nu) ∧
      NonNeg ((⟨n, pc⟩ : FermiDirac XR).DThermalDistributionOfTNuDT T nu) := by
  obtain ⟨ph, pk, pcc⟩ := pos_pc hpc
  have hn' : NonNeg (lit (n : ℚ) : XR) := nonNeg_lit (by exact_mod_cast hn)
  have l1 : Pos (lit 1 : XR) := pos_lit (by norm_num)
  have l2 : Pos (lit 2 : XR) := pos_lit (by norm_num)
  obtain ⟨x, hx, ex⟩ := (ph.mul hnu).nonNeg.div (pk.mul hT)
  unfold FermiDirac.ThermalDistributionOfTNu FermiDirac.DThermalDistributionOfTNuDT
  simp only [ex]
  have e1 : Pos (exp (XR.fin x)) := pos_exp ⟨x, rfl⟩
  have e2 : Pos (exp (-XR.fin x)) := pos_exp ⟨-x, rfl⟩
  constructor
  · exact ((hn'.mul ((((l2.mul ph).mul hnu).mul hnu).mul hnu |>.nonNeg.div (pcc.mul pcc))).mul l1.nonNeg).div (e1.add l1)
  · exact ((hn'.mul (((((((l2.mul ph).mul ph).mul hnu).mul hnu).mul hnu).mul hnu).nonNeg.div
      ((((hT.mul hT).mul pcc).mul pcc).mul pk))).mul e2.nonNeg).div ((l1.add e2).mul (l1.add e2))

def NonNegSums (s : MeanTables.Sums XR) : Prop :=
  NonNeg s.planckNum ∧ NonNeg s.planckDenom ∧ NonNeg s.rosselandNum ∧ NonNeg s.rosselandDenom

theorem addSample_nonNeg {rho alpha B D nu d : XR} (h1 : Pos rho) (h2 : NonNeg alpha) (h3 : NonNeg B) (h4 : NonNeg D)
    (h5 : Pos nu) (h6 : NonNeg d) {s : MeanTables.Sums XR} (h : NonNegSums s) :
    NonNegSums (MeanTables.addSample rho alpha B D nu d s) := by
  obtain ⟨a, b, e, f⟩ := h
  refine ⟨a.add ((((h2.div h1).mul h3).mul h5.nonNeg).mul h6), b.add ((h3.mul h5.nonNeg).mul h6), ?_, ?_⟩
  · show NonNeg (if _ then _ else _)
    split
    · exact e.add ((((h1.nonNeg.ratio h2).mul h4).mul h5.nonNeg).mul h6)
    · exact e
  · show NonNeg (if _ then _ else _)
    split
    · exact f.add ((h4.mul h5.nonNeg).mul h6)
    · exact f

theorem means_nonNeg {s : MeanTables.Sums XR} (h : NonNegSums s) :
    NonNeg (MeanTables.means s).1 ∧ NonNeg (MeanTables.means s).2 := by
  obtain ⟨a, b, e, f⟩ := h
  refine ⟨a.ratio b, ?_⟩
  show NonNeg (if _ then _ else _)
  split
  · exact f.ratio e
  · exact nonNeg_lit le_rfl

theorem sampleNu_pos {lo hi : ℝ} (hlo : lo ≤ hi) {N : ℤ} (hN : 1 ≤ N) (i : ℕ) :
    Pos (MeanTables.sampleNu (.fin lo : XR) (.fin hi) N i) ∧
      NonNeg ((.fin hi - .fin lo : XR) / lit (N : ℚ)) := by
  have hN' : ((N : ℚ) : ℝ) ≠ 0 := by
    have : (0 : ℝ) < N := by exact_mod_cast hN
    push_cast; exact this.ne'
  have hN2 : (0 : ℝ) < ((N : ℚ) : ℝ) := by exact_mod_cast hN
  have e : ((.fin hi - .fin lo : XR) / lit (N : ℚ)) = .fin ((hi - lo) / ((N : ℚ) : ℝ)) := by
    simp only [axr]; exact XR.fin_div hN'
  refine ⟨?_, ⟨_, by have := sub_nonneg.2 hlo; positivity, e⟩⟩
  refine pos_fromLog ?_
  simp only [e]
  exact ⟨_, rfl⟩

end number

end Opac.Tables
