import Verif.Lemmas.Cmp
import Verif.Lemmas.Outcome
import Verif.Spec.Groups
import Verif.Model.MeanPhoton
import Mathlib.Data.Nat.Log
import Mathlib.Tactic.Linarith

/-! Helper lemmas for group bounds and group lookup. -/

namespace Opac.Photons
open Arith Outcome Spec

set_option linter.unusedSectionVars false

variable {R : Type} [Arith R]

theorem GroupBoundAt_ok {b : List R} {i : ℕ} {x : R} : GroupBoundAt b i = ok x ↔ b[i]? = some x := by
  unfold GroupBoundAt; cases h : b[i]? <;> simp

theorem GroupBoundAt_lt {b : List R} {i : ℕ} (h : i < b.length) : GroupBoundAt b i = ok b[i] := by
  rw [GroupBoundAt_ok]; exact List.getElem?_eq_getElem h

theorem ValidateOne_ok {b : List R} {n i : ℕ} :
    ValidateOne b n i = ok () ↔
      ∃ x, b[i]? = some x ∧ isNaN x = false ∧ (isInf x && lt x (lit 0)) = false ∧
        (i = 0 → le (lit 0) x = true) ∧ (i ≠ 0 → ∃ y, b[i - 1]? = some y ∧ lt y x = true) ∧
        (isFinite x = true ∨ i = n) := by
  unfold ValidateOne
  rw [bind_eq_ok]
  simp only [GroupBoundAt_ok]
  apply exists_congr; intro x
  apply and_congr_right; intro hx
  cases h1 : isNaN x <;> cases h2 : (isInf x && lt x (lit 0)) <;> simp
  by_cases hi : i = 0
  · subst hi
    simp only [ge]
    rcases Bool.eq_false_or_eq_true (le (lit 0) x) with h3 | h3 <;> simp [h3]
    by_cases hn : 0 = n <;> rcases Bool.eq_false_or_eq_true (isFinite x) with h4 | h4 <;> simp [hn, h4]
  · simp only [hi, if_false, false_imp_iff, true_and, not_false_iff, forall_const]
    rw [bind_eq_ok]
    simp only [GroupBoundAt_ok, gt]
    constructor
    · rintro ⟨y, hy, h⟩
      cases h3 : lt y x <;> simp [h3] at h
      refine ⟨⟨y, hy, h3⟩, ?_⟩
      by_cases hn : i = n <;> cases h4 : isFinite x <;> simp_all
    · rintro ⟨⟨y, hy, h3⟩, h⟩
      refine ⟨y, hy, ?_⟩
      simp [h3]
      intro h5
      simp_all

theorem ValidateOne_not_ub {b : List R} {n i : ℕ} (h : i < b.length) : ¬ (ValidateOne b n i).IsUB := by
  rintro ⟨w, hw⟩
  revert hw
  unfold ValidateOne
  rw [GroupBoundAt_lt h]
  by_cases hi : i = 0
  · simp only [hi, ok_bind, if_true]
    split_ifs <;> simp
  · rw [GroupBoundAt_lt (show i - 1 < b.length by omega)]
    simp only [hi, ok_bind, if_false]
    split_ifs <;> simp

variable [LawfulCmp R]

theorem acceptable_lt {b : List R} {n : ℤ} (h : AcceptableBounds b n) {i j : ℕ} (hij : i < j)
    (hj : (j : ℤ) ≤ n) {x y : R} (hx : b[i]? = some x) (hy : b[j]? = some y) : lt x y = true := by
  induction j generalizing y with
  | zero => omega
  | succ j ih =>
    have hlen := h.enough
    have hj' : j < b.length := by omega
    have hz : b[j]? = some b[j] := List.getElem?_eq_getElem hj'
    have h1 := h.increasing j _ y (by omega) hz hy
    rcases Nat.lt_succ_iff_lt_or_eq.1 hij with h2 | h2
    · exact LawfulCmp.lt_trans _ _ _ (ih h2 (by omega) hz) h1
    · subst h2; rw [hx] at hz; cases hz; exact h1

theorem acceptable_nonneg {b : List R} {n : ℤ} (h : AcceptableBounds b n) {i : ℕ}
    (hi : (i : ℤ) ≤ n) {x : R} (hx : b[i]? = some x) : le (lit 0) x = true := by
  rcases Nat.eq_zero_or_pos i with h0 | h0
  · subst h0; exact h.first_nonneg x hx
  · have hlen := h.enough
    have hz : b[0]? = some (b[0]'(by omega)) := List.getElem?_eq_getElem _
    exact LawfulCmp.le_of_lt _ _ (Cmp.lt_of_le_of_lt (h.first_nonneg _ hz) (acceptable_lt h h0 hi hz hx))

theorem Validate_ok_iff (b : List R) (n : ℤ) :
    ValidateGroupBounds b n = ok () ↔ AcceptableBounds b n := by
  unfold ValidateGroupBounds
  by_cases hn : n ≤ 0
  · simp only [hn, if_true]
    constructor
    · intro h; cases h
    · intro h; have := h.some_group; omega
  · simp only [hn, if_false]
    obtain ⟨m, rfl⟩ : ∃ m : ℕ, n = m := ⟨n.toNat, by omega⟩
    rw [show ((m : ℤ) + 1) = ((m + 1 : ℕ) : ℤ) by push_cast; rfl, forLoopM_unit_ok]
    simp only [Int.toNat_natCast]
    constructor
    · intro h
      have h' := fun i hi => ValidateOne_ok.1 (h i hi)
      refine ⟨by omega, ?_, ?_, ?_, ?_, ?_⟩
      · obtain ⟨x, hx, _⟩ := h' m (by omega)
        have := (List.getElem?_eq_some_iff.1 hx).1
        omega
      · intro i x hi hx
        obtain ⟨y, hy, h1, _⟩ := h' i (by omega)
        rw [hx] at hy; cases hy; exact h1
      · intro x hx
        obtain ⟨y, hy, _, _, h1, _⟩ := h' 0 (by omega)
        rw [hx] at hy; cases hy; exact h1 rfl
      · intro i x y hi hx hy
        obtain ⟨z, hz, _, _, _, h1, _⟩ := h' (i + 1) (by omega)
        rw [hy] at hz; cases hz
        obtain ⟨u, hu, h2⟩ := h1 (by omega)
        rw [Nat.add_sub_cancel] at hu
        rw [hx] at hu; cases hu; exact h2
      · intro i x hi hx
        obtain ⟨z, hz, _, _, _, _, h1⟩ := h' i (by omega)
        rw [hx] at hz; cases hz
        rcases h1 with h1 | h1
        · unfold isFinite at h1; simp at h1; exact h1.2
        · omega
    · intro h i hi
      have hlen := h.enough
      have hx : b[i]? = some (b[i]'(by omega)) := List.getElem?_eq_getElem _
      refine ValidateOne_ok.2 ⟨_, hx, h.not_nan i _ (by omega) hx, ?_, ?_, ?_, ?_⟩
      · rw [Cmp.not_lt_of_le (acceptable_nonneg h (by omega) hx)]; simp
      · intro h0; subst h0; exact h.first_nonneg _ hx
      · intro h0
        have hy : b[i - 1]? = some (b[i - 1]'(by omega)) := List.getElem?_eq_getElem _
        exact ⟨_, hy, acceptable_lt h (by omega) (by omega) hy hx⟩
      · by_cases him : i = m
        · right; exact him
        · left
          unfold isFinite
          rw [h.not_nan i _ (by omega) hx, h.finite_inside i _ (by omega) hx]; rfl

omit [LawfulCmp R] in
theorem Validate_cases (b : List R) (n : ℤ) (hlen : n < b.length) :
    ValidateGroupBounds b n = ok () ∨ (ValidateGroupBounds b n).Aborts := by
  unfold ValidateGroupBounds
  by_cases hn : n ≤ 0
  · simp only [hn, if_true]; right; exact ⟨_, rfl⟩
  · simp only [hn, if_false]
    obtain ⟨m, rfl⟩ : ∃ m : ℕ, n = m := ⟨n.toNat, by omega⟩
    rw [show ((m : ℤ) + 1) = ((m + 1 : ℕ) : ℤ) by push_cast; rfl]
    apply forLoopM_unit_cases
    intro i hi
    exact ValidateOne_not_ub (by omega)

omit [LawfulCmp R] in
theorem copyBounds_ok (b : List R) (n : ℕ) (h : n < b.length) :
    (List.range (n + 1)).mapM (fun g => GroupBoundAt b g) = ok (b.take (n + 1)) := by
  rw [mapM_ok _ _ (fun i => b.getD i (lit 0))]
  · congr 1
    apply List.ext_getElem
    · simp; omega
    · intro i h1 h2
      simp at h1 h2 ⊢
      rw [List.getElem?_eq_getElem (by omega)]; rfl
  · intro i hi
    simp at hi
    rw [GroupBoundAt_lt (by omega)]
    simp [List.getElem?_eq_getElem (show i < b.length by omega)]

/-- The loop finds the group, does not overflow, and halves the interval with each read. -/
theorem loop_correct (b : List R) (nu : R) (n : ℕ) (hn : n < b.length) (hn2 : 2 * n ≤ INT_MAX + 2)
    (k : ℕ) : ∀ (lower upper reads : ℕ), lower < upper → upper ≤ n → upper - lower ≤ 2 ^ k →
    (∀ x, b[lower]? = some x → le x nu = true) → (∀ x, b[upper]? = some x → lt nu x = true) →
    (∀ (i : ℕ) (x : R), i ≤ n → b[i]? = some x → isNaN x = false) →
    isNaN nu = false →
    ∃ g r, GroupOfNuLoop b nu lower upper reads = ok (g, r) ∧ lower ≤ g ∧ g < upper ∧ r ≤ reads + k ∧
      (∀ x, b[g]? = some x → le x nu = true) ∧ (∀ x, b[g + 1]? = some x → lt nu x = true) := by
  induction k with
  | zero =>
    intro lower upper reads h1 h2 h3 h4 h5 _ _
    have : upper = lower + 1 := by simp at h3; omega
    subst this
    refine ⟨lower, reads, ?_, le_rfl, by omega, by omega, h4, h5⟩
    rw [GroupOfNuLoop]; simp
  | succ k ih =>
    intro lower upper reads h1 h2 h3 h4 h5 hb hnu
    by_cases hd : upper - lower > 1
    · rw [GroupOfNuLoop]
      rw [if_pos hd, if_neg (by omega)]
      have hm : (lower + upper) / 2 < b.length := by omega
      have hx : b[(lower + upper) / 2]? = some (b[(lower + upper) / 2]'hm) := List.getElem?_eq_getElem _
      simp only [GroupBoundAt_lt hm]
      have hp : 2 ^ (k + 1) = 2 * 2 ^ k := by ring
      cases hlt : lt nu (b[(lower + upper) / 2]'hm)
      · simp only [Bool.false_eq_true, if_false]
        obtain ⟨g, r, e, a1, a2, a3, a4, a5⟩ := ih ((lower + upper) / 2) upper (reads + 1) (by omega) h2
          (by omega)
          (fun x hx' => by
            rw [hx] at hx'; cases hx'
            exact Cmp.le_of_not_lt (hb _ _ (by omega) hx) hnu hlt) h5 hb hnu
        exact ⟨g, r, e, by omega, a2, by omega, a4, a5⟩
      · simp only [if_true]
        obtain ⟨g, r, e, a1, a2, a3, a4, a5⟩ := ih lower ((lower + upper) / 2) (reads + 1) (by omega)
          (by omega) (by omega) h4
          (fun x hx' => by rw [hx] at hx'; cases hx'; exact hlt) hb hnu
        exact ⟨g, r, e, a1, by omega, by omega, a4, a5⟩
    · have : upper = lower + 1 := by omega
      subst this
      refine ⟨lower, reads, ?_, le_rfl, by omega, by omega, h4, h5⟩
      rw [GroupOfNuLoop]; simp

/-- `GroupOfNuImplR` on acceptable bounds -/
theorem impl_correct (b : List R) (n : ℕ) (h : AcceptableBounds b n) (hn2 : 2 * n ≤ INT_MAX + 2) (nu : R)
    (hlo : ∀ x, b[0]? = some x → le x nu = true) (hhi : ∀ x, b[n]? = some x → le nu x = true) :
    ∃ g r, GroupOfNuImplR b n nu = ok (g, r) ∧ r ≤ 2 + Nat.clog 2 n ∧ InGroup b n g nu := by
  have hlen := h.enough
  have hpos := h.some_group
  have hL : n < b.length := by omega
  have h0 : b[0]? = some (b[0]'(by omega)) := List.getElem?_eq_getElem _
  have h1 : b[1]? = some (b[1]'(by omega)) := List.getElem?_eq_getElem _
  have hN : b[n]? = some (b[n]'hL) := List.getElem?_eq_getElem _
  have hN1 : b[n - 1]? = some (b[n - 1]'(by omega)) := List.getElem?_eq_getElem _
  have hnu : isNaN nu = false := (Cmp.not_nan_of_le (hlo _ h0)).2
  unfold GroupOfNuImplR
  rw [GroupBoundAt_lt (show 0 < b.length by omega), ok_bind]
  cases hc : le nu (b[0]'(by omega))
  · rw [GroupBoundAt_lt hL]
    simp only [Bool.false_eq_true, if_false, ok_bind, ge]
    have hgt : lt (b[0]'(by omega)) nu = true :=
      Cmp.lt_of_not_le hnu (h.not_nan 0 _ (by omega) h0) hc
    rcases (Bool.eq_false_or_eq_true (le (b[n]'hL) nu)).symm with hc2 | hc2
    · rw [if_neg (by rw [hc2]; simp)]
      have hlt : lt nu (b[n]'hL) = true := Cmp.lt_of_not_le (h.not_nan n _ le_rfl hN) hnu hc2
      obtain ⟨g, r, e, _, a2, a3, a4, a5⟩ := loop_correct b nu n hL hn2 (Nat.clog 2 n) 0 n 2 (by omega) le_rfl
        (by rw [Nat.sub_zero]; exact Nat.le_pow_clog (by norm_num) n) hlo
        (fun x hx => by rw [hN] at hx; cases hx; exact hlt)
        (fun i x hi hx => h.not_nan i x (by omega) hx) hnu
      refine ⟨g, r, e, a3, a2, _, _, List.getElem?_eq_getElem (show g < b.length by omega),
        List.getElem?_eq_getElem (show g + 1 < b.length by omega), ?_, Or.inl ?_⟩
      · exact a4 _ (List.getElem?_eq_getElem _)
      · exact a5 _ (List.getElem?_eq_getElem _)
    · rw [if_pos hc2]
      refine ⟨n - 1, 2, rfl, by omega, by omega, _, _, hN1, ?_, ?_, Or.inr ⟨by omega, hhi _ hN⟩⟩
      · rw [Nat.sub_add_cancel (by omega)]; exact hN
      · exact LawfulCmp.le_of_lt _ _ (Cmp.lt_of_lt_of_le
          (acceptable_lt h (show n - 1 < n by omega) le_rfl hN1 hN) hc2)
  · simp only [if_true]
    refine ⟨0, 1, rfl, by omega, by omega, _, _, h0, h1, hlo _ h0, ?_⟩
    left
    exact Cmp.lt_of_le_of_lt hc (acceptable_lt h (show 0 < 1 by omega) (by omega) h0 h1)

theorem inGroup_unique {b : List R} {n : ℕ} (h : AcceptableBounds b n) {g g' : ℕ} {nu : R}
    (h1 : InGroup b n g nu) (h2 : InGroup b n g' nu) : g = g' := by
  have key : ∀ g g' : ℕ, InGroup b n g nu → InGroup b n g' nu → ¬ g < g' := by
    intro g g' ⟨hg, lo, hi, hlo, hhi, hle, hup⟩ ⟨hg', lo', hi', hlo', hhi', hle', hup'⟩ hlt
    have hnl : lt nu hi = true := by
      rcases hup with h | ⟨h, _⟩
      · exact h
      · omega
    have : le hi lo' = true := by
      rcases Nat.lt_or_ge (g + 1) g' with h3 | h3
      · exact LawfulCmp.le_of_lt _ _ (acceptable_lt h h3 (by omega) hhi hlo')
      · have : g + 1 = g' := by omega
        subst this; rw [hhi] at hlo'; cases hlo'
        exact Cmp.le_refl (h.not_nan _ _ (by omega) hhi)
    have := Cmp.lt_of_lt_of_le hnl (LawfulCmp.le_trans _ _ _ this hle')
    rw [LawfulCmp.lt_irrefl] at this
    cases this
  have a := key g g' h1 h2
  have c := key g' g h2 h1
  omega

/-- nu in some group iff between the first and last bounds -/
theorem inGroup_range {b : List R} {n : ℕ} (h : AcceptableBounds b n) {g : ℕ} {nu : R}
    (h1 : InGroup b n g nu) :
    (∀ x, b[0]? = some x → le x nu = true) ∧ (∀ x, b[n]? = some x → le nu x = true) := by
  obtain ⟨hg, lo, hi, hlo, hhi, hle, hup⟩ := h1
  constructor
  · intro x hx
    rcases Nat.eq_zero_or_pos g with h0 | h0
    · subst h0; rw [hx] at hlo; cases hlo; exact hle
    · exact LawfulCmp.le_trans _ _ _ (LawfulCmp.le_of_lt _ _ (acceptable_lt h h0 (by omega) hx hlo)) hle
  · intro x hx
    have hlh : le nu hi = true := by
      rcases hup with h | h
      · exact LawfulCmp.le_of_lt _ _ h
      · exact h.2
    rcases Nat.lt_or_ge (g + 1) n with h3 | h3
    · exact LawfulCmp.le_trans _ _ _ hlh (LawfulCmp.le_of_lt _ _ (acceptable_lt h h3 le_rfl hhi hx))
    · have : g + 1 = n := by omega
      subst this; rw [hx] at hhi; cases hhi; exact hlh

/-- overflow: from any state of the loop with `upper = n`, a frequency of the last group runs into signed
overflow when `n > 2^30` -/
theorem loop_overflow (b : List R) (nu : R) (n : ℕ) (hn : n < b.length) (hn2 : INT_MAX + 2 < 2 * n)
    (d : ℕ) : ∀ lower reads, n - lower = d → 2 ≤ d →
    (∀ (i : ℕ) (x : R), i < n → b[i]? = some x → lt nu x = false) →
    (GroupOfNuLoop b nu lower n reads).IsUB := by
  induction d using Nat.strong_induction_on with
  | _ d ih =>
    intro lower reads hd h2 hb
    rw [GroupOfNuLoop, if_pos (by omega)]
    by_cases ho : lower + n > INT_MAX
    · rw [if_pos ho]; exact ⟨_, rfl⟩
    · rw [if_neg ho]
      have hm : (lower + n) / 2 < b.length := by omega
      simp only [GroupBoundAt_lt hm]
      rw [hb _ _ (by omega) (List.getElem?_eq_getElem hm)]
      simp only [Bool.false_eq_true, if_false]
      have : 3 ≤ d := by omega
      exact ih (n - (lower + n) / 2) (by omega) ((lower + n) / 2) (reads + 1) rfl (by omega) hb

end Opac.Photons

namespace Opac.Photons
open Arith Outcome Spec Spiner

set_option linter.unusedSectionVars false

variable {R : Type} [Arith R]

/-- The table `t` was returned by one of the constructors of `MeanOpacity`/`MeanSOpacity` (from an opacity,
or from tables, which is also the last step of the constructor from a file) called with group bounds `b`. -/
def BuiltFrom (t : MGTables R) (b : List R) : Prop :=
  (∃ pc junk coef lRhoMin lRhoMax NRho lTMin lTMax NT ngroups NNu,
      MGTables.Impl_ pc junk coef lRhoMin lRhoMax NRho lTMin lTMax NT b ngroups NNu = ok t) ∨
  (∃ junk kP kR, MGTables.LoadTables_ junk kP kR b = ok t)

theorem LoadTables_ok {junk : ℕ → R} {kP kR : DataBox R} {b : List R} {t : MGTables R}
    (h : MGTables.LoadTables_ junk kP kR b = ok t) :
    MGTables.ValidateTables_ kP kR = ok () ∧ ValidateGroupBounds b (kP.dim 1) = ok () ∧
    SetGroupBounds b (kP.dim 1).toNat = ok t.groupBounds ∧ t.ngroups = (kP.dim 1).toNat ∧
    t.lPlanck = kP.mapData ToLog kP.size junk ∧ t.lRosseland = kR.mapData ToLog kP.size junk := by
  unfold MGTables.LoadTables_ at h
  simp only [bind_eq_ok, pure_def] at h
  obtain ⟨_, h1, _, h2, gb, h3, h4⟩ := h
  cases h4
  exact ⟨h1, h2, h3, rfl, rfl, rfl⟩

theorem LoadTables_eq (junk : ℕ → R) (kP kR : DataBox R) (b : List R) :
    MGTables.LoadTables_ junk kP kR b =
      (MGTables.ValidateTables_ kP kR >>= fun _ => ValidateGroupBounds b (kP.dim 1) >>= fun _ =>
        SetGroupBounds b (kP.dim 1).toNat >>= fun gb =>
        ok { lPlanck := kP.mapData ToLog kP.size junk, lRosseland := kR.mapData ToLog kP.size junk,
             groupBounds := gb, ngroups := (kP.dim 1).toNat }) := rfl

theorem Impl_ok {pc : PC R} {junk : ℕ → R} {coef : R → R → R → R} {lRhoMin lRhoMax : R} {NRho : ℤ}
    {lTMin lTMax : R} {NT : ℤ} {b : List R} {ngroups NNu : ℤ} {t : MGTables R}
    (h : MGTables.Impl_ pc junk coef lRhoMin lRhoMax NRho lTMin lTMax NT b ngroups NNu = ok t) :
    ¬ NNu < 2 ∧ ValidateGroupBounds b ngroups = ok () ∧
    SetGroupBounds b ngroups.toNat = ok t.groupBounds ∧ t.ngroups = ngroups.toNat := by
  unfold MGTables.Impl_ at h
  by_cases hN : NNu < 2
  · simp [hN] at h
  · simp only [hN, if_false, bind_eq_ok, pure_def] at h
    obtain ⟨_, h1, gb, h2, s, h3, h4⟩ := h
    cases h4
    exact ⟨hN, h1, h2, rfl⟩

variable [LawfulCmp R]

theorem BuiltFrom.spec {t : MGTables R} {b : List R} (h : BuiltFrom t b) :
    AcceptableBounds b (t.ngroups : ℤ) ∧ t.groupBounds = b.take (t.ngroups + 1) := by
  have key : ∀ n : ℤ, ValidateGroupBounds b n = ok () → SetGroupBounds b n.toNat = ok t.groupBounds →
      t.ngroups = n.toNat →
      AcceptableBounds b (t.ngroups : ℤ) ∧ t.groupBounds = b.take (t.ngroups + 1) := by
    intro n h1 h2 h3
    have ha := (Validate_ok_iff b n).1 h1
    have := ha.some_group
    have hl := ha.enough
    have hn : (n.toNat : ℤ) = n := by omega
    rw [h3, hn]
    refine ⟨ha, ?_⟩
    unfold SetGroupBounds at h2
    rw [copyBounds_ok b n.toNat (by omega)] at h2
    injection h2 with h2; exact h2.symm
  rcases h with ⟨pc, junk, coef, _, _, _, _, _, _, n, NNu, h⟩ | ⟨junk, kP, kR, h⟩
  · obtain ⟨_, h1, h2, h3⟩ := Impl_ok h
    exact key n h1 h2 h3
  · obtain ⟨_, h1, h2, h3, _⟩ := LoadTables_ok h
    exact key _ h1 h2 h3

omit [Arith R] [LawfulCmp R] in
theorem getElem?_take_le {b : List R} {n i : ℕ} (h : i ≤ n) : (b.take (n + 1))[i]? = b[i]? := by
  rw [List.getElem?_take]; simp; omega

theorem inGroup_take {b : List R} {n g : ℕ} {nu : R} :
    InGroup (b.take (n + 1)) n g nu ↔ InGroup b n g nu := by
  unfold InGroup
  constructor
  · rintro ⟨hg, lo, hi, h1, h2, h3⟩
    rw [getElem?_take_le (by omega)] at h1 h2
    exact ⟨hg, lo, hi, h1, h2, h3⟩
  · rintro ⟨hg, lo, hi, h1, h2, h3⟩
    refine ⟨hg, lo, hi, ?_, ?_, h3⟩
    · rw [getElem?_take_le (by omega)]; exact h1
    · rw [getElem?_take_le (by omega)]; exact h2

theorem acceptable_take {b : List R} {n : ℕ} (h : AcceptableBounds b (n : ℤ)) :
    AcceptableBounds (b.take (n + 1)) (n : ℤ) := by
  have hl := h.enough
  refine ⟨h.some_group, by simp; omega, ?_, ?_, ?_, ?_⟩
  · intro i x hi hx; rw [getElem?_take_le (by omega)] at hx; exact h.not_nan i x hi hx
  · intro x hx; rw [getElem?_take_le (by omega)] at hx; exact h.first_nonneg x hx
  · intro i x y hi hx hy
    rw [getElem?_take_le (by omega)] at hx hy; exact h.increasing i x y hi hx hy
  · intro i x hi hx; rw [getElem?_take_le (by omega)] at hx; exact h.finite_inside i x hi hx

/-- full description of `GroupOfNu` on acceptable stored bounds -/
theorem GroupOfNu_spec (t : MGTables R) (h : AcceptableBounds t.groupBounds (t.ngroups : ℤ))
    (hn2 : t.ngroups ≤ 2 ^ 30) (nu : R) :
    (∃ g, t.GroupOfNu nu = ok g ∧ InGroup t.groupBounds t.ngroups g nu) ∨
    ((t.GroupOfNu nu).Aborts ∧ ¬ ∃ g, InGroup t.groupBounds t.ngroups g nu) := by
  have hlen := h.enough
  have hpos := h.some_group
  have hL : t.ngroups < t.groupBounds.length := by omega
  have h0 : t.groupBounds[0]? = some (t.groupBounds[0]'(by omega)) := List.getElem?_eq_getElem _
  have hN : t.groupBounds[t.ngroups]? = some (t.groupBounds[t.ngroups]'hL) := List.getElem?_eq_getElem _
  unfold MGTables.GroupOfNu
  rw [GroupBoundAt_lt (show 0 < t.groupBounds.length by omega), GroupBoundAt_lt hL]
  simp only [ok_bind]
  rcases Bool.eq_false_or_eq_true (le (t.groupBounds[0]'(by omega)) nu) with hc | hc
  · rcases Bool.eq_false_or_eq_true (le nu (t.groupBounds[t.ngroups]'hL)) with hc2 | hc2
    · left
      obtain ⟨g, r, e, _, hg⟩ := impl_correct t.groupBounds t.ngroups h (by unfold INT_MAX; omega) nu
        (fun x hx => by rw [h0] at hx; cases hx; exact hc)
        (fun x hx => by rw [hN] at hx; cases hx; exact hc2)
      refine ⟨g, ?_, hg⟩
      simp [hc, hc2, GroupOfNuImpl, e]
    · right
      constructor
      · simp [hc, hc2]; exact ⟨_, rfl⟩
      · rintro ⟨g, hg⟩
        have := (inGroup_range h hg).2 _ hN
        simp_all
  · right
    constructor
    · simp [hc]; exact ⟨_, rfl⟩
    · rintro ⟨g, hg⟩
      have := (inGroup_range h hg).1 _ h0
      simp_all

end Opac.Photons
