import Verif.Model.Indexers
import Verif.Props.ChebyshevInterp
import Verif.Props.FastLog
import Verif.Props.MeanLookup

/-!
# C43: frequency indexers return stored data at their nodes
-/

namespace Opac.Props
open Opac.Spec Outcome Finset Spiner Indexers
open Opac.Photons (lerp_eq dx_eq node)
open Arith (lit)
open BDMath (Single c10)
set_option linter.unusedSectionVars false

/-! ### Piecewise-linear indexers

How an indexer comes about: one of its constructors over `N` values, followed by any assignments through
`operator[]` (this is how the opacities' vectorised methods fill it). -/

/-- a linear indexer over `[lo, hi]` with `N` values, however it has been filled since -/
inductive LinearMade {R : Type} [Arith R] (lo hi : R) (N : ℤ) : Linear R → Prop
  | ofData (data : ℕ → R) : LinearMade lo hi N (Linear.ofData data lo hi N)
  | alloc (init : ℕ → R) : LinearMade lo hi N (Linear.alloc init lo hi N)
  | ofBox (d : DataBox R) (h : d.dims = [N]) : LinearMade lo hi N (Linear.ofBox d lo hi N)
  | set {l l' : Linear R} {i : ℤ} {v : R} (h : LinearMade lo hi N l) (e : l.set i v = ok l') : LinearMade lo hi N l'

/-- a log-linear indexer over `[lo, hi]` with `N` values, however it has been filled since -/
inductive LogLinearMade {R : Type} [Arith R] (sp : Single R) (lo hi : R) (N : ℤ) : LogLinear R → Prop
  | ofData (data : ℕ → R) : LogLinearMade sp lo hi N (LogLinear.ofData sp data lo hi N)
  | alloc (init : ℕ → R) : LogLinearMade sp lo hi N (LogLinear.alloc sp init lo hi N)
  | ofBox (d : DataBox R) (h : d.dims = [N]) : LogLinearMade sp lo hi N (LogLinear.ofBox sp d lo hi N)
  | set {l l' : LogLinear R} {i : ℤ} {v : R} (h : LogLinearMade sp lo hi N l) (e : l.set i v = ok l') :
      LogLinearMade sp lo hi N l'

section
variable {R : Type} [Arith R]

theorem write_meta {d d' : DataBox R} {is : List ℤ} {v : R} (h : d.write is v = ok d') :
    d'.dims = d.dims ∧ d'.grid = d.grid := by
  simp only [DataBox.write, bind_def, bind_eq_ok] at h
  obtain ⟨o, _, h⟩ := h
  injection h with h
  subst h
  exact ⟨rfl, rfl⟩

theorem LinearMade.meta {lo hi : R} {N : ℤ} {l : Linear R} (h : LinearMade lo hi N l) :
    l.data_.dims = [N] ∧ l.data_.grid 0 = ⟨lo, hi, N⟩ := by
  induction h with
  | ofData data => exact ⟨rfl, by simp [Linear.ofData, Linear.ofBox, DataBox.setRange]⟩
  | alloc init => exact ⟨rfl, by simp [Linear.alloc, Linear.ofData, Linear.ofBox, DataBox.setRange]⟩
  | ofBox d h => exact ⟨h, by simp [Linear.ofBox, DataBox.setRange]⟩
  | set h e ih =>
    simp only [Linear.set, bind_def, bind_eq_ok] at e
    obtain ⟨d, hd, e⟩ := e
    injection e with e
    subst e
    obtain ⟨m1, m2⟩ := write_meta hd
    exact ⟨m1.trans ih.1, by rw [m2]; exact ih.2⟩

theorem LogLinearMade.meta {sp : Single R} {lo hi : R} {N : ℤ} {l : LogLinear R} (h : LogLinearMade sp lo hi N l) :
    l.data_.dims = [N] ∧ l.data_.grid 0 = ⟨BDMath.log10 sp lo, BDMath.log10 sp hi, N⟩ := by
  induction h with
  | ofData data => exact ⟨rfl, by simp [LogLinear.ofData, LogLinear.ofBox, DataBox.setRange]⟩
  | alloc init => exact ⟨rfl, by simp [LogLinear.alloc, LogLinear.ofData, LogLinear.ofBox, DataBox.setRange]⟩
  | ofBox d h => exact ⟨h, by simp [LogLinear.ofBox, DataBox.setRange]⟩
  | set h e ih =>
    simp only [LogLinear.set, bind_def, bind_eq_ok] at e
    obtain ⟨d, hd, e⟩ := e
    injection e with e
    subst e
    obtain ⟨m1, m2⟩ := write_meta hd
    exact ⟨m1.trans ih.1, by rw [m2]; exact ih.2⟩

theorem read1 (d : DataBox R) {N : ℤ} (h : d.dims = [N]) (k : ℤ) (h0 : 0 ≤ k) (h1 : k < N) :
    d.read [k] = ok (d.data k.toNat) := by
  simp [DataBox.read, DataBox.offset, h, h0, h1]

theorem write1 (d : DataBox R) {N : ℤ} (h : d.dims = [N]) (k : ℤ) (h0 : 0 ≤ k) (h1 : k < N) (v : R) :
    d.write [k] v = ok { d with data := Function.update d.data k.toNat v } := by
  simp [DataBox.write, DataBox.offset, h, h0, h1]

theorem access1 (d d' : DataBox R) {N : ℤ} (hd : d.dims = [N]) (i : ℤ) (v : R) (e : d.write [i] v = ok d') (j : ℤ) :
    (0 ≤ i ∧ i < N) ∧ d'.read [i] = ok v ∧ (j ≠ i → d'.read [j] = d.read [j]) := by
  by_cases hi : 0 ≤ i ∧ i < N
  · rw [write1 d hd i hi.1 hi.2 v] at e
    injection e with e
    subst e
    refine ⟨hi, ?_, fun hj => ?_⟩
    · rw [read1 _ (by exact hd) i hi.1 hi.2]; simp only [Function.update_self]
    · by_cases hj' : 0 ≤ j ∧ j < N
      · rw [read1 _ (by exact hd) j hj'.1 hj'.2, read1 _ hd j hj'.1 hj'.2]
        simp only [Function.update_of_ne (show j.toNat ≠ i.toNat by omega)]
      · simp [DataBox.read, DataBox.offset, hd, hj']
  · exfalso
    rw [DataBox.write, hd, DataBox.offset, if_neg hi] at e
    simp at e

/-- C43: `operator[]` returns what was last assigned to that element and leaves the others alone; it is defined
exactly on the elements `0, …, N-1` — in every arithmetic, after any history of assignments. -/
theorem C43_access {sp : Single R} {lo hi : R} {N : ℤ} :
    (∀ l : Linear R, LinearMade lo hi N l →
      (∀ i, (0 ≤ i ∧ i < N) ↔ ∃ v, l.get i = ok v) ∧
      ∀ i v l', l.set i v = ok l' → l'.get i = ok v ∧ ∀ j, j ≠ i → l'.get j = l.get j) ∧
    (∀ l : LogLinear R, LogLinearMade sp lo hi N l →
      (∀ i, (0 ≤ i ∧ i < N) ↔ ∃ v, l.get i = ok v) ∧
      ∀ i v l', l.set i v = ok l' → l'.get i = ok v ∧ ∀ j, j ≠ i → l'.get j = l.get j) := by
  have iff1 : ∀ d : DataBox R, d.dims = [N] → ∀ i, (0 ≤ i ∧ i < N) ↔ ∃ v, d.read [i] = ok v := by
    intro d hd i
    constructor
    · rintro ⟨h0, h1⟩; exact ⟨_, read1 d hd i h0 h1⟩
    · rintro ⟨v, hv⟩
      by_contra hc
      rw [DataBox.read, hd, DataBox.offset, if_neg hc] at hv
      simp at hv
  constructor
  · intro l hl
    refine ⟨fun i => iff1 _ hl.meta.1 i, fun i v l' e => ?_⟩
    simp only [Linear.set, bind_def, bind_eq_ok] at e
    obtain ⟨d, hd, e⟩ := e
    injection e with e
    subst e
    exact ⟨(access1 _ _ hl.meta.1 i v hd i).2.1, fun j hj => (access1 _ _ hl.meta.1 i v hd j).2.2 hj⟩
  · intro l hl
    refine ⟨fun i => iff1 _ hl.meta.1 i, fun i v l' e => ?_⟩
    simp only [LogLinear.set, bind_def, bind_eq_ok] at e
    obtain ⟨d, hd, e⟩ := e
    injection e with e
    subst e
    exact ⟨(access1 _ _ hl.meta.1 i v hd i).2.1, fun j hj => (access1 _ _ hl.meta.1 i v hd j).2.2 hj⟩

/-- C43: the identity indexer behaves as the container it wraps: element `i` reads as what was assigned to it and no
other element changes, if that is so for the container. -/
theorem C43_identity {T : Type} (rd : T → ℤ → Outcome R) (wr : T → ℤ → R → Outcome T)
    (law : ∀ t t' i v, wr t i v = ok t' → rd t' i = ok v ∧ ∀ j, j ≠ i → rd t' j = rd t j) (l l' : Identity T) (i : ℤ) (v : R)
    (e : l.set wr i v = ok l') : l'.get rd i = ok v ∧ ∀ j, j ≠ i → l'.get rd j = l.get rd j := by
  simp only [Identity.set, bind_def, bind_eq_ok] at e
  obtain ⟨d, hd, e⟩ := e
  injection e with e
  subst e
  exact law _ _ i v hd

end

/-- one cell of the one-dimensional interpolation -/
theorem interp1_cell (d : DataBox ℝ) {N : ℤ} (hd : d.dims = [N]) {lo hi : ℝ} (hg : d.grid 0 = ⟨lo, hi, N⟩)
    (h : lo < hi) (hN : 2 ≤ N) (i : ℕ) (hiN : (i : ℤ) + 1 < N) (x : ℝ)
    (h0 : lo + i * ((hi - lo) / (N - 1)) ≤ x) (h1 : x ≤ lo + (i + 1) * ((hi - lo) / (N - 1))) :
    ∃ s, 0 ≤ s ∧ s ≤ 1 ∧ s * ((hi - lo) / (N - 1)) = x - (lo + i * ((hi - lo) / (N - 1))) ∧
      interp1 d x = ok ((1 - s) * d.data i + s * d.data (i + 1)) := by
  have hN' : (2 : ℝ) ≤ N := by exact_mod_cast hN
  obtain ⟨s, s0, s1, s2, s3⟩ := lerp_eq (d.grid 0) (by rw [hg]; exact hN) (by rw [hg]; exact h) i
    (by rw [hg]; exact hiN) x (by rw [hg]; exact h0) (by rw [hg, node]; push_cast; exact h1) (fun i => d.read [i])
    (fun k => d.data k.toNat) (fun k k0 k1 => read1 d hd k k0 (by rw [hg] at k1; exact k1))
  refine ⟨s, s0, s1, ?_, ?_⟩
  · have : 0 < (hi - lo) / ((N : ℝ) - 1) := div_pos (by linarith) (by linarith)
    rw [s2, dx_eq, hg, node]
    exact div_mul_cancel₀ _ this.ne'
  · rw [interp1, s3]
    rfl

theorem interp1_node (d : DataBox ℝ) {N : ℤ} (hd : d.dims = [N]) {lo hi : ℝ} (hg : d.grid 0 = ⟨lo, hi, N⟩)
    (h : lo < hi) (hN : 2 ≤ N) (i : ℕ) (hiN : (i : ℤ) < N) :
    interp1 d (lo + i * ((hi - lo) / (N - 1))) = ok (d.data i) := by
  have hN' : (2 : ℝ) ≤ N := by exact_mod_cast hN
  have hpos : 0 < (hi - lo) / ((N : ℝ) - 1) := div_pos (by linarith) (by linarith)
  by_cases hl : (i : ℤ) + 1 < N
  · obtain ⟨s, s0, s1, s2, s3⟩ := interp1_cell d hd hg h hN i hl _ le_rfl (by nlinarith)
    rw [s3]
    rw [sub_self] at s2
    have : s = 0 := (mul_eq_zero.1 s2).resolve_right hpos.ne'
    rw [this]; congr 1; ring
  · obtain ⟨k, rfl⟩ : ∃ k, i = k + 1 := ⟨i - 1, by omega⟩
    push_cast
    obtain ⟨s, s0, s1, s2, s3⟩ := interp1_cell d hd hg h hN k (by push_cast at *; omega)
      (lo + (k + 1) * ((hi - lo) / (N - 1))) (by nlinarith) le_rfl
    rw [s3]
    have : s = 1 := by
      have : s * ((hi - lo) / (N - 1)) = 1 * ((hi - lo) / (N - 1)) := by rw [s2]; ring
      exact mul_right_cancel₀ hpos.ne' this
    rw [this]; congr 1; ring

/-- C43: the linear indexer, evaluated at its `i`-th node, returns the value of its `i`-th element; evaluated between
two nodes it returns a value between the two neighbouring elements. -/
theorem C43_linear {lo hi : ℝ} (h : lo < hi) {N : ℤ} (hN : 2 ≤ N) {l : Linear ℝ} (hl : LinearMade lo hi N l) :
    (∀ i : ℕ, (i : ℤ) < N → l.eval (lo + i * ((hi - lo) / (N - 1))) = l.get i) ∧
    ∀ i : ℕ, (i : ℤ) + 1 < N → ∀ nu, lo + i * ((hi - lo) / (N - 1)) ≤ nu →
      nu ≤ lo + (i + 1) * ((hi - lo) / (N - 1)) →
      ∃ a b v, l.get i = ok a ∧ l.get (i + 1) = ok b ∧ l.eval nu = ok v ∧ min a b ≤ v ∧ v ≤ max a b := by
  obtain ⟨hd, hg⟩ := hl.meta
  refine ⟨fun i hi => ?_, fun i hi nu h0 h1 => ?_⟩
  · rw [Linear.eval, interp1_node _ hd hg h hN i hi, Linear.get, read1 _ hd _ (by omega) hi]
    rfl
  · obtain ⟨s, s0, s1, -, s3⟩ := interp1_cell _ hd hg h hN i hi nu h0 h1
    refine ⟨l.data_.data i, l.data_.data (i + 1), _, ?_, ?_, s3, ?_, ?_⟩
    · rw [Linear.get, read1 _ hd _ (by omega) (by omega)]; rfl
    · rw [Linear.get, read1 _ hd _ (by omega) (by omega)]; rfl
    · rcases min_cases (l.data_.data i) (l.data_.data (i + 1)) with ⟨e, _⟩ | ⟨e, _⟩ <;> rw [e] <;> nlinarith
    · rcases max_cases (l.data_.data i) (l.data_.data (i + 1)) with ⟨e, _⟩ | ⟨e, _⟩ <;> rw [e] <;> nlinarith

/-- near a node: the interpolation is close to the element of that node -/
theorem interp1_near (d : DataBox ℝ) {N : ℤ} (hd : d.dims = [N]) {lo hi : ℝ} (hg : d.grid 0 = ⟨lo, hi, N⟩)
    (h : lo < hi) (hN : 2 ≤ N) (i : ℕ) (hiN : (i : ℤ) < N) {x r D : ℝ} (x0 : lo ≤ x) (x1 : x ≤ hi)
    (hx : |x - (lo + i * ((hi - lo) / (N - 1)))| ≤ r) (hr : r ≤ (hi - lo) / (N - 1))
    (hD : ∀ k : ℕ, (k : ℤ) + 1 < N → |d.data (k + 1) - d.data k| ≤ D) :
    ∃ v, interp1 d x = ok v ∧ |v - d.data i| ≤ r / ((hi - lo) / (N - 1)) * D := by
  have hN' : (2 : ℝ) ≤ N := by exact_mod_cast hN
  have hpos : 0 < (hi - lo) / ((N : ℝ) - 1) := div_pos (by linarith) (by linarith)
  have hr0 : 0 ≤ r := (abs_nonneg _).trans hx
  have hD0 : 0 ≤ D := (abs_nonneg _).trans (hD 0 (by push_cast; omega))
  rw [abs_le] at hx
  set w := (hi - lo) / ((N : ℝ) - 1) with hw
  rcases le_or_gt (lo + i * w) x with hc | hc
  · by_cases hl : (i : ℤ) + 1 < N
    · obtain ⟨s, s0, s1, s2, s3⟩ := interp1_cell d hd hg h hN i hl x hc (by rw [← hw]; linarith [hx.2])
      refine ⟨_, s3, ?_⟩
      have : (1 - s) * d.data i + s * d.data (i + 1) - d.data i = s * (d.data (i + 1) - d.data i) := by ring
      rw [this, abs_mul, abs_of_nonneg s0]
      refine mul_le_mul ?_ (hD i hl) (abs_nonneg _) (by positivity)
      rw [le_div_iff₀ hpos, s2]
      linarith [hx.2]
    · have hi' : (i : ℝ) = N - 1 := by
        have : (i : ℤ) = N - 1 := by omega
        exact_mod_cast congrArg (Int.cast (R := ℝ)) this
      have hnode : lo + i * w = hi := by
        rw [hi', hw, mul_div_cancel₀ _ (by linarith)]; ring
      have hxe : x = lo + i * w := le_antisymm (by rw [hnode]; exact x1) hc
      refine ⟨_, by rw [hxe]; exact interp1_node d hd hg h hN i hiN, ?_⟩
      rw [sub_self, abs_zero]
      positivity
  · have hi0 : i ≠ 0 := by
      rintro rfl
      push_cast at hc
      linarith
    obtain ⟨k, rfl⟩ : ∃ k, i = k + 1 := ⟨i - 1, by omega⟩
    push_cast at hc hx
    obtain ⟨s, s0, s1, s2, s3⟩ := interp1_cell d hd hg h hN k (by push_cast at hiN; omega) x
      (by rw [← hw]; linarith [hx.1]) hc.le
    refine ⟨_, s3, ?_⟩
    have : (1 - s) * d.data k + s * d.data (k + 1) - d.data (k + 1) = -((1 - s) * (d.data (k + 1) - d.data k)) := by ring
    rw [this, abs_neg, abs_mul, abs_of_nonneg (by linarith : 0 ≤ 1 - s)]
    refine mul_le_mul ?_ (hD k (by push_cast at hiN; omega)) (abs_nonneg _) (by positivity)
    rw [le_div_iff₀ hpos, sub_mul, s2]
    linarith [hx.1]

/-- every point of the range lies in a cell -/
theorem cell_exists {lo hi : ℝ} (h : lo < hi) {N : ℤ} (hN : 2 ≤ N) {x : ℝ} (x0 : lo ≤ x) (x1 : x ≤ hi) :
    ∃ i : ℕ, (i : ℤ) + 1 < N ∧ lo + i * ((hi - lo) / (N - 1)) ≤ x ∧ x ≤ lo + (i + 1) * ((hi - lo) / (N - 1)) := by
  have hN' : (2 : ℝ) ≤ N := by exact_mod_cast hN
  obtain ⟨n, rfl⟩ : ∃ n : ℕ, N = (n : ℤ) + 2 := ⟨(N - 2).toNat, by omega⟩
  have hlast : x ≤ lo + ((n : ℝ) + 1) * ((hi - lo) / ((((n : ℤ) + 2 : ℤ) : ℝ) - 1)) := by
    push_cast
    rw [show ((n : ℝ) + 2 - 1) = n + 1 by ring, mul_div_cancel₀ _ (by positivity)]
    linarith
  generalize (hi - lo) / ((((n : ℤ) + 2 : ℤ) : ℝ) - 1) = w at *
  have : ∃ k : ℕ, x ≤ lo + ((k : ℝ) + 1) * w := ⟨n, hlast⟩
  classical
  refine ⟨Nat.find this, ?_, ?_, Nat.find_spec this⟩
  · have := Nat.find_min' this hlast
    omega
  · rcases hf : Nat.find this with _ | k
    · push_cast; linarith
    · have := Nat.find_min this (m := k) (by omega)
      push_cast
      linarith

/-- C43: the log-linear indexer, evaluated at any frequency of its range, returns a value between the smallest and
the largest of its elements; at the two ends of the range it returns its first and its last element exactly.  This
holds for every monotone single-precision arithmetic that tells the two ends apart. -/
theorem C43_loglinear_hull {sp : Single ℝ} (ho : sp.Ordered) {lo hi : ℝ} (h0 : 2 ^ (-126 : ℤ) ≤ lo)
    (h : BDMath.log10 sp lo < BDMath.log10 sp hi) {N : ℤ} (hN : 2 ≤ N) {l : LogLinear ℝ}
    (hl : LogLinearMade sp lo hi N l) :
    (∀ m M : ℝ, (∀ i a, l.get i = ok a → m ≤ a ∧ a ≤ M) → ∀ nu, lo ≤ nu → nu ≤ hi →
      ∃ v, l.eval sp nu = ok v ∧ m ≤ v ∧ v ≤ M) ∧
    l.eval sp lo = l.get 0 ∧ l.eval sp hi = l.get (N - 1) := by
  obtain ⟨hd, hg⟩ := hl.meta
  have hN' : (2 : ℝ) ≤ N := by exact_mod_cast hN
  refine ⟨fun m M hm nu n0 n1 => ?_, ?_, ?_⟩
  · obtain ⟨i, i1, i2, i3⟩ := cell_exists h hN (BDMath.log10_mono ho h0 n0)
      (BDMath.log10_mono ho (h0.trans n0) n1)
    obtain ⟨s, s0, s1, -, s3⟩ := interp1_cell _ hd hg h hN i i1 _ i2 i3
    have a := hm i _ (by rw [LogLinear.get, read1 _ hd _ (by omega) (by omega)])
    have b := hm (i + 1) _ (by rw [LogLinear.get, read1 _ hd _ (by omega) (by omega)])
    refine ⟨_, s3, ?_, ?_⟩
    · have := mul_le_mul_of_nonneg_left a.1 (by linarith : 0 ≤ 1 - s)
      have := mul_le_mul_of_nonneg_left b.1 s0
      rw [show (i : ℤ).toNat = i by omega] at *
      rw [show ((i : ℤ) + 1).toNat = i + 1 by omega] at *
      linarith
    · have := mul_le_mul_of_nonneg_left a.2 (by linarith : 0 ≤ 1 - s)
      have := mul_le_mul_of_nonneg_left b.2 s0
      rw [show (i : ℤ).toNat = i by omega] at *
      rw [show ((i : ℤ) + 1).toNat = i + 1 by omega] at *
      linarith
  · have := interp1_node _ hd hg h hN 0 (by push_cast; omega)
    rw [Nat.cast_zero, zero_mul, add_zero] at this
    rw [LogLinear.eval, this, LogLinear.get, read1 _ hd _ (by omega) (by omega)]
    rfl
  · have := interp1_node _ hd hg h hN (N - 1).toNat (by omega)
    have e : (((N - 1).toNat : ℕ) : ℝ) = N - 1 := by
      have : (((N - 1).toNat : ℕ) : ℤ) = N - 1 := by omega
      exact_mod_cast congrArg (Int.cast (R := ℝ)) this
    rw [e, mul_div_cancel₀ _ (by linarith : (N : ℝ) - 1 ≠ 0), add_sub_cancel] at this
    rw [LogLinear.eval, this, LogLinear.get, read1 _ hd _ (by omega) (by omega)]

/-- the frequencies of the nodes: `N` points from `lo` to `hi`, evenly spaced in the logarithm -/
noncomputable def logNode (lo hi : ℝ) (N : ℤ) (x : ℝ) : ℝ := lo * (hi / lo) ^ (x / ((N : ℝ) - 1))

/-- what rounding to single precision does to the coordinates of a log grid -/
theorem log_coord {sp : Single ℝ} {u : ℝ} (hr : sp.Rounds u) (hu0 : 0 ≤ u) (hu : u ≤ 1 / 16) (ho : sp.Ordered)
    {lo hi M : ℝ} (h0 : 2 ^ (-126 : ℤ) ≤ lo) (h : lo < hi) (h1 : hi ≤ 2 ^ (127 : ℤ)) (M0 : |Real.log lo| ≤ M)
    (M1 : |Real.log hi| ≤ M) {θ : ℝ} (t0 : 0 ≤ θ) (t1 : θ ≤ 1) {nu : ℝ}
    (hnu : Real.log nu = Real.log lo + θ * (Real.log hi - Real.log lo)) (n0 : lo ≤ nu) (n1 : nu ≤ hi) :
    |BDMath.log10 sp nu - (BDMath.log10 sp lo + θ * (BDMath.log10 sp hi - BDMath.log10 sp lo))| ≤ 8 * u * (1 + M) ∧
    BDMath.log10 sp lo ≤ BDMath.log10 sp nu ∧ BDMath.log10 sp nu ≤ BDMath.log10 sp hi := by
  have hM : 0 ≤ M := (abs_nonneg _).trans M0
  have a0 := BDMath.log10_near hr hu0 hu h0 (h.le.trans h1)
  have a1 := BDMath.log10_near hr hu0 hu (h0.trans h.le) h1
  have a2 := BDMath.log10_near hr hu0 hu (h0.trans n0) (n1.trans h1)
  have M2 : |Real.log nu| ≤ M := by
    rw [hnu]; rw [abs_le] at *
    constructor <;> nlinarith
  have b0 := a0.trans (mul_le_mul_of_nonneg_left (by linarith : 1 + |Real.log lo| ≤ 1 + M) (by positivity))
  have b1 := a1.trans (mul_le_mul_of_nonneg_left (by linarith : 1 + |Real.log hi| ≤ 1 + M) (by positivity))
  have b2 := a2.trans (mul_le_mul_of_nonneg_left (by linarith : 1 + |Real.log nu| ≤ 1 + M) (by positivity))
  refine ⟨?_, BDMath.log10_mono ho h0 n0, BDMath.log10_mono ho (h0.trans n0) n1⟩
  generalize BDMath.log10 sp nu = x at *
  generalize BDMath.log10 sp lo = p at *
  generalize BDMath.log10 sp hi = q at *
  have e : x - (p + θ * (q - p)) = (x - c10 * Real.log nu) - ((1 - θ) * (p - c10 * Real.log lo) +
      θ * (q - c10 * Real.log hi)) := by rw [hnu]; ring
  rw [e]
  generalize x - c10 * Real.log nu = α at *
  generalize p - c10 * Real.log lo = β at *
  generalize q - c10 * Real.log hi = γ at *
  have e8 : 8 * u * (1 + M) = 4 * u * (1 + M) + 4 * u * (1 + M) := by ring
  rw [e8]
  generalize 4 * u * (1 + M) = E at *
  rw [abs_le] at *
  constructor <;> nlinarith

/-- the coordinates of a log grid whose ends single precision tells apart well enough -/
theorem log_step {sp : Single ℝ} {u : ℝ} (hr : sp.Rounds u) (hu0 : 0 ≤ u) (hu : u ≤ 1 / 16)
    {lo hi M : ℝ} (h0 : 2 ^ (-126 : ℤ) ≤ lo) (h : lo < hi) (h1 : hi ≤ 2 ^ (127 : ℤ)) (M0 : |Real.log lo| ≤ M)
    (M1 : |Real.log hi| ≤ M) {K : ℝ} (hK : 1 ≤ K) (hres : 40 * u * (1 + M) ≤ (Real.log hi - Real.log lo) / K) :
    1 / 5 * ((Real.log hi - Real.log lo) / K) < (BDMath.log10 sp hi - BDMath.log10 sp lo) / K := by
  have hM : 0 ≤ M := (abs_nonneg _).trans M0
  have hlo : 0 < lo := lt_of_lt_of_le (by positivity) h0
  have hlog : Real.log lo < Real.log hi := Real.log_lt_log hlo h
  have a0 := BDMath.log10_near hr hu0 hu h0 (h.le.trans h1)
  have a1 := BDMath.log10_near hr hu0 hu (h0.trans h.le) h1
  have b0 := a0.trans (mul_le_mul_of_nonneg_left (by linarith : 1 + |Real.log lo| ≤ 1 + M) (by positivity))
  have b1 := a1.trans (mul_le_mul_of_nonneg_left (by linarith : 1 + |Real.log hi| ≤ 1 + M) (by positivity))
  have hc := BDMath.c10_lo
  have hK0 : 0 < K := by linarith
  have e40 : 40 * u * (1 + M) = 10 * (4 * u * (1 + M)) := by ring
  rw [e40] at hres
  have hE : 0 ≤ 4 * u * (1 + M) := by positivity
  generalize 4 * u * (1 + M) = E at *
  rw [le_div_iff₀ hK0] at hres
  have hE' : E ≤ E * K := by nlinarith
  rw [abs_le] at b0 b1
  rw [← mul_div_assoc, div_lt_div_iff_of_pos_right hK0]
  nlinarith [b0.2, b1.1]

theorem log_logNode {lo hi : ℝ} (h0 : 0 < lo) (h : lo < hi) (N : ℤ) (x : ℝ) :
    Real.log (logNode lo hi N x) = Real.log lo + x / ((N : ℝ) - 1) * (Real.log hi - Real.log lo) := by
  have hq : 0 < hi / lo := div_pos (h0.trans h) h0
  rw [logNode, Real.log_mul h0.ne' (Real.rpow_pos_of_pos hq _).ne', Real.log_rpow hq,
    Real.log_div (h0.trans h).ne' h0.ne']

/-- C43: the log-linear indexer, evaluated at its `i`-th node, returns the value of its `i`-th element up to a fraction
`40 u (1 + M) / Λ` of the largest difference between neighbouring elements, where `u` is the rounding unit of single
precision, `M` bounds the natural logarithms of the range and `Λ` is the spacing of the nodes in the natural logarithm;
between two nodes it stays between the two neighbouring elements up to the same error.  Exactness at the nodes, which
is the full claim, is missing: see `C43_loglinear_false`. -/
theorem C43_loglinear_partial {sp : Single ℝ} {u : ℝ} (hr : sp.Rounds u) (ho : sp.Ordered) (hu0 : 0 ≤ u)
    (hu : u ≤ 1 / 16) {lo hi M : ℝ} (h0 : 2 ^ (-126 : ℤ) ≤ lo) (h : lo < hi) (h1 : hi ≤ 2 ^ (127 : ℤ))
    (M0 : |Real.log lo| ≤ M) (M1 : |Real.log hi| ≤ M) {N : ℤ} (hN : 2 ≤ N)
    (hres : 40 * u * (1 + M) ≤ (Real.log hi - Real.log lo) / (N - 1)) {l : LogLinear ℝ}
    (hl : LogLinearMade sp lo hi N l) {D : ℝ}
    (hD : ∀ i a b, l.get i = ok a → l.get (i + 1) = ok b → |b - a| ≤ D) :
    let ρ := 40 * u * (1 + M) / ((Real.log hi - Real.log lo) / (N - 1))
    (∀ i : ℕ, (i : ℤ) < N → ∃ v a, l.eval sp (logNode lo hi N i) = ok v ∧ l.get i = ok a ∧ |v - a| ≤ ρ * D) ∧
    ∀ i : ℕ, (i : ℤ) + 1 < N → ∀ nu, logNode lo hi N i ≤ nu → nu ≤ logNode lo hi N (i + 1) →
      ∃ a b v, l.get i = ok a ∧ l.get (i + 1) = ok b ∧ l.eval sp nu = ok v ∧
        min a b - ρ * D ≤ v ∧ v ≤ max a b + ρ * D := by
  intro ρ
  obtain ⟨hd, hg⟩ := hl.meta
  have hM : 0 ≤ M := (abs_nonneg _).trans M0
  have hlo : 0 < lo := lt_of_lt_of_le (by positivity) h0
  have hlog : Real.log lo < Real.log hi := Real.log_lt_log hlo h
  have hN' : (2 : ℝ) ≤ N := by exact_mod_cast hN
  have hN1 : (0 : ℝ) < (N : ℝ) - 1 := by linarith
  have step := log_step hr hu0 hu h0 h h1 M0 M1 (K := (N : ℝ) - 1) (by linarith) hres
  set Λ := (Real.log hi - Real.log lo) / ((N : ℝ) - 1) with hΛ
  have hΛ0 : 0 < Λ := div_pos (by linarith) hN1
  set w := (BDMath.log10 sp hi - BDMath.log10 sp lo) / ((N : ℝ) - 1) with hw
  have hlt : BDMath.log10 sp lo < BDMath.log10 sp hi := by
    have : 0 < w := by linarith
    rw [hw, lt_div_iff₀ hN1] at this
    linarith
  have hrw : 8 * u * (1 + M) ≤ w := by nlinarith
  have hρ : 8 * u * (1 + M) / w ≤ ρ := by
    have : 8 * u * (1 + M) / w ≤ 8 * u * (1 + M) / (1 / 5 * Λ) :=
      div_le_div_of_nonneg_left (by positivity) (by positivity) step.le
    refine this.trans (le_of_eq ?_)
    show _ = 40 * u * (1 + M) / Λ
    field_simp
    ring
  have hD' : ∀ k : ℕ, (k : ℤ) + 1 < N → |l.data_.data (k + 1) - l.data_.data k| ≤ D := fun k hk => by
    have := hD k _ _ (by rw [LogLinear.get, read1 _ hd _ (by omega) (by omega)])
      (by rw [LogLinear.get, read1 _ hd _ (by omega) (by omega)])
    rwa [show ((k : ℤ) + 1).toNat = k + 1 by omega, show (k : ℤ).toNat = k by omega] at this
  have hD0 : 0 ≤ D := (abs_nonneg _).trans (hD' 0 (by push_cast; omega))
  have hget : ∀ i : ℕ, (i : ℤ) < N → l.get i = ok (l.data_.data i) := fun i hi => by
    rw [LogLinear.get, read1 _ hd _ (by omega) hi]; rfl
  have hρD : 0 ≤ ρ * D := mul_nonneg (le_trans (by positivity) hρ) hD0
  -- a frequency of the range, its place in the exact grid and in the rounded one
  have place : ∀ x : ℝ, 0 ≤ x → x ≤ N - 1 → ∀ nu, 0 < nu →
      Real.log nu = Real.log lo + x / ((N : ℝ) - 1) * (Real.log hi - Real.log lo) →
      |BDMath.log10 sp nu - (BDMath.log10 sp lo + x * w)| ≤ 8 * u * (1 + M) ∧
      BDMath.log10 sp lo ≤ BDMath.log10 sp nu ∧ BDMath.log10 sp nu ≤ BDMath.log10 sp hi := by
    intro x x0 x1 nu nu0 hnu
    have t0 : 0 ≤ x / ((N : ℝ) - 1) := by positivity
    have t1 : x / ((N : ℝ) - 1) ≤ 1 := by rw [div_le_one hN1]; exact x1
    have n0 : lo ≤ nu := (Real.log_le_log_iff hlo nu0).1 (by rw [hnu]; nlinarith)
    have n1 : nu ≤ hi := (Real.log_le_log_iff nu0 (hlo.trans h)).1 (by rw [hnu]; nlinarith)
    have := log_coord hr hu0 hu ho h0 h h1 M0 M1 t0 t1 hnu n0 n1
    rw [show x / ((N : ℝ) - 1) * (BDMath.log10 sp hi - BDMath.log10 sp lo) = x * w by rw [hw]; ring] at this
    exact this
  have hpos : ∀ x, 0 < logNode lo hi N x := fun x =>
    mul_pos hlo (Real.rpow_pos_of_pos (div_pos (hlo.trans h) hlo) _)
  have near : ∀ i : ℕ, (i : ℤ) < N → ∀ x, BDMath.log10 sp lo ≤ x → x ≤ BDMath.log10 sp hi →
      |x - (BDMath.log10 sp lo + i * w)| ≤ 8 * u * (1 + M) →
      ∃ v, interp1 l.data_ x = ok v ∧ |v - l.data_.data i| ≤ ρ * D := by
    intro i hi x x0 x1 hx
    obtain ⟨v, v1, v2⟩ := interp1_near _ hd hg hlt hN i hi x0 x1 hx hrw hD'
    exact ⟨v, v1, v2.trans (mul_le_mul_of_nonneg_right hρ hD0)⟩
  refine ⟨fun i hk => ?_, fun i hk nu n0 n1 => ?_⟩
  · have hi' : (i : ℝ) ≤ N - 1 := by
      have : (i : ℤ) ≤ N - 1 := by omega
      exact_mod_cast this
    obtain ⟨p1, p2, p3⟩ := place i (by positivity) hi' _ (hpos i) (log_logNode hlo h N i)
    obtain ⟨v, v1, v2⟩ := near i hk _ p2 p3 p1
    exact ⟨v, _, v1, hget i hk, v2⟩
  · have hi' : (i : ℝ) + 1 ≤ N - 1 := by
      have : (i : ℤ) + 1 ≤ N - 1 := by omega
      exact_mod_cast this
    have nu0 : 0 < nu := (hpos _).trans_le n0
    have l0 := Real.log_le_log (hpos _) n0
    have l1 := Real.log_le_log nu0 n1
    rw [log_logNode hlo h] at l0 l1
    obtain ⟨x, hx⟩ : ∃ x, Real.log nu = Real.log lo + x / ((N : ℝ) - 1) * (Real.log hi - Real.log lo) :=
      ⟨(Real.log nu - Real.log lo) / (Real.log hi - Real.log lo) * (N - 1), by
        have : Real.log hi - Real.log lo ≠ 0 := by linarith
        field_simp; ring⟩
    have eΛ : ∀ y : ℝ, y / ((N : ℝ) - 1) * (Real.log hi - Real.log lo) = y * Λ := fun y => by rw [hΛ]; ring
    rw [hx, eΛ, eΛ] at l0 l1
    have x0 : (i : ℝ) ≤ x := le_of_mul_le_mul_right (by linarith : (i : ℝ) * Λ ≤ x * Λ) hΛ0
    have x1 : x ≤ (i : ℝ) + 1 := le_of_mul_le_mul_right (by linarith : x * Λ ≤ ((i : ℝ) + 1) * Λ) hΛ0
    have hi0 : (0 : ℝ) ≤ i := by positivity
    obtain ⟨p1, p2, p3⟩ := place x (by linarith) (by linarith) nu nu0 hx
    have hw0 : 0 < w := by linarith
    have y0 : (i : ℝ) * w ≤ x * w := mul_le_mul_of_nonneg_right x0 hw0.le
    have y1 : x * w ≤ ((i : ℝ) + 1) * w := mul_le_mul_of_nonneg_right x1 hw0.le
    have hmin := min_le_left (l.data_.data i) (l.data_.data (i + 1))
    have hmin' := min_le_right (l.data_.data i) (l.data_.data (i + 1))
    have hmax := le_max_left (l.data_.data i) (l.data_.data (i + 1))
    have hmax' := le_max_right (l.data_.data i) (l.data_.data (i + 1))
    have g1 := hget i (by omega)
    have g2 := hget (i + 1) (by push_cast; omega)
    push_cast at g2
    rw [abs_le] at p1
    rcases lt_or_ge (BDMath.log10 sp nu) (BDMath.log10 sp lo + i * w) with hc | hc
    · obtain ⟨v, v1, v2⟩ := near i (by omega) _ p2 p3 (by rw [abs_le]; constructor <;> linarith [p1.1, p1.2])
      rw [abs_le] at v2
      exact ⟨_, _, v, g1, g2, v1, by linarith [v2.1], by linarith [v2.2]⟩
    · rcases lt_or_ge (BDMath.log10 sp lo + ((i : ℝ) + 1) * w) (BDMath.log10 sp nu) with hc' | hc'
      · obtain ⟨v, v1, v2⟩ := near (i + 1) (by push_cast; omega) _ p2 p3
          (by push_cast; rw [abs_le]; constructor <;> linarith [p1.1, p1.2])
        rw [abs_le] at v2
        exact ⟨_, _, v, g1, g2, v1, by linarith [v2.1], by linarith [v2.2]⟩
      · obtain ⟨s, s0, s1, -, s3⟩ := interp1_cell _ hd hg hlt hN i hk _ hc hc'
        have c1 := mul_le_mul_of_nonneg_left hmin (by linarith : 0 ≤ 1 - s)
        have c2 := mul_le_mul_of_nonneg_left hmin' s0
        have c3 := mul_le_mul_of_nonneg_left hmax (by linarith : 0 ≤ 1 - s)
        have c4 := mul_le_mul_of_nonneg_left hmax' s0
        exact ⟨_, _, _, g1, g2, s3, by linarith, by linarith⟩

/-- in single precision, an indexer over `[1, 100]` whose neighbouring elements differ by at most 7 -/
example : ∃ l, LogLinearMade binary32 (1 : ℝ) 100 3 l ∧ l.get 1 = ok 7 ∧
    ∃ v, l.eval binary32 10 = ok v ∧ |v - 7| ≤ 1 / 10000 := by
  have made := LogLinearMade.ofData (sp := binary32) (lo := (1 : ℝ)) (hi := 100) (N := 3) (fun i => if i = 1 then 7 else 0)
  have g : ∀ i, (LogLinear.ofData binary32 (fun i => if i = 1 then 7 else 0) (1 : ℝ) 100 3).get i =
      if 0 ≤ i ∧ i < 3 then ok (if i = 1 then 7 else 0) else ub "DataBox index out of range" := by
    intro i
    by_cases h : 0 ≤ i ∧ i < 3
    · rw [LogLinear.get, read1 _ made.meta.1 i h.1 h.2, if_pos h]
      simp only [LogLinear.ofData, LogLinear.ofBox, DataBox.setRange]
      congr 1
      have : i.toNat = 1 ↔ i = 1 := by omega
      simp only [this]
    · simp [LogLinear.get, LogLinear.ofData, LogLinear.ofBox, DataBox.setRange, DataBox.read, DataBox.offset, h]
  have l10 : Real.log 100 ≤ 5 := by
    have : Real.log 100 = 2 * Real.log 10 := by
      rw [show (100 : ℝ) = 10 ^ 2 by norm_num, Real.log_pow]; push_cast; ring
    have c := BDMath.c10_log
    have := BDMath.c10_lo
    rw [abs_le] at c
    nlinarith [c.2]
  have l10' : 4 ≤ Real.log 100 := by
    have : Real.log 100 = 2 * Real.log 10 := by
      rw [show (100 : ℝ) = 10 ^ 2 by norm_num, Real.log_pow]; push_cast; ring
    have c := BDMath.c10_log
    have := BDMath.c10_hi
    have : 0 < Real.log 10 := Real.log_pos (by norm_num)
    rw [abs_le] at c
    nlinarith [c.1]
  refine ⟨_, made, by rw [g]; simp, ?_⟩
  have e24 : (2 : ℝ) ^ (-24 : ℤ) = 1 / 16777216 := by norm_num
  obtain ⟨v, a, h1, h2, h3⟩ := (C43_loglinear_partial binary32_rounds binary32_ordered (by positivity) (by norm_num)
    (M := 5) (by norm_num) (by norm_num) (by norm_num) (by norm_num)
    (by rw [abs_of_nonneg (by linarith)]; exact l10) (by norm_num)
    (by rw [e24, Real.log_one]; norm_num; linarith) made (D := 7) (by
      intro i a b ha hb
      rw [g] at ha hb
      split_ifs at ha hb <;> simp at ha hb <;> subst ha <;> subst hb <;> first | norm_num | (exfalso; omega))).1
    1 (by norm_num)
  have e10 : logNode 1 100 3 ((1 : ℕ) : ℝ) = 10 := by
    rw [logNode, show (((1 : ℕ) : ℝ) / (((3 : ℤ) : ℝ) - 1)) = 1 / 2 by norm_num, div_one, one_mul,
      ← Real.sqrt_eq_rpow, show (100 : ℝ) = 10 ^ 2 by norm_num, Real.sqrt_sq (by norm_num)]
  rw [e10] at h1
  refine ⟨v, h1, ?_⟩
  have ha : a = 7 := by
    rw [show ((1 : ℕ) : ℤ) = 1 from rfl, g] at h2
    simp at h2; exact h2.symm
  rw [← ha]
  refine h3.trans ?_
  rw [e24, Real.log_one, div_mul_eq_mul_div, div_le_iff₀ (by norm_num; linarith)]
  norm_num
  linarith

/-- C43 fails for the log-linear indexer: a range and a number of nodes such that, in IEEE single precision, the value
at the second node is the first element, not the second. -/
theorem C43_loglinear_false : ∃ (lo hi : ℝ) (N : ℤ) (l : LogLinear ℝ), 0 < lo ∧ lo < hi ∧ 2 ≤ N ∧
    N ≤ Opac.Chebyshev.INT_MAX ∧ LogLinearMade binary32 lo hi N l ∧
    l.eval binary32 (logNode lo hi N 1) = l.get 0 ∧ l.get 0 ≠ l.get 1 := by
  have made := LogLinearMade.ofData (sp := binary32) (lo := (1 : ℝ)) (hi := 2) (N := 134217729)
    (fun i => if i = 1 then 7 else 0)
  have hlt : BDMath.log10 binary32 1 < BDMath.log10 binary32 2 := by
    have a := C63_float (x := 2) (by norm_num) (by norm_num)
    rw [C63_one]
    have : Real.logb 10 2 > 1 / 10 := by
      rw [gt_iff_lt, Real.lt_logb_iff_rpow_lt (by norm_num) (by norm_num)]
      have : ((10 : ℝ) ^ ((1 : ℝ) / 10)) ^ 10 < 2 ^ 10 := by
        rw [← Real.rpow_natCast, ← Real.rpow_mul (by norm_num)]; norm_num
      exact lt_of_pow_lt_pow_left₀ 10 (by norm_num) this
    rw [abs_le, abs_of_pos (by linarith)] at a
    linarith [a.1]
  refine ⟨1, 2, 134217729, _, by norm_num, by norm_num, by norm_num, by rw [INT_MAX_eq]; norm_num, made, ?_, ?_⟩
  · have := (C43_loglinear_hull binary32_ordered (by norm_num) hlt (by norm_num) made).2.1
    rw [← this]
    unfold LogLinear.eval
    congr 1
    rw [BDMath.log10_def, BDMath.log10_def]
    have e : binary32.toFloat (logNode 1 2 134217729 1) = binary32.toFloat 1 := by
      show float32.near _ = float32.near 1
      rw [float32.near_one]
      have hn : logNode 1 2 134217729 1 = (2 : ℝ) ^ ((1 : ℝ) / 134217728) := by
        rw [logNode, one_mul, div_one]; norm_num
      rw [hn]
      refine float32_near_above_one (Real.one_le_rpow (by norm_num) (by norm_num)) ?_
      have b := rpow_one_add_le_one_add_mul_self (s := 1) (by norm_num) (p := (1 : ℝ) / 134217728) (by norm_num) (by norm_num)
      norm_num at b ⊢
      linarith
    rw [e]
  · rw [LogLinear.get, LogLinear.get, read1 _ made.meta.1 0 (by norm_num) (by norm_num),
      read1 _ made.meta.1 1 (by norm_num) (by norm_num)]
    simp [LogLinear.ofData, LogLinear.ofBox, DataBox.setRange]

/-! ### The log-Chebyshev indexer -/

/-- the three arrays of a log-Chebyshev indexer do not overlap -/
structure Disjoint3 (d l c : Indexer) (n : ℕ) : Prop where
  dl : OutputApart d l n
  dc : OutputApart d c n
  lc : OutputApart l c n

theorem logdata_loop (sp : Single ℝ) (L : LogCheb ℝ) (n : ℕ) (h : OutputApart L.data_ L.logdata_ n) (m : Heap ℝ) :
    let m' := forLoop (n : ℤ) (fun i (m : Heap ℝ) => Function.update m (L.logdata_ i)
      (BDMath.log10 sp (Arith.abs (m (L.data_ i)) + lit (1 / 10 ^ 20)))) m
    (∀ i, i < n → m' (L.logdata_ i) = BDMath.log10 sp (|m (L.data_ i)| + 1 / 10 ^ 20)) ∧
    ∀ b, (∀ i, i < n → b ≠ L.logdata_ i) → m' b = m b := by
  refine forLoop_inv n _ (fun q (m' : Heap ℝ) =>
    (∀ i, i < q → m' (L.logdata_ i) = BDMath.log10 sp (|m (L.data_ i)| + 1 / 10 ^ 20)) ∧
    ∀ b, (∀ i, i < q → b ≠ L.logdata_ i) → m' b = m b) m
    ⟨fun i hi => absurd hi (Nat.not_lt_zero i), fun _ _ => rfl⟩ ?_
  rintro q hq m' ⟨h1, h2⟩
  refine ⟨fun i hi => ?_, fun b hb => ?_⟩
  · by_cases hiq : i = q
    · subst hiq
      rw [Function.update_self, h2 _ fun j hj => h.apart i j hq (by omega)]
      congr 1
      simp only [areal]
      push_cast
      rfl
    · rw [Function.update_of_ne fun hc => hiq (h.distinct i q (by omega) hq hc), h1 i (by omega)]
  · rw [Function.update_of_ne (hb q (by omega)), h2 b fun i hi => hb i (by omega)]

theorem logcheb_coeffs (sp : Single ℝ) (L : LogCheb ℝ) (n : ℕ) (hN : L.N = n)
    (h : Disjoint3 L.data_ L.logdata_ L.coeffs_ n) (v : ℕ → ℕ → ℝ) (m : Heap ℝ) :
    (∀ i, i < n → L.SetInterpCoeffs sp v m (L.coeffs_ i) =
      ∑ j ∈ range n, v i j * BDMath.log10 sp (|m (L.data_ j)| + 1 / 10 ^ 20)) ∧
    ∀ b, (∀ i, i < n → b ≠ L.logdata_ i ∧ b ≠ L.coeffs_ i) → L.SetInterpCoeffs sp v m b = m b := by
  unfold LogCheb.SetInterpCoeffs
  rw [hN]
  obtain ⟨l1, l2⟩ := logdata_loop sp L n h.dl m
  constructor
  · intro i hi
    rw [(C42_product v h.lc _).1 i hi]
    exact sum_congr rfl fun j hj => by rw [l1 j (mem_range.1 hj)]
  · intro b hb
    rw [(C42_product v h.lc _).2 b fun i hi => (hb i hi).2, l2 b fun i hi => (hb i hi).1]

theorem abs_sin_mul (k : ℕ) (a : ℝ) : |Real.sin (k * a)| ≤ k * |Real.sin a| := by
  induction k with
  | zero => simp
  | succ k ih =>
    push_cast
    rw [add_mul, one_mul, Real.sin_add, add_mul, one_mul]
    refine (abs_add_le _ _).trans ?_
    rw [abs_mul, abs_mul]
    have h1 := Real.abs_cos_le_one a
    have h2 := Real.abs_cos_le_one (k * a)
    have h3 := abs_nonneg (Real.sin a)
    have h4 := abs_nonneg (Real.sin (k * a))
    nlinarith

/-- Chebyshev polynomials vary by at most `k²` times their argument -/
theorem cheb_lipschitz (k : ℕ) {x y : ℝ} (hx : |x| ≤ 1) (hy : |y| ≤ 1) : |cheb k x - cheb k y| ≤ k ^ 2 * |x - y| := by
  rw [abs_le] at hx hy
  obtain ⟨a, rfl⟩ : ∃ a, x = Real.cos a := ⟨Real.arccos x, (Real.cos_arccos hx.1 hx.2).symm⟩
  obtain ⟨b, rfl⟩ : ∃ b, y = Real.cos b := ⟨Real.arccos y, (Real.cos_arccos hy.1 hy.2).symm⟩
  have e : ∀ t, cheb k (Real.cos t) = Real.cos (k * t) := fun t => by
    rw [cheb, Polynomial.Chebyshev.T_real_cos]; norm_cast
  rw [e, e, Real.cos_sub_cos, Real.cos_sub_cos]
  have h1 := abs_sin_mul k ((a + b) / 2)
  have h2 := abs_sin_mul k ((a - b) / 2)
  rw [show (k * a + k * b) / 2 = k * ((a + b) / 2) by ring, show (k * a - k * b) / 2 = k * ((a - b) / 2) by ring,
    abs_mul, abs_mul, abs_mul, abs_mul]
  have := mul_le_mul h1 h2 (abs_nonneg _) (by positivity)
  have e2 : |(-2 : ℝ)| = 2 := by norm_num
  rw [e2]
  nlinarith

theorem chebSum_lipschitz {n : ℕ} {c : ℕ → ℝ} {A s t : ℝ} (hA : ∀ i, i < n → |c i| ≤ A) (hs : |s| ≤ 1) (ht : |t| ≤ 1) :
    |chebSum n c s - chebSum n c t| ≤ n * (n ^ 2 * A * |s - t|) := by
  unfold chebSum
  rw [← sum_sub_distrib]
  refine (abs_sum_le_sum_abs _ _).trans ?_
  rw [← card_range n, ← nsmul_eq_mul, card_range]
  conv_rhs => rw [← card_range n]
  refine sum_le_card_nsmul _ _ _ fun i hi => ?_
  rw [card_range, ← mul_sub, abs_mul]
  have hi' := mem_range.1 hi
  have a1 := hA i hi'
  have a2 := cheb_lipschitz i hs ht
  have hin : ((i : ℝ)) ^ 2 ≤ (n : ℝ) ^ 2 := by
    have : (i : ℝ) ≤ n := by exact_mod_cast hi'.le
    have : (0 : ℝ) ≤ i := by positivity
    nlinarith
  calc |c i| * |cheb i s - cheb i t| ≤ A * ((i : ℝ) ^ 2 * |s - t|) := by
        exact mul_le_mul a1 a2 (abs_nonneg _) ((abs_nonneg _).trans a1)
    _ ≤ A * ((n : ℝ) ^ 2 * |s - t|) := by
        exact mul_le_mul_of_nonneg_left (mul_le_mul_of_nonneg_right hin (abs_nonneg _)) ((abs_nonneg _).trans a1)
    _ = (n : ℝ) ^ 2 * A * |s - t| := by ring

theorem chebInverse_le (n i k : ℕ) (hk : k < n) : |chebInverse n i k| ≤ 2 / n := by
  have hn : (0 : ℝ) < n := by exact_mod_cast (by omega : 0 < n)
  obtain ⟨b1, b2⟩ := chebPoint_bounds hk
  have := abs_cheb_le i (x := chebPoint n k) (by rw [abs_le]; constructor <;> linarith)
  unfold chebInverse
  rw [abs_mul, abs_of_nonneg (by split_ifs <;> positivity)]
  have h2 : (if i = 0 then (1 : ℝ) else 2) / n ≤ 2 / n :=
    div_le_div_of_nonneg_right (by split_ifs <;> norm_num) hn.le
  calc _ ≤ (2 : ℝ) / n * 1 := mul_le_mul h2 this (abs_nonneg _) (by positivity)
    _ = 2 / n := mul_one _

/-- C43: after its coefficients have been set with the inverse Vandermonde matrix of its size — to within `η` per
entry —, the log-Chebyshev indexer, evaluated at the frequency of its `j`-th Chebyshev point, returns the magnitude of
its `j`-th datum plus `10⁻²⁰`, times a power of ten close to one; the data themselves, and all memory but its two work
arrays, are unchanged.  Here `u` is the rounding unit of single precision, `M` bounds the natural logarithms of the
range and `B` those of the data.  Exactness at the nodes, which is the full claim, is missing: the logarithms are taken
in single precision. -/
theorem C43_logcheb_partial {sp : Single ℝ} {u : ℝ} (hr : sp.Rounds u) (ho : sp.Ordered) (hu0 : 0 ≤ u)
    (hu : u ≤ 1 / 16) (debug : Bool) {lo hi M : ℝ} (h0 : 2 ^ (-126 : ℤ) ≤ lo) (h : lo < hi) (h1 : hi ≤ 2 ^ (127 : ℤ))
    (M0 : |Real.log lo| ≤ M) (M1 : |Real.log hi| ≤ M) (hres : 40 * u * (1 + M) ≤ Real.log hi - Real.log lo) (n : ℕ)
    (hn : (n : ℤ) ≤ Opac.Chebyshev.INT_MAX) {d l c : Indexer} (hd : Disjoint3 d l c n) {v w : ℕ → ℕ → ℝ} {η : ℝ}
    (hw : IsVandermondeInverse n w) (hv : ∀ i k, i < n → k < n → |v i k - w i k| ≤ η) (m : Heap ℝ) {B : ℝ}
    (hm : ∀ k, k < n → |m (d k)| ≤ 2 ^ (126 : ℤ)) (hB : ∀ k, k < n → |Real.log (|m (d k)| + 1 / 10 ^ 20)| ≤ B) :
    let L := LogCheb.mk' sp (n : ℤ) d l c lo hi
    (∀ j, j < n → ∃ ε, |ε| ≤ (1 + B) * (n ^ 3 * (2 + n * η) * (80 * u * (1 + M) / (Real.log hi - Real.log lo)) +
        n ^ 2 * η + 4 * u + 1 / 10 ^ 8) ∧
      L.eval sp debug ((10 : ℝ) ^ chebNode (Real.logb 10 lo) (Real.logb 10 hi) n j) (L.SetInterpCoeffs sp v m) =
        ok ((|m (d j)| + 1 / 10 ^ 20) * (10 : ℝ) ^ ε)) ∧
    ∀ b, (∀ i, i < n → b ≠ l i ∧ b ≠ c i) → L.SetInterpCoeffs sp v m b = m b := by
  intro L
  obtain ⟨c1, c2⟩ := logcheb_coeffs sp L n rfl hd v m
  refine ⟨fun j hj => ?_, c2⟩
  have hn0 : (0 : ℝ) < n := by exact_mod_cast (by omega : 0 < n)
  have hM : 0 ≤ M := (abs_nonneg _).trans M0
  have hlo : 0 < lo := lt_of_lt_of_le (by positivity) h0
  have hlog : Real.log lo < Real.log hi := Real.log_lt_log hlo h
  have hη : 0 ≤ η := (abs_nonneg _).trans (hv j j hj hj)
  have hB0 : 0 ≤ B := (abs_nonneg _).trans (hB j hj)
  have step := log_step hr hu0 hu h0 h h1 M0 M1 (K := 1) le_rfl (by rw [div_one]; exact hres)
  rw [div_one, div_one] at step
  set Λ := Real.log hi - Real.log lo with hΛ
  have hΛ0 : 0 < Λ := by linarith
  have hlt : BDMath.log10 sp lo < BDMath.log10 sp hi := by linarith
  -- the frequency of the node
  have l10 : 0 < Real.log 10 := Real.log_pos (by norm_num)
  set nu := (10 : ℝ) ^ chebNode (Real.logb 10 lo) (Real.logb 10 hi) n j with hnu
  have nu0 : 0 < nu := Real.rpow_pos_of_pos (by norm_num) _
  obtain ⟨b1, b2⟩ := chebPoint_bounds hj
  set t := chebPoint n j with ht
  have lnu : Real.log nu = Real.log lo + (t + 1) / 2 * (Real.log hi - Real.log lo) := by
    rw [hnu, Real.log_rpow (by norm_num), chebNode, Real.logb, Real.logb, ← ht]
    field_simp
    try ring
  have n0 : lo ≤ nu := (Real.log_le_log_iff hlo nu0).1 (by rw [lnu]; nlinarith)
  have n1 : nu ≤ hi := (Real.log_le_log_iff nu0 (hlo.trans h)).1 (by rw [lnu]; nlinarith)
  obtain ⟨p1, p2, p3⟩ := log_coord hr hu0 hu ho h0 h h1 M0 M1 (θ := (t + 1) / 2) (by linarith) (by linarith) lnu n0 n1
  set s := unitCell (BDMath.log10 sp lo) (BDMath.log10 sp hi) (BDMath.log10 sp nu) with hs
  have hW : 0 < BDMath.log10 sp hi - BDMath.log10 sp lo := by linarith
  have hst : |s - t| ≤ 80 * u * (1 + M) / Λ := by
    have e : s - t = 2 * (BDMath.log10 sp nu - (BDMath.log10 sp lo + (t + 1) / 2 *
        (BDMath.log10 sp hi - BDMath.log10 sp lo))) / (BDMath.log10 sp hi - BDMath.log10 sp lo) := by
      rw [hs, unitCell]; field_simp; ring
    rw [e, abs_div, abs_of_pos hW, abs_mul, abs_of_pos (by norm_num : (0 : ℝ) < 2)]
    have : 2 * |BDMath.log10 sp nu - (BDMath.log10 sp lo + (t + 1) / 2 *
        (BDMath.log10 sp hi - BDMath.log10 sp lo))| / (BDMath.log10 sp hi - BDMath.log10 sp lo) ≤
        2 * (8 * u * (1 + M)) / (1 / 5 * Λ) :=
      div_le_div₀ (by positivity) (by linarith) (by positivity) step.le
    refine this.trans (le_of_eq ?_)
    field_simp
    ring
  have hs1 : |s| ≤ 1 := by
    rw [hs, unitCell, abs_le]
    have q0 : 0 ≤ (BDMath.log10 sp nu - BDMath.log10 sp lo) / (BDMath.log10 sp hi - BDMath.log10 sp lo) :=
      div_nonneg (by linarith) hW.le
    have q1 : (BDMath.log10 sp nu - BDMath.log10 sp lo) / (BDMath.log10 sp hi - BDMath.log10 sp lo) ≤ 1 := by
      rw [div_le_one hW]; linarith
    constructor <;> linarith
  have ht1 : |t| ≤ 1 := by rw [abs_le]; constructor <;> linarith
  -- the logarithms of the data
  set q : ℕ → ℝ := fun k => BDMath.log10 sp (|m (d k)| + 1 / 10 ^ 20) with hq
  have qnear : ∀ k, k < n → |q k - c10 * Real.log (|m (d k)| + 1 / 10 ^ 20)| ≤ 4 * u * (1 + B) := fun k hk => by
    have a0 : (2 : ℝ) ^ (-126 : ℤ) ≤ |m (d k)| + 1 / 10 ^ 20 := by
      have : (2 : ℝ) ^ (-126 : ℤ) ≤ 1 / 10 ^ 20 := by norm_num
      linarith [abs_nonneg (m (d k))]
    have a1 : |m (d k)| + 1 / 10 ^ 20 ≤ 2 ^ (127 : ℤ) := by
      have := hm k hk
      have e : (2 : ℝ) ^ (127 : ℤ) = 2 ^ (126 : ℤ) + 2 ^ (126 : ℤ) := by norm_num
      have : (1 : ℝ) / 10 ^ 20 ≤ 2 ^ (126 : ℤ) := by norm_num
      rw [e]
      linarith
    refine (BDMath.log10_near hr hu0 hu a0 a1).trans (mul_le_mul_of_nonneg_left ?_ (by positivity))
    linarith [hB k hk]
  have c0 := BDMath.c10_lo
  have c1' := BDMath.c10_hi
  have qB : ∀ k, k < n → |q k| ≤ 1 + B := fun k hk => by
    have h2 : |c10 * Real.log (|m (d k)| + 1 / 10 ^ 20)| ≤ 44 / 100 * B := by
      rw [abs_mul, abs_of_pos (by linarith : 0 < c10)]
      exact mul_le_mul c1'.le (hB k hk) (abs_nonneg _) (by norm_num)
    have h3 : 4 * u * (1 + B) ≤ 4 * (1 / 16) * (1 + B) := by
      exact mul_le_mul_of_nonneg_right (by linarith) (by linarith)
    have := (abs_sub_abs_le_abs_sub _ _).trans (qnear k hk)
    linarith
  -- the coefficients
  have hvw : ∀ i k, i < n → k < n → |v i k - chebInverse n i k| ≤ η := fun i k hi hk => by
    have := hv i k hi hk
    rwa [(C42_inverse n w).1 hw i k hi hk] at this
  set a : ℕ → ℝ := fun i => ∑ k ∈ range n, v i k * q k with ha
  have sumle : ∀ (f : ℕ → ℝ) (b : ℝ), (∀ k, k < n → |f k| ≤ b) → |∑ k ∈ range n, f k| ≤ n * b := fun f b hf => by
    refine (abs_sum_le_sum_abs _ _).trans ?_
    conv_rhs => rw [← card_range n, ← nsmul_eq_mul]
    exact sum_le_card_nsmul _ _ _ fun k hk => hf k (mem_range.1 hk)
  have aA : ∀ i, i < n → |a i| ≤ (2 + n * η) * (1 + B) := fun i hi => by
    have : ∀ k, k < n → |v i k * q k| ≤ (2 / n + η) * (1 + B) := fun k hk => by
      rw [abs_mul]
      refine mul_le_mul ?_ (qB k hk) (abs_nonneg _) (by positivity)
      have e : v i k = chebInverse n i k + (v i k - chebInverse n i k) := by ring
      rw [e]
      exact (abs_add_le _ _).trans (add_le_add (chebInverse_le n i k hk) (hvw i k hi hk))
    refine (sumle _ _ this).trans (le_of_eq ?_)
    field_simp
  have p := chebSum_perturb (n := n) (c := a) (d := fun i => ∑ k ∈ range n, chebInverse n i k * q k)
    (ε := n * (η * (1 + B))) (t := t) ht1 (fun i hi => by
      rw [ha, ← sum_sub_distrib]
      refine sumle _ _ fun k hk => ?_
      rw [← sub_mul, abs_mul]
      exact mul_le_mul (hvw i k hi hk) (qB k hk) (abs_nonneg _) hη)
  rw [chebSum_node (chebInverse_inverse n) q hj] at p
  have p' := chebSum_lipschitz aA hs1 ht1
  have p'' : (n : ℝ) * (n ^ 2 * ((2 + n * η) * (1 + B)) * |s - t|) ≤
      n * (n ^ 2 * ((2 + n * η) * (1 + B)) * (80 * u * (1 + M) / Λ)) := by
    refine mul_le_mul_of_nonneg_left (mul_le_mul_of_nonneg_left hst (by positivity)) hn0.le
  -- putting it together
  have hy : (0 : ℝ) < |m (d j)| + 1 / 10 ^ 20 := by positivity
  have hlast : |c10 * Real.log (|m (d j)| + 1 / 10 ^ 20) - Real.logb 10 (|m (d j)| + 1 / 10 ^ 20)| ≤ 1 / 10 ^ 8 * B := by
    have l10' : 1 ≤ Real.log 10 := by
      have := BDMath.c10_log
      rw [abs_le] at this
      nlinarith [this.1]
    have e : c10 * Real.log (|m (d j)| + 1 / 10 ^ 20) - Real.logb 10 (|m (d j)| + 1 / 10 ^ 20) =
        (c10 * Real.log 10 - 1) * (Real.log (|m (d j)| + 1 / 10 ^ 20) / Real.log 10) := by
      rw [Real.logb]; field_simp
    rw [e, abs_mul, abs_div, abs_of_pos l10]
    exact mul_le_mul BDMath.c10_log ((div_le_self (abs_nonneg _) l10').trans (hB j hj)) (by positivity) (by norm_num)
  have i1 := interp_ok debug hlt (BDMath.log10 sp nu) c n hn (L.SetInterpCoeffs sp v m)
  rw [← hs] at i1
  have i2 : chebSum n (fun i => L.SetInterpCoeffs sp v m (c i)) s = chebSum n a s :=
    sum_congr rfl fun i hi => by
      beta_reduce; rw [show L.SetInterpCoeffs sp v m (c i) = _ from c1 i (mem_range.1 hi)]; rfl
  rw [i2] at i1
  refine ⟨chebSum n a s - Real.logb 10 (|m (d j)| + 1 / 10 ^ 20), ?_, ?_⟩
  · have e : chebSum n a s - Real.logb 10 (|m (d j)| + 1 / 10 ^ 20) =
        (chebSum n a s - chebSum n a t) + (chebSum n a t - q j) +
        (q j - c10 * Real.log (|m (d j)| + 1 / 10 ^ 20)) +
        (c10 * Real.log (|m (d j)| + 1 / 10 ^ 20) - Real.logb 10 (|m (d j)| + 1 / 10 ^ 20)) := by ring
    rw [e]
    refine (abs_add_le _ _).trans ?_
    have t1 := (abs_add_le (chebSum n a s - chebSum n a t + (chebSum n a t - q j))
      (q j - c10 * Real.log (|m (d j)| + 1 / 10 ^ 20)))
    have t2 := abs_add_le (chebSum n a s - chebSum n a t) (chebSum n a t - q j)
    have t3 := qnear j hj
    have e2 : (1 + B) * (n ^ 3 * (2 + n * η) * (80 * u * (1 + M) / Λ) + n ^ 2 * η + 4 * u + 1 / 10 ^ 8) =
        n * (n ^ 2 * ((2 + n * η) * (1 + B)) * (80 * u * (1 + M) / Λ)) + n * (n * (η * (1 + B))) + 4 * u * (1 + B) +
        (1 / 10 ^ 8 * B + 1 / 10 ^ 8) := by ring
    rw [e2]
    linarith
  · unfold LogCheb.eval
    show (Chebyshev.InterpFromCoeffs debug (BDMath.log10 sp nu) (BDMath.log10 sp lo) (BDMath.log10 sp hi) c (n : ℤ)
      (L.SetInterpCoeffs sp v m)).bind _ = _
    rw [i1]
    simp only [bind_def, ok_bind, areal]
    congr 1
    push_cast
    rw [Real.rpow_sub (by norm_num), Real.rpow_logb (by norm_num) (by norm_num) hy, mul_div_cancel₀ _ hy.ne']

/-- C43: the same with a shipped Vandermonde table in IEEE single precision. -/
theorem C43_logcheb_shipped_partial (debug : Bool) {lo hi M : ℝ} (h0 : 2 ^ (-126 : ℤ) ≤ lo) (h : lo < hi)
    (h1 : hi ≤ 2 ^ (127 : ℤ)) (M0 : |Real.log lo| ≤ M) (M1 : |Real.log hi| ≤ M)
    (hres : 40 * 2 ^ (-24 : ℤ) * (1 + M) ≤ Real.log hi - Real.log lo) (n : ℕ) (t : Opac.Chebyshev.Table)
    (ht : (n, t) ∈ shipped) {d l c : Indexer} (hd : Disjoint3 d l c n) (m : Heap ℝ) {B : ℝ}
    (hm : ∀ k, k < n → |m (d k)| ≤ 2 ^ (126 : ℤ)) (hB : ∀ k, k < n → |Real.log (|m (d k)| + 1 / 10 ^ 20)| ≤ B)
    (j : ℕ) (hj : j < n) :
    let L := LogCheb.mk' binary32 (n : ℤ) d l c lo hi
    ∃ ε, |ε| ≤ (1 + B) * (n ^ 3 * (2 + n * (5 / 10 ^ 15)) *
        (80 * 2 ^ (-24 : ℤ) * (1 + M) / (Real.log hi - Real.log lo)) +
        n ^ 2 * (5 / 10 ^ 15) + 4 * 2 ^ (-24 : ℤ) + 1 / 10 ^ 8) ∧
      L.eval binary32 debug ((10 : ℝ) ^ chebNode (Real.logb 10 lo) (Real.logb 10 hi) n j)
        (L.SetInterpCoeffs binary32 t.at m) = ok ((|m (d j)| + 1 / 10 ^ 20) * (10 : ℝ) ^ ε) := by
  have hI := INT_MAX_eq
  have hn : (n : ℤ) ≤ Opac.Chebyshev.INT_MAX := by
    simp only [shipped, List.mem_cons, Prod.mk.injEq, List.not_mem_nil, or_false] at ht
    omega
  exact (C43_logcheb_partial binary32_rounds binary32_ordered (by positivity) (by norm_num) debug h0 h h1 M0 M1 hres n hn
    hd (chebInverse_inverse n) (fun i k hi hk => C42_tables n t ht _ (chebInverse_inverse n) i k hi hk) m hm hB).1 j hj

/-- nine values `-3` over `[1, 100]` with the shipped table: the value at `10` is `3` within ten percent -/
example : let L := LogCheb.mk' binary32 (9 : ℤ) (fun i => i) (fun i => 10 + i) (fun i => 20 + i) (1 : ℝ) 100
    ∃ ε : ℝ, |ε| ≤ 4 / 100 ∧ L.eval binary32 true 10 (L.SetInterpCoeffs binary32 Opac.Chebyshev.Vandermonde9.at
      (fun _ => -3)) = ok ((3 + 1 / 10 ^ 20) * (10 : ℝ) ^ ε) := by
  intro L
  have e100 : Real.log 100 = 2 * Real.log 10 := by
    rw [show (100 : ℝ) = 10 ^ 2 by norm_num, Real.log_pow]; push_cast; ring
  have c := BDMath.c10_log
  have c0 := BDMath.c10_lo
  have c1 := BDMath.c10_hi
  have l0 : 0 < Real.log 10 := Real.log_pos (by norm_num)
  rw [abs_le] at c
  have l5 : Real.log 100 ≤ 5 := by rw [e100]; nlinarith [c.2]
  have l4 : 4 ≤ Real.log 100 := by rw [e100]; nlinarith [c.1]
  have e24 : (2 : ℝ) ^ (-24 : ℤ) = 1 / 16777216 := by norm_num
  obtain ⟨ε, h1, h2⟩ := C43_logcheb_shipped_partial true (lo := 1) (hi := 100) (M := 5) (by norm_num) (by norm_num)
    (by norm_num) (by norm_num) (by rw [abs_of_nonneg (by linarith)]; exact l5)
    (by rw [e24, Real.log_one]; norm_num; linarith) 9 Opac.Chebyshev.Vandermonde9 (by simp [shipped])
    (d := fun i => i) (l := fun i => 10 + i) (c := fun i => 20 + i)
    ⟨⟨fun i j _ _ h => by omega, fun i j _ _ h => by omega⟩, ⟨fun i j _ _ h => by omega, fun i j _ _ h => by omega⟩,
      ⟨fun i j _ _ h => by omega, fun i j _ _ h => by omega⟩⟩
    (fun _ => -3) (B := 2) (fun _ _ => by norm_num) (fun _ _ => by
      rw [abs_of_nonneg (Real.log_nonneg (by norm_num)), Real.log_le_iff_le_exp (by norm_num)]
      have := Real.add_one_le_exp (1 : ℝ)
      have e : Real.exp 2 = Real.exp 1 * Real.exp 1 := by rw [← Real.exp_add]; norm_num
      have : (4 : ℝ) ≤ Real.exp 2 := by rw [e]; nlinarith
      refine le_trans ?_ this
      norm_num) 4 (by norm_num)
  refine ⟨ε, h1.trans ?_, ?_⟩
  · rw [e24, Real.log_one, sub_zero]
    have : 80 * (1 / 16777216) * (1 + 5) / Real.log 100 ≤ 72 / 10000000 := by
      rw [div_le_iff₀ (by linarith)]; norm_num; linarith
    generalize (80 * (1 / 16777216) * (1 + 5) / Real.log 100 : ℝ) = z at this ⊢
    norm_num
    linarith
  · have e : chebNode (Real.logb 10 1) (Real.logb 10 100) 9 4 = 1 := by
      rw [chebNode, chebPoint, show (2 * ((4 : ℕ) : ℝ) + 1) * Real.pi / (2 * ((9 : ℕ) : ℝ)) = Real.pi / 2 by
        push_cast; ring, Real.cos_pi_div_two, Real.logb_one, show (100 : ℝ) = 10 ^ (2 : ℝ) by norm_num,
        Real.logb_rpow (by norm_num) (by norm_num)]
      norm_num
    rw [e, Real.rpow_one] at h2
    rw [abs_neg, abs_of_pos (by norm_num : (0 : ℝ) < 3)] at h2
    exact h2

end Opac.Props
