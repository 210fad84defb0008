import Verif.Props.Indexers
import Verif.Lemmas.Interp
import Verif.Lemmas.TableAccess

/-!
# C86: piecewise-linear indexers, inside and outside of their range
-/

namespace Opac.Props
open Opac.Spec Outcome Finset Spiner Indexers
open Opac.Photons (lin ramp lerp_lin lin_mono_x continuous_lin dx_eq)
open BDMath (Single)

/-! ### Element access, in every arithmetic -/

section
variable {R : Type} [Arith R]

/-- **C86 (data)**: an indexer made from `N` data shows these data, the `i`-th at index `i`; an indexer made from a table shows the
elements of the table. -/
theorem C86_data (sp : Single R) (data : ℕ → R) (box : DataBox R) (lo hi : R) (N : ℤ) :
    (∀ i : ℕ, (i : ℤ) < N → (Linear.ofData data lo hi N).get i = ok (data i) ∧ (LogLinear.ofData sp data lo hi N).get i = ok (data i)) ∧
    ∀ i : ℤ, (Linear.ofBox box lo hi N).get i = box.read [i] ∧ (LogLinear.ofBox sp box lo hi N).get i = box.read [i] := by
  refine ⟨fun i hiN => ⟨?_, ?_⟩, fun i => ⟨rfl, rfl⟩⟩
  · have := read1 (Linear.ofData data lo hi N).data_ (N := N) rfl i (by omega) hiN
    rw [Linear.get, this]
    rfl
  · have := read1 (LogLinear.ofData sp data lo hi N).data_ (N := N) rfl i (by omega) hiN
    rw [LogLinear.get, this]
    rfl

/-- reading an element of a table with one index -/
theorem read1_iff (d : DataBox R) {N : ℤ} (hd : d.dims = [N]) (i : ℤ) : (d.read [i]).DefinedIff ((0 ≤ i ∧ i < N) ∧ True) :=
  (read_iff d [i]).congr (by rw [hd]; simp [InRange])

/-- **C86 (defined)**: an indexer with two or more data answers for every frequency, whatever its range, also outside of it and
also for NaN.  With fewer data no answer is defined: the evaluation reads before the first element. -/
theorem C86_defined {sp : Single R} {lo hi : R} {N : ℤ} :
    (∀ l : Linear R, LinearMade lo hi N l → ∀ nu, (2 ≤ N → ∃ y, l.eval nu = ok y) ∧ (N < 2 → (l.eval nu).IsUB)) ∧
    (∀ l : LogLinear R, LogLinearMade sp lo hi N l → ∀ nu, (2 ≤ N → ∃ y, l.eval sp nu = ok y) ∧ (N < 2 → (l.eval sp nu).IsUB)) := by
  have key : ∀ (d : DataBox R) (a b : R), d.dims = [N] → d.grid 0 = ⟨a, b, N⟩ → ∀ x,
      (2 ≤ N → ∃ y, interp1 d x = ok y) ∧ (N < 2 → (interp1 d x).IsUB) := by
    intro d a b h1 h2 x
    have := lerp_iff (d.grid 0) x (f := fun i => d.read [i]) (c := True) (fun i => by rw [h2]; exact read1_iff d h1 i)
    rw [h2] at this
    refine ⟨fun h => ?_, fun h => ?_⟩
    · rw [interp1, h2]; exact this.1 ⟨h, trivial⟩
    · rw [interp1, h2]; exact this.2 (fun hc => by have := hc.1; simp only at this; omega)
  exact ⟨fun l hl nu => key _ _ _ hl.meta.1 hl.meta.2 nu, fun l hl nu => key _ _ _ hl.meta.1 hl.meta.2 _⟩

end

/-! ### The interpolation, over the reals -/

/-- the interpolation in closed form, cell by cell; the first and the last cell extend without bound -/
theorem lin_shape (g : Grid ℝ) (hlt : g.min < g.max) (v : ℤ → ℝ) {i : ℕ} (hi : (i : ℤ) + 1 < g.N) {x : ℝ}
    (h0 : i = 0 ∨ g.min + i * ((g.max - g.min) / (g.N - 1)) ≤ x)
    (h1 : (i : ℤ) + 2 = g.N ∨ x ≤ g.min + (i + 1) * ((g.max - g.min) / (g.N - 1))) :
    lin g v x = v i + (x - (g.min + i * ((g.max - g.min) / (g.N - 1)))) / ((g.max - g.min) / (g.N - 1)) * (v (i + 1) - v i) := by
  have hN' : (2 : ℝ) ≤ g.N := by exact_mod_cast (by omega : (2 : ℤ) ≤ g.N)
  have hw : 0 < (g.max - g.min) / ((g.N : ℝ) - 1) := div_pos (by linarith) (by linarith)
  unfold lin
  obtain ⟨M, hM⟩ : ∃ M : ℕ, g.N - 1 = M := ⟨(g.N - 1).toNat, by omega⟩
  rw [show (g.N - 1).toNat = M by omega]
  generalize (g.max - g.min) / ((g.N : ℝ) - 1) = w at *
  obtain ⟨q, hq⟩ : ∃ q, q = (x - g.min) / w := ⟨_, rfl⟩
  have q0 : i = 0 ∨ (i : ℝ) ≤ q := h0.imp_right fun h => by rw [hq, le_div_iff₀ hw]; linarith
  have q1 : i + 1 = M ∨ q ≤ i + 1 := by
    rcases h1 with h | h
    · left; omega
    · right; rw [hq, div_le_iff₀ hw]; linarith
  have e : (x - (g.min + i * w)) / w = q - i := by rw [hq]; field_simp; ring
  have hr : ramp M i q = q - i := by
    unfold ramp
    split_ifs with c1 c2 c2
    · subst c1; simp
    · subst c1
      rw [min_eq_left]
      · simp
      · rcases q1 with h | h
        · omega
        · simpa using h
    · rcases q0 with h | h
      · omega
      · rw [max_eq_left (by linarith)]
    · rcases q0 with h | h
      · omega
      · rcases q1 with h' | h'
        · omega
        · rw [min_eq_left (by linarith), max_eq_right (by linarith)]
  rw [e, ← hq]
  rw [Photons.lin_sum v M i (by omega) (fun k => ramp M k q)]
  · rw [hr]; ring
  · intro k hk
    have h2 : (k : ℝ) + 1 ≤ q := by
      rcases q0 with h | h
      · omega
      · have : (k : ℝ) + 1 ≤ i := by exact_mod_cast hk
        linarith
    have hk0 : (0 : ℝ) ≤ k := Nat.cast_nonneg k
    simp only [ramp]
    split_ifs with c1 c2 c2
    · omega
    · exact min_eq_right (by linarith)
    · omega
    · rw [min_eq_right (by linarith), max_eq_right (by norm_num)]
  · intro k hk hkM
    have h2 : q ≤ k := by
      rcases q1 with h | h
      · omega
      · have : (i : ℝ) + 1 ≤ k := by exact_mod_cast hk
        linarith
    simp only [ramp]
    split_ifs with c1 c2 c2
    · omega
    · omega
    · exact max_eq_right (by linarith)
    · rw [min_eq_left (by linarith), max_eq_left (by linarith)]

/-- evaluation of the linear indexer in closed form -/
theorem linear_eval {lo hi : ℝ} (h : lo < hi) {N : ℤ} (hN : 2 ≤ N) {l : Linear ℝ} (hl : LinearMade lo hi N l) {v : ℕ → ℝ}
    (hv : ∀ i : ℕ, (i : ℤ) < N → l.get i = ok (v i)) (nu : ℝ) : l.eval nu = ok (lin ⟨lo, hi, N⟩ (fun k => v k.toNat) nu) := by
  obtain ⟨-, hg⟩ := hl.meta
  rw [Linear.eval, interp1, hg]
  refine lerp_lin ⟨lo, hi, N⟩ hN h nu _ (fun k => v k.toNat) fun k k0 k1 => ?_
  obtain ⟨i, rfl⟩ := Int.eq_ofNat_of_zero_le k0
  exact hv i k1

/-- evaluation of the log-linear indexer in closed form -/
theorem loglinear_eval {sp : Single ℝ} {lo hi : ℝ} (h : BDMath.log10 sp lo < BDMath.log10 sp hi) {N : ℤ} (hN : 2 ≤ N)
    {l : LogLinear ℝ} (hl : LogLinearMade sp lo hi N l) {v : ℕ → ℝ} (hv : ∀ i : ℕ, (i : ℤ) < N → l.get i = ok (v i)) (nu : ℝ) :
    l.eval sp nu = ok (lin ⟨BDMath.log10 sp lo, BDMath.log10 sp hi, N⟩ (fun k => v k.toNat) (BDMath.log10 sp nu)) := by
  obtain ⟨-, hg⟩ := hl.meta
  rw [LogLinear.eval, interp1, hg]
  refine lerp_lin ⟨_, _, N⟩ hN h _ _ (fun k => v k.toNat) fun k k0 k1 => ?_
  obtain ⟨i, rfl⟩ := Int.eq_ofNat_of_zero_le k0
  exact hv i k1

/-- **C86 (shape)**: between the nodes `i` and `i + 1` the linear indexer returns the value of the straight line through the data of
these nodes; before the first node and beyond the last one it continues the line of the first and of the last cell. -/
theorem C86_shape {lo hi : ℝ} (h : lo < hi) {N : ℤ} (hN : 2 ≤ N) {l : Linear ℝ} (hl : LinearMade lo hi N l) {v : ℕ → ℝ}
    (hv : ∀ i : ℕ, (i : ℤ) < N → l.get i = ok (v i)) {w : ℝ} (hw : w = (hi - lo) / (N - 1)) {i : ℕ} (hi : (i : ℤ) + 1 < N) {nu : ℝ}
    (h0 : i = 0 ∨ lo + i * w ≤ nu) (h1 : (i : ℤ) + 2 = N ∨ nu ≤ lo + (i + 1) * w) :
    l.eval nu = ok (v i + (nu - (lo + i * w)) / w * (v (i + 1) - v i)) := by
  subst hw
  rw [linear_eval h hN hl hv, lin_shape ⟨lo, _, N⟩ h _ hi h0 h1]
  rfl

/-- **C86 (straight lines)**: data on a straight line are reproduced at every frequency. -/
theorem C86_affine {lo hi : ℝ} (h : lo < hi) {N : ℤ} (hN : 2 ≤ N) {l : Linear ℝ} (hl : LinearMade lo hi N l) {p s : ℝ}
    (hv : ∀ i : ℕ, (i : ℤ) < N → l.get i = ok (p + s * (lo + i * ((hi - lo) / (N - 1))))) (nu : ℝ) :
    l.eval nu = ok (p + s * nu) := by
  have hN' : (2 : ℝ) ≤ N := by exact_mod_cast hN
  have hw : 0 < (hi - lo) / ((N : ℝ) - 1) := div_pos (by linarith) (by linarith)
  obtain ⟨i, hi1, h0, h1⟩ : ∃ i : ℕ, (i : ℤ) + 1 < N ∧ (i = 0 ∨ lo + i * ((hi - lo) / (N - 1)) ≤ nu) ∧
      ((i : ℤ) + 2 = N ∨ nu ≤ lo + (i + 1) * ((hi - lo) / (N - 1))) := by
    rcases le_or_gt nu lo with h2 | h2
    · exact ⟨0, by push_cast; omega, .inl rfl, .inr (by push_cast; nlinarith)⟩
    · rcases le_or_gt nu hi with h3 | h3
      · obtain ⟨i, i1, i2, i3⟩ := cell_exists h hN h2.le h3
        exact ⟨i, i1, .inr i2, .inr i3⟩
      · refine ⟨(N - 2).toNat, by omega, .inr ?_, .inl (by omega)⟩
        have : (((N - 2).toNat : ℕ) : ℝ) = N - 2 := by
          have : (((N - 2).toNat : ℕ) : ℤ) = N - 2 := by omega
          exact_mod_cast congrArg (Int.cast (R := ℝ)) this
        rw [this]
        have : ((N : ℝ) - 1) * ((hi - lo) / (N - 1)) = hi - lo := mul_div_cancel₀ _ (by linarith)
        nlinarith
  rw [C86_shape h hN hl (v := fun i : ℕ => p + s * (lo + i * ((hi - lo) / (N - 1)))) hv rfl hi1 h0 h1]
  congr 1
  push_cast
  have : (nu - (lo + i * ((hi - lo) / ((N : ℝ) - 1)))) / ((hi - lo) / (N - 1)) * ((hi - lo) / (N - 1)) =
      nu - (lo + i * ((hi - lo) / (N - 1))) := div_mul_cancel₀ _ hw.ne'
  linear_combination s * this

/-- **C86 (order)**: if the data never decrease, neither do the values at growing frequencies, inside and outside of the range:
for the linear indexer at all frequencies, for the log-linear one at all positive ones (that are normal numbers in single
precision). -/
theorem C86_mono {sp : Single ℝ} (ho : sp.Ordered) {lo hi : ℝ} {N : ℤ} (hN : 2 ≤ N) {v : ℕ → ℝ}
    (hv : ∀ i : ℕ, (i : ℤ) + 1 < N → v i ≤ v (i + 1)) {nu nu' : ℝ} (hnu : nu ≤ nu') :
    (∀ l : Linear ℝ, LinearMade lo hi N l → lo < hi → (∀ i : ℕ, (i : ℤ) < N → l.get i = ok (v i)) →
      ∃ y y', l.eval nu = ok y ∧ l.eval nu' = ok y' ∧ y ≤ y') ∧
    ∀ l : LogLinear ℝ, LogLinearMade sp lo hi N l → BDMath.log10 sp lo < BDMath.log10 sp hi → 2 ^ (-126 : ℤ) ≤ nu →
      (∀ i : ℕ, (i : ℤ) < N → l.get i = ok (v i)) → ∃ y y', l.eval sp nu = ok y ∧ l.eval sp nu' = ok y' ∧ y ≤ y' :=
  ⟨fun _ hl h hg => ⟨_, _, linear_eval h hN hl hg nu, linear_eval h hN hl hg nu', lin_mono_x _ hN h (v := fun k => v k.toNat) hv hnu⟩,
    fun _ hl h h0 hg => ⟨_, _, loglinear_eval h hN hl hg nu, loglinear_eval h hN hl hg nu',
      lin_mono_x _ hN h (v := fun k => v k.toNat) hv (BDMath.log10_mono ho h0 hnu)⟩⟩

/-- **C86 (continuity)**: the value of a linear indexer depends continuously on the frequency. -/
theorem C86_continuous {lo hi : ℝ} (h : lo < hi) {N : ℤ} (hN : 2 ≤ N) {l : Linear ℝ} (hl : LinearMade lo hi N l) :
    ∃ f : ℝ → ℝ, Continuous f ∧ ∀ nu, l.eval nu = ok (f nu) := by
  obtain ⟨hd, -⟩ := hl.meta
  refine ⟨fun nu => lin ⟨lo, hi, N⟩ (fun k => l.data_.data k.toNat) nu, continuous_lin (v := fun _ k => l.data_.data k.toNat) _ (fun _ => continuous_const) continuous_id,
    fun nu => linear_eval h hN hl (v := fun i => l.data_.data i) (fun i hi => ?_) nu⟩
  rw [Linear.get, read1 _ hd _ (by omega) hi]
  rfl

/-- **C86 (sign)**: positive data do not give positive values outside of the range.  Whenever the last datum is smaller than the one
before, the value is negative at every frequency from some point on. -/
theorem C86_negative {lo hi : ℝ} (h : lo < hi) {N : ℕ} (hN : 2 ≤ N) {l : Linear ℝ} (hl : LinearMade lo hi N l) {a b : ℝ}
    (ha : l.get (N - 2 : ℕ) = ok a) (hb : l.get (N - 1 : ℕ) = ok b) (hab : b < a) :
    ∃ nu₀, hi ≤ nu₀ ∧ ∀ nu, nu₀ < nu → ∃ y, l.eval nu = ok y ∧ y < 0 := by
  obtain ⟨hd, -⟩ := hl.meta
  have hN' : (2 : ℝ) ≤ N := by exact_mod_cast hN
  have hNz : (2 : ℤ) ≤ N := by exact_mod_cast hN
  have hv : ∀ i : ℕ, (i : ℤ) < N → l.get i = ok (l.data_.data i) := fun i hi => by
    rw [Linear.get, read1 _ hd _ (by omega) hi]
    rfl
  have hva := (hv (N - 2) (by omega)).symm.trans ha
  have hvb := (hv (N - 1) (by omega)).symm.trans hb
  obtain ⟨w, hw⟩ : ∃ w, w = (hi - lo) / ((N : ℤ) - 1 : ℝ) := ⟨_, rfl⟩
  have hw0 : 0 < w := by rw [hw]; exact div_pos (by linarith) (by push_cast; linarith)
  have hwm : ((N : ℝ) - 1) * w = hi - lo := by
    rw [hw]; push_cast
    have : (N : ℝ) - 1 ≠ 0 := by linarith
    field_simp
  have hc : ((N - 2 : ℕ) : ℝ) = N - 2 := by push_cast [hN]; ring
  have hq : 0 ≤ w * (|b| / (a - b)) := by
    have : 0 < a - b := by linarith
    positivity
  refine ⟨hi + w * (|b| / (a - b)), by linarith, fun nu hnu => ?_⟩
  have e := C86_shape h hNz hl hv hw (i := N - 2) (by omega) (nu := nu) (.inr (by rw [hc]; nlinarith)) (.inl (by omega))
  refine ⟨_, e, ?_⟩
  have e1 := Outcome.ok.inj hva
  have e2 := Outcome.ok.inj hvb
  rw [show N - 2 + 1 = N - 1 by omega, e1, e2, hc]
  have key : (nu - (lo + ((N : ℝ) - 2) * w)) / w > 1 + |b| / (a - b) := by
    rw [gt_iff_lt, lt_div_iff₀ hw0]
    nlinarith
  have hab' : 0 < a - b := by linarith
  have : |b| / (a - b) * (a - b) = |b| := by field_simp
  have := le_abs_self b
  nlinarith

/-- **C86 (length)**: the constructor from a table of `M` elements takes the number `N` of nodes separately and does not compare the
two.  With `N ≤ M` every answer is defined; with `N > M` the value at the upper end of the range is not: it is read beyond the
table. -/
theorem C86_length (box : DataBox ℝ) {M : ℤ} (hd : box.dims = [M]) {lo hi : ℝ} (h : lo < hi) {N : ℤ} (hN : 2 ≤ N) :
    (N ≤ M → ∀ nu, ∃ y, (Linear.ofBox box lo hi N).eval nu = ok y) ∧ (M < N → ((Linear.ofBox box lo hi N).eval hi).IsUB) := by
  have hg : (Linear.ofBox box lo hi N).data_.grid 0 = ⟨lo, hi, N⟩ := by simp [Linear.ofBox, DataBox.setRange]
  have hd' : (Linear.ofBox box lo hi N).data_.dims = [M] := hd
  generalize (Linear.ofBox box lo hi N) = l at *
  refine ⟨fun hM nu => ?_, fun hM => ?_⟩
  · rw [Linear.eval, interp1, hg]
    exact lerp_ok _ nu _ hN fun i h0 h1 => ⟨_, read1 _ hd' i h0 (by simp only at h1; omega)⟩
  · have hN' : (2 : ℝ) ≤ N := by exact_mod_cast hN
    have hidx : (⟨lo, hi, N⟩ : Grid ℝ).index hi = N - 2 := by
      rw [index_real]
      have hq : (hi - lo) / (⟨lo, hi, N⟩ : Grid ℝ).dx = ((N - 1 : ℤ) : ℝ) := by
        rw [dx_eq, div_div_cancel₀ (by linarith)]
        push_cast
        ring
      simp only [hq]
      have ht : Arith.toInt (((N - 1 : ℤ) : ℝ)) = N - 1 := by
        show (if (0 : ℝ) ≤ ((N - 1 : ℤ) : ℝ) then ⌊((N - 1 : ℤ) : ℝ)⌋ else _) = _
        rw [if_pos (by push_cast; linarith), Int.floor_intCast]
      rw [ht]
      simp only [Grid.bound]
      split_ifs <;> omega
    rw [Linear.eval, interp1, hg, DataBox.lerp, hidx]
    by_cases h2 : N - 2 < M
    · rw [read1 _ hd' _ (by omega) h2]
      obtain ⟨w, hw⟩ := (read1_iff l.data_ hd' (N - 2 + 1)).2 (by omega)
      exact ⟨w, by rw [hw]; rfl⟩
    · obtain ⟨w, hw⟩ := (read1_iff l.data_ hd' (N - 2)).2 (by omega)
      exact ⟨w, by rw [hw]; rfl⟩

/-! ### The hypotheses are met -/

/-- three data on `[1, 3]`: values inside, beyond both ends, and a negative value from positive data -/
example : ∃ l : Linear ℝ, LinearMade 1 3 ((3 : ℕ) : ℤ) l ∧ (∀ i : ℕ, (i : ℤ) < 3 → l.get i = ok (5 - (i : ℝ) * i)) ∧
    l.eval (3 / 2) = ok (9 / 2) ∧ l.eval 0 = ok 6 ∧ l.eval 4 = ok (-2) ∧
    ∃ nu₀, 3 ≤ nu₀ ∧ ∀ nu, nu₀ < nu → ∃ y, l.eval nu = ok y ∧ y < 0 := by
  have hl : LinearMade (1 : ℝ) 3 ((3 : ℕ) : ℤ) (Linear.ofData (fun i => 5 - (i : ℝ) * i) 1 3 ((3 : ℕ) : ℤ)) := .ofData _
  have hv : ∀ i : ℕ, (i : ℤ) < ((3 : ℕ) : ℤ) → (Linear.ofData (fun i : ℕ => 5 - (i : ℝ) * i) 1 3 ((3 : ℕ) : ℤ)).get i =
      ok (5 - (i : ℝ) * i) := fun i hi => by
    rw [((C86_data binary32 (fun i : ℕ => 5 - (i : ℝ) * i) ⟨[], fun _ => Grid.none, fun _ => 0⟩ 1 3 ((3 : ℕ) : ℤ)).1 i hi).1]
  refine ⟨_, hl, fun i hi => hv i (by push_cast; exact hi), ?_, ?_, ?_, ?_⟩
  · rw [C86_shape (by norm_num) (by norm_num) hl hv rfl (i := 0) (by norm_num) (.inl rfl) (.inr (by norm_num))]; norm_num
  · rw [C86_shape (by norm_num) (by norm_num) hl hv rfl (i := 0) (by norm_num) (.inl rfl) (.inr (by norm_num))]; norm_num
  · rw [C86_shape (by norm_num) (by norm_num) hl hv rfl (i := 1) (by norm_num) (.inr (by norm_num)) (.inl (by norm_num))]; norm_num
  · exact C86_negative (by norm_num) (by norm_num) hl (a := 4) (b := 1)
      ((hv 1 (by norm_num)).trans (by norm_num)) ((hv 2 (by norm_num)).trans (by norm_num)) (by norm_num)

end Opac.Props
