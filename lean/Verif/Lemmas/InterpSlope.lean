import Verif.Lemmas.Interp

/-!
# How fast an interpolation changes

Interpolation is nowhere steeper, and nowhere flatter, than its data.
-/

namespace Opac.Photons
open Arith Outcome Spec Spiner

/-- distance of adjacent nodes -/
noncomputable def stepOf (g : Grid ℝ) : ℝ := (g.max - g.min) / (g.N - 1)

theorem ramp_sum (M : ℕ) (hM : 1 ≤ M) (q : ℝ) : ∑ k ∈ Finset.range M, ramp M k q = q := by
  by_cases h1 : M = 1
  · subst h1
    simp [ramp]
  have e : ∀ j : ℕ, 1 ≤ j → j < M → ∑ k ∈ Finset.range j, ramp M k q = min q j := by
    intro j hj
    induction j, hj using Nat.le_induction with
    | base =>
      intro _
      simp [ramp, h1]
    | succ j hj ih =>
      intro hM'
      rw [Finset.sum_range_succ, ih (by omega)]
      unfold ramp
      rw [if_neg (by omega), if_neg (by omega)]
      push_cast
      rcases le_total q j with a | a
      · rw [min_eq_left a, max_eq_left (le_trans (min_le_left _ _) (by linarith)), min_eq_left (by linarith), add_zero]
      · rw [min_eq_right a]
        rcases le_total q (j + 1) with b | b
        · rw [min_eq_left (by linarith : q - j ≤ 1), max_eq_right (by linarith), min_eq_left b]
          ring
        · rw [min_eq_right (by linarith : 1 ≤ q - j), max_eq_right zero_le_one, min_eq_right b]
  obtain ⟨j, rfl⟩ : ∃ j, M = j + 1 := ⟨M - 1, by omega⟩
  rw [Finset.sum_range_succ, e j (by omega) (by omega)]
  unfold ramp
  rw [if_neg (by omega), if_pos rfl]
  rcases le_total q j with a | a
  · rw [min_eq_left a, max_eq_right (by linarith), add_zero]
  · rw [min_eq_right a, max_eq_left (by linarith)]
    ring

theorem lin_add (g : Grid ℝ) (v : ℤ → ℝ) (c x : ℝ) : lin g (fun k => v k + c) x = lin g v x + c := by
  unfold lin
  simp only [add_sub_add_right_eq_sub]
  ring

theorem mlin_add : ∀ (gs : List (Grid ℝ)) (v : List ℤ → ℝ) (c : ℝ) (xs : List ℝ), mlin gs (fun is => v is + c) xs = mlin gs v xs + c
  | g :: gs, v, c, x :: xs => by
    simp only [mlin]
    rw [← lin_add]
    congr 1
    funext k
    exact mlin_add gs (fun is => v (k :: is)) c xs
  | [], _, _, _ => rfl
  | _ :: _, _, _, [] => rfl

theorem lin_neg (g : Grid ℝ) (v : ℤ → ℝ) (x : ℝ) : lin g (fun k => -v k) x = -lin g v x := by
  unfold lin
  rw [neg_add, ← Finset.sum_neg_distrib]
  congr 1
  exact Finset.sum_congr rfl fun k _ => by ring

theorem mlin_neg : ∀ (gs : List (Grid ℝ)) (v : List ℤ → ℝ) (xs : List ℝ), gs.length = xs.length →
    mlin gs (fun is => -v is) xs = -mlin gs v xs
  | g :: gs, v, x :: xs, h => by
    simp only [mlin]
    rw [← lin_neg]
    congr 1
    funext k
    exact mlin_neg gs (fun is => v (k :: is)) xs (by simpa using h)
  | [], _, _, _ => rfl
  | _ :: _, _, [], h => absurd h (by simp)

/-- steps of at least `a` times the node distance give a slope of at least `a` -/
theorem lin_slope (g : Grid ℝ) (hp : Proper g) {v : ℤ → ℝ} {a : ℝ}
    (hv : ∀ k : ℕ, (k : ℤ) + 1 < g.N → a * stepOf g ≤ v (k + 1) - v k) {x y : ℝ} (hxy : x ≤ y) :
    a * (y - x) ≤ lin g v y - lin g v x := by
  have hd : 0 < stepOf g := by unfold stepOf; rw [← dx_eq]; exact dx_pos g hp.1 hp.2
  have hq : ∀ z, (z - g.min) / ((g.max - g.min) / (g.N - 1)) = (z - g.min) / stepOf g := fun _ => rfl
  unfold lin
  rw [add_sub_add_left_eq_sub, ← Finset.sum_sub_distrib]
  have M1 : 1 ≤ (g.N - 1).toNat := by have := hp.1; omega
  calc a * (y - x) = a * stepOf g * ((y - g.min) / stepOf g - (x - g.min) / stepOf g) := by field_simp; ring
    _ = ∑ k ∈ Finset.range (g.N - 1).toNat, a * stepOf g *
        (ramp (g.N - 1).toNat k ((y - g.min) / stepOf g) - ramp (g.N - 1).toNat k ((x - g.min) / stepOf g)) := by
      rw [← Finset.mul_sum, Finset.sum_sub_distrib, ramp_sum _ M1, ramp_sum _ M1]
    _ ≤ _ := by
      refine Finset.sum_le_sum fun k hk => ?_
      rw [hq, hq, ← mul_sub]
      have hk' := Finset.mem_range.1 hk
      refine mul_le_mul_of_nonneg_right (hv k (by omega)) (sub_nonneg.2 (ramp_mono _ _ ?_))
      gcongr

/-- the values grow along axis `m` by at least `a` per unit -/
def GrowsAlong (gs : List (Grid ℝ)) (m : ℕ) (a : ℝ) (v : List ℤ → ℝ) : Prop :=
  ∀ is i g, is[m]? = some i → gs[m]? = some g → Indexes gs is → Indexes gs (is.set m (i + 1)) → a * stepOf g ≤ v (is.set m (i + 1)) - v is

theorem mlin_slope : ∀ {gs : List (Grid ℝ)} {m : ℕ} {xs : List ℝ} {x y a : ℝ} {v : List ℤ → ℝ},
    (∀ g ∈ gs, Proper g) → xs.length = gs.length → (∀ k g z, k ≠ m → gs[k]? = some g → xs[k]? = some z → g.min ≤ z ∧ z ≤ g.max) →
    m < gs.length → GrowsAlong gs m a v → x ≤ y → a * (y - x) ≤ mlin gs v (xs.set m y) - mlin gs v (xs.set m x)
  | g :: gs, 0, z :: xs, x, y, a, v, hg, hl, hin, _, hv, hxy => by
    have hp := hg g (by simp)
    have hins : InsideGrids gs xs := by
      refine List.forall₂_iff_get.2 ⟨by simpa using hl.symm, fun k hk hk' => ?_⟩
      exact hin (k + 1) _ _ (by omega) (by simp) (by simp)
    refine lin_slope g hp (fun k hk => ?_) hxy
    rw [le_sub_iff_add_le', ← mlin_add]
    refine mlin_mono_v (fun g' h' => hg g' (by simp [h'])) hins fun is his => ?_
    have := hv ((k : ℤ) :: is) k g (by simp) (by simp) ⟨⟨by omega, by omega⟩, his⟩ ⟨⟨by omega, by omega⟩, his⟩
    simp only [List.set_cons_zero] at this
    linarith
  | g :: gs, m + 1, z :: xs, x, y, a, v, hg, hl, hin, hm, hv, hxy => by
    have hp := hg g (by simp)
    have hz := hin 0 g z (by omega) (by simp) (by simp)
    simp only [List.set_cons_succ, mlin]
    rw [le_sub_iff_add_le', ← lin_add]
    refine lin_mono_v g hp.1 hp.2 (fun k k0 k1 => ?_) hz.1 hz.2
    rw [← le_sub_iff_add_le']
    refine mlin_slope (fun g' h' => hg g' (by simp [h'])) (by simpa using hl)
      (fun k' g' z' hk' h1 h2 => hin (k' + 1) g' z' (by omega) (by simpa using h1) (by simpa using h2))
      (by simpa using hm) (fun is i g' hi hg' h1 h2 => ?_) hxy
    exact hv (k :: is) i g' (by simpa using hi) (by simpa using hg') ⟨⟨k0, k1⟩, h1⟩ ⟨⟨k0, k1⟩, h2⟩
  | [], _, _, _, _, _, _, _, _, _, hm, _, _ => absurd hm (by simp)
  | _ :: _, _, [], _, _, _, _, _, hl, _, _, _, _ => absurd hl (by simp)

/-- weighted distance of two points -/
noncomputable def distanceOf : List ℝ → List ℝ → List ℝ → ℝ
  | P :: Ps, x :: xs, y :: ys => P * |x - y| + distanceOf Ps xs ys
  | _, _, _ => 0

/-- adjacent values along axis `m` differ by at most `Ps[m]` per unit -/
def NeighboursWithin (Ps : List ℝ) (gs : List (Grid ℝ)) (v : List ℤ → ℝ) : Prop :=
  ∀ m is i g P, is[m]? = some i → gs[m]? = some g → Ps[m]? = some P → Indexes gs is → Indexes gs (is.set m (i + 1)) →
    |v (is.set m (i + 1)) - v is| ≤ P * stepOf g

theorem lin_lipschitz (g : Grid ℝ) (hp : Proper g) {v : ℤ → ℝ} {P : ℝ}
    (hv : ∀ k : ℕ, (k : ℤ) + 1 < g.N → |v (k + 1) - v k| ≤ P * stepOf g) (x y : ℝ) : lin g v x - lin g v y ≤ P * |x - y| := by
  rcases le_total x y with h | h
  · have := lin_slope g hp (a := -P) (fun k hk => by have := (abs_le.1 (hv k hk)).1; linarith) h
    rw [abs_of_nonpos (by linarith)]
    linarith
  · have := lin_slope g hp (v := fun k => -v k) (a := -P) (fun k hk => by have := (abs_le.1 (hv k hk)).2; linarith) h
    rw [lin_neg, lin_neg] at this
    rw [abs_of_nonneg (by linarith)]
    linarith

theorem mlin_lipschitz : ∀ {gs : List (Grid ℝ)} {Ps xs ys : List ℝ} {v : List ℤ → ℝ},
    (∀ g ∈ gs, Proper g) → Ps.length = gs.length → InsideGrids gs xs → InsideGrids gs ys → NeighboursWithin Ps gs v →
    mlin gs v xs - mlin gs v ys ≤ distanceOf Ps xs ys
  | [], [], [], [], v, _, _, _, _, _ => by simp [mlin, distanceOf]
  | g :: gs, P :: Ps, x :: xs, y :: ys, v, hg, hl, hx, hy, hv => by
    have hp := hg g (by simp)
    rcases hx with _ | ⟨hx, hxs⟩
    rcases hy with _ | ⟨hy, hys⟩
    have hgs : ∀ g' ∈ gs, Proper g' := fun g' h' => hg g' (by simp [h'])
    have s1 : lin g (fun k => mlin gs (fun is => v (k :: is)) xs) x - lin g (fun k => mlin gs (fun is => v (k :: is)) xs) y ≤ P * |x - y| := by
      refine lin_lipschitz g hp (fun k hk => ?_) x y
      have nb : ∀ is, Indexes gs is → |v ((k + 1 : ℤ) :: is) - v ((k : ℤ) :: is)| ≤ P * stepOf g := fun is his =>
        hv 0 ((k : ℤ) :: is) k g P (by simp) (by simp) (by simp) ⟨⟨by omega, by omega⟩, his⟩ ⟨⟨by omega, by omega⟩, his⟩
      rw [abs_le]
      constructor
      · have := mlin_mono_v (v := fun is => v ((k : ℤ) :: is)) (w := fun is => v ((k + 1 : ℤ) :: is) + P * stepOf g) hgs hxs
          fun is his => by have := (abs_le.1 (nb is his)).1; linarith
        rw [mlin_add] at this
        linarith
      · have := mlin_mono_v (v := fun is => v ((k + 1 : ℤ) :: is)) (w := fun is => v ((k : ℤ) :: is) + P * stepOf g) hgs hxs
          fun is his => by have := (abs_le.1 (nb is his)).2; linarith
        rw [mlin_add] at this
        linarith
    have s2 : lin g (fun k => mlin gs (fun is => v (k :: is)) xs) y ≤ lin g (fun k => mlin gs (fun is => v (k :: is)) ys) y + distanceOf Ps xs ys := by
      rw [← lin_add]
      refine lin_mono_v g hp.1 hp.2 (fun k k0 k1 => ?_) hy.1 hy.2
      have := mlin_lipschitz (Ps := Ps) (v := fun is => v (k :: is)) hgs (by simpa using hl) hxs hys
        fun m is i g' P' hi hg' hP h1 h2 => hv (m + 1) (k :: is) i g' P' (by simpa using hi) (by simpa using hg') (by simpa using hP)
          ⟨⟨k0, k1⟩, h1⟩ ⟨⟨k0, k1⟩, h2⟩
      linarith
    simp only [mlin, distanceOf]
    linarith
  | [], [], _ :: _, _, _, _, _, hx, _, _ => nomatch hx
  | [], [], [], _ :: _, _, _, _, _, hy, _ => nomatch hy
  | _ :: _, _ :: _, [], _, _, _, _, hx, _, _ => nomatch hx
  | _ :: _, _ :: _, _ :: _, [], _, _, _, _, hy, _ => nomatch hy
  | [], _ :: _, _, _, _, _, hl, _, _, _ => absurd hl (by simp)
  | _ :: _, [], _, _, _, _, hl, _, _, _ => absurd hl (by simp)

end Opac.Photons
