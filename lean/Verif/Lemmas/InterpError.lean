import Verif.Lemmas.Interp

/-!
# Error of multilinear interpolation

Over the reals, for any number of axes.  If the entry at every corner of a cell differs from a value by at most a constant
plus, for each axis, a rate times the distance from the corner, then the interpolation differs from that value by at most
the constant plus, for each axis, the rate times half the distance of two nodes.
-/

namespace Opac.Photons
open Arith Outcome Spiner

/-- rates times distances from the node `is`, summed over the axes -/
noncomputable def travel : List ℝ → List (Grid ℝ) → List ℤ → List ℝ → ℝ
  | P :: Ps, g :: gs, i :: is, x :: xs => P * |x - node g i.toNat| + travel Ps gs is xs
  | _, _, _, _ => 0

/-- rates times half the distances of neighbouring nodes, summed over the axes -/
noncomputable def halfSteps : List ℝ → List (Grid ℝ) → ℝ
  | P :: Ps, g :: gs => P * ((g.max - g.min) / (g.N - 1)) / 2 + halfSteps Ps gs
  | _, _ => 0

theorem mlin_near : ∀ {gs : List (Grid ℝ)} {Ps : List ℝ} {cs : List ℕ} {xs : List ℝ} {v : List ℤ → ℝ} {a E : ℝ},
    (∀ g ∈ gs, Proper g) → Ps.length = gs.length → (∀ P ∈ Ps, 0 ≤ P) → InCell gs cs xs →
    (∀ is, Corner cs is → |v is - a| ≤ E + travel Ps gs is xs) → |mlin gs v xs - a| ≤ E + halfSteps Ps gs
  | [], [], [], [], v, a, E, _, _, _, _, h => by
    have := h [] trivial
    simpa [travel, halfSteps, mlin] using this
  | g :: gs, P :: Ps, c :: cs, x :: xs, v, a, E, hg, hl, hP, hc, h => by
    have hp := hg g (by simp)
    have hP0 : 0 ≤ P := hP P (by simp)
    obtain ⟨⟨h0, h1, h2⟩, hc⟩ := hc
    set w : ℤ → ℝ := fun k => mlin gs (fun is => v (k :: is)) xs
    have hw : ∀ k : ℤ, k = c ∨ k = c + 1 → |w k - a| ≤ E + P * |x - node g k.toNat| + halfSteps Ps gs := fun k hk =>
      mlin_near (fun g' h' => hg g' (by simp [h'])) (by simpa using hl) (fun P' h' => hP P' (by simp [h'])) hc fun is his => by
        have := h (k :: is) ⟨hk, his⟩
        simp only [travel] at this
        linarith
    obtain ⟨s, s0, s1, hs, e⟩ := lerp_eq g hp.1 hp.2 c h0 x h1 h2 (fun k => ok (w k)) w (fun _ _ _ => rfl)
    rw [lerp_lin g hp.1 hp.2 x _ w (fun _ _ _ => rfl)] at e
    show |lin g w x - a| ≤ E + (P * ((g.max - g.min) / (g.N - 1)) / 2 + halfSteps Ps gs)
    rw [Outcome.ok.inj e]
    have hd := dx_pos g hp.1 hp.2
    have A := hw c (.inl rfl)
    have B := hw (c + 1) (.inr rfl)
    rw [show ((c : ℤ) + 1).toNat = c + 1 by omega] at B
    rw [show ((c : ℤ)).toNat = c by omega] at A
    rw [← dx_eq]
    have hx : x - node g c = s * g.dx := by rw [hs]; field_simp
    have hx' : x - node g (c + 1) = -((1 - s) * g.dx) := by
      have : node g (c + 1) = node g c + g.dx := by
        unfold node; rw [dx_eq]; push_cast; ring
      rw [this]; linarith
    have hs' : 0 ≤ 1 - s := by linarith
    rw [hx, abs_of_nonneg (mul_nonneg s0 hd.le)] at A
    rw [hx', abs_neg, abs_of_nonneg (mul_nonneg hs' hd.le)] at B
    have q : 2 * s * (1 - s) ≤ 1 / 2 := by nlinarith [sq_nonneg (2 * s - 1)]
    have q' := mul_le_mul_of_nonneg_left q (mul_nonneg hP0 hd.le)
    rw [abs_le] at A B ⊢
    have A1 := mul_le_mul_of_nonneg_left A.1 hs'
    have A2 := mul_le_mul_of_nonneg_left A.2 hs'
    have B1 := mul_le_mul_of_nonneg_left B.1 s0
    have B2 := mul_le_mul_of_nonneg_left B.2 s0
    constructor <;> nlinarith
  | [], _ :: _, _, _, _, _, _, _, hl, _, _, _ => absurd hl (by simp)
  | _ :: _, [], _, _, _, _, _, _, hl, _, _, _ => absurd hl (by simp)
  | [], _, _ :: _, _, _, _, _, _, _, _, h, _ => by simp [InCell] at h
  | [], _, [], _ :: _, _, _, _, _, _, _, h, _ => by simp [InCell] at h
  | _ :: _, _, [], _, _, _, _, _, _, _, h, _ => by simp [InCell] at h
  | _ :: _, _, _ :: _, [], _, _, _, _, _, _, h, _ => by simp [InCell] at h

end Opac.Photons
