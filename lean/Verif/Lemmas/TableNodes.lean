import Verif.Props.MeanLookup

/-! Interpolation at the nodes of a table returns the stored value (over the reals). -/

namespace Opac.Spiner
open Arith Outcome Photons

/-- at least two nodes, increasing -/
def Grid.Increasing (g : Grid ℝ) : Prop := 2 ≤ g.N ∧ g.min < g.max

theorem lerp_node {g : Grid ℝ} (hg : g.Increasing) {i : ℕ} (hi : (i : ℤ) < g.N) {f : ℤ → Outcome ℝ} {w : ℝ}
    (hf : ∀ k : ℤ, 0 ≤ k → k < g.N → ∃ v, f k = ok v) (hw : f i = ok w) : DataBox.lerp g (node g i) f = ok w := by
  choose! v hv using hf
  have hvi : v i = w := by
    have := hv i (by omega) hi
    rw [hw] at this
    cases this; rfl
  have hdx := dx_pos g hg.1 hg.2
  have step : ∀ k : ℕ, node g (k + 1) = node g k + g.dx := by
    intro k; rw [dx_eq]; unfold node; push_cast; ring
  by_cases h : (i : ℤ) + 1 < g.N
  · obtain ⟨s, -, -, hs, he⟩ := lerp_eq g hg.1 hg.2 i h (node g i) le_rfl (by rw [step]; linarith) f v
      (fun k h0 h1 => hv k h0 h1)
    rw [he, hs]; simp [hvi]
  · have hN := hg.1
    obtain ⟨k, rfl⟩ : ∃ k, i = k + 1 := ⟨i - 1, by omega⟩
    obtain ⟨s, -, -, hs, he⟩ := lerp_eq g hg.1 hg.2 k (by push_cast at hi; omega) (node g (k + 1)) (by rw [step]; linarith)
      le_rfl f v (fun k h0 h1 => hv k h0 h1)
    have : s = 1 := by rw [hs, step]; field_simp; ring
    have h2 : v ((k : ℤ) + 1) = w := by rw [← hvi]; push_cast; rfl
    rw [he, this, h2]; simp

theorem interp4_node {d : DataBox ℝ} {n4 n3 n2 n1 : ℤ} (hd : d.dims = [n4, n3, n2, n1]) (h1 : (d.grid 1).N = n2)
    (h2 : (d.grid 2).N = n3) (h3 : (d.grid 3).N = n4) (g1 : (d.grid 1).Increasing) (g2 : (d.grid 2).Increasing)
    (g3 : (d.grid 3).Increasing) {a b c : ℕ} (ha : (a : ℤ) < n4) (hb : (b : ℤ) < n3) (hc : (c : ℤ) < n2) {l : ℤ}
    (hl : 0 ≤ l ∧ l < n1) {w : ℝ} (hw : d.read [(a : ℤ), b, c, l] = ok w) :
    d.interp4 (node (d.grid 3) a) (node (d.grid 2) b) (node (d.grid 1) c) l = ok w := by
  unfold DataBox.interp4
  have hr : ∀ i j k : ℤ, 0 ≤ i → i < n4 → 0 ≤ j → j < n3 → 0 ≤ k → k < n2 → ∃ v, d.read [i, j, k, l] = ok v := by
    intro i j k hi hi' hj hj' hk hk'
    apply read_ok
    rw [hd]
    exact ⟨⟨hi, hi'⟩, ⟨hj, hj'⟩, ⟨hk, hk'⟩, hl, trivial⟩
  refine lerp_node g3 (h3 ▸ ha) (fun i hi hi' => ?_) ?_
  · refine lerp_ok _ _ _ g2.1 (fun j hj hj' => lerp_ok _ _ _ g1.1 (fun k hk hk' => ?_))
    exact hr i j k hi (h3 ▸ hi') hj (h2 ▸ hj') hk (h1 ▸ hk')
  · refine lerp_node g2 (h2 ▸ hb) (fun j hj hj' => ?_) ?_
    · refine lerp_ok _ _ _ g1.1 (fun k hk hk' => ?_)
      exact hr a j k (by omega) ha hj (h2 ▸ hj') hk (h1 ▸ hk')
    · refine lerp_node g1 (h1 ▸ hc) (fun k hk hk' => ?_) hw
      exact hr a b k (by omega) ha (by omega) hb hk (h1 ▸ hk')

theorem interp5_node {d : DataBox ℝ} {n5 n4 n3 n2 n1 : ℤ} (hd : d.dims = [n5, n4, n3, n2, n1]) (h0 : (d.grid 0).N = n1)
    (h2 : (d.grid 2).N = n3) (h3 : (d.grid 3).N = n4) (h4 : (d.grid 4).N = n5) (g0 : (d.grid 0).Increasing)
    (g2 : (d.grid 2).Increasing) (g3 : (d.grid 3).Increasing) (g4 : (d.grid 4).Increasing) {a b c e : ℕ}
    (ha : (a : ℤ) < n5) (hb : (b : ℤ) < n4) (hc : (c : ℤ) < n3) (he : (e : ℤ) < n1) {l : ℤ}
    (hl : 0 ≤ l ∧ l < n2) {w : ℝ} (hw : d.read [(a : ℤ), b, c, l, e] = ok w) :
    d.interp5 (node (d.grid 4) a) (node (d.grid 3) b) (node (d.grid 2) c) l (node (d.grid 0) e) = ok w := by
  unfold DataBox.interp5
  have hr : ∀ i j k m : ℤ, 0 ≤ i → i < n5 → 0 ≤ j → j < n4 → 0 ≤ k → k < n3 → 0 ≤ m → m < n1 →
      ∃ v, d.read [i, j, k, l, m] = ok v := by
    intro i j k m hi hi' hj hj' hk hk' hm hm'
    apply read_ok
    rw [hd]
    exact ⟨⟨hi, hi'⟩, ⟨hj, hj'⟩, ⟨hk, hk'⟩, hl, ⟨hm, hm'⟩, trivial⟩
  refine lerp_node g4 (h4 ▸ ha) (fun i hi hi' => ?_) ?_
  · refine lerp_ok _ _ _ g3.1 (fun j hj hj' => lerp_ok _ _ _ g2.1 (fun k hk hk' => lerp_ok _ _ _ g0.1 (fun m hm hm' => ?_)))
    exact hr i j k m hi (h4 ▸ hi') hj (h3 ▸ hj') hk (h2 ▸ hk') hm (h0 ▸ hm')
  · refine lerp_node g3 (h3 ▸ hb) (fun j hj hj' => ?_) ?_
    · refine lerp_ok _ _ _ g2.1 (fun k hk hk' => lerp_ok _ _ _ g0.1 (fun m hm hm' => ?_))
      exact hr a j k m (by omega) ha hj (h3 ▸ hj') hk (h2 ▸ hk') hm (h0 ▸ hm')
    · refine lerp_node g2 (h2 ▸ hc) (fun k hk hk' => lerp_ok _ _ _ g0.1 (fun m hm hm' => ?_)) ?_
      · exact hr a b k m (by omega) ha (by omega) hb hk (h2 ▸ hk') hm (h0 ▸ hm')
      · refine lerp_node g0 (h0 ▸ he) (fun m hm hm' => ?_) hw
        exact hr a b c m (by omega) ha (by omega) hb (by omega) hc hm (h0 ▸ hm')

end Opac.Spiner
