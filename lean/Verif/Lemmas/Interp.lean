import Verif.Props.MeanLookup
import Mathlib.Topology.Algebra.Order.Field
import Mathlib.Topology.Order.Lattice
import Mathlib.Topology.Instances.Real.Lemmas

/-!
# Linear interpolation on a grid in closed form

`lin g v x` is the value at `x` of the interpolation of `v` on the grid `g`, extrapolated beyond its ends.
-/

namespace Opac.Photons
open Arith Outcome Spec Spiner

/-- the share of the step from node `k` to node `k + 1` that lies below `q`, in units of the step; the first and the
last step are unbounded -/
noncomputable def ramp (M k : ℕ) (q : ℝ) : ℝ :=
  if k = 0 then (if M = 1 then q else min q 1) else if k + 1 = M then max (q - k) 0 else max 0 (min (q - k) 1)

theorem ramp_mono (M k : ℕ) : Monotone (ramp M k) := by
  intro a b h
  unfold ramp
  split_ifs
  · exact h
  · exact min_le_min h le_rfl
  · exact max_le_max (by linarith) le_rfl
  · exact max_le_max le_rfl (min_le_min (by linarith) le_rfl)

theorem ramp_continuous (M k : ℕ) : Continuous (ramp M k) := by
  unfold ramp
  split_ifs <;> fun_prop

/-- interpolation on `g` -/
noncomputable def lin (g : Grid ℝ) (v : ℤ → ℝ) (x : ℝ) : ℝ :=
  v 0 + ∑ k ∈ Finset.range (g.N - 1).toNat,
    (v (k + 1) - v k) * ramp (g.N - 1).toNat k ((x - g.min) / ((g.max - g.min) / (g.N - 1)))

theorem lin_sum (v : ℤ → ℝ) (M c : ℕ) (hc : c < M) (r : ℕ → ℝ) (h0 : ∀ k < c, r k = 1) (h1 : ∀ k, c < k → k < M → r k = 0) :
    v 0 + ∑ k ∈ Finset.range M, (v (k + 1) - v k) * r k = (1 - r c) * v c + r c * v (c + 1) := by
  have e : ∀ m, c + 1 + m ≤ M → ∑ k ∈ Finset.range (c + 1 + m), (v (k + 1) - v k) * r k =
      v c - v 0 + (v (c + 1) - v c) * r c := by
    intro m hm
    induction m with
    | zero =>
      rw [add_zero, Finset.sum_range_succ]
      congr 1
      rw [Finset.sum_congr rfl (g := fun k : ℕ => (fun j : ℕ => v j) (k + 1) - (fun j : ℕ => v j) k)]
      · exact (Finset.sum_range_sub (fun j : ℕ => v j) c).trans (by simp)
      · intro k hk
        rw [h0 k (Finset.mem_range.1 hk)]; push_cast; ring
    | succ m ih =>
      rw [← add_assoc, Finset.sum_range_succ, ih (by omega), h1 (c + 1 + m) (by omega) (by omega)]
      ring
  have := e (M - (c + 1)) (by omega)
  rw [show c + 1 + (M - (c + 1)) = M by omega] at this
  rw [this]
  ring

/-- the code's interpolation is `lin`, wherever the point lies -/
theorem lerp_lin (g : Grid ℝ) (hN : 2 ≤ g.N) (hlt : g.min < g.max) (x : ℝ) (f : ℤ → Outcome ℝ) (v : ℤ → ℝ)
    (hf : ∀ k : ℤ, 0 ≤ k → k < g.N → f k = ok (v k)) : DataBox.lerp g x f = ok (lin g v x) := by
  have hdx := dx_pos g hN hlt
  have hl : DataBox.lerp g x f = ok ((1 - g.w1 x) * v (g.index x) + g.w1 x * v (g.index x + 1)) := by
    have hr := Grid.index_range g x hN
    unfold DataBox.lerp
    rw [hf _ hr.1 (by omega), hf _ (by omega) (by omega)]
    simp [areal]
  rw [hl]
  congr 1
  unfold lin
  rw [← dx_eq]
  set q := (x - g.min) / g.dx with hq
  obtain ⟨M, hM⟩ : ∃ M : ℕ, g.N - 1 = M := ⟨(g.N - 1).toNat, by omega⟩
  have hMn : (g.N - 1).toNat = M := by omega
  rw [hMn]
  have hw : ∀ c : ℤ, g.index x = c → g.w1 x = q - c := by
    rintro c rfl
    have e : g.w1 x = (x - (g.index x * g.dx + g.min)) / g.dx := w1_real g x
    rw [e, hq, eq_sub_iff_add_eq, div_add' _ _ _ hdx.ne']
    congr 1
    ring
  have hidx : g.index x = g.bound (toInt q) := index_real g x
  have hti : (0 ≤ q → toInt q = ⌊q⌋) ∧ (q < 0 → toInt q ≤ 0) := by
    constructor
    · intro h
      show (if 0 ≤ q then _ else _) = _
      rw [if_pos h]
    · intro h
      show (if 0 ≤ q then _ else _) ≤ (0 : ℤ)
      rw [if_neg (by linarith), Int.ceil_le]
      exact_mod_cast h.le
  -- the cell
  obtain ⟨c, hcM, hc, hlo, hhi⟩ : ∃ c : ℕ, c < M ∧ g.index x = (c : ℤ) ∧ (0 < c → (c : ℝ) ≤ q) ∧
      (c + 1 < M → q < c + 1) := by
    have hM1 : 1 ≤ M := by omega
    rcases lt_or_ge q 0 with h | h
    · refine ⟨0, by omega, ?_, by simp, fun _ => by push_cast; linarith⟩
      have := hti.2 h
      rw [hidx]
      simp only [Grid.bound]
      split_ifs <;> omega
    · have hfl := hti.1 h
      have h0 : 0 ≤ ⌊q⌋ := Int.floor_nonneg.2 h
      obtain ⟨n, hn⟩ := Int.eq_ofNat_of_zero_le h0
      have hle : (n : ℝ) ≤ q := by
        have := Int.floor_le q; rw [hn] at this; exact_mod_cast this
      have hlt' : q < n + 1 := by
        have := Int.lt_floor_add_one q; rw [hn] at this; exact_mod_cast this
      by_cases hnM : n + 1 ≤ M
      · refine ⟨n, by omega, ?_, fun _ => hle, fun _ => hlt'⟩
        rw [hidx, hfl, hn]
        simp only [Grid.bound]
        split_ifs <;> omega
      · refine ⟨M - 1, by omega, ?_, fun _ => ?_, by omega⟩
        · rw [hidx, hfl, hn]
          simp only [Grid.bound]
          split_ifs <;> omega
        · have : ((M - 1 : ℕ) : ℝ) ≤ n := by exact_mod_cast (by omega : M - 1 ≤ n)
          linarith
  have hrc : ramp M c q = q - c := by
    unfold ramp
    by_cases hc0 : c = 0
    · subst hc0
      rw [if_pos rfl]
      by_cases hM1 : M = 1
      · rw [if_pos hM1]; simp
      · rw [if_neg hM1, min_eq_left]; · simp
        have := hhi (by omega); push_cast at this; linarith
    · rw [if_neg hc0]
      have h1 := hlo (by omega)
      by_cases hcl : c + 1 = M
      · rw [if_pos hcl, max_eq_left (by linarith)]
      · rw [if_neg hcl]
        have h2 := hhi (by omega)
        rw [min_eq_left (by linarith), max_eq_right (by linarith)]
  rw [lin_sum v M c hcM (fun k => ramp M k q), hrc, hw c hc, hc]
  · push_cast; ring
  · intro k hk
    have h1 := hlo (by omega)
    have hkc : (k : ℝ) + 1 ≤ c := by exact_mod_cast hk
    show ramp M k q = 1
    unfold ramp
    by_cases hk0 : k = 0
    · subst hk0
      rw [if_pos rfl, if_neg (by omega), min_eq_right]
      push_cast at hkc; linarith
    · rw [if_neg hk0, if_neg (by omega), min_eq_right (by linarith), max_eq_right (by norm_num)]
  · intro k hk hkM
    have h2 := hhi (by omega)
    have hkc : (c : ℝ) + 1 ≤ k := by exact_mod_cast hk
    show ramp M k q = 0
    unfold ramp
    rw [if_neg (by omega)]
    split_ifs
    · exact max_eq_right (by linarith)
    · exact max_eq_left ((min_le_left _ _).trans (by linarith))

theorem continuous_lin (g : Grid ℝ) {X : Type*} [TopologicalSpace X] {v : X → ℤ → ℝ} (hv : ∀ k, Continuous fun y => v y k)
    {x : X → ℝ} (hx : Continuous x) : Continuous fun y => lin g (v y) (x y) := by
  unfold lin
  refine (hv 0).add (continuous_finsetSum _ fun k _ => ?_)
  exact ((hv _).sub (hv _)).mul ((ramp_continuous _ _).comp ((hx.sub continuous_const).div_const _))

/-- monotone data give a monotone interpolation -/
theorem lin_mono_x (g : Grid ℝ) (hN : 2 ≤ g.N) (hlt : g.min < g.max) {v : ℤ → ℝ}
    (hv : ∀ k : ℕ, (k : ℤ) + 1 < g.N → v k ≤ v (k + 1)) : Monotone (lin g v) := by
  intro a b hab
  have hd : 0 < (g.max - g.min) / (g.N - 1) := by rw [← dx_eq]; exact dx_pos g hN hlt
  unfold lin
  refine add_le_add le_rfl (Finset.sum_le_sum fun k hk => ?_)
  have hk' := Finset.mem_range.1 hk
  have := hv k (by omega)
  refine mul_le_mul_of_nonneg_left (ramp_mono _ _ ?_) (by linarith)
  gcongr

/-- inside the grid, interpolation is monotone in the data -/
theorem lin_mono_v (g : Grid ℝ) (hN : 2 ≤ g.N) (hlt : g.min < g.max) {v w : ℤ → ℝ}
    (hvw : ∀ k : ℤ, 0 ≤ k → k < g.N → v k ≤ w k) {x : ℝ} (h0 : g.min ≤ x) (h1 : x ≤ g.max) :
    lin g v x ≤ lin g w x := by
  have hdx := dx_pos g hN hlt
  obtain ⟨i, hi, hi0, hi1⟩ : ∃ i : ℕ, (i : ℤ) + 1 < g.N ∧ node g i ≤ x ∧ x ≤ node g (i + 1) := by
    by_contra hno
    push Not at hno
    have key : ∀ i : ℕ, (i : ℤ) < g.N → node g i ≤ x := by
      intro i
      induction i with
      | zero => intro _; simp only [node]; push_cast; linarith
      | succ i ih =>
        intro hi
        push_cast at hi
        exact (hno i (by omega) (ih (by omega))).le
    have hN' : (2 : ℝ) ≤ g.N := by exact_mod_cast hN
    obtain ⟨M, hM⟩ : ∃ M : ℕ, g.N = M + 2 := ⟨(g.N - 2).toNat, by omega⟩
    have h2 := hno M (by omega) (key M (by omega))
    have : node g (M + 1) = g.max := by
      unfold node
      rw [hM]; push_cast
      have hm : (M : ℝ) + 1 ≠ 0 := by positivity
      rw [show (M : ℝ) + 2 - 1 = M + 1 by ring, mul_div_cancel₀ _ hm]; ring
    linarith
  obtain ⟨s, s0, s1, hs, e1⟩ := lerp_eq g hN hlt i hi x hi0 hi1 (fun k => ok (v k)) v (fun _ _ _ => rfl)
  obtain ⟨s', -, -, hs', e2⟩ := lerp_eq g hN hlt i hi x hi0 hi1 (fun k => ok (w k)) w (fun _ _ _ => rfl)
  rw [lerp_lin g hN hlt x _ v (fun _ _ _ => rfl)] at e1
  rw [lerp_lin g hN hlt x _ w (fun _ _ _ => rfl)] at e2
  rw [Outcome.ok.inj e1, Outcome.ok.inj e2, hs', ← hs]
  have a1 := hvw i (by omega) (by omega)
  have a2 := hvw (i + 1) (by omega) (by omega)
  have : 0 ≤ 1 - s := by linarith
  gcongr

/-! ## Several axes -/

/-- a grid with at least two nodes in increasing order -/
def Proper (g : Grid ℝ) : Prop := 2 ≤ g.N ∧ g.min < g.max

/-- interpolation along several axes, the first one outermost -/
noncomputable def mlin : List (Grid ℝ) → (List ℤ → ℝ) → List ℝ → ℝ
  | g :: gs, v, x :: xs => lin g (fun k => mlin gs (fun is => v (k :: is)) xs) x
  | _, v, _ => v []

/-- the same with the code's interpolation steps -/
noncomputable def mlerp : List (Grid ℝ) → (List ℤ → Outcome ℝ) → List ℝ → Outcome ℝ
  | g :: gs, f, x :: xs => DataBox.lerp g x fun k => mlerp gs (fun is => f (k :: is)) xs
  | _, f, _ => f []

/-- an index tuple of the grids -/
def Indexes : List (Grid ℝ) → List ℤ → Prop
  | [], [] => True
  | g :: gs, i :: is => (0 ≤ i ∧ i < g.N) ∧ Indexes gs is
  | _, _ => False

theorem mlerp_mlin : ∀ (gs : List (Grid ℝ)) (xs : List ℝ) (f : List ℤ → Outcome ℝ) (v : List ℤ → ℝ),
    (∀ g ∈ gs, Proper g) → xs.length = gs.length → (∀ is, Indexes gs is → f is = ok (v is)) →
    mlerp gs f xs = ok (mlin gs v xs)
  | [], [], f, v, _, _, hf => hf [] trivial
  | g :: gs, x :: xs, f, v, hg, hl, hf => by
    have hp := hg g (by simp)
    exact lerp_lin g hp.1 hp.2 x _ _ fun k k0 k1 =>
      mlerp_mlin gs xs _ _ (fun g' h' => hg g' (by simp [h'])) (by simpa using hl) fun is his => hf _ ⟨⟨k0, k1⟩, his⟩

theorem continuous_mlin {X : Type*} [TopologicalSpace X] : ∀ (gs : List (Grid ℝ)) (v : X → List ℤ → ℝ) (xs : List (X → ℝ)),
    (∀ is, Continuous fun y => v y is) → (∀ x ∈ xs, Continuous x) →
    Continuous fun y => mlin gs (v y) (xs.map fun x => x y)
  | [], v, xs, hv, _ => by simpa [mlin] using hv []
  | g :: gs, v, [], hv, _ => by simpa [mlin] using hv []
  | g :: gs, v, x :: xs, hv, hx => by
    simp only [List.map_cons, mlin]
    exact continuous_lin g (fun k => continuous_mlin gs (fun y is => v y (k :: is)) xs (fun is => hv _)
      (fun x' h' => hx x' (by simp [h']))) (hx x (by simp))

/-- the coordinates lie inside the grids -/
def InsideGrids (gs : List (Grid ℝ)) (xs : List ℝ) : Prop :=
  List.Forall₂ (fun g x => g.min ≤ x ∧ x ≤ g.max) gs xs

theorem mlin_mono_v : ∀ {gs : List (Grid ℝ)} {xs : List ℝ} {v w : List ℤ → ℝ},
    (∀ g ∈ gs, Proper g) → InsideGrids gs xs → (∀ is, Indexes gs is → v is ≤ w is) → mlin gs v xs ≤ mlin gs w xs
  | [], [], v, w, _, _, h => h [] trivial
  | g :: gs, x :: xs, v, w, hg, hx, h => by
    have hp := hg g (by simp)
    rcases hx with _ | ⟨hx, hxs⟩
    exact lin_mono_v g hp.1 hp.2 (fun k k0 k1 => mlin_mono_v (fun g' h' => hg g' (by simp [h'])) hxs
      fun is his => h (k :: is) ⟨⟨k0, k1⟩, his⟩) hx.1 hx.2
  | [], _ :: _, _, _, _, hx, _ => nomatch hx
  | _ :: _, [], _, _, _, hx, _ => nomatch hx

/-- the values do not decrease along axis `m` -/
def IncreasesAlong (gs : List (Grid ℝ)) (m : ℕ) (v : List ℤ → ℝ) : Prop :=
  ∀ is i, is[m]? = some i → Indexes gs is → Indexes gs (is.set m (i + 1)) → v is ≤ v (is.set m (i + 1))

theorem mlin_mono_x : ∀ {gs : List (Grid ℝ)} {m : ℕ} {xs : List ℝ} {x y : ℝ} {v : List ℤ → ℝ},
    (∀ g ∈ gs, Proper g) → xs.length = gs.length → (∀ k g z, k ≠ m → gs[k]? = some g → xs[k]? = some z → g.min ≤ z ∧ z ≤ g.max) →
    m < gs.length → IncreasesAlong gs m v → x ≤ y → mlin gs v (xs.set m x) ≤ mlin gs v (xs.set m y)
  | g :: gs, 0, z :: xs, x, y, v, hg, hl, hin, _, hv, hxy => by
    have hp := hg g (by simp)
    have hins : InsideGrids gs xs := by
      refine List.forall₂_iff_get.2 ⟨by simpa using hl.symm, fun k hk hk' => ?_⟩
      exact hin (k + 1) _ _ (by omega) (by simp) (by simp)
    refine lin_mono_x g hp.1 hp.2 (fun k hk => ?_) hxy
    refine mlin_mono_v (fun g' h' => hg g' (by simp [h'])) hins fun is his => ?_
    exact hv ((k : ℤ) :: is) k (by simp) ⟨⟨by omega, by omega⟩, his⟩ ⟨⟨by omega, by omega⟩, his⟩
  | g :: gs, m + 1, z :: xs, x, y, v, hg, hl, hin, hm, hv, hxy => by
    have hp := hg g (by simp)
    have hz := hin 0 g z (by omega) (by simp) (by simp)
    simp only [List.set_cons_succ, mlin]
    refine lin_mono_v g hp.1 hp.2 (fun k k0 k1 => ?_) hz.1 hz.2
    refine mlin_mono_x (fun g' h' => hg g' (by simp [h'])) (by simpa using hl)
      (fun k' g' z' hk' h1 h2 => hin (k' + 1) g' z' (by omega) (by simpa using h1) (by simpa using h2))
      (by simpa using hm) (fun is i hi h1 h2 => ?_) hxy
    exact hv (k :: is) i (by simpa using hi) ⟨⟨k0, k1⟩, h1⟩ ⟨⟨k0, k1⟩, h2⟩
  | [], _, _, _, _, _, _, _, _, hm, _, _ => absurd hm (by simp)
  | _ :: _, _, [], _, _, _, _, hl, _, _, _, _ => absurd hl (by simp)

/-- `cs` is a cell of the grids that contains the point -/
def InCell : List (Grid ℝ) → List ℕ → List ℝ → Prop
  | [], [], [] => True
  | g :: gs, c :: cs, x :: xs => ((c : ℤ) + 1 < g.N ∧ node g c ≤ x ∧ x ≤ node g (c + 1)) ∧ InCell gs cs xs
  | _, _, _ => False

/-- `is` is one of the corners of the cell -/
def Corner : List ℕ → List ℤ → Prop
  | [], [] => True
  | c :: cs, i :: is => (i = c ∨ i = c + 1) ∧ Corner cs is
  | _, _ => False

theorem mlin_cell : ∀ {gs : List (Grid ℝ)} {cs : List ℕ} {xs : List ℝ} {v : List ℤ → ℝ} {lo hi : ℝ},
    (∀ g ∈ gs, Proper g) → InCell gs cs xs → (∀ is, Corner cs is → lo ≤ v is ∧ v is ≤ hi) →
    lo ≤ mlin gs v xs ∧ mlin gs v xs ≤ hi
  | [], [], [], _, _, _, _, _, h => h [] trivial
  | g :: gs, c :: cs, x :: xs, v, lo, hi, hg, hc, h => by
    have hp := hg g (by simp)
    obtain ⟨⟨h0, h1, h2⟩, hc⟩ := hc
    set w : ℤ → ℝ := fun k => mlin gs (fun is => v (k :: is)) xs
    have hw : ∀ k : ℤ, k = c ∨ k = c + 1 → lo ≤ w k ∧ w k ≤ hi := fun k hk =>
      mlin_cell (fun g' h' => hg g' (by simp [h'])) hc fun is his => h (k :: is) ⟨hk, his⟩
    obtain ⟨s, s0, s1, -, e⟩ := lerp_eq g hp.1 hp.2 c h0 x h1 h2 (fun k => ok (w k)) w (fun _ _ _ => rfl)
    rw [lerp_lin g hp.1 hp.2 x _ w (fun _ _ _ => rfl)] at e
    show lo ≤ lin g w x ∧ lin g w x ≤ hi
    rw [Outcome.ok.inj e]
    have a := hw c (.inl rfl)
    have b := hw (c + 1) (.inr rfl)
    have hs : 0 ≤ 1 - s := by linarith
    constructor
    · have e1 := mul_le_mul_of_nonneg_left a.1 hs
      have e2 := mul_le_mul_of_nonneg_left b.1 s0
      linarith
    · have e1 := mul_le_mul_of_nonneg_left a.2 hs
      have e2 := mul_le_mul_of_nonneg_left b.2 s0
      linarith

/-- beyond the last but one node (before the second node) of an axis the interpolation is affine along that axis -/
theorem lin_affine (g : Grid ℝ) (hp : Proper g) (v : ℤ → ℝ) {x y z : ℝ}
    (h : (∀ t ∈ [x, y, z], node g (g.N - 2).toNat ≤ t) ∨ (∀ t ∈ [x, y, z], t ≤ node g 1)) :
    (y - x) * (lin g v z - lin g v x) = (z - x) * (lin g v y - lin g v x) := by
  obtain ⟨hN, hlt⟩ := hp
  have hdx := dx_pos g hN hlt
  obtain ⟨M, hM⟩ : ∃ M : ℕ, g.N = M + 2 := ⟨(g.N - 2).toNat, by omega⟩
  have hN1 : (g.N - 1).toNat = M + 1 := by omega
  have hN2 : (g.N - 2).toNat = M := by omega
  have hnode : ∀ c : ℕ, node g c = g.min + c * g.dx := by intro c; rw [dx_eq]; rfl
  rw [hN2] at h
  rcases h with h | h
  · have key : ∀ t, node g M ≤ t → lin g v t = v M + (v (M + 1) - v M) * ((t - g.min) / g.dx - M) := by
      intro t ht
      rw [hnode] at ht
      set q := (t - g.min) / g.dx with hq
      have hqM : (M : ℝ) ≤ q := by rw [hq, le_div_iff₀ hdx]; linarith
      have hr : ramp (M + 1) M q = q - M := by
        unfold ramp
        split_ifs with a b
        · subst a; simp
        · omega
        · exact max_eq_left (by linarith)
        · omega
      unfold lin
      rw [← dx_eq, hN1, ← hq]
      rw [lin_sum v (M + 1) M (by omega) (fun k => ramp (M + 1) k q), hr]
      · ring
      · intro k hk
        have : (k : ℝ) + 1 ≤ M := by exact_mod_cast hk
        show ramp (M + 1) k q = 1
        unfold ramp
        split_ifs with a b b
        · omega
        · subst a; push_cast at this; exact min_eq_right (by linarith)
        · omega
        · rw [min_eq_right (by linarith), max_eq_right (by norm_num)]
      · intro k h1 h2; omega
    rw [key x (h x (by simp)), key y (h y (by simp)), key z (h z (by simp))]
    ring
  · have key : ∀ t, t ≤ node g 1 → lin g v t = v 0 + (v 1 - v 0) * ((t - g.min) / g.dx) := by
      intro t ht
      rw [hnode] at ht
      set q := (t - g.min) / g.dx with hq
      have hq1 : q ≤ 1 := by rw [hq, div_le_iff₀ hdx]; push_cast at ht; linarith
      have hr : ramp (M + 1) 0 q = q := by
        unfold ramp
        rw [if_pos rfl]
        split_ifs
        · rfl
        · exact min_eq_left hq1
      unfold lin
      rw [← dx_eq, hN1, ← hq]
      rw [lin_sum v (M + 1) 0 (by omega) (fun k => ramp (M + 1) k q), hr]
      · push_cast; ring
      · intro k hk; omega
      · intro k h1 h2
        have : (1 : ℝ) ≤ k := by exact_mod_cast h1
        show ramp (M + 1) k q = 0
        unfold ramp
        rw [if_neg (by omega)]
        split_ifs
        · exact max_eq_right (by linarith)
        · exact max_eq_left ((min_le_left _ _).trans (by linarith))
    rw [key x (h x (by simp)), key y (h y (by simp)), key z (h z (by simp))]
    ring

theorem lin_combine (g : Grid ℝ) (u v w : ℤ → ℝ) (a b : ℝ) (x : ℝ) (h : ∀ k, a * (w k - u k) = b * (v k - u k)) :
    a * (lin g w x - lin g u x) = b * (lin g v x - lin g u x) := by
  unfold lin
  have e : ∀ (p q : ℤ → ℝ), (p 0 + ∑ k ∈ Finset.range (g.N - 1).toNat,
      (p (k + 1) - p k) * ramp (g.N - 1).toNat k ((x - g.min) / ((g.max - g.min) / (g.N - 1)))) -
      (q 0 + ∑ k ∈ Finset.range (g.N - 1).toNat,
      (q (k + 1) - q k) * ramp (g.N - 1).toNat k ((x - g.min) / ((g.max - g.min) / (g.N - 1)))) =
      (p 0 - q 0) + ∑ k ∈ Finset.range (g.N - 1).toNat,
        ((p (k + 1) - q (k + 1)) - (p k - q k)) *
          ramp (g.N - 1).toNat k ((x - g.min) / ((g.max - g.min) / (g.N - 1))) := by
    intro p q
    rw [add_sub_add_comm, ← Finset.sum_sub_distrib]
    congr 1
    exact Finset.sum_congr rfl fun k _ => by ring
  rw [e, e, mul_add, mul_add, h 0, Finset.mul_sum, Finset.mul_sum]
  congr 1
  refine Finset.sum_congr rfl fun k _ => ?_
  have h1 := h (k + 1)
  have h2 := h k
  linear_combination (h1 - h2) * ramp (g.N - 1).toNat k ((x - g.min) / ((g.max - g.min) / (g.N - 1)))

theorem mlin_affine : ∀ {gs : List (Grid ℝ)} {m : ℕ} {xs : List ℝ} {x y z : ℝ} {v : List ℤ → ℝ} {g : Grid ℝ},
    Proper g → gs[m]? = some g → xs.length = gs.length →
    ((∀ t ∈ [x, y, z], node g (g.N - 2).toNat ≤ t) ∨ (∀ t ∈ [x, y, z], t ≤ node g 1)) →
    (y - x) * (mlin gs v (xs.set m z) - mlin gs v (xs.set m x)) =
      (z - x) * (mlin gs v (xs.set m y) - mlin gs v (xs.set m x))
  | g :: gs, 0, x₀ :: xs, x, y, z, v, _, hp, hgm, hl, h => by
    simp only [List.getElem?_cons_zero, Option.some.injEq] at hgm
    subst hgm
    exact lin_affine g hp _ h
  | g :: gs, m + 1, x₀ :: xs, x, y, z, v, g', hp, hgm, hl, h => by
    simp only [List.set_cons_succ, mlin]
    exact lin_combine g _ _ _ _ _ x₀ fun k => mlin_affine hp (by simpa using hgm) (by simpa using hl) h
  | [], _, _, _, _, _, _, _, _, hgm, _, _ => absurd hgm (by simp)
  | _ :: _, _, [], _, _, _, _, _, _, _, hl, _ => absurd hl (by simp)

end Opac.Photons
