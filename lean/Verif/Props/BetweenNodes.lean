import Verif.Props.GroupMeanError

/-!
# C88: how close a looked-up group mean is to the mean at the state asked for

At `XR`, the extended reals with NaN.
-/

namespace Opac.Photons
open Arith Outcome Spec Spiner MeasureTheory

/-- the mean `M` of density and temperature changes by at most the powers `σ` of the density and `τ` of the temperature,
for densities from `ρ0` to `ρ1` and temperatures from `T0` to `T1` -/
def MeanSlope (σ τ ρ0 ρ1 T0 T1 : ℝ) (M : ℝ → ℝ → ℝ) : Prop :=
  ∀ ρ ∈ Set.Icc ρ0 ρ1, ∀ ρ' ∈ Set.Icc ρ0 ρ1, ∀ T ∈ Set.Icc T0 T1, ∀ T' ∈ Set.Icc T0 T1,
    M ρ T ≤ Real.exp (σ * |Real.log ρ - Real.log ρ'| + τ * |Real.log T - Real.log T'|) * M ρ' T'

/-- distance of two nodes of an axis, in units of the natural logarithm -/
noncomputable def nodeDistance (lmin lmax : ℝ) (N : ℤ) : ℝ := Real.log 10 * ((lmax - lmin) / (N - 1))

theorem bilinear_le {s u v P Q : ℝ} {L : ℕ → ℕ → ℝ} {i j : ℕ} (s0 : 0 ≤ s) (s1 : s ≤ 1) (u0 : 0 ≤ u) (u1 : u ≤ 1) (hP : 0 ≤ P) (hQ : 0 ≤ Q)
    (h00 : L i j ≤ v + (P * s + Q * u)) (h01 : L i (j + 1) ≤ v + (P * s + Q * (1 - u)))
    (h10 : L (i + 1) j ≤ v + (P * (1 - s) + Q * u)) (h11 : L (i + 1) (j + 1) ≤ v + (P * (1 - s) + Q * (1 - u))) :
    bilinear s u L i j ≤ v + (P + Q) / 2 := by
  unfold bilinear
  have hs : 0 ≤ 1 - s := by linarith
  have hu : 0 ≤ 1 - u := by linarith
  calc _ ≤ (1 - s) * ((1 - u) * (v + (P * s + Q * u)) + u * (v + (P * s + Q * (1 - u)))) +
        s * ((1 - u) * (v + (P * (1 - s) + Q * u)) + u * (v + (P * (1 - s) + Q * (1 - u)))) := by gcongr
    _ = v + P * (2 * s * (1 - s)) + Q * (2 * u * (1 - u)) := by ring
    _ ≤ v + P * (1 / 2) + Q * (1 / 2) := by
      have a1 : 2 * s * (1 - s) ≤ 1 / 2 := by nlinarith [sq_nonneg (2 * s - 1)]
      have a2 : 2 * u * (1 - u) ≤ 1 / 2 := by nlinarith [sq_nonneg (2 * u - 1)]
      have := mul_le_mul_of_nonneg_left a1 hP
      have := mul_le_mul_of_nonneg_left a2 hQ
      linarith
    _ = _ := by ring

theorem le_bilinear {s u v P Q : ℝ} {L : ℕ → ℕ → ℝ} {i j : ℕ} (s0 : 0 ≤ s) (s1 : s ≤ 1) (u0 : 0 ≤ u) (u1 : u ≤ 1) (hP : 0 ≤ P) (hQ : 0 ≤ Q)
    (h00 : v - (P * s + Q * u) ≤ L i j) (h01 : v - (P * s + Q * (1 - u)) ≤ L i (j + 1))
    (h10 : v - (P * (1 - s) + Q * u) ≤ L (i + 1) j) (h11 : v - (P * (1 - s) + Q * (1 - u)) ≤ L (i + 1) (j + 1)) :
    v - (P + Q) / 2 ≤ bilinear s u L i j := by
  have := bilinear_le (L := fun i j => -L i j) (i := i) (j := j) (v := -v) s0 s1 u0 u1 hP hQ (by linarith) (by linarith) (by linarith) (by linarith)
  have e : bilinear s u (fun i j => -L i j) i j = -bilinear s u L i j := by unfold bilinear; ring
  rw [e] at this
  linarith

set_option maxHeartbeats 800000 in
/-- lookups between nodes -/
theorem between {lk : DataBox XR} {l0 l1 t0 t1 : ℝ} {NR NT : ℤ} (h2 : lk.grid 2 = xrGrid ⟨l0, l1, NR⟩) (h1 : lk.grid 1 = xrGrid ⟨t0, t1, NT⟩)
    (hNR : 2 ≤ NR) (hNT : 2 ≤ NT) (hR : l0 < l1) (hT : t0 < t1) {g : ℕ} {K : ℕ → ℕ → ℝ}
    (hread : ∀ i j : ℕ, (i : ℤ) < NR → (j : ℤ) < NT → lk.read [i, j, g] = ok (.fin (Real.logb 10 (K i j))))
    {σ τ E : ℝ} {M : ℝ → ℝ → ℝ} (hσ : 0 ≤ σ) (hτ : 0 ≤ τ) (hM : MeanSlope σ τ (10 ^ l0) (10 ^ l1) (10 ^ t0) (10 ^ t1) M)
    (hM0 : ∀ ρ ∈ Set.Icc ((10 : ℝ) ^ l0) (10 ^ l1), ∀ T ∈ Set.Icc ((10 : ℝ) ^ t0) (10 ^ t1), 0 < M ρ T)
    (hK : ∀ i j : ℕ, (i : ℤ) < NR → (j : ℤ) < NT →
      Real.exp (-E) * M (nodeValue l0 l1 NR i) (nodeValue t0 t1 NT j) ≤ K i j ∧
      K i j ≤ Real.exp E * M (nodeValue l0 l1 NR i) (nodeValue t0 t1 NT j))
    {rho T : ℝ} (hin : Inside l0 l1 t0 t1 rho T) {F : ℝ} (hF : F = E + (σ * nodeDistance l0 l1 NR + τ * nodeDistance t0 t1 NT) / 2) :
    ∃ κ, MGTables.GroupCoefficient_ lk (.fin rho) (.fin T) g = ok (.fin (rho * κ)) ∧
      Real.exp (-F) * M (|rho| + Robust.SMALL) (|T| + Robust.SMALL) ≤ κ ∧
      κ ≤ Real.exp F * M (|rho| + Robust.SMALL) (|T| + Robust.SMALL) := by
  have hS := SMALL_pos
  have hl : (0 : ℝ) < Real.log 10 := Real.log_pos (by norm_num)
  obtain ⟨i, hi', a0, a1⟩ := cell_exists ⟨l0, l1, NR⟩ hNR hR hin.1 hin.2
  obtain ⟨j, hj', b0, b1⟩ := cell_exists ⟨t0, t1, NT⟩ hNT hT hin.3 hin.4
  obtain ⟨s, u, s0, s1, u0, u1, hs, hu, e⟩ := lookup_value (gR := ⟨l0, l1, NR⟩) (gT := ⟨t0, t1, NT⟩) hNR hNT hR hT hi' hj' a0 a1 b0 b1
  refine ⟨_, e lk g K h2 h1 hread, ?_⟩
  -- logarithms
  have hnR : (0 : ℝ) < (NR : ℝ) - 1 := by
    have : (2 : ℝ) ≤ NR := by exact_mod_cast hNR
    linarith
  have hnT : (0 : ℝ) < (NT : ℝ) - 1 := by
    have : (2 : ℝ) ≤ NT := by exact_mod_cast hNT
    linarith
  have key : ∀ {m M' x : ℝ} {N : ℤ} {i : ℕ} {s : ℝ}, (0 : ℝ) < (N : ℝ) - 1 → m < M' → s = (coordinate x - node ⟨m, M', N⟩ i) / ((M' - m) / (N - 1)) →
      Real.log (|x| + Robust.SMALL) - Real.log (nodeValue m M' N i) = s * nodeDistance m M' N ∧
      Real.log (|x| + Robust.SMALL) - Real.log (nodeValue m M' N (i + 1)) = -((1 - s) * nodeDistance m M' N) := by
    intro m M' x N i s hN hmM hs
    have hd : 0 < (M' - m) / ((N : ℝ) - 1) := div_pos (by linarith) hN
    have e1 : Real.log (|x| + Robust.SMALL) = coordinate x * Real.log 10 := by
      unfold coordinate Real.logb
      field_simp
    have e2 : ∀ k : ℕ, Real.log (nodeValue m M' N k) = (m + k * ((M' - m) / (N - 1))) * Real.log 10 := fun k => by
      unfold nodeValue
      rw [Real.log_rpow (by norm_num)]
    rw [eq_div_iff hd.ne'] at hs
    unfold node at hs
    simp only at hs
    rw [e1, e2, e2]
    unfold nodeDistance
    constructor
    · have : coordinate x = s * ((M' - m) / (N - 1)) + (m + i * ((M' - m) / (N - 1))) := by linarith
      rw [this]
      ring
    · have : coordinate x = s * ((M' - m) / (N - 1)) + (m + i * ((M' - m) / (N - 1))) := by linarith
      rw [this]
      push_cast
      ring
  have dR : (⟨l0, l1, NR⟩ : Grid ℝ).dx = (l1 - l0) / (NR - 1) := by
    simp [Grid.dx, areal]
  have dT : (⟨t0, t1, NT⟩ : Grid ℝ).dx = (t1 - t0) / (NT - 1) := by
    simp [Grid.dx, areal]
  obtain ⟨r1, r2⟩ := key hnR hR (dR ▸ hs)
  obtain ⟨q1, q2⟩ := key hnT hT (dT ▸ hu)
  have hdR : 0 ≤ nodeDistance l0 l1 NR := mul_nonneg hl.le (div_nonneg (by linarith) hnR.le)
  have hdT : 0 ≤ nodeDistance t0 t1 NT := mul_nonneg hl.le (div_nonneg (by linarith) hnT.le)
  have inR : |rho| + Robust.SMALL ∈ Set.Icc ((10 : ℝ) ^ l0) (10 ^ l1) := by
    have hp : 0 < |rho| + Robust.SMALL := by positivity
    exact ⟨(Real.le_logb_iff_rpow_le (by norm_num) hp).1 hin.1, (Real.logb_le_iff_le_rpow (by norm_num) hp).1 hin.2⟩
  have inT : |T| + Robust.SMALL ∈ Set.Icc ((10 : ℝ) ^ t0) (10 ^ t1) := by
    have hp : 0 < |T| + Robust.SMALL := by positivity
    exact ⟨(Real.le_logb_iff_rpow_le (by norm_num) hp).1 hin.3, (Real.logb_le_iff_le_rpow (by norm_num) hp).1 hin.4⟩
  have nodeIn : ∀ {m M' : ℝ} {N : ℤ} {i : ℕ}, (0 : ℝ) < (N : ℝ) - 1 → m < M' → (i : ℤ) < N →
      nodeValue m M' N i ∈ Set.Icc ((10 : ℝ) ^ m) (10 ^ M') := by
    intro m M' N i hN hmM hi
    have hi2 : (i : ℝ) ≤ N - 1 := by
      have : (i : ℤ) + 1 ≤ N := hi
      have : (i : ℝ) + 1 ≤ N := by exact_mod_cast this
      linarith
    have hd : 0 < (M' - m) / ((N : ℝ) - 1) := div_pos (by linarith) hN
    have he : ((N : ℝ) - 1) * ((M' - m) / (N - 1)) = M' - m := by field_simp
    unfold nodeValue
    constructor
    · exact Real.rpow_le_rpow_of_exponent_le (by norm_num) (by nlinarith [(Nat.cast_nonneg i : (0 : ℝ) ≤ i)])
    · exact Real.rpow_le_rpow_of_exponent_le (by norm_num) (by nlinarith)
  obtain ⟨V, hV⟩ : ∃ V, V = M (|rho| + Robust.SMALL) (|T| + Robust.SMALL) := ⟨_, rfl⟩
  have V0 : 0 < V := hV ▸ hM0 _ inR _ inT
  -- one corner
  have corner : ∀ {a b : ℕ} {x y : ℝ}, (a : ℤ) < NR → (b : ℤ) < NT →
      |Real.log (|rho| + Robust.SMALL) - Real.log (nodeValue l0 l1 NR a)| = x * nodeDistance l0 l1 NR →
      |Real.log (|T| + Robust.SMALL) - Real.log (nodeValue t0 t1 NT b)| = y * nodeDistance t0 t1 NT →
      Real.log (K a b) ≤ (Real.log V + E) + (σ * nodeDistance l0 l1 NR * x + τ * nodeDistance t0 t1 NT * y) ∧
      (Real.log V - E) - (σ * nodeDistance l0 l1 NR * x + τ * nodeDistance t0 t1 NT * y) ≤ Real.log (K a b) := by
    intro a b x y ha hb hx hy
    have na := nodeIn hnR hR ha
    have nb := nodeIn hnT hT hb
    have m0 := hM0 _ na _ nb
    obtain ⟨k1, k2⟩ := hK a b ha hb
    have k0 : 0 < K a b := lt_of_lt_of_le (mul_pos (Real.exp_pos _) m0) k1
    have c1 := hM _ na _ inR _ nb _ inT
    have c2 := hM _ inR _ na _ inT _ nb
    rw [abs_sub_comm, hx, abs_sub_comm, hy, ← hV] at c1
    rw [hx, hy, ← hV] at c2
    have d1 := Real.log_le_log m0 c1
    have d2 := Real.log_le_log V0 c2
    have f1 := Real.log_le_log (mul_pos (Real.exp_pos _) m0) k1
    have f2 := Real.log_le_log k0 k2
    rw [Real.log_mul (Real.exp_pos _).ne' (by positivity), Real.log_exp] at d1 d2 f1 f2
    rw [show σ * (x * nodeDistance l0 l1 NR) = σ * nodeDistance l0 l1 NR * x by ring,
      show τ * (y * nodeDistance t0 t1 NT) = τ * nodeDistance t0 t1 NT * y by ring] at d1 d2
    constructor <;> linarith
  have absR1 : |Real.log (|rho| + Robust.SMALL) - Real.log (nodeValue l0 l1 NR i)| = s * nodeDistance l0 l1 NR := by
    rw [r1, abs_of_nonneg (mul_nonneg s0 hdR)]
  have absR2 : |Real.log (|rho| + Robust.SMALL) - Real.log (nodeValue l0 l1 NR (i + 1))| = (1 - s) * nodeDistance l0 l1 NR := by
    rw [r2, abs_neg, abs_of_nonneg (mul_nonneg (by linarith) hdR)]
  have absT1 : |Real.log (|T| + Robust.SMALL) - Real.log (nodeValue t0 t1 NT j)| = u * nodeDistance t0 t1 NT := by
    rw [q1, abs_of_nonneg (mul_nonneg u0 hdT)]
  have absT2 : |Real.log (|T| + Robust.SMALL) - Real.log (nodeValue t0 t1 NT (j + 1))| = (1 - u) * nodeDistance t0 t1 NT := by
    rw [q2, abs_neg, abs_of_nonneg (mul_nonneg (by linarith) hdT)]
  have i0 : (i : ℤ) < NR := by simp only at hi'; omega
  have i1 : ((i + 1 : ℕ) : ℤ) < NR := by simp only at hi'; push_cast; omega
  have j0 : (j : ℤ) < NT := by simp only at hj'; omega
  have j1 : ((j + 1 : ℕ) : ℤ) < NT := by simp only at hj'; push_cast; omega
  have c00 := corner i0 j0 absR1 absT1
  have c01 := corner i0 j1 absR1 absT2
  have c10 := corner i1 j0 absR2 absT1
  have c11 := corner i1 j1 absR2 absT2
  have up := bilinear_le (L := fun i j => Real.log (K i j)) s0 s1 u0 u1 (mul_nonneg hσ hdR) (mul_nonneg hτ hdT) c00.1 c01.1 c10.1 c11.1
  have lo := le_bilinear (L := fun i j => Real.log (K i j)) s0 s1 u0 u1 (mul_nonneg hσ hdR) (mul_nonneg hτ hdT) c00.2 c01.2 c10.2 c11.2
  have el : (10 : ℝ) ^ bilinear s u (fun i j => Real.logb 10 (K i j)) i j = Real.exp (bilinear s u (fun i j => Real.log (K i j)) i j) := by
    rw [Real.rpow_def_of_pos (by norm_num)]
    congr 1
    unfold bilinear Real.logb
    field_simp
  rw [el, ← hV, ← Real.exp_log V0, ← Real.exp_add, ← Real.exp_add]
  constructor
  · exact Real.exp_le_exp.2 (by rw [hF]; linarith)
  · exact Real.exp_le_exp.2 (by rw [hF]; linarith)

section
variable {h k c : ℝ} {α : ℝ → ℝ → ℝ → ℝ} {lRhoMin lRhoMax lTMin lTMax : ℝ} {NRho NT : ℤ} {b : List XR} {n N : ℕ}
  {qP qR : XR → XR → ℤ → Outcome XR}

/-- adding a positive constant does not make a mean steeper -/
theorem MeanSlope.add_const {σ τ ρ0 ρ1 T0 T1 x : ℝ} {M : ℝ → ℝ → ℝ} (hM : MeanSlope σ τ ρ0 ρ1 T0 T1 M) (hσ : 0 ≤ σ) (hτ : 0 ≤ τ) (hx : 0 ≤ x) :
    MeanSlope σ τ ρ0 ρ1 T0 T1 fun ρ T => M ρ T + x := by
  intro ρ hρ ρ' hρ' T hT T' hT'
  have h1 := hM ρ hρ ρ' hρ' T hT T' hT'
  have h2 : 1 ≤ Real.exp (σ * |Real.log ρ - Real.log ρ'| + τ * |Real.log T - Real.log T'|) := Real.one_le_exp (by positivity)
  have := mul_le_mul_of_nonneg_right h2 hx
  simp only
  linarith

theorem factor_add {E M κ x : ℝ} (hE : 0 ≤ E) (hx : 0 ≤ x) (h1 : Real.exp (-E) * M ≤ κ) (h2 : κ ≤ Real.exp E * M) :
    Real.exp (-E) * (M + x) ≤ κ + x ∧ κ + x ≤ Real.exp E * (M + x) := by
  have e1 : Real.exp (-E) ≤ 1 := Real.exp_le_one_iff.2 (by linarith)
  have e2 : 1 ≤ Real.exp E := Real.one_le_exp hE
  have := mul_le_mul_of_nonneg_right e1 hx
  have := mul_le_mul_of_nonneg_right e2 hx
  constructor <;> linarith

/-- the exact Planck mean over the sampled part of a group -/
noncomputable def exactPlanck (h k c lo : ℝ) (up : Option ℝ) (α : ℝ → ℝ → ℝ → ℝ) (ρ T : ℝ) : ℝ :=
  planckMeanOf h k c ρ T (groupFrom Robust.SMALL h k T lo up) (groupTo Robust.SMALL h k T lo up) (α ρ T)

/-- the exact Rosseland mean over the sampled part of a group -/
noncomputable def exactRosseland (h k c lo : ℝ) (up : Option ℝ) (α : ℝ → ℝ → ℝ → ℝ) (ρ T : ℝ) : ℝ :=
  rosselandMeanOf h k c ρ T (groupFrom Robust.SMALL h k T lo up) (groupTo Robust.SMALL h k T lo up) (α ρ T)

/-- **C88 (Planck)**: let the coefficient at every node of the table, in the sampled part of a group, be positive and vary like a power
of the frequency of order at most `Λ`, and let `E` bound the errors of `C87_planck` at all nodes.  Let the exact group mean
change by at most the powers `σ` of the density and `τ` of the temperature.  Then at every state inside the table the looked-up
Planck group opacity is within the factor `exp(E + (σ Δρ + τ ΔT)/2)` of the exact group mean at that state, where `Δρ` and `ΔT`
are the distances of the nodes in the logarithm. -/
theorem C88_planck (hm : MeansOf h k c α lRhoMin lRhoMax NRho lTMin lTMax NT b n N qP qR)
    (hα : ∀ ρ T ν, 0 < ρ → 0 < T → 0 < ν → 0 ≤ α ρ T ν) (hNR : 2 ≤ NRho) (hNT : 2 ≤ NT)
    (hlR : lRhoMin < lRhoMax) (hlT : lTMin < lTMax) {g : ℕ} (hg : g < n) {lo : ℝ} {up : Option ℝ} (hgr : GroupIs b g lo up)
    {Λ ε E σ τ : ℝ} (hΛ : 0 ≤ Λ) (hσ : 0 ≤ σ) (hτ : 0 ≤ τ)
    (hnode : ∀ i j : ℕ, (i : ℤ) < NRho → (j : ℤ) < NT → ∀ ρ' T' A B : ℝ, ρ' = nodeValue lRhoMin lRhoMax NRho i →
      T' = nodeValue lTMin lTMax NT j → A = groupFrom Robust.SMALL h k T' lo up → B = groupTo Robust.SMALL h k T' lo up →
      (∀ ν ∈ Set.Icc A B, 0 < α ρ' T' ν) ∧ SlopeAtMost Λ A B (α ρ' T') ∧
      Robust.SMALL * Real.log 10 ≤ ε * (∫ ν in A..B, planckLaw h k c T' ν) ∧
      (max 4 (h * B / (k * T')) + Λ / 2) * (Real.log (B / A) / N) + ε + 1e-14 ≤ E)
    (hM : MeanSlope σ τ (10 ^ lRhoMin) (10 ^ lRhoMax) (10 ^ lTMin) (10 ^ lTMax) (exactPlanck h k c lo up α))
    (hM0 : ∀ ρ ∈ Set.Icc ((10 : ℝ) ^ lRhoMin) (10 ^ lRhoMax), ∀ T ∈ Set.Icc ((10 : ℝ) ^ lTMin) (10 ^ lTMax), 0 ≤ exactPlanck h k c lo up α ρ T)
    {rho T : ℝ} (hin : Inside lRhoMin lRhoMax lTMin lTMax rho T) {F : ℝ}
    (hF : F = E + (σ * nodeDistance lRhoMin lRhoMax NRho + τ * nodeDistance lTMin lTMax NT) / 2) :
    ∃ κ, qP (.fin rho) (.fin T) g = ok (.fin (rho * κ)) ∧
      Real.exp (-F) * (exactPlanck h k c lo up α (|rho| + Robust.SMALL) (|T| + Robust.SMALL) + Robust.SMALL) ≤ κ ∧
      κ ≤ Real.exp F * (exactPlanck h k c lo up α (|rho| + Robust.SMALL) (|T| + Robust.SMALL) + Robust.SMALL) := by
  obtain ⟨t, A, e, -, g2, g1, -, -⟩ := hm.averaged hα hNR hNT
  obtain ⟨-, hN, hh, hk, hc⟩ := A.bounds
  have hS := SMALL_pos
  rw [e]
  refine between (M := fun ρ T => exactPlanck h k c lo up α ρ T + Robust.SMALL) g2 g1 hNR hNT hlR hlT
    (K := fun i j => groupPlanckMean Robust.SMALL h k c (nodeValue lRhoMin lRhoMax NRho i) (nodeValue lTMin lTMax NT j) lo up N
      (α (nodeValue lRhoMin lRhoMax NRho i) (nodeValue lTMin lTMax NT j)) + Robust.SMALL)
    (fun i j hi hj => (A.read hi hj hgr hg rfl rfl).1) hσ hτ (hM.add_const hσ hτ hS.le)
    (fun ρ hρ T hT => by have := hM0 ρ hρ T hT; linarith) (fun i j hi hj => ?_) hin hF
  have p1 := nodeValue_pos lRhoMin lRhoMax NRho i
  have p2 := nodeValue_pos lTMin lTMax NT j
  obtain ⟨n1, n2, n3, n4⟩ := hnode i j hi hj _ _ _ _ rfl rfl rfl rfl
  obtain ⟨hA, hAB⟩ := sampled_part hh hk p2 hgr.2.2.1 hgr.2.2.2
  obtain ⟨q1, q2⟩ := Slopes.planck_error hh hk hc p2 p1 hS rfl rfl hA hAB (N := N) (by omega) rfl rfl hΛ n1 n2 n3
  have hM' : 0 ≤ exactPlanck h k c lo up α (nodeValue lRhoMin lRhoMax NRho i) (nodeValue lTMin lTMax NT j) := by
    have := Real.exp_pos ((max 4 (h * groupTo Robust.SMALL h k (nodeValue lTMin lTMax NT j) lo up / (k * nodeValue lTMin lTMax NT j)) +
      Λ / 2) * (Real.log (groupTo Robust.SMALL h k (nodeValue lTMin lTMax NT j) lo up / groupFrom Robust.SMALL h k (nodeValue lTMin lTMax NT j)
      lo up) / N) + ε + 1e-14)
    have h0 := (A.read hi hj hgr hg rfl rfl).2.2.1.trans q2
    exact nonneg_of_mul_nonneg_right h0 this
  have hE : 0 ≤ E := by
    have hε0 : 0 ≤ ε := by
      by_contra hneg
      have X0 := Convergence.pos_integral hA hAB (Convergence.cont_planckLaw hh hk hc p2)
        (fun x hx => (Convergence.planckWeight_near hh hk hc p2 hx).2.2)
      have : ε * (∫ ν in groupFrom Robust.SMALL h k (nodeValue lTMin lTMax NT j) lo up..groupTo Robust.SMALL h k
        (nodeValue lTMin lTMax NT j) lo up, planckLaw h k c (nodeValue lTMin lTMax NT j) ν) < 0 := mul_neg_of_neg_of_pos (by linarith) X0
      have := mul_pos hS (Real.log_pos (by norm_num : (1 : ℝ) < 10))
      linarith
    have hl := Real.log_nonneg ((one_le_div hA).2 hAB.le)
    refine le_trans ?_ n4
    have : (0 : ℝ) ≤ 1e-14 := by norm_num
    positivity
  exact factor_add hE hS.le ((mul_le_mul_of_nonneg_right (Real.exp_le_exp.2 (by linarith)) hM').trans q1)
    (q2.trans (mul_le_mul_of_nonneg_right (Real.exp_le_exp.2 n4) hM'))

/-- **C88 (Rosseland)**: the same for the Rosseland group opacity, under the conditions of `C87_rosseland` at all nodes. -/
theorem C88_rosseland (hm : MeansOf h k c α lRhoMin lRhoMax NRho lTMin lTMax NT b n N qP qR)
    (hα : ∀ ρ T ν, 0 < ρ → 0 < T → 0 < ν → 0 ≤ α ρ T ν) (hNR : 2 ≤ NRho) (hNT : 2 ≤ NT)
    (hlR : lRhoMin < lRhoMax) (hlT : lTMin < lTMax) {g : ℕ} (hg : g < n) {lo : ℝ} {up : Option ℝ} (hgr : GroupIs b g lo up)
    {Λ ε E σ τ : ℝ} (hΛ : 0 ≤ Λ) (hε : 0 ≤ ε) (hσ : 0 ≤ σ) (hτ : 0 ≤ τ)
    (hnode : ∀ i j : ℕ, (i : ℤ) < NRho → (j : ℤ) < NT → ∀ ρ' T' A B δ m : ℝ, ρ' = nodeValue lRhoMin lRhoMax NRho i →
      T' = nodeValue lTMin lTMax NT j → A = groupFrom Robust.SMALL h k T' lo up → B = groupTo Robust.SMALL h k T' lo up →
      δ = Real.log (B / A) / N → m = max 4 (h * B / (k * T')) →
      (∀ ν ∈ Set.Icc A B, 0 < α ρ' T' ν ∧ Robust.SMALL ≤ ε * α ρ' T' ν) ∧ SlopeAtMost Λ A B (α ρ' T') ∧
      Robust.SMALL * Real.log 10 ≤ ε * (∫ ν in A..B, planckLawDT h k c T' ν) ∧
      Robust.SMALL * Real.log 10 ≤ ε * (∫ ν in A..B, ρ' / α ρ' T' ν * planckLawDT h k c T' ν) ∧
      ε * Real.exp ((m + Λ / 2) * δ) ≤ 1 / 4 ∧ (m + Λ / 2) * δ + ε + 1e-14 ≤ E)
    (hM : MeanSlope σ τ (10 ^ lRhoMin) (10 ^ lRhoMax) (10 ^ lTMin) (10 ^ lTMax) (exactRosseland h k c lo up α))
    (hM0 : ∀ ρ ∈ Set.Icc ((10 : ℝ) ^ lRhoMin) (10 ^ lRhoMax), ∀ T ∈ Set.Icc ((10 : ℝ) ^ lTMin) (10 ^ lTMax),
      0 ≤ exactRosseland h k c lo up α ρ T)
    {rho T : ℝ} (hin : Inside lRhoMin lRhoMax lTMin lTMax rho T) {F : ℝ}
    (hF : F = E + (σ * nodeDistance lRhoMin lRhoMax NRho + τ * nodeDistance lTMin lTMax NT) / 2) :
    ∃ κ, qR (.fin rho) (.fin T) g = ok (.fin (rho * κ)) ∧
      Real.exp (-F) * (exactRosseland h k c lo up α (|rho| + Robust.SMALL) (|T| + Robust.SMALL) + Robust.SMALL) ≤ κ ∧
      κ ≤ Real.exp F * (exactRosseland h k c lo up α (|rho| + Robust.SMALL) (|T| + Robust.SMALL) + Robust.SMALL) := by
  obtain ⟨t, A, -, e, -, -, g2, g1⟩ := hm.averaged hα hNR hNT
  obtain ⟨-, hN, hh, hk, hc⟩ := A.bounds
  have hS := SMALL_pos
  rw [e]
  refine between (M := fun ρ T => exactRosseland h k c lo up α ρ T + Robust.SMALL) g2 g1 hNR hNT hlR hlT
    (K := fun i j => groupRosselandMean Robust.SMALL h k c (nodeValue lRhoMin lRhoMax NRho i) (nodeValue lTMin lTMax NT j) lo up N
      (α (nodeValue lRhoMin lRhoMax NRho i) (nodeValue lTMin lTMax NT j)) + Robust.SMALL)
    (fun i j hi hj => (A.read hi hj hgr hg rfl rfl).2.1) hσ hτ (hM.add_const hσ hτ hS.le)
    (fun ρ hρ T hT => by have := hM0 ρ hρ T hT; linarith) (fun i j hi hj => ?_) hin hF
  have p1 := nodeValue_pos lRhoMin lRhoMax NRho i
  have p2 := nodeValue_pos lTMin lTMax NT j
  obtain ⟨n1, n2, n3, n4, n5, n6⟩ := hnode i j hi hj _ _ _ _ _ _ rfl rfl rfl rfl rfl rfl
  obtain ⟨hA, hAB⟩ := sampled_part hh hk p2 hgr.2.2.1 hgr.2.2.2
  obtain ⟨q1, q2⟩ := Slopes.rosseland_error hh hk hc p2 p1 hS rfl rfl hA hAB (N := N) (by omega) rfl rfl hΛ (fun ν hν => (n1 ν hν).2) n2 n5 n3 n4
    (fun ν hν => (n1 ν hν).1)
  have hM' : 0 ≤ exactRosseland h k c lo up α (nodeValue lRhoMin lRhoMax NRho i) (nodeValue lTMin lTMax NT j) := by
    have := Real.exp_pos ((max 4 (h * groupTo Robust.SMALL h k (nodeValue lTMin lTMax NT j) lo up / (k * nodeValue lTMin lTMax NT j)) +
      Λ / 2) * (Real.log (groupTo Robust.SMALL h k (nodeValue lTMin lTMax NT j) lo up / groupFrom Robust.SMALL h k (nodeValue lTMin lTMax NT j)
      lo up) / N) + ε + 1e-14)
    have h0 := (A.read hi hj hgr hg rfl rfl).2.2.2.trans q2
    exact nonneg_of_mul_nonneg_right h0 this
  have hE : 0 ≤ E := by
    have hl := Real.log_nonneg ((one_le_div hA).2 hAB.le)
    refine le_trans ?_ n6
    have : (0 : ℝ) ≤ 1e-14 := by norm_num
    positivity
  exact factor_add hE hS.le ((mul_le_mul_of_nonneg_right (Real.exp_le_exp.2 (by linarith)) hM').trans q1)
    (q2.trans (mul_le_mul_of_nonneg_right (Real.exp_le_exp.2 n6) hM'))

end

/-! ## An example: gray opacity, group `[1, 2]`, temperatures and densities from 1 to 10 -/

theorem group12_at {T : ℝ} (h1 : 1 ≤ T) (h2 : T ≤ 10) :
    groupFrom Robust.SMALL 1 1 T 1 (some 2) = 1 + Robust.SMALL ∧ groupTo Robust.SMALL 1 1 T 1 (some 2) = 2 + Robust.SMALL := by
  unfold groupFrom groupTo groupWindow window
  have a1 : ¬ (1 : ℝ) < 10⁻¹ * (1000⁻¹ * T) := by norm_num; linarith
  have a2 : ¬ 10 * (1000 * T) < 2 := by linarith
  norm_num
  simp [a1, a2]

theorem group12_laws {T : ℝ} (h1 : 1 ≤ T) (h2 : T ≤ 10) :
    (2 / 27 : ℝ) ≤ (∫ ν in (1 + Robust.SMALL : ℝ)..(2 + Robust.SMALL), planckLaw 1 1 1 T ν) ∧
    (2 / 2700 : ℝ) ≤ ∫ ν in (1 + Robust.SMALL : ℝ)..(2 + Robust.SMALL), planckLawDT 1 1 1 T ν := by
  have hS := SMALL_pos
  have hS' := SMALL_tiny
  norm_num at hS'
  have hT : 0 < T := by linarith
  have hAB : (1 + Robust.SMALL : ℝ) ≤ 2 + Robust.SMALL := by linarith
  have e3 : Real.exp 3 ≤ 27 := by
    rw [show (3 : ℝ) = 1 + 1 + 1 by norm_num, Real.exp_add, Real.exp_add]
    have := Real.exp_one_lt_three
    have := Real.exp_pos 1
    nlinarith [mul_pos this this]
  have hx3 : ∀ x ∈ Set.Icc (1 + Robust.SMALL : ℝ) (2 + Robust.SMALL), 1 ≤ x ∧ 0 < 1 * x / (1 * T) ∧ 1 * x / (1 * T) ≤ 3 := by
    intro x hx
    have x1 : 1 ≤ x := by linarith [hx.1]
    refine ⟨x1, by positivity, ?_⟩
    rw [div_le_iff₀ (by linarith)]
    nlinarith [hx.2]
  constructor
  · have hi := intervalIntegral.integral_mono_on hAB (μ := volume) (f := fun _ => (2 / 27 : ℝ)) intervalIntegrable_const
      (((Convergence.cont_planckLaw (T := T) one_pos one_pos one_pos hT).mono
        (by rw [Set.uIcc_of_le hAB]; exact fun x hx => Set.mem_Ioi.2 (by linarith [hx.1]))).intervalIntegrable) (fun x hx => by
      obtain ⟨x1, x2, x3⟩ := hx3 x hx
      unfold planckLaw
      have e1 : Real.exp (1 * x / (1 * T)) ≤ 27 := le_trans (Real.exp_le_exp.2 x3) e3
      have e0 : 0 < Real.exp (1 * x / (1 * T)) - 1 := by
        have := Real.add_one_lt_exp (x := 1 * x / (1 * T)) x2.ne'
        linarith
      have : 1 ≤ x ^ 3 := one_le_pow₀ x1
      exact div_le_div₀ (by positivity) (by linarith) e0 (by linarith))
    rw [intervalIntegral.integral_const] at hi
    norm_num at hi ⊢
    exact hi
  · have hi := intervalIntegral.integral_mono_on hAB (μ := volume) (f := fun _ => (2 / 2700 : ℝ)) intervalIntegrable_const
      (((Convergence.cont_planckLawDT (T := T) one_pos one_pos one_pos hT).mono
        (by rw [Set.uIcc_of_le hAB]; exact fun x hx => Set.mem_Ioi.2 (by linarith [hx.1]))).intervalIntegrable) (fun x hx => by
      obtain ⟨x1, x2, x3⟩ := hx3 x hx
      unfold planckLawDT
      have e1 : 1 / 27 ≤ Real.exp (-(1 * x / (1 * T))) := by
        rw [Real.exp_neg, one_div]
        exact inv_anti₀ (Real.exp_pos _) (le_trans (Real.exp_le_exp.2 x3) e3)
      have e0 : Real.exp (-(1 * x / (1 * T))) < 1 := Real.exp_lt_one_iff.2 (by linarith)
      have : 1 ≤ x ^ 4 := one_le_pow₀ x1
      rw [le_div_iff₀ (pow_pos (by linarith) 2)]
      have h2 : (1 - Real.exp (-(1 * x / (1 * T)))) ^ 2 ≤ 1 := by
        have := Real.exp_pos (-(1 * x / (1 * T)))
        nlinarith
      have h3 : 2 / 100 ≤ 2 * (1 : ℝ) ^ 2 * x ^ 4 / (T ^ 2 * 1 ^ 2 * 1) := by
        rw [le_div_iff₀ (by positivity)]
        nlinarith
      generalize Real.exp (-(1 * x / (1 * T))) = y at *
      calc 2 / 2700 * (1 - y) ^ 2 ≤ 2 / 2700 * 1 := by linarith
        _ = 2 / 100 * (1 / 27) := by norm_num
        _ ≤ _ := mul_le_mul h3 e1 (by norm_num) (by linarith))
    rw [intervalIntegral.integral_const] at hi
    norm_num at hi ⊢
    exact hi

/-- the hypotheses of `C88_planck` and `C88_rosseland` are met by a gray opacity, at the state with density 2 and temperature 3 -/
example : ∃ qP qR : XR → XR → ℤ → Outcome XR,
    MeansOf 1 1 1 (fun ρ _ _ => ρ * 1) 0 1 2 0 1 2 [.fin 1, .fin 2] 1 1000 qP qR ∧
    (∃ κ : ℝ, qP (.fin 2) (.fin 3) 0 = ok (.fin (2 * κ)) ∧ 0.99 ≤ κ ∧ κ ≤ 1.01) ∧
    ∃ κ : ℝ, qR (.fin 2) (.fin 3) 0 = ok (.fin (2 * κ)) ∧ 0.99 ≤ κ ∧ κ ≤ 1.01 := by
  obtain ⟨hb, hgr⟩ := oneGroup (lo := 1) (hi := 2) (by norm_num) (by norm_num)
  obtain ⟨o, ho, -⟩ := C07_gray_exists onesPC_finite (κ := 1) one_pos 0 1 (NRho := 2) (by norm_num) 0 1 (NT := 2)
    (by norm_num) hb (N := 1000) (by norm_num) (fun _ => .fin 0)
  have hm : MeansOf 1 1 1 (fun ρ _ _ => ρ * 1) 0 1 2 0 1 2 [.fin 1, .fin 2] 1 1000
      (MeanPhotonAPI.PlanckGroupAbsorptionCoefficient o) (MeanPhotonAPI.RosselandGroupAbsorptionCoefficient o) :=
    .absorption (GrayOpacity.mk onesPC (.fin 1)) onesPC _ o onesPC_finite (fun ρ T ν _ _ _ => gray_coef onesPC 1 ρ T ν) ho
  have hS := SMALL_pos
  have hS' := SMALL_lt
  have hl10 : Real.log 10 ≤ 9 := by have := Real.log_le_sub_one_of_pos (x := 10) (by norm_num); linarith
  have hl0 : 0 < Real.log 10 := Real.log_pos (by norm_num)
  have hsl : Robust.SMALL * Real.log 10 ≤ 1e-70 * (2 / 2700 : ℝ) := by
    have : Robust.SMALL * Real.log 10 ≤ 1e-80 * 9 := mul_le_mul hS'.le hl10 hl0.le (by norm_num)
    refine this.trans (by norm_num)
  have hnv : ∀ j : ℕ, (j : ℤ) < 2 → 1 ≤ nodeValue 0 1 2 j ∧ nodeValue 0 1 2 j ≤ 10 := by
    intro j hj
    have : j = 0 ∨ j = 1 := by omega
    rcases this with rfl | rfl <;> (unfold nodeValue; norm_num)
  have hδ1 : 0 ≤ Real.log ((2 + Robust.SMALL : ℝ) / (1 + Robust.SMALL)) / ((1000 : ℕ) : ℝ) ∧
      Real.log ((2 + Robust.SMALL : ℝ) / (1 + Robust.SMALL)) / ((1000 : ℕ) : ℝ) ≤ 1e-3 := by
    have h1 : 1 ≤ (2 + Robust.SMALL : ℝ) / (1 + Robust.SMALL) := by rw [le_div_iff₀ (by linarith)]; linarith
    have h2 := Real.log_le_sub_one_of_pos (x := (2 + Robust.SMALL : ℝ) / (1 + Robust.SMALL)) (by linarith)
    have h3 : (2 + Robust.SMALL : ℝ) / (1 + Robust.SMALL) ≤ 2 := by rw [div_le_iff₀ (by linarith)]; linarith
    have h4 := Real.log_nonneg h1
    constructor
    · positivity
    · rw [div_le_iff₀ (by norm_num)]; norm_num; linarith
  have hm4 : ∀ {T : ℝ}, 1 ≤ T → max 4 (1 * (2 + Robust.SMALL) / (1 * T)) = 4 := by
    intro T hT
    rw [max_eq_left]
    rw [div_le_iff₀ (by linarith)]
    norm_num at hS' ⊢
    nlinarith
  have mP : ∀ ρ ∈ Set.Icc ((10 : ℝ) ^ (0 : ℝ)) (10 ^ (1 : ℝ)), ∀ T ∈ Set.Icc ((10 : ℝ) ^ (0 : ℝ)) (10 ^ (1 : ℝ)),
      exactPlanck 1 1 1 1 (some 2) (fun ρ _ _ => ρ * 1) ρ T = 1 ∧ exactRosseland 1 1 1 1 (some 2) (fun ρ _ _ => ρ * 1) ρ T = 1 := by
    intro ρ hρ T hT
    rw [Real.rpow_zero, Real.rpow_one] at hρ hT
    obtain ⟨l1, l2⟩ := group12_laws hT.1 hT.2
    unfold exactPlanck exactRosseland planckMeanOf rosselandMeanOf
    rw [(group12_at hT.1 hT.2).1, (group12_at hT.1 hT.2).2]
    have : ρ ≠ 0 := by linarith [hρ.1]
    simp only [mul_one, div_self this, one_mul]
    exact ⟨div_self (by linarith), div_self (by linarith)⟩
  have sl : ∀ M : ℝ → ℝ → ℝ, (∀ ρ ∈ Set.Icc ((10 : ℝ) ^ (0 : ℝ)) (10 ^ (1 : ℝ)), ∀ T ∈ Set.Icc ((10 : ℝ) ^ (0 : ℝ)) (10 ^ (1 : ℝ)), M ρ T = 1) →
      MeanSlope 0 0 (10 ^ (0 : ℝ)) (10 ^ (1 : ℝ)) (10 ^ (0 : ℝ)) (10 ^ (1 : ℝ)) M := by
    intro M h ρ hρ ρ' hρ' T hT T' hT'
    rw [h ρ hρ T hT, h ρ' hρ' T' hT']
    simp
  have inst : |(2 : ℝ)| + Robust.SMALL ∈ Set.Icc ((10 : ℝ) ^ (0 : ℝ)) (10 ^ (1 : ℝ)) ∧
      |(3 : ℝ)| + Robust.SMALL ∈ Set.Icc ((10 : ℝ) ^ (0 : ℝ)) (10 ^ (1 : ℝ)) := by
    rw [Real.rpow_zero, Real.rpow_one]
    norm_num at hS' ⊢
    refine ⟨⟨?_, ?_⟩, ?_, ?_⟩ <;> linarith
  have lo99 : (0.99 : ℝ) ≤ Real.exp (-5e-3) * (1 + Robust.SMALL) := by
    have := Real.add_one_le_exp (-(5e-3 : ℝ))
    norm_num at this ⊢
    nlinarith
  have up101 : Real.exp 5e-3 * (1 + Robust.SMALL) ≤ 1.01 := by
    have h1 := Real.add_one_le_exp (-(5e-3 : ℝ))
    have h2 : Real.exp (5e-3) * Real.exp (-(5e-3 : ℝ)) = 1 := by rw [← Real.exp_add]; simp
    have h3 := Real.exp_pos (5e-3)
    norm_num at h1 h2 h3 hS' ⊢
    have h4 : Real.exp (1 / 200) ≤ 1.006 := by norm_num; nlinarith
    norm_num at h4
    nlinarith
  have hsub : ∀ j : ℕ, (j : ℤ) < 2 → (4 + (0 : ℝ) / 2) * (Real.log ((2 + Robust.SMALL : ℝ) / (1 + Robust.SMALL)) / ((1000 : ℕ) : ℝ)) + 1e-70 + 1e-14 ≤ 5e-3 := by
    intro j _
    norm_num at hδ1 ⊢
    linarith
  refine ⟨_, _, hm, ?_, ?_⟩
  · obtain ⟨κ, e, a, b⟩ := C88_planck hm (fun ρ _ _ h _ _ => by positivity) (by norm_num) (by norm_num) (by norm_num) (by norm_num)
      (g := 0) (by norm_num) hgr (Λ := 0) (ε := 1e-70) (E := 5e-3) (σ := 0) (τ := 0) (le_refl _) (le_refl _) (le_refl _)
      (fun i j hi hj ρ' T' A B e1 e2 e3 e4 => by
        obtain ⟨t1, t2⟩ := e2 ▸ hnv j hj
        have r1 : 1 ≤ ρ' := e1 ▸ (hnv i hi).1
        rw [(group12_at t1 t2).1] at e3
        rw [(group12_at t1 t2).2] at e4
        rw [e3, e4, hm4 t1]
        refine ⟨fun _ _ => by linarith, fun x _ y _ => by simp, ?_, hsub j hj⟩
        exact hsl.trans (mul_le_mul_of_nonneg_left (le_trans (by norm_num) (group12_laws t1 t2).1) (by norm_num)))
      (sl _ fun ρ hρ T hT => (mP ρ hρ T hT).1) (fun ρ hρ T hT => by rw [(mP ρ hρ T hT).1]; norm_num) inside_example rfl
    rw [(mP _ inst.1 _ inst.2).1] at a b
    simp only [zero_mul, add_zero, zero_div] at a b
    exact ⟨κ, e, lo99.trans a, b.trans up101⟩
  · obtain ⟨κ, e, a, b⟩ := C88_rosseland hm (fun ρ _ _ h _ _ => by positivity) (by norm_num) (by norm_num) (by norm_num) (by norm_num)
      (g := 0) (by norm_num) hgr (Λ := 0) (ε := 1e-70) (E := 5e-3) (σ := 0) (τ := 0) (le_refl _) (by norm_num) (le_refl _) (le_refl _)
      (fun i j hi hj ρ' T' A B δ m e1 e2 e3 e4 e5 e6 => by
        obtain ⟨t1, t2⟩ := e2 ▸ hnv j hj
        have r1 : 1 ≤ ρ' := e1 ▸ (hnv i hi).1
        rw [(group12_at t1 t2).1] at e3
        rw [(group12_at t1 t2).2] at e4
        rw [e4, hm4 t1] at e6
        rw [e4, e3] at e5
        rw [e3, e4, e6, e5]
        have r0 : ρ' ≠ 0 := by linarith
        have hi2 := hsl.trans (mul_le_mul_of_nonneg_left (group12_laws t1 t2).2 (by norm_num))
        refine ⟨fun _ _ => ⟨by linarith, ?_⟩, fun x _ y _ => by simp, hi2, ?_, ?_, hsub j hj⟩
        · norm_num at hS' ⊢
          linarith
        · simp only [mul_one, div_self r0, one_mul]
          exact hi2
        · have h1 : Real.exp ((4 + (0 : ℝ) / 2) * (Real.log ((2 + Robust.SMALL : ℝ) / (1 + Robust.SMALL)) / ((1000 : ℕ) : ℝ))) ≤ Real.exp 1 :=
            Real.exp_le_exp.2 (by have := hsub j hj; norm_num at this ⊢; linarith)
          have h2 := Real.exp_one_lt_three
          generalize Real.exp ((4 + (0 : ℝ) / 2) * (Real.log ((2 + Robust.SMALL : ℝ) / (1 + Robust.SMALL)) / ((1000 : ℕ) : ℝ))) = y at *
          have h3 : y ≤ 3 := by linarith
          norm_num
          linarith)
      (sl _ fun ρ hρ T hT => (mP ρ hρ T hT).2) (fun ρ hρ T hT => by rw [(mP ρ hρ T hT).2]; norm_num) inside_example rfl
    rw [(mP _ inst.1 _ inst.2).2] at a b
    simp only [zero_mul, add_zero, zero_div] at a b
    exact ⟨κ, e, lo99.trans a, b.trans up101⟩

end Opac.Photons
