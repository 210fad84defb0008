import Verif.Spec.Rounding
import Verif.Lemmas.VectorOK
import Verif.Props.Thermal
import Mathlib.Data.Int.Log
import Mathlib.Algebra.Order.Round

/-!
# C30 (vectorised calls agree with scalar calls) and C31 (histories of vectorised calls through unit wrappers)

Exact arithmetic: nothing but the results changes, for every history.  Rounded arithmetic: results still agree with
the scalar call bit for bit, the frequencies drift by at most three roundings per wrapper and call, and they do
change (`C31_rounded_false`).
-/

namespace Opac
open Spec Outcome
set_option linter.unusedSectionVars false

namespace Photons

/-! ## C30 -/

/-- C30, opacities without a unit wrapper, in every arithmetic (bit for bit): slot `i` holds exactly the scalar result
for frequency `i` and no other memory changes.  In-place calls (`nu_bins = coeffs`) are allowed. -/
theorem C30_plain {R : Type} [Arith R] {O : Type} {inst : PhotonAPI R O} {o : O} (H : Constructed R O inst o 0)
    (fn : VFn) (rho temp : R) (nb co : Indexer) (n : ℤ) (m : Heap R) (h : Ordered nb co n) :
    Filled (scalarFn inst o fn rho temp) nb co n m (vectorFn inst o fn rho temp nb co n m) := by
  generalize hk : (0 : ℕ) = k at H
  induction H with
  | gray o | epbremss o | powerLaw o => cases fn <;> exact fillLoop_filled _ h m
  | nonCGS => exact absurd hk (by omega)
  | vScaleFree _ ih | vGray _ ih | vPowerLawScaleFree _ ih | vPowerLaw _ ih | vEPBremss _ ih | vNonCGSGray _ ih
  | vNonCGSPowerLaw _ ih | vNonCGSEPBremss _ ih =>
    have := ih hk
    cases fn <;> exact this

/-- C30, every opacity, exact arithmetic: each vectorised function stores the scalar results, leaves the frequencies
unchanged and modifies no other memory, for every number of bins. -/
theorem C30_vector {O : Type} {inst : PhotonAPI ℝ O} {o : O} {n : ℕ} (H : Built O inst o n) (fn : VFn) (rho temp : ℝ) :
    Elementwise (scalarFn inst o fn rho temp) (vectorFn inst o fn rho temp) :=
  VectorWith.elementwise (H.constructedIn.vectorOK_real fn rho temp)

/-- C30, zero or negative number of bins: memory is untouched, in every arithmetic, with any wrappers -/
theorem C30_empty {R : Type} [Arith R] (hc : ∀ a b : R, a * b = b * a) {O : Type} {inst : PhotonAPI R O} {o : O} {k : ℕ}
    (H : Constructed R O inst o k) (fn : VFn) (rho temp : R) (nb co : Indexer) (n : ℤ) (hn : n ≤ 0) (m : Heap R) :
    vectorFn inst o fn rho temp nb co n m = m := by
  obtain ⟨g, -, h⟩ := H.vectorOK hc (Q := fun _ _ => True) trivial fun _ _ _ _ _ => trivial
  funext a
  exact (h fn rho temp nb co n m ⟨fun i j hi => by omega, fun i j hi => by omega, fun i j hi => by omega⟩).frame a
    fun i hi => by omega

/-- C30, every opacity, every arithmetic whose multiplication commutes (as IEEE's does): the stored results are bit
for bit the scalar results, and only result and frequency slots are written. -/
theorem C30_bits {R : Type} [Arith R] (hc : ∀ a b : R, a * b = b * a) {O : Type} {inst : PhotonAPI R O} {o : O} {k : ℕ}
    (H : Constructed R O inst o k) (fn : VFn) (rho temp : R) (nb co : Indexer) (n : ℤ) (m : Heap R)
    (hs : Separate nb co n) :
    (∀ i : ℕ, (i : ℤ) < n → vectorFn inst o fn rho temp nb co n m (co i) = scalarFn inst o fn rho temp (m (nb i))) ∧
    ∀ a, (∀ i : ℕ, (i : ℤ) < n → a ≠ nb i ∧ a ≠ co i) → vectorFn inst o fn rho temp nb co n m a = m a := by
  obtain ⟨g, -, h⟩ := H.vectorOK hc (Q := fun _ _ => True) trivial fun _ _ _ _ _ => trivial
  exact ⟨(h fn rho temp nb co n m hs).results, (h fn rho temp nb co n m hs).frame⟩

/-- the hypotheses of C30 are met: bremsstrahlung in code units, any number of bins -/
example (pc : PC ℝ) (hpc : PosPC pc) (n : ℤ) (rho temp : ℝ) (m : Heap ℝ) :
    Filled (PhotonAPI.EmissivityPerNu (NonCGSUnits.construct (R := ℝ) (⟨pc⟩ : EPBremsstrahlungOpacity ℝ) 2 3 5 7) rho temp)
      (fun i => 2 * i) (fun i => 2 * i + 1) n m
      (PhotonAPI.EmissivityPerNuV (NonCGSUnits.construct (R := ℝ) (⟨pc⟩ : EPBremsstrahlungOpacity ℝ) 2 3 5 7) rho temp
        (fun i => 2 * i) (fun i => 2 * i + 1) n m) :=
  C30_vector (.nonCGS ⟨2, 3, 5, 7⟩ ⟨by norm_num, by norm_num, by norm_num, by norm_num⟩ (.epbremss _ hpc))
    .EmissivityPerNu rho temp _ _ n m (separate_example n)

/-- In-place use is correct for plain opacities (`C30_plain`) but not through a unit wrapper: the result is multiplied
once more by the time unit (gray opacity 1, density 1, time unit 2: scalar 1, in place 2). -/
theorem C30_inplace_false : ¬ ∀ (O : Type) (inst : PhotonAPI ℝ O) (o : O) (n : ℕ), Built O inst o n →
    ∀ (fn : VFn) (rho temp : ℝ) (a : Indexer) (nbins : ℤ) (m : Heap ℝ), Ordered a a nbins →
      Filled (scalarFn inst o fn rho temp) a a nbins m (vectorFn inst o fn rho temp a a nbins m) := by
  intro h
  have hb : Built _ inferInstance (NonCGSUnits.construct (R := ℝ) (⟨PhysicalConstantsUnity, 1⟩ : GrayOpacity ℝ) 2 1 1 1) 1 :=
    .nonCGS ⟨2, 1, 1, 1⟩ ⟨by norm_num, by norm_num, by norm_num, by norm_num⟩ (.gray _ PosPC_Unity)
  have := (h _ _ _ _ hb .AbsorptionCoefficient 1 1 id 1 (fun _ => 1)
    ⟨fun i j _ _ h => h, fun i j _ hj => Nat.ne_of_gt hj⟩).results 0 (by norm_num)
  simp [scalarFn, vectorFn, PhotonAPI.AbsorptionCoefficient, PhotonAPI.AbsorptionCoefficientV, nonCGSVector,
    scaleLoop, scaleLoop2, fillLoop, forLoop, NonCGSUnits.construct, GrayOpacity.AbsorptionCoefficient, areal] at this

/-! ## C31 -/

/-- C31: after any history of vectorised calls on any opacities in any unit systems, the caller's frequencies (every
address in `F`) are unchanged, and the last call stored the scalar results at the original frequencies.  (Applied to
every prefix of a history this covers every call.) -/
theorem C31_history (F : Set ℕ) (hist : List (VCall ℝ Built)) (hF : ∀ c ∈ hist, c.Respects F) (m : Heap ℝ) :
    (∀ a ∈ F, runCalls hist m a = m a) ∧
    ∀ pre c, hist = pre ++ [c] → ∀ i : ℕ, (i : ℤ) < c.nbins →
      runCalls hist m (c.coeffs i) = scalarFn c.inst c.o c.fn c.rho c.temp (m (c.nu_bins i)) := by
  have keep : ∀ (hist : List (VCall ℝ Built)), (∀ c ∈ hist, c.Respects F) → ∀ m : Heap ℝ, ∀ a ∈ F,
      runCalls hist m a = m a := by
    intro hist
    induction hist with
    | nil => intro _ m a _; rfl
    | cons c l ih =>
      intro h m a ha
      have e : runCalls (c :: l) m a = runCalls l (c.run m) a := rfl
      rw [e, ih (fun c hc => h c (List.mem_cons_of_mem _ hc)) _ a ha]
      exact (C30_vector c.isP c.fn c.rho c.temp _ _ _ m c.separate).frame a fun i hi hc =>
        (h c List.mem_cons_self i hi).2 (hc ▸ ha)
  refine ⟨keep hist hF m, ?_⟩
  rintro pre c rfl i hi
  have e : runCalls (pre ++ [c]) m = c.run (runCalls pre m) := by
    simp [runCalls, List.foldl_append]
  have hc := hF c (by simp)
  rw [e]
  refine ((C30_vector c.isP c.fn c.rho c.temp _ _ _ _ c.separate).results i hi).trans ?_
  rw [keep pre (fun c hc => hF c (by simp [hc])) m _ (hc i hi).1]

end Photons

/-! ### rounded arithmetic -/

/-- a frequency after `k` wrapper passes -/
def Drift {rd : ℝ → ℝ} (u : ℝ) (k : ℕ) (g : Fl rd → Fl rd) : Prop :=
  ∀ ν : Fl rd, 0 ≤ ν.val → (1 - u) ^ (3 * k) * ν.val ≤ (g ν).val ∧ (g ν).val ≤ (1 + u) ^ (3 * k) * ν.val

theorem Rounding.bounds {rd : ℝ → ℝ} {u : ℝ} (h : Rounding rd u) {x : ℝ} (hx : 0 ≤ x) :
    (1 - u) * x ≤ rd x ∧ rd x ≤ (1 + u) * x := by
  have := h.err x
  rw [abs_of_nonneg hx, abs_le] at this
  constructor <;> nlinarith

theorem Rounding.drift {rd : ℝ → ℝ} {u : ℝ} (h : Rounding rd u) (n : ℕ) (g : Fl rd → Fl rd) (t : Fl rd)
    (ht : 0 < t.val) (hg : Drift u n g) : Drift u (n + 1) (throughWrapper t g) := by
  intro ν hν
  have e : throughWrapper t g ν = ⟨rd ((g ⟨rd (ν.val * rd (rd ((1 : ℚ) : ℝ) / t.val))⟩).val * t.val)⟩ := rfl
  rw [e]
  simp only [Rat.cast_one, h.one]
  have hu := h.nonneg
  have hu1 : 0 ≤ 1 - u := by linarith [h.lt_one]
  have hi : (0 : ℝ) < 1 / t.val := by positivity
  obtain ⟨a1, a2⟩ := h.bounds hi.le
  have ha0 : 0 ≤ rd (1 / t.val) := le_trans (by positivity) a1
  have hb0 : 0 ≤ ν.val * rd (1 / t.val) := mul_nonneg hν ha0
  obtain ⟨b1, b2⟩ := h.bounds hb0
  have hb1 : 0 ≤ rd (ν.val * rd (1 / t.val)) := le_trans (mul_nonneg hu1 hb0) b1
  obtain ⟨c1, c2⟩ := hg ⟨rd (ν.val * rd (1 / t.val))⟩ hb1
  simp only at c1 c2
  set G := (g ⟨rd (ν.val * rd (1 / t.val))⟩).val
  have hG : 0 ≤ G := le_trans (by positivity) c1
  have hd0 : 0 ≤ G * t.val := mul_nonneg hG ht.le
  obtain ⟨d1, d2⟩ := h.bounds hd0
  have p1 : 0 ≤ (1 - u) ^ (3 * n) := by positivity
  have p2 : 0 ≤ (1 + u) ^ (3 * n) := by positivity
  constructor
  · refine le_trans ?_ d1
    have : (1 - u) ^ (3 * (n + 1)) * ν.val = (1 - u) * ((1 - u) ^ (3 * n) * ((1 - u) * (ν.val * ((1 - u) *
        (1 / t.val)))) * t.val) := by
      field_simp; ring
    rw [this]
    gcongr
    refine le_trans ?_ c1
    gcongr
    refine le_trans ?_ b1
    gcongr
  · refine le_trans d2 ?_
    have : (1 + u) ^ (3 * (n + 1)) * ν.val = (1 + u) * ((1 + u) ^ (3 * n) * ((1 + u) * (ν.val * ((1 + u) *
        (1 / t.val)))) * t.val) := by
      field_simp; ring
    rw [this]
    gcongr
    refine le_trans c2 ?_
    gcongr
    refine le_trans b2 ?_
    gcongr

theorem drift_zero {rd : ℝ → ℝ} (u : ℝ) : Drift u 0 (id : Fl rd → Fl rd) := by
  intro ν _; simp

theorem Fl.mul_comm' {rd : ℝ → ℝ} (a b : Fl rd) : a * b = b * a := by
  show (⟨rd (a.val * b.val)⟩ : Fl rd) = ⟨rd (b.val * a.val)⟩
  rw [mul_comm]

namespace Photons

/-- positive units, rounded arithmetic -/
abbrev RBuilt (rd : ℝ → ℝ) : (O : Type) → PhotonAPI (Fl rd) O → O → ℕ → Prop :=
  ConstructedIn (Fl rd) (fun x => 0 < x.val)

/-- C31 under rounding: through any history of calls that passes `N` wrappers altogether, every (nonnegative)
frequency stays within `3 N` relative roundings of its original value, and the last call stored, bit for bit, the
scalar results at the frequencies found in memory when it started. -/
theorem C31_rounded_partial {rd : ℝ → ℝ} {u : ℝ} (hr : Rounding rd u) (F : Set ℕ) (hist : List (VCall (Fl rd) (RBuilt rd)))
    (hF : ∀ c ∈ hist, c.Respects F) (m : Heap (Fl rd)) (hm : ∀ a ∈ F, 0 ≤ (m a).val) :
    (∀ a ∈ F, (1 - u) ^ (3 * totalWraps VCall.wraps hist) * (m a).val ≤ (runCalls hist m a).val ∧
      (runCalls hist m a).val ≤ (1 + u) ^ (3 * totalWraps VCall.wraps hist) * (m a).val) ∧
    ∀ pre c, hist = pre ++ [c] → ∀ i : ℕ, (i : ℤ) < c.nbins →
      runCalls hist m (c.coeffs i) = scalarFn c.inst c.o c.fn c.rho c.temp (runCalls pre m (c.nu_bins i)) := by
  have hu1 : 0 ≤ 1 - u := by linarith [hr.lt_one]
  have hu := hr.nonneg
  have hok : ∀ c : VCall (Fl rd) (RBuilt rd), ∃ g, Drift u c.wraps g ∧ VectorOK c.inst c.o g := fun c =>
    c.isP.vectorOK Fl.mul_comm' (Q := Drift u) (drift_zero u) fun n g t ht hg => hr.drift n g t ht hg
  constructor
  · induction hist generalizing m with
    | nil => intro a _; simp [runCalls, totalWraps]
    | cons c l ih =>
      have hc := hF c List.mem_cons_self
      obtain ⟨g, hd, hv⟩ := hok c
      have hstep := hv c.fn c.rho c.temp c.nu_bins c.coeffs c.nbins m c.separate
      have one : ∀ a ∈ F, (1 - u) ^ (3 * c.wraps) * (m a).val ≤ (c.run m a).val ∧
          (c.run m a).val ≤ (1 + u) ^ (3 * c.wraps) * (m a).val := by
        intro a ha
        by_cases hx : ∃ i : ℕ, (i : ℤ) < c.nbins ∧ a = c.nu_bins i
        · obtain ⟨i, hi, rfl⟩ := hx
          have : c.run m (c.nu_bins i) = g (m (c.nu_bins i)) := hstep.frequencies i hi
          rw [this]
          exact hd _ (hm _ ha)
        · have : c.run m a = m a := hstep.frame a fun i hi =>
            ⟨fun h => hx ⟨i, hi, h⟩, fun h => (hc i hi).2 (h ▸ ha)⟩
          rw [this]
          have h1 : (1 - u) ^ (3 * c.wraps) ≤ 1 := pow_le_one₀ hu1 (by linarith)
          have h2 : 1 ≤ (1 + u) ^ (3 * c.wraps) := one_le_pow₀ (by linarith)
          have := hm a ha
          constructor <;> nlinarith
      intro a ha
      have hm' : ∀ a ∈ F, 0 ≤ (c.run m a).val := fun a ha =>
        le_trans (mul_nonneg (by positivity) (hm a ha)) (one a ha).1
      obtain ⟨l1, l2⟩ := ih (fun c hc => hF c (List.mem_cons_of_mem _ hc)) (c.run m) hm' a ha
      obtain ⟨o1, o2⟩ := one a ha
      have e : runCalls (c :: l) m a = runCalls l (c.run m) a := rfl
      have ew : totalWraps VCall.wraps (c :: l) = c.wraps + totalWraps VCall.wraps l := by simp [totalWraps]
      rw [e, ew, mul_add, pow_add, pow_add]
      constructor
      · refine le_trans ?_ l1
        rw [mul_comm ((1 - u) ^ (3 * c.wraps)), mul_assoc]
        gcongr
      · refine le_trans l2 ?_
        rw [mul_comm ((1 + u) ^ (3 * c.wraps)), mul_assoc]
        gcongr
  · rintro pre c rfl i hi
    obtain ⟨g, -, hv⟩ := hok c
    have e : runCalls (pre ++ [c]) m = c.run (runCalls pre m) := by simp [runCalls, List.foldl_append]
    rw [e]
    exact (hv c.fn c.rho c.temp c.nu_bins c.coeffs c.nbins _ c.separate).results i hi

end Photons

/-! ### IEEE double rounding -/

theorem rn53_rounding : Rounding rn53 (2 ^ (-53 : ℤ)) where
  nonneg := by positivity
  lt_one := by norm_num
  err x := by
    by_cases hx : x = 0
    · simp [rn53, hx]
    have hpos : 0 < |x| := abs_pos.2 hx
    set e := Int.log 2 |x|
    have h1 : ((2 : ℕ) : ℝ) ^ e ≤ |x| := Int.zpow_log_le_self (by norm_num) hpos
    push_cast at h1
    have hp : (2 : ℝ) ^ (52 - e) * 2 ^ (e - 52) = 1 := by
      rw [← zpow_add₀ (by norm_num)]; simp
    have h2 := abs_sub_round (x * 2 ^ (52 - e))
    have h3 : rn53 x - x = -((x * 2 ^ (52 - e) - round (x * 2 ^ (52 - e))) * 2 ^ (e - 52)) := by
      show (round (x * 2 ^ (52 - e)) : ℝ) * 2 ^ (e - 52) - x = _
      have : x = x * 2 ^ (52 - e) * 2 ^ (e - 52) := by rw [mul_assoc, hp, mul_one]
      linear_combination (-1 : ℝ) * this
    rw [h3, abs_neg, abs_mul, abs_of_pos (by positivity : (0 : ℝ) < 2 ^ (e - 52))]
    calc |x * 2 ^ (52 - e) - round (x * 2 ^ (52 - e))| * 2 ^ (e - 52) ≤ 1 / 2 * 2 ^ (e - 52) := by gcongr
      _ = 2 ^ (-53 : ℤ) * 2 ^ e := by
        rw [show (e - 52 : ℤ) = e + (-52) by ring, zpow_add₀ (by norm_num)]; ring
      _ ≤ 2 ^ (-53 : ℤ) * |x| := by gcongr
  one := by
    have : Int.log 2 |(1 : ℝ)| = 0 := by simp
    simp only [rn53, this]
    norm_num

theorem rn53_of {x : ℝ} {e : ℤ} {k : ℤ} (h1 : (2 : ℝ) ^ e ≤ x) (h2 : x < 2 ^ (e + 1))
    (h3 : |x * 2 ^ (52 - e) - k| < 1 / 2) : rn53 x = k * 2 ^ (e - 52) := by
  have hx : 0 < x := lt_of_lt_of_le (by positivity) h1
  have he : Int.log 2 |x| = e := by
    rw [abs_of_pos hx]
    apply le_antisymm
    · have := (Int.lt_zpow_iff_log_lt (b := 2) (by norm_num) (x := e + 1) hx).1 (by push_cast; exact h2)
      omega
    · exact (Int.zpow_le_iff_le_log (b := 2) (by norm_num) hx).1 (by push_cast; exact h1)
  have hk : round (x * 2 ^ (52 - e)) = k := by
    rw [round_eq, Int.floor_eq_iff]
    rw [abs_lt] at h3
    constructor <;> linarith [h3.1, h3.2]
  unfold rn53
  rw [he, hk]

/-- 49 · (1/49) in double precision is `1 - 2⁻⁵³` -/
theorem rn53_49 : rn53 (rn53 (1 * rn53 (1 / 49)) * 49) = 1 - 2 ^ (-53 : ℤ) := by
  have e1 : rn53 (1 / 49) = (5882252574524729 : ℤ) * 2 ^ ((-6 : ℤ) - 52) :=
    rn53_of (by norm_num) (by norm_num) (by norm_num [abs_lt])
  have e2 : rn53 (1 * rn53 (1 / 49)) = (5882252574524729 : ℤ) * 2 ^ ((-6 : ℤ) - 52) := by
    rw [e1]
    exact rn53_of (by norm_num) (by norm_num) (by norm_num)
  have e3 : rn53 ((5882252574524729 : ℤ) * 2 ^ ((-6 : ℤ) - 52) * 49) = (9007199254740991 : ℤ) * 2 ^ ((-1 : ℤ) - 52) :=
    rn53_of (by norm_num) (by norm_num) (by norm_num [abs_lt])
  rw [e2, e3]
  norm_num

namespace Photons

/-- gray opacity with opacity per mass 1, in units with a time unit of 49 s, in double precision -/
noncomputable def gray49 : NonCGSUnits (Fl rn53) (GrayOpacity (Fl rn53)) :=
  NonCGSUnits.construct ⟨PhysicalConstantsUnity, ⟨1⟩⟩ ⟨49⟩ ⟨1⟩ ⟨1⟩ ⟨1⟩

theorem gray49_built : RBuilt rn53 _ inferInstance gray49 1 :=
  .nonCGS _ _ _ _ (by norm_num) (by norm_num) (by norm_num) (by norm_num) (.gray _)

/-- **C31 fails under rounding**: the claim that the frequency array is unchanged after vectorised calls is false in
double precision.  With a time unit of 49 s one call turns the frequency 1 into `1 - 2⁻⁵³`. -/
theorem C31_rounded_false : ¬ ∀ (F : Set ℕ) (hist : List (VCall (Fl rn53) (RBuilt rn53))), (∀ c ∈ hist, c.Respects F) →
    ∀ m : Heap (Fl rn53), ∀ a ∈ F, runCalls hist m a = m a := by
  intro h
  have := h {0} [⟨_, _, gray49, 1, gray49_built, .AbsorptionCoefficient, ⟨1⟩, ⟨1⟩, fun i => 2 * i, fun i => 2 * i + 1, 1,
    separate_example 1⟩] (by
      intro c hc i hi
      simp only [List.mem_singleton] at hc
      subst hc
      have : i = 0 := by simpa using hi
      subst this
      simp) (fun _ => ⟨1⟩) 0 rfl
  have e : (runCalls [⟨_, _, gray49, 1, gray49_built, .AbsorptionCoefficient, ⟨1⟩, ⟨1⟩, fun i => 2 * i,
      fun i => 2 * i + 1, 1, separate_example 1⟩] (fun _ => (⟨1⟩ : Fl rn53)) 0 : Fl rn53).val =
      rn53 (rn53 (1 * rn53 (rn53 ((1 : ℚ) : ℝ) / 49)) * 49) := by
    simp only [runCalls, VCall.run, List.foldl, vectorFn]
    show (nonCGSVector _ _ _ _ _ _ _ _ _ : Fl rn53).val = _
    simp only [nonCGSVector, scaleLoop, scaleLoop2, forLoop, Int.toNat_one, List.range_one, List.foldl]
    rw [Function.update_of_ne (by norm_num)]
    simp only [Function.update_self]
    rfl
  rw [this] at e
  rw [Rat.cast_one, rn53_rounding.one, rn53_49] at e
  norm_num at e

/-- the hypotheses of `C31_rounded_partial` are met by double rounding -/
example (F : Set ℕ) (c : VCall (Fl rn53) (RBuilt rn53)) (hc : c.Respects F) (hw : c.wraps = 1) (k : ℕ) (a : ℕ) (ha : a ∈ F)
    (m : Heap (Fl rn53)) (hm : ∀ a ∈ F, 0 ≤ (m a).val) :
    (runCalls (List.replicate k c) m a).val ≤ (1 + 2 ^ (-53 : ℤ)) ^ (3 * k) * (m a).val := by
  have := ((C31_rounded_partial rn53_rounding F (List.replicate k c)
    (fun d hd => (List.eq_of_mem_replicate hd) ▸ hc) m hm).1 a ha).2
  simpa [totalWraps, hw] using this

/-- the hypotheses of C31 are met: two calls in different units on one frequency array -/
example (g : GrayOpacity ℝ) (P : PosPC g.pc) (n : ℤ) :
    ∃ c d : VCall ℝ Built, c.o ≍ NonCGSUnits.construct (R := ℝ) g 2 3 5 7 ∧ d.o ≍ g ∧
      (∀ x ∈ [c, d], x.Respects {a | a % 2 = 0}) :=
  ⟨⟨_, _, _, _, .nonCGS ⟨2, 3, 5, 7⟩ units_pos_ex (.gray g P), .EmissivityPerNu, 1, 1, fun i => 2 * i, fun i => 2 * i + 1, n,
      separate_example n⟩,
    ⟨_, _, _, _, .gray g P, .EmissivityPerNu, 1, 1, fun i => 2 * i, fun i => 2 * i + 1, n, separate_example n⟩,
    HEq.rfl, HEq.rfl, by
      intro x hx i _
      simp only [List.mem_cons, List.not_mem_nil, or_false] at hx
      rcases hx with rfl | rfl <;> constructor <;> simp only [Set.mem_ofPred_eq] <;> omega⟩

end Photons

namespace Neutrinos

/-- C30, opacities without a unit wrapper, in every arithmetic (bit for bit): the call returns exactly when every
scalar call does, slot `i` then holds exactly the scalar result for frequency `i`, the frequencies are untouched and
no other memory changes. -/
theorem C30_plain {R : Type} [Arith R] {O : Type} {inst : NeutrinoAPI R O} {o : O} (H : Constructed R O inst o 0)
    (fn : VFn) (rho temp Ye : R) (type : RadiationType) :
    ElementwiseM (scalarFn inst o fn rho temp Ye type) (vectorFn inst o fn rho temp Ye type) := by
  apply VectorWithM.elementwise
  generalize hk : (0 : ℕ) = k at H
  induction H with
  | gray o | tophat o | brt o => cases fn <;> exact VectorWith.pureM (fillLoop_vectorWith _)
  | spiner o => cases fn <;> exact fillLoopM_vectorWith _
  | nonCGS => exact absurd hk (by omega)
  | vScaleFree _ ih | vBRTOpac _ ih | vGray _ ih | vTophat _ ih | vSpinerOpac _ ih | vNonCGSBRT _ ih
  | vNonCGSGray _ ih | vNonCGSTophat _ ih | vNonCGSSpiner _ ih =>
    have := ih hk
    cases fn <;> exact this

/-- C30, every neutrino opacity, exact arithmetic -/
theorem C30_vector {O : Type} {inst : NeutrinoAPI ℝ O} {o : O} {n : ℕ} (H : Built O inst o n) (fn : VFn)
    (rho temp Ye : ℝ) (type : RadiationType) :
    ElementwiseM (scalarFn inst o fn rho temp Ye type) (vectorFn inst o fn rho temp Ye type) :=
  VectorWithM.elementwise (H.constructedIn.vectorOK_real fn rho temp Ye type)

/-- C30, every neutrino opacity, every arithmetic whose multiplication commutes: if the scalar calls return `r i`, the
vectorised call returns and stores exactly these, and only result and frequency slots are written. -/
theorem C30_bits {R : Type} [Arith R] (hc : ∀ a b : R, a * b = b * a) {O : Type} {inst : NeutrinoAPI R O} {o : O}
    {k : ℕ} (H : Constructed R O inst o k) (fn : VFn) (rho temp Ye : R) (type : RadiationType) (nb co : Indexer) (n : ℤ)
    (m : Heap R) (hs : Separate nb co n) (r : ℕ → R)
    (hr : ∀ i : ℕ, (i : ℤ) < n → scalarFn inst o fn rho temp Ye type (m (nb i)) = .ok (r i)) :
    ∃ m', vectorFn inst o fn rho temp Ye type nb co n m = .ok m' ∧ (∀ i : ℕ, (i : ℤ) < n → m' (co i) = r i) ∧
      ∀ a, (∀ i : ℕ, (i : ℤ) < n → a ≠ nb i ∧ a ≠ co i) → m' a = m a := by
  obtain ⟨g, -, h⟩ := H.vectorOK hc (Q := fun _ _ => True) trivial fun _ _ _ _ _ => trivial
  obtain ⟨m', e, hf⟩ := (h fn rho temp Ye type nb co n m hs).1 r hr
  exact ⟨m', e, hf.results, hf.frame⟩

/-- C30, zero or negative number of bins: the call returns and memory is untouched -/
theorem C30_empty {R : Type} [Arith R] (hc : ∀ a b : R, a * b = b * a) {O : Type} {inst : NeutrinoAPI R O} {o : O}
    {k : ℕ} (H : Constructed R O inst o k) (fn : VFn) (rho temp Ye : R) (type : RadiationType) (nb co : Indexer) (n : ℤ)
    (hn : n ≤ 0) (m : Heap R) : vectorFn inst o fn rho temp Ye type nb co n m = .ok m := by
  obtain ⟨m', e, -, hf⟩ := C30_bits hc H fn rho temp Ye type nb co n m
    ⟨fun i j hi => by omega, fun i j hi => by omega, fun i j hi => by omega⟩ (fun _ => rho) fun i hi => by omega
  rw [e]
  congr 1
  funext a
  exact hf a fun i hi => by omega

/-- the hypotheses of C30 are met: BRT in code units -/
example (rho temp Ye : ℝ) : ElementwiseM
    (NeutrinoAPI.EmissivityPerNu (NonCGSUnits.construct (R := ℝ)
      (⟨⟨3, PhysicalConstantsCGS⟩, PhysicalConstantsCGS⟩ : BRTOpacity ℝ) 2 3 5 7) rho temp Ye .NU_ELECTRON)
    (NeutrinoAPI.EmissivityPerNuV (NonCGSUnits.construct (R := ℝ)
      (⟨⟨3, PhysicalConstantsCGS⟩, PhysicalConstantsCGS⟩ : BRTOpacity ℝ) 2 3 5 7) rho temp Ye .NU_ELECTRON) :=
  C30_vector (.nonCGS ⟨2, 3, 5, 7⟩ Photons.units_pos_ex built_brt_cgs) .EmissivityPerNu rho temp Ye .NU_ELECTRON

private theorem runCalls_append {R : Type} {P : (O : Type) → NeutrinoAPI R O → O → ℕ → Prop} (pre : List (VCall R P))
    (c : VCall R P) (m : Heap R) : runCalls (pre ++ [c]) m = (runCalls pre m).bind c.run := by
  induction pre generalizing m with
  | nil =>
    show (c.run m).bind ok = c.run m
    cases c.run m <;> rfl
  | cons d l ih =>
    show (d.run m).bind (runCalls (l ++ [c])) = ((d.run m).bind (runCalls l)).bind c.run
    cases d.run m with
    | ok m' => exact ih m'
    | abort => rfl
    | ub => rfl

private theorem step {R : Type} [Arith R] {O : Type} {i : NeutrinoAPI R O} {o : O} {g : R → R} (h : VectorOK i o g)
    {fn : VFn} {rho temp Ye : R} {type : RadiationType} {nb co : Indexer} {n : ℤ} {m m' : Heap R} (hs : Separate nb co n)
    (e : vectorFn i o fn rho temp Ye type nb co n m = ok m') :
    (∀ k : ℕ, (k : ℤ) < n → scalarFn i o fn rho temp Ye type (m (nb k)) = ok (m' (co k))) ∧
    (∀ k : ℕ, (k : ℤ) < n → m' (nb k) = g (m (nb k))) ∧
    ∀ a, (∀ k : ℕ, (k : ℤ) < n → a ≠ nb k ∧ a ≠ co k) → m' a = m a := by
  obtain ⟨h1, h2⟩ := h fn rho temp Ye type nb co n m hs
  have h3 := h2 m' e
  have : ∀ k : ℕ, ∃ v, (k : ℤ) < n → scalarFn i o fn rho temp Ye type (m (nb k)) = ok v := by
    intro k
    by_cases hk : (k : ℤ) < n
    · obtain ⟨v, hv⟩ := h3 k hk
      exact ⟨v, fun _ => hv⟩
    · exact ⟨rho, fun h => absurd h hk⟩
  choose v hv using this
  obtain ⟨m'', e', hf⟩ := h1 v hv
  rw [e] at e'
  injection e' with e'
  subst e'
  exact ⟨fun k hk => by rw [hv k hk, hf.results k hk], hf.frequencies, hf.frame⟩

/-- C31: after any history of vectorised calls (that returned) on any neutrino opacities in any unit systems, the
caller's frequencies are unchanged, and the last call stored the scalar results at the original frequencies. -/
theorem C31_history (F : Set ℕ) (hist : List (VCall ℝ Built)) (hF : ∀ c ∈ hist, c.Respects F) (m m' : Heap ℝ)
    (hm : runCalls hist m = .ok m') :
    (∀ a ∈ F, m' a = m a) ∧
    ∀ pre c, hist = pre ++ [c] → ∀ i : ℕ, (i : ℤ) < c.nbins →
      scalarFn c.inst c.o c.fn c.rho c.temp c.Ye c.type (m (c.nu_bins i)) = .ok (m' (c.coeffs i)) := by
  have keep : ∀ (hist : List (VCall ℝ Built)), (∀ c ∈ hist, c.Respects F) → ∀ m m' : Heap ℝ, runCalls hist m = .ok m' →
      ∀ a ∈ F, m' a = m a := by
    intro hist
    induction hist with
    | nil =>
      intro _ m m' e a _
      injection e with e
      rw [e]
    | cons c l ih =>
      intro h m m' e a ha
      obtain ⟨m₁, e1, e2⟩ := bind_eq_ok.1 e
      rw [ih (fun c hc => h c (List.mem_cons_of_mem _ hc)) m₁ m' e2 a ha]
      obtain ⟨-, s2, s3⟩ := step c.isP.constructedIn.vectorOK_real c.separate e1
      by_cases hx : ∃ i : ℕ, (i : ℤ) < c.nbins ∧ a = c.nu_bins i
      · obtain ⟨i, hi, rfl⟩ := hx
        exact s2 i hi
      · exact s3 a fun i hi => ⟨fun hc => hx ⟨i, hi, hc⟩, fun hc => (h c List.mem_cons_self i hi).2 (hc ▸ ha)⟩
  refine ⟨keep hist hF m m' hm, ?_⟩
  rintro pre c rfl i hi
  rw [runCalls_append] at hm
  obtain ⟨m₁, e1, e2⟩ := bind_eq_ok.1 hm
  have hc := hF c (by simp)
  rw [← keep pre (fun c hc => hF c (by simp [hc])) m m₁ e1 _ (hc i hi).1]
  exact (step c.isP.constructedIn.vectorOK_real c.separate e2).1 i hi

/-- positive units, rounded arithmetic -/
abbrev RBuilt (rd : ℝ → ℝ) : (O : Type) → NeutrinoAPI (Fl rd) O → O → ℕ → Prop :=
  ConstructedIn (Fl rd) (fun x => 0 < x.val)

/-- C31 under rounding, neutrinos: frequencies drift by at most three roundings per wrapper and call; results are the
scalar results at the frequencies found in memory, bit for bit. -/
theorem C31_rounded_partial {rd : ℝ → ℝ} {u : ℝ} (hr : Rounding rd u) (F : Set ℕ)
    (hist : List (VCall (Fl rd) (RBuilt rd))) (hF : ∀ c ∈ hist, c.Respects F) (m m' : Heap (Fl rd))
    (hm : ∀ a ∈ F, 0 ≤ (m a).val) (hrun : runCalls hist m = .ok m') :
    (∀ a ∈ F, (1 - u) ^ (3 * totalWraps VCall.wraps hist) * (m a).val ≤ (m' a).val ∧
      (m' a).val ≤ (1 + u) ^ (3 * totalWraps VCall.wraps hist) * (m a).val) ∧
    ∀ pre c, hist = pre ++ [c] → ∃ m₁, runCalls pre m = .ok m₁ ∧ ∀ i : ℕ, (i : ℤ) < c.nbins →
      scalarFn c.inst c.o c.fn c.rho c.temp c.Ye c.type (m₁ (c.nu_bins i)) = .ok (m' (c.coeffs i)) := by
  have hu1 : 0 ≤ 1 - u := by linarith [hr.lt_one]
  have hu := hr.nonneg
  have hok : ∀ c : VCall (Fl rd) (RBuilt rd), ∃ g, Drift u c.wraps g ∧ VectorOK c.inst c.o g := fun c =>
    c.isP.vectorOK Fl.mul_comm' (Q := Drift u) (drift_zero u) fun n g t ht hg => hr.drift n g t ht hg
  constructor
  · induction hist generalizing m with
    | nil =>
      intro a _
      injection hrun with hrun
      subst hrun
      simp [totalWraps]
    | cons c l ih =>
      have hc := hF c List.mem_cons_self
      obtain ⟨g, hd, hv⟩ := hok c
      obtain ⟨m₁, e1, e2⟩ := bind_eq_ok.1 hrun
      obtain ⟨-, s2, s3⟩ := step hv c.separate e1
      have one : ∀ a ∈ F, (1 - u) ^ (3 * c.wraps) * (m a).val ≤ (m₁ a).val ∧
          (m₁ a).val ≤ (1 + u) ^ (3 * c.wraps) * (m a).val := by
        intro a ha
        by_cases hx : ∃ i : ℕ, (i : ℤ) < c.nbins ∧ a = c.nu_bins i
        · obtain ⟨i, hi, rfl⟩ := hx
          rw [s2 i hi]
          exact hd _ (hm _ ha)
        · rw [s3 a fun i hi => ⟨fun h => hx ⟨i, hi, h⟩, fun h => (hc i hi).2 (h ▸ ha)⟩]
          have h1 : (1 - u) ^ (3 * c.wraps) ≤ 1 := pow_le_one₀ hu1 (by linarith)
          have h2 : 1 ≤ (1 + u) ^ (3 * c.wraps) := one_le_pow₀ (by linarith)
          have := hm a ha
          constructor <;> nlinarith
      intro a ha
      have hm' : ∀ a ∈ F, 0 ≤ (m₁ a).val := fun a ha =>
        le_trans (mul_nonneg (by positivity) (hm a ha)) (one a ha).1
      obtain ⟨l1, l2⟩ := ih (fun c hc => hF c (List.mem_cons_of_mem _ hc)) m₁ hm' e2 a ha
      obtain ⟨o1, o2⟩ := one a ha
      have ew : totalWraps VCall.wraps (c :: l) = c.wraps + totalWraps VCall.wraps l := by simp [totalWraps]
      rw [ew, mul_add, pow_add, pow_add]
      constructor
      · refine le_trans ?_ l1
        rw [mul_comm ((1 - u) ^ (3 * c.wraps)), mul_assoc]
        gcongr
      · refine le_trans l2 ?_
        rw [mul_comm ((1 + u) ^ (3 * c.wraps)), mul_assoc]
        gcongr
  · rintro pre c rfl
    obtain ⟨g, -, hv⟩ := hok c
    rw [runCalls_append] at hrun
    obtain ⟨m₁, e1, e2⟩ := bind_eq_ok.1 hrun
    exact ⟨m₁, e1, fun i hi => (step hv c.separate e2).1 i hi⟩

/-- the hypotheses of C31 are met: a history that returns -/
example (m : Heap ℝ) (n : ℤ) : ∃ (c : VCall ℝ Built) (m' : Heap ℝ), c.wraps = 1 ∧ c.Respects {a | a % 2 = 0} ∧
    runCalls [c] m = .ok m' :=
  ⟨⟨_, _, _, _, .nonCGS ⟨2, 3, 5, 7⟩ Photons.units_pos_ex built_brt_cgs, .EmissivityPerNu, 1, 1, 1, .NU_ELECTRON,
    fun i => 2 * i, fun i => 2 * i + 1, n, separate_example n⟩, _, rfl, by
      intro i _
      constructor <;> simp only [Set.mem_ofPred_eq] <;> omega, rfl⟩

end Neutrinos
end Opac
