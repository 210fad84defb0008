import Verif.Lemmas.Groups
import Verif.Lemmas.Table
import Verif.Spec.Tables

/-!
# C01–C06: frequency groups of multigroup mean opacities

All theorems hold for every carrier with IEEE comparisons (`LawfulCmp`), in particular for `double`.
`BuiltFrom t b`: a constructor returned the tables `t` when given the group bounds `b`.
-/

namespace Opac.Photons
open Arith Outcome Spec Spiner

variable {R : Type} [Arith R] [LawfulCmp R]

/-! ## Concrete tables used to show that hypotheses can be met -/

/-- a 2×2×2 table of zeros -/
noncomputable def exBox : DataBox XR :=
  { dims := [2, 2, 2], grid := fun _ => { min := .fin 0, max := .fin 1, N := 2 }, data := fun _ => .fin 1 }

/-- bounds `0 < 1 < +inf` -/
noncomputable def exBounds : List XR := [.fin 0, .fin 1, .pinf]

theorem exBounds_acceptable : AcceptableBounds exBounds 2 := by
  refine ⟨by norm_num, by simp [exBounds], ?_, ?_, ?_, ?_⟩
  · intro i x hi hx
    have : i = 0 ∨ i = 1 ∨ i = 2 := by omega
    rcases this with rfl | rfl | rfl <;> (simp [exBounds] at hx; subst hx; simp [isNaN])
  · intro x hx; simp [exBounds] at hx; subst hx; simp [le, XR.le, lit]
  · intro i x y hi hx hy
    have : i = 0 ∨ i = 1 := by omega
    rcases this with rfl | rfl <;>
      (simp [exBounds] at hx hy; subst hx; subst hy; simp [lt, XR.lt])
  · intro i x hi hx
    have : i = 0 ∨ i = 1 := by omega
    rcases this with rfl | rfl <;> (simp [exBounds] at hx; subst hx; simp [isInf])

theorem exBox_valid : MGTables.ValidateTables_ exBox exBox = ok () := by
  simp [MGTables.ValidateTables_, exBox, DataBox.rank, DataBox.dim, DataBox.range, Grid.beq, eqb, XR.eqb]

/-- the tables built from `exBox` and `exBounds` -/
noncomputable def exTables : MGTables XR :=
  { lPlanck := exBox.mapData ToLog exBox.size (fun _ => .fin 0)
    lRosseland := exBox.mapData ToLog exBox.size (fun _ => .fin 0)
    groupBounds := exBounds
    ngroups := 2 }

theorem exTables_load :
    MGTables.LoadTables_ (fun _ => XR.fin 0) exBox exBox exBounds = ok exTables := by
  have hd : exBox.dim 1 = 2 := by simp [exBox, DataBox.dim]
  rw [LoadTables_eq]
  rw [exBox_valid, ok_bind, hd, (Validate_ok_iff exBounds 2).2 exBounds_acceptable, ok_bind]
  unfold SetGroupBounds
  rw [show (2 : ℤ).toNat = 2 from rfl, copyBounds_ok exBounds 2 (by simp [exBounds])]
  rfl

theorem exTables_built : BuiltFrom exTables exBounds := Or.inr ⟨_, _, _, exTables_load⟩

/-! ## C01 -/

/-- **C01.** On every accepted set of bounds (at most `2^30` groups), `GroupOfNu nu` returns `g` exactly when
`nu` lies in group `g`; groups do not overlap; a frequency is in some group exactly when it lies between the
first and the last bound; for every other `nu` (NaN included) the call reports an error. -/
theorem C01_group_lookup (t : MGTables R) (b : List R) (hb : BuiltFrom t b) (hsize : t.ngroups ≤ 2 ^ 30)
    (nu : R) :
    (∀ g, (t.GroupOfNu nu).Returns g ↔ InGroup b t.ngroups g nu) ∧
    (∀ g g', InGroup b t.ngroups g nu → InGroup b t.ngroups g' nu → g = g') ∧
    ((∃ g, InGroup b t.ngroups g nu) ↔
      (∃ lo hi, b[0]? = some lo ∧ b[t.ngroups]? = some hi ∧ le lo nu = true ∧ le nu hi = true)) ∧
    ((¬ ∃ g, InGroup b t.ngroups g nu) → (t.GroupOfNu nu).Aborts) := by
  obtain ⟨ha, hgb⟩ := hb.spec
  have ht : AcceptableBounds t.groupBounds (t.ngroups : ℤ) := by rw [hgb]; exact acceptable_take ha
  have hiff : ∀ g, InGroup t.groupBounds t.ngroups g nu ↔ InGroup b t.ngroups g nu := by
    intro g; rw [hgb]; exact inGroup_take
  have hs := GroupOfNu_spec t ht hsize nu
  have hlen := ha.enough
  have hpos := ha.some_group
  refine ⟨?_, fun g g' => inGroup_unique ha, ?_, ?_⟩
  · intro g
    rcases hs with ⟨g', e, hg'⟩ | ⟨⟨m, e⟩, hno⟩
    · unfold Returns
      rw [e]
      constructor
      · intro h; cases h; exact (hiff _).1 hg'
      · intro h; rw [inGroup_unique ha h ((hiff _).1 hg')]
    · unfold Returns
      rw [e]
      constructor
      · intro h; cases h
      · intro h; exact absurd ⟨g, (hiff g).2 h⟩ hno
  · constructor
    · rintro ⟨g, hg⟩
      have := inGroup_range ha hg
      exact ⟨b[0]'(by omega), b[t.ngroups]'(by omega), List.getElem?_eq_getElem _,
        List.getElem?_eq_getElem _, this.1 _ (List.getElem?_eq_getElem _),
        this.2 _ (List.getElem?_eq_getElem _)⟩
    · rintro ⟨lo, hi, h0, hN, h1, h2⟩
      obtain ⟨g, r, _, _, hg⟩ := impl_correct b t.ngroups ha (by unfold INT_MAX; omega) nu
        (fun x hx => by rw [h0] at hx; cases hx; exact h1)
        (fun x hx => by rw [hN] at hx; cases hx; exact h2)
      exact ⟨g, hg⟩
  · intro hno
    rcases hs with ⟨g', e, hg'⟩ | ⟨ha, _⟩
    · exact absurd ⟨g', (hiff _).1 hg'⟩ hno
    · exact ha

/-- non-vacuity: with bounds `0 < 1 < +inf`, frequency 1 is in group 1, NaN is rejected -/
example : exTables.GroupOfNu (.fin 1) = ok 1 ∧ (exTables.GroupOfNu .nan).Aborts := by
  constructor
  · refine ((C01_group_lookup exTables exBounds exTables_built (by simp [exTables]) (.fin 1)).1 1).2 ?_
    refine ⟨by simp [exTables], .fin 1, .pinf, by simp [exBounds], by simp [exBounds], by simp [le, XR.le],
      Or.inl (by simp [lt, XR.lt])⟩
  · refine (C01_group_lookup exTables exBounds exTables_built (by simp [exTables]) .nan).2.2.2 ?_
    rintro ⟨g, _, lo, hi, _, _, h, _⟩
    cases lo <;> simp [le, XR.le] at h

/-! ## C02 -/

/-- **C02.** On acceptable bounds with exactly `n + 1` stored entries and `n ≤ 2^30` groups, the search returns
(no out-of-range read, no signed overflow) after at most `2 + ⌈log2 n⌉` reads of the bounds, for every
frequency that passes the end checks; the result is a valid group index. -/
theorem C02_lookup_cost (b : List R) (n : ℕ) (hb : AcceptableBounds b n) (_hstored : b.length = n + 1)
    (hn : n ≤ 2 ^ 30) (nu : R) (hlo : ∀ x, b[0]? = some x → le x nu = true)
    (hhi : ∀ x, b[n]? = some x → le nu x = true) :
    ∃ g reads, GroupOfNuImplR b n nu = ok (g, reads) ∧ g < n ∧ reads ≤ 2 + Nat.clog 2 n := by
  obtain ⟨g, r, e, h1, h2⟩ := impl_correct b n hb (by unfold INT_MAX; omega) nu hlo hhi
  exact ⟨g, r, e, h2.1, h1⟩

/-- **C02**, at the API: on constructed tables with at most `2^30` groups, `GroupOfNu` never reads out of
range and never overflows, whatever the frequency. -/
theorem C02_no_ub (t : MGTables R) (b : List R) (hb : BuiltFrom t b) (hsize : t.ngroups ≤ 2 ^ 30) (nu : R) :
    ¬ (t.GroupOfNu nu).IsUB := by
  obtain ⟨ha, hgb⟩ := hb.spec
  have ht : AcceptableBounds t.groupBounds (t.ngroups : ℤ) := by rw [hgb]; exact acceptable_take ha
  rintro ⟨w, hw⟩
  rcases GroupOfNu_spec t ht hsize nu with ⟨g', e, _⟩ | ⟨⟨m, e⟩, _⟩
  · rw [hw] at e; cases e
  · rw [hw] at e; cases e

/-- **C02**, sharpness: with more than `2^30` groups (still representable as `int`), every frequency strictly
inside the last group makes `lower + upper` overflow `int`, which is undefined behaviour. -/
theorem C02_overflow_beyond (t : MGTables R) (b : List R) (hb : BuiltFrom t b) (hbig : 2 ^ 30 < t.ngroups)
    (nu lo hi : R) (hlo : b[t.ngroups - 1]? = some lo) (hhi : b[t.ngroups]? = some hi)
    (h1 : lt lo nu = true) (h2 : lt nu hi = true) : (t.GroupOfNu nu).IsUB := by
  obtain ⟨ha0, hgb⟩ := hb.spec
  have ha : AcceptableBounds t.groupBounds (t.ngroups : ℤ) := by rw [hgb]; exact acceptable_take ha0
  have hlo' : t.groupBounds[t.ngroups - 1]? = some lo := by
    rw [hgb, getElem?_take_le (by omega)]; exact hlo
  have hhi' : t.groupBounds[t.ngroups]? = some hi := by
    rw [hgb, getElem?_take_le (by omega)]; exact hhi
  have hlen := ha.enough
  have hL : t.ngroups < t.groupBounds.length := by omega
  have h0 : t.groupBounds[0]? = some (t.groupBounds[0]'(by omega)) := List.getElem?_eq_getElem _
  have hNe : t.groupBounds[t.ngroups]'hL = hi := by
    rw [List.getElem?_eq_getElem hL] at hhi'; exact Option.some.inj hhi'
  have hlt0 : lt (t.groupBounds[0]'(by omega)) nu = true :=
    LawfulCmp.lt_trans _ _ _ (acceptable_lt ha (show 0 < t.ngroups - 1 by omega) (by omega) h0 hlo') h1
  have hle0 := LawfulCmp.le_of_lt _ _ hlt0
  have hnle0 := Cmp.not_le_of_lt hlt0
  have hleN := LawfulCmp.le_of_lt _ _ h2
  have hnleN := Cmp.not_le_of_lt h2
  have hloop : (GroupOfNuLoop t.groupBounds nu 0 t.ngroups 2).IsUB := by
    apply loop_overflow t.groupBounds nu t.ngroups hL (by unfold INT_MAX; omega) t.ngroups 0 2 (by omega)
      (by omega)
    intro i x hi' hx
    rcases Nat.lt_or_ge i (t.ngroups - 1) with h3 | h3
    · exact Cmp.not_lt_of_le (LawfulCmp.le_of_lt _ _
        (LawfulCmp.lt_trans _ _ _ (acceptable_lt ha h3 (by omega) hx hlo') h1))
    · have : i = t.ngroups - 1 := by omega
      subst this; rw [hlo'] at hx; cases hx
      exact Cmp.not_lt_of_le (LawfulCmp.le_of_lt _ _ h1)
  obtain ⟨w, hw⟩ := hloop
  refine ⟨w, ?_⟩
  unfold MGTables.GroupOfNu GroupOfNuImpl GroupOfNuImplR
  rw [GroupBoundAt_lt (show 0 < t.groupBounds.length by omega), GroupBoundAt_lt hL]
  simp [hle0, hnle0, hNe, hleN, hnleN, hw]

/-- bounds `0 < 1 < ... < n` as real numbers -/
noncomputable def countBounds (n : ℕ) : List ℝ := List.map (fun i : ℕ => (i : ℝ)) (List.range (n + 1))

theorem countBounds_acceptable (n : ℕ) (hn : 1 ≤ n) : AcceptableBounds (countBounds n) n := by
  have hget : ∀ (i : ℕ) (x : ℝ), (countBounds n)[i]? = some x → x = i := by
    intro i x hx
    obtain ⟨_, h⟩ := List.getElem?_eq_some_iff.1 hx
    simp [countBounds] at h; exact h.symm
  refine ⟨by omega, by simp [countBounds], fun _ _ _ _ => rfl, ?_, ?_, fun _ _ _ _ => rfl⟩
  · intro x hx; rw [hget 0 x hx]; simp [le, lit]
  · intro i x y _ hx hy; rw [hget _ _ hx, hget _ _ hy]; simp [lt]

/-- non-vacuity of `C02_lookup_cost`: 8 groups, at most 5 reads -/
example : ∃ g reads, GroupOfNuImplR (countBounds 8) 8 (2.5 : ℝ) = ok (g, reads) ∧ g < 8 ∧ reads ≤ 5 := by
  have h := C02_lookup_cost (countBounds 8) 8 (countBounds_acceptable 8 (by norm_num)) (by simp [countBounds])
    (by norm_num) (2.5 : ℝ)
    (by intro x hx; simp [countBounds] at hx; subst hx; simp [le]; norm_num)
    (by intro x hx; simp [countBounds] at hx; subst hx; simp [le]; norm_num)
  have hc : Nat.clog 2 8 = 3 := by
    rw [show 8 = 2 ^ 3 by norm_num, Nat.clog_pow 2 3 (by norm_num)]
  rw [hc] at h
  exact h

/-- non-vacuity of `C02_overflow_beyond`: a table with `2^30 + 1` groups is accepted and overflows -/
example : ∃ t : MGTables ℝ, BuiltFrom t (countBounds (2 ^ 30 + 1)) ∧ (t.GroupOfNu (2 ^ 30 + 0.5)).IsUB := by
  let N := 2 ^ 30 + 1
  let box : DataBox ℝ := { dims := [2, 2, (N : ℤ)], grid := fun _ => { min := 0, max := 1, N := 2 }, data := fun _ => 1 }
  have hd : box.dim 1 = (N : ℤ) := by simp [box, DataBox.dim]
  have hv : MGTables.ValidateTables_ box box = ok () := by
    simp [MGTables.ValidateTables_, hd, Grid.beq, eqb]
    simp [DataBox.rank, box]
  have hload : ∃ t, MGTables.LoadTables_ (fun _ => 0) box box (countBounds N) = ok t ∧ t.ngroups = N := by
    rw [LoadTables_eq]
    rw [hv, ok_bind, hd, (Validate_ok_iff _ _).2 (countBounds_acceptable N (by simp [N])), ok_bind]
    unfold SetGroupBounds
    rw [Int.toNat_natCast, copyBounds_ok _ N (by simp [countBounds])]
    exact ⟨_, rfl, rfl⟩
  obtain ⟨t, ht, hn⟩ := hload
  have hb : BuiltFrom t (countBounds N) := Or.inr ⟨_, _, _, ht⟩
  have hget : ∀ i : ℕ, i ≤ N → (countBounds N)[i]? = some (i : ℝ) := by
    intro i hi
    have : i < (countBounds N).length := by simp [countBounds]; omega
    rw [List.getElem?_eq_getElem this]; simp [countBounds]
  refine ⟨t, hb, C02_overflow_beyond t _ hb (by rw [hn]; simp [N]) _ ((N - 1 : ℕ) : ℝ) (N : ℝ) ?_ ?_ ?_ ?_⟩
  · rw [hn]; exact hget _ (by omega)
  · rw [hn]; exact hget _ le_rfl
  · simp [lt, N]; norm_num
  · simp [lt, N]; norm_num

/-! ## C03 -/

/-- **C03** (bounds argument of every constructor): validation returns exactly on acceptable bounds, and
with at least `ngroups + 1` readable bounds it aborts in every other case. -/
theorem C03_validation (b : List R) (ngroups : ℤ) :
    ((ValidateGroupBounds b ngroups).Returns () ↔ AcceptableBounds b ngroups) ∧
    (ngroups < b.length → ¬ AcceptableBounds b ngroups → (ValidateGroupBounds b ngroups).Aborts) := by
  refine ⟨Validate_ok_iff b ngroups, fun hlen hno => ?_⟩
  rcases Validate_cases b ngroups hlen with h | h
  · exact absurd ((Validate_ok_iff b ngroups).1 h) hno
  · exact h

omit [LawfulCmp R] in
/-- comparing axes as `RegularGrid1D` does -/
theorem beq_iff {g h : Grid R} : g.beq h = true ↔ SameAxis g h := by
  simp [Grid.beq, SameAxis, and_assoc]

omit [LawfulCmp R] in
theorem ValidateTables_iff (kP kR : DataBox R) :
    MGTables.ValidateTables_ kP kR = ok () ↔ MatchingTables kP kR := by
  constructor
  · intro h
    unfold MGTables.ValidateTables_ at h
    by_cases h1 : kP.rank ≠ 3 ∨ kR.rank ≠ 3
    · rw [if_pos h1] at h; simp at h
    by_cases h2 : kP.dim 1 ≠ kR.dim 1 ∨ kP.dim 2 ≠ kR.dim 2 ∨ kP.dim 3 ≠ kR.dim 3
    · rw [if_neg h1, if_pos h2] at h; simp at h
    by_cases h3 : kP.dim 1 ≤ 0
    · rw [if_neg h1, if_neg h2, if_pos h3] at h; simp at h
    by_cases h4 : (!((kP.range 1).beq (kR.range 1)) || !((kP.range 2).beq (kR.range 2))) = true
    · rw [if_neg h1, if_neg h2, if_neg h3, if_pos h4] at h; simp at h
    simp only [ne_eq, not_or, not_not] at h1 h2
    obtain ⟨r1, r2⟩ := h1
    obtain ⟨a, b, c, hd⟩ := List.length_eq_three.1 r1
    obtain ⟨a', b', c', hd'⟩ := List.length_eq_three.1 r2
    simp only [DataBox.dim, hd, hd', List.length_cons, List.length_nil] at h2 h3
    norm_num at h2 h3
    obtain ⟨e1, e2, e3⟩ := h2
    have h5 : (kP.range 1).beq (kR.range 1) = true ∧ (kP.range 2).beq (kR.range 2) = true := by simpa using h4
    exact ⟨⟨a, b, c, h3, hd, by rw [hd', e1, e2, e3]⟩, beq_iff.1 h5.1, beq_iff.1 h5.2⟩
  · rintro ⟨⟨a, b, c, hc, h1, h2⟩, ht, hr⟩
    unfold MGTables.ValidateTables_
    simp [DataBox.rank, DataBox.dim, h1, h2, beq_iff.2 ht, beq_iff.2 hr, hc]

omit [LawfulCmp R] in
/-- validation of tables returns or aborts -/
theorem ValidateTables_cases (kP kR : DataBox R) :
    MGTables.ValidateTables_ kP kR = ok () ∨ (MGTables.ValidateTables_ kP kR).Aborts := by
  unfold MGTables.ValidateTables_
  split_ifs <;> simp [Aborts]

/-- **C03**, the tables: two tables are accepted, with acceptable bounds for their groups, exactly when they match; a
pair which does not match aborts whatever the bounds are. -/
theorem C03_tables (junk : ℕ → R) (kP kR : DataBox R) (b : List R) :
    (∀ t, (MGTables.LoadTables_ junk kP kR b).Returns t → MatchingTables kP kR ∧ AcceptableBounds b (kP.dim 1)) ∧
    (¬ MatchingTables kP kR → (MGTables.LoadTables_ junk kP kR b).Aborts) ∧
    (MatchingTables kP kR → AcceptableBounds b (kP.dim 1) →
      ∃ t, (MGTables.LoadTables_ junk kP kR b).Returns t) := by
  rw [LoadTables_eq]
  rcases ValidateTables_cases kP kR with h | h
  · have hm := (ValidateTables_iff kP kR).1 h
    rw [h, ok_bind]
    refine ⟨fun t ht => ⟨hm, ?_⟩, fun hn => absurd hm hn, fun _ ha => ?_⟩
    · obtain ⟨_, h1, _⟩ := bind_eq_ok.1 ht
      exact (Validate_ok_iff _ _).1 h1
    · rw [(Validate_ok_iff b _).2 ha, ok_bind]
      unfold SetGroupBounds
      rw [copyBounds_ok b _ (by have := ha.enough; have := ha.some_group; omega), ok_bind]
      exact ⟨_, rfl⟩
  · have hm : ¬ MatchingTables kP kR := by
      intro hm
      rw [(ValidateTables_iff kP kR).2 hm] at h
      obtain ⟨m, hm⟩ := h; cases hm
    obtain ⟨m, h⟩ := h
    rw [h]
    refine ⟨fun t ht => ?_, fun _ => ⟨m, rfl⟩, fun h => absurd h hm⟩
    unfold Returns at ht; cases ht

/-- non-vacuity of `C03_tables`: equal tables match; tables whose temperature axes end differently do not -/
example : MatchingTables exBox exBox ∧
    ¬ MatchingTables exBox { exBox with grid := fun _ => { min := .fin 0, max := .fin 2, N := 2 } } := by
  constructor
  · refine ⟨⟨2, 2, 2, by norm_num, rfl, rfl⟩, ?_, ?_⟩ <;>
      simp [SameAxis, exBox, DataBox.range, eqb, XR.eqb]
  · intro h
    have := h.temperature.2.1
    simp [exBox, DataBox.range, eqb, XR.eqb] at this

/-- **C03**, constructor from tables: given two rank-3 tables of equal shape and equal grids with at least one
group, construction returns if and only if the bounds are acceptable, and aborts otherwise. -/
theorem C03_from_tables (junk : ℕ → R) (kP kR : DataBox R) (b : List R) (nRho nT n : ℤ)
    (hP : kP.dims = [nRho, nT, n]) (hR : kR.dims = [nRho, nT, n])
    (h1 : SameAxis (kP.range 1) (kR.range 1)) (h2 : SameAxis (kP.range 2) (kR.range 2))
    (hn : 0 < n) (hlen : n < b.length) :
    ((∃ t, (MGTables.LoadTables_ junk kP kR b).Returns t) ↔ AcceptableBounds b n) ∧
    (¬ AcceptableBounds b n → (MGTables.LoadTables_ junk kP kR b).Aborts) := by
  have hv : MGTables.ValidateTables_ kP kR = ok () := by
    have : ¬ n ≤ 0 := by omega
    simp [MGTables.ValidateTables_, DataBox.rank, DataBox.dim, hP, hR, this, beq_iff.2 h1, beq_iff.2 h2]
  have hd : kP.dim 1 = n := by simp [DataBox.dim, hP]
  rw [LoadTables_eq]
  rw [hv, ok_bind, hd]
  by_cases ha : AcceptableBounds b n
  · rw [(Validate_ok_iff b n).2 ha, ok_bind]
    unfold SetGroupBounds
    rw [copyBounds_ok b n.toNat (by omega), ok_bind]
    exact ⟨⟨fun _ => ha, fun _ => ⟨_, rfl⟩⟩, fun h => absurd ha h⟩
  · obtain ⟨m, hm⟩ := (C03_validation b n).2 hlen ha
    rw [hm]
    refine ⟨⟨?_, fun h => absurd h ha⟩, fun _ => ⟨m, rfl⟩⟩
    rintro ⟨t, ht⟩; cases ht

/-- **C03**, constructor from an opacity (`NNuPerGroup ≥ 2`): if it returns, the bounds were acceptable; on
unacceptable bounds it aborts. -/
theorem C03_from_opacity (pc : PC R) (junk : ℕ → R) (coef : R → R → R → R) (lRhoMin lRhoMax : R) (NRho : ℤ)
    (lTMin lTMax : R) (NT : ℤ) (b : List R) (ngroups NNu : ℤ) (hlen : ngroups < b.length) :
    ((∃ t, (MGTables.Impl_ pc junk coef lRhoMin lRhoMax NRho lTMin lTMax NT b ngroups NNu).Returns t) →
      AcceptableBounds b ngroups) ∧
    (¬ AcceptableBounds b ngroups →
      (MGTables.Impl_ pc junk coef lRhoMin lRhoMax NRho lTMin lTMax NT b ngroups NNu).Aborts) := by
  constructor
  · rintro ⟨t, ht⟩
    exact (Validate_ok_iff _ _).1 (Impl_ok ht).2.1
  · intro ha
    obtain ⟨m, hm⟩ := (C03_validation b ngroups).2 hlen ha
    unfold MGTables.Impl_
    by_cases hN : NNu < 2
    · simp [hN, Aborts]
    · simp [hN, hm, Aborts]

/-- non-vacuity of C03: acceptable and unacceptable bounds both occur (the latter: decreasing, NaN) -/
example : (ValidateGroupBounds exBounds 2).Returns () ∧
    (ValidateGroupBounds [XR.fin 1, XR.fin 0] 1).Aborts ∧ (ValidateGroupBounds [XR.fin 1, XR.nan] 1).Aborts := by
  refine ⟨(C03_validation _ _).1.2 exBounds_acceptable, (C03_validation _ _).2 (by simp) ?_,
    (C03_validation _ _).2 (by simp) ?_⟩
  · intro h
    have := h.increasing 0 (.fin 1) (.fin 0) (by norm_num) rfl rfl
    simp [lt, XR.lt] at this
    linarith
  · intro h
    have := h.not_nan 1 .nan (by norm_num) rfl
    simp [isNaN] at this

/-- Observation recorded with C03: the number of bounds is never checked.  If fewer than `ngroups + 1` bounds
are stored but those present look fine, validation reads past the end (undefined behaviour).  This is
reachable from a file whose "group bounds" dataset is too short. -/
theorem C03_short_bounds_ub (b : List R) (m : ℕ) (ngroups : ℤ) (hlen : b.length = m + 1)
    (hm : (m : ℤ) < ngroups) (h : 1 ≤ m → AcceptableBounds b m)
    (h0 : ∀ x, b[0]? = some x → isNaN x = false ∧ le (lit 0) x = true)
    (hf : ∀ x, b[m]? = some x → isInf x = false) :
    (ValidateGroupBounds b ngroups).IsUB := by
  have hok : ∀ i, i < m + 1 → ValidateOne b ngroups.toNat i = ok () := by
    intro i hi
    have hx : b[i]? = some (b[i]'(by omega)) := List.getElem?_eq_getElem _
    have hnn : isNaN (b[i]'(by omega)) = false ∧ le (lit 0) (b[i]'(by omega)) = true := by
      rcases Nat.eq_zero_or_pos m with hz | hp
      · have : i = 0 := by omega
        subst this; exact h0 _ hx
      · exact ⟨(h hp).not_nan i _ (by omega) hx, acceptable_nonneg (h hp) (by omega) hx⟩
    refine ValidateOne_ok.2 ⟨_, hx, hnn.1, ?_, fun _ => hnn.2, ?_, ?_⟩
    · rw [Cmp.not_lt_of_le hnn.2]; simp
    · intro hne
      have hy : b[i - 1]? = some (b[i - 1]'(by omega)) := List.getElem?_eq_getElem _
      exact ⟨_, hy, acceptable_lt (h (by omega)) (by omega) (by omega) hy hx⟩
    · left
      unfold isFinite
      rw [hnn.1]
      rcases Nat.lt_or_ge i m with h3 | h3
      · rw [(h (by omega)).finite_inside i _ (by omega) hx]; rfl
      · have : i = m := by omega
        subst this; rw [hf _ hx]; rfl
  obtain ⟨k, hk⟩ : ∃ k : ℕ, ngroups = m + 1 + k := ⟨(ngroups - m - 1).toNat, by omega⟩
  unfold ValidateGroupBounds
  rw [if_neg (by omega)]
  have hstep : ∀ j : ℕ, (forLoopM ((m + 2 + j : ℕ) : ℤ)
      (fun group _ => ValidateOne b ngroups.toNat group) ()).IsUB := by
    intro j
    induction j with
    | zero =>
      rw [show m + 2 + 0 = (m + 1) + 1 by ring, forLoopM_succ, (forLoopM_unit_ok (m + 1) _).2 hok, ok_bind]
      unfold ValidateOne GroupBoundAt
      rw [List.getElem?_eq_none (by omega)]
      exact ⟨_, rfl⟩
    | succ j ih =>
      obtain ⟨w, hw⟩ := ih
      rw [show m + 2 + (j + 1) = (m + 2 + j) + 1 by ring, forLoopM_succ, hw]
      exact ⟨w, rfl⟩
  have := hstep k
  rw [show ngroups + 1 = ((m + 2 + k : ℕ) : ℤ) by push_cast; omega]
  exact this

/-- non-vacuity: three groups declared, two bounds stored -/
example : (ValidateGroupBounds [XR.fin 0, XR.fin 1] 3).IsUB := by
  refine C03_short_bounds_ub _ 1 3 rfl (by norm_num) (fun _ => ?_) ?_ ?_
  · refine ⟨by norm_num, by simp, ?_, ?_, ?_, ?_⟩
    · intro i x hi hx
      have : i = 0 ∨ i = 1 := by omega
      rcases this with rfl | rfl <;> (simp at hx; subst hx; simp [isNaN])
    · intro x hx; simp at hx; subst hx; simp [le, XR.le, lit]
    · intro i x y hi hx hy
      have : i = 0 := by omega
      subst this; simp at hx hy; subst hx; subst hy; simp [lt, XR.lt]
    · intro i x hi hx
      have : i = 0 := by omega
      subst this; simp at hx; subst hx; simp [isInf]
  · intro x hx; simp at hx; subst hx; simp [isNaN, le, XR.le, lit]
  · intro x hx; simp at hx; subst hx; simp [isInf]

/-! ## C04 -/

/-- **C04.** `GetGroupBounds` returns exactly `ngroups + 1` values, position by position those supplied. -/
theorem C04_bounds_reported (t : MGTables R) (b : List R) (hb : BuiltFrom t b) :
    ∃ r, t.GetGroupBounds.Returns r ∧ r.length = t.ngroups + 1 ∧ ∀ i, i ≤ t.ngroups → r[i]? = b[i]? := by
  obtain ⟨ha, hgb⟩ := hb.spec
  have hl := ha.enough
  refine ⟨b.take (t.ngroups + 1), ?_, by simp; omega, fun i hi => getElem?_take_le hi⟩
  unfold MGTables.GetGroupBounds Returns
  rw [copyBounds_ok _ _ (by rw [hgb]; simp; omega), hgb]
  simp

/-- non-vacuity -/
example : exTables.GetGroupBounds.Returns exBounds := by
  obtain ⟨r, h1, h2, h3⟩ := C04_bounds_reported exTables exBounds exTables_built
  have : r = exBounds := by
    apply List.ext_getElem?
    intro i
    by_cases hi : i ≤ exTables.ngroups
    · exact h3 i hi
    · rw [List.getElem?_eq_none (by omega), List.getElem?_eq_none]
      simp [exTables, exBounds] at hi ⊢; omega
  rw [← this]; exact h1

/-! ## C05 -/

omit [LawfulCmp R] in
/-- A class of multigroup opacities whose frequency-addressed accessors go through `GroupOfNu`. -/
theorem C05_base_wrapper_variant :
    (∀ (o : MeanOpacityBase R) (rho temp nu : R) (m : ℤ),
      MeanPhotonAPI.AbsorptionCoefficientFromNu o rho temp nu m =
        ((MeanPhotonAPI.GroupOfNu o nu).bind fun g => MeanPhotonAPI.AbsorptionCoefficient o rho temp g m)) ∧
    (∀ (o : MeanNonCGSUnits R (MeanOpacityBase R)) (rho temp nu : R) (m : ℤ),
      MeanPhotonAPI.AbsorptionCoefficientFromNu o rho temp nu m =
        ((MeanPhotonAPI.GroupOfNu o nu).bind fun g => MeanPhotonAPI.AbsorptionCoefficient o rho temp g m)) ∧
    (∀ (o : MeanOpacity R) (rho temp nu : R) (m : ℤ),
      MeanPhotonAPI.AbsorptionCoefficientFromNu o rho temp nu m =
        ((MeanPhotonAPI.GroupOfNu o nu).bind fun g => MeanPhotonAPI.AbsorptionCoefficient o rho temp g m)) := by
  have h2 : ∀ (o : MeanNonCGSUnits R (MeanOpacityBase R)) (rho temp nu : R) (m : ℤ),
      MeanPhotonAPI.AbsorptionCoefficientFromNu o rho temp nu m =
        ((MeanPhotonAPI.GroupOfNu o nu).bind fun g =>
          MeanPhotonAPI.AbsorptionCoefficient o rho temp g m) := by
    intro o rho temp nu m
    show ((o.opac.t.GroupOfNu (nu * o.freq_unit)).bind fun g => o.opac.t.Coefficient _ _ g m).map' _ =
      ((o.opac.t.GroupOfNu (nu * o.freq_unit)).bind fun g => (o.opac.t.Coefficient _ _ g m).map' _)
    cases o.opac.t.GroupOfNu (nu * o.freq_unit) <;> rfl
  refine ⟨fun o rho temp nu m => rfl, h2, ?_⟩
  intro o rho temp nu m
  cases o with
  | base o => rfl
  | nonCGS o => exact h2 o rho temp nu m

/-- **C05.** The coefficient addressed by a frequency of group `g` is the coefficient of group `g` (hence
constant on the group), in both averaging modes and through the named accessors; for a frequency in no group
the call reports an error. -/
theorem C05_from_nu (t : MGTables R) (b : List R) (hb : BuiltFrom t b) (hsize : t.ngroups ≤ 2 ^ 30)
    (rho temp nu : R) :
    (∀ g, InGroup b t.ngroups g nu →
      (∀ gmode, t.CoefficientFromNu rho temp nu gmode = t.Coefficient rho temp g gmode) ∧
      t.PlanckGroupCoefficientFromNu rho temp nu = t.PlanckGroupCoefficient rho temp g ∧
      t.RosselandGroupCoefficientFromNu rho temp nu = t.RosselandGroupCoefficient rho temp g) ∧
    ((¬ ∃ g, InGroup b t.ngroups g nu) → ∀ gmode, (t.CoefficientFromNu rho temp nu gmode).Aborts) := by
  have h := C01_group_lookup t b hb hsize nu
  constructor
  · intro g hg
    have hr : t.GroupOfNu nu = ok g := (h.1 g).2 hg
    refine ⟨fun gmode => ?_, ?_, ?_⟩
    · unfold MGTables.CoefficientFromNu; rw [hr]; rfl
    · unfold MGTables.PlanckGroupCoefficientFromNu MGTables.CoefficientFromNu; rw [hr, ok_bind]
      unfold MGTables.Coefficient; simp
    · unfold MGTables.RosselandGroupCoefficientFromNu MGTables.CoefficientFromNu; rw [hr, ok_bind]
      unfold MGTables.Coefficient; simp [gmodePlanck, gmodeRosseland]
  · intro hno gmode
    obtain ⟨m, hm⟩ := h.2.2.2 hno
    exact ⟨m, by unfold MGTables.CoefficientFromNu; rw [hm]; rfl⟩

/-- non-vacuity: frequency 7 addresses group 1 -/
example (rho temp : XR) : exTables.CoefficientFromNu rho temp (.fin 7) gmodePlanck =
    exTables.Coefficient rho temp 1 gmodePlanck := by
  refine ((C05_from_nu exTables exBounds exTables_built (by simp [exTables]) rho temp (.fin 7)).1 1 ?_).1 _
  exact ⟨by simp [exTables], .fin 1, .pinf, by simp [exBounds], by simp [exBounds],
    by simp [le, XR.le], Or.inl (by simp [lt, XR.lt])⟩

/-! ## C06 -/

omit [LawfulCmp R] in
/-- **C06**, the part that holds.  In debug builds the group-less mean accessors abort unless the table has
exactly one group; `Emissivity` aborts in every build unless there is exactly one group.  With exactly one
group all three use that group's coefficient.
Missing from the full property: release builds and the variant's group-less accessor, see `C06_false`. -/
theorem C06_partial (o : MeanOpacityBase R) (rho temp : R) :
    (o.t.ngroups ≠ 1 →
      (MeanOpacityBase.PlanckMeanAbsorptionCoefficient true o rho temp).Aborts ∧
      (MeanOpacityBase.RosselandMeanAbsorptionCoefficient true o rho temp).Aborts ∧
      ∀ gmode, (o.Emissivity rho temp gmode).Aborts) ∧
    (o.t.ngroups = 1 → ∀ debug,
      MeanOpacityBase.PlanckMeanAbsorptionCoefficient debug o rho temp =
        MeanPhotonAPI.PlanckGroupAbsorptionCoefficient o rho temp 0 ∧
      MeanOpacityBase.RosselandMeanAbsorptionCoefficient debug o rho temp =
        MeanPhotonAPI.RosselandGroupAbsorptionCoefficient o rho temp 0 ∧
      ∀ gmode, o.Emissivity rho temp gmode =
        (MeanPhotonAPI.AbsorptionCoefficient o rho temp 0 gmode).map'
          (fun a => a * Planck.ThermalDistributionOfT o.pc temp)) := by
  constructor
  · intro h
    refine ⟨?_, ?_, fun gmode => ?_⟩
    · simp [MeanOpacityBase.PlanckMeanAbsorptionCoefficient, h, Aborts]
    · simp [MeanOpacityBase.RosselandMeanAbsorptionCoefficient, h, Aborts]
    · simp [MeanOpacityBase.Emissivity, h, Aborts]
  · intro h debug
    refine ⟨?_, ?_, fun gmode => ?_⟩
    · cases debug <;> simp [MeanOpacityBase.PlanckMeanAbsorptionCoefficient, h] <;> rfl
    · cases debug <;> simp [MeanOpacityBase.RosselandMeanAbsorptionCoefficient, h] <;> rfl
    · simp only [MeanOpacityBase.Emissivity, h, ne_eq, not_true_eq_false, if_false]
      show (o.t.Coefficient rho temp 0 gmode >>= _) = (o.t.Coefficient rho temp 0 gmode).map' _
      cases o.t.Coefficient rho temp 0 gmode <;> rfl

/-- non-vacuity: the two-group table aborts in debug builds -/
example (pc : PC XR) : (MeanOpacityBase.PlanckMeanAbsorptionCoefficient true
    { pc := pc, t := exTables } (.fin 1) (.fin 1)).Aborts :=
  ((C06_partial { pc := pc, t := exTables } (.fin 1) (.fin 1)).1 (by simp [exTables])).1

theorem exTables_coef (rho temp : XR) (g : ℤ) (hg : 0 ≤ g ∧ g < 2) :
    ∃ v, exTables.PlanckGroupCoefficient rho temp g = ok v := by
  obtain ⟨v, hv⟩ := interp3_ok exTables.lPlanck 2 2 2
    (by show (exBox.mapData _ _ _).dims = _; rw [(mapData_dims _ _ _ _).1]; rfl)
    (by show ((exBox.mapData _ _ _).grid 2).N = _; rw [(mapData_dims _ _ _ _).2]; rfl)
    (by show ((exBox.mapData _ _ _).grid 1).N = _; rw [(mapData_dims _ _ _ _).2]; rfl)
    (by norm_num) (by norm_num) (ToLog rho) (ToLog temp) g hg
  exact ⟨_, by unfold MGTables.PlanckGroupCoefficient MGTables.GroupCoefficient_; rw [hv]; rfl⟩

/-- **C06 is false of the code.**  There is a two-group opacity, returned by a constructor, for which in
release builds `PlanckMeanAbsorptionCoefficient(rho, temp)` returns the value of group 0, and for which the
variant's `AbsorptionCoefficient(rho, temp, gmode)` (no group argument) returns the value of group 0 in
every build. -/
theorem C06_false :
    ∃ (t : MGTables XR) (b : List XR), BuiltFrom t b ∧ t.ngroups = 2 ∧ ∀ (pc : PC XR) (rho temp : XR),
      ∃ v, t.PlanckGroupCoefficient rho temp 0 = ok v ∧
        (MeanOpacityBase.PlanckMeanAbsorptionCoefficient false { pc := pc, t := t } rho temp).Returns v ∧
        ((MeanOpacity.base { pc := pc, t := t }).AbsorptionCoefficientNoGroup rho temp gmodePlanck).Returns
          v := by
  refine ⟨exTables, exBounds, exTables_built, rfl, fun pc rho temp => ?_⟩
  obtain ⟨v, hv⟩ := exTables_coef rho temp 0 (by norm_num)
  refine ⟨v, hv, ?_, ?_⟩
  · simp [MeanOpacityBase.PlanckMeanAbsorptionCoefficient, Returns, hv]
  · show exTables.Coefficient rho temp 0 gmodePlanck = ok v
    simp [MGTables.Coefficient, hv]

end Opac.Photons
