import Verif.Lemmas.SpinerFill
import Verif.Props.SpinerFill
import Mathlib.Analysis.Complex.ExponentialBounds

/-!
# C50, C51: NuLib files and the integrals computed from them
-/

namespace Opac.Neutrinos.SpinerOpacity
open Arith Outcome Spiner

set_option linter.unusedSectionVars false

variable {R : Type} [Arith R]

/-! ## C50 -/

/-- a readable NuLib file with all its datasets, of matching sizes -/
structure Complete (f : NuLibFile R) (NR NT NY NE NTYPE : ℕ) (emi abs : ℕ → R) : Prop where
  nrho : f.nrho = some (NR : ℤ)
  ntemp : f.ntemp = some (NT : ℤ)
  nye : f.nye = some (NY : ℤ)
  groups : f.number_groups = some (NE : ℤ)
  species : f.number_species = some (NTYPE : ℤ)
  rho : ∃ l, f.rho_points = some l ∧ l.length = NR
  temp : ∃ l, f.temp_points = some l ∧ l.length = NT
  energies : ∃ l, f.neutrino_energies = some l ∧ l.length = NE
  ye : ∃ l, f.ye_points = some l ∧ l.length = NY
  emi : f.emissivities = some emi
  abs : f.absorption_opacity = some abs
  pos : 1 ≤ NR ∧ 1 ≤ NT ∧ 1 ≤ NY ∧ 1 ≤ NE ∧ 1 ≤ NTYPE

/-- an entry of an array of the file: indices (energy, species, Ye, temperature, density), the last one fastest -/
def arrayAt (x : ℕ → R) (NTYPE NY NT NR : ℕ) (ie idx iY iT iR : ℕ) : R :=
  x ((((ie * NTYPE + idx) * NY + iY) * NT + iT) * NR + iR)

theorem readBounds_ok {x : Option (List R)} {n : ℕ} (h : ∃ l, x = some l ∧ l.length = n) (hn : 1 ≤ n) :
    ∃ v, ReadBounds_ x (n : ℤ) = ok v := by
  obtain ⟨l, rfl, hl⟩ := h
  refine ⟨(l.getD 0 (lit 0), l.getD ((n : ℤ) - 1).toNat (lit 0)), ?_⟩
  simp only [ReadBounds_]
  rw [if_neg (by omega)]

/-- what is left to do once the sizes and bounds are read -/
theorem load_eq {f : NuLibFile R} {NR NT NY NE NTYPE : ℕ} {emi abs : ℕ → R} (h : Complete f NR NT NY NE NTYPE emi abs)
    (kappa : Option (ℕ → R)) (dist : FermiDirac R) (pc : PC R) (junk : ℕ → ℕ → R) :
    ∃ a b c d e g i j : R, LoadFromNuLibWith kappa dist pc junk (some f) =
      (do
        let lalphanu := setup5 (junk 0) NR NT NY NTYPE NE a b c d e g i j
        let ljnu := lalphanu.copyMetadata (junk 1)
        let lJ := setup4 (junk 2) NR NT NY NTYPE a b c d e g
        let lJYe := lJ.copyMetadata (junk 3)
        let (lalphanu, ljnu) ← forLoopM NR (fun iR s => forLoopM NT (fun iT s => forLoopM NY (fun iY s =>
          forLoopM NTYPE (fun idx s => forLoopM NE (nulibEntry pc
            (kappa.map (fun k => ⟨[(NE : ℤ), NTYPE, NY, NT, NR], fun _ => Grid.none, k⟩))
            ⟨[(NE : ℤ), NTYPE, NY, NT, NR], fun _ => Grid.none, abs⟩ iR iT iY idx) s) s) s) s) (lalphanu, ljnu)
        let (lJ, lJYe) ← ComputeIntegrals pc ljnu lJ lJYe NTYPE
        pure { dist := dist, pc := pc, lalphanu_ := lalphanu, ljnu_ := ljnu, lJ_ := lJ, lJYe_ := lJYe }) := by
  obtain ⟨p1, p2, p3, p4, p5⟩ := h.pos
  obtain ⟨⟨v1, w1⟩, h1⟩ := readBounds_ok h.rho p1
  obtain ⟨⟨v2, w2⟩, h2⟩ := readBounds_ok h.temp p2
  obtain ⟨⟨v3, w3⟩, h3⟩ := readBounds_ok h.energies p4
  obtain ⟨⟨v4, w4⟩, h4⟩ := readBounds_ok h.ye p3
  refine ⟨log10 v1, log10 w1, log10 v2, log10 w2, v4, w4, log10 v3, log10 w3, ?_⟩
  simp only [LoadFromNuLibWith, ReadInt_, h.nrho, h.ntemp, h.nye, h.groups, h.species, ok_bind, h1, h2, h3, h4, h.emi,
    h.abs, readArray]

/-- **C50 is false**: loading any complete NuLib file is undefined behaviour: the absorption opacities are read into
the array meant for the emissivities, and the array that should hold them is used uninitialised. -/
theorem C50_false {f : NuLibFile R} {NR NT NY NE NTYPE : ℕ} {emi abs : ℕ → R}
    (h : Complete f NR NT NY NE NTYPE emi abs) (dist : FermiDirac R) (pc : PC R) (junk : ℕ → ℕ → R) :
    (LoadFromNuLib_ dist pc junk (some f)).IsUB := by
  obtain ⟨a, b, c, d, e, g, i, j, hl⟩ := load_eq h none dist pc junk
  unfold LoadFromNuLib_
  rw [hl]
  obtain ⟨p1, p2, p3, p4, p5⟩ := h.pos
  have hub := fun (s : DataBox R × DataBox R) => loop_ub (n := NR) (by omega) (fun iR s => forLoopM NT (fun iT s =>
      forLoopM NY (fun iY s => forLoopM NTYPE (fun idx s => forLoopM NE (nulibEntry pc
        ((none : Option (ℕ → R)).map (fun k => ⟨[(NE : ℤ), NTYPE, NY, NT, NR], fun _ => Grid.none, k⟩))
        ⟨[(NE : ℤ), NTYPE, NY, NT, NR], fun _ => Grid.none, abs⟩ iR iT iY idx) s) s) s) s) s
    (loop_ub (by omega) _ _ (loop_ub (by omega) _ _ (loop_ub (by omega) _ _ (loop_ub (by omega) _ _ ⟨_, rfl⟩))))
  obtain ⟨w, hw⟩ := hub (setup5 (junk 0) NR NT NY NTYPE NE a b c d e g i j,
    (setup5 (junk 0) NR NT NY NTYPE NE a b c d e g i j).copyMetadata (junk 1))
  simp only [hw, ub_bind]
  exact ⟨w, rfl⟩

/-- **C50 (missing data)**: a file that is not there, or lacks one of the datasets, is reported (if it is not undefined
behaviour already because a vector of points does not have the announced length) -/
theorem C50_missing_partial (dist : FermiDirac R) (pc : PC R) (junk : ℕ → ℕ → R) :
    (LoadFromNuLib_ dist pc junk none).Aborts ∧
    ∀ f : NuLibFile R, (f.nrho = none ∨ f.ntemp = none ∨ f.nye = none ∨ f.number_groups = none ∨ f.number_species = none ∨
        f.rho_points = none ∨ f.temp_points = none ∨ f.neutrino_energies = none ∨ f.ye_points = none ∨
        f.emissivities = none ∨ f.absorption_opacity = none) →
      (LoadFromNuLib_ dist pc junk (some f)).Aborts ∨ (LoadFromNuLib_ dist pc junk (some f)).IsUB := by
  refine ⟨⟨_, rfl⟩, fun f hf => ?_⟩
  unfold LoadFromNuLib_ LoadFromNuLibWith
  simp only
  cases h1 : ReadInt_ f.nrho with
  | abort m => exact .inl ⟨_, rfl⟩
  | ub m => exact .inr ⟨_, rfl⟩
  | ok n1 =>
  rw [ok_bind]
  cases h2 : ReadInt_ f.ntemp with
  | abort m => exact .inl ⟨_, rfl⟩
  | ub m => exact .inr ⟨_, rfl⟩
  | ok n2 =>
  rw [ok_bind]
  cases h3 : ReadInt_ f.nye with
  | abort m => exact .inl ⟨_, rfl⟩
  | ub m => exact .inr ⟨_, rfl⟩
  | ok n3 =>
  rw [ok_bind]
  cases h4 : ReadInt_ f.number_groups with
  | abort m => exact .inl ⟨_, rfl⟩
  | ub m => exact .inr ⟨_, rfl⟩
  | ok n4 =>
  rw [ok_bind]
  cases h5 : ReadInt_ f.number_species with
  | abort m => exact .inl ⟨_, rfl⟩
  | ub m => exact .inr ⟨_, rfl⟩
  | ok n5 =>
  rw [ok_bind]
  cases b1 : ReadBounds_ f.rho_points n1 with
  | abort m => exact .inl ⟨_, rfl⟩
  | ub m => exact .inr ⟨_, rfl⟩
  | ok v1 =>
  rw [ok_bind]
  cases b2 : ReadBounds_ f.temp_points n2 with
  | abort m => exact .inl ⟨_, rfl⟩
  | ub m => exact .inr ⟨_, rfl⟩
  | ok v2 =>
  simp only [ok_bind]
  cases b3 : ReadBounds_ f.neutrino_energies n4 with
  | abort m => exact .inl ⟨_, rfl⟩
  | ub m => exact .inr ⟨_, rfl⟩
  | ok v3 =>
  simp only [ok_bind]
  cases b4 : ReadBounds_ f.ye_points n3 with
  | abort m => exact .inl ⟨_, rfl⟩
  | ub m => exact .inr ⟨_, rfl⟩
  | ok v4 =>
  simp only [ok_bind]
  cases a1 : f.emissivities with
  | none => exact .inl ⟨_, rfl⟩
  | some x =>
  cases a2 : f.absorption_opacity with
  | none => exact .inl ⟨_, rfl⟩
  | some y =>
  exfalso
  rcases hf with h | h | h | h | h | h | h | h | h | h | h
  · rw [h] at h1; cases h1
  · rw [h] at h2; cases h2
  · rw [h] at h3; cases h3
  · rw [h] at h4; cases h4
  · rw [h] at h5; cases h5
  · rw [h] at b1; cases b1
  · rw [h] at b2; cases b2
  · rw [h] at b3; cases b3
  · rw [h] at b4; cases b4
  · rw [h] at a1; cases a1
  · rw [h] at a2; cases a2

/-! ### What a forgiving compiler makes of it -/

/-- contents of a cell of the two spectral tables -/
def nuVal (s : DataBox R × DataBox R) (q : Bool × ℕ × ℕ × ℕ × ℕ × ℕ) : Outcome R :=
  (bif q.1 then s.1 else s.2).read [(q.2.1 : ℤ), q.2.2.1, q.2.2.2.1, q.2.2.2.2.1, q.2.2.2.2.2]

theorem nuVal_ne {s : DataBox R × DataBox R} {d : DataBox R} {a b c e g : ℕ} {v : R}
    (h : s.1.write [(a : ℤ), b, c, e, g] v = ok d) (q : Bool × ℕ × ℕ × ℕ × ℕ × ℕ) (hq : q ≠ (true, a, b, c, e, g)) :
    nuVal (d, s.2) q = nuVal s q := by
  obtain ⟨q0, q1, q2, q3, q4, q5⟩ := q
  cases q0 with
  | false => rfl
  | true =>
    refine (read_write _ _ _ _ _ h).2.2.2 ?_
    intro he
    simp only [List.cons.injEq, Nat.cast_inj, and_true] at he
    obtain ⟨rfl, rfl, rfl, rfl, rfl⟩ := he
    exact hq rfl

theorem nuVal_ne' {s : DataBox R × DataBox R} {d : DataBox R} {a b c e g : ℕ} {v : R}
    (h : s.2.write [(a : ℤ), b, c, e, g] v = ok d) (q : Bool × ℕ × ℕ × ℕ × ℕ × ℕ) (hq : q ≠ (false, a, b, c, e, g)) :
    nuVal (s.1, d) q = nuVal s q := by
  obtain ⟨q0, q1, q2, q3, q4, q5⟩ := q
  cases q0 with
  | true => rfl
  | false =>
    refine (read_write _ _ _ _ _ h).2.2.2 ?_
    intro he
    simp only [List.cons.injEq, Nat.cast_inj, and_true] at he
    obtain ⟨rfl, rfl, rfl, rfl, rfl⟩ := he
    exact hq rfl

theorem array_read (x : ℕ → R) {NTYPE NY NT NR NE : ℕ} {ie idx iY iT iR : ℕ} (h1 : ie < NE) (h2 : idx < NTYPE)
    (h3 : iY < NY) (h4 : iT < NT) (h5 : iR < NR) :
    DataBox.read (⟨[(NE : ℤ), NTYPE, NY, NT, NR], fun _ => Grid.none, x⟩ : DataBox R)
      [(ie : ℤ), idx, iY, iT, iR] = ok (arrayAt x NTYPE NY NT NR ie idx iY iT iR) := by
  unfold DataBox.read arrayAt
  simp only [bind_def]
  rw [offset5 (by omega) (by omega) (by omega) (by omega) (by omega)]
  simp only [ok_bind]
  congr 2
  rw [show (ie : ℤ) * (NTYPE * (NY * (NT * NR))) + (idx * (NY * (NT * NR)) + (iY * (NT * NR) + (iT * NR + iR))) =
    (((((ie * NTYPE + idx) * NY + iY) * NT + iT) * NR + iR : ℕ) : ℤ) by push_cast; ring]
  exact Int.toNat_natCast _

/-- **C50 (as compiled)**: suppose the uninitialised array is simply read as whatever it holds, `k`.  If the load
returns, then every emissivity entry of the table is the file's *absorption opacity* of that entry (in the units of
an emissivity), every absorption entry is `k`'s, and the file's emissivities are not used at all. -/
theorem C50_swapped {f : NuLibFile R} {NR NT NY NE NTYPE : ℕ} {emi abs : ℕ → R}
    (h : Complete f NR NT NY NE NTYPE emi abs) (k : ℕ → R) (dist : FermiDirac R) (pc : PC R) (junk : ℕ → ℕ → R)
    {o : SpinerOpacity R} (ho : LoadFromNuLibWith (some k) dist pc junk (some f) = ok o) :
    ∀ iR < NR, ∀ iT < NT, ∀ iY < NY, ∀ idx < NTYPE, ∀ ie < NE,
      o.ljnu_.read [(iR : ℤ), iT, iY, idx, ie] =
        ok (log10 (pc.h * arrayAt abs NTYPE NY NT NR ie idx iY iT iR / MEV pc)) ∧
      o.lalphanu_.read [(iR : ℤ), iT, iY, idx, ie] = ok (log10 (arrayAt k NTYPE NY NT NR ie idx iY iT iR)) := by
  obtain ⟨a, b, c, d, e, g, i, j, hl⟩ := load_eq h (some k) dist pc junk
  rw [hl] at ho
  simp only [bind_eq_ok] at ho
  obtain ⟨⟨la, lj⟩, h1, ⟨lJ, lJYe⟩, -, ho⟩ := ho
  cases ho
  let E : Bool × ℕ × ℕ × ℕ × ℕ × ℕ → Outcome R → Prop := fun q v =>
    v = ok (bif q.1 then log10 (arrayAt k NTYPE NY NT NR q.2.2.2.2.2 q.2.2.2.2.1 q.2.2.2.1 q.2.2.1 q.2.1)
      else log10 (pc.h * arrayAt abs NTYPE NY NT NR q.2.2.2.2.2 q.2.2.2.2.1 q.2.2.2.1 q.2.2.1 q.2.1 / MEV pc))
  have L := loop_fills (val := nuVal) (I := fun _ => True) (E := E) NR _
    (fun iR => {q | ∃ iT : ℕ, (iT : ℤ) < NT ∧ q ∈ {q | ∃ iY : ℕ, (iY : ℤ) < NY ∧ q ∈ {q | ∃ idx : ℕ, (idx : ℤ) < NTYPE ∧
      q ∈ {q | ∃ ie : ℕ, (ie : ℤ) < NE ∧ q ∈ ({(true, iR, iT, iY, idx, ie), (false, iR, iT, iY, idx, ie)} :
        Set (Bool × ℕ × ℕ × ℕ × ℕ × ℕ))}}}}) (by
    intro iR hR t t' ht hb
    refine loop_fills NT _ _ ?_ ht hb
    intro iT hT t t' ht hb
    refine loop_fills NY _ _ ?_ ht hb
    intro iY hY t t' ht hb
    refine loop_fills NTYPE _ _ ?_ ht hb
    intro idx hX t t' ht hb
    refine loop_fills NE _ _ ?_ ht hb
    intro ie hE t t' ht hb
    have r1 := fun x : ℕ → R => array_read x (NE := NE) (NTYPE := NTYPE) (NY := NY) (NT := NT) (NR := NR) (ie := ie)
      (idx := idx) (iY := iY) (iT := iT) (iR := iR) (by omega) (by omega) (by omega) (by omega) (by omega)
    simp only [nulibEntry, Option.map_some, r1, ok_bind, bind_eq_ok] at hb
    obtain ⟨da, hda, dj, hdj, hb⟩ := hb
    cases hb
    have ra := read_write _ _ _ [] _ hda
    have rj := read_write _ _ _ [] _ hdj
    refine ⟨trivial, ?_, ?_⟩
    · rintro q (rfl | rfl)
      · exact ra.2.2.1
      · exact rj.2.2.1
    · intro q hq
      simp only [Set.mem_insert_iff, Set.mem_singleton_iff, not_or] at hq
      rw [nuVal_ne' (s := (da, t.2)) hdj q hq.2, nuVal_ne hda q hq.1]) trivial h1
  intro iR hR iT hT iY hY idx hX ie hE
  refine ⟨?_, ?_⟩
  · exact L.done (false, iR, iT, iY, idx, ie) ⟨iR, by omega, iT, by omega, iY, by omega, idx, by omega, ie, by omega, .inr rfl⟩
  · exact L.done (true, iR, iT, iY, idx, ie) ⟨iR, by omega, iT, by omega, iY, by omega, idx, by omega, ie, by omega, .inl rfl⟩

/-- a complete file: one density, two temperatures, two electron fractions, two energies, three species -/
example : Complete (R := ℝ) ⟨some 1, some 2, some 2, some 2, some 3, some [1], some [1, 2], some [3, 4], some [0.1, 0.5],
    some (fun n => n), some (fun n => n + 1)⟩ 1 2 2 2 3 (fun n => n) (fun n => n + 1) := by
  constructor <;> first | rfl | exact ⟨_, rfl, rfl⟩ | norm_num

/-! ## C51 -/

/-- the spectral emissivity of cell `ie`, per Hz -/
noncomputable def jOf (ljnu : DataBox ℝ) (a b c d : ℕ) (ie : ℕ) : ℝ :=
  match ljnu.read [(a : ℤ), b, c, d, ie] with
  | .ok l => (10 : ℝ) ^ l
  | _ => 0

/-- energy (in MeV) of node `ie` -/
noncomputable def eOf (ljnu : DataBox ℝ) (ie : ℕ) : ℝ :=
  (10 : ℝ) ^ equi (ljnu.grid 0).min (ljnu.grid 0).max (ljnu.grid 0).N ie

/-- frequency of node `ie` -/
noncomputable def nuOf (pc : PC ℝ) (ljnu : DataBox ℝ) (ie : ℕ) : ℝ := hzPerMeV pc * eOf ljnu ie

/-- width in frequency of the cell around node `ie` of a logarithmic grid: `ν Δ(ln ν)` -/
noncomputable def dnuOf (pc : PC ℝ) (ljnu : DataBox ℝ) (ie : ℕ) : ℝ :=
  nuOf pc ljnu ie * (Real.log 10 * (((ljnu.grid 0).max - (ljnu.grid 0).min) / ((ljnu.grid 0).N - 1)))

/-- Riemann sum of the emissivity over frequency and solid angle -/
noncomputable def energySum (pc : PC ℝ) (ljnu : DataBox ℝ) (a b c d : ℕ) : ℝ :=
  ∑ ie ∈ Finset.range (ljnu.grid 0).N.toNat, 4 * Real.pi * jOf ljnu a b c d ie * dnuOf pc ljnu ie

/-- Riemann sum of the number emissivity `j / (h ν)` over frequency and solid angle -/
noncomputable def numberSum (pc : PC ℝ) (ljnu : DataBox ℝ) (a b c d : ℕ) : ℝ :=
  ∑ ie ∈ Finset.range (ljnu.grid 0).N.toNat,
    4 * Real.pi * jOf ljnu a b c d ie / (pc.h * nuOf pc ljnu ie) * dnuOf pc ljnu ie

/-- contents of a cell of the two tables of totals -/
def totVal (s : DataBox R × DataBox R) (q : Bool × ℕ × ℕ × ℕ × ℕ) : Outcome R :=
  (bif q.1 then s.1 else s.2).read [(q.2.1 : ℤ), q.2.2.1, q.2.2.2.1, q.2.2.2.2]

theorem totVal_ne {s : DataBox R × DataBox R} {d : DataBox R} {a b c e : ℕ} {v : R}
    (h : s.1.write [(a : ℤ), b, c, e] v = ok d) (q : Bool × ℕ × ℕ × ℕ × ℕ) (hq : q ≠ (true, a, b, c, e)) :
    totVal (d, s.2) q = totVal s q := by
  obtain ⟨q0, q1, q2, q3, q4⟩ := q
  cases q0 with
  | false => rfl
  | true =>
    refine (read_write _ _ _ _ _ h).2.2.2 ?_
    intro he
    simp only [List.cons.injEq, Nat.cast_inj, and_true] at he
    obtain ⟨rfl, rfl, rfl, rfl⟩ := he
    exact hq rfl

theorem totVal_ne' {s : DataBox R × DataBox R} {d : DataBox R} {a b c e : ℕ} {v : R}
    (h : s.2.write [(a : ℤ), b, c, e] v = ok d) (q : Bool × ℕ × ℕ × ℕ × ℕ) (hq : q ≠ (false, a, b, c, e)) :
    totVal (s.1, d) q = totVal s q := by
  obtain ⟨q0, q1, q2, q3, q4⟩ := q
  cases q0 with
  | true => rfl
  | false =>
    refine (read_write _ _ _ _ _ h).2.2.2 ?_
    intro he
    simp only [List.cons.injEq, Nat.cast_inj, and_true] at he
    obtain ⟨rfl, rfl, rfl, rfl⟩ := he
    exact hq rfl

/-- the tables have the shapes that loading gives them -/
structure Shaped (ljnu lJ lJYe : DataBox R) (NTYPE : ℤ) : Prop where
  j : ljnu.dims = [(ljnu.grid 4).N, (ljnu.grid 3).N, (ljnu.grid 2).N, NTYPE, (ljnu.grid 0).N]
  J : lJ.dims = [(ljnu.grid 4).N, (ljnu.grid 3).N, (ljnu.grid 2).N, NTYPE]
  N : lJYe.dims = [(ljnu.grid 4).N, (ljnu.grid 3).N, (ljnu.grid 2).N, NTYPE]

/-- shapes and grids of the totals as at the start -/
def SameShape (lJ lJYe : DataBox R) (s : DataBox R × DataBox R) : Prop :=
  s.1.dims = lJ.dims ∧ s.1.grid = lJ.grid ∧ s.2.dims = lJYe.dims ∧ s.2.grid = lJYe.grid

/-- the accumulated integrands, before the multiplication by the cell width -/
noncomputable def acc (pc : PC ℝ) (ljnu : DataBox ℝ) (a b c d : ℕ) (n : ℕ) : ℝ × ℝ :=
  (∑ ie ∈ Finset.range n, 4 * Real.pi * (jOf ljnu a b c d ie * (1000000 * pc.eV) / pc.h) * eOf ljnu ie,
   ∑ ie ∈ Finset.range n, 4 * Real.pi * (jOf ljnu a b c d ie * (1000000 * pc.eV) / pc.h) * eOf ljnu ie /
     (1000000 * pc.eV * eOf ljnu ie))

theorem MEV_eq (pc : PC ℝ) : MEV pc = 1000000 * pc.eV := by simp [MEV, areal]; norm_num

theorem integralCell_ok (pc : PC ℝ) {ljnu lJ lJYe : DataBox ℝ} {NTYPE : ℤ} (hs : Shaped ljnu lJ lJYe NTYPE)
    {a b c d : ℕ} (ha : (a : ℤ) < (ljnu.grid 4).N) (hb : (b : ℤ) < (ljnu.grid 3).N) (hc : (c : ℤ) < (ljnu.grid 2).N)
    (hd : (d : ℤ) < NTYPE) (s : DataBox ℝ × DataBox ℝ) (hss : SameShape lJ lJYe s) :
    ∃ s', integralCell pc ljnu a b c d s = ok s' ∧ SameShape lJ lJYe s' ∧
      totVal s' (true, a, b, c, d) =
        ok (toLog_ ((acc pc ljnu a b c d (ljnu.grid 0).N.toNat).1 * (ljnu.grid 0).dx)) ∧
      totVal s' (false, a, b, c, d) =
        ok (toLog_ ((acc pc ljnu a b c d (ljnu.grid 0).N.toNat).2 * (ljnu.grid 0).dx)) ∧
      ∀ q, q ≠ (true, a, b, c, d) → q ≠ (false, a, b, c, d) → totVal s' q = totVal s q := by
  have rg : InRange [(ljnu.grid 4).N, (ljnu.grid 3).N, (ljnu.grid 2).N, NTYPE] [(a : ℤ), b, c, d] :=
    ⟨⟨by omega, ha⟩, ⟨by omega, hb⟩, ⟨by omega, hc⟩, ⟨by omega, hd⟩, trivial⟩
  obtain ⟨w1, hw1⟩ := write_ok s.1 [(a : ℤ), b, c, d] (lit 0.0) (by rw [hss.1, hs.J]; exact rg)
  obtain ⟨w2, hw2⟩ := write_ok s.2 [(a : ℤ), b, c, d] (lit 0.0) (by rw [hss.2.2.1, hs.N]; exact rg)
  have r1 := read_write _ _ _ [] _ hw1
  have r2 := read_write _ _ _ [] _ hw2
  have hz : (lit 0.0 : ℝ) = 0 := by simp [areal]; norm_num
  let P : ℕ → DataBox ℝ × DataBox ℝ → Prop := fun n t => SameShape lJ lJYe t ∧
    totVal t (true, a, b, c, d) = ok (acc pc ljnu a b c d n).1 ∧
    totVal t (false, a, b, c, d) = ok (acc pc ljnu a b c d n).2 ∧
    ∀ q, q ≠ (true, a, b, c, d) → q ≠ (false, a, b, c, d) → totVal t q = totVal s q
  have p0 : P 0 (w1, w2) := by
    refine ⟨⟨r1.1.trans hss.1, r1.2.1.trans hss.2.1, r2.1.trans hss.2.2.1, r2.2.1.trans hss.2.2.2⟩, ?_, ?_, ?_⟩
    · rw [show totVal (w1, w2) (true, a, b, c, d) = w1.read _ from rfl, r1.2.2.1]; simp [acc, hz]
    · rw [show totVal (w1, w2) (false, a, b, c, d) = w2.read _ from rfl, r2.2.2.1]; simp [acc, hz]
    · intro q h1 h2
      rw [totVal_ne' (s := (w1, s.2)) hw2 q h2, totVal_ne hw1 q h1]
  have hstep : ∀ ie, ie < (ljnu.grid 0).N.toNat → ∀ t, P ie t →
      ∃ t', integralStep pc ljnu a b c d ie t = ok t' ∧ P (ie + 1) t' := by
    intro ie hie t ⟨hsh, ht, hf, hr⟩
    obtain ⟨l, hl⟩ := read_ok ljnu [(a : ℤ), b, c, d, ie] (by
      rw [hs.j]
      exact ⟨⟨by omega, ha⟩, ⟨by omega, hb⟩, ⟨by omega, hc⟩, ⟨by omega, hd⟩, ⟨by omega, by omega⟩, trivial⟩)
    choose v1 hv1 using fun v => write_ok t.1 [(a : ℤ), b, c, d] v (by rw [hsh.1, hs.J]; exact rg)
    choose v2 hv2 using fun v => write_ok t.2 [(a : ℤ), b, c, d] v (by rw [hsh.2.2.1, hs.N]; exact rg)
    have ht' : t.1.read [(a : ℤ), b, c, d] = ok (acc pc ljnu a b c d ie).1 := ht
    have hf' : t.2.read [(a : ℤ), b, c, d] = ok (acc pc ljnu a b c d ie).2 := hf
    have hj : jOf ljnu a b c d ie = (10 : ℝ) ^ l := by simp only [jOf, hl]
    have hx : (pow (lit 10) ((ljnu.range 0).x ie) : ℝ) = eOf ljnu ie := by
      rw [Photons.x_eq]; simp [areal]; rfl
    have hp : (pow (lit 10) l : ℝ) = jOf ljnu a b c d ie := by rw [hj]; simp [areal]
    simp only [integralStep, hl, ok_bind, ht', hv1, hf', hv2, pure_def]
    refine ⟨_, rfl, ?_⟩
    have q1 := fun v => read_write _ _ _ [] _ (hv1 v)
    have q2 := fun v => read_write _ _ _ [] _ (hv2 v)
    refine ⟨⟨(q1 _).1.trans hsh.1, (q1 _).2.1.trans hsh.2.1, (q2 _).1.trans hsh.2.2.1, (q2 _).2.1.trans hsh.2.2.2⟩,
      ?_, ?_, ?_⟩
    · refine (q1 _).2.2.1.trans ?_
      rw [hx, hp, MEV_eq]
      simp only [acc, Finset.sum_range_succ]
      simp [areal]
    · refine (q2 _).2.2.1.trans ?_
      rw [hx, hp, MEV_eq]
      simp only [acc, Finset.sum_range_succ]
      simp [areal]
    · intro q h1 h2
      exact (totVal_ne' (s := (v1 _, t.2)) (hv2 _) q h2).trans ((totVal_ne (hv1 _) q h1).trans (hr q h1 h2))
  obtain ⟨t, ht, ⟨hsh, h1, h2, h3⟩⟩ : ∃ t, forLoopM (ljnu.range 0).N (integralStep pc ljnu a b c d) (w1, w2) = ok t ∧
      P (ljnu.grid 0).N.toNat t := by
    by_cases hN : (ljnu.grid 0).N ≤ 0
    · refine ⟨_, forLoopM_nonpos hN _ _, ?_⟩
      rw [Int.toNat_of_nonpos hN]; exact p0
    · rw [forLoopM_cast (ljnu.range 0).N (by simp only [DataBox.range]; omega)]
      exact forLoopM_inv (ljnu.grid 0).N.toNat (integralStep pc ljnu a b c d) P (w1, w2) p0 hstep
  choose v1 hv1 using fun v => write_ok t.1 [(a : ℤ), b, c, d] v (by rw [hsh.1, hs.J]; exact rg)
  choose v2 hv2 using fun v => write_ok t.2 [(a : ℤ), b, c, d] v (by rw [hsh.2.2.1, hs.N]; exact rg)
  have ht' : t.1.read [(a : ℤ), b, c, d] = ok (acc pc ljnu a b c d (ljnu.grid 0).N.toNat).1 := h1
  have hf' : t.2.read [(a : ℤ), b, c, d] = ok (acc pc ljnu a b c d (ljnu.grid 0).N.toNat).2 := h2
  have q1 := fun v => read_write _ _ _ [] _ (hv1 v)
  have q2 := fun v => read_write _ _ _ [] _ (hv2 v)
  simp only [integralCell, hw1, ok_bind, hw2, ht, ht', hv1, hf', hv2, pure_def]
  refine ⟨_, rfl, ⟨(q1 _).1.trans hsh.1, (q1 _).2.1.trans hsh.2.1, (q2 _).1.trans hsh.2.2.1,
    (q2 _).2.1.trans hsh.2.2.2⟩, (q1 _).2.2.1, (q2 _).2.2.1, ?_⟩
  intro q h4 h5
  exact (totVal_ne' (s := (v1 _, t.2)) (hv2 _) q h5).trans ((totVal_ne (hv1 _) q h4).trans (h3 q h4 h5))

/-- `ComputeIntegrals` stores the logarithms of the accumulated integrands times the cell width -/
theorem ComputeIntegrals_ok (pc : PC ℝ) {ljnu lJ lJYe : DataBox ℝ} {NTYPE : ℤ} (hs : Shaped ljnu lJ lJYe NTYPE) :
    ∃ J N, ComputeIntegrals pc ljnu lJ lJYe NTYPE = ok (J, N) ∧
      ∀ a b c d : ℕ, (a : ℤ) < (ljnu.grid 4).N → (b : ℤ) < (ljnu.grid 3).N → (c : ℤ) < (ljnu.grid 2).N → (d : ℤ) < NTYPE →
        J.read [(a : ℤ), b, c, d] =
          ok (toLog_ ((acc pc ljnu a b c d (ljnu.grid 0).N.toNat).1 * (ljnu.grid 0).dx)) ∧
        N.read [(a : ℤ), b, c, d] =
          ok (toLog_ ((acc pc ljnu a b c d (ljnu.grid 0).N.toNat).2 * (ljnu.grid 0).dx)) := by
  have h0 : SameShape lJ lJYe (lJ, lJYe) := ⟨rfl, rfl, rfl, rfl⟩
  obtain ⟨⟨J, N⟩, hr, -⟩ := loop_ok (I := SameShape lJ lJYe) (ljnu.range 4).N (fun iRho s =>
    forLoopM (ljnu.range 3).N (fun iT s =>
      forLoopM (ljnu.range 2).N (fun iYe s =>
        forLoopM NTYPE (integralCell pc ljnu iRho iT iYe) s) s) s) (by
    intro a ha t ht
    refine loop_ok _ _ ?_ ht
    intro b hb t ht
    refine loop_ok _ _ ?_ ht
    intro c hc t ht
    refine loop_ok _ _ ?_ ht
    intro d hd t ht
    obtain ⟨s', h1, h2, -⟩ := integralCell_ok pc hs ha hb hc hd t ht
    exact ⟨s', h1, h2⟩) h0
  let E : Bool × ℕ × ℕ × ℕ × ℕ → Outcome ℝ → Prop := fun q v =>
    v = ok (toLog_ ((bif q.1 then (acc pc ljnu q.2.1 q.2.2.1 q.2.2.2.1 q.2.2.2.2 (ljnu.grid 0).N.toNat).1
      else (acc pc ljnu q.2.1 q.2.2.1 q.2.2.2.1 q.2.2.2.2 (ljnu.grid 0).N.toNat).2) * (ljnu.grid 0).dx))
  have L := loop_fills (val := totVal) (I := SameShape lJ lJYe) (E := E) (ljnu.range 4).N _
    (fun a => {q | ∃ b : ℕ, (b : ℤ) < (ljnu.range 3).N ∧ q ∈ {q | ∃ c : ℕ, (c : ℤ) < (ljnu.range 2).N ∧
      q ∈ {q | ∃ d : ℕ, (d : ℤ) < NTYPE ∧ q ∈ ({(true, a, b, c, d), (false, a, b, c, d)} :
        Set (Bool × ℕ × ℕ × ℕ × ℕ))}}}) (by
    intro a ha t t' ht hb
    refine loop_fills _ _ _ ?_ ht hb
    intro b hb t t' ht hb'
    refine loop_fills _ _ _ ?_ ht hb'
    intro c hc t t' ht hb'
    refine loop_fills _ _ _ ?_ ht hb'
    intro d hd t t' ht hb'
    obtain ⟨s', h1, h2, h3, h4, h5⟩ := integralCell_ok pc hs ha hb hc hd t ht
    rw [h1] at hb'
    cases hb'
    refine ⟨h2, ?_, ?_⟩
    · rintro q (rfl | rfl)
      · exact h3
      · exact h4
    · intro q hq
      simp only [Set.mem_insert_iff, Set.mem_singleton_iff, not_or] at hq
      exact h5 q hq.1 hq.2) h0 hr
  refine ⟨J, N, hr, fun a b c d ha hb hc hd => ⟨?_, ?_⟩⟩
  · exact L.done (true, a, b, c, d) ⟨a, ha, b, hb, c, hc, d, hd, .inl rfl⟩
  · exact L.done (false, a, b, c, d) ⟨a, ha, b, hb, c, hc, d, hd, .inr rfl⟩

theorem eOf_pos (ljnu : DataBox ℝ) (ie : ℕ) : 0 < eOf ljnu ie := Real.rpow_pos_of_pos (by norm_num) _

theorem jOf_nonneg (ljnu : DataBox ℝ) (a b c d ie : ℕ) : 0 ≤ jOf ljnu a b c d ie := by
  unfold jOf
  split
  · exact (Real.rpow_pos_of_pos (by norm_num) _).le
  · exact le_rfl

theorem acc_energy (pc : PC ℝ) (hpc : 0 < pc.h) (ljnu : DataBox ℝ) (a b c d : ℕ) :
    (acc pc ljnu a b c d (ljnu.grid 0).N.toNat).1 * (ljnu.grid 0).dx = energySum pc ljnu a b c d / Real.log 10 := by
  have hl : 0 < Real.log 10 := Real.log_pos (by norm_num)
  simp only [acc, energySum, Finset.sum_mul, Finset.sum_div]
  refine Finset.sum_congr rfl fun ie _ => ?_
  rw [Photons.dx_eq]
  unfold dnuOf nuOf hzPerMeV
  field_simp

theorem acc_number (pc : PC ℝ) (hpc : 0 < pc.h) (he : 0 < pc.eV) (ljnu : DataBox ℝ) (a b c d : ℕ) :
    (acc pc ljnu a b c d (ljnu.grid 0).N.toNat).2 * (ljnu.grid 0).dx = numberSum pc ljnu a b c d / Real.log 10 := by
  have hl : 0 < Real.log 10 := Real.log_pos (by norm_num)
  simp only [acc, numberSum, Finset.sum_mul, Finset.sum_div]
  refine Finset.sum_congr rfl fun ie _ => ?_
  have := eOf_pos ljnu ie
  rw [Photons.dx_eq]
  unfold dnuOf nuOf hzPerMeV
  field_simp

/-- **C51, up to a constant factor**: the totals computed from a table of spectral emissivities are, up to the additive
floor, the Riemann sums of the emissivity (and of the emissivity per neutrino energy) over frequency and solid angle,
divided by `ln 10`.  Missing: they should be the Riemann sums themselves (`C51_false`). -/
theorem C51_partial (pc : PC ℝ) (hpc : 0 < pc.h) (he : 0 < pc.eV) {ljnu lJ lJYe : DataBox ℝ} {NTYPE : ℤ}
    (hs : Shaped ljnu lJ lJYe NTYPE) (hg : (ljnu.grid 0).Increasing) :
    ∃ J N, ComputeIntegrals pc ljnu lJ lJYe NTYPE = ok (J, N) ∧
      ∀ a b c d : ℕ, (a : ℤ) < (ljnu.grid 4).N → (b : ℤ) < (ljnu.grid 3).N → (c : ℤ) < (ljnu.grid 2).N → (d : ℤ) < NTYPE →
        (J.read [(a : ℤ), b, c, d]).map' (fun l => (10 : ℝ) ^ l) = ok (energySum pc ljnu a b c d / Real.log 10 + tiny) ∧
        (N.read [(a : ℤ), b, c, d]).map' (fun l => (10 : ℝ) ^ l) = ok (numberSum pc ljnu a b c d / Real.log 10 + tiny) := by
  obtain ⟨J, N, h, hc⟩ := ComputeIntegrals_ok pc hs
  refine ⟨J, N, h, fun a b c d ha hb hc' hd => ?_⟩
  obtain ⟨h1, h2⟩ := hc a b c d ha hb hc' hd
  have hl : 0 < Real.log 10 := Real.log_pos (by norm_num)
  have hdx := Photons.dx_pos _ hg.1 hg.2
  have key : ∀ x : ℝ, 0 ≤ x → (10 : ℝ) ^ (toLog_ x : ℝ) = x + tiny := by
    intro x hx
    have := tiny_pos
    rw [toLog_eq, max_eq_left hx, Real.rpow_logb (by norm_num) (by norm_num) (by linarith)]
  have n1 : 0 ≤ (acc pc ljnu a b c d (ljnu.grid 0).N.toNat).1 * (ljnu.grid 0).dx := by
    simp only [acc]
    refine mul_nonneg (Finset.sum_nonneg fun ie _ => ?_) hdx.le
    have := jOf_nonneg ljnu a b c d ie
    have := (eOf_pos ljnu ie).le
    have := Real.pi_pos
    positivity
  have n2 : 0 ≤ (acc pc ljnu a b c d (ljnu.grid 0).N.toNat).2 * (ljnu.grid 0).dx := by
    simp only [acc]
    refine mul_nonneg (Finset.sum_nonneg fun ie _ => ?_) hdx.le
    have := jOf_nonneg ljnu a b c d ie
    have := (eOf_pos ljnu ie).le
    have := Real.pi_pos
    positivity
  rw [h1, h2]
  simp only [map'_ok, key _ n1, key _ n2]
  rw [acc_energy pc hpc, acc_number pc hpc he]
  exact ⟨rfl, rfl⟩

/-- **C51 is false**: for every table of finite spectral emissivities the computed total is less than half the Riemann
sum (plus the floor): the factor `ln 10` of the logarithmic cell width is missing -/
theorem C51_false (pc : PC ℝ) (hpc : 0 < pc.h) (he : 0 < pc.eV) {ljnu lJ lJYe : DataBox ℝ} {NTYPE : ℤ}
    (hs : Shaped ljnu lJ lJYe NTYPE) (hg : (ljnu.grid 0).Increasing) :
    ∃ J N, ComputeIntegrals pc ljnu lJ lJYe NTYPE = ok (J, N) ∧
      ∀ a b c d : ℕ, (a : ℤ) < (ljnu.grid 4).N → (b : ℤ) < (ljnu.grid 3).N → (c : ℤ) < (ljnu.grid 2).N → (d : ℤ) < NTYPE →
        0 < energySum pc ljnu a b c d ∧
        ∃ l, J.read [(a : ℤ), b, c, d] = ok l ∧ (10 : ℝ) ^ l < energySum pc ljnu a b c d / 2 + tiny := by
  obtain ⟨J, N, h, hc⟩ := C51_partial pc hpc he hs hg
  refine ⟨J, N, h, fun a b c d ha hb hc' hd => ?_⟩
  obtain ⟨h1, -⟩ := hc a b c d ha hb hc' hd
  obtain ⟨l, hl, hl2⟩ := map'_eq_ok.1 h1
  have hpos : 0 < energySum pc ljnu a b c d := by
    have hN := hg.1
    refine Finset.sum_pos (fun ie hie => ?_) ⟨0, by simp; omega⟩
    have hie' : (ie : ℤ) < (ljnu.grid 0).N := by have := Finset.mem_range.1 hie; omega
    obtain ⟨v, hv⟩ := read_ok ljnu [(a : ℤ), b, c, d, ie] (by
      rw [hs.j]
      exact ⟨⟨by omega, ha⟩, ⟨by omega, hb⟩, ⟨by omega, hc'⟩, ⟨by omega, hd⟩, ⟨by omega, hie'⟩, trivial⟩)
    have hj : 0 < jOf ljnu a b c d ie := by
      simp only [jOf, hv]; exact Real.rpow_pos_of_pos (by norm_num) _
    have h10 : 0 < Real.log 10 := Real.log_pos (by norm_num)
    have hdx := Photons.dx_pos _ hg.1 hg.2
    rw [Photons.dx_eq] at hdx
    have := eOf_pos ljnu ie
    have := Real.pi_pos
    unfold dnuOf nuOf hzPerMeV
    positivity
  refine ⟨hpos, l, hl, ?_⟩
  rw [hl2]
  have h10 : (2 : ℝ) < Real.log 10 := by
    have h1 : Real.exp 2 < 10 := by
      have h := Real.exp_one_lt_d9
      rw [show (2 : ℝ) = 1 + 1 by norm_num, Real.exp_add]
      have := Real.exp_pos 1
      nlinarith
    rwa [Real.lt_log_iff_exp_lt (by norm_num)]
  have : energySum pc ljnu a b c d / Real.log 10 < energySum pc ljnu a b c d / 2 :=
    div_lt_div_of_pos_left hpos (by norm_num) h10
  linarith

/-- tables of the shapes that loading gives them, on two energies -/
example : ∃ ljnu lJ lJYe : DataBox ℝ, Shaped ljnu lJ lJYe 3 ∧ (ljnu.grid 0).Increasing :=
  ⟨setup5 (fun _ => 0) 2 2 2 3 2 0 1 0 1 0 1 0 1, setup4 (fun _ => 0) 2 2 2 3 0 1 0 1 0 1,
    setup4 (fun _ => 0) 2 2 2 3 0 1 0 1 0 1, ⟨rfl, rfl, rfl⟩, by
      constructor
      · show (2 : ℤ) ≤ 2; norm_num
      · show (0 : ℝ) < 1; norm_num⟩

end Opac.Neutrinos.SpinerOpacity
