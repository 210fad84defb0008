import Verif.Lemmas.UninitialisedFill

/-! Lemmas: the NuLib reader, apart from the array it never writes, overwrites everything the fresh memory held. -/

namespace Opac
open Arith Spiner Outcome
variable {R : Type} [Arith R]
set_option linter.unusedSectionVars false

namespace Neutrinos.SpinerOpacity
open Photons.MGTables (Agree2)

theorem nulibEntry_same (pc : PC R) (kappa : Option (DataBox R)) (jnu : DataBox R) (iR iT iY idx ie : ℕ) (ds : List ℤ)
    (D : Set (List ℤ)) (s s' : DataBox R × DataBox R) (h : Agree2 ds D s s') :
    SameOutcome (Agree2 ds (D ∪ {[(iR : ℤ), (iT : ℤ), (iY : ℤ), (idx : ℤ), (ie : ℤ)]}))
      (nulibEntry pc kappa jnu iR iT iY idx ie s) (nulibEntry pc kappa jnu iR iT iY idx ie s') := by
  unfold nulibEntry
  cases kappa with
  | none => rfl
  | some kf =>
  dsimp only
  refine .same _ fun k => (h.1.write _ _).bind fun a b hab => .same _ fun j => (h.2.write _ _).bind fun c d hcd => ?_
  exact ⟨hab, hcd⟩

theorem integralStep_same (pc : PC R) {ljnu ljnu' : DataBox R} (hl : ljnu.Alike ljnu') (iRho iT iYe itp ie : ℕ)
    (ds : List ℤ) (D : Set (List ℤ)) (hD : [(iRho : ℤ), (iT : ℤ), (iYe : ℤ), (itp : ℤ)] ∈ D)
    (s s' : DataBox R × DataBox R) (h : Agree2 ds D s s') :
    SameOutcome (Agree2 ds D) (integralStep pc ljnu iRho iT iYe itp ie s)
      (integralStep pc ljnu' iRho iT iYe itp ie s') := by
  unfold integralStep
  have e : ∀ i, ljnu'.range i = ljnu.range i := fun i => (congrFun hl.grid i).symm
  simp only [e, ← hl.read, ← h.1.read _ hD, ← h.2.read _ hD]
  refine .same _ fun lj => .same _ fun a => (h.1.write _ _).bind fun x y hxy => .same _ fun b =>
    (h.2.write _ _).bind fun u v huv => ?_
  exact ⟨hxy.mono Set.subset_union_left, huv.mono Set.subset_union_left⟩

theorem integralCell_same (pc : PC R) {ljnu ljnu' : DataBox R} (hl : ljnu.Alike ljnu') (iRho iT iYe itp : ℕ)
    (ds : List ℤ) (D : Set (List ℤ)) (s s' : DataBox R × DataBox R) (h : Agree2 ds D s s') :
    SameOutcome (Agree2 ds (D ∪ {[(iRho : ℤ), (iT : ℤ), (iYe : ℤ), (itp : ℤ)]}))
      (integralCell pc ljnu iRho iT iYe itp s) (integralCell pc ljnu' iRho iT iYe itp s') := by
  unfold integralCell
  have e : ∀ i, ljnu'.range i = ljnu.range i := fun i => (congrFun hl.grid i).symm
  simp only [e]
  have hmem : [(iRho : ℤ), (iT : ℤ), (iYe : ℤ), (itp : ℤ)] ∈ D ∪ {[(iRho : ℤ), (iT : ℤ), (iYe : ℤ), (itp : ℤ)]} :=
    .inr rfl
  refine (h.1.write _ _).bind fun x y hxy => (h.2.write _ _).bind fun u v huv => ?_
  refine (SameOutcome.loop (ljnu.range 0).N
    (fun _ => Agree2 ds (D ∪ {[(iRho : ℤ), (iT : ℤ), (iYe : ℤ), (itp : ℤ)]})) ⟨hxy, huv⟩
    (fun ie s s' _ h => integralStep_same pc hl iRho iT iYe itp ie ds _ hmem s s' h)).bind fun s s' h => ?_
  rw [← h.1.read _ hmem, ← h.2.read _ hmem]
  refine .same _ fun a => (h.1.write _ _).bind fun x y hxy => .same _ fun b => (h.2.write _ _).bind fun u v huv => ?_
  exact ⟨hxy.mono Set.subset_union_left, huv.mono Set.subset_union_left⟩

theorem keeps {S G : Type} (g : S → G) (n : ℤ) (body : ℕ → S → Outcome S)
    (h : ∀ i s s', body i s = ok s' → g s' = g s) (s s' : S) (hs : forLoopM n body s = ok s') : g s' = g s := by
  by_cases hn : n ≤ 0
  · rw [forLoopM_nonpos hn] at hs; cases hs; rfl
  rw [forLoopM_cast n (by omega)] at hs
  exact forLoopM_inv' n.toNat body (fun _ t => g t = g s) s s' rfl (fun i _ a b ha hb => (h i a b hb).trans ha) hs

theorem nulibEntry_grid (pc : PC R) (kappa : Option (DataBox R)) (jnu : DataBox R) (iR iT iY idx ie : ℕ)
    (s s' : DataBox R × DataBox R) (h : nulibEntry pc kappa jnu iR iT iY idx ie s = ok s') : s'.2.grid = s.2.grid := by
  unfold nulibEntry at h
  cases kappa with
  | none => exact nomatch h
  | some kf =>
  simp only [bind_eq_ok] at h
  obtain ⟨_, _, _, _, _, _, d, hd, h⟩ := h
  cases h
  exact (read_write _ _ _ [] _ hd).2.1

theorem _root_.Opac.SameOutcome.and_ok {α β : Type} {P : α → β → Prop} {Q : α → Prop} {x : Outcome α} {y : Outcome β}
    (h : SameOutcome P x y) (hq : ∀ a, x = ok a → Q a) : SameOutcome (fun a b => P a b ∧ Q a) x y := by
  cases x <;> cases y <;> first | exact h.elim | exact ⟨h, hq _ rfl⟩ | exact h

theorem nulib_same (kappa : Option (ℕ → R)) (dist : FermiDirac R) (pc : PC R) (junk junk' : ℕ → ℕ → R)
    (f : Option (NuLibFile R)) :
    SameOutcome SpinerOpacity.Alike (LoadFromNuLibWith kappa dist pc junk f)
      (LoadFromNuLibWith kappa dist pc junk' f) := by
  cases f with
  | none => rfl
  | some f =>
  unfold LoadFromNuLibWith
  dsimp only
  refine .same _ fun NR => .same _ fun NT => .same _ fun NY => .same _ fun NE => .same _ fun NTYPE => ?_
  refine .same _ fun ⟨rmin, rmax⟩ => .same _ fun ⟨tmin, tmax⟩ => .same _ fun ⟨emin, emax⟩ => .same _ fun ⟨ymin, ymax⟩ => ?_
  refine .same _ fun _ => .same _ fun jnu => ?_
  dsimp only
  generalize hk : kappa.map (fun k => ({ dims := [NE, NTYPE, NY, NT, NR], grid := fun _ => Grid.none, data := k } :
      DataBox R)) = kf
  refine SameOutcome.bind (P := fun (s s' : DataBox R × DataBox R) => (s.1.Alike s'.1 ∧ s.2.Alike s'.2) ∧
    s.2.grid = (setup5 (junk 0) NR NT NY NTYPE NE (log10 rmin) (log10 rmax) (log10 tmin) (log10 tmax) ymin ymax
      (log10 emin) (log10 emax)).grid) (SameOutcome.and_ok ?_ ?_) ?_
  · have hmono := Agree2.mono (R := R) [NR, NT, NY, NTYPE, NE]
    refine SameOutcome.mono (SameOutcome.loopW NR (Agree2 [NR, NT, NY, NTYPE, NE])
      (fun iR => {is | ∃ iT : ℕ, (iT : ℤ) < NT ∧ is ∈ {is | ∃ iY : ℕ, (iY : ℤ) < NY ∧
        is ∈ {is | ∃ idx : ℕ, (idx : ℤ) < NTYPE ∧ is ∈ {is | ∃ ie : ℕ, (ie : ℤ) < NE ∧
          is ∈ ({[(iR : ℤ), (iT : ℤ), (iY : ℤ), (idx : ℤ), (ie : ℤ)]} : Set (List ℤ))}}}}) hmono (D := ∅) ?_ ?_) ?_
    · exact ⟨⟨rfl, rfl, rfl, by simp⟩, ⟨rfl, rfl, rfl, by simp⟩⟩
    · intro iR D s s' h
      exact SameOutcome.loopW NT (Agree2 _) _ hmono h fun iT D s s' h =>
        SameOutcome.loopW NY (Agree2 _) _ hmono h fun iY D s s' h =>
          SameOutcome.loopW NTYPE (Agree2 _) _ hmono h fun idx D s s' h =>
            SameOutcome.loopW NE (Agree2 _) _ hmono h fun ie D s s' h =>
              nulibEntry_same pc kf jnu iR iT iY idx ie _ D s s' h
    · intro s s' h
      have hD : ∀ is, InRange [NR, NT, NY, NTYPE, NE] is → is ∈ (∅ ∪ {is | ∃ iR : ℕ, (iR : ℤ) < NR ∧
          is ∈ {is | ∃ iT : ℕ, (iT : ℤ) < NT ∧ is ∈ {is | ∃ iY : ℕ, (iY : ℤ) < NY ∧
          is ∈ {is | ∃ idx : ℕ, (idx : ℤ) < NTYPE ∧ is ∈ {is | ∃ ie : ℕ, (ie : ℤ) < NE ∧
            is ∈ ({[(iR : ℤ), (iT : ℤ), (iY : ℤ), (idx : ℤ), (ie : ℤ)]} : Set (List ℤ))}}}}} : Set (List ℤ)) := by
        intro is hi
        match is, hi with
        | [a, b, c, d, e], ⟨ha, hb, hc, hd, he, _⟩ =>
          refine .inr ⟨a.toNat, by omega, b.toNat, by omega, c.toNat, by omega, d.toNat, by omega, e.toNat, by omega, ?_⟩
          simp [Int.toNat_of_nonneg ha.1, Int.toNat_of_nonneg hb.1, Int.toNat_of_nonneg hc.1,
            Int.toNat_of_nonneg hd.1, Int.toNat_of_nonneg he.1]
      exact ⟨h.1.alike hD, h.2.alike hD⟩
  · intro s hs
    exact keeps (fun s : DataBox R × DataBox R => s.2.grid) NR _ (fun iR s s' h =>
      keeps (fun s : DataBox R × DataBox R => s.2.grid) NT _ (fun iT s s' h =>
        keeps (fun s : DataBox R × DataBox R => s.2.grid) NY _ (fun iY s s' h =>
          keeps (fun s : DataBox R × DataBox R => s.2.grid) NTYPE _ (fun idx s s' h =>
            keeps (fun s : DataBox R × DataBox R => s.2.grid) NE _ (fun ie s s' h =>
              nulibEntry_grid pc kf jnu iR iT iY idx ie s s' h) s s' h) s s' h) s s' h) s s' h) _ s hs
  · rintro ⟨la, lj⟩ ⟨la', lj'⟩ ⟨⟨h1, h2⟩, hg⟩
    dsimp only at h1 h2 hg ⊢
    have e : ∀ i, lj'.range i = lj.range i := fun i => (congrFun h2.grid i).symm
    have e4 : (lj.range 4).N = NR := by unfold DataBox.range; rw [hg]; rfl
    have e3 : (lj.range 3).N = NT := by unfold DataBox.range; rw [hg]; rfl
    have e2 : (lj.range 2).N = NY := by unfold DataBox.range; rw [hg]; rfl
    have hmono := Agree2.mono (R := R) [NR, NT, NY, NTYPE]
    unfold ComputeIntegrals
    rw [e, e, e, e4, e3, e2]
    refine SameOutcome.bind (P := fun (s s' : DataBox R × DataBox R) => s.1.Alike s'.1 ∧ s.2.Alike s'.2) ?_
      (fun s s' h => ⟨rfl, rfl, h1, h2, h.1, h.2⟩)
    refine SameOutcome.mono (SameOutcome.loopW NR (Agree2 [NR, NT, NY, NTYPE])
      (fun iR => {is | ∃ iT : ℕ, (iT : ℤ) < NT ∧ is ∈ {is | ∃ iY : ℕ, (iY : ℤ) < NY ∧
        is ∈ {is | ∃ idx : ℕ, (idx : ℤ) < NTYPE ∧
          is ∈ ({[(iR : ℤ), (iT : ℤ), (iY : ℤ), (idx : ℤ)]} : Set (List ℤ))}}}) hmono (D := ∅) ?_ ?_) ?_
    · exact ⟨⟨rfl, rfl, rfl, by simp⟩, ⟨rfl, rfl, rfl, by simp⟩⟩
    · intro iR D s s' h
      exact SameOutcome.loopW NT (Agree2 _) _ hmono h fun iT D s s' h =>
        SameOutcome.loopW NY (Agree2 _) _ hmono h fun iY D s s' h =>
          SameOutcome.loopW NTYPE (Agree2 _) _ hmono h fun idx D s s' h =>
            integralCell_same pc h2 iR iT iY idx _ D s s' h
    · intro s s' h
      have hD : ∀ is, InRange [NR, NT, NY, NTYPE] is → is ∈ (∅ ∪ {is | ∃ iR : ℕ, (iR : ℤ) < NR ∧
          is ∈ {is | ∃ iT : ℕ, (iT : ℤ) < NT ∧ is ∈ {is | ∃ iY : ℕ, (iY : ℤ) < NY ∧
          is ∈ {is | ∃ idx : ℕ, (idx : ℤ) < NTYPE ∧
            is ∈ ({[(iR : ℤ), (iT : ℤ), (iY : ℤ), (idx : ℤ)]} : Set (List ℤ))}}}} : Set (List ℤ)) := by
        intro is hi
        match is, hi with
        | [a, b, c, d], ⟨ha, hb, hc, hd, _⟩ =>
          refine .inr ⟨a.toNat, by omega, b.toNat, by omega, c.toNat, by omega, d.toNat, by omega, ?_⟩
          simp [Int.toNat_of_nonneg ha.1, Int.toNat_of_nonneg hb.1, Int.toNat_of_nonneg hc.1,
            Int.toNat_of_nonneg hd.1]
      exact ⟨h.1.alike hD, h.2.alike hD⟩

end Neutrinos.SpinerOpacity
end Opac
