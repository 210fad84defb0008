import Verif.Lemmas.Uninitialised

/-! Lemmas: the constructors that fill tables overwrite everything the fresh memory held. -/

namespace Opac
open Arith Spiner Outcome Hdf
variable {R : Type} [Arith R]
set_option linter.unusedSectionVars false

namespace Photons.MGTables

/-- both tables agree -/
def Agree2 (ds : List ℤ) (D : Set (List ℤ)) (s s' : DataBox R × DataBox R) : Prop :=
  s.1.Agree ds D s'.1 ∧ s.2.Agree ds D s'.2

theorem Agree2.mono (ds : List ℤ) (D D' : Set (List ℤ)) (s s' : DataBox R × DataBox R) (hs : D' ⊆ D)
    (h : Agree2 ds D s s') : Agree2 ds D' s s' := ⟨h.1.mono hs, h.2.mono hs⟩

theorem FillCell_same (pc : PC R) (coef : R → R → R → R) (gb : List R) (NNu : ℤ) (iT iRho g : ℕ) (ds : List ℤ)
    (D : Set (List ℤ)) (s s' : DataBox R × DataBox R) (h : Agree2 ds D s s') :
    SameOutcome (Agree2 ds (D ∪ {[(iRho : ℤ), (iT : ℤ), (g : ℤ)]}))
      (FillCell pc coef gb NNu iT iRho g s) (FillCell pc coef gb NNu iT iRho g s') := by
  have e : ∀ i, s'.1.range i = s.1.range i := fun i => (congrFun h.1.grid i).symm
  unfold FillCell
  rw [e, e]
  refine .same _ fun x => .same _ fun y => ?_
  generalize GroupMeans pc coef (FromLog ((s.1.range 2).x iRho)) (FromLog ((s.1.range 1).x iT)) x y NNu = k
  refine (h.1.write _ _).bind fun a b hab => (h.2.write _ _).bind fun c d hcd => ?_
  cases hn : (isNaN (ToLog k.1) || isNaN (ToLog k.2))
  · exact ⟨hab, hcd⟩
  · rfl

theorem Impl_same (pc : PC R) (junk junk' : ℕ → R) (coef : R → R → R → R) (lRhoMin lRhoMax : R) (NRho : ℤ)
    (lTMin lTMax : R) (NT : ℤ) (group_bounds : List R) (ngroups : ℤ) (NNuPerGroup : ℤ) :
    SameOutcome MGTables.Alike
      (Impl_ pc junk coef lRhoMin lRhoMax NRho lTMin lTMax NT group_bounds ngroups NNuPerGroup)
      (Impl_ pc junk' coef lRhoMin lRhoMax NRho lTMin lTMax NT group_bounds ngroups NNuPerGroup) := by
  unfold Impl_
  dsimp only
  split_ifs
  · rfl
  refine .same _ fun _ => .same _ fun gb => ?_
  refine SameOutcome.bind (P := Agree2 [NRho, NT, (ngroups.toNat : ℤ)] _)
    (SameOutcome.loopW NT (Agree2 _) (fun iT => {is | ∃ iRho : ℕ, (iRho : ℤ) < NRho ∧ is ∈ {is | ∃ g : ℕ,
      (g : ℤ) < (ngroups.toNat : ℤ) ∧ is ∈ ({[(iRho : ℤ), (iT : ℤ), (g : ℤ)]} : Set (List ℤ))}}) (Agree2.mono _)
      (D := ∅) ⟨⟨rfl, rfl, rfl, by simp⟩, rfl, rfl, rfl, by simp⟩ ?_) ?_
  · intro iT D s s' h
    exact SameOutcome.loopW NRho (Agree2 _) _ (Agree2.mono _) h fun iRho D s s' h =>
      SameOutcome.loopW _ (Agree2 _) _ (Agree2.mono _) h fun g D s s' h =>
        FillCell_same pc coef group_bounds NNuPerGroup iT iRho g _ D s s' h
  · intro s s' h
    have hD : ∀ is, InRange [NRho, NT, (ngroups.toNat : ℤ)] is → is ∈ (∅ ∪ {is | ∃ iT : ℕ, (iT : ℤ) < NT ∧
        is ∈ {is | ∃ iRho : ℕ, (iRho : ℤ) < NRho ∧ is ∈ {is | ∃ g : ℕ, (g : ℤ) < (ngroups.toNat : ℤ) ∧
          is ∈ ({[(iRho : ℤ), (iT : ℤ), (g : ℤ)]} : Set (List ℤ))}}} : Set (List ℤ)) := by
      intro is hi
      match is, hi with
      | [a, b, c], ⟨ha, hb, hc, _⟩ =>
        refine .inr ⟨b.toNat, by omega, a.toNat, by omega, c.toNat, by omega, ?_⟩
        simp [Int.toNat_of_nonneg ha.1, Int.toNat_of_nonneg hb.1, Int.toNat_of_nonneg hc.1]
    exact ⟨h.1.alike hD, h.2.alike hD, rfl, rfl⟩

end Photons.MGTables

namespace Neutrinos.MeanTables

/-- both tables agree -/
def Agree2 (ds : List ℤ) (D : Set (List ℤ)) (t t' : MeanTables R) : Prop :=
  t.lPlanck.Agree ds D t'.lPlanck ∧ t.lRosseland.Agree ds D t'.lRosseland

theorem Agree2.mono (ds : List ℤ) (D D' : Set (List ℤ)) (s s' : MeanTables R) (hs : D' ⊆ D)
    (h : Agree2 ds D s s') : Agree2 ds D' s s' := ⟨h.1.mono hs, h.2.mono hs⟩

theorem store_same (iRho iT iYe idx : ℕ) (k : R × R) (ds : List ℤ) (D : Set (List ℤ)) (t t' : MeanTables R)
    (h : Agree2 ds D t t') :
    SameOutcome (Agree2 ds (D ∪ {[(iRho : ℤ), (iT : ℤ), (iYe : ℤ), (idx : ℤ)]}))
      (store iRho iT iYe idx k t) (store iRho iT iYe idx k t') := by
  unfold store
  refine (h.1.write _ _).bind fun a b hab => (h.2.write _ _).bind fun c d hcd => ?_
  dsimp only
  split_ifs
  · rfl
  · exact ⟨hab, hcd⟩

theorem fillCell_same (o : Sampler R) (lNuMin lNuMax : R) (NNu : ℤ) (iRho iT iYe idx : ℕ) (ds : List ℤ)
    (D : Set (List ℤ)) (t t' : MeanTables R) (h : Agree2 ds D t t') :
    SameOutcome (Agree2 ds (D ∪ {[(iRho : ℤ), (iT : ℤ), (iYe : ℤ), (idx : ℤ)]}))
      (fillCell o lNuMin lNuMax NNu iRho iT iYe idx t) (fillCell o lNuMin lNuMax NNu iRho iT iYe idx t') := by
  unfold fillCell
  simp only [DataBox.range, ← h.1.grid]
  exact .same _ fun _ => .same _ fun _ => store_same _ _ _ _ _ _ _ _ _ h

theorem fillCellS_same (o : Sampler R) (lNuMin lNuMax : R) (NNu : ℤ) (hN : 0 < NNu) (iRho iT iYe idx : ℕ)
    (ds : List ℤ) (D : Set (List ℤ)) (t t' : MeanTables R) (h : Agree2 ds D t t') :
    SameOutcome (Agree2 ds (D ∪ {[(iRho : ℤ), (iT : ℤ), (iYe : ℤ), (idx : ℤ)]}))
      (fillCellS o lNuMin lNuMax NNu iRho iT iYe idx t) (fillCellS o lNuMin lNuMax NNu iRho iT iYe idx t') := by
  unfold fillCellS
  simp only [DataBox.range, ← h.1.grid]
  refine .same _ fun _ => ?_
  refine SameOutcome.bind (SameOutcome.loop NNu (fun k (st st' : Sums R × MeanTables R) => st.1 = st'.1 ∧
    Agree2 ds D st.2 st'.2 ∧ (0 < k → Agree2 ds (D ∪ {[(iRho : ℤ), (iT : ℤ), (iYe : ℤ), (idx : ℤ)]}) st.2 st'.2))
    ⟨rfl, h, by simp⟩ ?_) ?_
  · rintro i ⟨s, t⟩ ⟨s', t'⟩ _ ⟨he, h, _⟩
    cases he
    refine .same _ fun a => (store_same _ _ _ _ _ ds D _ _ h).bind fun u v huv => ?_
    exact ⟨rfl, Agree2.mono _ _ _ _ _ Set.subset_union_left huv, fun _ => huv⟩
  · intro a b hab
    exact hab.2.2 (by omega)

theorem loops_same (junk junk' : ℕ → ℕ → R) (lRhoMin lRhoMax : R) (NRho : ℤ) (lTMin lTMax : R) (NT : ℤ)
    (YeMin YeMax : R) (NYe : ℤ) (cell : ℕ → ℕ → ℕ → ℕ → MeanTables R → Outcome (MeanTables R))
    (hc : ∀ (iRho iT iYe idx : ℕ) (D : Set (List ℤ)) (t t' : MeanTables R),
      Agree2 [NRho, NT, NYe, NEUTRINO_NTYPES] D t t' →
      SameOutcome (Agree2 [NRho, NT, NYe, NEUTRINO_NTYPES] (D ∪ {[(iRho : ℤ), (iT : ℤ), (iYe : ℤ), (idx : ℤ)]}))
        (cell iRho iT iYe idx t) (cell iRho iT iYe idx t')) :
    SameOutcome MeanTables.Alike
      (loops NRho NT NYe cell (setup junk lRhoMin lRhoMax NRho lTMin lTMax NT YeMin YeMax NYe))
      (loops NRho NT NYe cell (setup junk' lRhoMin lRhoMax NRho lTMin lTMax NT YeMin YeMax NYe)) := by
  unfold loops
  refine SameOutcome.mono (SameOutcome.loopW NRho (Agree2 [NRho, NT, NYe, NEUTRINO_NTYPES]) (fun iRho => {is | ∃ iT : ℕ, (iT : ℤ) < NT ∧
    is ∈ {is | ∃ iYe : ℕ, (iYe : ℤ) < NYe ∧ is ∈ {is | ∃ idx : ℕ, (idx : ℤ) < NEUTRINO_NTYPES ∧
      is ∈ ({[(iRho : ℤ), (iT : ℤ), (iYe : ℤ), (idx : ℤ)]} : Set (List ℤ))}}}) (Agree2.mono _)
      (D := ∅) ?_ ?_) ?_
  · exact ⟨⟨rfl, rfl, rfl, by simp⟩, ⟨rfl, rfl, rfl, by simp⟩⟩
  · intro iRho D s s' h
    exact SameOutcome.loopW NT (Agree2 _) _ (Agree2.mono _) h fun iT D s s' h =>
      SameOutcome.loopW NYe (Agree2 _) _ (Agree2.mono _) h fun iYe D s s' h =>
        SameOutcome.loopW _ (Agree2 _) _ (Agree2.mono _) h fun idx D s s' h => hc iRho iT iYe idx D s s' h
  · intro t t' h
    have hD : ∀ is, InRange [NRho, NT, NYe, NEUTRINO_NTYPES] is → is ∈ (∅ ∪ {is | ∃ iRho : ℕ, (iRho : ℤ) < NRho ∧
        is ∈ {is | ∃ iT : ℕ, (iT : ℤ) < NT ∧ is ∈ {is | ∃ iYe : ℕ, (iYe : ℤ) < NYe ∧
          is ∈ {is | ∃ idx : ℕ, (idx : ℤ) < NEUTRINO_NTYPES ∧
            is ∈ ({[(iRho : ℤ), (iT : ℤ), (iYe : ℤ), (idx : ℤ)]} : Set (List ℤ))}}}} : Set (List ℤ)) := by
      intro is hi
      match is, hi with
      | [a, b, c, d], ⟨ha, hb, hc, hd, _⟩ =>
        refine .inr ⟨a.toNat, by omega, b.toNat, by omega, c.toNat, by omega, d.toNat, by omega, ?_⟩
        simp [Int.toNat_of_nonneg ha.1, Int.toNat_of_nonneg hb.1, Int.toNat_of_nonneg hc.1, Int.toNat_of_nonneg hd.1]
    exact ⟨h.1.alike hD, h.2.alike hD⟩

end Neutrinos.MeanTables

namespace Neutrinos.SpinerOpacity

/-- the four tables agree: those with an energy axis at `D`, those without at `E` -/
structure Agree4 (dist₀ : FermiDirac R) (pc₀ : PC R) (ds es : List ℤ) (D E : Set (List ℤ)) (o o' : SpinerOpacity R) :
    Prop where
  dist : o.dist = dist₀
  dist' : o'.dist = dist₀
  pc : o.pc = pc₀
  pc' : o'.pc = pc₀
  lalphanu_ : o.lalphanu_.Agree ds D o'.lalphanu_
  ljnu_ : o.ljnu_.Agree ds D o'.ljnu_
  lJ_ : o.lJ_.Agree es E o'.lJ_
  lJYe_ : o.lJYe_.Agree es E o'.lJYe_

/-- the places `is` of the tables without an energy axis, and `is, ie` of those with one -/
def AgreeN (dist : FermiDirac R) (pc : PC R) (ds es : List ℤ) (Ne : ℤ) (E : Set (List ℤ)) :
    SpinerOpacity R → SpinerOpacity R → Prop :=
  Agree4 dist pc ds es {is | ∃ js ∈ E, ∃ ie : ℕ, (ie : ℤ) < Ne ∧ is = js ++ [(ie : ℤ)]} E

theorem Agree4.mono {dist : FermiDirac R} {pc : PC R} {ds es : List ℤ} {D E D' E' : Set (List ℤ)}
    {o o' : SpinerOpacity R} (hD : D' ⊆ D) (hE : E' ⊆ E) (h : Agree4 dist pc ds es D E o o') :
    Agree4 dist pc ds es D' E' o o' :=
  ⟨h.dist, h.dist', h.pc, h.pc', h.lalphanu_.mono hD, h.ljnu_.mono hD, h.lJ_.mono hE, h.lJYe_.mono hE⟩

theorem AgreeN.mono (dist : FermiDirac R) (pc : PC R) (ds es : List ℤ) (Ne : ℤ) (E E' : Set (List ℤ))
    (o o' : SpinerOpacity R) (hE : E' ⊆ E) (h : AgreeN dist pc ds es Ne E o o') :
    AgreeN dist pc ds es Ne E' o o' :=
  Agree4.mono (by rintro is ⟨js, hj, h⟩; exact ⟨js, hE hj, h⟩) hE h

theorem fillE_same (dist : FermiDirac R) (pc : PC R) (opac : Sampled R) (rho T Ye : R) (type : RadiationType)
    (iRho iT iYe idx ie : ℕ) (ds es : List ℤ) (D E : Set (List ℤ)) (o o' : SpinerOpacity R)
    (h : Agree4 dist pc ds es D E o o') :
    SameOutcome (Agree4 dist pc ds es (D ∪ {[(iRho : ℤ), (iT : ℤ), (iYe : ℤ), (idx : ℤ), (ie : ℤ)]}) E)
      (fillE pc opac rho T Ye type iRho iT iYe idx ie o) (fillE pc opac rho T Ye type iRho iT iYe idx ie o') := by
  unfold fillE
  simp only [DataBox.range, ← h.lalphanu_.grid]
  refine .same _ fun a => (h.lalphanu_.write _ _).bind fun x y hxy => ?_
  refine .same _ fun j => (h.ljnu_.write _ _).bind fun u v huv => ?_
  exact ⟨h.dist, h.dist', h.pc, h.pc', hxy, huv, h.lJ_, h.lJYe_⟩

theorem fillIdx_same (dist : FermiDirac R) (pc : PC R) (opac : Sampled R) (Ne : ℤ) (rho T Ye : R)
    (iRho iT iYe idx : ℕ) (ds es : List ℤ) (E : Set (List ℤ)) (o o' : SpinerOpacity R)
    (h : AgreeN dist pc ds es Ne E o o') :
    SameOutcome (AgreeN dist pc ds es Ne (E ∪ {[(iRho : ℤ), (iT : ℤ), (iYe : ℤ), (idx : ℤ)]}))
      (fillIdx pc opac Ne rho T Ye iRho iT iYe idx o) (fillIdx pc opac Ne rho T Ye iRho iT iYe idx o') := by
  unfold fillIdx
  refine .same _ fun type => .same _ fun J => (h.lJ_.write _ _).bind fun x y hxy => ?_
  refine .same _ fun JYe => (h.lJYe_.write _ _).bind fun u v huv => ?_
  refine SameOutcome.mono (SameOutcome.loopW Ne (fun D => Agree4 dist pc ds es D (E ∪ {[(iRho : ℤ), (iT : ℤ), (iYe : ℤ), (idx : ℤ)]}))
    (fun ie => {[(iRho : ℤ), (iT : ℤ), (iYe : ℤ), (idx : ℤ), (ie : ℤ)]})
    (fun D D' s s' hs h => h.mono hs subset_rfl) (D := {is | ∃ js ∈ E, ∃ ie : ℕ, (ie : ℤ) < Ne ∧ is = js ++ [(ie : ℤ)]})
    ?_ (fun ie D s s' h => fillE_same dist pc opac rho T Ye type iRho iT iYe idx ie ds es D _ s s' h)) ?_
  · exact ⟨h.dist, h.dist', h.pc, h.pc', h.lalphanu_, h.ljnu_, hxy, huv⟩
  intro a b hab
  refine hab.mono ?_ subset_rfl
  rintro is ⟨js, hj | hj, ie, hie, rfl⟩
  · exact .inl ⟨js, hj, ie, hie, rfl⟩
  · rw [Set.mem_singleton_iff] at hj
    subst hj
    exact .inr ⟨ie, hie, rfl⟩

theorem fill_same (dist : FermiDirac R) (pc : PC R) (junk junk' : ℕ → ℕ → R) (opac : Sampled R) (lRhoMin lRhoMax : R)
    (NRho : ℤ) (lTMin lTMax : R) (NT : ℤ) (YeMin YeMax : R) (NYe : ℤ) (leMin leMax : R) (Ne : ℤ) :
    SameOutcome SpinerOpacity.Alike
      (fill dist pc junk opac lRhoMin lRhoMax NRho lTMin lTMax NT YeMin YeMax NYe leMin leMax Ne)
      (fill dist pc junk' opac lRhoMin lRhoMax NRho lTMin lTMax NT YeMin YeMax NYe leMin leMax Ne) := by
  unfold fill
  have hmono := AgreeN.mono dist pc [NRho, NT, NYe, NEUTRINO_NTYPES, Ne] [NRho, NT, NYe, NEUTRINO_NTYPES] Ne
  refine SameOutcome.mono (SameOutcome.loopW NRho (AgreeN dist pc [NRho, NT, NYe, NEUTRINO_NTYPES, Ne] [NRho, NT, NYe, NEUTRINO_NTYPES] Ne)
    (fun iRho => {is | ∃ iT : ℕ, (iT : ℤ) < NT ∧
    is ∈ {is | ∃ iYe : ℕ, (iYe : ℤ) < NYe ∧ is ∈ {is | ∃ idx : ℕ, (idx : ℤ) < NEUTRINO_NTYPES ∧
      is ∈ ({[(iRho : ℤ), (iT : ℤ), (iYe : ℤ), (idx : ℤ)]} : Set (List ℤ))}}}) hmono
      (D := ∅) ?_ ?_) ?_
  · exact ⟨rfl, rfl, rfl, rfl, ⟨rfl, rfl, rfl, by simp⟩, ⟨rfl, rfl, rfl, by simp⟩, ⟨rfl, rfl, rfl, by simp⟩,
      ⟨rfl, rfl, rfl, by simp⟩⟩
  · intro iRho D s s' h
    simp only [DataBox.range, ← h.lalphanu_.grid]
    refine SameOutcome.loopW NT (AgreeN _ _ _ _ _) _ hmono h fun iT D s s' h => ?_
    simp only [← h.lalphanu_.grid]
    refine SameOutcome.loopW NYe (AgreeN _ _ _ _ _) _ hmono h fun iYe D s s' h => ?_
    simp only [← h.lalphanu_.grid]
    exact SameOutcome.loopW _ (AgreeN _ _ _ _ _) _ hmono h fun idx D s s' h =>
      fillIdx_same dist pc opac Ne _ _ _ iRho iT iYe idx _ _ D s s' h
  · intro o o' h
    have hE : ∀ is, InRange [NRho, NT, NYe, NEUTRINO_NTYPES] is → is ∈ (∅ ∪ {is | ∃ iRho : ℕ, (iRho : ℤ) < NRho ∧
        is ∈ {is | ∃ iT : ℕ, (iT : ℤ) < NT ∧ is ∈ {is | ∃ iYe : ℕ, (iYe : ℤ) < NYe ∧
          is ∈ {is | ∃ idx : ℕ, (idx : ℤ) < NEUTRINO_NTYPES ∧
            is ∈ ({[(iRho : ℤ), (iT : ℤ), (iYe : ℤ), (idx : ℤ)]} : Set (List ℤ))}}}} : Set (List ℤ)) := by
      intro is hi
      match is, hi with
      | [a, b, c, d], ⟨ha, hb, hc, hd, _⟩ =>
        refine .inr ⟨a.toNat, by omega, b.toNat, by omega, c.toNat, by omega, d.toNat, by omega, ?_⟩
        simp [Int.toNat_of_nonneg ha.1, Int.toNat_of_nonneg hb.1, Int.toNat_of_nonneg hc.1, Int.toNat_of_nonneg hd.1]
    have hD : ∀ is, InRange [NRho, NT, NYe, NEUTRINO_NTYPES, Ne] is →
        ∃ js, InRange [NRho, NT, NYe, NEUTRINO_NTYPES] js ∧ ∃ ie : ℕ, (ie : ℤ) < Ne ∧ is = js ++ [(ie : ℤ)] := by
      intro is hi
      match is, hi with
      | [a, b, c, d, e], ⟨ha, hb, hc, hd, he, _⟩ =>
        exact ⟨[a, b, c, d], ⟨ha, hb, hc, hd, trivial⟩, e.toNat, by omega, by simp [Int.toNat_of_nonneg he.1]⟩
    have hD' := fun is hi => (hD is hi).imp fun js h => And.imp_left (hE js) h
    exact ⟨h.dist.trans h.dist'.symm, h.pc.trans h.pc'.symm, h.lalphanu_.alike hD', h.ljnu_.alike hD',
      h.lJ_.alike hE, h.lJYe_.alike hE⟩

end Neutrinos.SpinerOpacity
end Opac
