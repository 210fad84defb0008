import Verif.Lemmas.Cells
import Verif.Lemmas.Table
import Verif.Model.SpinerOpac

/-! Every cell of a tabulated neutrino opacity holds the sampled value of its node. -/

namespace Opac.Neutrinos.SpinerOpacity
open Arith Outcome Spiner

set_option linter.unusedSectionVars false

variable {R : Type} [Arith R]

/-- a cell of one of the four tables -/
inductive Cell where
  | alpha (iRho iT iYe idx ie : ℕ)
  | j (iRho iT iYe idx ie : ℕ)
  | J (iRho iT iYe idx : ℕ)
  | N (iRho iT iYe idx : ℕ)

/-- the contents of a cell -/
def Cell.val (o : SpinerOpacity R) : Cell → Outcome R
  | .alpha a b c d e => o.lalphanu_.read [(a : ℤ), b, c, d, e]
  | .j a b c d e => o.ljnu_.read [(a : ℤ), b, c, d, e]
  | .J a b c d => o.lJ_.read [(a : ℤ), b, c, d]
  | .N a b c d => o.lJYe_.read [(a : ℤ), b, c, d]

/-- shapes, grids and constants as in `o₀` -/
structure Same (o₀ o : SpinerOpacity R) : Prop where
  dist : o.dist = o₀.dist
  pc : o.pc = o₀.pc
  a1 : o.lalphanu_.dims = o₀.lalphanu_.dims
  a2 : o.lalphanu_.grid = o₀.lalphanu_.grid
  j1 : o.ljnu_.dims = o₀.ljnu_.dims
  j2 : o.ljnu_.grid = o₀.ljnu_.grid
  J1 : o.lJ_.dims = o₀.lJ_.dims
  J2 : o.lJ_.grid = o₀.lJ_.grid
  N1 : o.lJYe_.dims = o₀.lJYe_.dims
  N2 : o.lJYe_.grid = o₀.lJYe_.grid

variable {pc : PC R} {opac : Sampled R} {Ne NRho NT NYe : ℤ} {o₀ : SpinerOpacity R}

/-- what the fill constructor must store in each cell, with the grids of `o₀` -/
def Entry (pc : PC R) (opac : Sampled R) (o₀ : SpinerOpacity R) : Cell → Outcome R → Prop
  | .alpha a b c d e, v => ∃ s x, Idx2RadType d = ok s ∧
      opac.AbsorptionCoefficient (fromLog_ ((o₀.lalphanu_.range 4).x a)) (fromLog_ ((o₀.lalphanu_.range 3).x b))
        ((o₀.lalphanu_.range 2).x c) s (MeV2Hz pc * fromLog_ ((o₀.lalphanu_.range 0).x e)) = ok x ∧
      v = ok (toLog_ (stdMax x (lit 0.0)))
  | .j a b c d e, v => ∃ s x, Idx2RadType d = ok s ∧
      opac.EmissivityPerNuOmega (fromLog_ ((o₀.lalphanu_.range 4).x a))
        (fromLog_ ((o₀.lalphanu_.range 3).x b) * MeV2K) ((o₀.lalphanu_.range 2).x c) s
        (MeV2Hz pc * fromLog_ ((o₀.lalphanu_.range 0).x e)) = ok x ∧
      v = ok (toLog_ (stdMax x (lit 0.0)))
  | .J a b c d, v => ∃ s x, Idx2RadType d = ok s ∧
      opac.Emissivity (fromLog_ ((o₀.lalphanu_.range 4).x a)) (fromLog_ ((o₀.lalphanu_.range 3).x b) * MeV2K)
        ((o₀.lalphanu_.range 2).x c) s = ok x ∧ v = ok (toLog_ (stdMax x (lit 0.0)))
  | .N a b c d, v => ∃ s x, Idx2RadType d = ok s ∧
      opac.NumberEmissivity (fromLog_ ((o₀.lalphanu_.range 4).x a)) (fromLog_ ((o₀.lalphanu_.range 3).x b) * MeV2K)
        ((o₀.lalphanu_.range 2).x c) s = ok x ∧ v = ok (toLog_ (stdMax x (lit 0.0)))

local notation "F" => Fills Cell.val (Same o₀) (Entry pc opac o₀)

theorem fillE_fills {a b c d : ℕ} {s : RadiationType} (hs : Idx2RadType d = ok s) (e : ℕ) (o o' : SpinerOpacity R)
    (ho : Same o₀ o)
    (h : fillE pc opac (fromLog_ ((o₀.lalphanu_.range 4).x a)) (fromLog_ ((o₀.lalphanu_.range 3).x b))
      ((o₀.lalphanu_.range 2).x c) s a b c d e o = ok o') :
    F {Cell.alpha a b c d e, Cell.j a b c d e} o o' := by
  unfold fillE at h
  simp only [bind_eq_ok] at h
  obtain ⟨x, hx, ta, hta, y, hy, tj, htj, h⟩ := h
  cases h
  have hr : (o.lalphanu_.range 0) = o₀.lalphanu_.range 0 := by simp only [DataBox.range, ho.a2]
  rw [hr] at hx hy
  have ra := fun js => read_write _ _ _ js _ hta
  have rj := fun js => read_write _ _ _ js _ htj
  refine ⟨⟨ho.dist, ho.pc, (ra []).1.trans ho.a1, (ra []).2.1.trans ho.a2, (rj []).1.trans ho.j1,
    (rj []).2.1.trans ho.j2, ho.J1, ho.J2, ho.N1, ho.N2⟩, ?_, ?_⟩
  · rintro q (rfl | rfl)
    · exact ⟨s, x, hs, hx, (ra []).2.2.1⟩
    · exact ⟨s, y, hs, hy, (rj []).2.2.1⟩
  · intro q hq
    simp only [Set.mem_insert_iff, Set.mem_singleton_iff, not_or] at hq
    cases q with
    | alpha a' b' c' d' e' =>
      refine (ra _).2.2.2 ?_
      intro heq
      simp only [List.cons.injEq, Nat.cast_inj, and_true] at heq
      obtain ⟨rfl, rfl, rfl, rfl, rfl⟩ := heq
      exact hq.1 rfl
    | j a' b' c' d' e' =>
      refine (rj _).2.2.2 ?_
      intro heq
      simp only [List.cons.injEq, Nat.cast_inj, and_true] at heq
      obtain ⟨rfl, rfl, rfl, rfl, rfl⟩ := heq
      exact hq.2 rfl
    | J _ _ _ _ => rfl
    | N _ _ _ _ => rfl

theorem fillIdx_fills {a b c : ℕ} (d : ℕ) (o o' : SpinerOpacity R) (ho : Same o₀ o)
    (h : fillIdx pc opac Ne (fromLog_ ((o₀.lalphanu_.range 4).x a)) (fromLog_ ((o₀.lalphanu_.range 3).x b))
      ((o₀.lalphanu_.range 2).x c) a b c d o = ok o') :
    F ({Cell.J a b c d, Cell.N a b c d} ∪
      {q | ∃ e : ℕ, (e : ℤ) < Ne ∧ q ∈ ({Cell.alpha a b c d e, Cell.j a b c d e} : Set Cell)}) o o' := by
  unfold fillIdx at h
  simp only [bind_eq_ok] at h
  obtain ⟨s, hs, x, hx, tJ, htJ, y, hy, tN, htN, h⟩ := h
  have rJ := fun js => read_write _ _ _ js _ htJ
  have rN := fun js => read_write _ _ _ js _ htN
  have h1 : F {Cell.J a b c d, Cell.N a b c d} o { o with lJ_ := tJ, lJYe_ := tN } := by
    refine ⟨⟨ho.dist, ho.pc, ho.a1, ho.a2, ho.j1, ho.j2, (rJ []).1.trans ho.J1, (rJ []).2.1.trans ho.J2,
      (rN []).1.trans ho.N1, (rN []).2.1.trans ho.N2⟩, ?_, ?_⟩
    · rintro q (rfl | rfl)
      · exact ⟨s, x, hs, hx, (rJ []).2.2.1⟩
      · exact ⟨s, y, hs, hy, (rN []).2.2.1⟩
    · intro q hq
      simp only [Set.mem_insert_iff, Set.mem_singleton_iff, not_or] at hq
      cases q with
      | alpha _ _ _ _ _ => rfl
      | j _ _ _ _ _ => rfl
      | J a' b' c' d' =>
        refine (rJ _).2.2.2 ?_
        intro heq
        simp only [List.cons.injEq, Nat.cast_inj, and_true] at heq
        obtain ⟨rfl, rfl, rfl, rfl⟩ := heq
        exact hq.1 rfl
      | N a' b' c' d' =>
        refine (rN _).2.2.2 ?_
        intro heq
        simp only [List.cons.injEq, Nat.cast_inj, and_true] at heq
        obtain ⟨rfl, rfl, rfl, rfl⟩ := heq
        exact hq.2 rfl
  exact h1.trans (loop_fills Ne _ _ (fun e _ t t' ht hb => fillE_fills hs e t t' ht hb) h1.inv h)

/-- the empty object at the start of the fill constructor -/
def emptyOpacity (dist : FermiDirac R) (pc : PC R) (junk : ℕ → ℕ → R) (lRhoMin lRhoMax : R) (NRho : ℤ)
    (lTMin lTMax : R) (NT : ℤ) (YeMin YeMax : R) (NYe : ℤ) (leMin leMax : R) (Ne : ℤ) : SpinerOpacity R :=
  let lalphanu := setup5 (junk 0) NRho NT NYe NEUTRINO_NTYPES Ne lRhoMin lRhoMax (lTMin + log10 K2MeV)
    (lTMax + log10 K2MeV) YeMin YeMax leMin leMax
  let lJ := setup4 (junk 2) NRho NT NYe NEUTRINO_NTYPES lRhoMin lRhoMax (lTMin + log10 K2MeV) (lTMax + log10 K2MeV)
    YeMin YeMax
  { dist := dist, pc := pc, lalphanu_ := lalphanu, ljnu_ := lalphanu.copyMetadata (junk 1), lJ_ := lJ,
    lJYe_ := lJ.copyMetadata (junk 3) }

theorem same_refl (o : SpinerOpacity R) : Same o o := ⟨rfl, rfl, rfl, rfl, rfl, rfl, rfl, rfl, rfl, rfl⟩

/-- all cells are filled -/
theorem fill_entries {dist : FermiDirac R} {junk : ℕ → ℕ → R} {lRhoMin lRhoMax lTMin lTMax YeMin YeMax leMin leMax : R}
    {o : SpinerOpacity R}
    (h : fill dist pc junk opac lRhoMin lRhoMax NRho lTMin lTMax NT YeMin YeMax NYe leMin leMax Ne = ok o)
    (he : o₀ = emptyOpacity dist pc junk lRhoMin lRhoMax NRho lTMin lTMax NT YeMin YeMax NYe leMin leMax Ne) :
    Same o₀ o ∧ ∀ a b c d : ℕ, (a : ℤ) < NRho → (b : ℤ) < NT → (c : ℤ) < NYe → d < 3 →
      Entry pc opac o₀ (.J a b c d) (Cell.val o (.J a b c d)) ∧
      Entry pc opac o₀ (.N a b c d) (Cell.val o (.N a b c d)) ∧
      ∀ e : ℕ, (e : ℤ) < Ne → Entry pc opac o₀ (.alpha a b c d e) (Cell.val o (.alpha a b c d e)) ∧
        Entry pc opac o₀ (.j a b c d e) (Cell.val o (.j a b c d e)) := by
  have h0 : Same o₀ o₀ := same_refl o₀
  have h' : forLoopM NRho (fun iRho o =>
    let rho := fromLog_ ((o.lalphanu_.range 4).x iRho)
    forLoopM NT (fun iT o =>
      let T := fromLog_ ((o.lalphanu_.range 3).x iT)
      forLoopM NYe (fun iYe o =>
        let Ye := (o.lalphanu_.range 2).x iYe
        forLoopM NEUTRINO_NTYPES (fillIdx pc opac Ne rho T Ye iRho iT iYe) o) o) o) o₀ = ok o := by
    rw [he]; exact h
  have L := loop_fills (val := Cell.val) (I := Same o₀) (E := Entry pc opac o₀) NRho _ (fun a => {q | ∃ b : ℕ, (b : ℤ) < NT ∧ q ∈ {q | ∃ c : ℕ, (c : ℤ) < NYe ∧ q ∈
      {q | ∃ d : ℕ, (d : ℤ) < NEUTRINO_NTYPES ∧ q ∈ ({Cell.J a b c d, Cell.N a b c d} ∪
        {q | ∃ e : ℕ, (e : ℤ) < Ne ∧ q ∈ ({Cell.alpha a b c d e, Cell.j a b c d e} : Set Cell)})}}}) (by
    intro a _ t t' ht hb
    have r4 : t.lalphanu_.range 4 = o₀.lalphanu_.range 4 := by simp only [DataBox.range, ht.a2]
    simp only [r4] at hb
    refine loop_fills NT _ _ ?_ ht hb
    intro b _ t t' ht hb
    have r3 : t.lalphanu_.range 3 = o₀.lalphanu_.range 3 := by simp only [DataBox.range, ht.a2]
    simp only [r3] at hb
    refine loop_fills NYe _ _ ?_ ht hb
    intro c _ t t' ht hb
    have r2 : t.lalphanu_.range 2 = o₀.lalphanu_.range 2 := by simp only [DataBox.range, ht.a2]
    simp only [r2] at hb
    exact loop_fills NEUTRINO_NTYPES _ _ (fun d _ t t' ht hb => fillIdx_fills d t t' ht hb) ht hb) h0 h'
  refine ⟨L.inv, fun a b c d ha hb hc hd => ⟨L.done _ ?_, L.done _ ?_, fun e he => ⟨L.done _ ?_, L.done _ ?_⟩⟩⟩
  · exact ⟨a, ha, b, hb, c, hc, d, by unfold NEUTRINO_NTYPES; omega, .inl (.inl rfl)⟩
  · exact ⟨a, ha, b, hb, c, hc, d, by unfold NEUTRINO_NTYPES; omega, .inl (.inr rfl)⟩
  · exact ⟨a, ha, b, hb, c, hc, d, by unfold NEUTRINO_NTYPES; omega, .inr ⟨e, he, .inl rfl⟩⟩
  · exact ⟨a, ha, b, hb, c, hc, d, by unfold NEUTRINO_NTYPES; omega, .inr ⟨e, he, .inr rfl⟩⟩

/-- the constructor returns if the sampled opacity answers all its questions -/
theorem fill_returns {dist : FermiDirac R} {junk : ℕ → ℕ → R}
    {lRhoMin lRhoMax lTMin lTMax YeMin YeMax leMin leMax : R}
    (h1 : ∀ rho T Ye s, ∃ v, opac.Emissivity rho T Ye s = ok v)
    (h2 : ∀ rho T Ye s, ∃ v, opac.NumberEmissivity rho T Ye s = ok v)
    (h3 : ∀ rho T Ye s nu, ∃ v, opac.AbsorptionCoefficient rho T Ye s nu = ok v)
    (h4 : ∀ rho T Ye s nu, ∃ v, opac.EmissivityPerNuOmega rho T Ye s nu = ok v) :
    ∃ o, fill dist pc junk opac lRhoMin lRhoMax NRho lTMin lTMax NT YeMin YeMax NYe leMin leMax Ne = ok o := by
  choose fJ hJ using h1
  choose fN hN using h2
  choose fx hx using h3
  choose fy hy using h4
  set o₁ := emptyOpacity dist pc junk lRhoMin lRhoMax NRho lTMin lTMax NT YeMin YeMax NYe leMin leMax Ne with he
  have dJ : o₁.lJ_.dims = [NRho, NT, NYe, 3] := rfl
  have dN : o₁.lJYe_.dims = [NRho, NT, NYe, 3] := rfl
  have da : o₁.lalphanu_.dims = [NRho, NT, NYe, 3, Ne] := rfl
  have dj : o₁.ljnu_.dims = [NRho, NT, NYe, 3, Ne] := rfl
  have := loop_ok (I := Same o₁) NRho (fun iRho o =>
    let rho := fromLog_ ((o.lalphanu_.range 4).x iRho)
    forLoopM NT (fun iT o =>
      let T := fromLog_ ((o.lalphanu_.range 3).x iT)
      forLoopM NYe (fun iYe o =>
        let Ye := (o.lalphanu_.range 2).x iYe
        forLoopM NEUTRINO_NTYPES (fillIdx pc opac Ne rho T Ye iRho iT iYe) o) o) o) (by
    intro a ha t ht
    refine loop_ok NT _ ?_ ht
    intro b hb t ht
    refine loop_ok NYe _ ?_ ht
    intro c hc t ht
    refine loop_ok NEUTRINO_NTYPES _ ?_ ht
    intro d hd t ht
    have hd3 : (d : ℤ) < 3 := hd
    have hs : ∃ s, Idx2RadType d = ok s := by
      have : d = 0 ∨ d = 1 ∨ d = 2 := by omega
      rcases this with rfl | rfl | rfl
      · exact ⟨_, rfl⟩
      · exact ⟨_, rfl⟩
      · exact ⟨_, rfl⟩
    obtain ⟨s, hs⟩ := hs
    have rg : InRange [NRho, NT, NYe, 3] [(a : ℤ), b, c, d] :=
      ⟨⟨by omega, ha⟩, ⟨by omega, hb⟩, ⟨by omega, hc⟩, ⟨by omega, hd⟩, trivial⟩
    choose wJ hwJ using fun v => write_ok t.lJ_ [(a : ℤ), b, c, d] v (ht.J1.trans dJ ▸ rg)
    choose wN hwN using fun v => write_ok t.lJYe_ [(a : ℤ), b, c, d] v (ht.N1.trans dN ▸ rg)
    simp only [fillIdx, hs, ok_bind, hJ, hN, hwJ, hwN]
    refine loop_ok Ne _ ?_ ⟨ht.dist, ht.pc, ht.a1, ht.a2, ht.j1, ht.j2, (read_write _ _ _ [] _ (hwJ _)).1.trans ht.J1,
      (read_write _ _ _ [] _ (hwJ _)).2.1.trans ht.J2, (read_write _ _ _ [] _ (hwN _)).1.trans ht.N1,
      (read_write _ _ _ [] _ (hwN _)).2.1.trans ht.N2⟩
    intro e he t ht
    have rg : InRange [NRho, NT, NYe, 3, Ne] [(a : ℤ), b, c, d, e] :=
      ⟨⟨by omega, ha⟩, ⟨by omega, hb⟩, ⟨by omega, hc⟩, ⟨by omega, hd⟩, ⟨by omega, he⟩, trivial⟩
    choose wa hwa using fun v => write_ok t.lalphanu_ [(a : ℤ), b, c, d, e] v (ht.a1.trans da ▸ rg)
    choose wj hwj using fun v => write_ok t.ljnu_ [(a : ℤ), b, c, d, e] v (ht.j1.trans dj ▸ rg)
    simp only [fillE, hx, ok_bind, hwa, hy, hwj, pure_def]
    refine ⟨_, rfl, ⟨ht.dist, ht.pc, (read_write _ _ _ [] _ (hwa _)).1.trans ht.a1,
      (read_write _ _ _ [] _ (hwa _)).2.1.trans ht.a2, (read_write _ _ _ [] _ (hwj _)).1.trans ht.j1,
      (read_write _ _ _ [] _ (hwj _)).2.1.trans ht.j2, ht.J1, ht.J2, ht.N1, ht.N2⟩⟩) (same_refl o₁)
  obtain ⟨o, h, _⟩ := this
  exact ⟨o, h⟩

end Opac.Neutrinos.SpinerOpacity
