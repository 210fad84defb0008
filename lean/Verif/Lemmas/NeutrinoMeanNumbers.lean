import Verif.Lemmas.MeanNumbers
import Verif.Lemmas.NeutrinoMeans

/-! Neutrino means in double precision are never NaN. -/

namespace Opac.Doubles
open Arith Neutrinos MeanTables Spiner Outcome

theorem toLog_eq (a : IE binary64) : toLog_ a = Photons.ToLog a := by
  unfold toLog_ Photons.ToLog
  norm_num

theorem weight_nn {a : IE binary64} (h : OrdinaryWeight a) : Nn 500 a := by
  obtain ⟨x, rfl, h0, h1⟩ := h
  exact ⟨x, rfl, h0, h1⟩

theorem weight_of_nn {a : IE binary64} (h : Nn 500 a) : OrdinaryWeight a := by
  obtain ⟨x, e, h0, h1⟩ := h
  exact ⟨x, dbl_of_val e, h0, h1⟩

/-! ### the Fermi-Dirac spectrum -/

section fermi
variable {d : FermiDirac ℝ} (hpc : CgsSized d.pc) {T nu : IE binary64} {T' nu' : Fl rd64}

theorem fermi_nn {n : ℤ} (hn0 : 0 ≤ n) (hn : n ≤ 16) {pc : PC ℝ} (hpc : CgsSized pc) (sT : Sim (-20) 45 T T')
    (sn : Sim (-20) 101 nu nu') :
    Nn 500 (FermiDirac.ThermalDistributionOfTNu ⟨n, pc.dbl⟩ T nu) ∧
      Nn 500 (FermiDirac.DThermalDistributionOfTNuDT ⟨n, pc.dbl⟩ T nu) := by
  have sx : Sim (-105) 97 (pc.dbl.h * nu / (pc.dbl.kb * T)) ((fl pc).h * nu' / ((fl pc).kb * T')) :=
    (((sh hpc).mul sn).div ((skb hpc).mul sT)).mono (by norm_num) (by norm_num)
  have sN : Nn 4 (lit (n : ℚ) : IE binary64) := by
    refine ⟨n, lit_int hn0 (by omega), by exact_mod_cast hn0, ?_⟩
    have : (n : ℝ) ≤ 16 := by exact_mod_cast hn
    linarith [show (2 : ℝ) ^ (4 : ℤ) = 16 by norm_num]
  constructor
  · show Nn 500 (lit (n : ℚ) * (lit 2 * pc.dbl.h * nu * nu * nu / (pc.dbl.c * pc.dbl.c)) * lit 1 /
      (Arith.exp (pc.dbl.h * nu / (pc.dbl.kb * T)) + lit 1))
    have sA := (sN.mul (Nn.sim (((((Sim.lit 2 1 1).mul (sh hpc)).mul sn).mul sn).mul sn |>.div ((sc hpc).mul (sc hpc))))).mul
      (Nn.sim (Sim.lit 1 0 0))
    generalize (lit (n : ℚ) * (lit 2 * pc.dbl.h * nu * nu * nu / (pc.dbl.c * pc.dbl.c)) * lit 1 : IE binary64) = A at sA
    have hs : (Arith.exp (pc.dbl.h * nu / (pc.dbl.kb * T)) + lit 1 : IE binary64).val = .pinf ∨
        ∃ z, 1 ≤ z ∧ (Arith.exp (pc.dbl.h * nu / (pc.dbl.kb * T)) + lit 1 : IE binary64).val = .fin z := by
      have h1 : (lit 1 : IE binary64).val = .fin 1 := by
        have := lit_nat (n := 1) (by norm_num); simpa using this
      have he : (Arith.exp (pc.dbl.h * nu / (pc.dbl.kb * T)) : IE binary64).val =
          binary64.exp ((fl pc).h * nu' / ((fl pc).kb * T')).val := by
        show XR.lift binary64.exp (.fin 0) .pinf (pc.dbl.h * nu / (pc.dbl.kb * T)).val = _
        rw [sx.1]; rfl
      rcases binary64.exp_pos _ sx.pos.le with h | ⟨y, hy, h⟩
      · left
        show IE.round binary64 (XR.add (Arith.exp (pc.dbl.h * nu / (pc.dbl.kb * T)) : IE binary64).val (lit 1 : IE binary64).val) = _
        rw [he, h, h1]; rfl
      · have hv : (Arith.exp (pc.dbl.h * nu / (pc.dbl.kb * T)) + lit 1 : IE binary64).val = binary64.rd (y + 1) :=
          add_val (he.trans h) h1
        rw [hv]
        exact double64.rd_ge_one (by linarith)
    generalize (Arith.exp (pc.dbl.h * nu / (pc.dbl.kb * T)) + lit 1 : IE binary64) = D at hs
    obtain ⟨x, ex, x0, hx⟩ := sA
    rcases hs with e | ⟨z, hz, e⟩
    · refine ⟨0, ?_, le_rfl, by positivity⟩
      show IE.round binary64 (XR.div A.val D.val) = _
      rw [ex, e]
      exact binary64.rd_zero
    · refine Nn.round (x := x / z) (by positivity) ?_ (by norm_num) (by norm_num) ?_
      · exact (div_le_self x0 hz).trans (hx.trans (zle (by norm_num)))
      · show IE.round binary64 (XR.div A.val D.val) = _
        rw [ex, e]
        have : z ≠ 0 := by positivity
        simp [XR.div, this, IE.round]
  · unfold FermiDirac.DThermalDistributionOfTNuDT
    have se := Nn.exp_neg sx
    have sp := sN.mul (Nn.sim (((((((Sim.lit 2 1 1).mul (sh hpc)).mul (sh hpc)).mul sn).mul sn).mul sn).mul sn |>.div
      ((((sT.mul sT).mul (sc hpc)).mul (sc hpc)).mul (skb hpc))))
    have sd : ∃ b, Sim 0 1 (lit 1 + Arith.exp (-(pc.dbl.h * nu / (pc.dbl.kb * T))) : IE binary64) b := by
      obtain ⟨y, ey, y0, y1⟩ := se
      have h1 : (lit 1 : IE binary64).val = .fin 1 := by
        have := lit_nat (n := 1) (by norm_num); simpa using this
      refine ⟨_, Sim.round (x := 1 + y) ⟨by simpa using y0, ?_⟩ (by norm_num) (by norm_num) (add_val h1 ey)⟩
      simp at y1 ⊢
      linarith
    obtain ⟨b, sd⟩ := sd
    exact ((sp.mul se).div (sd.mul sd)).mono (by norm_num)

end fermi

/-! ### sums -/

/-- four sums of `i` terms -/
structure AccSums (i : ℕ) (s : Sums (IE binary64)) : Prop where
  pn : Acc 960 i s.planckNum
  pd : Acc 960 i s.planckDenom
  rn : Acc 960 i s.rosselandNum
  rd : Acc 960 i s.rosselandDenom

theorem AccSums.zero : AccSums 0 Sums.zero := ⟨Acc.zero, Acc.zero, Acc.zero, Acc.zero⟩

theorem AccSums.step {i : ℕ} {s : Sums (IE binary64)} (h : AccSums i s) (hi : i + 1 ≤ 2 ^ 32) {rho alpha B D nu dl : IE binary64}
    {rho' nu' : Fl rd64} (sr : Sim (-60) 60 rho rho') (ha : OrdinaryOpacity alpha) (hB : Nn 500 B) (hD : Nn 500 D)
    (sn : Sim (-20) 101 nu nu') (hd : Nn 10 dl) : AccSums (i + 1) (addSample rho alpha B D nu dl s) := by
  have sn' := Nn.sim sn
  refine ⟨?_, ?_, ?_, ?_⟩
  · exact h.pn.add ((((((ordinary_nn ha).div sr).mul hB).mul sn').mul hd).mono (by norm_num)) hi (by norm_num) (by norm_num)
  · exact h.pd.add (((hB.mul sn').mul hd).mono (by norm_num)) hi (by norm_num) (by norm_num)
  · show Acc 960 (i + 1) (if gt alpha Robust.SMALL = true then _ else _)
    split_ifs with hg
    · obtain ⟨b', sa⟩ := ordinary_pos ha hg
      exact h.rn.add (((((Nn.sim (ratio_sim sr sa)).mul hD).mul sn').mul hd).mono (by norm_num)) hi (by norm_num) (by norm_num)
    · exact h.rn.mono (by omega)
  · show Acc 960 (i + 1) (if gt alpha Robust.SMALL = true then _ else _)
    split_ifs with hg
    · exact h.rd.add (((hD.mul sn').mul hd).mono (by norm_num)) hi (by norm_num) (by norm_num)
    · exact h.rd.mono (by omega)

theorem AccSums.number {i : ℕ} {s : Sums (IE binary64)} (h : AccSums i s) (hi : i ≤ 2 ^ 32) :
    isNaN (toLog_ (means s).1) = false ∧ isNaN (toLog_ (means s).2) = false := by
  rw [toLog_eq, toLog_eq]
  have r := ratio_number (h.pn.nn hi) (h.pd.nn hi) (by norm_num)
  refine ⟨toLog_number r, ?_⟩
  show isNaN (Photons.ToLog (if _ then _ else _)) = false
  split_ifs
  · exact toLog_number (ratio_number (h.rd.nn hi) (h.rn.nn hi) (by norm_num))
  · exact toLog_number (.inr ⟨0, le_rfl, lit0_ie⟩)

/-! ### tables -/

theorem type_ok {d : ℕ} (hd : d < 3) : ∃ s, Idx2RadType d = ok s := by
  have : d = 0 ∨ d = 1 ∨ d = 2 := by omega
  rcases this with rfl | rfl | rfl
  · exact ⟨_, rfl⟩
  · exact ⟨_, rfl⟩
  · exact ⟨_, rfl⟩

section tables
variable {o : Sampler (IE binary64)} {l1 l2 : IE binary64} {y1 y2 : ℝ} {NNu : ℤ} {lRhoMin lRhoMax lTMin lTMax YeMin YeMax : ℝ}
  {NRho NT NYe : ℤ} {junk : ℕ → ℕ → IE binary64}

/-- the fresh tables -/
noncomputable abbrev fresh (junk : ℕ → ℕ → IE binary64) (lRhoMin lRhoMax : ℝ) (NRho : ℤ) (lTMin lTMax : ℝ) (NT : ℤ) (YeMin YeMax : ℝ) (NYe : ℤ) :=
  setup junk (dbl lRhoMin) (dbl lRhoMax) NRho (dbl lTMin) (dbl lTMax) NT (dbl YeMin) (dbl YeMax) NYe

/-- a node of the Ye axis -/
theorem ye_node {N : ℤ} {lo hi : ℝ} (h : OrdinaryAxis (-40) 40 lo hi N) {i : ℕ} (hi' : (i : ℤ) < N) :
    ∃ v, (⟨dbl lo, dbl hi, N⟩ : Grid (IE binary64)).x i = dbl v ∧ lo - 1e-9 ≤ v ∧ v ≤ hi + 1e-9 := by
  have h2 := h.two
  obtain ⟨d, ed, d0, d7, hd⟩ := line h.order (by linarith [h.lower]) (by linarith [h.upper]) (A := dbl lo) (B := dbl hi) rfl rfl
    (N := N - 1) (by omega) (by linarith [h.fits])
  obtain ⟨p, ep, v, ev, v1, v2⟩ := hd (lit_nat (n := i) (by have := h.fits; omega)) (by positivity) (by
    have : (i : ℤ) ≤ N - 1 := by omega
    exact_mod_cast this)
  refine ⟨v, dbl_of_val ?_, v1, v2⟩
  show (lit (i : ℚ) * ((dbl hi - dbl lo) / lit ((N : ℚ) - 1)) + dbl lo : IE binary64).val = _
  have e1 : ((N : ℚ) - 1) = ((N - 1 : ℤ) : ℚ) := by push_cast; ring
  rw [e1, add_val ep (show (dbl lo).val = .fin lo from rfl), add_comm p lo]
  exact ev

variable (hr : OrdinaryAxis (-18) 18 lRhoMin lRhoMax NRho) (hT : OrdinaryAxis (-6) 13.5 lTMin lTMax NT)
  (hY : OrdinaryAxis (-40) 40 YeMin YeMax NYe) (ho : OrdinarySource YeMin YeMax o.coef o.B o.dBdT)
  (e1 : l1.val = .fin y1) (e2 : l2.val = .fin y2) (hy : y1 ≤ y2) (h1 : -6.01 ≤ y1) (h2 : y2 ≤ 30.39) (hN : 1 ≤ NNu)
  (hN' : NNu ≤ 2 ^ 31)

include hr hT hY ho e1 e2 hy h1 h2 hN hN'

theorem cell_step {a b c : ℕ} (ha : (a : ℤ) < NRho) (hb : (b : ℤ) < NT) (hc : (c : ℤ) < NYe) {t : MeanTables (IE binary64)}
    (ht : Same (fresh junk lRhoMin lRhoMax NRho lTMin lTMax NT YeMin YeMax NYe) t) (ty : RadiationType) {inu : ℕ}
    (hi : (inu : ℤ) < NNu) {s : Sums (IE binary64)} (hs : AccSums inu s) :
    ∃ al, o.coef (fromLog_ ((t.lPlanck.range 3).x a)) (fromLog_ ((t.lPlanck.range 2).x b)) ((t.lPlanck.range 1).x c) ty
        (sampleNu l1 l2 NNu inu) = ok al ∧
      AccSums (inu + 1) (addSample (fromLog_ ((t.lPlanck.range 3).x a)) al
        (o.B (fromLog_ ((t.lPlanck.range 2).x b)) ty (sampleNu l1 l2 NNu inu))
        (o.dBdT (fromLog_ ((t.lPlanck.range 2).x b)) ty (sampleNu l1 l2 NNu inu)) (sampleNu l1 l2 NNu inu)
        ((l2 - l1) / lit NNu) s) := by
  have g3 : t.lPlanck.range 3 = ⟨dbl lRhoMin, dbl lRhoMax, NRho⟩ := by rw [ranges_eq ht]; rfl
  have g2 : t.lPlanck.range 2 = ⟨dbl lTMin, dbl lTMax, NT⟩ := by rw [ranges_eq ht]; rfl
  have g1 : t.lPlanck.range 1 = ⟨dbl YeMin, dbl YeMax, NYe⟩ := by rw [ranges_eq ht]; rfl
  rw [g1, g2, g3]
  obtain ⟨br, sr⟩ := node_sim hr (l := -60) (u := 60) (by norm_num) (by norm_num) (by norm_num) (by norm_num) (by norm_num)
    (by norm_num) (by norm_num) (by norm_num) ha
  obtain ⟨bT, sT⟩ := node_sim hT (l := -20) (u := 45) (by norm_num) (by norm_num) (by norm_num) (by norm_num) (by norm_num)
    (by norm_num) (by norm_num) (by norm_num) hb
  obtain ⟨v, ev, v1, v2⟩ := ye_node hY hc
  obtain ⟨hd, hp⟩ := points e1 e2 hy h1 h2 hN hN'
  obtain ⟨bn, sn⟩ := hp inu hi
  have er := dbl_of_val sr.1
  have eT := dbl_of_val sT.1
  have en := dbl_of_val sn.1
  obtain ⟨al, hal, oal⟩ := ho.coef _ _ _ ty _ sr.2 sT.2 v1 v2 sn.2
  have hB := weight_nn (ho.spectrum _ ty _ sT.2 sn.2)
  have hD := weight_nn (ho.derivative _ ty _ sT.2 sn.2)
  rw [← eT, ← en] at hB hD
  rw [← er, ← eT, ← en, ← ev] at hal
  exact ⟨al, hal, hs.step (by omega) sr oal hB hD sn hd⟩

theorem cell_returns {a b c d : ℕ} (ha : (a : ℤ) < NRho) (hb : (b : ℤ) < NT) (hc : (c : ℤ) < NYe) (hd : d < 3)
    {t : MeanTables (IE binary64)} (ht : Same (fresh junk lRhoMin lRhoMax NRho lTMin lTMax NT YeMin YeMax NYe) t) :
    ∃ t', fillCell o l1 l2 NNu a b c d t = ok t' ∧
      Same (fresh junk lRhoMin lRhoMax NRho lTMin lTMax NT YeMin YeMax NYe) t' := by
  obtain ⟨ty, hty⟩ := type_ok hd
  obtain ⟨n, rfl⟩ := Int.eq_ofNat_of_zero_le (show 0 ≤ NNu by omega)
  obtain ⟨s, hs, hacc⟩ := forLoopM_inv n (fun inu s =>
      let nu := sampleNu l1 l2 (n : ℤ) inu
      (o.coef (fromLog_ ((t.lPlanck.range 3).x a)) (fromLog_ ((t.lPlanck.range 2).x b)) ((t.lPlanck.range 1).x c) ty nu).map' (fun alpha =>
        addSample (fromLog_ ((t.lPlanck.range 3).x a)) alpha (o.B (fromLog_ ((t.lPlanck.range 2).x b)) ty nu)
          (o.dBdT (fromLog_ ((t.lPlanck.range 2).x b)) ty nu) nu ((l2 - l1) / lit (n : ℤ)) s)) AccSums Sums.zero AccSums.zero (by
    intro i hi s hs
    obtain ⟨al, h3, h4⟩ := cell_step hr hT hY ho e1 e2 hy h1 h2 hN hN' ha hb hc ht ty (by exact_mod_cast hi) hs
    refine ⟨_, ?_, h4⟩
    simp only [h3, map'_ok])
  obtain ⟨k1, k2⟩ := hacc.number (by omega)
  obtain ⟨t', ht'⟩ := store_returns (t := t) (ht.p1) (ht.r1) ha hb hc hd k1 k2
  refine ⟨t', ?_, (store_effect ht ht').1⟩
  have hs' : cellSums o (fromLog_ ((t.lPlanck.range 3).x a)) (fromLog_ ((t.lPlanck.range 2).x b)) ((t.lPlanck.range 1).x c) ty
    l1 l2 (n : ℤ) = ok s := hs
  simp only [fillCell, hty, ok_bind, hs', ht']

theorem cellS_returns {a b c d : ℕ} (ha : (a : ℤ) < NRho) (hb : (b : ℤ) < NT) (hc : (c : ℤ) < NYe) (hd : d < 3)
    {t : MeanTables (IE binary64)} (ht : Same (fresh junk lRhoMin lRhoMax NRho lTMin lTMax NT YeMin YeMax NYe) t) :
    ∃ t', fillCellS o l1 l2 NNu a b c d t = ok t' ∧
      Same (fresh junk lRhoMin lRhoMax NRho lTMin lTMax NT YeMin YeMax NYe) t' := by
  obtain ⟨ty, hty⟩ := type_ok hd
  obtain ⟨n, rfl⟩ := Int.eq_ofNat_of_zero_le (show 0 ≤ NNu by omega)
  obtain ⟨r, hs, hacc, hsame⟩ := forLoopM_inv n (fun inu (st : Sums (IE binary64) × MeanTables (IE binary64)) => do
      let nu := sampleNu l1 l2 (n : ℤ) inu
      let alpha ← o.coef (fromLog_ ((t.lPlanck.range 3).x a)) (fromLog_ ((t.lPlanck.range 2).x b)) ((t.lPlanck.range 1).x c) ty nu
      let s := addSample (fromLog_ ((t.lPlanck.range 3).x a)) alpha (o.B (fromLog_ ((t.lPlanck.range 2).x b)) ty nu)
          (o.dBdT (fromLog_ ((t.lPlanck.range 2).x b)) ty nu) nu ((l2 - l1) / lit (n : ℤ)) st.1
      let t ← store a b c d (means s) st.2
      return (s, t)) (fun i st => AccSums i st.1 ∧ Same (fresh junk lRhoMin lRhoMax NRho lTMin lTMax NT YeMin YeMax NYe) st.2)
      (Sums.zero, t) ⟨AccSums.zero, ht⟩ (by
    intro i hi st ⟨hs, hsame⟩
    obtain ⟨al, h3, h4⟩ := cell_step hr hT hY ho e1 e2 hy h1 h2 hN hN' ha hb hc ht ty (by exact_mod_cast hi) hs
    obtain ⟨k1, k2⟩ := h4.number (by omega)
    obtain ⟨t', ht'⟩ := store_returns (t := st.2) (hsame.p1) (hsame.r1) ha hb hc hd k1 k2
    refine ⟨(_, t'), ?_, h4, (store_effect hsame ht').1⟩
    simp only [h3, ok_bind, ht', pure_def]
    rfl)
  refine ⟨r.2, ?_, hsame⟩
  simp only [fillCellS, hty, ok_bind]
  rw [hs]
  rfl

end tables

end Opac.Doubles
