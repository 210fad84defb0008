import Verif.Lemmas.DoublesPhotons
import Verif.Lemmas.AccuracyScattering

/-! Scattering opacities in double precision. -/

namespace Opac.Doubles
open Arith Accuracy

/-- arguments of a scattering opacity in code units, converted -/
theorem convS {D : Domain} {t m l te : ℝ} (hu : UnitSized t m l te)
    (hD : (∀ x, D.dens x → Bits (-60) 60 x) ∧ (∀ x, D.temp x → Bits (-20) 60 x) ∧ ∀ T x, D.freq T x → Bits (-20) 100 x)
    {rho T nu : IE binary64} {rho' T' nu' : Fl rd64} {ρ T₀ ν : ℝ} (hρ : Near 4 rho rho' ρ) (hT : Near 4 T T' T₀)
    (hn : Near 4 nu nu' ν) (dρ : (D.inUnits t m l te).dens ρ) (dT : (D.inUnits t m l te).temp T₀)
    (dn : (D.inUnits t m l te).freq T₀ ν) :
    Near 8 (dbl m / (dbl l * dbl l * dbl l) * rho) (⟨m⟩ / (⟨l⟩ * ⟨l⟩ * ⟨l⟩) * rho') (m / l ^ 3 * ρ) ∧
    Near 8 (dbl te * T) (⟨te⟩ * T') (T₀ * te) ∧
    Near 8 (nu * (lit 1 / dbl t)) (nu' * (lit 1 / ⟨t⟩)) (ν / t) := by
  have hr := rd64_binary
  have st : Sim (-40) 40 (dbl t) (⟨t⟩ : Fl rd64) := ⟨rfl, hu.time⟩
  have sm : Sim (-120) 120 (dbl m) (⟨m⟩ : Fl rd64) := ⟨rfl, hu.mass⟩
  have sl : Sim (-60) 60 (dbl l) (⟨l⟩ : Fl rd64) := ⟨rfl, hu.length⟩
  have ste : Sim (-40) 40 (dbl te) (⟨te⟩ : Fl rd64) := ⟨rfl, hu.temp⟩
  have pt := PF.exact (rd := rd64) (u := u64) ⟨t⟩ st.pos
  have pm := PF.exact (rd := rd64) (u := u64) ⟨m⟩ sm.pos
  have pl := PF.exact (rd := rd64) (u := u64) ⟨l⟩ sl.pos
  have nrho : Near 3 (dbl m / (dbl l * dbl l * dbl l)) (⟨m⟩ / (⟨l⟩ * ⟨l⟩ * ⟨l⟩) : Fl rd64) (m / l ^ 3) := by
    refine ⟨(sm.div ((sl.mul sl).mul sl)).1, ?_⟩
    have := pm.div hr ((pl.mul hr pl).mul hr pl)
    rw [show m / (l * l * l) = m / l ^ 3 by ring_nf] at this
    exact this.mono hr (by norm_num)
  have nfreq : Near 1 (lit 1 / dbl t) (lit 1 / ⟨t⟩ : Fl rd64) (1 / t) := by
    refine ⟨((Sim.lit 1 0 0).div st).1, ?_⟩
    have := (PF.int hr 1 1 (by norm_num) (by norm_num) (by norm_num)).div hr pt
    rw [show (lit 1 : ℝ) = 1 by simp [areal]] at this
    exact this.mono hr (by norm_num)
  refine ⟨(nrho.mul hρ (l := -60) (h := 60) (hD.1 _ dρ)).mono (by norm_num), ?_, ?_⟩
  · have := (Near.exact te ste.pos).mul hT (l := -20) (h := 60) (by rw [mul_comm]; exact hD.2.1 _ dT)
    rw [mul_comm te T₀] at this
    exact this.mono (by norm_num)
  · have e : ν * (1 / t) = ν / t := by ring
    have := hn.mul nfreq (l := -20) (h := 100) (by rw [e]; exact hD.2.2 _ _ dn)
    rw [e] at this
    exact this.mono (by norm_num)

section photons
open Photons

/-- the double-precision run of a scattering opacity is the rounded run -/
def SafeS (k : ℝ) {O O' : Type} (i : PhotonSAPI (IE binary64) O) (i' : PhotonSAPI (Fl rd64) O') (o : O) (o' : O')
    (D : Domain) (L H : ℤ) : Prop :=
  ∀ ⦃rho T nu mu : IE binary64⦄ ⦃rho' T' nu' mu' : Fl rd64⦄ ⦃ρ T₀ ν : ℝ⦄, Near k rho rho' ρ → Near k T T' T₀ →
    Near k nu nu' ν → D.dens ρ → D.temp T₀ → D.freq T₀ ν →
    Sim L H (i.TotalCrossSection o rho T nu) (i'.TotalCrossSection o' rho' T' nu') ∧
    Sim L H (i.DifferentialCrossSection o rho T nu mu) (i'.DifferentialCrossSection o' rho' T' nu' mu') ∧
    Sim L H (i.TotalScatteringCoefficient o rho T nu) (i'.TotalScatteringCoefficient o' rho' T' nu')

/-- everything known of a pair of the specification -/
structure GoodS {O O' : Type} (i : PhotonSAPI (IE binary64) O) (i' : PhotonSAPI ℝ O') (o : O) (o' : O') (n : ℕ)
    (D : Domain) : Prop where
  le_one : n ≤ 1
  dens_pos : ∀ x, D.dens x → 0 < x
  temp_pos : ∀ x, D.temp x → 0 < x
  freq_pos : ∀ T x, D.freq T x → 0 < x
  size : n = 0 → (∀ x, D.dens x → Bits (-60) 60 x) ∧ (∀ x, D.temp x → Bits (-20) 60 x) ∧ ∀ T x, D.freq T x → Bits (-20) 100 x
  mid : ∃ (O'' : Type) (i'' : PhotonSAPI (Fl rd64) O'') (o'' : O'') (S : ℝ), AccS u64 i'' i' o'' o' n S ∧
    SafeS 4 i i'' o o'' D (-1000) 1000 ∧ (n = 0 → SafeS 8 i i'' o o'' D (-800) 800) ∧ S ≤ 5

theorem SafeS.weaken {O O'' : Type} {i : PhotonSAPI (IE binary64) O} {i'' : PhotonSAPI (Fl rd64) O''} {o : O} {o'' : O''}
    {D : Domain} (H : SafeS 8 i i'' o o'' D (-800) 800) : SafeS 4 i i'' o o'' D (-1000) 1000 := by
  intro rho T nu mu rho' T' nu' mu' ρ T₀ ν h1 h2 h3 d1 d2 d3
  obtain ⟨a, b, c⟩ := H (mu := mu) (mu' := mu') (h1.mono (by norm_num)) (h2.mono (by norm_num)) (h3.mono (by norm_num)) d1 d2 d3
  exact ⟨a.mono (by norm_num) (by norm_num), b.mono (by norm_num) (by norm_num), c.mono (by norm_num) (by norm_num)⟩

theorem cgs_goodS {O O' O'' : Type} {i : PhotonSAPI (IE binary64) O} {i' : PhotonSAPI ℝ O'} {o : O} {o' : O'} {D : Domain}
    {i'' : PhotonSAPI (Fl rd64) O''} {o'' : O''} {S : ℝ} (A : AccS u64 i'' i' o'' o' 0 S)
    (B : SafeS 8 i i'' o o'' D (-800) 800) (hS : S ≤ 5) (d1 : ∀ x, D.dens x → scatteringDomain.dens x)
    (d2 : ∀ x, D.temp x → scatteringDomain.temp x) (d3 : ∀ T x, D.freq T x → scatteringDomain.freq T x) :
    GoodS i i' o o' 0 D where
  le_one := by norm_num
  dens_pos x h := Bits.pos (d1 x h)
  temp_pos x h := Bits.pos (d2 x h)
  freq_pos T x h := Bits.pos (d3 T x h)
  size _ := ⟨d1, d2, d3⟩
  mid := ⟨O'', i'', o'', S, A, B.weaken, fun _ => B, hS⟩

theorem doubledS_good {O O' : Type} {i : PhotonSAPI (IE binary64) O} {i' : PhotonSAPI ℝ O'} {o : O} {o' : O'} {n : ℕ}
    {D : Domain} (H : DoubledS O O' i i' o o' n D) : GoodS i i' o o' n D := by
  induction H with
  | gray sigma apm h1 h2 =>
    refine cgs_goodS (twinS_acc rd64_binary (.gray ⟨sigma⟩ ⟨apm⟩ (Bits.pos h1) (Bits.pos h2))) ?_ (by norm_num)
      (fun _ => id) (fun _ => id) (fun _ _ => id)
    intro rho T nu mu rho' T' nu' mu' ρ T₀ ν hρ hT hn dρ dT dn
    have s1 : Sim _ _ (dbl sigma) (⟨sigma⟩ : Fl rd64) := ⟨rfl, h1⟩
    have s2 : Sim _ _ (dbl apm) (⟨apm⟩ : Fl rd64) := ⟨rfl, h2⟩
    have s3 := hρ.sim (by norm_num) dρ
    exact ⟨s1.mono (by norm_num) (by norm_num), (s1.div four_pi_sim).mono (by norm_num) (by norm_num),
      ((s3.div s2).mul s1).mono (by norm_num) (by norm_num)⟩
  | thomson pc apm hpc h2 =>
    refine cgs_goodS (twinS_acc rd64_binary (.thomson (fl pc) ⟨apm⟩ (CgsSized.pos hpc) (Bits.pos h2))) ?_ (by norm_num)
      (fun _ => id) (fun _ => id) (fun _ _ => id)
    intro rho T nu mu rho' T' nu' mu' ρ T₀ ν hρ hT hn dρ dT dn
    have sa : Sim (-10) (-4) pc.dbl.alpha (fl pc).alpha := ⟨rfl, hpc.alpha⟩
    have sb : Sim (-96) (-82) pc.dbl.hbar (fl pc).hbar := ⟨rfl, hpc.hbar⟩
    have s1 := (((Sim.lit 8 3 3).mul Sim.pi).div (Sim.lit 3 1 2)).mul
      (((sa.mul sb).div ((sme hpc).mul (sc hpc))).powInt 2 2)
    have s2 : Sim _ _ (dbl apm) (⟨apm⟩ : Fl rd64) := ⟨rfl, h2⟩
    have s3 := hρ.sim (by norm_num) dρ
    exact ⟨s1.mono (by norm_num) (by norm_num), (s1.div four_pi_sim).mono (by norm_num) (by norm_num),
      (((s3.div s2).div (Sim.lit 2 1 1)).mul s1).mono (by norm_num) (by norm_num)⟩
  | powerLaw k re te ne nr no rr ro tr tof apm o o' hk hS hnr hrr htr ha ho ho' =>
    obtain ⟨-, -, -, -, -, rfl⟩ := powerLawS_inv ho
    have ho'' := ho'
    obtain ⟨-, -, h4, h5, h6, rfl⟩ := powerLawS_inv ho'
    have z : (lit 0 : ℝ) = 0 := by simp [areal]
    rw [Bool.eq_false_iff, Ne, real_lt, z, not_lt] at h4 h5 h6
    have zf := rd_zero rd64_binary
    have p (a : ℝ) (h : Bits (-100) 100 a) : gt (⟨a⟩ : Fl rd64) (lit 0) = true := by
      show decide ((lit 0 : Fl rd64).val < a) = true
      rw [zf]; exact decide_eq_true (Bits.pos h)
    have q (a : ℝ) (h : 0 ≤ a) : lt (⟨a⟩ : Fl rd64) (lit 0) = false := by
      show decide (a < (lit 0 : Fl rd64).val) = false
      rw [zf]; exact decide_eq_false (not_lt.2 h)
    have hcon : PowerLawSOpacity.construct (R := Fl rd64) ⟨k⟩ ⟨re⟩ ⟨te⟩ ⟨ne⟩ ⟨nr⟩ ⟨no⟩ ⟨rr⟩ ⟨ro⟩ ⟨tr⟩ ⟨tof⟩ ⟨apm⟩ =
        .ok ⟨⟨k⟩, ⟨re⟩, ⟨te⟩, ⟨rr⟩, ⟨ro⟩, ⟨tr⟩, ⟨tof⟩, ⟨ne⟩, ⟨nr⟩, ⟨no⟩, ⟨apm⟩⟩ := by
      unfold PowerLawSOpacity.construct
      rw [p tr htr, p nr hnr, q ro h4, q tof h5, q no h6]
      rfl
    refine cgs_goodS (twinS_acc rd64_binary (.powerLaw ⟨k⟩ ⟨re⟩ ⟨te⟩ ⟨ne⟩ ⟨nr⟩ ⟨no⟩ ⟨rr⟩ ⟨ro⟩ ⟨tr⟩ ⟨tof⟩ ⟨apm⟩ _ _
      (Bits.pos hk) (Bits.pos hrr) (Bits.pos ha) hcon ho'')) ?_ hS
      (fun _ h => h.1) (fun _ h => h.1) (fun _ _ h => h.1)
    intro rho T nu mu rho' T' nu' mu' ρ T₀ ν hρ hT hn dρ dT dn
    have c (a : ℝ) : ∃ m : ℤ, |a| * 41 ≤ m ∧ (m : ℝ) < |a| * 41 + 1 ∧ 0 ≤ m := ⟨⌈|a| * 41⌉, Int.le_ceil _,
      Int.ceil_lt_add_one _, Int.ceil_nonneg (by positivity)⟩
    obtain ⟨m1, a1, b1, z1⟩ := c re
    obtain ⟨m2, a2, b2, z2⟩ := c te
    obtain ⟨m3, a3, b3, z3⟩ := c ne
    have hm : m1 + m2 + m3 ≤ 208 := by
      have : ((m1 + m2 + m3 : ℤ) : ℝ) < ((208 : ℤ) : ℝ) := by push_cast; linarith
      exact (Int.cast_lt.1 this).le
    have sk : Sim (-160) 60 (dbl k) (⟨k⟩ : Fl rd64) := ⟨rfl, hk⟩
    have s1 : Sim (-370) 270 _ _ := (((sk.mul (factor_sim hρ h4 hrr dρ.2 a1 (by omega)) (by omega) (by omega)).mul
      (factor_sim hT h5 htr dT.2 a2 (by omega)) (by omega) (by omega)).mul
      (factor_sim hn h6 hnr dn.2 a3 (by omega)) (by omega) (by omega)).mono (by omega) (by omega)
    have s2 : Sim _ _ (dbl apm) (⟨apm⟩ : Fl rd64) := ⟨rfl, ha⟩
    have s3 := hρ.sim (by norm_num) dρ.1
    exact ⟨s1.mono (by norm_num) (by norm_num), (s1.div four_pi_sim).mono (by norm_num) (by norm_num),
      ((s3.div s2).mul s1).mono (by norm_num) (by norm_num)⟩
  | nonCGS t m l te hu _ ih =>
    obtain ⟨O'', i'', o'', S, A, -, B, hS⟩ := ih.mid
    have t0 := Bits.pos hu.time
    have m0 := Bits.pos hu.mass
    have l0 := Bits.pos hu.length
    have te0 := Bits.pos hu.temp
    refine
      { le_one := le_rfl
        dens_pos := fun x h => (mul_pos_iff_of_pos_left (by positivity)).1 (ih.dens_pos _ h)
        temp_pos := fun x h => (mul_pos_iff_of_pos_right te0).1 (ih.temp_pos _ h)
        freq_pos := fun T x h => (div_pos_iff_of_pos_right t0).1 (ih.freq_pos _ _ h)
        size := fun h => absurd h (by norm_num)
        mid := ⟨_, _, _, S, nonCGS_accS rd64_binary A (t := ⟨t⟩) (m := ⟨m⟩) (l := ⟨l⟩) (te := ⟨te⟩) t0 m0 l0 te0, ?_,
          fun h => absurd h (by norm_num), hS⟩ }
    intro rho T nu mu rho' T' nu' mu' ρ T₀ ν hρ hT hn dρ dT dn
    obtain ⟨c1, c2, c3⟩ := convS hu (ih.size rfl) hρ hT hn dρ dT dn
    obtain ⟨a, b, c⟩ := B rfl (mu := mu) (mu' := mu') c1 c2 c3 dρ dT dn
    have sl : Sim (-60) 60 (dbl l) (⟨l⟩ : Fl rd64) := ⟨rfl, hu.length⟩
    exact ⟨(a.div (sl.mul sl)).mono (by norm_num) (by norm_num), (b.div (sl.mul sl)).mono (by norm_num) (by norm_num),
      (c.mul sl).mono (by norm_num) (by norm_num)⟩
  | vScaleFreeS _ ih | vGrayS _ ih | vThomsonS _ ih | vPowerLawS _ ih | vNonCGSGrayS _ ih | vNonCGSThomsonS _ ih
  | vNonCGSPowerLawS _ ih =>
    obtain ⟨O'', i'', o'', S, A, B, C, hS⟩ := ih.mid
    exact ⟨ih.le_one, ih.dens_pos, ih.temp_pos, ih.freq_pos, ih.size, O'', i'', o'', S, ⟨A.S_nonneg, A.all⟩, B, C, hS⟩

end photons

section neutrinos
open Neutrinos

/-- the double-precision run of a scattering opacity is the rounded run -/
def SafeSN (k : ℝ) {O O' : Type} (i : NeutrinoSAPI (IE binary64) O) (i' : NeutrinoSAPI (Fl rd64) O') (o : O) (o' : O')
    (D : Domain) (L H : ℤ) : Prop :=
  ∀ ⦃rho T Y nu mu : IE binary64⦄ ⦃rho' T' Y' nu' mu' : Fl rd64⦄ ⦃ρ T₀ ν : ℝ⦄ (type : RadiationType), Near k rho rho' ρ →
    Near k T T' T₀ → Near k nu nu' ν → D.dens ρ → D.temp T₀ → D.freq T₀ ν →
    Sim L H (i.TotalCrossSection o rho T Y type nu) (i'.TotalCrossSection o' rho' T' Y' type nu') ∧
    Sim L H (i.DifferentialCrossSection o rho T Y type nu mu) (i'.DifferentialCrossSection o' rho' T' Y' type nu' mu') ∧
    Sim L H (i.TotalScatteringCoefficient o rho T Y type nu) (i'.TotalScatteringCoefficient o' rho' T' Y' type nu')

/-- everything known of a pair of the specification -/
structure GoodSN {O O' : Type} (i : NeutrinoSAPI (IE binary64) O) (i' : NeutrinoSAPI ℝ O') (o : O) (o' : O') (n : ℕ)
    (D : Domain) : Prop where
  le_one : n ≤ 1
  dens_pos : ∀ x, D.dens x → 0 < x
  temp_pos : ∀ x, D.temp x → 0 < x
  freq_pos : ∀ T x, D.freq T x → 0 < x
  size : n = 0 → (∀ x, D.dens x → Bits (-60) 60 x) ∧ (∀ x, D.temp x → Bits (-20) 60 x) ∧ ∀ T x, D.freq T x → Bits (-20) 100 x
  mid : ∃ (O'' : Type) (i'' : NeutrinoSAPI (Fl rd64) O'') (o'' : O''), AccSN u64 i'' i' o'' o' n ∧
    SafeSN 4 i i'' o o'' D (-1000) 1000 ∧ (n = 0 → SafeSN 8 i i'' o o'' D (-800) 800)

theorem doubledSN_good {O O' : Type} {i : NeutrinoSAPI (IE binary64) O} {i' : NeutrinoSAPI ℝ O'} {o : O} {o' : O'} {n : ℕ}
    {D : Domain} (H : DoubledS O O' i i' o o' n D) : GoodSN i i' o o' n D := by
  induction H with
  | gray sigma apm h1 h2 =>
    have B : ∀ k : ℝ, k ≤ 8 → SafeSN k (inferInstance : NeutrinoSAPI (IE binary64) (GraySOpacity (IE binary64)))
        (inferInstance : NeutrinoSAPI (Fl rd64) (GraySOpacity (Fl rd64))) ⟨dbl sigma, dbl apm⟩ ⟨⟨sigma⟩, ⟨apm⟩⟩
        scatteringDomain (-800) 800 := by
      intro k hk rho T Y nu mu rho' T' Y' nu' mu' ρ T₀ ν type hρ hT hn dρ dT dn
      have s1 : Sim _ _ (dbl sigma) (⟨sigma⟩ : Fl rd64) := ⟨rfl, h1⟩
      have s2 : Sim _ _ (dbl apm) (⟨apm⟩ : Fl rd64) := ⟨rfl, h2⟩
      have s3 := hρ.sim (by linarith) dρ
      exact ⟨s1.mono (by norm_num) (by norm_num), (s1.div four_pi_sim).mono (by norm_num) (by norm_num),
        ((s3.div s2).mul s1).mono (by norm_num) (by norm_num)⟩
    refine ⟨by norm_num, fun _ => Bits.pos, fun _ => Bits.pos, fun _ _ => Bits.pos, fun _ => ⟨fun _ => id, fun _ => id, fun _ _ => id⟩,
      _, _, _, twinSN_acc rd64_binary (.gray ⟨sigma⟩ ⟨apm⟩ (Bits.pos h1) (Bits.pos h2)), ?_, fun _ => B 8 le_rfl⟩
    intro rho T Y nu mu rho' T' Y' nu' mu' ρ T₀ ν type h1 h2 h3 d1 d2 d3
    obtain ⟨a, b, c⟩ := B 4 (by norm_num) (Y := Y) (Y' := Y') (mu := mu) (mu' := mu') type h1 h2 h3 d1 d2 d3
    exact ⟨a.mono (by norm_num) (by norm_num), b.mono (by norm_num) (by norm_num), c.mono (by norm_num) (by norm_num)⟩
  | nonCGS t m l te hu _ ih =>
    obtain ⟨O'', i'', o'', A, -, B⟩ := ih.mid
    have t0 := Bits.pos hu.time
    have m0 := Bits.pos hu.mass
    have l0 := Bits.pos hu.length
    have te0 := Bits.pos hu.temp
    refine
      { le_one := le_rfl
        dens_pos := fun x h => (mul_pos_iff_of_pos_left (by positivity)).1 (ih.dens_pos _ h)
        temp_pos := fun x h => (mul_pos_iff_of_pos_right te0).1 (ih.temp_pos _ h)
        freq_pos := fun T x h => (div_pos_iff_of_pos_right t0).1 (ih.freq_pos _ _ h)
        size := fun h => absurd h (by norm_num)
        mid := ⟨_, _, _, nonCGS_accSN rd64_binary A (t := ⟨t⟩) (m := ⟨m⟩) (l := ⟨l⟩) (te := ⟨te⟩) t0 m0 l0 te0, ?_,
          fun h => absurd h (by norm_num)⟩ }
    intro rho T Y nu mu rho' T' Y' nu' mu' ρ T₀ ν type hρ hT hn dρ dT dn
    obtain ⟨c1, c2, c3⟩ := convS hu (ih.size rfl) hρ hT hn dρ dT dn
    obtain ⟨a, b, c⟩ := B rfl (Y := Y) (Y' := Y') (mu := mu) (mu' := mu') type c1 c2 c3 dρ dT dn
    have sl : Sim (-60) 60 (dbl l) (⟨l⟩ : Fl rd64) := ⟨rfl, hu.length⟩
    exact ⟨(a.div (sl.mul sl)).mono (by norm_num) (by norm_num), (b.div (sl.mul sl)).mono (by norm_num) (by norm_num),
      (c.mul sl).mono (by norm_num) (by norm_num)⟩
  | vScaleFreeS _ ih | vGrayS _ ih | vNonCGSGrayS _ ih =>
    obtain ⟨O'', i'', o'', A, B, C⟩ := ih.mid
    exact ⟨ih.le_one, ih.dens_pos, ih.temp_pos, ih.freq_pos, ih.size, O'', i'', o'', A, B, C⟩

end neutrinos
end Opac.Doubles
