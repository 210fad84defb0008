import Verif.Spec.Vector
import Verif.Lemmas.Outcome
import Verif.Lemmas.RealArith
import Verif.Model.Neutrinos

/-! The vectorised loops. -/

namespace Opac
open Spec Outcome
set_option linter.unusedSectionVars false

section
variable {R : Type} [Arith R]

theorem fillLoop_filled (f : R → R) {nb co : Indexer} {n : ℤ} (h : Ordered nb co n) (m : Heap R) :
    Filled f nb co n m (fillLoop f nb co n m) := by
  unfold fillLoop
  rw [forLoop_toNat]
  have key := forLoop_inv n.toNat (fun i (m : Heap R) => Function.update m (co i) (f (m (nb i))))
    (fun k m' => (∀ i, i < k → m' (co i) = f (m (nb i))) ∧ ∀ a, (∀ i, i < k → a ≠ co i) → m' a = m a) m
    ⟨fun i hi => absurd hi (Nat.not_lt_zero i), fun _ _ => rfl⟩ (by
      rintro k hk m' ⟨h1, h2⟩
      have hk' : (k : ℤ) < n := by omega
      constructor
      · intro i hi
        by_cases hik : i = k
        · subst hik
          rw [Function.update_self, h2 _ fun j hj => h.ordered i j hk' hj]
        · rw [Function.update_of_ne, h1 i (by omega)]
          intro hc
          exact hik (h.distinct i k (by omega) hk' hc)
      · intro a ha
        rw [Function.update_of_ne (ha k (by omega)), h2 a fun i hi => ha i (by omega)])
  exact ⟨fun i hi => key.1 i (by omega), fun a ha => key.2 a fun i hi => ha i (by omega)⟩

theorem fillLoop_elementwise (f : R → R) : Elementwise f (fillLoop f) :=
  fun _ _ _ m h => fillLoop_filled f h.ordered m

theorem scaleLoop_spec (k : R) {a : Indexer} {n : ℤ}
    (h : ∀ i j : ℕ, (i : ℤ) < n → (j : ℤ) < n → a i = a j → i = j) (m : Heap R) :
    (∀ i : ℕ, (i : ℤ) < n → scaleLoop a k n m (a i) = m (a i) * k) ∧
    ∀ x, (∀ i : ℕ, (i : ℤ) < n → x ≠ a i) → scaleLoop a k n m x = m x := by
  unfold scaleLoop
  rw [forLoop_toNat]
  have key := forLoop_inv n.toNat (fun i (m : Heap R) => Function.update m (a i) (m (a i) * k))
    (fun q m' => (∀ i, i < q → m' (a i) = m (a i) * k) ∧ ∀ x, (∀ i, i < q → x ≠ a i) → m' x = m x) m
    ⟨fun i hi => absurd hi (Nat.not_lt_zero i), fun _ _ => rfl⟩ (by
      rintro q hq m' ⟨h1, h2⟩
      have hq' : (q : ℤ) < n := by omega
      constructor
      · intro i hi
        by_cases hiq : i = q
        · subst hiq
          rw [Function.update_self, h2 _ fun j hj hc => by
            have := h i j hq' (by omega) hc; omega]
        · rw [Function.update_of_ne, h1 i (by omega)]
          intro hc
          exact hiq (h i q (by omega) hq' hc)
      · intro x hx
        rw [Function.update_of_ne (hx q (by omega)), h2 x fun i hi => hx i (by omega)])
  exact ⟨fun i hi => key.1 i (by omega), fun x hx => key.2 x fun i hi => hx i (by omega)⟩

theorem scaleLoop2_spec (k l : R) {a b : Indexer} {n : ℤ} (h : Separate a b n) (m : Heap R) :
    (∀ i : ℕ, (i : ℤ) < n → scaleLoop2 a k b l n m (a i) = m (a i) * k) ∧
    (∀ i : ℕ, (i : ℤ) < n → scaleLoop2 a k b l n m (b i) = m (b i) * l) ∧
    ∀ x, (∀ i : ℕ, (i : ℤ) < n → x ≠ a i ∧ x ≠ b i) → scaleLoop2 a k b l n m x = m x := by
  unfold scaleLoop2
  rw [forLoop_toNat]
  have key := forLoop_inv n.toNat (fun i (m : Heap R) =>
      let m := Function.update m (a i) (m (a i) * k)
      Function.update m (b i) (m (b i) * l))
    (fun q m' => (∀ i, i < q → m' (a i) = m (a i) * k) ∧ (∀ i, i < q → m' (b i) = m (b i) * l) ∧
      ∀ x, (∀ i, i < q → x ≠ a i ∧ x ≠ b i) → m' x = m x) m
    ⟨fun i hi => absurd hi (Nat.not_lt_zero i), fun i hi => absurd hi (Nat.not_lt_zero i), fun _ _ => rfl⟩ (by
      rintro q hq m' ⟨h1, h2, h3⟩
      have hq' : (q : ℤ) < n := by omega
      have hab : ∀ i j, i < n.toNat → j < n.toNat → a i ≠ b j := fun i j hi hj =>
        h.apart i j (by omega) (by omega)
      simp only
      refine ⟨?_, ?_, ?_⟩
      · intro i hi
        rw [Function.update_of_ne (hab i q (by omega) hq)]
        by_cases hiq : i = q
        · subst hiq
          rw [Function.update_self, h3 _ fun j hj => ⟨fun hc => by
            have := h.freqDistinct i j hq' (by omega) hc; omega, hab i j hq (by omega)⟩]
        · rw [Function.update_of_ne, h1 i (by omega)]
          intro hc
          exact hiq (h.freqDistinct i q (by omega) hq' hc)
      · intro i hi
        by_cases hiq : i = q
        · subst hiq
          rw [Function.update_self, Function.update_of_ne (hab i i hq hq).symm, h3 _ fun j hj =>
            ⟨(hab j i (by omega) hq).symm, fun hc => by
              have := h.distinct i j hq' (by omega) hc; omega⟩]
        · rw [Function.update_of_ne, Function.update_of_ne (hab q i hq (by omega)).symm, h2 i (by omega)]
          intro hc
          exact hiq (h.distinct i q (by omega) hq' hc)
      · intro x hx
        rw [Function.update_of_ne (hx q (by omega)).2, Function.update_of_ne (hx q (by omega)).1,
          h3 x fun i hi => hx i (by omega)])
  exact ⟨fun i hi => key.1 i (by omega), fun i hi => key.2.1 i (by omega),
    fun x hx => key.2.2 x fun i hi => hx i (by omega)⟩

theorem fillLoop_vectorWith (f : R → R) : VectorWith f id (fillLoop f) := by
  intro nb co n m h
  have := fillLoop_filled f h.ordered m
  exact ⟨this.results, fun i hi => this.frequencies h i hi, fun a ha => this.frame a fun i hi => (ha i hi).2⟩

/-- the wrapper's vectorised methods, for every carrier: results are those at the scaled frequencies, and the
frequencies come back as `(ν * f) * t` -/
theorem nonCGSVector_vectorWith {inner : Indexer → Indexer → ℤ → Heap R → Heap R} {f g : R → R}
    (hi : VectorWith f g inner) (fu tu ou : R) :
    VectorWith (fun ν => f (ν * fu) * ou) (fun ν => g (ν * fu) * tu) (nonCGSVector inner fu tu ou) := by
  intro nb co n m h
  obtain ⟨s1, s2⟩ := scaleLoop_spec fu h.freqDistinct m
  have hf := hi nb co n (scaleLoop nb fu n m) h
  obtain ⟨t1, t2, t3⟩ := scaleLoop2_spec tu ou h (inner nb co n (scaleLoop nb fu n m))
  refine ⟨fun i hi => ?_, fun i hi => ?_, fun x hx => ?_⟩
  · show scaleLoop2 _ _ _ _ _ _ _ = _
    rw [t2 i hi, hf.results i hi, s1 i hi]
  · show scaleLoop2 _ _ _ _ _ _ _ = _
    rw [t1 i hi, hf.frequencies i hi, s1 i hi]
  · show scaleLoop2 _ _ _ _ _ _ _ = _
    rw [t3 x hx, hf.frame x hx, s2 x fun i hi => (hx i hi).1]

theorem VectorWith.elementwise {f : R → R} {V : Indexer → Indexer → ℤ → Heap R → Heap R} (h : VectorWith f id V) :
    Elementwise f V := by
  intro nb co n m hs
  have := h nb co n m hs
  refine ⟨this.results, fun a ha => ?_⟩
  by_cases hx : ∃ i : ℕ, (i : ℤ) < n ∧ a = nb i
  · obtain ⟨i, hi, rfl⟩ := hx
    exact this.frequencies i hi
  · exact this.frame a fun i hi => ⟨fun hc => hx ⟨i, hi, hc⟩, ha i hi⟩

/-! ### calls that may not return -/

theorem VectorWith.pureM {f g : R → R} {V : Indexer → Indexer → ℤ → Heap R → Heap R} (h : VectorWith f g V) :
    VectorWithM (fun ν => ok (f ν)) g (fun nb co n m => ok (V nb co n m)) := by
  intro nb co n m hs
  refine ⟨fun r hr => ⟨_, rfl, ?_⟩, fun m' _ i _ => ⟨_, rfl⟩⟩
  have := h nb co n m hs
  refine ⟨fun i hi => ?_, this.frequencies, this.frame⟩
  rw [this.results i hi]
  have := hr i hi
  injection this

theorem fillLoopM_vectorWith (f : R → Outcome R) : VectorWithM f id (fillLoopM f) := by
  intro nb co n m h
  constructor
  · intro r hr
    unfold fillLoopM
    by_cases hn : 0 ≤ n
    · rw [forLoopM_cast n hn]
      obtain ⟨m', h1, h2⟩ := forLoopM_inv n.toNat
        (fun i (m : Heap R) => (f (m (nb i))).map' (fun v => Function.update m (co i) v))
        (fun k m' => (∀ i, i < k → m' (co i) = r i) ∧ ∀ a, (∀ i, i < k → a ≠ co i) → m' a = m a) m
        ⟨fun i hi => absurd hi (Nat.not_lt_zero i), fun _ _ => rfl⟩ (by
          rintro k hk m' ⟨h1, h2⟩
          have hk' : (k : ℤ) < n := by omega
          have e : m' (nb k) = m (nb k) := h2 _ fun j hj => h.apart k j hk' (by omega)
          refine ⟨Function.update m' (co k) (r k), ?_, ?_, ?_⟩
          · show (f (m' (nb k))).map' _ = _
            rw [e, hr k hk']; rfl
          · intro i hi
            by_cases hik : i = k
            · subst hik; rw [Function.update_self]
            · rw [Function.update_of_ne, h1 i (by omega)]
              intro hc
              exact hik (h.distinct i k (by omega) hk' hc)
          · intro a ha
            rw [Function.update_of_ne (ha k (by omega)), h2 a fun i hi => ha i (by omega)])
      exact ⟨m', h1, fun i hi => h2.1 i (by omega), fun i hi => h2.2 _ fun j hj => h.apart i j hi (by omega),
        fun a ha => h2.2 a fun i hi => (ha i (by omega)).2⟩
    · rw [forLoopM_nonpos (by omega)]
      exact ⟨m, rfl, fun i hi => by omega, fun i hi => by omega, fun _ _ => rfl⟩
  · intro m' hm'
    by_cases hn : 0 ≤ n
    · unfold fillLoopM at hm'
      rw [forLoopM_cast n hn] at hm'
      have := forLoopM_inv' n.toNat
        (fun i (m : Heap R) => (f (m (nb i))).map' (fun v => Function.update m (co i) v))
        (fun k m' => (∀ i, i < k → ∃ v, f (m (nb i)) = ok v) ∧ ∀ a, (∀ i, i < k → a ≠ co i) → m' a = m a) m m'
        ⟨fun i hi => absurd hi (Nat.not_lt_zero i), fun _ _ => rfl⟩ (by
          rintro k hk s s' ⟨h1, h2⟩ hb
          have hk' : (k : ℤ) < n := by omega
          have e : s (nb k) = m (nb k) := h2 _ fun j hj => h.apart k j hk' (by omega)
          obtain ⟨v, hv, rfl⟩ := map'_eq_ok.1 hb
          constructor
          · intro i hi
            by_cases hik : i = k
            · subst hik; exact ⟨v, by rw [← e]; exact hv⟩
            · exact h1 i (by omega)
          · intro a ha
            rw [Function.update_of_ne (ha k (by omega)), h2 a fun i hi => ha i (by omega)]) hm'
      intro i hi
      exact this.1 i (by omega)
    · intro i hi; omega

theorem nonCGSVectorM_vectorWith {inner : Indexer → Indexer → ℤ → Heap R → Outcome (Heap R)}
    {f : R → Outcome R} {g : R → R} (hi : VectorWithM f g inner) (fu tu ou : R) :
    VectorWithM (fun ν => (f (ν * fu)).map' (fun v => v * ou)) (fun ν => g (ν * fu) * tu)
      (nonCGSVectorM inner fu tu ou) := by
  intro nb co n m h
  obtain ⟨s1, s2⟩ := scaleLoop_spec fu h.freqDistinct m
  obtain ⟨a1, a2⟩ := hi nb co n (scaleLoop nb fu n m) h
  constructor
  · intro r hr
    have : ∀ i : ℕ, ∃ v : R, (i : ℤ) < n → f (m (nb i) * fu) = ok v ∧ v * ou = r i := by
      intro i
      by_cases hi : (i : ℤ) < n
      · obtain ⟨v, hv, hv2⟩ := map'_eq_ok.1 (hr i hi)
        exact ⟨v, fun _ => ⟨hv, hv2⟩⟩
      · exact ⟨ou, fun h => absurd h hi⟩
    choose v hv using this
    obtain ⟨m', e, hf⟩ := a1 v fun i hi => by rw [s1 i hi]; exact (hv i hi).1
    obtain ⟨t1, t2, t3⟩ := scaleLoop2_spec tu ou h m'
    refine ⟨scaleLoop2 nb tu co ou n m', by unfold nonCGSVectorM; rw [e]; rfl, fun i hi => ?_, fun i hi => ?_,
      fun a ha => ?_⟩
    · rw [t2 i hi, hf.results i hi, (hv i hi).2]
    · rw [t1 i hi, hf.frequencies i hi, s1 i hi]
    · rw [t3 a ha, hf.frame a ha, s2 a fun i hi => (ha i hi).1]
  · intro m' hm' i hi
    unfold nonCGSVectorM at hm'
    obtain ⟨m'', e, -⟩ := map'_eq_ok.1 hm'
    obtain ⟨v, hv⟩ := a2 m'' e i hi
    rw [s1 i hi] at hv
    exact ⟨v * ou, by simp only [hv]; rfl⟩

theorem VectorWithM.elementwise {f : R → Outcome R} {V : Indexer → Indexer → ℤ → Heap R → Outcome (Heap R)}
    (h : VectorWithM f id V) : ElementwiseM f V := by
  intro nb co n m hs
  refine ⟨fun g hg => ?_, (h nb co n m hs).2⟩
  obtain ⟨m', e, hf⟩ := (h nb co n m hs).1 (fun i => g (m (nb i))) hg
  refine ⟨m', e, hf.results, fun a ha => ?_⟩
  by_cases hx : ∃ i : ℕ, (i : ℤ) < n ∧ a = nb i
  · obtain ⟨i, hi, rfl⟩ := hx
    exact hf.frequencies i hi
  · exact hf.frame a fun i hi => ⟨fun hc => hx ⟨i, hi, hc⟩, ha i hi⟩

end

end Opac
