import Verif.Lemmas.Threads
import Verif.Model.ThreadPrograms
import Verif.Props.Vector

/-!
# C32 Concurrent vectorised calls

Any number of threads, each executing the loads and stores of one vectorised call on one shared memory, in any order.

* Opacities without unit wrapper may share frequencies: no data race, the scalar results, nothing else written
  (`C32_plain`).
* Opacities in unit wrappers write to their frequency array, so the claim fails when that array is shared
  (`C32_race`, `C32_false`) and holds when every thread has its own (`C32_wrapped_partial`).
-/

namespace Opac
open Spec Outcome Threads
set_option linter.unusedSectionVars false

/-- slots of interleaved arrays differ -/
theorem slot_ne {k : ℕ} (i j a b : ℕ) (ha : a < k + 1) (hb : b < k + 1) (hab : a ≠ b) : (k + 1) * i + a ≠ (k + 1) * j + b := by
  intro h
  have := congrArg (· % (k + 1)) h
  simp only [Nat.mul_add_mod, Nat.mod_eq_of_lt ha, Nat.mod_eq_of_lt hb] at this
  exact hab this

namespace Photons
variable {R : Type} [Arith R]

/-- C32: every opacity has a program … -/
theorem ConstructedIn.program {Q : R → Prop} {O : Type} {inst : PhotonAPI R O} {o : O} {k : ℕ}
    (H : ConstructedIn R Q O inst o k) : ∃ P, Program R O inst o k P := by
  induction H with
  | gray o => exact ⟨_, .gray o⟩
  | epbremss o => exact ⟨_, .epbremss o⟩
  | powerLaw o => exact ⟨_, .powerLaw o⟩
  | nonCGS t m l T _ _ _ _ _ ih => obtain ⟨P, h⟩ := ih; exact ⟨_, .nonCGS _ h⟩
  | vScaleFree _ ih => obtain ⟨P, h⟩ := ih; exact ⟨_, .vScaleFree h⟩
  | vGray _ ih => obtain ⟨P, h⟩ := ih; exact ⟨_, .vGray h⟩
  | vPowerLawScaleFree _ ih => obtain ⟨P, h⟩ := ih; exact ⟨_, .vPowerLawScaleFree h⟩
  | vPowerLaw _ ih => obtain ⟨P, h⟩ := ih; exact ⟨_, .vPowerLaw h⟩
  | vEPBremss _ ih => obtain ⟨P, h⟩ := ih; exact ⟨_, .vEPBremss h⟩
  | vNonCGSGray _ ih => obtain ⟨P, h⟩ := ih; exact ⟨_, .vNonCGSGray h⟩
  | vNonCGSPowerLaw _ ih => obtain ⟨P, h⟩ := ih; exact ⟨_, .vNonCGSPowerLaw h⟩
  | vNonCGSEPBremss _ ih => obtain ⟨P, h⟩ := ih; exact ⟨_, .vNonCGSEPBremss h⟩

/-- … which, run alone, is the vectorised call -/
theorem Program.run {O : Type} {inst : PhotonAPI R O} {o : O} {k : ℕ} {P} (H : Program R O inst o k P) (fn : VFn)
    (rho temp : R) (nb co : Indexer) (n : ℤ) (m : Heap R) :
    (P fn rho temp nb co n).run m = ok (vectorFn inst o fn rho temp nb co n m) := by
  induction H generalizing rho temp nb co n m with
  | gray o | epbremss o | powerLaw o =>
    unfold plainProg
    rw [run_fill]
    cases fn <;> rfl
  | nonCGS w _ ih =>
    rw [run_nonCGS (fun nb co n m => ih _ _ nb co n m)]
    cases fn <;> rfl
  | vScaleFree _ ih | vGray _ ih | vPowerLawScaleFree _ ih | vPowerLaw _ ih | vEPBremss _ ih | vNonCGSGray _ ih
  | vNonCGSPowerLaw _ ih | vNonCGSEPBremss _ ih =>
    rw [ih]
    cases fn <;> rfl

/-- the addresses a call touches -/
theorem Program.within {O : Type} {inst : PhotonAPI R O} {o : O} {k : ℕ} {P} (H : Program R O inst o k P) (fn : VFn)
    (rho temp : R) (nb co : Indexer) (n : ℤ) :
    Within (slots nb n ∪ slots co n) (slots nb n ∪ slots co n) (P fn rho temp nb co n) := by
  induction H generalizing rho temp with
  | gray o | epbremss o | powerLaw o => exact (within_fill _ nb co n).mono subset_rfl Set.subset_union_right
  | nonCGS w _ ih => exact within_nonCGS (ih _ _) _ _ _
  | vScaleFree _ ih | vGray _ ih | vPowerLawScaleFree _ ih | vPowerLaw _ ih | vEPBremss _ ih | vNonCGSGray _ ih
  | vNonCGSPowerLaw _ ih | vNonCGSEPBremss _ ih => exact ih _ _

/-- without a wrapper the frequencies are only read -/
theorem Program.within_plain {O : Type} {inst : PhotonAPI R O} {o : O} {P} (H : Program R O inst o 0 P) (fn : VFn)
    (rho temp : R) (nb co : Indexer) (n : ℤ) :
    Within (slots nb n ∪ slots co n) (slots co n) (P fn rho temp nb co n) := by
  generalize hk : (0 : ℕ) = k at H
  induction H generalizing rho temp with
  | gray o | epbremss o | powerLaw o => exact within_fill _ nb co n
  | nonCGS w _ ih => exact absurd hk (by omega)
  | vScaleFree _ ih | vGray _ ih | vPowerLawScaleFree _ ih | vPowerLaw _ ih | vEPBremss _ ih | vNonCGSGray _ ih
  | vNonCGSPowerLaw _ ih | vNonCGSEPBremss _ ih => exact ih _ _ hk

/-- number of loads and stores of a call -/
theorem Program.bound {O : Type} {inst : PhotonAPI R O} {o : O} {k : ℕ} {P} (H : Program R O inst o k P) (fn : VFn)
    (rho temp : R) (nb co : Indexer) (n : ℤ) :
    Bound (P fn rho temp nb co n) ((2 + 6 * k) * n.toNat) := by
  induction H generalizing rho temp with
  | gray o | epbremss o | powerLaw o => exact bound_fill _ nb co n
  | nonCGS w _ ih =>
    have := bound_nonCGS (ih (rho * w.rho_unit_) (temp * w.temp_unit_)) w.freq_unit_ w.time_unit_ (outUnit w fn)
    rename_i k _ _
    rwa [show (2 + 6 * k) * n.toNat + 6 * n.toNat = (2 + 6 * (k + 1)) * n.toNat by ring] at this
  | vScaleFree _ ih | vGray _ ih | vPowerLawScaleFree _ ih | vPowerLaw _ ih | vEPBremss _ ih | vNonCGSGray _ ih
  | vNonCGSPowerLaw _ ih | vNonCGSEPBremss _ ih => exact ih _ _

/-- C32, the programs are the code: every vectorised call has a sequence of loads and stores, and that sequence run alone
has the effect of the call. -/
theorem C32_code (c : VCall R (Constructed R)) :
    (∃ p, c.IsCode p) ∧ ∀ p, c.IsCode p → ∀ m, p.run m = ok (c.run m) := by
  constructor
  · obtain ⟨P, h⟩ := c.isP.program
    exact ⟨_, P, h, rfl⟩
  · rintro p ⟨P, h, rfl⟩ m
    exact h.run _ _ _ _ _ _ _

/-- C32, opacities without unit wrappers, in every arithmetic (bit for bit).  Any number of threads evaluate vectorised
calls, freely sharing frequency arrays; no result slot of one thread is a slot of another.  Then in every state reachable
by any interleaving: no data race; some thread can proceed unless all are done; at most two accesses per bin have been
made (so every execution ends); and once all are done, every slot holds the scalar result for the original frequency and
no other memory has changed. -/
theorem C32_plain {ι : Type} [Fintype ι] [DecidableEq ι] (calls : ι → VCall R (Constructed R))
    (hw : ∀ t, (calls t).wraps = 0)
    (hd : ∀ t u, t ≠ u → ∀ i j : ℕ, (i : ℤ) < (calls t).nbins → (j : ℤ) < (calls u).nbins →
      (calls t).coeffs i ≠ (calls u).coeffs j ∧ (calls t).coeffs i ≠ (calls u).nu_bins j)
    (progs : ι → Prog R) (hp : ∀ t, (calls t).IsCode (progs t)) (m : Heap R) (n : ℕ) (c : Config R ι)
    (hr : Reach ⟨progs, m⟩ n c) :
    ¬ c.Race ∧ (c.Finished ∨ ∃ c', Step c c') ∧ n ≤ ∑ t, 2 * (calls t).nbins.toNat ∧
    (c.Finished →
      (∀ t, ∀ i : ℕ, (i : ℤ) < (calls t).nbins → c.heap ((calls t).coeffs i) =
        scalarFn (calls t).inst (calls t).o (calls t).fn (calls t).rho (calls t).temp (m ((calls t).nu_bins i))) ∧
      ∀ a, (∀ t, ∀ i : ℕ, (i : ℤ) < (calls t).nbins → a ≠ (calls t).coeffs i) → c.heap a = m a) := by
  choose P hP hP' using hp
  have hP0 : ∀ t, Program R (calls t).O (calls t).inst (calls t).o 0 (P t) := fun t => hw t ▸ hP t
  have hdis : ∀ t u, t ≠ u → ∀ a ∈ slots (calls t).coeffs (calls t).nbins,
      a ∉ slots (calls u).nu_bins (calls u).nbins ∪ slots (calls u).coeffs (calls u).nbins := by
    rintro t u htu a ⟨i, hi, rfl⟩ (⟨j, hj, e⟩ | ⟨j, hj, e⟩)
    · exact (hd t u htu i j hi hj).2 e
    · exact (hd t u htu i j hi hj).1 e
  have hin := reach_inv (A := fun t => slots (calls t).nu_bins (calls t).nbins ∪ slots (calls t).coeffs (calls t).nbins)
    (W := fun t => slots (calls t).coeffs (calls t).nbins)
    (fun t => by simpa [hP'] using (hP0 t).within_plain _ _ _ _ _ _) hdis hr
  have hrun : ∀ t, (progs t).run m = ok ((calls t).run m) := fun t => by rw [hP']; exact (hP t).run _ _ _ _ _ _ _
  refine ⟨hin.no_race hdis, hin.progress fun t => ⟨_, hrun t⟩, ?_, fun hf => ⟨fun t i hi => ?_, fun a ha => ?_⟩⟩
  · obtain ⟨b', -, h⟩ := reach_bound (b := fun t => 2 * (calls t).nbins.toNat)
      (fun t => by simpa [hP'] using (hP0 t).bound _ _ _ _ _ _) hr
    omega
  · obtain ⟨m', h1, h2⟩ := hin.finished hf t
    cases (hrun t).symm.trans h1
    rw [h2 _ (.inr ⟨i, hi, rfl⟩)]
    have hc : Constructed R (calls t).O (calls t).inst (calls t).o 0 := hw t ▸ (calls t).isP
    exact (C30_plain hc _ _ _ _ _ _ m (calls t).separate.ordered).results i hi
  · refine hin.frame a fun t hat => ?_
    obtain ⟨i, hi, e⟩ := hat
    exact ha t i hi e

/-- C32, opacities in any number of unit wrappers, every arithmetic whose multiplication commutes (as IEEE's does), when
no slot is shared between threads: no data race, progress, termination, and the sequential result of every call — in
every slot the scalar result, in every frequency slot what the call alone leaves there.  Missing from the full property:
shared frequency arrays, for which it is false (`C32_false`). -/
theorem C32_wrapped_partial (hc : ∀ a b : R, a * b = b * a) {ι : Type} [Fintype ι] [DecidableEq ι]
    (calls : ι → VCall R (Constructed R))
    (hd : ∀ t u, t ≠ u → ∀ i j : ℕ, (i : ℤ) < (calls t).nbins → (j : ℤ) < (calls u).nbins →
      (calls t).coeffs i ≠ (calls u).coeffs j ∧ (calls t).coeffs i ≠ (calls u).nu_bins j ∧
      (calls t).nu_bins i ≠ (calls u).nu_bins j)
    (progs : ι → Prog R) (hp : ∀ t, (calls t).IsCode (progs t)) (m : Heap R) (n : ℕ) (c : Config R ι)
    (hr : Reach ⟨progs, m⟩ n c) :
    ¬ c.Race ∧ (c.Finished ∨ ∃ c', Step c c') ∧ n ≤ ∑ t, (2 + 6 * (calls t).wraps) * (calls t).nbins.toNat ∧
    (c.Finished →
      (∀ t, ∀ i : ℕ, (i : ℤ) < (calls t).nbins →
        c.heap ((calls t).coeffs i) = scalarFn (calls t).inst (calls t).o (calls t).fn (calls t).rho (calls t).temp
          (m ((calls t).nu_bins i)) ∧
        c.heap ((calls t).nu_bins i) = (calls t).run m ((calls t).nu_bins i)) ∧
      ∀ a, (∀ t, ∀ i : ℕ, (i : ℤ) < (calls t).nbins → a ≠ (calls t).coeffs i ∧ a ≠ (calls t).nu_bins i) →
        c.heap a = m a) := by
  choose P hP hP' using hp
  have hdis : ∀ t u, t ≠ u → ∀ a ∈ slots (calls t).nu_bins (calls t).nbins ∪ slots (calls t).coeffs (calls t).nbins,
      a ∉ slots (calls u).nu_bins (calls u).nbins ∪ slots (calls u).coeffs (calls u).nbins := by
    rintro t u htu a (⟨i, hi, rfl⟩ | ⟨i, hi, rfl⟩) (⟨j, hj, e⟩ | ⟨j, hj, e⟩)
    · exact (hd t u htu i j hi hj).2.2 e
    · exact (hd u t (Ne.symm htu) j i hj hi).2.1 e.symm
    · exact (hd t u htu i j hi hj).2.1 e
    · exact (hd t u htu i j hi hj).1 e
  have hin := reach_inv (A := fun t => slots (calls t).nu_bins (calls t).nbins ∪ slots (calls t).coeffs (calls t).nbins)
    (W := fun t => slots (calls t).nu_bins (calls t).nbins ∪ slots (calls t).coeffs (calls t).nbins)
    (fun t => by simpa [hP'] using (hP t).within _ _ _ _ _ _) hdis hr
  have hrun : ∀ t, (progs t).run m = ok ((calls t).run m) := fun t => by rw [hP']; exact (hP t).run _ _ _ _ _ _ _
  refine ⟨hin.no_race hdis, hin.progress fun t => ⟨_, hrun t⟩, ?_, fun hf => ⟨fun t i hi => ?_, fun a ha => ?_⟩⟩
  · obtain ⟨b', -, h⟩ := reach_bound (b := fun t => (2 + 6 * (calls t).wraps) * (calls t).nbins.toNat)
      (fun t => by simpa [hP'] using (hP t).bound _ _ _ _ _ _) hr
    omega
  · obtain ⟨m', h1, h2⟩ := hin.finished hf t
    cases (hrun t).symm.trans h1
    rw [h2 _ (.inr ⟨i, hi, rfl⟩), h2 _ (.inl ⟨i, hi, rfl⟩)]
    exact ⟨(C30_bits hc (calls t).isP _ _ _ _ _ _ m (calls t).separate).1 i hi, rfl⟩
  · refine hin.frame a fun t hat => ?_
    obtain ⟨i, hi, e⟩ | ⟨i, hi, e⟩ := hat
    · exact (ha t i hi).2 e
    · exact (ha t i hi).1 e

/-- the hypotheses of `C32_plain` are met: any number of threads share `n` frequencies -/
example (g : GrayOpacity R) (k : ℕ) (n : ℤ) (rho temp : R) : ∃ calls : Fin k → VCall R (Constructed R),
    (∀ t, (calls t).wraps = 0) ∧ (∀ t u i, (calls t).nu_bins i = (calls u).nu_bins i) ∧ (∀ t, (calls t).nbins = n) ∧
    (∀ t u, t ≠ u → ∀ i j : ℕ, (i : ℤ) < (calls t).nbins → (j : ℤ) < (calls u).nbins →
      (calls t).coeffs i ≠ (calls u).coeffs j ∧ (calls t).coeffs i ≠ (calls u).nu_bins j) ∧
    ∃ progs : Fin k → Prog R, ∀ t, (calls t).IsCode (progs t) := by
  refine ⟨fun t => ⟨_, _, g, 0, .gray g, .EmissivityPerNu, rho, temp, fun i => (k + 1) * i, fun i => (k + 1) * i + (t + 1), n,
    ⟨?_, ?_, ?_⟩⟩, fun _ => rfl, fun _ _ _ => rfl, fun _ => rfl, fun t u htu i j _ _ => ⟨?_, ?_⟩, ?_⟩
  · intro i j _ _ h
    exact Nat.eq_of_mul_eq_mul_left (Nat.succ_pos k) (Nat.add_right_cancel h)
  · intro i j _ _ h
    exact Nat.eq_of_mul_eq_mul_left (Nat.succ_pos k) h
  · intro i j _ _ h
    exact slot_ne j i (t + 1) 0 (by omega) (by omega) (by omega) h.symm
  · exact slot_ne i j (t + 1) (u + 1) (by omega) (by omega) (by have := Fin.val_ne_of_ne htu; omega)
  · exact slot_ne i j (t + 1) 0 (by omega) (by omega) (by omega)
  · choose p hp using fun t : Fin k => (C32_code (R := R) ⟨_, _, g, 0, .gray g, .EmissivityPerNu, rho, temp,
      fun i => (k + 1) * i, fun i => (k + 1) * i + (t + 1), n, _⟩).1
    exact ⟨p, hp⟩

/-- the hypotheses of `C32_wrapped_partial` are met: two threads in different unit systems with arrays of their own -/
example (g : GrayOpacity R) (n : ℤ) (rho temp : R) : ∃ calls : Bool → VCall R (Constructed R),
    (∀ t, (calls t).wraps = 1) ∧ (∀ t, (calls t).nbins = n) ∧
    (∀ t u, t ≠ u → ∀ i j : ℕ, (i : ℤ) < (calls t).nbins → (j : ℤ) < (calls u).nbins →
      (calls t).coeffs i ≠ (calls u).coeffs j ∧ (calls t).coeffs i ≠ (calls u).nu_bins j ∧
      (calls t).nu_bins i ≠ (calls u).nu_bins j) ∧
    ∃ progs : Bool → Prog R, ∀ t, (calls t).IsCode (progs t) := by
  let calls : Bool → VCall R (Constructed R) := fun t => ⟨_, _, _, 1,
    .nonCGS (bif t then Arith.lit 2 else Arith.lit 3) (Arith.lit 1) (Arith.lit 1) (Arith.lit 1) trivial trivial trivial trivial
      (.gray g), .EmissivityPerNu, rho, temp, fun i => 4 * i + (bif t then 0 else 2), fun i => 4 * i + (bif t then 1 else 3), n,
    ⟨by intro i j _ _ h; omega, by intro i j _ _ h; omega,
      by intro i j _ _ h; cases t <;> simp at h <;> omega⟩⟩
  refine ⟨calls, fun _ => rfl, fun _ => rfl, ?_, ?_⟩
  · intro t u htu i j _ _
    cases t <;> cases u <;> simp [calls] at htu ⊢ <;> omega
  · choose p hp using fun t => (C32_code (calls t)).1
    exact ⟨p, hp⟩

/-- opacity proportional to frequency, in a unit system whose time unit is two seconds -/
noncomputable def linearInUnits : NonCGSUnits ℝ (PowerLawOpacity ℝ) :=
  NonCGSUnits.construct (⟨PhysicalConstantsUnity, 1, 0, 0, 1, 0, 1, 0, 1, 1, 0, false⟩ : PowerLawOpacity ℝ) 2 1 1 1

/-- two threads: the frequency is in slot 0, the results go to slots 1 and 2 -/
noncomputable def sharedCalls (b : Bool) : VCall ℝ Built where
  O := _
  inst := inferInstance
  o := linearInUnits
  wraps := 1
  isP := .nonCGS ⟨2, 1, 1, 1⟩ ⟨by norm_num, by norm_num, by norm_num, by norm_num⟩ (.powerLaw _ PosPC_Unity)
  fn := .AbsorptionCoefficient
  rho := 1
  temp := 1
  nu_bins := fun i => 3 * i
  coeffs := fun i => if b then 3 * i + 1 else 3 * i + 2
  nbins := 1
  separate := ⟨by intro i j hi hj; omega, by intro i j hi hj; omega, by intro i j hi hj; cases b <;> simp <;> omega⟩

/-- their loads and stores -/
noncomputable def sharedProgs (b : Bool) : Prog ℝ :=
  nonCGSProg (plainProg inferInstance linearInUnits.opac_ .AbsorptionCoefficient
      (1 * linearInUnits.rho_unit_) (1 * linearInUnits.temp_unit_)) linearInUnits.freq_unit_ linearInUnits.time_unit_
    (outUnit linearInUnits .AbsorptionCoefficient) (sharedCalls b).nu_bins (sharedCalls b).coeffs 1

theorem sharedProgs_code (b : Bool) : (sharedCalls b).IsCode (sharedProgs b) :=
  ⟨_, .nonCGS linearInUnits (.powerLaw _), rfl⟩

/-- the outputs of the two threads are disjoint from each other and from the frequencies -/
theorem shared_disjoint (t u : Bool) (h : t ≠ u) (i j : ℕ) : (sharedCalls t).coeffs i ≠ (sharedCalls u).coeffs j ∧
    (sharedCalls t).coeffs i ≠ (sharedCalls u).nu_bins j := by
  cases t <;> cases u <;> simp [sharedCalls] at h ⊢ <;> omega

/-- what a thread does after it has converted the frequency -/
noncomputable def sharedRest (b : Bool) : Prog ℝ :=
  (plainProg inferInstance linearInUnits.opac_ .AbsorptionCoefficient (1 * linearInUnits.rho_unit_)
    (1 * linearInUnits.temp_unit_) (sharedCalls b).nu_bins (sharedCalls b).coeffs 1).seq
  (scaleProg2 (sharedCalls b).nu_bins linearInUnits.time_unit_ (sharedCalls b).coeffs
    (outUnit linearInUnits .AbsorptionCoefficient) 1)

theorem sharedProgs_eq (b : Bool) :
    sharedProgs b = .load 0 fun v => .store 0 (v * linearInUnits.freq_unit_) (sharedRest b) := rfl

theorem shared_step1 : Step ⟨sharedProgs, fun _ => (1 : ℝ)⟩
    ⟨Function.update sharedProgs true (.store 0 (1 * linearInUnits.freq_unit_) (sharedRest true)), fun _ => 1⟩ :=
  Step.mk true (by dsimp only; rw [sharedProgs_eq]; rfl)

theorem shared_step2 :
    Step ⟨Function.update sharedProgs true (.store 0 (1 * linearInUnits.freq_unit_) (sharedRest true)), fun _ => (1 : ℝ)⟩
      ⟨Function.update sharedProgs true (sharedRest true),
        Function.update (fun _ => 1) 0 (1 * linearInUnits.freq_unit_)⟩ := by
  have := Step.mk (c := ⟨Function.update sharedProgs true (.store 0 (1 * linearInUnits.freq_unit_) (sharedRest true)),
    fun _ => (1 : ℝ)⟩) true (p := sharedRest true) (m := Function.update (fun _ => 1) 0 (1 * linearInUnits.freq_unit_))
    (by simp only [Function.update_self]; rfl)
  simpa using this

/-- C32 fails through a unit wrapper: two threads evaluating the same wrapped opacity at the same frequency array into
disjoint outputs race on the frequency. -/
theorem C32_race : ∃ n c, Reach ⟨sharedProgs, fun _ => 1⟩ n c ∧ c.Race := by
  refine ⟨1, _, (Reach.refl _).step shared_step1, true, false, 0, by simp, ?_, ?_⟩
  · simp only [Function.update_self]; exact rfl
  · dsimp only
    rw [Function.update_of_ne (by simp), sharedProgs_eq]; exact rfl

/-- C32 fails through a unit wrapper even if every load and store is atomic: some interleaving of two threads that share a
frequency array ends with a result that differs from the scalar call. -/
theorem C32_false : ¬ ∀ (calls : Bool → VCall ℝ Built),
    (∀ t u, t ≠ u → ∀ i j : ℕ, (i : ℤ) < (calls t).nbins → (j : ℤ) < (calls u).nbins →
      (calls t).coeffs i ≠ (calls u).coeffs j ∧ (calls t).coeffs i ≠ (calls u).nu_bins j) →
    ∀ (progs : Bool → Prog ℝ), (∀ t, (calls t).IsCode (progs t)) → ∀ (m : Heap ℝ) (n : ℕ) (c : Config ℝ Bool),
      Reach ⟨progs, m⟩ n c → c.Finished → ∀ t, ∀ i : ℕ, (i : ℤ) < (calls t).nbins → c.heap ((calls t).coeffs i) =
        scalarFn (calls t).inst (calls t).o (calls t).fn (calls t).rho (calls t).temp (m ((calls t).nu_bins i)) := by
  intro h
  -- thread `true` converts the frequency, then thread `false` runs to its end, then `true` does
  have r1 : Reach (⟨sharedProgs, fun _ => 1⟩ : Config ℝ Bool) _ _ := ((Reach.refl _).step shared_step1).step shared_step2
  obtain ⟨n2, r2⟩ := reach_alone r1 false (by
    dsimp only
    rw [Function.update_of_ne (by simp)]
    exact (Program.nonCGS linearInUnits (.powerLaw _)).run .AbsorptionCoefficient 1 1 (sharedCalls false).nu_bins
      (sharedCalls false).coeffs 1 _)
  obtain ⟨n3, r3⟩ := reach_alone r2 true (m := scaleLoop2 (sharedCalls true).nu_bins linearInUnits.time_unit_
      (sharedCalls true).coeffs (outUnit linearInUnits .AbsorptionCoefficient) 1 (fillLoop _ _ _ 1 _)) (by
    dsimp only
    rw [Function.update_of_ne (by simp), Function.update_self, sharedRest, run_seq, plainProg, run_fill]
    exact run_scale2 _ _ _ _ _ _)
  have := h sharedCalls (fun t u htu i j _ _ => shared_disjoint t u htu i j) sharedProgs sharedProgs_code _ _ _ r3
    (fun t => by cases t <;> simp [Function.update_of_ne]) false 0 (by simp [sharedCalls])
  have e : scalarFn (sharedCalls false).inst (sharedCalls false).o (sharedCalls false).fn (sharedCalls false).rho
      (sharedCalls false).temp 1 = linearInUnits.opac_.AbsorptionCoefficient (1 * linearInUnits.rho_unit_)
      (1 * linearInUnits.temp_unit_) (1 * linearInUnits.freq_unit_) * linearInUnits.length_unit_ := by
    show (PhotonAPI.AbsorptionCoefficient linearInUnits 1 1 1 : ℝ) = _
    simp [PhotonAPI.AbsorptionCoefficient, areal]
  rw [e] at this
  simp [sharedCalls, linearInUnits, scalarFn, vectorFn, PhotonAPI.AbsorptionCoefficient, nonCGSVector, scaleLoop,
    PhotonAPI.AbsorptionCoefficientV, scaleLoop2, fillLoop, forLoop, NonCGSUnits.construct, inferInstance,
    PowerLawOpacity.AbsorptionCoefficient, PowerLawOpacity.OpacityScale_, PowerLawOpacity.OpacityPrefactor_, areal] at this

end Photons
namespace Neutrinos
variable {R : Type} [Arith R]

/-- C32: every opacity has a program … -/
theorem ConstructedIn.program {Q : R → Prop} {O : Type} {inst : NeutrinoAPI R O} {o : O} {k : ℕ}
    (H : ConstructedIn R Q O inst o k) : ∃ P, Program R O inst o k P := by
  induction H with
  | gray o => exact ⟨_, .gray o⟩
  | tophat o => exact ⟨_, .tophat o⟩
  | brt o => exact ⟨_, .brt o⟩
  | spiner o => exact ⟨_, .spiner o⟩
  | nonCGS t m l T _ _ _ _ _ ih => obtain ⟨P, h⟩ := ih; exact ⟨_, .nonCGS _ h⟩
  | vScaleFree _ ih => obtain ⟨P, h⟩ := ih; exact ⟨_, .vScaleFree h⟩
  | vBRTOpac _ ih => obtain ⟨P, h⟩ := ih; exact ⟨_, .vBRTOpac h⟩
  | vGray _ ih => obtain ⟨P, h⟩ := ih; exact ⟨_, .vGray h⟩
  | vTophat _ ih => obtain ⟨P, h⟩ := ih; exact ⟨_, .vTophat h⟩
  | vSpinerOpac _ ih => obtain ⟨P, h⟩ := ih; exact ⟨_, .vSpinerOpac h⟩
  | vNonCGSBRT _ ih => obtain ⟨P, h⟩ := ih; exact ⟨_, .vNonCGSBRT h⟩
  | vNonCGSGray _ ih => obtain ⟨P, h⟩ := ih; exact ⟨_, .vNonCGSGray h⟩
  | vNonCGSTophat _ ih => obtain ⟨P, h⟩ := ih; exact ⟨_, .vNonCGSTophat h⟩
  | vNonCGSSpiner _ ih => obtain ⟨P, h⟩ := ih; exact ⟨_, .vNonCGSSpiner h⟩

/-- … which, run alone, is the vectorised call -/
theorem Program.run {O : Type} {inst : NeutrinoAPI R O} {o : O} {k : ℕ} {P} (H : Program R O inst o k P) (fn : VFn)
    (rho temp Ye : R) (type : RadiationType) (nb co : Indexer) (n : ℤ) (m : Heap R) :
    (P fn rho temp Ye type nb co n).run m = vectorFn inst o fn rho temp Ye type nb co n m := by
  induction H generalizing rho temp nb co n m with
  | gray o | tophat o | brt o =>
    unfold plainProg
    cases fn <;> exact run_fill _ nb co n m
  | spiner o =>
    unfold plainProg
    rw [run_fillM]
    cases fn <;> rfl
  | nonCGS w _ ih =>
    rw [run_nonCGSM (fun nb co n m => ih _ _ nb co n m)]
    cases fn <;> rfl
  | vScaleFree _ ih | vBRTOpac _ ih | vGray _ ih | vTophat _ ih | vSpinerOpac _ ih | vNonCGSBRT _ ih
  | vNonCGSGray _ ih | vNonCGSTophat _ ih | vNonCGSSpiner _ ih =>
    rw [ih]
    cases fn <;> rfl

/-- the addresses a call touches -/
theorem Program.within {O : Type} {inst : NeutrinoAPI R O} {o : O} {k : ℕ} {P} (H : Program R O inst o k P) (fn : VFn)
    (rho temp Ye : R) (type : RadiationType) (nb co : Indexer) (n : ℤ) :
    Within (slots nb n ∪ slots co n) (slots nb n ∪ slots co n) (P fn rho temp Ye type nb co n) := by
  induction H generalizing rho temp with
  | gray o | tophat o | brt o | spiner o => exact (within_fill _ nb co n).mono subset_rfl Set.subset_union_right
  | nonCGS w _ ih => exact within_nonCGS (ih _ _) _ _ _
  | vScaleFree _ ih | vBRTOpac _ ih | vGray _ ih | vTophat _ ih | vSpinerOpac _ ih | vNonCGSBRT _ ih
  | vNonCGSGray _ ih | vNonCGSTophat _ ih | vNonCGSSpiner _ ih => exact ih _ _

/-- without a wrapper the frequencies are only read -/
theorem Program.within_plain {O : Type} {inst : NeutrinoAPI R O} {o : O} {P} (H : Program R O inst o 0 P) (fn : VFn)
    (rho temp Ye : R) (type : RadiationType) (nb co : Indexer) (n : ℤ) :
    Within (slots nb n ∪ slots co n) (slots co n) (P fn rho temp Ye type nb co n) := by
  generalize hk : (0 : ℕ) = k at H
  induction H generalizing rho temp with
  | gray o | tophat o | brt o | spiner o => exact within_fill _ nb co n
  | nonCGS w _ ih => exact absurd hk (by omega)
  | vScaleFree _ ih | vBRTOpac _ ih | vGray _ ih | vTophat _ ih | vSpinerOpac _ ih | vNonCGSBRT _ ih
  | vNonCGSGray _ ih | vNonCGSTophat _ ih | vNonCGSSpiner _ ih => exact ih _ _ hk

/-- number of loads and stores of a call -/
theorem Program.bound {O : Type} {inst : NeutrinoAPI R O} {o : O} {k : ℕ} {P} (H : Program R O inst o k P) (fn : VFn)
    (rho temp Ye : R) (type : RadiationType) (nb co : Indexer) (n : ℤ) :
    Bound (P fn rho temp Ye type nb co n) ((2 + 6 * k) * n.toNat) := by
  induction H generalizing rho temp with
  | gray o | tophat o | brt o | spiner o => exact bound_fill _ nb co n
  | nonCGS w _ ih =>
    have := bound_nonCGS (ih (rho * w.rho_unit_) (temp * w.temp_unit_)) w.freq_unit_ w.time_unit_ (outUnit w fn)
    rename_i k _ _
    rwa [show (2 + 6 * k) * n.toNat + 6 * n.toNat = (2 + 6 * (k + 1)) * n.toNat by ring] at this
  | vScaleFree _ ih | vBRTOpac _ ih | vGray _ ih | vTophat _ ih | vSpinerOpac _ ih | vNonCGSBRT _ ih
  | vNonCGSGray _ ih | vNonCGSTophat _ ih | vNonCGSSpiner _ ih => exact ih _ _

/-- C32, the programs are the code: every vectorised call has a sequence of loads and stores, and that sequence run alone
has the outcome of the call. -/
theorem C32_code (c : VCall R (Constructed R)) :
    (∃ p, c.IsCode p) ∧ ∀ p, c.IsCode p → ∀ m, p.run m = c.run m := by
  constructor
  · obtain ⟨P, h⟩ := c.isP.program
    exact ⟨_, P, h, rfl⟩
  · rintro p ⟨P, h, rfl⟩ m
    exact h.run _ _ _ _ _ _ _ _ _

/-- the scalar call for bin `i` of a vectorised call -/
def VCall.scalar {Q : (O : Type) → NeutrinoAPI R O → O → ℕ → Prop} (c : VCall R Q) (m : Heap R) (i : ℕ) : Outcome R :=
  scalarFn c.inst c.o c.fn c.rho c.temp c.Ye c.type (m (c.nu_bins i))

/-- C32, opacities without unit wrappers, in every arithmetic (bit for bit).  Any number of threads evaluate vectorised
calls, freely sharing frequency arrays; no result slot of one thread is a slot of another.  Then in every state reachable
by any interleaving: no data race; some thread can proceed unless all are done, provided the scalar calls return; at most
two accesses per bin have been made; and once all are done, every slot holds the result the scalar call returns for the
original frequency and no other memory has changed. -/
theorem C32_plain {ι : Type} [Fintype ι] [DecidableEq ι] (calls : ι → VCall R (Constructed R))
    (hw : ∀ t, (calls t).wraps = 0)
    (hd : ∀ t u, t ≠ u → ∀ i j : ℕ, (i : ℤ) < (calls t).nbins → (j : ℤ) < (calls u).nbins →
      (calls t).coeffs i ≠ (calls u).coeffs j ∧ (calls t).coeffs i ≠ (calls u).nu_bins j)
    (progs : ι → Prog R) (hp : ∀ t, (calls t).IsCode (progs t)) (m : Heap R) (n : ℕ) (c : Config R ι)
    (hr : Reach ⟨progs, m⟩ n c) :
    ¬ c.Race ∧
    ((∀ t, ∀ i : ℕ, (i : ℤ) < (calls t).nbins → ∃ v, (calls t).scalar m i = ok v) → c.Finished ∨ ∃ c', Step c c') ∧
    n ≤ ∑ t, 2 * (calls t).nbins.toNat ∧
    (c.Finished →
      (∀ t, ∀ i : ℕ, (i : ℤ) < (calls t).nbins → (calls t).scalar m i = ok (c.heap ((calls t).coeffs i))) ∧
      ∀ a, (∀ t, ∀ i : ℕ, (i : ℤ) < (calls t).nbins → a ≠ (calls t).coeffs i) → c.heap a = m a) := by
  choose P hP hP' using hp
  have hP0 : ∀ t, Program R (calls t).O (calls t).inst (calls t).o 0 (P t) := fun t => hw t ▸ hP t
  have hdis : ∀ t u, t ≠ u → ∀ a ∈ slots (calls t).coeffs (calls t).nbins,
      a ∉ slots (calls u).nu_bins (calls u).nbins ∪ slots (calls u).coeffs (calls u).nbins := by
    rintro t u htu a ⟨i, hi, rfl⟩ (⟨j, hj, e⟩ | ⟨j, hj, e⟩)
    · exact (hd t u htu i j hi hj).2 e
    · exact (hd t u htu i j hi hj).1 e
  have hin := reach_inv (A := fun t => slots (calls t).nu_bins (calls t).nbins ∪ slots (calls t).coeffs (calls t).nbins)
    (W := fun t => slots (calls t).coeffs (calls t).nbins)
    (fun t => by simpa [hP'] using (hP0 t).within_plain _ _ _ _ _ _ _ _) hdis hr
  have hrun : ∀ t, (progs t).run m = (calls t).run m := fun t => by rw [hP']; exact (hP t).run _ _ _ _ _ _ _ _ _
  have hel : ∀ t, ElementwiseM _ _ := fun t => C30_plain (hw t ▸ (calls t).isP : Constructed R (calls t).O (calls t).inst
    (calls t).o 0) (calls t).fn (calls t).rho (calls t).temp (calls t).Ye (calls t).type
  refine ⟨hin.no_race hdis, fun hs => hin.progress fun t => ?_, ?_, fun hf => ⟨fun t i hi => ?_, fun a ha => ?_⟩⟩
  · obtain ⟨m', h1, -⟩ := (hel t _ _ _ m (calls t).separate).1 (fun x => match scalarFn (calls t).inst (calls t).o
      (calls t).fn (calls t).rho (calls t).temp (calls t).Ye (calls t).type x with | ok v => v | _ => x) fun i hi => by
        obtain ⟨v, hv⟩ := hs t i hi
        have hv' : scalarFn (calls t).inst (calls t).o (calls t).fn (calls t).rho (calls t).temp (calls t).Ye (calls t).type
          (m ((calls t).nu_bins i)) = ok v := hv
        rw [hv']
    exact ⟨m', (hrun t).trans h1⟩
  · obtain ⟨b', -, h⟩ := reach_bound (b := fun t => 2 * (calls t).nbins.toNat)
      (fun t => by simpa [hP'] using (hP0 t).bound _ _ _ _ _ _ _ _) hr
    omega
  · obtain ⟨m', h1, h2⟩ := hin.finished hf t
    have e1 : (calls t).run m = ok m' := (hrun t).symm.trans h1
    have hall := (hel t _ _ _ m (calls t).separate).2 m' e1
    obtain ⟨m'', e2, h3⟩ := (hel t _ _ _ m (calls t).separate).1 (fun x => match scalarFn (calls t).inst (calls t).o
      (calls t).fn (calls t).rho (calls t).temp (calls t).Ye (calls t).type x with | ok v => v | _ => x) fun i hi => by
        obtain ⟨v, hv⟩ := hall i hi
        rw [hv]
    cases Outcome.ok.inj (e1.symm.trans e2)
    rw [h2 _ (.inr ⟨i, hi, rfl⟩), h3.results i hi]
    obtain ⟨v, hv⟩ := hall i hi
    unfold VCall.scalar
    rw [hv]
  · refine hin.frame a fun t hat => ?_
    obtain ⟨i, hi, e⟩ := hat
    exact ha t i hi e

/-- C32, opacities in any number of unit wrappers, every arithmetic whose multiplication commutes (as IEEE's does), when
no slot is shared between threads: no data race, progress, termination, and the sequential result of every call — in
every slot the scalar result, in every frequency slot what the call alone leaves there.  Missing from the full property:
shared frequency arrays, for which it is false (`Photons.C32_false`). -/
theorem C32_wrapped_partial (hc : ∀ a b : R, a * b = b * a) {ι : Type} [Fintype ι] [DecidableEq ι]
    (calls : ι → VCall R (Constructed R))
    (hd : ∀ t u, t ≠ u → ∀ i j : ℕ, (i : ℤ) < (calls t).nbins → (j : ℤ) < (calls u).nbins →
      (calls t).coeffs i ≠ (calls u).coeffs j ∧ (calls t).coeffs i ≠ (calls u).nu_bins j ∧
      (calls t).nu_bins i ≠ (calls u).nu_bins j)
    (progs : ι → Prog R) (hp : ∀ t, (calls t).IsCode (progs t)) (m : Heap R) (n : ℕ) (c : Config R ι)
    (hr : Reach ⟨progs, m⟩ n c) :
    ¬ c.Race ∧
    ((∀ t, ∀ i : ℕ, (i : ℤ) < (calls t).nbins → ∃ v, (calls t).scalar m i = ok v) → c.Finished ∨ ∃ c', Step c c') ∧
    n ≤ ∑ t, (2 + 6 * (calls t).wraps) * (calls t).nbins.toNat ∧
    (c.Finished →
      (∀ t, ∃ m', (calls t).run m = ok m' ∧ ∀ i : ℕ, (i : ℤ) < (calls t).nbins →
        (calls t).scalar m i = ok (c.heap ((calls t).coeffs i)) ∧
        c.heap ((calls t).nu_bins i) = m' ((calls t).nu_bins i)) ∧
      ∀ a, (∀ t, ∀ i : ℕ, (i : ℤ) < (calls t).nbins → a ≠ (calls t).coeffs i ∧ a ≠ (calls t).nu_bins i) →
        c.heap a = m a) := by
  choose P hP hP' using hp
  have hdis : ∀ t u, t ≠ u → ∀ a ∈ slots (calls t).nu_bins (calls t).nbins ∪ slots (calls t).coeffs (calls t).nbins,
      a ∉ slots (calls u).nu_bins (calls u).nbins ∪ slots (calls u).coeffs (calls u).nbins := by
    rintro t u htu a (⟨i, hi, rfl⟩ | ⟨i, hi, rfl⟩) (⟨j, hj, e⟩ | ⟨j, hj, e⟩)
    · exact (hd t u htu i j hi hj).2.2 e
    · exact (hd u t (Ne.symm htu) j i hj hi).2.1 e.symm
    · exact (hd t u htu i j hi hj).2.1 e
    · exact (hd t u htu i j hi hj).1 e
  have hin := reach_inv (A := fun t => slots (calls t).nu_bins (calls t).nbins ∪ slots (calls t).coeffs (calls t).nbins)
    (W := fun t => slots (calls t).nu_bins (calls t).nbins ∪ slots (calls t).coeffs (calls t).nbins)
    (fun t => by simpa [hP'] using (hP t).within _ _ _ _ _ _ _ _) hdis hr
  have hrun : ∀ t, (progs t).run m = (calls t).run m := fun t => by rw [hP']; exact (hP t).run _ _ _ _ _ _ _ _ _
  have hel : ∀ t, ∃ g, VectorWithM (scalarFn (calls t).inst (calls t).o (calls t).fn (calls t).rho (calls t).temp
      (calls t).Ye (calls t).type) g (vectorFn (calls t).inst (calls t).o (calls t).fn (calls t).rho (calls t).temp
      (calls t).Ye (calls t).type) := fun t => by
    obtain ⟨g, -, h⟩ := (calls t).isP.vectorOK hc (Q := fun _ _ => True) trivial fun _ _ _ _ _ => trivial
    exact ⟨g, h _ _ _ _ _⟩
  choose g hel using hel
  refine ⟨hin.no_race hdis, fun hs => hin.progress fun t => ?_, ?_, fun hf => ⟨fun t => ?_, fun a ha => ?_⟩⟩
  · have hs' : ∀ i : ℕ, ∃ v, (i : ℤ) < (calls t).nbins → (calls t).scalar m i = ok v := fun i => by
      by_cases hi : (i : ℤ) < (calls t).nbins
      · obtain ⟨v, hv⟩ := hs t i hi
        exact ⟨v, fun _ => hv⟩
      · exact ⟨(calls t).rho, fun h => absurd h hi⟩
    choose r hr using hs'
    obtain ⟨m', h1, -⟩ := (hel t _ _ _ m (calls t).separate).1 r hr
    exact ⟨m', (hrun t).trans h1⟩
  · obtain ⟨b', -, h⟩ := reach_bound (b := fun t => (2 + 6 * (calls t).wraps) * (calls t).nbins.toNat)
      (fun t => by simpa [hP'] using (hP t).bound _ _ _ _ _ _ _ _) hr
    omega
  · obtain ⟨m', h1, h2⟩ := hin.finished hf t
    have e1 : (calls t).run m = ok m' := (hrun t).symm.trans h1
    have hall := (hel t _ _ _ m (calls t).separate).2 m' e1
    have hs' : ∀ i : ℕ, ∃ v, (i : ℤ) < (calls t).nbins → (calls t).scalar m i = ok v := fun i => by
      by_cases hi : (i : ℤ) < (calls t).nbins
      · obtain ⟨v, hv⟩ := hall i hi
        exact ⟨v, fun _ => hv⟩
      · exact ⟨(calls t).rho, fun h => absurd h hi⟩
    choose r hr using hs'
    obtain ⟨m'', e2, h3⟩ := (hel t _ _ _ m (calls t).separate).1 r hr
    cases Outcome.ok.inj (e1.symm.trans e2)
    refine ⟨m', e1, fun i hi => ?_⟩
    rw [h2 _ (.inr ⟨i, hi, rfl⟩), h2 _ (.inl ⟨i, hi, rfl⟩), h3.results i hi]
    exact ⟨hr i hi, rfl⟩
  · refine hin.frame a fun t hat => ?_
    obtain ⟨i, hi, e⟩ | ⟨i, hi, e⟩ := hat
    · exact (ha t i hi).2 e
    · exact (ha t i hi).1 e

/-- the hypotheses of `C32_plain` are met: any number of threads share `n` frequencies, and their scalar calls return -/
example (g : GrayOpacity R) (k : ℕ) (n : ℤ) (rho temp Ye : R) : ∃ calls : Fin k → VCall R (Constructed R),
    (∀ t, (calls t).wraps = 0) ∧ (∀ t u i, (calls t).nu_bins i = (calls u).nu_bins i) ∧ (∀ t, (calls t).nbins = n) ∧
    (∀ t u, t ≠ u → ∀ i j : ℕ, (i : ℤ) < (calls t).nbins → (j : ℤ) < (calls u).nbins →
      (calls t).coeffs i ≠ (calls u).coeffs j ∧ (calls t).coeffs i ≠ (calls u).nu_bins j) ∧
    (∀ t m i, ∃ v, (calls t).scalar m i = ok v) ∧
    ∃ progs : Fin k → Prog R, ∀ t, (calls t).IsCode (progs t) := by
  refine ⟨fun t => ⟨_, _, g, 0, .gray g, .EmissivityPerNu, rho, temp, Ye, .NU_ELECTRON, fun i => (k + 1) * i,
    fun i => (k + 1) * i + (t + 1), n, ⟨?_, ?_, ?_⟩⟩, fun _ => rfl, fun _ _ _ => rfl, fun _ => rfl,
    fun t u htu i j _ _ => ⟨?_, ?_⟩, fun t m i => ⟨_, rfl⟩, ?_⟩
  · intro i j _ _ h
    exact Nat.eq_of_mul_eq_mul_left (Nat.succ_pos k) (Nat.add_right_cancel h)
  · intro i j _ _ h
    exact Nat.eq_of_mul_eq_mul_left (Nat.succ_pos k) h
  · intro i j _ _ h
    exact slot_ne j i (t + 1) 0 (by omega) (by omega) (by omega) h.symm
  · exact slot_ne i j (t + 1) (u + 1) (by omega) (by omega) (by have := Fin.val_ne_of_ne htu; omega)
  · exact slot_ne i j (t + 1) 0 (by omega) (by omega) (by omega)
  · choose p hp using fun t : Fin k => (C32_code (R := R) ⟨_, _, g, 0, .gray g, .EmissivityPerNu, rho, temp, Ye,
      .NU_ELECTRON, fun i => (k + 1) * i, fun i => (k + 1) * i + (t + 1), n, _⟩).1
    exact ⟨p, hp⟩

end Neutrinos
end Opac
