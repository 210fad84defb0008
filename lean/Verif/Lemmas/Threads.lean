import Verif.Model.Threads
import Verif.Lemmas.Outcome
import Mathlib.Data.Set.Basic
import Mathlib.Algebra.BigOperators.Group.Finset.Basic

/-! Thread programs: sequential meaning, footprints and non-interference. -/

namespace Opac.Threads
open Arith Outcome Prog

set_option linter.unusedSectionVars false

variable {R : Type} [Arith R]

/-! ## Sequential meaning -/

theorem run_seq (p q : Prog R) (m : Heap R) : (p.seq q).run m = (p.run m >>= q.run) := by
  induction p generalizing m with
  | done => rfl
  | abort s => rfl
  | ub s => rfl
  | load a k ih => exact ih _ m
  | store a v k ih => exact ih _

theorem run_foldr (body : ℕ → Prog R → Prog R) (eff : ℕ → Heap R → Outcome (Heap R))
    (h : ∀ i k m, (body i k).run m = (eff i m >>= k.run)) (l : List ℕ) (m : Heap R) :
    (l.foldr body done).run m = l.foldl (fun o i => o >>= eff i) (ok m) := by
  induction l generalizing m with
  | nil => rfl
  | cons i l ih =>
    simp only [List.foldr_cons, List.foldl_cons, h, ok_bind]
    cases he : eff i m with
    | ok m' => exact ih m'
    | abort s =>
      clear ih he
      induction l with
      | nil => rfl
      | cons j l ih => exact ih
    | ub s =>
      clear ih he
      induction l with
      | nil => rfl
      | cons j l ih => exact ih

theorem run_range (body : ℕ → Prog R → Prog R) (eff : ℕ → Heap R → Outcome (Heap R))
    (h : ∀ i k m, (body i k).run m = (eff i m >>= k.run)) (n : ℤ) (m : Heap R) :
    ((List.range n.toNat).foldr body done).run m = forLoopM n eff m := by
  rw [run_foldr body eff h]
  by_cases hn : n ≤ 0
  · rw [forLoopM_nonpos hn, Int.toNat_of_nonpos hn]; rfl
  · rw [forLoopM_cast n (by omega)]
    generalize n.toNat = k
    induction k with
    | zero => rfl
    | succ k ih =>
      rw [List.range_succ, List.foldl_append, ih, forLoopM_succ]; rfl

theorem forLoopM_pure (n : ℤ) (body : ℕ → Heap R → Heap R) (m : Heap R) :
    forLoopM n (fun i m => ok (body i m)) m = ok (forLoop n body m) := by
  by_cases hn : n ≤ 0
  · rw [forLoopM_nonpos hn, forLoop_nonpos hn]
  · rw [forLoopM_cast n (by omega), forLoop_toNat]
    generalize n.toNat = k
    induction k with
    | zero => rw [forLoopM_nonpos (by norm_num), forLoop_nonpos (by norm_num)]
    | succ k ih => rw [forLoopM_succ, forLoop_succ, ih]; rfl

/-- the loop of a plain opacity -/
theorem run_fillM (f : R → Outcome R) (nb co : Indexer) (n : ℤ) (m : Heap R) :
    (fillProg f nb co n).run m = fillLoopM f nb co n m := by
  refine run_range _ _ (fun i k m => ?_) n m
  show ((andThen (f (m (nb i))) fun w => store (co i) w k).run m) = _
  cases f (m (nb i)) <;> rfl

theorem run_fill (f : R → R) (nb co : Indexer) (n : ℤ) (m : Heap R) :
    (fillProg (fun v => ok (f v)) nb co n).run m = ok (fillLoop f nb co n m) := by
  rw [run_fillM]
  exact forLoopM_pure n _ m

theorem run_scale (a : Indexer) (u : R) (n : ℤ) (m : Heap R) :
    (scaleProg a u n).run m = ok (scaleLoop a u n m) := by
  rw [scaleLoop, ← forLoopM_pure]
  exact run_range _ _ (fun i k m => rfl) n m

theorem run_scale2 (a : Indexer) (u : R) (b : Indexer) (w : R) (n : ℤ) (m : Heap R) :
    (scaleProg2 a u b w n).run m = ok (scaleLoop2 a u b w n m) := by
  rw [scaleLoop2, ← forLoopM_pure]
  exact run_range _ _ (fun i k m => rfl) n m

theorem run_nonCGS {inner : Indexer → Indexer → ℤ → Prog R} {V : Indexer → Indexer → ℤ → Heap R → Heap R}
    (h : ∀ nb co n m, (inner nb co n).run m = ok (V nb co n m)) (fu tu ou : R) (nb co : Indexer) (n : ℤ) (m : Heap R) :
    (nonCGSProg inner fu tu ou nb co n).run m = ok (nonCGSVector V fu tu ou nb co n m) := by
  simp only [nonCGSProg, run_seq, run_scale, ok_bind, h, run_scale2]
  rfl

theorem run_nonCGSM {inner : Indexer → Indexer → ℤ → Prog R} {V : Indexer → Indexer → ℤ → Heap R → Outcome (Heap R)}
    (h : ∀ nb co n m, (inner nb co n).run m = V nb co n m) (fu tu ou : R) (nb co : Indexer) (n : ℤ) (m : Heap R) :
    (nonCGSProg inner fu tu ou nb co n).run m = nonCGSVectorM V fu tu ou nb co n m := by
  simp only [nonCGSProg, run_seq, run_scale, ok_bind, h, nonCGSVectorM]
  cases V nb co n (scaleLoop nb fu n m) with
  | ok m' => exact run_scale2 _ _ _ _ _ _
  | abort s => rfl
  | ub s => rfl

/-! ## Footprints -/

/-- the program accesses only `A` and stores only to `W` -/
def Within (A W : Set ℕ) : Prog R → Prop
  | done => True
  | Prog.abort _ => True
  | Prog.ub _ => True
  | load a k => a ∈ A ∧ ∀ v, Within A W (k v)
  | store a _ k => a ∈ A ∧ a ∈ W ∧ Within A W k

theorem within_seq {A W : Set ℕ} {p q : Prog R} (hp : Within A W p) (hq : Within A W q) : Within A W (p.seq q) := by
  induction p with
  | done => exact hq
  | abort s => trivial
  | ub s => trivial
  | load a k ih => exact ⟨hp.1, fun v => ih v (hp.2 v)⟩
  | store a v k ih => exact ⟨hp.1, hp.2.1, ih hp.2.2⟩

theorem within_foldr {A W : Set ℕ} {body : ℕ → Prog R → Prog R} {n : ℤ}
    (h : ∀ i : ℕ, (i : ℤ) < n → ∀ k, Within A W k → Within A W (body i k)) :
    Within A W ((List.range n.toNat).foldr body done) := by
  have : ∀ l : List ℕ, (∀ i ∈ l, (i : ℤ) < n) → Within A W (l.foldr body done) := by
    intro l
    induction l with
    | nil => intro _; trivial
    | cons i l ih =>
      intro hl
      exact h i (hl i (by simp)) _ (ih fun j hj => hl j (by simp [hj]))
  refine this _ fun i hi => ?_
  have := List.mem_range.1 hi
  omega

/-- the slots of an array -/
def slots (a : Indexer) (n : ℤ) : Set ℕ := {x | ∃ i : ℕ, (i : ℤ) < n ∧ x = a i}

theorem within_fill (f : R → Outcome R) (nb co : Indexer) (n : ℤ) :
    Within (slots nb n ∪ slots co n) (slots co n) (fillProg f nb co n) := by
  refine within_foldr fun i hi k hk => ⟨.inl ⟨i, hi, rfl⟩, fun v => ?_⟩
  show Within _ _ (andThen (f v) fun w => store (co i) w k)
  cases f v with
  | ok w => exact ⟨.inr ⟨i, hi, rfl⟩, ⟨i, hi, rfl⟩, hk⟩
  | abort s => trivial
  | ub s => trivial

theorem Within.mono {A W A' W' : Set ℕ} {p : Prog R} (h : Within A W p) (hA : A ⊆ A') (hW : W ⊆ W') : Within A' W' p := by
  induction p with
  | done => trivial
  | abort s => trivial
  | ub s => trivial
  | load a k ih => exact ⟨hA h.1, fun v => ih v (h.2 v)⟩
  | store a v k ih => exact ⟨hA h.1, hW h.2.1, ih h.2.2⟩

theorem within_nonCGS {inner : Indexer → Indexer → ℤ → Prog R} {nb co : Indexer} {n : ℤ}
    (h : Within (slots nb n ∪ slots co n) (slots nb n ∪ slots co n) (inner nb co n)) (fu tu ou : R) :
    Within (slots nb n ∪ slots co n) (slots nb n ∪ slots co n) (nonCGSProg inner fu tu ou nb co n) := by
  refine within_seq (within_foldr fun i hi k hk => ?_) (within_seq h (within_foldr fun i hi k hk => ?_))
  · exact ⟨.inl ⟨i, hi, rfl⟩, fun v => ⟨.inl ⟨i, hi, rfl⟩, .inl ⟨i, hi, rfl⟩, hk⟩⟩
  · exact ⟨.inl ⟨i, hi, rfl⟩, fun v => ⟨.inl ⟨i, hi, rfl⟩, .inl ⟨i, hi, rfl⟩, .inr ⟨i, hi, rfl⟩, fun v =>
      ⟨.inr ⟨i, hi, rfl⟩, .inr ⟨i, hi, rfl⟩, hk⟩⟩⟩

/-! ## Non-interference -/

/-- same outcome, and the same memory on `A` -/
def Agree (A : Set ℕ) : Outcome (Heap R) → Outcome (Heap R) → Prop
  | ok m, ok m' => ∀ a ∈ A, m a = m' a
  | Outcome.abort s, Outcome.abort s' => s = s'
  | Outcome.ub s, Outcome.ub s' => s = s'
  | _, _ => False

theorem Agree.refl {A : Set ℕ} (o : Outcome (Heap R)) : Agree A o o := by
  cases o with
  | ok m => exact fun _ _ => rfl
  | abort s => rfl
  | ub s => rfl

theorem Agree.trans {A : Set ℕ} {o o' o'' : Outcome (Heap R)} (h : Agree A o o') (h' : Agree A o' o'') : Agree A o o'' := by
  cases o <;> cases o' <;> cases o'' <;> simp only [Agree] at h h' ⊢
  · exact fun a ha => (h a ha).trans (h' a ha)
  · exact h.trans h'
  · exact h.trans h'

theorem run_agree {A W : Set ℕ} {p : Prog R} (h : Within A W p) {m m' : Heap R} (hm : ∀ a ∈ A, m a = m' a) :
    Agree A (p.run m) (p.run m') := by
  induction p generalizing m m' with
  | done => exact hm
  | abort s => rfl
  | ub s => rfl
  | load a k ih =>
    show Agree A ((k (m a)).run m) ((k (m' a)).run m')
    rw [hm a h.1]
    exact ih _ (h.2 _) hm
  | store a v k ih =>
    refine ih h.2.2 fun b hb => ?_
    by_cases hab : b = a
    · subst hab; rw [Function.update_self, Function.update_self]
    · rw [Function.update_of_ne hab, Function.update_of_ne hab]; exact hm b hb

theorem step_run {p p' : Prog R} {m m' : Heap R} (h : p.step m = some (p', m')) : p.run m = p'.run m' := by
  cases p with
  | done => cases h
  | abort s => cases h
  | ub s => cases h
  | load a k => cases h; rfl
  | store a v k => cases h; rfl

theorem step_within {A W : Set ℕ} {p p' : Prog R} {m m' : Heap R} (hp : Within A W p) (h : p.step m = some (p', m')) :
    Within A W p' ∧ ∀ a, a ∉ W → m' a = m a := by
  cases p with
  | done => cases h
  | abort s => cases h
  | ub s => cases h
  | load a k => cases h; exact ⟨hp.2 _, fun _ _ => rfl⟩
  | store a v k =>
    cases h
    refine ⟨hp.2.2, fun b hb => Function.update_of_ne ?_ _ _⟩
    rintro rfl
    exact hb hp.2.1

variable {ι : Type} [DecidableEq ι]

/-- what every thread may rely on -/
structure Inv (A W : ι → Set ℕ) (c₀ c : Config R ι) : Prop where
  within : ∀ t, Within (A t) (W t) (c.threads t)
  agree : ∀ t, Agree (A t) ((c.threads t).run c.heap) ((c₀.threads t).run c₀.heap)
  frame : ∀ a, (∀ t, a ∉ W t) → c.heap a = c₀.heap a

theorem reach_inv {A W : ι → Set ℕ} {c₀ c : Config R ι} {n : ℕ} (hw : ∀ t, Within (A t) (W t) (c₀.threads t))
    (hd : ∀ t u, t ≠ u → ∀ a ∈ W t, a ∉ A u) (h : Reach c₀ n c) : Inv A W c₀ c := by
  induction h with
  | refl => exact ⟨hw, fun t => Agree.refl _, fun _ _ => rfl⟩
  | step h s ih =>
    obtain ⟨t, hs⟩ := s
    rename_i c' n p m
    obtain ⟨h1, h2⟩ := step_within (ih.within t) hs
    refine ⟨fun u => ?_, fun u => ?_, fun a ha => (h2 a (ha t)).trans (ih.frame a ha)⟩
    · by_cases hu : u = t
      · subst hu; simpa using h1
      · simpa [Function.update_of_ne hu] using ih.within u
    · by_cases hu : u = t
      · subst hu
        show Agree _ ((Function.update c'.threads u p u).run m) _
        rw [Function.update_self, ← step_run hs]
        exact ih.agree u
      · show Agree _ ((Function.update c'.threads t p u).run m) _
        rw [Function.update_of_ne hu]
        refine Agree.trans (run_agree (ih.within u) fun a ha => ?_) (ih.agree u)
        exact h2 a fun haW => hd t u (Ne.symm hu) a haW ha

/-- no races -/
theorem Inv.no_race {A W : ι → Set ℕ} {c₀ c : Config R ι} (h : Inv A W c₀ c)
    (hd : ∀ t u, t ≠ u → ∀ a ∈ W t, a ∉ A u) : ¬ c.Race := by
  rintro ⟨t, u, a, htu, h1, h2⟩
  have ht := h.within t
  have hu := h.within u
  have e1 : a ∈ W t := by
    cases hp : c.threads t with
    | store b v k => rw [hp] at h1 ht; cases (show a = b from h1); exact ht.2.1
    | done => rw [hp] at h1; exact h1.elim
    | abort s => rw [hp] at h1; exact h1.elim
    | ub s => rw [hp] at h1; exact h1.elim
    | load b k => rw [hp] at h1; exact h1.elim
  have e2 : a ∈ A u := by
    cases hp : c.threads u with
    | store b v k => rw [hp] at h2 hu; cases (show a = b from h2); exact hu.1
    | done => rw [hp] at h2; exact h2.elim
    | abort s => rw [hp] at h2; exact h2.elim
    | ub s => rw [hp] at h2; exact h2.elim
    | load b k => rw [hp] at h2 hu; cases (show a = b from h2); exact hu.1
  exact hd t u htu a e1 e2

/-- at the end, every thread has had its sequential effect -/
theorem Inv.finished {A W : ι → Set ℕ} {c₀ c : Config R ι} (h : Inv A W c₀ c) (hf : c.Finished) (t : ι) :
    ∃ m, (c₀.threads t).run c₀.heap = ok m ∧ ∀ a ∈ A t, c.heap a = m a := by
  have := h.agree t
  rw [hf t] at this
  cases hr : (c₀.threads t).run c₀.heap with
  | ok m => rw [hr] at this; exact ⟨m, rfl, this⟩
  | abort s => rw [hr] at this; exact this.elim
  | ub s => rw [hr] at this; exact this.elim

/-! ## Number of steps -/

/-- the program performs at most `n` loads and stores -/
def Bound : Prog R → ℕ → Prop
  | done, _ => True
  | Prog.abort _, _ => True
  | Prog.ub _, _ => True
  | load _ k, n => ∃ n', n = n' + 1 ∧ ∀ v, Bound (k v) n'
  | store _ _ k, n => ∃ n', n = n' + 1 ∧ Bound k n'

theorem bound_fill (f : R → Outcome R) (nb co : Indexer) (n : ℤ) : Bound (fillProg f nb co n) (2 * n.toNat) := by
  have : ∀ l : List ℕ, Bound (l.foldr (fillBody f nb co) done) (2 * l.length) := by
    intro l
    induction l with
    | nil => trivial
    | cons i l ih =>
      refine ⟨2 * l.length + 1, by simp; ring, fun v => ?_⟩
      show Bound (andThen (f v) fun w => store (co i) w _) _
      cases f v with
      | ok w => exact ⟨_, rfl, ih⟩
      | abort s => trivial
      | ub s => trivial
  have h := this (List.range n.toNat)
  rwa [List.length_range] at h

theorem reach_bound [Fintype ι] {c₀ c : Config R ι} {n : ℕ} {b : ι → ℕ} (hb : ∀ t, Bound (c₀.threads t) (b t))
    (h : Reach c₀ n c) : ∃ b' : ι → ℕ, (∀ t, Bound (c.threads t) (b' t)) ∧ n + ∑ t, b' t = ∑ t, b t := by
  induction h with
  | refl => exact ⟨b, hb, by simp⟩
  | step h s ih =>
    obtain ⟨b', h1, h2⟩ := ih
    obtain ⟨t, hs⟩ := s
    rename_i c' n p m
    have ht := h1 t
    have : ∃ k, b' t = k + 1 ∧ Bound p k := by
      cases hp : c'.threads t with
      | done => rw [hp] at hs; cases hs
      | abort s => rw [hp] at hs; cases hs
      | ub s => rw [hp] at hs; cases hs
      | load a k =>
        rw [hp] at hs ht
        cases hs
        obtain ⟨k', e, hk⟩ := ht
        exact ⟨k', e, hk _⟩
      | store a v k =>
        rw [hp] at hs ht
        cases hs
        exact ht
    obtain ⟨k, hk, hk'⟩ := this
    refine ⟨Function.update b' t k, fun u => ?_, ?_⟩
    · by_cases hu : u = t
      · subst hu; simpa using hk'
      · simpa [Function.update_of_ne hu] using h1 u
    · have e1 := Finset.add_sum_erase Finset.univ b' (Finset.mem_univ t)
      have e2 := Finset.add_sum_erase Finset.univ (Function.update b' t k) (Finset.mem_univ t)
      have e3 : ∑ u ∈ Finset.univ.erase t, Function.update b' t k u = ∑ u ∈ Finset.univ.erase t, b' u :=
        Finset.sum_congr rfl fun u hu => Function.update_of_ne (Finset.ne_of_mem_erase hu) _ _
      rw [e3, Function.update_self] at e2
      omega

theorem Bound.mono {p : Prog R} {n : ℕ} (h : Bound p n) (k : ℕ) : Bound p (n + k) := by
  induction p generalizing n with
  | done => trivial
  | abort s => trivial
  | ub s => trivial
  | load a q ih =>
    obtain ⟨n', rfl, hk⟩ := h
    exact ⟨n' + k, by ring, fun v => ih v (hk v)⟩
  | store a v q ih =>
    obtain ⟨n', rfl, hk⟩ := h
    exact ⟨n' + k, by ring, ih hk⟩

theorem bound_seq {p q : Prog R} {a b : ℕ} (hp : Bound p a) (hq : Bound q b) : Bound (p.seq q) (a + b) := by
  induction p generalizing a with
  | done => rw [Nat.add_comm]; exact hq.mono a
  | abort s => trivial
  | ub s => trivial
  | load x k ih =>
    obtain ⟨n', rfl, hk⟩ := hp
    exact ⟨n' + b, by ring, fun v => ih v (hk v)⟩
  | store x v k ih =>
    obtain ⟨n', rfl, hk⟩ := hp
    exact ⟨n' + b, by ring, ih hk⟩

theorem bound_scale (a : Indexer) (u : R) (n : ℤ) : Bound (scaleProg a u n) (2 * n.toNat) := by
  have : ∀ l : List ℕ, Bound (l.foldr (fun i k => load (a i) fun v => store (a i) (v * u) k) done) (2 * l.length) := by
    intro l
    induction l with
    | nil => trivial
    | cons i l ih => exact ⟨2 * l.length + 1, by simp; ring, fun v => ⟨_, rfl, ih⟩⟩
  have h := this (List.range n.toNat)
  rwa [List.length_range] at h

theorem bound_scale2 (a : Indexer) (u : R) (b : Indexer) (w : R) (n : ℤ) :
    Bound (scaleProg2 a u b w n) (4 * n.toNat) := by
  have : ∀ l : List ℕ, Bound (l.foldr (fun i k => load (a i) fun v => store (a i) (v * u)
      (load (b i) fun v => store (b i) (v * w) k)) done) (4 * l.length) := by
    intro l
    induction l with
    | nil => trivial
    | cons i l ih =>
      exact ⟨4 * l.length + 3, by simp; ring, fun v => ⟨_, rfl, ⟨_, rfl, fun v => ⟨_, rfl, ih⟩⟩⟩⟩
  have h := this (List.range n.toNat)
  rwa [List.length_range] at h

theorem bound_nonCGS {inner : Indexer → Indexer → ℤ → Prog R} {nb co : Indexer} {n : ℤ} {b : ℕ}
    (h : Bound (inner nb co n) b) (fu tu ou : R) : Bound (nonCGSProg inner fu tu ou nb co n) (b + 6 * n.toNat) := by
  have := bound_seq (bound_scale nb fu n) (bound_seq h (bound_scale2 nb tu co ou n))
  rwa [show 2 * n.toNat + (b + 4 * n.toNat) = b + 6 * n.toNat by ring] at this

/-! ## Progress and solo runs -/

/-- a thread that would return on its own never gets stuck -/
theorem Inv.progress {A W : ι → Set ℕ} {c₀ c : Config R ι} (h : Inv A W c₀ c)
    (hr : ∀ t, ∃ m, (c₀.threads t).run c₀.heap = ok m) : c.Finished ∨ ∃ c', Step c c' := by
  by_cases hf : c.Finished
  · exact .inl hf
  · right
    obtain ⟨t, ht⟩ := not_forall.1 hf
    obtain ⟨m, hm⟩ := hr t
    have ha := h.agree t
    rw [hm] at ha
    cases hp : c.threads t with
    | done => exact absurd hp ht
    | abort s => rw [hp] at ha; exact ha.elim
    | ub s => rw [hp] at ha; exact ha.elim
    | load a k => exact ⟨_, Step.mk t (by rw [hp]; rfl)⟩
    | store a v k => exact ⟨_, Step.mk t (by rw [hp]; rfl)⟩

/-- one thread runs to its end while the others wait -/
theorem reach_alone {c₀ c : Config R ι} {n : ℕ} (h : Reach c₀ n c) (t : ι) {m : Heap R}
    (hr : (c.threads t).run c.heap = ok m) : ∃ n', Reach c₀ n' ⟨Function.update c.threads t done, m⟩ := by
  generalize hp : c.threads t = p at hr
  induction p generalizing c n with
  | done =>
    cases hr
    refine ⟨n, ?_⟩
    rwa [← hp, Function.update_eq_self]
  | abort s => cases hr
  | ub s => cases hr
  | load a k ih =>
    have s : Step c ⟨Function.update c.threads t (k (c.heap a)), c.heap⟩ := Step.mk t (by rw [hp]; rfl)
    obtain ⟨n', h'⟩ := ih (c.heap a) (h.step s) (by simp) hr
    exact ⟨n', by simpa using h'⟩
  | store a v k ih =>
    have s : Step c ⟨Function.update c.threads t k, Function.update c.heap a v⟩ := Step.mk t (by rw [hp]; rfl)
    obtain ⟨n', h'⟩ := ih (h.step s) (by simp) hr
    exact ⟨n', by simpa using h'⟩

end Opac.Threads
