import Verif.Lemmas.Outcome
import Verif.Model.Hdf

/-! Lemmas about saving a list of datasets with distinct names. -/

namespace Opac.Hdf
open Spiner Outcome

variable {R : Type}

/-- create the file, save the datasets of `l` in order, close -/
def saveList (l : List (String × DataBox R)) : List (Op R) :=
  .create :: (l.map (fun e => Op.save e.1 e.2) ++ [.close])

theorem execAll_saves (l : List (String × DataBox R)) (f : H5File R) :
    execAll (l.map (fun e => Op.save e.1 e.2)) (some f) = some (l.reverse ++ f) := by
  induction l generalizing f with
  | nil => rfl
  | cons e l ih =>
    show execAll (l.map _) (some (e :: f)) = _
    rw [ih]; simp

theorem execAll_append (a b : List (Op R)) (f : Option (H5File R)) :
    execAll (a ++ b) f = execAll b (execAll a f) := by
  simp [execAll, List.foldl_append]

/-- the saves and the close, with a valid handle: the sum of the statuses is at most zero, and it is zero only if no
call failed -/
theorem runSave_saves (l : List (String × DataBox R)) (fails : ℕ → Bool) (i : ℕ) (f : H5File R) :
    (runSave (l.map (fun e => Op.save e.1 e.2) ++ [.close]) fails i true (some f)).1 ≤ 0 ∧
    ((runSave (l.map (fun e => Op.save e.1 e.2) ++ [.close]) fails i true (some f)).1 = 0 →
      (∀ k ≤ l.length, fails (i + k) = false)) ∧
    ((∀ k ≤ l.length, fails (i + k) = false) →
      runSave (l.map (fun e => Op.save e.1 e.2) ++ [.close]) fails i true (some f) = (0, some (l.reverse ++ f))) := by
  induction l generalizing i f with
  | nil =>
    cases hi : fails i with
    | true =>
      simp [runSave, hi]
    | false => simp [runSave, hi]
  | cons e l ih =>
    rw [List.map_cons, List.cons_append]
    cases hi : fails i with
    | true =>
      simp only [runSave, hi, Bool.true_or, if_true]
      refine ⟨?_, fun h => ?_, fun h => ?_⟩
      · have := (ih (i + 1) f).1; omega
      · have := (ih (i + 1) f).1; omega
      · have := h 0 (by simp); simp [hi] at this
    | false =>
      have e1 : runSave (Op.save e.1 e.2 :: (l.map (fun e => Op.save e.1 e.2) ++ [.close])) fails i true (some f) =
          runSave (l.map (fun e => Op.save e.1 e.2) ++ [.close]) fails (i + 1) true (some (e :: f)) := by
        simp [runSave, hi, Op.exec]
      rw [e1]
      obtain ⟨h1, h2, h3⟩ := ih (i + 1) (e :: f)
      refine ⟨h1, fun h k hk => ?_, fun h => ?_⟩
      · cases k with
        | zero => exact hi
        | succ k =>
          have := h2 h k (by simpa using hk)
          rwa [show i + (k + 1) = i + 1 + k by omega]
      · rw [h3 (fun k hk => by
          have := h (k + 1) (by simpa using hk)
          rwa [show i + (k + 1) = i + 1 + k by omega] at this)]
        simp

theorem runSave_invalid (l : List (String × DataBox R)) (fails : ℕ → Bool) (i : ℕ) (f : Option (H5File R)) :
    (runSave (l.map (fun e => Op.save e.1 e.2) ++ [.close]) fails i false f).1 < 0 := by
  induction l generalizing i with
  | nil => simp [runSave]
  | cons e l ih =>
    have := ih (i + 1)
    simp only [List.map_cons, List.cons_append, runSave, Bool.not_false, Bool.or_true, if_true]
    omega

theorem runSave_saveList (l : List (String × DataBox R)) (fails : ℕ → Bool) (before : Option (H5File R)) :
    ((runSave (saveList l) fails 0 false before).1 = 0 → ∀ k < l.length + 2, fails k = false) ∧
    ((∀ k < l.length + 2, fails k = false) → runSave (saveList l) fails 0 false before = (0, some l.reverse)) := by
  unfold saveList
  cases h0 : fails 0 with
  | true =>
    simp only [runSave, h0, if_true]
    refine ⟨fun h => ?_, fun h => ?_⟩
    · have := runSave_invalid l fails 1 before
      simp only [Nat.zero_add] at h; omega
    · have := h 0 (by omega); simp [h0] at this
  | false =>
    simp only [runSave, h0, Op.exec]
    obtain ⟨_, h2, h3⟩ := runSave_saves l fails 1 []
    refine ⟨fun h k hk => ?_, fun h => ?_⟩
    · cases k with
      | zero => exact h0
      | succ k =>
        have := h2 h k (by omega)
        rwa [Nat.add_comm] at this
    · have := h3 (fun k hk => h _ (by omega))
      simpa using this

/-- what a crash during the save leaves: the old file, no readable file, or a part of the new datasets -/
theorem crash_saveList {l : List (String × DataBox R)} {before after : Option (H5File R)}
    (h : CrashState (saveList l) before after) :
    after = before ∨ after = none ∨ ∃ part : H5File R, after = some part ∧ part.Sublist l.reverse := by
  obtain ⟨k, -, hk⟩ := h
  rcases hk with ⟨-, rfl⟩ | ⟨hc, rfl | ⟨f, part, hf, hsub, rfl⟩⟩
  · exact .inl rfl
  · exact .inr (.inl rfl)
  · refine .inr (.inr ⟨part, rfl, hsub.trans ?_⟩)
    cases k with
    | zero => simp at hc
    | succ k =>
      unfold saveList at hf
      rw [List.take_succ_cons] at hf
      change execAll _ (some []) = some f at hf
      rw [List.take_append] at hf
      rw [execAll_append, ← List.map_take, execAll_saves] at hf
      have hcl : ∀ n : ℕ, ∀ g : H5File R, execAll (([Op.close] : List (Op R)).take n) (some g) = some g := by
        intro n g
        cases n with
        | zero => rfl
        | succ n => simp [execAll, Op.exec]
      rw [hcl] at hf
      injection hf with hf
      subst hf
      rw [List.append_nil, List.reverse_take]
      exact List.drop_sublist _ _

theorem get_mem {f : H5File R} {n : String} {b : DataBox R} (h : f.get n = some b) : (n, b) ∈ f := by
  unfold H5File.get at h
  rw [Option.map_eq_some_iff] at h
  obtain ⟨⟨m, c⟩, hf, rfl⟩ := h
  have h1 := List.find?_some hf
  simp only [beq_iff_eq] at h1
  subst h1
  exact List.mem_of_find?_eq_some hf

/-- with distinct names, whatever is found in a part of the datasets is what was saved -/
theorem get_part {l : List (String × DataBox R)} (hn : (l.map Prod.fst).Nodup) {part : H5File R}
    (hs : part.Sublist l.reverse) {n : String} {b c : DataBox R} (h : part.get n = some b) (hc : (n, c) ∈ l) : b = c := by
  have hb : (n, b) ∈ l := by simpa using hs.subset (get_mem h)
  have := List.inj_on_of_nodup_map hn hb hc rfl
  exact (Prod.mk.inj this).2

/-- with distinct names, a complete file gives back every dataset -/
theorem get_complete {l : List (String × DataBox R)} (hn : (l.map Prod.fst).Nodup) {n : String} {c : DataBox R}
    (hc : (n, c) ∈ l) : H5File.get (l.reverse : H5File R) n = some c := by
  have hsome : (H5File.get (l.reverse : H5File R) n).isSome := by
    unfold H5File.get
    rw [Option.isSome_map, List.find?_isSome]
    exact ⟨(n, c), by simpa using hc, by simp⟩
  obtain ⟨b, hb⟩ := Option.isSome_iff_exists.1 hsome
  rw [hb, get_part hn (List.Sublist.refl _) hb hc]

end Opac.Hdf
