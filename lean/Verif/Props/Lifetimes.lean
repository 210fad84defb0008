import Verif.Lemmas.MemoryObjects
import Verif.Props.Groups

/-!
# Objects that hold tables: who owns what (C64)

The mean opacities, the mean scattering opacities and the tabulated neutrino opacity hold pointers to tables.  A program
is a list of calls — constructors, `GetOnDevice`, moves into a unit wrapper, lookups, `Save`, `Finalize` — on named
objects (`Verif.Model.Memory`); `Verif.Spec.Lifetimes` states the rules it has to follow and what it may then expect.
-/

namespace Opac.Lifetimes
open Memory Spiner Hdf Outcome

variable {R : Type} [Arith R]

/-- **C64**: a program that follows the rules — any number of objects, calls in any order — gets from every call what
the object's own value determines: no call reads a table that was released, none releases a table twice, and no call on
one object changes what another returns.  An object made by `GetOnDevice` outlives the object it was made from, and
`Finalize` may be called again. -/
theorem C64_values (h : List (Call R)) (hf : Follows h start) : (runAll h Sys.init).1 = results h start :=
  (Inv.start.runAll hf).1

/-- **C64 (releasing)**: if moreover every call completes, no NuLib file is loaded and no object is in use at the end, no
table is left allocated.  Missing from the full claim: programs with a NuLib load (`C64_nulib_false`) and programs whose
constructors or `Save` end in an error (`C64_abort_false`). -/
theorem C64_released_partial (h : List (Call R)) (hf : Follows h start) (hc : AllComplete h start)
    (hn : ∀ c ∈ h, ¬ IsNuLib c) (hd : ∀ k, ¬ (atEnd h start k).IsLive) :
    ∀ b, (runAll h Sys.init).2.mem.cell b = none := by
  intro b
  by_contra hb
  obtain ⟨k, v, o, h1, -⟩ := (Inv.start.runAll hf).2 hc hn (fun b hb => absurd rfl hb) b hb
  exact hd k (by rw [h1]; trivial)

/-- a constructor that returns a value runs in memory -/
theorem make_ok {m : Mem R} (hm : Good m) {c : Ctor R} {v : Val R} (hv : c.value = .ok v) :
    ∃ o m', c.run m = (.ok o, m') ∧ Good m' ∧ o.view m' = (.ok v, m') ∧ o.blocks.Nodup := by
  have M := c.made hm
  rcases hr : c.run m with ⟨r, m'⟩
  rw [hr, hv] at M
  cases r with
  | ok o => exact ⟨o, m', rfl, M.1.good, M.2.1, M.2.2.1⟩
  | abort e => exact M.2.elim
  | ub w => exact M.2.elim

/-- **C64 (NuLib) is false**: loading a NuLib file allocates two arrays that no object ever owns, so every successful
load that is then finalized leaves two more blocks allocated. -/
theorem C64_nulib_false {kappa : Option (ℕ → R)} {dist : Neutrinos.FermiDirac R} {pc : PC R} {junk : ℕ → ℕ → R}
    {f : Option (Neutrinos.SpinerOpacity.NuLibFile R)} {v : Val R}
    (hv : (Ctor.spinerNuLib kappa dist pc junk f).value = .ok v) (n : ℕ) :
    let h := (List.replicate n [Call.make 0 (.spinerNuLib kappa dist pc junk f), .finalize 0]).flatten
    Follows h start ∧ AllComplete h start ∧ (∀ k, ¬ (atEnd h start k).IsLive) ∧
      Set.ncard {b | (runAll h Sys.init).2.mem.cell b ≠ none} = 2 * n := by
  set c := Ctor.spinerNuLib kappa dist pc junk f with hc
  have one : ∀ S : Sys R, Good S.mem → ∃ S' : Sys R, Good S'.mem ∧
      (∀ cs, (runAll (Call.make 0 c :: .finalize 0 :: cs) S).2 = (runAll cs S').2) ∧
      {b | S'.mem.cell b ≠ none} = {b | S.mem.cell b ≠ none} ∪ {S.mem.next, S.mem.next + 1} := by
    intro S hS
    obtain ⟨o, m', h1, h2, h3, h4⟩ := make_ok hS hv
    obtain ⟨o', h5, -⟩ := Obj.Finalize_ok h4 (Obj.view_live h3)
    have h6 : (Call.make 0 c).exec S = (.ok .nothing, { objs := Function.update S.objs 0 (some o), mem := m' }) := by
      simp only [Call.exec, h1]
    refine ⟨{ objs := Function.update (Function.update S.objs 0 (some o)) 0 (some o'), mem := m'.drop o.blocks },
      fun b hb => by simp only [drop_cell, h2 b hb, ite_self], fun cs => ?_, ?_⟩
    · have h7 : (Call.finalize 0).exec { objs := Function.update S.objs 0 (some o), mem := m' } = (.ok .nothing,
          { objs := Function.update (Function.update S.objs 0 (some o)) 0 (some o'), mem := m'.drop o.blocks }) := by
        simp only [Call.exec, Sys.on, Function.update_self, h5]
      rw [runAll_cons_ok h6 (by simp), runAll_cons_ok h7 (by simp)]
    · rw [hc] at h1
      simp only [Ctor.run] at h1
      obtain ⟨hb, m1, h7, h8⟩ := bind_inv h1
      simp only [pure_apply, Prod.mk.injEq, Outcome.ok.injEq] at h8
      obtain ⟨rfl, rfl⟩ := h8
      obtain ⟨h9, h10⟩ := SpinerBox.LoadFromNuLib_leak h7
      ext b
      have hbl : (Obj.spiner dist pc hb).blocks = hb.blocks := rfl
      simp only [drop_cell, hbl, Set.mem_ofPred_eq, Set.mem_union, Set.mem_insert_iff, Set.mem_singleton_iff]
      by_cases hin : b ∈ hb.blocks
      · have hge : S.mem.next + 2 ≤ b := by
          rw [h9] at hin
          simp only [List.mem_cons, List.not_mem_nil, or_false] at hin
          omega
        simp only [hin, if_true, ne_eq, not_true_eq_false, false_iff, not_or, not_not]
        exact ⟨hS b (by omega), by omega, by omega⟩
      · rw [if_neg hin, h10 b]
        simp [hin]
  have many : ∀ n, ∀ S : Sys R, Good S.mem → {b | S.mem.cell b ≠ none}.Finite →
      Set.ncard {b | (runAll (List.replicate n [Call.make 0 c, .finalize 0]).flatten S).2.mem.cell b ≠ none} =
        Set.ncard {b | S.mem.cell b ≠ none} + 2 * n := by
    intro n
    induction n with
    | zero => intro S _ _; simp [runAll]
    | succ n ih =>
      intro S hS hfin
      obtain ⟨S', g, hr, hs⟩ := one S hS
      rw [List.replicate_succ, List.flatten_cons]
      simp only [List.cons_append, List.nil_append]
      rw [hr, ih S' g (by rw [hs]; exact hfin.union (by simp)), hs,
        Set.ncard_union_eq (by
          rw [Set.disjoint_right]
          rintro b (rfl | rfl) hb
          · exact hb (hS _ le_rfl)
          · exact hb (hS _ (by omega))) hfin (by simp), Set.ncard_pair (by omega)]
      ring
  have follows : ∀ n, ∀ s : ℕ → Slot R, (∀ k, ¬ (s k).IsLive) →
      Follows (List.replicate n [Call.make 0 c, .finalize 0]).flatten s ∧
      AllComplete (List.replicate n [Call.make 0 c, .finalize 0]).flatten s ∧
      ∀ k, ¬ (atEnd (List.replicate n [Call.make 0 c, .finalize 0]).flatten s k).IsLive := by
    intro n
    induction n with
    | zero => intro s hs; exact ⟨trivial, trivial, hs⟩
    | succ n ih =>
      intro s hs
      rw [List.replicate_succ, List.flatten_cons]
      simp only [List.cons_append, List.nil_append]
      have ha : after s (.make 0 c) = Function.update s 0 (.live v) := by simp only [after, hv]
      have hr : result s (.make 0 c) = .ok .nothing := by simp only [result, hv, Outcome.map']
      have hr' : result (Function.update s 0 (.live v)) (.finalize 0) = .ok .nothing := rfl
      obtain ⟨i1, i2, i3⟩ := ih (after (Function.update s 0 (.live v)) (.finalize 0)) (by
        intro k
        simp only [after]
        by_cases e : k = 0
        · subst e; simp [Slot.IsLive]
        · simp only [Function.update_of_ne e]; exact hs k)
      refine ⟨⟨hs 0, ?_⟩, ⟨⟨_, hr⟩, ?_⟩, ?_⟩
      · rw [ha]
        exact ⟨.inl (by simp [Slot.IsLive]), i1⟩
      · rw [ha]
        exact ⟨⟨_, hr'⟩, i2⟩
      · simp only [atEnd, hr, ha, hr']
        exact i3
  obtain ⟨f1, f2, f3⟩ := follows n start (fun k => by simp [start, Slot.IsLive])
  refine ⟨f1, f2, f3, ?_⟩
  have := many n Sys.init (fun _ _ => rfl) (by simp [Sys.init, Mem.fresh])
  rw [this]
  simp [Sys.init, Mem.fresh]

/-- **C64 (errors) is false**: a constructor that ends in an error gives the program no object to finalize, but keeps what
it had allocated; here a file that has a Planck table and no Rosseland table. -/
theorem C64_abort_false (pc : PC R) (junk : ℕ → R) (d : DataBox R) :
    let r := runAll [Call.make 0 (.photonsFile pc junk false (some [(Photons.MGTables.opacNames.planck, d)]))] Sys.init
    (∃ e, r.1 = [.abort e]) ∧ (∀ k, r.2.objs k = none) ∧ ∃ b, r.2.mem.cell b = some d := by
  have hp : H5File.get [(Photons.MGTables.opacNames.planck, d)] Photons.MGTables.opacNames.planck = some d := by
    simp [H5File.get]
  have hr : H5File.get [(Photons.MGTables.opacNames.planck, d)] Photons.MGTables.opacNames.rosseland = none := by
    simp [H5File.get, Photons.MGTables.opacNames]
  have hb : H5File.get [(Photons.MGTables.opacNames.planck, d)] Photons.MGTables.opacNames.bounds = none := by
    simp [H5File.get, Photons.MGTables.opacNames]
  have h : (Ctor.photonsFile pc junk false (some [(Photons.MGTables.opacNames.planck, d)])).run Mem.fresh =
      (.abort "HDF5 error", Mem.fresh.push d) := by
    simp only [Ctor.run, MGBox.LoadFile, bind_apply, lift, hp, hr, hb]
    simp [loadHDF, alloc, Mem.push, Mem.fresh, bind_apply, pure_apply]
  have e : (Call.make 0 (.photonsFile pc junk false (some [(Photons.MGTables.opacNames.planck, d)]))).exec Sys.init =
      (.abort "HDF5 error", { objs := fun _ => none, mem := Mem.fresh.push d }) := by
    simp only [Call.exec, Sys.init, h]
  simp only [runAll_cons_ok e (by simp)]
  exact ⟨⟨_, rfl⟩, fun _ => rfl, 0, by simp [runAll, push_cell, Mem.fresh]⟩

/-- **C64 (copies) is false**: a plain copy shares the tables of the original.  After `Finalize` of one of them every
method of the other reads released memory, and its own `Finalize` releases the tables a second time. -/
theorem C64_copy_false {c : Ctor R} {v : Val R} (hv : c.value = .ok v) (method : Val R → Outcome R) :
    (∃ w, (runAll [.make 0 c, .copy 0 1, .finalize 0, .lookup 1 method] Sys.init).1 =
      [.ok .nothing, .ok .nothing, .ok .nothing, .ub w]) ∧
    ∃ w, (runAll [.make 0 c, .copy 0 1, .finalize 0, .finalize 1] Sys.init).1 =
      [.ok .nothing, .ok .nothing, .ok .nothing, .ub w] := by
  obtain ⟨o, m', h1, h2, h3, h4⟩ := make_ok (m := Mem.fresh) (fun _ _ => rfl) hv
  obtain ⟨o', h5, -⟩ := Obj.Finalize_ok h4 (Obj.view_live h3)
  obtain ⟨⟨w, hw⟩, w', hw'⟩ := Obj.dangling h3
  have e1 : (Call.make 0 c).exec Sys.init = (.ok .nothing, { objs := Function.update (fun _ => none) 0 (some o), mem := m' }) := by
    simp only [Call.exec, Sys.init, h1]
  have e2 : (Call.copy 0 1).exec { objs := Function.update (fun _ => none) 0 (some o), mem := m' } =
      (.ok .nothing, { objs := Function.update (Function.update (fun _ => none) 0 (some o)) 1 (some o), mem := m' }) := by
    simp only [Call.exec, Sys.on, Function.update_self, pure_apply]
  have e3 : (Call.finalize 0).exec
      { objs := Function.update (Function.update (fun _ => none) 0 (some o)) 1 (some o), mem := m' } = (.ok .nothing,
      { objs := Function.update (Function.update (Function.update (fun _ => none) 0 (some o)) 1 (some o)) 0 (some o'),
        mem := m'.drop o.blocks }) := by
    simp only [Call.exec, Sys.on, Function.update_of_ne (show (0 : ℕ) ≠ 1 by decide), Function.update_self, h5]
  refine ⟨⟨w, ?_⟩, w', ?_⟩
  · rw [runAll_cons_ok e1 (by simp), runAll_cons_ok e2 (by simp), runAll_cons_ok e3 (by simp)]
    simp only [runAll, Call.exec, Sys.on, Function.update_of_ne (show (1 : ℕ) ≠ 0 by decide), Function.update_self,
      bind_apply, hw]
  · rw [runAll_cons_ok e1 (by simp), runAll_cons_ok e2 (by simp), runAll_cons_ok e3 (by simp)]
    simp only [runAll, Call.exec, Sys.on, Function.update_of_ne (show (1 : ℕ) ≠ 0 by decide), Function.update_self, hw']

/-! ## the hypotheses are met -/

section
open Photons

/-- the constructor from tables of `Verif.Props.Groups` -/
noncomputable def exCtor (pc : PC XR) : Ctor XR := .photonsTables pc (fun _ => .fin 0) exBox exBox exBounds

theorem exCtor_value (pc : PC XR) : (exCtor pc).value = .ok (.photons ⟨pc, exTables⟩) := by
  simp only [exCtor, Ctor.value, MeanOpacityBase.ofTables, exTables_load, Outcome.map']

/-- a program: construct, copy to the device, finalize the original, wrap the device object in units, look a group up
through the wrapper, finalize twice; and again with the first name -/
noncomputable def exProgram (pc : PC XR) (u : XR) (q : Val XR → Outcome XR) : List (Call XR) :=
  [.make 0 (exCtor pc), .getOnDevice 0 1, .finalize 0, .wrap 1 2 u u u u, .lookup 2 q, .finalize 2, .finalize 2,
    .make 0 (exCtor pc), .finalize 0]

/-- it follows the rules, its calls complete, nothing is left in use, and the lookup sees the value the original had -/
example (pc : PC XR) (u x : XR) (q : Val XR → Outcome XR) (hq : q (.wrapped u u u u (.photons ⟨pc, exTables⟩)) = .ok x) :
    Follows (exProgram pc u q) start ∧ AllComplete (exProgram pc u q) start ∧
      (∀ c ∈ exProgram pc u q, ¬ IsNuLib c) ∧ (∀ k, ¬ (atEnd (exProgram pc u q) start k).IsLive) ∧
      (runAll (exProgram pc u q) Sys.init).1 =
        [.ok .nothing, .ok .nothing, .ok .nothing, .ok .nothing, .ok (.number x), .ok .nothing, .ok .nothing,
          .ok .nothing, .ok .nothing] := by
  have hf : Follows (exProgram pc u q) start := by
    simp [exProgram, Follows, Allowed, after, exCtor_value, start, Slot.IsLive]
  refine ⟨hf, ?_, ?_, ?_, ?_⟩
  · simp [exProgram, AllComplete, Completes, result, withLive, after, exCtor_value, hq, Outcome.map']
  · simp [exProgram, IsNuLib, exCtor]
  · intro k
    simp [exProgram, atEnd, result, withLive, after, exCtor_value, hq, Outcome.map']
    simp only [Function.update_apply]
    split_ifs <;> simp [Slot.IsLive, start]
  · rw [C64_values _ hf]
    simp [exProgram, results, result, withLive, after, exCtor_value, hq, Outcome.map']

/-- `C64_copy_false` is about some constructor -/
example (pc : PC XR) : ∃ v, (exCtor pc).value = .ok v := ⟨_, exCtor_value pc⟩

/-- `C64_nulib_false` is about some file: one cell, one species -/
example (dist : Neutrinos.FermiDirac XR) (pc : PC XR) :
    ∃ v, (Ctor.spinerNuLib (some fun _ => .fin 1) dist pc (fun _ _ => .fin 0)
      (some ⟨some 1, some 1, some 1, some 1, some 1, some [.fin 1], some [.fin 1], some [.fin 1], some [.fin 1],
        some fun _ => .fin 1, some fun _ => .fin 1⟩)).value = .ok v := ⟨_, rfl⟩
end

end Opac.Lifetimes
