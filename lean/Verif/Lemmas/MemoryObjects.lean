import Verif.Lemmas.Memory
import Verif.Spec.Lifetimes

/-! Lemmas about the methods of an object that holds tables, and about whole programs. -/

namespace Opac.Memory
open Arith Spiner Hdf

variable {R : Type}

theorem read_inv {x : Box} {d : DataBox R} {m m' : Mem R} (h : read x m = (.ok d, m')) :
    ∃ b, x = .owner b ∧ m.cell b = some d ∧ m' = m := by
  cases x with
  | empty => simp [read, lift] at h
  | owner b =>
    cases hb : m.cell b with
    | none => simp [read, hb] at h
    | some e => simp [read, hb] at h; exact ⟨b, rfl, by rw [hb, h.1], h.2.symm⟩

theorem bind_inv {α β : Type} {x : MemM R α} {f : α → MemM R β} {m m' : Mem R} {b : β} (h : (x >>= f) m = (.ok b, m')) :
    ∃ a m1, x m = (.ok a, m1) ∧ f a m1 = (.ok b, m') := by
  rw [bind_apply] at h
  rcases hx : x m with ⟨o, m1⟩
  rw [hx] at h
  cases o with
  | ok a => exact ⟨a, m1, rfl, h⟩
  | abort e => simp at h
  | ub w => simp at h

section
variable [Arith R]
open Photons Neutrinos

theorem MGBox.view_inv {h : MGBox} {t : MGTables R} {m m' : Mem R} (hv : h.view m = (.ok t, m')) :
    ∃ p r g n dP dR dG, h = ⟨.owner p, .owner r, .owner g, n⟩ ∧ m.cell p = some dP ∧ m.cell r = some dR ∧
      m.cell g = some dG ∧ t = ⟨dP, dR, dG.toList, n⟩ ∧ m' = m := by
  obtain ⟨lp, lr, gb, n⟩ := h
  obtain ⟨dP, m1, h1, h2⟩ := bind_inv hv
  obtain ⟨p, rfl, hp, rfl⟩ := read_inv h1
  obtain ⟨dR, m1, h3, h4⟩ := bind_inv h2
  obtain ⟨r, rfl, hr, rfl⟩ := read_inv h3
  obtain ⟨dG, m1, h5, h6⟩ := bind_inv h4
  obtain ⟨g, rfl, hg, rfl⟩ := read_inv h5
  simp only [pure_apply, Prod.mk.injEq, Outcome.ok.injEq] at h6
  exact ⟨p, r, g, n, dP, dR, dG, rfl, hp, hr, hg, h6.1.symm, h6.2.symm⟩

theorem MeanBox.view_inv {h : MeanBox} {t : MeanTables R} {m m' : Mem R} (hv : h.view m = (.ok t, m')) :
    ∃ p r dP dR, h = ⟨.owner p, .owner r⟩ ∧ m.cell p = some dP ∧ m.cell r = some dR ∧ t = ⟨dP, dR⟩ ∧ m' = m := by
  obtain ⟨lp, lr⟩ := h
  obtain ⟨dP, m1, h1, h2⟩ := bind_inv hv
  obtain ⟨p, rfl, hp, rfl⟩ := read_inv h1
  obtain ⟨dR, m1, h3, h4⟩ := bind_inv h2
  obtain ⟨r, rfl, hr, rfl⟩ := read_inv h3
  simp only [pure_apply, Prod.mk.injEq, Outcome.ok.injEq] at h4
  exact ⟨p, r, dP, dR, rfl, hp, hr, h4.1.symm, h4.2.symm⟩

theorem SpinerBox.view_inv {dist : FermiDirac R} {pc : PC R} {h : SpinerBox} {o : SpinerOpacity R} {m m' : Mem R}
    (hv : h.view dist pc m = (.ok o, m')) :
    ∃ a j J N da dj dJ dN, h = ⟨.owner a, .owner j, .owner J, .owner N⟩ ∧ m.cell a = some da ∧ m.cell j = some dj ∧
      m.cell J = some dJ ∧ m.cell N = some dN ∧ o = ⟨dist, pc, da, dj, dJ, dN⟩ ∧ m' = m := by
  obtain ⟨la, lj, lJ, lN⟩ := h
  obtain ⟨da, m1, h1, h2⟩ := bind_inv hv
  obtain ⟨a, rfl, ha, rfl⟩ := read_inv h1
  obtain ⟨dj, m1, h3, h4⟩ := bind_inv h2
  obtain ⟨j, rfl, hj, rfl⟩ := read_inv h3
  obtain ⟨dJ, m1, h5, h6⟩ := bind_inv h4
  obtain ⟨J, rfl, hJ, rfl⟩ := read_inv h5
  obtain ⟨dN, m1, h7, h8⟩ := bind_inv h6
  obtain ⟨N, rfl, hN, rfl⟩ := read_inv h7
  simp only [pure_apply, Prod.mk.injEq, Outcome.ok.injEq] at h8
  exact ⟨a, j, J, N, da, dj, dJ, dN, rfl, ha, hj, hJ, hN, h8.1.symm, h8.2.symm⟩

/-- memory without the blocks of `l` -/
def Mem.drop (m : Mem R) (l : List ℕ) : Mem R := { m with cell := fun b => if b ∈ l then none else m.cell b }

omit [Arith R] in
@[simp] theorem drop_next (m : Mem R) (l : List ℕ) : (m.drop l).next = m.next := rfl

omit [Arith R] in
theorem drop_cell (m : Mem R) (l : List ℕ) (b : ℕ) : (m.drop l).cell b = if b ∈ l then none else m.cell b := rfl

omit [Arith R] in
theorem drop_drop (m : Mem R) (l l' : List ℕ) : (m.drop l).drop l' = m.drop (l ++ l') := by
  simp only [Mem.drop, Mem.mk.injEq, and_true]
  funext b
  by_cases h1 : b ∈ l <;> by_cases h2 : b ∈ l' <;> simp [h1, h2]

omit [Arith R] in
theorem drop_nil (m : Mem R) : m.drop [] = m := by simp [Mem.drop]

omit [Arith R] in
/-- finalizing a box whose block is allocated -/
theorem finalize_ok {x : Box} {m : Mem R} (h : ∀ b ∈ x.blocks, m.cell b ≠ none) :
    finalize x m = (.ok .empty, m.drop x.blocks) := by
  cases x with
  | empty => simp [finalize, Box.blocks, drop_nil]
  | owner b =>
    have := h b (by simp [Box.blocks])
    cases hb : m.cell b with
    | none => exact absurd hb this
    | some d =>
      simp only [finalize, hb, Box.blocks, Mem.drop, Prod.mk.injEq, true_and, Mem.mk.injEq, and_true]
      funext c
      simp [Function.update_apply]

/-- the blocks of an object are released; the object is left empty -/
theorem Obj.Finalize_ok {o : Obj R} {m : Mem R} (hn : o.blocks.Nodup) (h : ∀ b ∈ o.blocks, m.cell b ≠ none) :
    ∃ o', o.Finalize m = (.ok o', m.drop o.blocks) ∧ o'.blocks = [] := by
  have mg : ∀ h : MGBox, h.blocks.Nodup → (∀ b ∈ h.blocks, m.cell b ≠ none) →
      h.Finalize m = (.ok ⟨.empty, .empty, .empty, h.ngroups⟩, m.drop h.blocks) := by
    intro h hn hb
    simp only [MGBox.blocks, List.nodup_append, List.mem_append] at hn hb
    obtain ⟨⟨n1, n2, n3⟩, n4, n5⟩ := hn
    simp only [MGBox.Finalize, bind_apply]
    rw [finalize_ok fun b hh => hb b (.inl (.inl hh))]
    simp only
    rw [finalize_ok fun b hh => by
      rw [drop_cell, if_neg fun hc => (n3 b hc b hh) rfl]; exact hb b (.inl (.inr hh))]
    simp only
    rw [finalize_ok fun b hh => by
      rw [drop_cell, if_neg fun hc => (n5 b (.inr hc) b hh) rfl, drop_cell,
        if_neg fun hc => (n5 b (.inl hc) b hh) rfl]
      exact hb b (.inr hh)]
    simp only [pure_apply, drop_drop, MGBox.blocks]
  have mn : ∀ h : MeanBox, h.blocks.Nodup → (∀ b ∈ h.blocks, m.cell b ≠ none) →
      h.Finalize m = (.ok ⟨.empty, .empty⟩, m.drop h.blocks) := by
    intro h hn hb
    simp only [MeanBox.blocks, List.nodup_append, List.mem_append] at hn hb
    obtain ⟨n1, n2, n3⟩ := hn
    simp only [MeanBox.Finalize, bind_apply]
    rw [finalize_ok fun b hh => hb b (.inl hh)]
    simp only
    rw [finalize_ok fun b hh => by
      rw [drop_cell, if_neg fun hc => (n3 b hc b hh) rfl]; exact hb b (.inr hh)]
    simp only [pure_apply, drop_drop, MeanBox.blocks]
  have sp : ∀ h : SpinerBox, h.blocks.Nodup → (∀ b ∈ h.blocks, m.cell b ≠ none) →
      h.Finalize m = (.ok ⟨.empty, .empty, .empty, .empty⟩, m.drop h.blocks) := by
    intro h hn hb
    simp only [SpinerBox.blocks, List.nodup_append, List.mem_append] at hn hb
    obtain ⟨⟨⟨n1, n2, n3⟩, n4, n5⟩, n6, n7⟩ := hn
    simp only [SpinerBox.Finalize, bind_apply]
    rw [finalize_ok fun b hh => hb b (.inl (.inl (.inl hh)))]
    simp only
    rw [finalize_ok fun b hh => by
      rw [drop_cell, if_neg fun hc => (n3 b hc b hh) rfl]; exact hb b (.inl (.inl (.inr hh)))]
    simp only
    rw [finalize_ok fun b hh => by
      rw [drop_cell, if_neg fun hc => (n5 b (.inr hc) b hh) rfl, drop_cell,
        if_neg fun hc => (n5 b (.inl hc) b hh) rfl]
      exact hb b (.inl (.inr hh))]
    simp only
    rw [finalize_ok fun b hh => by
      rw [drop_cell, if_neg fun hc => (n7 b (.inr hc) b hh) rfl, drop_cell,
        if_neg fun hc => (n7 b (.inl (.inr hc)) b hh) rfl, drop_cell,
        if_neg fun hc => (n7 b (.inl (.inl hc)) b hh) rfl]
      exact hb b (.inr hh)]
    simp only [pure_apply, drop_drop, SpinerBox.blocks]
  induction o with
  | photons pc h' =>
    exact ⟨.photons pc _, by simp only [Obj.Finalize, bind_apply, mg h' hn h, pure_apply]; rfl, rfl⟩
  | photonsS pc h' =>
    exact ⟨.photonsS pc _, by simp only [Obj.Finalize, bind_apply, mg h' hn h, pure_apply]; rfl, rfl⟩
  | neutrinos pc h' =>
    exact ⟨.neutrinos pc _, by simp only [Obj.Finalize, bind_apply, mn h' hn h, pure_apply]; rfl, rfl⟩
  | neutrinosS dist pc h' =>
    exact ⟨.neutrinosS dist pc _, by simp only [Obj.Finalize, bind_apply, mn h' hn h, pure_apply]; rfl, rfl⟩
  | spiner dist pc h' =>
    exact ⟨.spiner dist pc _, by simp only [Obj.Finalize, bind_apply, sp h' hn h, pure_apply]; rfl, rfl⟩
  | wrapped t ms l k o ih =>
    obtain ⟨o', h1, h2⟩ := ih hn h
    exact ⟨.wrapped t ms l k o', by simp only [Obj.Finalize, bind_apply, h1, pure_apply]; rfl, h2⟩

/-- what an object reads as depends on its own blocks only -/
theorem Obj.view_frame {o : Obj R} {v : Val R} {m m' : Mem R} (hv : o.view m = (.ok v, m))
    (h : ∀ b ∈ o.blocks, m'.cell b = m.cell b) : o.view m' = (.ok v, m') := by
  have mg : ∀ (h : MGBox) (t : MGTables R), h.view m = (.ok t, m) → (∀ b ∈ h.blocks, m'.cell b = m.cell b) →
      h.view m' = (.ok t, m') := by
    intro h t hv hb
    obtain ⟨p, r, g, n, dP, dR, dG, rfl, hp, hr, hg, rfl, -⟩ := MGBox.view_inv hv
    exact MGBox.view_ok (by rw [hb p (by simp [MGBox.blocks, Box.blocks]), hp])
      (by rw [hb r (by simp [MGBox.blocks, Box.blocks]), hr]) (by rw [hb g (by simp [MGBox.blocks, Box.blocks]), hg])
  have mn : ∀ (h : MeanBox) (t : MeanTables R), h.view m = (.ok t, m) → (∀ b ∈ h.blocks, m'.cell b = m.cell b) →
      h.view m' = (.ok t, m') := by
    intro h t hv hb
    obtain ⟨p, r, dP, dR, rfl, hp, hr, rfl, -⟩ := MeanBox.view_inv hv
    exact MeanBox.view_ok (by rw [hb p (by simp [MeanBox.blocks, Box.blocks]), hp])
      (by rw [hb r (by simp [MeanBox.blocks, Box.blocks]), hr])
  have sp : ∀ dist pc (h : SpinerBox) (t : SpinerOpacity R), h.view dist pc m = (.ok t, m) →
      (∀ b ∈ h.blocks, m'.cell b = m.cell b) → h.view dist pc m' = (.ok t, m') := by
    intro dist pc h t hv hb
    obtain ⟨a, j, J, N, da, dj, dJ, dN, rfl, ha, hj, hJ, hN, rfl, -⟩ := SpinerBox.view_inv hv
    exact SpinerBox.view_ok (by rw [hb a (by simp [SpinerBox.blocks, Box.blocks]), ha])
      (by rw [hb j (by simp [SpinerBox.blocks, Box.blocks]), hj])
      (by rw [hb J (by simp [SpinerBox.blocks, Box.blocks]), hJ])
      (by rw [hb N (by simp [SpinerBox.blocks, Box.blocks]), hN])
  induction o generalizing v with
  | photons pc h' =>
    obtain ⟨t, m1, h1, h2⟩ := bind_inv hv
    obtain ⟨-, rfl⟩ := Prod.mk.inj h2
    obtain ⟨rfl⟩ := (Prod.mk.inj h2).1
    exact view_photons (mg h' t h1 h)
  | photonsS pc h' =>
    obtain ⟨t, m1, h1, h2⟩ := bind_inv hv
    obtain ⟨-, rfl⟩ := Prod.mk.inj h2
    obtain ⟨rfl⟩ := (Prod.mk.inj h2).1
    exact view_photonsS (mg h' t h1 h)
  | neutrinos pc h' =>
    obtain ⟨t, m1, h1, h2⟩ := bind_inv hv
    obtain ⟨-, rfl⟩ := Prod.mk.inj h2
    obtain ⟨rfl⟩ := (Prod.mk.inj h2).1
    exact view_neutrinos (mn h' t h1 h)
  | neutrinosS dist pc h' =>
    obtain ⟨t, m1, h1, h2⟩ := bind_inv hv
    obtain ⟨-, rfl⟩ := Prod.mk.inj h2
    obtain ⟨rfl⟩ := (Prod.mk.inj h2).1
    exact view_neutrinosS (mn h' t h1 h)
  | spiner dist pc h' =>
    obtain ⟨t, m1, h1, h2⟩ := bind_inv hv
    obtain ⟨-, rfl⟩ := Prod.mk.inj h2
    obtain ⟨rfl⟩ := (Prod.mk.inj h2).1
    exact view_spiner (sp dist pc h' t h1 h)
  | wrapped t ms l k o ih =>
    obtain ⟨w, m1, h1, h2⟩ := bind_inv hv
    obtain ⟨-, rfl⟩ := Prod.mk.inj h2
    obtain ⟨rfl⟩ := (Prod.mk.inj h2).1
    have := ih h1 h
    simp only [Obj.view, bind_apply, this, pure_apply]

/-- an object that can be read has its blocks allocated -/
theorem Obj.view_live {o : Obj R} {v : Val R} {m : Mem R} (hv : o.view m = (.ok v, m)) :
    ∀ b ∈ o.blocks, m.cell b ≠ none := by
  induction o generalizing v with
  | photons pc h' =>
    obtain ⟨t, m1, h1, -⟩ := bind_inv hv
    obtain ⟨p, r, g, n, dP, dR, dG, rfl, hp, hr, hg, -⟩ := MGBox.view_inv h1
    simp [Obj.blocks, MGBox.blocks, Box.blocks, hp, hr, hg]
  | photonsS pc h' =>
    obtain ⟨t, m1, h1, -⟩ := bind_inv hv
    obtain ⟨p, r, g, n, dP, dR, dG, rfl, hp, hr, hg, -⟩ := MGBox.view_inv h1
    simp [Obj.blocks, MGBox.blocks, Box.blocks, hp, hr, hg]
  | neutrinos pc h' =>
    obtain ⟨t, m1, h1, -⟩ := bind_inv hv
    obtain ⟨p, r, dP, dR, rfl, hp, hr, -⟩ := MeanBox.view_inv h1
    simp [Obj.blocks, MeanBox.blocks, Box.blocks, hp, hr]
  | neutrinosS dist pc h' =>
    obtain ⟨t, m1, h1, -⟩ := bind_inv hv
    obtain ⟨p, r, dP, dR, rfl, hp, hr, -⟩ := MeanBox.view_inv h1
    simp [Obj.blocks, MeanBox.blocks, Box.blocks, hp, hr]
  | spiner dist pc h' =>
    obtain ⟨t, m1, h1, -⟩ := bind_inv hv
    obtain ⟨a, j, J, N, da, dj, dJ, dN, rfl, ha, hj, hJ, hN, -⟩ := SpinerBox.view_inv h1
    simp [Obj.blocks, SpinerBox.blocks, Box.blocks, ha, hj, hJ, hN]
  | wrapped t ms l k o ih =>
    obtain ⟨w, m1, h1, h2⟩ := bind_inv hv
    obtain ⟨-, rfl⟩ := Prod.mk.inj h2
    exact ih h1

omit [Arith R] in
theorem getOnDevice_bind {β : Type} {b : ℕ} {d : DataBox R} {m : Mem R} (h : m.cell b = some d) (f : Box → MemM R β) :
    (getOnDevice (.owner b) >>= f) m = f (.owner m.next) (m.push d) := by
  rw [bind_apply]; simp only [getOnDevice]; rw [read_bind h]; rfl

omit [Arith R] in
theorem Good.lt {m : Mem R} (hm : Good m) {b : ℕ} {d : DataBox R} (h : m.cell b = some d) : b < m.next := by
  by_contra hc
  rw [hm b (by omega)] at h
  cases h

/-- `GetOnDevice` makes a second object with the same value in fresh blocks -/
theorem Obj.GetOnDevice_made {o : Obj R} {v : Val R} {m : Mem R} (hm : Good m) (hv : o.view m = (.ok v, m)) :
    Made Obj.view Obj.blocks True m (o.GetOnDevice m) (.ok v) := by
  have e0 := Ext.refl hm
  have mg : ∀ (h : MGBox) (t : MGTables R), h.view m = (.ok t, m) →
      Made MGBox.view MGBox.blocks True m (h.GetOnDevice m) (.ok t) := by
    intro h t hv
    obtain ⟨p, r, g, n, dP, dR, dG, rfl, hp, hr, hg, rfl, -⟩ := MGBox.view_inv hv
    have lp := hm.lt hp
    have lr := hm.lt hr
    have lg := hm.lt hg
    unfold MGBox.GetOnDevice
    rw [getOnDevice_bind hp, getOnDevice_bind (d := dR) (by rw [push_cell, if_neg (by omega), hr]),
      getOnDevice_bind (d := dG) (by rw [push_cell, if_neg (by simp; omega), push_cell, if_neg (by omega), hg])]
    refine Made.done (((e0.push _).push _).push _) (MGBox.view_ok (by cells) (by cells) (by cells)) ?_ ?_ ?_
    · simp [MGBox.blocks, Box.blocks, Nat.add_assoc]
    · simp [MGBox.blocks, Box.blocks, Nat.add_assoc]
    · intro _ b hb
      have := hm b hb
      simp only [push_cell, push_next, MGBox.blocks, Box.blocks]
      intro h
      simp only [List.cons_append, List.nil_append, List.mem_cons, List.not_mem_nil, or_false]
      by_contra hne
      simp only [not_or] at hne
      simp [hne.1, hne.2.1, hne.2.2, this] at h
  have mn : ∀ (h : MeanBox) (t : MeanTables R), h.view m = (.ok t, m) →
      Made MeanBox.view MeanBox.blocks True m (h.GetOnDevice m) (.ok t) := by
    intro h t hv
    obtain ⟨p, r, dP, dR, rfl, hp, hr, rfl, -⟩ := MeanBox.view_inv hv
    have lp := hm.lt hp
    have lr := hm.lt hr
    unfold MeanBox.GetOnDevice
    rw [getOnDevice_bind hp, getOnDevice_bind (d := dR) (by rw [push_cell, if_neg (by omega), hr])]
    refine Made.done ((e0.push _).push _) (MeanBox.view_ok (by cells) (by cells)) ?_ ?_ ?_
    · simp [MeanBox.blocks, Box.blocks]
    · simp [MeanBox.blocks, Box.blocks]
    · intro _ b hb
      have := hm b hb
      simp only [push_cell, push_next, MeanBox.blocks, Box.blocks]
      intro h
      simp only [List.cons_append, List.nil_append, List.mem_cons, List.not_mem_nil, or_false]
      by_contra hne
      simp only [not_or] at hne
      simp [hne.1, hne.2, this] at h
  have sp : ∀ dist pc (h : SpinerBox) (t : SpinerOpacity R), h.view dist pc m = (.ok t, m) →
      Made (SpinerBox.view dist pc) SpinerBox.blocks True m (h.GetOnDevice m) (.ok t) := by
    intro dist pc h t hv
    obtain ⟨a, j, J, N, da, dj, dJ, dN, rfl, ha, hj, hJ, hN, rfl, -⟩ := SpinerBox.view_inv hv
    have la := hm.lt ha
    have lj := hm.lt hj
    have lJ := hm.lt hJ
    have lN := hm.lt hN
    unfold SpinerBox.GetOnDevice
    rw [getOnDevice_bind ha, getOnDevice_bind (d := dj) (by rw [push_cell, if_neg (by omega), hj]),
      getOnDevice_bind (d := dJ) (by rw [push_cell, if_neg (by simp; omega), push_cell, if_neg (by omega), hJ]),
      getOnDevice_bind (d := dN) (by
        rw [push_cell, if_neg (by simp; omega), push_cell, if_neg (by simp; omega), push_cell, if_neg (by omega), hN])]
    refine Made.done ((((e0.push _).push _).push _).push _)
      (SpinerBox.view_ok (by cells) (by cells) (by cells) (by cells)) ?_ ?_ ?_
    · simp [SpinerBox.blocks, Box.blocks, Nat.add_assoc]
    · simp [SpinerBox.blocks, Box.blocks, Nat.add_assoc]
    · intro _ b hb
      have := hm b hb
      simp only [push_cell, push_next, SpinerBox.blocks, Box.blocks]
      intro h
      simp only [List.cons_append, List.nil_append, List.mem_cons, List.not_mem_nil, or_false]
      by_contra hne
      simp only [not_or] at hne
      simp [hne.1, hne.2.1, hne.2.2.1, hne.2.2.2, this] at h
  induction o generalizing v with
  | photons pc h' =>
    obtain ⟨t, m1, h1, h2⟩ := bind_inv hv
    obtain ⟨-, rfl⟩ := Prod.mk.inj h2
    obtain ⟨rfl⟩ := (Prod.mk.inj h2).1
    exact (mg h' t h1).map (fV := fun t => Val.photons ⟨pc, t⟩) (fun a v m' => view_photons) (fun _ => rfl)
  | photonsS pc h' =>
    obtain ⟨t, m1, h1, h2⟩ := bind_inv hv
    obtain ⟨-, rfl⟩ := Prod.mk.inj h2
    obtain ⟨rfl⟩ := (Prod.mk.inj h2).1
    exact (mg h' t h1).map (fV := fun t => Val.photonsS ⟨pc, t⟩) (fun a v m' => view_photonsS) (fun _ => rfl)
  | neutrinos pc h' =>
    obtain ⟨t, m1, h1, h2⟩ := bind_inv hv
    obtain ⟨-, rfl⟩ := Prod.mk.inj h2
    obtain ⟨rfl⟩ := (Prod.mk.inj h2).1
    exact (mn h' t h1).map (fV := fun t => Val.neutrinos ⟨pc, t⟩) (fun a v m' => view_neutrinos) (fun _ => rfl)
  | neutrinosS dist pc h' =>
    obtain ⟨t, m1, h1, h2⟩ := bind_inv hv
    obtain ⟨-, rfl⟩ := Prod.mk.inj h2
    obtain ⟨rfl⟩ := (Prod.mk.inj h2).1
    exact (mn h' t h1).map (fV := fun t => Val.neutrinosS ⟨dist, pc, t⟩) (fun a v m' => view_neutrinosS) (fun _ => rfl)
  | spiner dist pc h' =>
    obtain ⟨t, m1, h1, h2⟩ := bind_inv hv
    obtain ⟨-, rfl⟩ := Prod.mk.inj h2
    obtain ⟨rfl⟩ := (Prod.mk.inj h2).1
    exact (sp dist pc h' t h1).map (fV := Val.spiner) (fun a v m' => view_spiner) (fun _ => rfl)
  | wrapped t ms l k o ih =>
    obtain ⟨w, m1, h1, h2⟩ := bind_inv hv
    obtain ⟨-, rfl⟩ := Prod.mk.inj h2
    obtain ⟨rfl⟩ := (Prod.mk.inj h2).1
    exact (ih h1).map (fV := Val.wrapped t ms l k)
      (fun a v m' h => by simp only [Obj.view, bind_apply, h, pure_apply]) (fun _ => rfl)

/-- `Save` returns what the value says and leaves no block behind -/
theorem Obj.Save_ok {o : Obj R} {v : Val R} {m : Mem R} (hm : Good m) (hv : o.view m = (.ok v, m)) (junk : ℕ → R)
    (fails : ℕ → Bool) (f : Option (H5File R)) :
    ((o.Save junk fails f m).1 = v.Save junk fails f) ∧ Ext m (o.Save junk fails f m).2 ∧
      (∀ e, v.Save junk fails f = .ok e → ∀ b, m.next ≤ b → (o.Save junk fails f m).2.cell b = none) := by
  have e0 := Ext.refl hm
  have mg : ∀ (nm : MGTables.Names) (h : MGBox) (t : MGTables R), h.view m = (.ok t, m) →
      ((h.Save nm junk fails f m).1 = t.Save nm junk fails f) ∧ Ext m (h.Save nm junk fails f m).2 ∧
      (∀ e, t.Save nm junk fails f = .ok e → ∀ b, m.next ≤ b → (h.Save nm junk fails f m).2.cell b = none) := by
    intro nm h t hv
    have hval : t.Save nm junk fails f = (ExportGroupBounds t.groupBounds t.ngroups).bind fun gb =>
        (if (runSave [.create, .save nm.planck (t.ExportTables_ junk).1, .save nm.rosseland (t.ExportTables_ junk).2,
          .save nm.bounds (DataBox.ofList gb (lit 0)), .close] fails 0 false f).1 ≠ 0 then
            Outcome.abort "HDF5 error" else .ok ()).bind fun _ =>
        .ok (runSave [.create, .save nm.planck (t.ExportTables_ junk).1, .save nm.rosseland (t.ExportTables_ junk).2,
          .save nm.bounds (DataBox.ofList gb (lit 0)), .close] fails 0 false f).2 := by
      unfold MGTables.Save MGTables.SaveOps
      cases ExportGroupBounds t.groupBounds t.ngroups with
      | ok gb =>
        simp only [Outcome.bind]
        show (if _ then _ else _) = _
        split_ifs <;> rfl
      | abort e => rfl
      | ub w => rfl
    rw [hval]
    unfold MGBox.Save
    have hb : ∀ (k : MGTables R → MemM R (Option (H5File R))), (h.view >>= k) m = k t m := by
      intro k; rw [bind_apply, hv]
    rw [hb, alloc_bind, alloc_bind]
    generalize (t.ExportTables_ junk).1 = kP
    generalize (t.ExportTables_ junk).2 = kR
    cases hE : ExportGroupBounds t.groupBounds t.ngroups with
    | abort e => exact ⟨rfl, (e0.push _).push _, fun e h => by cases h⟩
    | ub w => exact ⟨rfl, (e0.push _).push _, fun e h => by cases h⟩
    | ok gb =>
      rw [lift_bind_ok rfl, alloc_bind]
      simp only [push_next]
      rw [read_bind (d := kP) (by cells), read_bind (d := kR) (by cells),
        read_bind (d := DataBox.ofList gb (lit 0)) (by cells),
        finalize_bind (d := kP) (by cells), finalize_bind (d := kR) (by cells),
        finalize_bind (d := DataBox.ofList gb (lit 0)) (by cells)]
      have hE : Ext m ((((((m.push kP).push kR).push (DataBox.ofList gb (lit 0))).set m.next none).set (m.next + 1)
          none).set (m.next + 1 + 1) none) :=
        (((((e0.push _).push _).push _).set _ (by omega) (by simp <;> omega)).set _ (by omega) (by simp <;> omega)).set _
          (by omega) (by simp <;> omega)
      have hc : ∀ b, m.next ≤ b → ((((((m.push kP).push kR).push (DataBox.ofList gb (lit 0))).set m.next none).set
          (m.next + 1) none).set (m.next + 1 + 1) none).cell b = none := by
        intro b hb
        have := hm b hb
        simp only [set_cell, push_cell, push_next]
        split_ifs <;> first | rfl | exact this
      by_cases hs : (runSave [.create, .save nm.planck kP, .save nm.rosseland kR,
          .save nm.bounds (DataBox.ofList gb (lit 0)), .close] fails 0 false f).1 ≠ 0
      · simp only [Outcome.bind, if_pos hs]
        exact ⟨rfl, hE, fun e h => hc⟩
      · simp only [Outcome.bind, if_neg hs]
        exact ⟨rfl, hE, fun e h => hc⟩
  induction o generalizing v with
  | photons pc h' =>
    obtain ⟨t, m1, h1, h2⟩ := bind_inv hv
    obtain ⟨-, rfl⟩ := Prod.mk.inj h2
    obtain ⟨rfl⟩ := (Prod.mk.inj h2).1
    exact mg _ h' t h1
  | photonsS pc h' =>
    obtain ⟨t, m1, h1, h2⟩ := bind_inv hv
    obtain ⟨-, rfl⟩ := Prod.mk.inj h2
    obtain ⟨rfl⟩ := (Prod.mk.inj h2).1
    exact mg _ h' t h1
  | neutrinos pc h' =>
    obtain ⟨t, m1, h1, h2⟩ := bind_inv hv
    obtain ⟨-, rfl⟩ := Prod.mk.inj h2
    obtain ⟨rfl⟩ := (Prod.mk.inj h2).1
    simp only [Obj.Save, bind_apply, h1]
    exact ⟨rfl, e0, fun _ _ => hm⟩
  | neutrinosS dist pc h' =>
    obtain ⟨t, m1, h1, h2⟩ := bind_inv hv
    obtain ⟨-, rfl⟩ := Prod.mk.inj h2
    obtain ⟨rfl⟩ := (Prod.mk.inj h2).1
    simp only [Obj.Save, bind_apply, h1]
    exact ⟨rfl, e0, fun _ _ => hm⟩
  | spiner dist pc h' =>
    obtain ⟨t, m1, h1, h2⟩ := bind_inv hv
    obtain ⟨-, rfl⟩ := Prod.mk.inj h2
    obtain ⟨rfl⟩ := (Prod.mk.inj h2).1
    simp only [Obj.Save, bind_apply, h1]
    exact ⟨rfl, e0, fun _ _ => hm⟩
  | wrapped t ms l k o ih =>
    obtain ⟨w, m1, h1, h2⟩ := bind_inv hv
    obtain ⟨-, rfl⟩ := Prod.mk.inj h2
    obtain ⟨rfl⟩ := (Prod.mk.inj h2).1
    exact ih (v := w) h1

open Lifetimes

/-- the state of the program agrees with what it knows about its variables -/
structure Inv (s : ℕ → Slot R) (S : Sys R) : Prop where
  good : Good S.mem
  live : ∀ k v, s k = .live v → ∃ o, S.objs k = some o ∧ o.view S.mem = (.ok v, S.mem) ∧ o.blocks.Nodup
  apart : ∀ k k' v v' o o', k ≠ k' → s k = .live v → s k' = .live v' → S.objs k = some o → S.objs k' = some o' →
    ∀ b ∈ o.blocks, b ∉ o'.blocks
  done : ∀ k, s k = .finalized → ∃ o, S.objs k = some o ∧ o.blocks = []

omit [Arith R] in
/-- every allocated block belongs to an object that is in use -/
def NoLeak (s : ℕ → Slot R) (S : Sys R) : Prop :=
  ∀ b, S.mem.cell b ≠ none → ∃ k v o, s k = .live v ∧ S.objs k = some o ∧ b ∈ o.blocks

theorem Inv.start : Inv (R := R) start Sys.init where
  good := fun _ _ => rfl
  live := fun _ _ h => by cases h
  apart := fun _ _ _ _ _ _ _ h => by cases h
  done := fun _ h => by cases h

theorem Inv.below {s : ℕ → Slot R} {S : Sys R} (I : Inv s S) {k : ℕ} {v : Val R} {o : Obj R} (hk : s k = .live v)
    (ho : S.objs k = some o) : ∀ b ∈ o.blocks, b < S.mem.next := by
  obtain ⟨o', h1, h2, -⟩ := I.live k v hk
  obtain rfl : o' = o := by rw [h1] at ho; exact Option.some.inj ho
  intro b hb
  obtain ⟨d, hd⟩ := Option.ne_none_iff_exists'.mp (Obj.view_live h2 b hb)
  exact I.good.lt hd

/-- memory grows, the objects stay -/
theorem Inv.grow {s : ℕ → Slot R} {S : Sys R} (I : Inv s S) {m : Mem R} (E : Ext S.mem m) :
    Inv s { S with mem := m } where
  good := E.good
  live := fun k v h => by
    obtain ⟨o, h1, h2, h3⟩ := I.live k v h
    exact ⟨o, h1, Obj.view_frame h2 fun b hb => E.old b (I.below h h1 b hb), h3⟩
  apart := I.apart
  done := I.done

/-- a new object in a variable that is not in use -/
theorem Inv.put {s : ℕ → Slot R} {S : Sys R} (I : Inv s S) {k' : ℕ} (hk : ¬ (s k').IsLive) {clean : Prop} {o : Obj R}
    {v : Val R} {m : Mem R} (M : Made Obj.view Obj.blocks clean S.mem (.ok o, m) (.ok v)) :
    Inv (Function.update s k' (.live v)) { objs := Function.update S.objs k' (some o), mem := m } ∧
      (clean → NoLeak s S →
        NoLeak (Function.update s k' (.live v)) { objs := Function.update S.objs k' (some o), mem := m }) := by
  obtain ⟨E, hv, hn, hb, hc⟩ := M
  have I' := I.grow E
  refine ⟨⟨E.good, ?_, ?_, ?_⟩, ?_⟩
  · intro k w h
    by_cases e : k = k'
    · subst e
      simp only [Function.update_self] at h ⊢
      cases h
      exact ⟨o, rfl, hv, hn⟩
    · simp only [Function.update_of_ne e] at h ⊢
      exact I'.live k w h
  · intro k j w w' p p' ne h h' hp hp' b hb1 hb2
    by_cases e : k = k'
    · subst e
      simp only [Function.update_self, Function.update_of_ne (Ne.symm ne)] at h h' hp hp'
      cases hp
      have := I.below h' hp' b hb2
      have := hb b hb1
      omega
    · simp only [Function.update_of_ne e] at h hp
      by_cases e' : j = k'
      · subst e'
        simp only [Function.update_self] at h' hp'
        cases hp'
        have := I.below h hp b hb1
        have := hb b hb2
        omega
      · simp only [Function.update_of_ne e'] at h' hp'
        exact I.apart k j w w' p p' ne h h' hp hp' b hb1 hb2
  · intro k h
    by_cases e : k = k'
    · subst e; simp at h
    · simp only [Function.update_of_ne e] at h ⊢
      exact I.done k h
  · intro hcl L b hne
    by_cases hlt : b < S.mem.next
    · obtain ⟨k, w, p, h1, h2, h3⟩ := L b (by rw [← E.old b hlt]; exact hne)
      have e : k ≠ k' := by rintro rfl; rw [h1] at hk; exact hk trivial
      exact ⟨k, w, p, by simp only [Function.update_of_ne e, h1], by simp only [Function.update_of_ne e, h2], h3⟩
    · exact ⟨k', v, o, by simp, by simp, hc hcl b (by omega) hne⟩

/-- one call of a program that follows the rules -/
theorem Inv.step {s : ℕ → Slot R} {S : Sys R} (I : Inv s S) {c : Call R} (A : Allowed s c) :
    (c.exec S).1 = result s c ∧ ((∀ w, result s c ≠ .ub w) → Inv (after s c) (c.exec S).2) ∧
      (Completes s c → ¬ IsNuLib c → NoLeak s S → NoLeak (after s c) (c.exec S).2) := by
  have live : ∀ k, (s k).IsLive → ∃ v o, s k = .live v ∧ S.objs k = some o ∧ o.view S.mem = (.ok v, S.mem) ∧
      o.blocks.Nodup := by
    intro k hk
    cases h : s k with
    | live v =>
      obtain ⟨o, h1, h2, h3⟩ := I.live k v h
      exact ⟨v, o, rfl, h1, h2, h3⟩
    | unused => rw [h] at hk; cases hk
    | finalized => rw [h] at hk; cases hk
    | moved => rw [h] at hk; cases hk
  cases c with
  | make k c =>
    have M := c.made I.good
    rcases hr : c.run S.mem with ⟨r, m⟩
    rw [hr] at M
    cases r with
    | ok o =>
      cases hv : c.value with
      | ok v =>
        rw [hv] at M
        have := I.put A M
        simp only [Call.exec, hr, result, hv, after, Outcome.map']
        refine ⟨trivial, fun _ => this.1, fun _ hN L => this.2 ?_ L⟩
        cases c <;> first | trivial | exact absurd trivial hN
      | abort e => rw [hv] at M; exact M.2.elim
      | ub w => rw [hv] at M; exact M.2.elim
    | abort e =>
      cases hv : c.value with
      | ok v => rw [hv] at M; exact M.2.elim
      | abort e' =>
        rw [hv] at M
        obtain rfl : e = e' := M.2
        simp only [Call.exec, hr, result, hv, after, Outcome.map']
        exact ⟨trivial, fun _ => I.grow M.1, fun ⟨x, h⟩ => by simp [result, hv, Outcome.map'] at h⟩
      | ub w => rw [hv] at M; exact M.2.elim
    | ub w =>
      cases hv : c.value with
      | ok v => rw [hv] at M; exact M.2.elim
      | abort e' => rw [hv] at M; exact M.2.elim
      | ub w' =>
        rw [hv] at M
        obtain rfl : w = w' := M.2
        simp only [Call.exec, hr, result, hv, after, Outcome.map']
        exact ⟨trivial, fun h => absurd rfl (h w), fun ⟨x, h⟩ => by simp [result, hv, Outcome.map'] at h⟩
  | getOnDevice k k' =>
    obtain ⟨v, o, hs, ho, hv, hn⟩ := live k A.1
    have M := Obj.GetOnDevice_made I.good hv
    rcases hr : o.GetOnDevice S.mem with ⟨r, m⟩
    rw [hr] at M
    cases r with
    | ok o' =>
      have := I.put A.2 M
      simp only [Call.exec, Sys.on, ho, hr, result, after, hs]
      exact ⟨trivial, fun _ => this.1, fun _ _ => this.2 trivial⟩
    | abort e => exact M.2.elim
    | ub w => exact M.2.elim
  | wrap k k' t ms l te =>
    obtain ⟨v, o, hs, ho, hv, hn⟩ := live k A.1
    have ne : k' ≠ k := by rintro rfl; exact A.2 A.1
    simp only [Call.exec, Sys.on, ho, pure_apply, result, after, hs]
    have hw : (Obj.wrapped t ms l te o).view S.mem = (.ok (.wrapped t ms l te v), S.mem) := by
      simp only [Obj.view, bind_apply, hv, pure_apply]
    have key : ∀ j w p, Function.update (Function.update s k .moved) k' (.live (.wrapped t ms l te v)) j = .live w →
        Function.update S.objs k' (some (Obj.wrapped t ms l te o)) j = some p →
        ∃ i w' p', s i = .live w' ∧ S.objs i = some p' ∧ p.blocks = p'.blocks ∧ p.view S.mem = (.ok w, S.mem) ∧
          ((j = k' ∧ i = k) ∨ (j ≠ k' ∧ j ≠ k ∧ i = j)) := by
      intro j w p h hp
      by_cases e : j = k'
      · subst e
        simp only [Function.update_self] at h hp
        cases h; cases hp
        exact ⟨k, v, o, hs, ho, rfl, hw, .inl ⟨rfl, rfl⟩⟩
      · simp only [Function.update_of_ne e] at h hp
        by_cases e' : j = k
        · subst e'; simp at h
        · simp only [Function.update_of_ne e'] at h
          obtain ⟨p', h1, h2, h3⟩ := I.live j w h
          obtain rfl : p' = p := by rw [h1] at hp; exact Option.some.inj hp
          exact ⟨j, w, p', h, h1, rfl, h2, .inr ⟨e, e', rfl⟩⟩
    refine ⟨trivial, fun _ => ⟨I.good, ?_, ?_, ?_⟩, fun _ _ L b hb => ?_⟩
    · intro j w h
      by_cases e : j = k'
      · subst e
        simp only [Function.update_self] at h ⊢
        cases h
        exact ⟨_, rfl, hw, hn⟩
      · simp only [Function.update_of_ne e] at h ⊢
        by_cases e' : j = k
        · subst e'; simp at h
        · simp only [Function.update_of_ne e'] at h
          exact I.live j w h
    · intro j j' w w' p p' nj h h' hp hp' b hb
      obtain ⟨i, x, q, h1, h2, h3, -, h5⟩ := key j w p h hp
      obtain ⟨i', x', q', h1', h2', h3', -, h5'⟩ := key j' w' p' h' hp'
      rw [h3] at hb
      rw [h3']
      exact I.apart i i' x x' q q' (by
        rcases h5 with ⟨a, b⟩ | ⟨a, b, c⟩ <;> rcases h5' with ⟨a', b'⟩ | ⟨a', b', c'⟩ <;> omega) h1 h1' h2 h2' b hb
    · intro j h
      by_cases e : j = k'
      · subst e; simp at h
      · simp only [Function.update_of_ne e] at h ⊢
        by_cases e' : j = k
        · subst e'; simp at h
        · simp only [Function.update_of_ne e'] at h
          exact I.done j h
    · obtain ⟨j, w, p, h1, h2, h3⟩ := L b hb
      by_cases e : j = k
      · subst e
        rw [ho] at h2; cases h2
        exact ⟨k', .wrapped t ms l te v, .wrapped t ms l te o, by simp, by simp, h3⟩
      · have e' : j ≠ k' := by rintro rfl; exact A.2 (by rw [h1]; trivial)
        exact ⟨j, w, p, by simp only [Function.update_of_ne e', Function.update_of_ne e, h1],
          by simp only [Function.update_of_ne e', h2], h3⟩
  | copy k k' => exact A.elim
  | lookup k q =>
    obtain ⟨v, o, hs, ho, hv, hn⟩ := live k A
    simp only [Call.exec, Sys.on, ho, bind_apply, hv, result, withLive, hs, after, lift]
    cases q v with
    | ok x => exact ⟨rfl, fun _ => I, fun _ _ L => L⟩
    | abort e => exact ⟨rfl, fun _ => I, fun _ _ L => L⟩
    | ub w => exact ⟨rfl, fun _ => I, fun _ _ L => L⟩
  | save k junk fails f =>
    obtain ⟨v, o, hs, ho, hv, hn⟩ := live k A
    obtain ⟨h1, h2, h3⟩ := Obj.Save_ok I.good hv junk fails f
    simp only [Call.exec, Sys.on, ho, result, withLive, hs, after]
    rw [← h1] at h3 ⊢
    rcases hr : o.Save junk fails f S.mem with ⟨r, m⟩
    rw [hr] at h2 h3
    cases r with
    | ok x =>
      refine ⟨rfl, fun _ => I.grow h2, fun _ _ L b hb => ?_⟩
      by_cases hlt : b < S.mem.next
      · exact L b (by rw [← h2.old b hlt]; exact hb)
      · exact absurd (h3 x rfl b (by omega)) hb
    | abort e => exact ⟨rfl, fun _ => I.grow h2, fun ⟨x, h⟩ => by simp [result, withLive, hs, ← h1, hr, Outcome.map'] at h⟩
    | ub w => exact ⟨rfl, fun _ => I.grow h2, fun ⟨x, h⟩ => by simp [result, withLive, hs, ← h1, hr, Outcome.map'] at h⟩
  | finalize k =>
    have hO : ∃ o, S.objs k = some o ∧ o.blocks.Nodup ∧ (∀ b ∈ o.blocks, S.mem.cell b ≠ none) ∧
        (∀ j w p, j ≠ k → s j = .live w → S.objs j = some p → ∀ b ∈ p.blocks, b ∉ o.blocks) := by
      rcases A with A | A
      · obtain ⟨v, o, hs, ho, hv, hn⟩ := live k A
        exact ⟨o, ho, hn, Obj.view_live hv, fun j w p ne h hp => I.apart j k w v p o ne h hs hp ho⟩
      · obtain ⟨o, ho, hb⟩ := I.done k A
        exact ⟨o, ho, by simp [hb], by simp [hb], by simp [hb]⟩
    obtain ⟨o, ho, hn, hb, hd⟩ := hO
    obtain ⟨o', h1, h2⟩ := Obj.Finalize_ok hn hb
    simp only [Call.exec, Sys.on, ho, h1, result, after]
    refine ⟨trivial, fun _ => ⟨fun b hb => ?_, ?_, ?_, ?_⟩, fun _ _ L b hne => ?_⟩
    · simp only [drop_cell, I.good b hb, ite_self]
    · intro j w h
      by_cases e : j = k
      · subst e; simp at h
      · simp only [Function.update_of_ne e] at h ⊢
        obtain ⟨p, h3, h4, h5⟩ := I.live j w h
        exact ⟨p, h3, Obj.view_frame h4 fun b hb => by rw [drop_cell, if_neg (hd j w p e h h3 b hb)], h5⟩
    · intro j j' w w' p p' nj h h' hp hp'
      have e : j ≠ k := by rintro rfl; simp at h
      have e' : j' ≠ k := by rintro rfl; simp at h'
      simp only [Function.update_of_ne e, Function.update_of_ne e'] at h h' hp hp'
      exact I.apart j j' w w' p p' nj h h' hp hp'
    · intro j h
      by_cases e : j = k
      · subst e; simp only [Function.update_self]; exact ⟨o', rfl, h2⟩
      · simp only [Function.update_of_ne e] at h ⊢
        exact I.done j h
    · simp only [drop_cell] at hne
      by_cases hbo : b ∈ o.blocks
      · simp [hbo] at hne
      · rw [if_neg hbo] at hne
        obtain ⟨j, w, p, h3, h4, h5⟩ := L b hne
        have e : j ≠ k := by rintro rfl; rw [ho] at h4; cases h4; exact hbo h5
        exact ⟨j, w, p, by simp only [Function.update_of_ne e, h3], by simp only [Function.update_of_ne e, h4], h5⟩

theorem runAll_cons_ok {c : Call R} {cs : List (Call R)} {S S' : Sys R} {x : Outcome (Obs R)} (h : c.exec S = (x, S'))
    (hx : ∀ w, x ≠ .ub w) : runAll (c :: cs) S = (x :: (runAll cs S').1, (runAll cs S').2) := by
  cases x with
  | ok a => simp only [runAll, h]
  | abort e => simp only [runAll, h]
  | ub w => exact absurd rfl (hx w)

theorem Completes.not_ub {s : ℕ → Slot R} {c : Call R} (h : Completes s c) (w : String) : result s c ≠ .ub w := by
  cases c <;> first | exact h w | (obtain ⟨x, hx⟩ := h; rw [hx]; simp)

theorem Inv.runAll {h : List (Call R)} {s : ℕ → Slot R} {S : Sys R} (I : Inv s S) (F : Follows h s) :
    (runAll h S).1 = results h s ∧
      (AllComplete h s → (∀ c ∈ h, ¬ IsNuLib c) → NoLeak s S →
        NoLeak (atEnd h s) (Memory.runAll h S).2) := by
  induction h generalizing s S with
  | nil => exact ⟨rfl, fun _ _ L => L⟩
  | cons c cs ih =>
    obtain ⟨h1, h2, h3⟩ := I.step F.1
    rcases hx : c.exec S with ⟨x, S'⟩
    rw [hx] at h1 h2 h3
    simp only at h1 h2 h3
    cases hr : result s c with
    | ub w =>
      rw [hr] at h1
      subst h1
      simp only [Memory.runAll, hx, results, hr]
      exact ⟨trivial, fun h => absurd hr (Completes.not_ub h.1 w)⟩
    | ok a =>
      rw [hr] at h1
      obtain ⟨i1, i2⟩ := ih (h2 (by simp [hr])) F.2
      rw [runAll_cons_ok hx (by simp [h1])]
      simp only [results, hr, atEnd]
      exact ⟨by rw [i1, h1], fun h hn L => i2 h.2 (fun c hc => hn c (List.mem_cons_of_mem _ hc))
        (h3 h.1 (hn c List.mem_cons_self) L)⟩
    | abort e =>
      rw [hr] at h1
      obtain ⟨i1, i2⟩ := ih (h2 (by simp [hr])) F.2
      rw [runAll_cons_ok hx (by simp [h1])]
      simp only [results, hr, atEnd]
      exact ⟨by rw [i1, h1], fun h hn L => i2 h.2 (fun c hc => hn c (List.mem_cons_of_mem _ hc))
        (h3 h.1 (hn c List.mem_cons_self) L)⟩

omit [Arith R] in
theorem lift_bind_inv {α β : Type} {x : Outcome α} {f : α → MemM R β} {m m' : Mem R} {b : β}
    (h : (lift x >>= f) m = (.ok b, m')) : ∃ a, f a m = (.ok b, m') := by
  obtain ⟨a, m1, h1, h2⟩ := bind_inv h
  simp only [lift, Prod.mk.injEq] at h1
  exact ⟨a, by rw [h1.2]; exact h2⟩

/-- the two arrays the file is read into stay allocated -/
theorem SpinerBox.LoadFromNuLib_leak {m m' : Mem R} {kappa : Option (ℕ → R)} {pc : PC R}
    {junk : ℕ → ℕ → R} {f : Option (SpinerOpacity.NuLibFile R)} {h : SpinerBox}
    (hr : SpinerBox.LoadFromNuLib_ kappa pc junk f m = (.ok h, m')) :
    h.blocks = [m.next + 2, m.next + 3, m.next + 4, m.next + 5] ∧
      ∀ b, m'.cell b ≠ none ↔ m.cell b ≠ none ∨ b ∈ [m.next, m.next + 1] ∨ b ∈ h.blocks := by
  unfold SpinerBox.LoadFromNuLib_ at hr
  replace ⟨f, hr⟩ := lift_bind_inv hr
  replace ⟨NR, hr⟩ := lift_bind_inv hr
  replace ⟨NT, hr⟩ := lift_bind_inv hr
  replace ⟨NY, hr⟩ := lift_bind_inv hr
  replace ⟨NE, hr⟩ := lift_bind_inv hr
  replace ⟨NTYPE, hr⟩ := lift_bind_inv hr
  replace ⟨rho, hr⟩ := lift_bind_inv hr
  replace ⟨T, hr⟩ := lift_bind_inv hr
  replace ⟨e, hr⟩ := lift_bind_inv hr
  replace ⟨Ye, hr⟩ := lift_bind_inv hr
  rw [alloc_bind] at hr
  replace ⟨_, hr⟩ := lift_bind_inv hr
  rw [alloc_bind] at hr
  replace ⟨jnu, hr⟩ := lift_bind_inv hr
  rw [alloc_bind, alloc_bind, alloc_bind, alloc_bind] at hr
  replace ⟨s, hr⟩ := lift_bind_inv hr
  replace ⟨i, hr⟩ := lift_bind_inv hr
  revert hr
  generalize (SpinerOpacity.setup5 (junk 0) NR NT NY NTYPE NE (log10 rho.1) (log10 rho.2) (log10 T.1) (log10 T.2) Ye.1
    Ye.2 (log10 e.1) (log10 e.2)) = t5
  generalize (SpinerOpacity.setup4 (junk 2) NR NT NY NTYPE (log10 rho.1) (log10 rho.2) (log10 T.1) (log10 T.2) Ye.1
    Ye.2) = t4
  intro hr
  simp only [push_next] at hr
  rw [write_bind s.1 (d := t5) (by cells), write_bind s.2 (d := t5.copyMetadata (junk 1)) (by cells),
    write_bind i.1 (d := t4) (by cells), write_bind i.2 (d := t4.copyMetadata (junk 3)) (by cells), pure_apply] at hr
  obtain ⟨rfl⟩ := Outcome.ok.inj (Prod.mk.inj hr).1
  obtain rfl := (Prod.mk.inj hr).2
  refine ⟨by simp [SpinerBox.blocks, Box.blocks, Nat.add_assoc], fun b => ?_⟩
  simp only [set_cell, push_cell, push_next, SpinerBox.blocks, Box.blocks, List.cons_append, List.nil_append,
    List.mem_cons, List.not_mem_nil, or_false]
  split_ifs <;> simp_all

/-- an object whose blocks were released cannot be read, nor finalized -/
theorem Obj.dangling {o : Obj R} {v : Val R} {m : Mem R} (hv : o.view m = (.ok v, m)) :
    (∃ w, o.view (m.drop o.blocks) = (.ub w, m.drop o.blocks)) ∧
      ∃ w, o.Finalize (m.drop o.blocks) = (.ub w, m.drop o.blocks) := by
  have rd : ∀ (b : ℕ) (l : List ℕ), b ∈ l → ∃ w, read (.owner b) (m.drop l) = (.ub w, m.drop l) := by
    intro b l hb
    simp only [read, drop_cell, if_pos hb]
    exact ⟨_, rfl⟩
  have fin : ∀ (b : ℕ) (l : List ℕ), b ∈ l → ∃ w, finalize (.owner b) (m.drop l) = (.ub w, m.drop l) := by
    intro b l hb
    simp only [finalize, drop_cell, if_pos hb]
    exact ⟨_, rfl⟩
  have go : ∀ (b : ℕ) (l : List ℕ), b ∈ l → (∃ w, read (.owner b) (m.drop l) = (.ub w, m.drop l)) ∧
    ∃ w, finalize (.owner b) (m.drop l) = (.ub w, m.drop l) := fun b l hb => ⟨rd b l hb, fin b l hb⟩
  induction o generalizing v with
  | photons pc h' =>
    obtain ⟨t, m1, h1, -⟩ := bind_inv hv
    obtain ⟨p, r, g, n, dP, dR, dG, rfl, -⟩ := MGBox.view_inv h1
    obtain ⟨⟨w, hw⟩, w', hw'⟩ := go p (Obj.photons pc ⟨.owner p, .owner r, .owner g, n⟩).blocks
      (by simp [Obj.blocks, MGBox.blocks, Box.blocks])
    exact ⟨⟨w, by simp only [Obj.view, MGBox.view, bind_apply, hw]⟩,
      ⟨w', by simp only [Obj.Finalize, MGBox.Finalize, bind_apply, hw']⟩⟩
  | photonsS pc h' =>
    obtain ⟨t, m1, h1, -⟩ := bind_inv hv
    obtain ⟨p, r, g, n, dP, dR, dG, rfl, -⟩ := MGBox.view_inv h1
    obtain ⟨⟨w, hw⟩, w', hw'⟩ := go p (Obj.photonsS pc ⟨.owner p, .owner r, .owner g, n⟩).blocks
      (by simp [Obj.blocks, MGBox.blocks, Box.blocks])
    exact ⟨⟨w, by simp only [Obj.view, MGBox.view, bind_apply, hw]⟩,
      ⟨w', by simp only [Obj.Finalize, MGBox.Finalize, bind_apply, hw']⟩⟩
  | neutrinos pc h' =>
    obtain ⟨t, m1, h1, -⟩ := bind_inv hv
    obtain ⟨p, r, dP, dR, rfl, -⟩ := MeanBox.view_inv h1
    obtain ⟨⟨w, hw⟩, w', hw'⟩ := go p (Obj.neutrinos pc ⟨.owner p, .owner r⟩).blocks
      (by simp [Obj.blocks, MeanBox.blocks, Box.blocks])
    exact ⟨⟨w, by simp only [Obj.view, MeanBox.view, bind_apply, hw]⟩,
      ⟨w', by simp only [Obj.Finalize, MeanBox.Finalize, bind_apply, hw']⟩⟩
  | neutrinosS dist pc h' =>
    obtain ⟨t, m1, h1, -⟩ := bind_inv hv
    obtain ⟨p, r, dP, dR, rfl, -⟩ := MeanBox.view_inv h1
    obtain ⟨⟨w, hw⟩, w', hw'⟩ := go p (Obj.neutrinosS dist pc ⟨.owner p, .owner r⟩).blocks
      (by simp [Obj.blocks, MeanBox.blocks, Box.blocks])
    exact ⟨⟨w, by simp only [Obj.view, MeanBox.view, bind_apply, hw]⟩,
      ⟨w', by simp only [Obj.Finalize, MeanBox.Finalize, bind_apply, hw']⟩⟩
  | spiner dist pc h' =>
    obtain ⟨t, m1, h1, -⟩ := bind_inv hv
    obtain ⟨a, j, J, N, da, dj, dJ, dN, rfl, -⟩ := SpinerBox.view_inv h1
    obtain ⟨⟨w, hw⟩, w', hw'⟩ := go a (Obj.spiner dist pc ⟨.owner a, .owner j, .owner J, .owner N⟩).blocks
      (by simp [Obj.blocks, SpinerBox.blocks, Box.blocks])
    exact ⟨⟨w, by simp only [Obj.view, SpinerBox.view, bind_apply, hw]⟩,
      ⟨w', by simp only [Obj.Finalize, SpinerBox.Finalize, bind_apply, hw']⟩⟩
  | wrapped t ms l k o ih =>
    obtain ⟨w, m1, h1, h2⟩ := bind_inv hv
    obtain ⟨-, rfl⟩ := Prod.mk.inj h2
    obtain ⟨⟨w, hw⟩, w', hw'⟩ := ih h1
    exact ⟨⟨w, by simp only [Obj.view, bind_apply]; rw [show (Obj.wrapped t ms l k o).blocks = o.blocks from rfl, hw]⟩,
      ⟨w', by simp only [Obj.Finalize, bind_apply]; rw [show (Obj.wrapped t ms l k o).blocks = o.blocks from rfl, hw']⟩⟩

end
end Opac.Memory
