import Verif.Lemmas.Table
import Verif.Spec.Tables

/-!
# Which interpolations stay inside a table
-/

namespace Opac.Spiner
open Arith Outcome

variable {R : Type} [Arith R]

theorem _root_.Opac.Outcome.DefinedIff.map {α β : Type} {x : Outcome α} {c : Prop} (h : x.DefinedIff c) (f : α → β) :
    (x.map' f).DefinedIff c := by
  refine ⟨fun hc => ?_, fun hc => ?_⟩
  · obtain ⟨v, hv⟩ := h.1 hc
    unfold Returns at hv
    exact ⟨f v, by rw [hv]; rfl⟩
  · obtain ⟨w, hw⟩ := h.2 hc
    exact ⟨w, by rw [hw]; rfl⟩

theorem Grid.index_neg (g : Grid R) (x : R) (hN : g.N < 2) : g.index x < 0 := by
  unfold Grid.index Grid.bound
  dsimp only
  split_ifs <;> omega

theorem offset_ub : ∀ {ds is : List ℤ}, ¬ InRange ds is → (DataBox.offset ds is).IsUB
  | [], [], h => absurd trivial h
  | [], _ :: _, _ => ⟨_, rfl⟩
  | _ :: _, [], _ => ⟨_, rfl⟩
  | d :: ds, i :: is, h => by
    unfold DataBox.offset
    by_cases hi : 0 ≤ i ∧ i < d
    · rw [if_pos hi]
      obtain ⟨w, hw⟩ := offset_ub (ds := ds) (is := is) (fun h' => h ⟨hi, h'⟩)
      exact ⟨w, by rw [hw]; rfl⟩
    · rw [if_neg hi]; exact ⟨_, rfl⟩

theorem read_ub (d : DataBox R) {is : List ℤ} (h : ¬ InRange d.dims is) : (d.read is).IsUB := by
  obtain ⟨w, hw⟩ := offset_ub h
  exact ⟨w, by rw [DataBox.read, hw]; rfl⟩

theorem lerp_ub (g : Grid R) (x : R) {f : ℤ → Outcome R} (h : (f (g.index x)).IsUB) : (DataBox.lerp g x f).IsUB := by
  obtain ⟨w, hw⟩ := h
  exact ⟨w, by rw [DataBox.lerp, hw]; rfl⟩

/-- along an axis with too few nodes the first read is before the table -/
theorem lerp_iff (g : Grid R) (x : R) {f : ℤ → Outcome R} {c : Prop}
    (h : ∀ i, (f i).DefinedIff ((0 ≤ i ∧ i < g.N) ∧ c)) : (DataBox.lerp g x f).DefinedIff (2 ≤ g.N ∧ c) := by
  refine ⟨fun ⟨hN, hc⟩ => lerp_ok g x f hN fun i h0 h1 => (h i).1 ⟨⟨h0, h1⟩, hc⟩, fun hn => lerp_ub g x ((h _).2 ?_)⟩
  rintro ⟨h1, h2⟩
  refine hn ⟨?_, h2⟩
  by_contra hN
  have := g.index_neg x (by omega)
  omega

theorem read_iff (d : DataBox R) (is : List ℤ) : (d.read is).DefinedIff (InRange d.dims is) :=
  ⟨fun h => read_ok d is h, read_ub d⟩

theorem _root_.Opac.Outcome.DefinedIff.congr {α : Type} {x : Outcome α} {c c' : Prop} (h : x.DefinedIff c) (e : c ↔ c') :
    x.DefinedIff c' := ⟨fun hc => h.1 (e.2 hc), fun hc => h.2 (fun hc' => hc (e.1 hc'))⟩

theorem interp3_iff (d : DataBox R) {n1 n2 n3 : ℤ} (hd : d.dims = [n3, n2, n1]) (h2 : (d.grid 2).N = n3)
    (h1 : (d.grid 1).N = n2) (x3 x2 : R) (i1 : ℤ) :
    (d.interp3 x3 x2 i1).DefinedIff (2 ≤ n3 ∧ 2 ≤ n2 ∧ 0 ≤ i1 ∧ i1 < n1) := by
  unfold DataBox.interp3
  rw [← h2, ← h1]
  refine lerp_iff _ _ fun i => ?_
  refine (lerp_iff (c := (0 ≤ i ∧ i < (d.grid 2).N) ∧ 0 ≤ i1 ∧ i1 < n1) _ _ fun j => ?_).congr (by tauto)
  refine (read_iff d _).congr ?_
  rw [hd, ← h2, ← h1]
  simp only [InRange]; tauto

theorem interp4_iff (d : DataBox R) {n1 n2 n3 n4 : ℤ} (hd : d.dims = [n4, n3, n2, n1]) (h3 : (d.grid 3).N = n4)
    (h2 : (d.grid 2).N = n3) (h1 : (d.grid 1).N = n2) (x4 x3 x2 : R) (i1 : ℤ) :
    (d.interp4 x4 x3 x2 i1).DefinedIff (2 ≤ n4 ∧ 2 ≤ n3 ∧ 2 ≤ n2 ∧ 0 ≤ i1 ∧ i1 < n1) := by
  unfold DataBox.interp4
  rw [← h3, ← h2, ← h1]
  refine lerp_iff _ _ fun i => ?_
  refine (lerp_iff (c := (0 ≤ i ∧ i < (d.grid 3).N) ∧ 2 ≤ (d.grid 1).N ∧ 0 ≤ i1 ∧ i1 < n1) _ _ fun j => ?_).congr (by tauto)
  refine (lerp_iff (c := (0 ≤ i ∧ i < (d.grid 3).N) ∧ (0 ≤ j ∧ j < (d.grid 2).N) ∧ 0 ≤ i1 ∧ i1 < n1) _ _
    fun k => ?_).congr (by tauto)
  refine (read_iff d _).congr ?_
  rw [hd, ← h3, ← h2, ← h1]
  simp only [InRange]; tauto

theorem interp5_iff (d : DataBox R) {n1 n2 n3 n4 n5 : ℤ} (hd : d.dims = [n5, n4, n3, n2, n1]) (h4 : (d.grid 4).N = n5)
    (h3 : (d.grid 3).N = n4) (h2 : (d.grid 2).N = n3) (h0 : (d.grid 0).N = n1) (x5 x4 x3 : R) (i2 : ℤ) (x1 : R) :
    (d.interp5 x5 x4 x3 i2 x1).DefinedIff (2 ≤ n5 ∧ 2 ≤ n4 ∧ 2 ≤ n3 ∧ 2 ≤ n1 ∧ 0 ≤ i2 ∧ i2 < n2) := by
  unfold DataBox.interp5
  rw [← h4, ← h3, ← h2, ← h0]
  refine lerp_iff _ _ fun i => ?_
  refine (lerp_iff (c := (0 ≤ i ∧ i < (d.grid 4).N) ∧ 2 ≤ (d.grid 2).N ∧ 2 ≤ (d.grid 0).N ∧ 0 ≤ i2 ∧ i2 < n2) _ _
    fun j => ?_).congr (by tauto)
  refine (lerp_iff (c := (0 ≤ i ∧ i < (d.grid 4).N) ∧ (0 ≤ j ∧ j < (d.grid 3).N) ∧ 2 ≤ (d.grid 0).N ∧ 0 ≤ i2 ∧ i2 < n2) _ _
    fun k => ?_).congr (by tauto)
  refine (lerp_iff (c := (0 ≤ i ∧ i < (d.grid 4).N) ∧ (0 ≤ j ∧ j < (d.grid 3).N) ∧ (0 ≤ k ∧ k < (d.grid 2).N) ∧
    0 ≤ i2 ∧ i2 < n2) _ _ fun l => ?_).congr (by tauto)
  refine (read_iff d _).congr ?_
  rw [hd, ← h4, ← h3, ← h2, ← h0]
  simp only [InRange]; tauto

end Opac.Spiner
