import Verif.Lemmas.Outcome
import Verif.Lemmas.RealArith
import Verif.Model.Spiner
import Mathlib.Tactic.Linarith
import Mathlib.Tactic.FieldSimp
import Mathlib.Tactic.Ring

/-! Lemmas about Spiner grids and tables. -/

namespace Opac.Spiner
open Arith Outcome

set_option linter.unusedSectionVars false

section anyR
variable {R : Type} [Arith R]

theorem Grid.bound_range (g : Grid R) (ix : ℤ) (hN : 2 ≤ g.N) : 0 ≤ g.bound ix ∧ g.bound ix ≤ g.N - 2 := by
  unfold Grid.bound
  simp only
  split_ifs <;> omega

theorem Grid.index_range (g : Grid R) (x : R) (hN : 2 ≤ g.N) : 0 ≤ g.index x ∧ g.index x ≤ g.N - 2 :=
  g.bound_range _ hN

theorem offset3 {d1 d2 d3 i j k : ℤ} (hi : 0 ≤ i ∧ i < d1) (hj : 0 ≤ j ∧ j < d2) (hk : 0 ≤ k ∧ k < d3) :
    DataBox.offset [d1, d2, d3] [i, j, k] = ok (i * (d2 * d3) + (j * d3 + k)) := by
  simp [DataBox.offset, hi, hj, hk]

theorem offset4 {d1 d2 d3 d4 i j k l : ℤ} (hi : 0 ≤ i ∧ i < d1) (hj : 0 ≤ j ∧ j < d2)
    (hk : 0 ≤ k ∧ k < d3) (hl : 0 ≤ l ∧ l < d4) :
    DataBox.offset [d1, d2, d3, d4] [i, j, k, l] =
      ok (i * (d2 * (d3 * d4)) + (j * (d3 * d4) + (k * d4 + l))) := by
  simp [DataBox.offset, hi, hj, hk, hl]

theorem offset5 {d1 d2 d3 d4 d5 i j k l m : ℤ} (hi : 0 ≤ i ∧ i < d1) (hj : 0 ≤ j ∧ j < d2)
    (hk : 0 ≤ k ∧ k < d3) (hl : 0 ≤ l ∧ l < d4) (hm : 0 ≤ m ∧ m < d5) :
    DataBox.offset [d1, d2, d3, d4, d5] [i, j, k, l, m] =
      ok (i * (d2 * (d3 * (d4 * d5))) + (j * (d3 * (d4 * d5)) + (k * (d4 * d5) + (l * d5 + m)))) := by
  simp [DataBox.offset, hi, hj, hk, hl, hm]

/-- the read succeeds exactly for index tuples in range -/
def InRange : List ℤ → List ℤ → Prop
  | [], [] => True
  | d :: ds, i :: is => (0 ≤ i ∧ i < d) ∧ InRange ds is
  | _, _ => False

theorem offset_ok {ds is : List ℤ} (h : InRange ds is) :
    ∃ o, DataBox.offset ds is = ok o ∧ 0 ≤ o ∧ o < ds.prod := by
  induction ds generalizing is with
  | nil => cases is with
    | nil => exact ⟨0, rfl, le_rfl, by simp⟩
    | cons _ _ => exact absurd h (by simp [InRange])
  | cons d ds ih => cases is with
    | nil => exact absurd h (by simp [InRange])
    | cons i is =>
      obtain ⟨hi, hr⟩ := h
      obtain ⟨o, ho, h0, h1⟩ := ih hr
      refine ⟨i * ds.prod + o, ?_, ?_, ?_⟩
      · simp [DataBox.offset, hi, ho]
      · have : 0 ≤ i * ds.prod := Int.mul_nonneg hi.1 (by omega)
        omega
      · rw [List.prod_cons]
        have : (i + 1) * ds.prod ≤ d * ds.prod := Int.mul_le_mul_of_nonneg_right (by omega) (by omega)
        nlinarith

theorem offset_inRange {ds is : List ℤ} {o : ℤ} (h : DataBox.offset ds is = ok o) : InRange ds is := by
  induction ds generalizing is o with
  | nil => cases is with
    | nil => trivial
    | cons _ _ => simp [DataBox.offset] at h
  | cons d ds ih => cases is with
    | nil => simp [DataBox.offset] at h
    | cons i is =>
      unfold DataBox.offset at h
      split_ifs at h with hi
      cases hr : DataBox.offset ds is with
      | ok r => exact ⟨hi, ih hr⟩
      | abort m => rw [hr] at h; cases h
      | ub m => rw [hr] at h; cases h

theorem offset_inj {ds is js : List ℤ} {o : ℤ} (h1 : DataBox.offset ds is = ok o)
    (h2 : DataBox.offset ds js = ok o) : is = js := by
  induction ds generalizing is js o with
  | nil =>
    cases is <;> cases js <;> simp [DataBox.offset] at h1 h2 ⊢
  | cons d ds ih =>
    cases is with
    | nil => simp [DataBox.offset] at h1
    | cons i is =>
      cases js with
      | nil => simp [DataBox.offset] at h2
      | cons j js =>
        obtain ⟨hi, hri⟩ := offset_inRange h1
        obtain ⟨hj, hrj⟩ := offset_inRange h2
        obtain ⟨a, ha, ha0, ha1⟩ := offset_ok hri
        obtain ⟨b, hb, hb0, hb1⟩ := offset_ok hrj
        simp only [DataBox.offset, hi, hj, and_self, if_true, ha, hb, bind_def, ok_bind] at h1 h2
        injection h1 with h1
        injection h2 with h2
        have hP : 0 < ds.prod := by omega
        have hij : i = j := by
          rcases lt_trichotomy i j with h | h | h
          · have : (i + 1) * ds.prod ≤ j * ds.prod := Int.mul_le_mul_of_nonneg_right (by omega) (by omega)
            nlinarith
          · exact h
          · have : (j + 1) * ds.prod ≤ i * ds.prod := Int.mul_le_mul_of_nonneg_right (by omega) (by omega)
            nlinarith
        subst hij
        have : a = b := by omega
        subst this
        rw [ih ha hb]

theorem read_write (d d' : DataBox R) (is js : List ℤ) (v : R) (h : d.write is v = ok d') :
    d'.dims = d.dims ∧ d'.grid = d.grid ∧ d'.read is = ok v ∧ (is ≠ js → d'.read js = d.read js) := by
  unfold DataBox.write at h
  rw [bind_def, bind_eq_ok] at h
  obtain ⟨o, ho, h⟩ := h
  cases h
  refine ⟨rfl, rfl, ?_, ?_⟩
  · simp [DataBox.read, ho]
  · intro hne
    unfold DataBox.read
    simp only [bind_def]
    cases hj : DataBox.offset d.dims js with
    | abort m => simp
    | ub m => simp
    | ok p =>
      simp only [ok_bind]
      rw [Function.update_of_ne]
      intro heq
      obtain ⟨p', hp', hp0, _⟩ := offset_ok (offset_inRange hj)
      obtain ⟨o', ho', ho0, _⟩ := offset_ok (offset_inRange ho)
      rw [hj] at hp'; cases hp'
      rw [ho] at ho'; cases ho'
      have : p = o := by omega
      subst this
      exact hne (offset_inj ho hj)

theorem write_ok (d : DataBox R) (is : List ℤ) (v : R) (h : InRange d.dims is) :
    ∃ d', d.write is v = ok d' := by
  obtain ⟨o, ho, _⟩ := offset_ok h
  exact ⟨_, by simp [DataBox.write, ho]; rfl⟩

theorem read_ok (d : DataBox R) (is : List ℤ) (h : InRange d.dims is) : ∃ v, d.read is = ok v := by
  obtain ⟨o, ho, _⟩ := offset_ok h
  exact ⟨_, by simp [DataBox.read, ho]; rfl⟩

theorem lerp_ok (g : Grid R) (x : R) (f : ℤ → Outcome R) (hN : 2 ≤ g.N)
    (h : ∀ i, 0 ≤ i → i < g.N → ∃ v, f i = ok v) : ∃ v, DataBox.lerp g x f = ok v := by
  obtain ⟨h0, h1⟩ := g.index_range x hN
  obtain ⟨a, ha⟩ := h (g.index x) h0 (by omega)
  obtain ⟨b, hb⟩ := h (g.index x + 1) (by omega) (by omega)
  exact ⟨_, by simp [DataBox.lerp, ha, hb]; rfl⟩

/-- interpolation in a well-shaped rank-3 table always returns (for every carrier, NaN included) -/
theorem interp3_ok (d : DataBox R) (n1 n2 n3 : ℤ) (hd : d.dims = [n3, n2, n1]) (h2 : (d.grid 2).N = n3)
    (h1 : (d.grid 1).N = n2) (hn3 : 2 ≤ n3) (hn2 : 2 ≤ n2) (x3 x2 : R) (i1 : ℤ) (hi : 0 ≤ i1 ∧ i1 < n1) :
    ∃ v, d.interp3 x3 x2 i1 = ok v := by
  unfold DataBox.interp3
  apply lerp_ok _ _ _ (by omega)
  intro i hi0 hi1
  apply lerp_ok _ _ _ (by omega)
  intro j hj0 hj1
  apply read_ok
  rw [hd]
  exact ⟨⟨hi0, by omega⟩, ⟨hj0, by omega⟩, hi, trivial⟩

theorem mapData_dims (f : R → R) (n : ℤ) (d : DataBox R) (init : ℕ → R) :
    (d.mapData f n init).dims = d.dims ∧ (d.mapData f n init).grid = d.grid := by
  unfold DataBox.mapData
  rw [forLoop_toNat]
  exact forLoop_inv n.toNat _ (fun _ (o : DataBox R) => o.dims = d.dims ∧ o.grid = d.grid) _ ⟨rfl, rfl⟩
    (fun i _ s h => h)

theorem mapData_data (f : R → R) (n : ℤ) (d : DataBox R) (init : ℕ → R) (i : ℕ) (hi : (i : ℤ) < n) :
    (d.mapData f n init).data i = f (d.data i) := by
  unfold DataBox.mapData
  rw [forLoop_toNat]
  have := forLoop_inv n.toNat
    (fun i (out : DataBox R) => { out with data := Function.update out.data i (f (d.data i)) })
    (fun k (o : DataBox R) => ∀ j, j < k → o.data j = f (d.data j)) (d.copyMetadata init)
    (by intro j hj; omega)
    (by
      intro k _ s hs j hj
      by_cases hjk : j = k
      · subst hjk; simp
      · simp [Function.update_of_ne hjk]; exact hs j (by omega))
  exact this i (by omega)

theorem mapData_data_ge (f : R → R) (n : ℤ) (d : DataBox R) (init : ℕ → R) (i : ℕ) (hi : n ≤ (i : ℤ)) :
    (d.mapData f n init).data i = init i := by
  unfold DataBox.mapData
  rw [forLoop_toNat]
  have := forLoop_inv n.toNat
    (fun i (out : DataBox R) => { out with data := Function.update out.data i (f (d.data i)) })
    (fun k (o : DataBox R) => ∀ j, k ≤ j → o.data j = init j) (d.copyMetadata init)
    (by intro j hj; rfl)
    (by
      intro k _ s hs j hj
      simp [Function.update_of_ne (show j ≠ k by omega)]; exact hs j (by omega))
  exact this i (by omega)

theorem mapData_read (f : R → R) (d : DataBox R) (init : ℕ → R) (is : List ℤ) :
    (d.mapData f d.size init).read is = (d.read is).map' f := by
  unfold DataBox.read
  rw [(mapData_dims f d.size d init).1]
  simp only [bind_def]
  cases h : DataBox.offset d.dims is with
  | ok o =>
    obtain ⟨o', ho', h0, h1⟩ := offset_ok (offset_inRange h)
    rw [h] at ho'; cases ho'
    simp only [ok_bind, map'_ok]
    rw [mapData_data]
    unfold DataBox.size; omega
  | abort m => rfl
  | ub m => rfl

end anyR

end Opac.Spiner

namespace Opac.Spiner
open Arith

theorem inv_dx_mul (g : Grid ℝ) (y : ℝ) : g.inv_dx * y = y / g.dx := by
  simp only [Grid.inv_dx, areal]; push_cast; rw [one_div, inv_mul_eq_div]

theorem index_real (g : Grid ℝ) (x : ℝ) : g.index x = g.bound (toInt ((x - g.min) / g.dx)) := by
  unfold Grid.index; rw [inv_dx_mul]

theorem w1_real (g : Grid ℝ) (x : ℝ) : g.w1 x = (x - (g.index x * g.dx + g.min)) / g.dx := by
  unfold Grid.w1; rw [inv_dx_mul]; simp [areal]

end Opac.Spiner
