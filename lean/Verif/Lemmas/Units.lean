import Verif.Spec.InUnits
import Verif.Spec.SameResults
import Verif.Lemmas.VectorOK
import Verif.Lemmas.Thermal

/-! The unit factors of the wrappers, and loops that scale arrays in place. -/

namespace Opac
open Spec Outcome Real
set_option linter.unusedSimpArgs false

theorem unit_zpow (u : Units) (t m l θ : ℤ) :
    u.unit ⟨t, m, l, θ⟩ = u.time ^ t * u.mass ^ m * u.length ^ l * u.temp ^ θ := by
  simp only [Units.unit, rpow_intCast]

section
variable (u : Units)
theorem unit_density : u.unit .density = u.mass / (u.length * u.length * u.length) := by
  have := unit_zpow u 0 1 (-3) 0; push_cast at this; unfold Dim.density; rw [this]; simp [zpow_neg]
  rw [← div_eq_mul_inv]; congr 1; ring
theorem unit_temperature : u.unit .temperature = u.temp := by
  have := unit_zpow u 0 0 0 1; push_cast at this; unfold Dim.temperature; rw [this]; simp
theorem unit_frequency : u.unit .frequency = 1 / u.time := by
  have := unit_zpow u (-1) 0 0 0; push_cast at this; unfold Dim.frequency; rw [this]; simp
theorem unit_area : u.unit .area = u.length * u.length := by
  have := unit_zpow u 0 0 2 0; push_cast at this; unfold Dim.area; rw [this]; simp; ring
theorem unit_inverseLength : u.unit .inverseLength = 1 / u.length := by
  have := unit_zpow u 0 0 (-1) 0; push_cast at this; unfold Dim.inverseLength; rw [this]; simp
theorem unit_energyDensity : u.unit .energyDensity = u.mass / (u.time * u.time * u.length) := by
  have := unit_zpow u (-2) 1 (-1) 0; push_cast at this; unfold Dim.energyDensity; rw [this]
  simp [zpow_neg, div_eq_mul_inv]; ring
theorem unit_numberDensity : u.unit .numberDensity = 1 / (u.length * u.length * u.length) := by
  have := unit_zpow u 0 0 (-3) 0; push_cast at this; unfold Dim.numberDensity; rw [this]
  simp [zpow_neg]; ring
theorem unit_emissivity : u.unit .emissivity = u.mass / (u.time * u.time * u.time * u.length) := by
  have := unit_zpow u (-3) 1 (-1) 0; push_cast at this; unfold Dim.emissivity; rw [this]
  simp [zpow_neg, div_eq_mul_inv]; ring
theorem unit_emissivityPerNu : u.unit .emissivityPerNu = u.mass / (u.time * u.time * u.length) :=
  unit_energyDensity u
theorem unit_numberEmissivity : u.unit .numberEmissivity = 1 / (u.time * (u.length * u.length * u.length)) := by
  have := unit_zpow u (-1) 0 (-3) 0; push_cast at this; unfold Dim.numberEmissivity; rw [this]
  simp [zpow_neg]; ring
theorem unit_intensityPerNu : u.unit .intensityPerNu = u.mass / (u.time * u.time) := by
  have := unit_zpow u (-2) 1 0 0; push_cast at this; unfold Dim.intensityPerNu; rw [this]
  simp [zpow_neg, div_eq_mul_inv]; ring
theorem unit_intensity : u.unit .intensity = u.mass / (u.time * u.time * u.time) := by
  have := unit_zpow u (-3) 1 0 0; push_cast at this; unfold Dim.intensity; rw [this]
  simp [zpow_neg, div_eq_mul_inv]; ring
theorem unit_intensityPerNuTemp : u.unit .intensityPerNuTemp = u.mass / (u.time * u.time * u.temp) := by
  have := unit_zpow u (-2) 1 0 (-1); push_cast at this; unfold Dim.intensityPerNuTemp; rw [this]
  simp [zpow_neg, div_eq_mul_inv]; ring
theorem unit_numberFlux : u.unit .numberFlux = 1 / (u.time * (u.length * u.length)) := by
  have := unit_zpow u (-1) 0 (-2) 0; push_cast at this; unfold Dim.numberFlux; rw [this]
  simp [zpow_neg]; ring
end

section
variable (u : Units)
theorem cgs_density (x : ℝ) : u.toCGS .density x = x * (u.mass / (u.length * u.length * u.length)) := by
  rw [Units.toCGS, unit_density]
theorem cgs_temperature (x : ℝ) : u.toCGS .temperature x = x * u.temp := by rw [Units.toCGS, unit_temperature]
theorem cgs_frequency (x : ℝ) : u.toCGS .frequency x = x * (Arith.lit 1 / u.time) := by
  rw [Units.toCGS, unit_frequency]; simp only [areal]; push_cast; rfl
variable {u}
theorem cgs_energyDensity (x : ℝ) :
    u.toCGS .energyDensity x = x / (u.time * u.time * u.length / u.mass) := by
  rw [Units.toCGS, unit_energyDensity]; field_simp
theorem code_temperature (x : ℝ) : u.toCode .temperature x = x / u.temp := by rw [Units.toCode, unit_temperature]
theorem code_inverseLength (x : ℝ) : u.toCode .inverseLength x = x * u.length := by
  rw [Units.toCode, unit_inverseLength]; simp
theorem code_area (x : ℝ) : u.toCode .area x = x / (u.length * u.length) := by rw [Units.toCode, unit_area]
theorem code_emissivityPerNu (hu : u.Pos) (x : ℝ) :
    u.toCode .emissivityPerNu x = x * (u.length * u.time * u.time / u.mass) := by
  obtain ⟨a, b, c, d⟩ := hu
  rw [Units.toCode, unit_emissivityPerNu]; field_simp
theorem code_emissivity (hu : u.Pos) (x : ℝ) :
    u.toCode .emissivity x = x * (u.length * u.time * u.time / u.mass) * u.time := by
  obtain ⟨a, b, c, d⟩ := hu
  rw [Units.toCode, unit_emissivity]; field_simp
theorem code_numberEmissivity (hu : u.Pos) (x : ℝ) :
    u.toCode .numberEmissivity x = x * (u.length * u.length * u.length * u.time) := by
  obtain ⟨a, b, c, d⟩ := hu
  rw [Units.toCode, unit_numberEmissivity]; field_simp
theorem code_intensityPerNu (hu : u.Pos) (x : ℝ) :
    u.toCode .intensityPerNu x = x * (u.time * u.time / u.mass) := by
  obtain ⟨a, b, c, d⟩ := hu
  rw [Units.toCode, unit_intensityPerNu]; field_simp
theorem code_intensity (hu : u.Pos) (x : ℝ) :
    u.toCode .intensity x = x * (u.time * u.time * u.length / u.mass) * u.time / u.length := by
  obtain ⟨a, b, c, d⟩ := hu
  rw [Units.toCode, unit_intensity]; field_simp
theorem code_numberFlux (hu : u.Pos) (x : ℝ) : u.toCode .numberFlux x =
    x * u.mass / (u.mass / (u.length * u.length * u.length)) * u.time / u.length := by
  obtain ⟨a, b, c, d⟩ := hu
  rw [Units.toCode, unit_numberFlux]; field_simp
theorem code_numberDensity (hu : u.Pos) (x : ℝ) : u.toCode .numberDensity x =
    x * u.mass / (u.mass / (u.length * u.length * u.length)) := by
  obtain ⟨a, b, c, d⟩ := hu
  rw [Units.toCode, unit_numberDensity]; field_simp
theorem code_energyDensity (hu : u.Pos) (x : ℝ) :
    u.toCode .energyDensity x = x * (u.time * u.time * u.length / u.mass) := by
  obtain ⟨a, b, c, d⟩ := hu
  rw [Units.toCode, unit_energyDensity]; field_simp
end

/-- how many of the first `n` elements of an array live at address `x` -/
def hits (a : Indexer) (n : ℤ) (x : ℕ) : ℕ := ∑ i ∈ Finset.range n.toNat, if a i = x then 1 else 0

theorem scaleLoop_hits (a : Indexer) (k : ℝ) (n : ℤ) (m : Heap ℝ) :
    scaleLoop a k n m = fun x => m x * k ^ hits a n x := by
  unfold scaleLoop hits
  rw [forLoop_toNat]
  generalize n.toNat = N
  refine forLoop_inv N _ (fun q m' => m' = fun x => m x * k ^ ∑ i ∈ Finset.range q, if a i = x then 1 else 0) m
    (by funext x; simp) ?_
  rintro q _ m' rfl
  funext x
  rw [Finset.sum_range_succ]
  by_cases h : x = a q
  · subst h; rw [Function.update_self]; simp [pow_succ]; exact mul_assoc _ _ _
  · rw [Function.update_of_ne h, if_neg (Ne.symm h)]; simp

theorem scaleLoop2_hits (a b : Indexer) (k l : ℝ) (n : ℤ) (m : Heap ℝ) :
    scaleLoop2 a k b l n m = fun x => m x * k ^ hits a n x * l ^ hits b n x := by
  unfold scaleLoop2 hits
  rw [forLoop_toNat]
  generalize n.toNat = N
  refine forLoop_inv N _ (fun q m' => m' = fun x => m x * k ^ (∑ i ∈ Finset.range q, if a i = x then 1 else 0) *
    l ^ ∑ i ∈ Finset.range q, if b i = x then 1 else 0) m (by funext x; simp) ?_
  rintro q _ m' rfl
  funext x
  simp only
  rw [Finset.sum_range_succ, Finset.sum_range_succ, pow_add, pow_add]
  by_cases hb : x = b q
  · subst hb
    rw [Function.update_self]
    by_cases ha : b q = a q
    · rw [ha, Function.update_self]
      simp only [areal, if_true, pow_one, ← ha]; ring
    · rw [Function.update_of_ne ha, if_neg (Ne.symm ha)]
      simp only [areal, if_true, pow_one, pow_zero]; ring
  · rw [Function.update_of_ne hb, if_neg (Ne.symm hb)]
    by_cases ha : x = a q
    · subst ha; rw [Function.update_self]
      simp only [areal, if_true, pow_one, pow_zero]; ring
    · rw [Function.update_of_ne ha, if_neg (Ne.symm ha)]; simp

/-- wrapping a wrapped vectorised method multiplies the factors, for every memory layout (even aliased) -/
theorem nonCGSVector_mul (V : Indexer → Indexer → ℤ → Heap ℝ → Heap ℝ) (f f' t t' o o' : ℝ) :
    nonCGSVector (nonCGSVector V f t o) f' t' o' = nonCGSVector V (f' * f) (t * t') (o * o') := by
  funext nb co n m
  simp only [nonCGSVector, scaleLoop_hits, scaleLoop2_hits]
  funext x
  simp only [mul_pow]
  have e : (fun x => m x * f' ^ hits nb n x * f ^ hits nb n x) = fun x => m x * (f' ^ hits nb n x * f ^ hits nb n x) := by
    funext x; ring
  rw [e]; ring

theorem nonCGSVector_one (V : Indexer → Indexer → ℤ → Heap ℝ → Heap ℝ) : nonCGSVector V 1 1 1 = V := by
  funext nb co n m
  simp [nonCGSVector, scaleLoop_hits, scaleLoop2_hits]

theorem nonCGSVectorM_mul (V : Indexer → Indexer → ℤ → Heap ℝ → Outcome (Heap ℝ)) (f f' t t' o o' : ℝ) :
    nonCGSVectorM (nonCGSVectorM V f t o) f' t' o' = nonCGSVectorM V (f' * f) (t * t') (o * o') := by
  funext nb co n m
  have e : (fun x => m x * f' ^ hits nb n x * f ^ hits nb n x) = fun x => m x * (f' ^ hits nb n x * f ^ hits nb n x) := by
    funext x; ring
  simp only [nonCGSVectorM, scaleLoop_hits, mul_pow, e]
  cases V nb co n fun x => m x * (f' ^ hits nb n x * f ^ hits nb n x) with
  | ok m' =>
    simp only [map'_ok, scaleLoop2_hits]
    congr 1; funext x; simp only [mul_pow]; ring
  | _ => rfl

theorem nonCGSVectorM_one (V : Indexer → Indexer → ℤ → Heap ℝ → Outcome (Heap ℝ)) : nonCGSVectorM V 1 1 1 = V := by
  funext nb co n m
  have e : scaleLoop2 nb (1 : ℝ) co 1 n = id := by funext m; simp [scaleLoop2_hits]
  simp only [nonCGSVectorM, scaleLoop_hits, e, one_pow, mul_one]
  cases V nb co n m <;> rfl

theorem map'_map' {α β γ : Type} (x : Outcome α) (f : α → β) (g : β → γ) :
    (x.map' f).map' g = x.map' fun a => g (f a) := by cases x <;> rfl
theorem map'_id {α : Type} (x : Outcome α) : x.map' (fun a => a) = x := by cases x <;> rfl
theorem map'_congr {α β : Type} (x : Outcome α) {f g : α → β} (h : ∀ a, f a = g a) : x.map' f = x.map' g := by
  rw [funext h]

end Opac
