import Verif.Model.Radial
import Mathlib.Analysis.SpecialFunctions.Log.Basic

/-!
# Specification of the radial transformations

The four substitutions as printed in the literature and in the documentation comments.
-/

namespace IntegratorXX.Spec

open RadialTraits

/-- The open interval of the base rule. -/
def radialDomain : RadialTraits ℝ → Set ℝ
  | becke .. => Set.Ioo (-1) 1
  | mhl .. => Set.Ioo 0 1
  | mk .. => Set.Ioo 0 1
  | ta .. => Set.Ioo (-1) 1

/-- The code's decimal for `ln 2`. -/
noncomputable def ln2Literal : ℝ := 0.693147180559945309417232

/-- The documented substitution `r(x)`. -/
noncomputable def radialMap : RadialTraits ℝ → ℝ → ℝ
  | becke _ R, x => R * ((1 + x) / (1 - x))
  | mhl M _ R, x => R * (x / (1 - x)) ^ M
  | mk _ R, x => -R * Real.log (1 - x ^ 3)
  | ta _ R alpha, x => R / ln2Literal * (1 + x) ^ alpha * Real.log (2 / (1 - x))

/-- Parameters for which the schemes are meant to be used. -/
def radialValid : RadialTraits ℝ → Prop
  | becke _ R => 0 < R
  | mhl M _ R => 0 < R ∧ 1 ≤ M
  | mk _ R => 0 < R
  | ta _ R alpha => 0 < R ∧ 0 ≤ alpha

/-- Only the restriction on the template parameter of the MHL scheme. -/
def radialWellFormed : RadialTraits ℝ → Prop
  | mhl M _ _ => 1 ≤ M
  | _ => True

/-- The same traits with the scale factor multiplied by `c`. -/
def rescale (c : ℝ) : RadialTraits ℝ → RadialTraits ℝ
  | becke n R => becke n (c * R)
  | mhl M n R => mhl M n (c * R)
  | mk n R => mk n (c * R)
  | ta n R alpha => ta n (c * R) alpha

end IntegratorXX.Spec
