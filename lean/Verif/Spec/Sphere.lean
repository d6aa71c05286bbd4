import Mathlib.Analysis.SpecialFunctions.Trigonometric.Basic
import Mathlib.MeasureTheory.Integral.IntervalIntegral.Basic
import Mathlib.Algebra.MvPolynomial.Degrees
import Verif.Model.Composite

/-!
# Integration over the unit sphere

Written without reference to the model of any generator.
-/

namespace IntegratorXX.Spec

/-- The surface integral over the unit sphere in spherical coordinates. -/
noncomputable def sphereInt (f : Pt ℝ → ℝ) : ℝ :=
  ∫ θ in (0 : ℝ)..Real.pi,
    (∫ φ in (0 : ℝ)..(2 * Real.pi),
      f ⟨Real.sin θ * Real.cos φ, Real.sin θ * Real.sin φ, Real.cos θ⟩) * Real.sin θ

/-- The value of a polynomial in three variables at a point. -/
noncomputable def polyAt (p : MvPolynomial (Fin 3) ℝ) (u : Pt ℝ) : ℝ :=
  MvPolynomial.eval ![u.x, u.y, u.z] p

/-- The sum of the absolute values of the coefficients. -/
noncomputable def coeffSum (p : MvPolynomial (Fin 3) ℝ) : ℝ := ∑ m ∈ p.support, |p.coeff m|

end IntegratorXX.Spec
