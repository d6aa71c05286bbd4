import Verif.Model.Primitive
import Verif.Lemmas.Loop

/-!
# Closed forms of the primitive generators (helper lemmas, any arithmetic)
-/

set_option linter.unusedSectionVars false

namespace IntegratorXX

variable {F : Type} [Add F] [Sub F] [Mul F] [Div F] [Neg F] [Arith F]

open Arith

/-- Node `idx` of the first half of GaussChebyshev1. -/
def gc1X (F : Type) [Sub F] [Mul F] [Div F] [Arith F] (n idx : Nat) : F :=
  cos ((lit 2 * ofNat (n - idx) - lit 1) * (pi / ofNat n / lit 2))

/-- Weight `idx` of the first half of GaussChebyshev1. -/
def gc1W (F : Type) [Sub F] [Mul F] [Div F] [Arith F] (n idx : Nat) : F :=
  pi / ofNat n * sqrt (lit 1 - gc1X F n idx * gc1X F n idx)

theorem gaussChebyshev1_eq (n : Nat) : (gaussChebyshev1 n : Outcome (List F × List F)) =
    .ok ((List.range n).map (mirrorFn n (gc1X F n) (fun x => -x) (lit 0)),
      (List.range n).map (mirrorFn n (gc1W F n) id (pi / ofNat n))) := by
  unfold gaussChebyshev1
  refine forRange_mirror (n := n) (gc1X F n) (gc1W F n) (fun x => -x) id (lit 0) (pi / ofNat n)
    _ ?_ _ _ (by simp) (by simp)
  intro idx s h h1 h2
  dsimp only
  rw [vset_ok (by omega), Outcome.ok_bind, vset_ok (by omega), Outcome.ok_bind,
    vset_ok (by simp; omega), Outcome.ok_bind, vset_ok (by simp; omega), Outcome.ok_bind,
    show n - idx - 1 = n - 1 - idx by omega]
  rfl

/-- Node `idx` of the first half of GaussChebyshev2. -/
def gc2X (F : Type) [Mul F] [Div F] [Arith F] (n idx : Nat) : F :=
  cos (ofNat (n - idx) * (pi / ofNat (n + 1)))

/-- Weight `idx` of the first half of GaussChebyshev2. -/
def gc2W (F : Type) [Sub F] [Mul F] [Div F] [Arith F] (n idx : Nat) : F :=
  pi / ofNat (n + 1) * sqrt (lit 1 - gc2X F n idx * gc2X F n idx)

theorem gaussChebyshev2_eq (n : Nat) : (gaussChebyshev2 n : Outcome (List F × List F)) =
    .ok ((List.range n).map (mirrorFn n (gc2X F n) (fun x => -x) (lit 0)),
      (List.range n).map (mirrorFn n (gc2W F n) id (pi / ofNat (n + 1)))) := by
  unfold gaussChebyshev2
  refine forRange_mirror (n := n) (gc2X F n) (gc2W F n) (fun x => -x) id (lit 0)
    (pi / ofNat (n + 1)) _ ?_ _ _ (by simp) (by simp)
  intro idx s h h1 h2
  dsimp only
  rw [vset_ok (by omega), Outcome.ok_bind, vset_ok (by omega), Outcome.ok_bind,
    vset_ok (by simp; omega), Outcome.ok_bind, vset_ok (by simp; omega), Outcome.ok_bind,
    show n - idx - 1 = n - 1 - idx by omega]
  rfl

/-- The angle `ti` of GaussChebyshev2Modified. -/
def gc2mT (F : Type) [Mul F] [Div F] [Arith F] (n idx : Nat) : F :=
  ofNat (n - idx) * pi * (lit 1 / ofNat (n + 1))

/-- Node `idx` of the first half of GaussChebyshev2Modified. -/
def gc2mX (F : Type) [Add F] [Sub F] [Mul F] [Div F] [Arith F] (n idx : Nat) : F :=
  lit 1 - lit 2 * ofNat (n - idx) * (lit 1 / ofNat (n + 1))
    + twoOverPi * (lit 1 + lit 2 / lit 3 * (sin (gc2mT F n idx) * sin (gc2mT F n idx)))
      * cos (gc2mT F n idx) * sin (gc2mT F n idx)

/-- Weight `idx` of the first half of GaussChebyshev2Modified. -/
def gc2mW (F : Type) [Add F] [Mul F] [Div F] [Arith F] (n idx : Nat) : F :=
  lit 16 / lit 3 / (ofNat n + lit 1) * (sin (gc2mT F n idx) * sin (gc2mT F n idx))
    * (sin (gc2mT F n idx) * sin (gc2mT F n idx))

theorem gaussChebyshev2Modified_eq (n : Nat) :
    (gaussChebyshev2Modified n : Outcome (List F × List F)) =
    .ok ((List.range n).map (mirrorFn n (gc2mX F n) (fun x => -x) (lit 0)),
      (List.range n).map (mirrorFn n (gc2mW F n) id (lit 16 / lit 3 / (ofNat n + lit 1)))) := by
  unfold gaussChebyshev2Modified
  refine forRange_mirror (n := n) (gc2mX F n) (gc2mW F n) (fun x => -x) id (lit 0)
    (lit 16 / lit 3 / (ofNat n + lit 1)) _ ?_ _ _ (by simp) (by simp)
  intro idx s h h1 h2
  dsimp only
  have e1 : idx < n := by omega
  rw [vset_ok (by omega), Outcome.ok_bind, vset_ok (by omega), Outcome.ok_bind,
    vget_ok (List.getElem?_set_self (by omega)), Outcome.ok_bind,
    vset_ok (by simp; omega), Outcome.ok_bind,
    vget_ok (List.getElem?_set_self (by omega)), Outcome.ok_bind,
    vset_ok (by simp; omega), Outcome.ok_bind,
    show n - idx - 1 = n - 1 - idx by omega]
  rfl

/-- Node `idx` of GaussChebyshev3. -/
def gc3X (F : Type) [Mul F] [Div F] [Arith F] (n idx : Nat) : F :=
  cos (lit (1/2) * ofNat (2 * (n - idx) - 1) * (pi / ofNat (2 * n + 1))) *
    cos (lit (1/2) * ofNat (2 * (n - idx) - 1) * (pi / ofNat (2 * n + 1)))

/-- Weight `idx` of GaussChebyshev3. -/
def gc3W (F : Type) [Sub F] [Mul F] [Div F] [Arith F] (n idx : Nat) : F :=
  lit 2 * (pi / ofNat (2 * n + 1)) * gc3X F n idx
    * sqrt ((lit 1 - gc3X F n idx) / gc3X F n idx)

theorem gaussChebyshev3_eq (n : Nat) : (gaussChebyshev3 n : Outcome (List F × List F)) =
    .ok ((List.range n).map (gc3X F n), (List.range n).map (gc3W F n)) := by
  unfold gaussChebyshev3
  exact forRange_fill2 (n := n) (gc3X F n) (gc3W F n) _ (fun i s => rfl) _ _ (by simp) (by simp)

/-- The weights of UniformTrapezoid. -/
def utW (n : Nat) (lo up : F) (j : Nat) : F :=
  let d := (up - lo) / ofNat (n - 1)
  if j = 0 ∨ j = n - 1 then d * lit (1/2) else d

theorem uniformTrapezoid_eq (n : Nat) (hn : 2 ≤ n) (hn' : n < sizeMod) (lo up : F) :
    uniformTrapezoid n lo up =
    .ok ((List.range n).map (fun i => lo + ofNat i * ((up - lo) / ofNat (n - 1))),
      (List.range n).map (utW n lo up)) := by
  unfold uniformTrapezoid
  rw [subWrap_of_le (by omega) hn']
  simp only []
  rw [show n - 1 + 1 = n by omega, forRange_fill _ _ (by simp), Outcome.ok_bind,
    vget_lt (by simp; omega), Outcome.ok_bind, vset_ok (by simp; omega), Outcome.ok_bind,
    vget_lt (by simp; omega), Outcome.ok_bind, vset_ok (by simp; omega), Outcome.ok_bind,
    Outcome.pure_eq]
  congr 2
  apply eq_map_range (by simp)
  intro j hj
  have e : (0 : Nat) ≠ n - 1 := by omega
  by_cases h1 : j = n - 1
  · subst h1; simp [utW, e, show n - 1 < n by omega]
  · by_cases h0 : j = 0
    · subst h0; simp [utW, e, Ne.symm e, show 0 < n by omega]
    · simp [utW, h0, h1, Ne.symm h0, Ne.symm h1, hj]

end IntegratorXX
