/-!
# Outcomes, vectors and loops

The vocabulary in which the C++ code of `/repo/include/integratorxx` is modelled.
Nothing in this file is specific to a function of the library.
-/

namespace IntegratorXX

/-- C++ exceptions thrown by the library (`std::runtime_error` with its message,
`std::bad_cast` from `dynamic_cast` to a reference, `std::out_of_range` from `vector::at`).
For instance `impl/radial_factory.hpp:21`, `radial_transform.hpp:19`, `quadrature.hpp:146`. -/
inductive Exc where
  | runtimeError (msg : String)
  | badCast
  | outOfRange
deriving DecidableEq, Repr

/-- Result of running a piece of C++ code: normal return, exception, failing `assert`,
or undefined behaviour. -/
inductive Outcome (α : Type u) where
  | ok (a : α)
  | throws (e : Exc)
  | assertFail
  | ub
deriving DecidableEq, Repr

namespace Outcome

/-- Sequencing: anything but a normal return ends the computation. -/
@[inline] def bind {α : Type u} {β : Type v} : Outcome α → (α → Outcome β) → Outcome β
  | ok a, f => f a
  | throws e, _ => throws e
  | assertFail, _ => assertFail
  | ub, _ => ub

instance : Monad Outcome where
  pure := ok
  bind := bind

@[simp] theorem pure_eq {α : Type u} (a : α) : (pure a : Outcome α) = ok a := rfl
@[simp] theorem ok_bind {α β : Type u} (a : α) (f : α → Outcome β) : (ok a >>= f) = f a := rfl
@[simp] theorem throws_bind {α β : Type u} (e : Exc) (f : α → Outcome β) :
    ((throws e : Outcome α) >>= f) = throws e := rfl
@[simp] theorem assertFail_bind {α β : Type u} (f : α → Outcome β) :
    ((assertFail : Outcome α) >>= f) = assertFail := rfl
@[simp] theorem ub_bind {α β : Type u} (f : α → Outcome β) :
    ((ub : Outcome α) >>= f) = ub := rfl
@[simp] theorem map_ok {α β : Type u} (f : α → β) (a : α) : f <$> (ok a) = ok (f a) := rfl

theorem bind_eq_ok {α β : Type u} {x : Outcome α} {f : α → Outcome β} {b : β} :
    (x >>= f) = ok b ↔ ∃ a, x = ok a ∧ f a = ok b := by
  cases x <;> simp

instance : LawfulMonad Outcome := LawfulMonad.mk'
  (id_map := fun x => by cases x <;> rfl)
  (pure_bind := fun _ _ => rfl)
  (bind_assoc := fun x _ _ => by cases x <;> rfl)

end Outcome

/-- Build configuration: `asserts = true` is a build without `NDEBUG`, in which `assert`
is compiled in (and `INTEGRATORXX_DISABLE_SANITY_CHECK` is not defined).
The assertions are those of `quadrature.hpp:37`, `bound_transform.hpp:12`, `sub_quadrature.hpp:50-54` and `pruned_spherical_quadrature.hpp:34-43`. -/
structure Build where
  asserts : Bool
deriving DecidableEq, Repr

/-- `assert(p)`. -/
def cassert (b : Build) (p : Bool) : Outcome Unit :=
  if b.asserts && !p then .assertFail else .ok ()

/-- `v[i]` as an rvalue; reading out of range is undefined behaviour. -/
def vget {α : Type u} (v : List α) (i : Nat) : Outcome α :=
  match v[i]? with
  | some a => .ok a
  | none => .ub

/-- `v[i] = a`; writing out of range is undefined behaviour. -/
def vset {α : Type u} (v : List α) (i : Nat) (a : α) : Outcome (List α) :=
  if i < v.length then .ok (v.set i a) else .ub

/-- `v.at(i)`; throws `std::out_of_range`. -/
def vat {α : Type u} (v : List α) (i : Nat) : Outcome α :=
  match v[i]? with
  | some a => .ok a
  | none => .throws .outOfRange

/-- `n` iterations of a loop body with counter values `lo, lo+1, …`. -/
def forN {σ : Type u} : (n : Nat) → (lo : Nat) → (Nat → σ → Outcome σ) → σ → Outcome σ
  | 0, _, _, s => .ok s
  | n + 1, lo, body, s => body lo s >>= fun s' => forN n (lo + 1) body s'

/-- `for (size_t i = lo; i < hi; ++i) body(i)`. -/
def forRange {σ : Type u} (lo hi : Nat) (body : Nat → σ → Outcome σ) (s : σ) : Outcome σ :=
  forN (hi - lo) lo body s

/-- `2^64`, the modulus of `size_t`. -/
def sizeMod : Nat := 18446744073709551616

/-- `size_t` subtraction with wrap-around. -/
def subWrap (a b : Nat) : Nat := (a + (sizeMod - b)) % sizeMod

theorem subWrap_of_le {a b : Nat} (h : b ≤ a) (ha : a < sizeMod) : subWrap a b = a - b := by
  unfold subWrap sizeMod at *
  have h1 : a + (18446744073709551616 - b) = (a - b) + 18446744073709551616 := by omega
  rw [h1, Nat.add_mod_right, Nat.mod_eq_of_lt]
  omega

end IntegratorXX
