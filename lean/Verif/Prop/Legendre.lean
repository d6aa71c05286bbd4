import Verif.Lemmas.EvalPn
import Verif.Lemmas.RealRooted
import Verif.Lemmas.NewtonForms
import Verif.Lemmas.RuleSum
import Verif.Spec.Rule
import Verif.Model.Quadrature

/-!
# C11, C13, C14, C16: Gauss-Legendre and Gauss-Lobatto, mathematically
-/

namespace IntegratorXX

open Polynomial Spec Arith

/-- **C11.**  `eval_Pn(x, n)` is `(P_n(x), P_n'(x), P_{n-1}(x))`, where `P_n` is the Legendre
polynomial defined by the formula of Rodrigues. -/
theorem C11_eval_pn (x : ℝ) (n : ℕ) :
    (evalPn x n).1 = (legendre n).eval x ∧
    (x ^ 2 ≠ 1 → (evalPn x n).2.1 = (derivative (legendre n)).eval x) ∧
    (1 ≤ n → (evalPn x n).2.2 = (legendre (n - 1)).eval x) := by
  rw [evalPn_eq]
  dsimp only
  rw [(pnLoop_real x n).1, (pnLoop_real x n).2]
  refine ⟨rfl, fun hx => ?_, fun hn => ?_⟩
  · rw [legendre_deriv_eval n x hx]
    simp
  · rw [legPrev, if_neg (by omega)]

/-- The same with IEEE special values: no infinity or NaN arises unless `x² = 1`, in which case
the derivative is NaN. -/
theorem C11_special_values (x : ℝ) (n : ℕ) :
    (evalPn (XReal.fin x) n).1 = XReal.fin ((legendre n).eval x) ∧
    (x ^ 2 ≠ 1 → (evalPn (XReal.fin x) n).2.1 =
      XReal.fin ((derivative (legendre n)).eval x)) ∧
    (x ^ 2 = 1 → (evalPn (XReal.fin x) n).2.1 = XReal.nan) ∧
    (1 ≤ n → (evalPn (XReal.fin x) n).2.2 = XReal.fin ((legendre (n - 1)).eval x)) := by
  refine ⟨?_, fun hx => by rw [evalPn_xreal x n hx], fun hx => ?_, fun hn => ?_⟩
  · rw [evalPn_eq]; exact (pnLoop_xreal x n).1
  · rw [evalPn_eq]
    dsimp only
    rw [(pnLoop_xreal x n).1, (pnLoop_xreal x n).2]
    simp only [XReal.lit_eq, XReal.ofNat_eq, XReal.fin_mul, XReal.fin_sub]
    rw [XReal.fin_div, if_pos (by push_cast; nlinarith)]
    cases n with
    | zero =>
      have : XReal.infMul ((0 : ℕ) : ℝ) = XReal.nan := by simp [XReal.infMul]
      rw [this]; rfl
    | succ n =>
      have : XReal.infMul ((n + 1 : ℕ) : ℝ) = XReal.pinf := by
        rw [XReal.infMul, if_pos (by positivity)]
      rw [this]
      have h0 : x * (legendre (n + 1)).eval x - legPrev (n + 1) x = 0 := by
        rw [legPrev, if_neg (by omega), Nat.add_sub_cancel]
        have hx1 : (x - 1) * (x + 1) = 0 := by nlinarith
        rcases mul_eq_zero.1 hx1 with hx2 | hx2
        · obtain rfl : x = 1 := by linarith
          simp [legendre_eval_one]
        · obtain rfl : x = -1 := by linarith
          rw [legendre_eval_neg_one, legendre_eval_neg_one, pow_succ]; ring
      rw [h0]
      show XReal.infMul 0 = XReal.nan
      simp [XReal.infMul]
  · rw [evalPn_eq]
    dsimp only
    rw [(pnLoop_xreal x n).2, legPrev, if_neg (by omega)]

example : (2⁻¹ : ℝ) ^ 2 ≠ 1 ∧ (evalPn (2⁻¹ : ℝ) 1).1 = 2⁻¹ := by
  refine ⟨by norm_num, ?_⟩
  rw [(C11_eval_pn _ _).1, legendre_one, eval_X]

/-! ## C13 -/

/-- A value that is not finite is never accepted. -/
private theorem glNewton_nonfinite (n : ℕ) : ∀ (it : ℕ) (z : XReal), (∀ a, z ≠ .fin a) →
    glNewton n it z = none := by
  intro it
  induction it with
  | zero => intro z _; rfl
  | succ it ih =>
    intro z hz
    rw [glNewton]
    generalize (evalPn z n).1 / (evalPn z n).2.1 = y
    have h1 : (z - y) - z = XReal.nan ∧ ∀ a, z - y ≠ .fin a := by
      cases z <;> cases y <;> first
        | exact absurd rfl (hz _)
        | exact ⟨rfl, by rintro a ⟨⟩⟩
    rw [h1.1, if_neg (by
      rw [XReal.le_iff]
      show ¬ (XReal.Lt .nan (.fin _) ∨ XReal.Eq' .nan (.fin _))
      simp [XReal.Lt, XReal.Eq'])]
    exact ih _ h1.2

private theorem xle_fin (x e : ℝ) :
    Arith.le (Arith.abs (XReal.fin x)) (XReal.fin e) = true ↔ |x| ≤ e := by
  rw [XReal.le_iff, le_iff_lt_or_eq]
  rfl

/-- What acceptance means: the last step started at a finite `a` with `P_n'(a) ≠ 0` and had
length at most `eps`. -/
private theorem glNewton_some (n : ℕ) : ∀ (it : ℕ) (z : XReal) (r : XReal × XReal),
    glNewton n it z = some r → ∃ a : ℝ, a ^ 2 ≠ 1 ∧ (derivative (legendre n)).eval a ≠ 0 ∧
      r = (.fin (a - (legendre n).eval a / (derivative (legendre n)).eval a),
        .fin ((derivative (legendre n)).eval a)) ∧
      |(legendre n).eval a / (derivative (legendre n)).eval a| ≤ (2 : ℝ)⁻¹ ^ 52 := by
  intro it
  induction it with
  | zero => intro z r h; cases h
  | succ it ih =>
    intro z r h
    cases z with
    | fin a =>
      by_cases ha : a ^ 2 = 1
      · exfalso
        rw [glNewton] at h
        rw [(C11_special_values a n).2.2.1 ha] at h
        have e1 : XReal.fin a - (evalPn (XReal.fin a) n).1 / XReal.nan = XReal.nan := by
          rw [(C11_special_values a n).1]; rfl
        rw [e1, if_neg (by
          rw [XReal.le_iff]
          show ¬ (XReal.Lt .nan (.fin _) ∨ XReal.Eq' .nan (.fin _))
          simp [XReal.Lt, XReal.Eq'])] at h
        rw [glNewton_nonfinite n it _ (by rintro b ⟨⟩)] at h
        cases h
      · rw [glNewton] at h
        rw [evalPn_xreal a n ha] at h
        dsimp only at h
        by_cases hd : (derivative (legendre n)).eval a = 0
        · exfalso
          rw [hd, XReal.fin_div, if_pos rfl] at h
          have hnf : ∀ b, XReal.infMul ((legendre n).eval a) ≠ .fin b := by
            intro b
            unfold XReal.infMul
            split_ifs <;> rintro ⟨⟩
          generalize XReal.infMul ((legendre n).eval a) = y at h hnf
          have h1 : ¬ (Arith.le (Arith.abs ((XReal.fin a - y) - XReal.fin a)) Arith.eps) = true ∧
              ∀ b, XReal.fin a - y ≠ .fin b := by
            cases y with
            | fin b => exact absurd rfl (hnf b)
            | pinf =>
              refine ⟨?_, by rintro b ⟨⟩⟩
              rw [XReal.le_iff]
              show ¬ (XReal.Lt .pinf (.fin _) ∨ XReal.Eq' .pinf (.fin _))
              simp [XReal.Lt, XReal.Eq']
            | ninf =>
              refine ⟨?_, by rintro b ⟨⟩⟩
              rw [XReal.le_iff]
              show ¬ (XReal.Lt .pinf (.fin _) ∨ XReal.Eq' .pinf (.fin _))
              simp [XReal.Lt, XReal.Eq']
            | nan =>
              refine ⟨?_, by rintro b ⟨⟩⟩
              rw [XReal.le_iff]
              show ¬ (XReal.Lt .nan (.fin _) ∨ XReal.Eq' .nan (.fin _))
              simp [XReal.Lt, XReal.Eq']
          rw [if_neg h1.1, glNewton_nonfinite n it _ h1.2] at h
          cases h
        · rw [XReal.fin_div_ne _ hd, XReal.fin_sub, XReal.fin_sub] at h
          split_ifs at h with hle
          · cases h
            refine ⟨a, ha, hd, rfl, ?_⟩
            have := (xle_fin _ _).1 hle
            rwa [sub_sub_cancel_left, abs_neg] at this
          · exact ih _ r h
    | pinf => rw [glNewton_nonfinite n _ _ (by rintro b ⟨⟩)] at h; cases h
    | ninf => rw [glNewton_nonfinite n _ _ (by rintro b ⟨⟩)] at h; cases h
    | nan => rw [glNewton_nonfinite n _ _ (by rintro b ⟨⟩)] at h; cases h

private theorem accepted_near (n : ℕ) (hn : 1 ≤ n) (a : ℝ)
    (hd : (derivative (legendre n)).eval a ≠ 0)
    (hs : |(legendre n).eval a / (derivative (legendre n)).eval a| ≤ (2 : ℝ)⁻¹ ^ 52) :
    ∃ r, (legendre n).eval r = 0 ∧
      |a - (legendre n).eval a / (derivative (legendre n)).eval a - r| ≤ (n + 1) * (2 : ℝ)⁻¹ ^ 52 := by
  have hnod := eq_C_mul_nodal (legendre n) (legRoots n)
    (fun y hy => (mem_legRoots _ _).1 hy) (by rw [card_legRoots, natDegree_legendre])
  obtain ⟨r, hr, hle⟩ := near_root (legendre n).leadingCoeff
    (leadingCoeff_ne_zero.2 (legendre_ne_zero n)) (legRoots n)
    (Finset.card_pos.1 (by rw [card_legRoots]; omega)) a ((2 : ℝ)⁻¹ ^ 52) (by positivity)
    (by rw [← hnod]; exact hd) (by rw [← hnod]; exact hs)
  refine ⟨r, (mem_legRoots _ _).1 hr, ?_⟩
  rw [card_legRoots] at hle
  calc |a - (legendre n).eval a / (derivative (legendre n)).eval a - r|
      = |(a - r) - (legendre n).eval a / (derivative (legendre n)).eval a| := by ring_nf
    _ ≤ |a - r| + |(legendre n).eval a / (derivative (legendre n)).eval a| := abs_sub _ _
    _ ≤ n * (2 : ℝ)⁻¹ ^ 52 + (2 : ℝ)⁻¹ ^ 52 := add_le_add hle hs
    _ = _ := by ring

/-- **C13.**  In exact arithmetic with IEEE special values: when `GaussLegendre(npts)` returns,
every node is finite and within `(npts + 1) * 2^-52` of a root of `P_npts`. -/
theorem C13_nodes_near_roots (b : Build) (npts : ℕ) (q : Quad XReal XReal)
    (h : construct b (gaussLegendre npts : Outcome (List XReal × List XReal)) = .ok q) :
    ∀ x ∈ q.points, ∃ z r : ℝ, x = .fin z ∧ (legendre npts).eval r = 0 ∧
      |z - r| ≤ (npts + 1) * (2 : ℝ)⁻¹ ^ 52 := by
  rcases gaussLegendre_cases (F := XReal) npts with h' | ⟨hN, h'⟩
  · rw [h'] at h; cases h
  · rw [h', construct_ok b (by simp)] at h
    cases h
    have hz : ∀ j, j < (npts + 1) / 2 → ∃ z r : ℝ, (glZ XReal npts j).1 = .fin z ∧
        (legendre npts).eval r = 0 ∧ |z - r| ≤ (npts + 1) * (2 : ℝ)⁻¹ ^ 52 := by
      intro j hj
      obtain ⟨a, -, hd, hr, hs⟩ := glNewton_some npts 100 _ _ (hN j hj)
      obtain ⟨r, hr0, hr1⟩ := accepted_near npts (by omega) a hd hs
      exact ⟨_, r, by rw [hr], hr0, hr1⟩
    intro x hx
    dsimp only at hx
    obtain ⟨j, hj, rfl⟩ := List.mem_map.1 hx
    rw [List.mem_range] at hj
    split_ifs with hj2
    · obtain ⟨z, r, h1, h2, h3⟩ := hz j (by omega)
      refine ⟨-z, -r, by rw [h1]; rfl, by rw [legendre_eval_neg, h2, mul_zero], ?_⟩
      rw [show -z - -r = -(z - r) by ring, abs_neg]
      exact h3
    · exact hz _ (by omega)

/-! ## C14 -/

/-- The roots exist: `P_n` has exactly `n` distinct real roots, all in `(-1, 1)`. -/
theorem C14_roots (n : ℕ) : ∃ xs : List ℝ, xs.Nodup ∧ xs.length = n ∧
    (∀ x, x ∈ xs ↔ (legendre n).eval x = 0) ∧ ∀ x ∈ xs, -1 < x ∧ x < 1 := by
  refine ⟨(legRoots n).toList, Finset.nodup_toList _, ?_, ?_, ?_⟩
  · rw [Finset.length_toList, card_legRoots]
  · intro x; rw [Finset.mem_toList, mem_legRoots]
  · intro x hx
    rw [Finset.mem_toList, mem_legRoots] at hx
    exact legendre_root_mem n x hx

private theorem ruleSum_map_list (xs : List ℝ) (w f : ℝ → ℝ) :
    ruleSum xs (xs.map w) f = (xs.map (fun x => w x * f x)).sum := by
  unfold ruleSum
  induction xs with
  | nil => rfl
  | cons x xs ih =>
    simp only [List.map_cons, List.zip_cons_cons, List.sum_cons]
    rw [ih]

/-- **C14.**  With the nodes at the roots of `P_n`, the weight formula of the code gives a rule
that is exact for all polynomials of degree `< 2n`. -/
theorem C14_weight_formula_exact (n : ℕ) (hn : 1 ≤ n) (xs : List ℝ) (hnd : xs.Nodup)
    (hlen : xs.length = n) (hroot : ∀ x ∈ xs, (legendre n).eval x = 0) (p : ℝ[X])
    (hp : p.degree < (2 * n : ℕ)) :
    ruleSum xs (xs.map (fun x => Arith.lit 2 /
      ((Arith.lit 1 - x * x) * (evalPn x n).2.1 * (evalPn x n).2.1))) p.eval =
      ∫ x in (-1 : ℝ)..1, p.eval x := by
  have hset : xs.toFinset = legRoots n := by
    apply Finset.eq_of_subset_of_card_le
    · intro x hx
      rw [mem_legRoots]
      exact hroot x (List.mem_toFinset.1 hx)
    · rw [card_legRoots, List.toFinset_card_of_nodup hnd, hlen]
  rw [ruleSum_map_list, ← List.sum_toFinset _ hnd, hset]
  show _ = polyInt p
  rw [gauss_legendre_exact n hn p hp]
  apply Finset.sum_congr rfl
  intro x hx
  have hx' := legendre_root_mem n x ((mem_legRoots _ _).1 hx)
  rw [(C11_eval_pn x n).2.1 (by nlinarith)]
  simp only [real_lit]
  push_cast
  rw [show (1 - x * x) * eval x (derivative (legendre n)) * eval x (derivative (legendre n)) =
    (1 - x ^ 2) * eval x (derivative (legendre n)) ^ 2 by ring]

/-- At a root the Newton loop stops at once and leaves exactly the data of the weight formula. -/
theorem C14_newton_at_root (n : ℕ) (x : ℝ) (hx : (legendre n).eval x = 0) (it : ℕ) :
    glNewton n (it + 1) x = some (x, (evalPn x n).2.1) := by
  rw [glNewton]
  rw [(C11_eval_pn x n).1, hx, zero_div, sub_zero, if_pos]
  rw [sub_self, real_le, real_abs, abs_zero]
  simp only [real_eps]
  positivity

/-- Non-vacuity: a rule with five points. -/
example : ∃ xs : List ℝ, xs.Nodup ∧ xs.length = 5 ∧ ∀ x ∈ xs, (legendre 5).eval x = 0 := by
  obtain ⟨xs, h1, h2, h3, -⟩ := C14_roots 5
  exact ⟨xs, h1, h2, fun x hx => (h3 x).1 hx⟩

/-! ## C16 -/

/-- The interior nodes exist: `P'_m` has exactly `m - 1` distinct real roots, none of them `±1`. -/
theorem C16_roots (m : ℕ) (hm : 1 ≤ m) : ∃ xs : List ℝ, xs.Nodup ∧ xs.length = m - 1 ∧
    (∀ x, x ∈ xs ↔ (derivative (legendre m)).eval x = 0) ∧ ∀ x ∈ xs, x ≠ 1 ∧ x ≠ -1 := by
  obtain ⟨k, rfl⟩ : ∃ k, m = k + 1 := ⟨m - 1, by omega⟩
  refine ⟨(derivative (legendre (k + 1))).roots.toFinset.toList, Finset.nodup_toList _, ?_, ?_, ?_⟩
  · rw [Finset.length_toList,
      Multiset.toFinset_card_of_nodup (nodup_roots_derivative_legendre _ hm),
      card_roots_derivative_legendre]
    omega
  · intro x
    rw [Finset.mem_toList, Multiset.mem_toFinset, mem_roots (derivative_legendre_ne_zero _ hm),
      IsRoot.def]
  · intro x hx
    rw [Finset.mem_toList, Multiset.mem_toFinset, mem_roots (derivative_legendre_ne_zero _ hm),
      IsRoot.def] at hx
    exact (legendre_deriv_simple_root _ x hm hx).2.2

/-- **C16.**  With the interior nodes at the roots of `P'_{n-1}`, the end weights and the weight
formula of the code give a rule on `n` points that is exact for degree `< 2n - 2`. -/
theorem C16_weight_formula_exact (n : ℕ) (hn : 2 ≤ n) (xs : List ℝ) (hnd : xs.Nodup)
    (hlen : xs.length = n - 2) (hroot : ∀ x ∈ xs, (derivative (legendre (n - 1))).eval x = 0)
    (p : ℝ[X]) (hp : p.degree < (2 * n - 2 : ℕ)) :
    let e : ℝ := Arith.lit 2 / (Arith.ofNat n * (Arith.ofNat n - Arith.lit 1))
    ruleSum ([-1] ++ xs ++ [1]) ([e] ++ xs.map (fun x =>
      e / ((evalPn x (n - 1)).1 * (evalPn x (n - 1)).1)) ++ [e]) p.eval =
      ∫ x in (-1 : ℝ)..1, p.eval x := by
  obtain ⟨m, rfl⟩ : ∃ m, n = m + 1 := ⟨n - 1, by omega⟩
  have hm : 1 ≤ m := by omega
  simp only [Nat.add_sub_cancel] at *
  have hne := derivative_legendre_ne_zero m hm
  have hset : xs.toFinset = (derivative (legendre m)).roots.toFinset := by
    apply Finset.eq_of_subset_of_card_le
    · intro x hx
      rw [Multiset.mem_toFinset, mem_roots hne, IsRoot.def]
      exact hroot x (List.mem_toFinset.1 hx)
    · obtain ⟨k, rfl⟩ : ∃ k, m = k + 1 := ⟨m - 1, by omega⟩
      rw [Multiset.toFinset_card_of_nodup (nodup_roots_derivative_legendre _ hm),
        card_roots_derivative_legendre, List.toFinset_card_of_nodup hnd, hlen]
      omega
  have h1 : (1 : ℝ) ∉ insert (-1 : ℝ) (derivative (legendre m)).roots.toFinset := by
    rw [Finset.mem_insert, Multiset.mem_toFinset, mem_roots hne, IsRoot.def]
    rintro (h | h)
    · norm_num at h
    · exact (legendre_deriv_simple_root _ _ hm h).2.2.1 rfl
  have h2 : (-1 : ℝ) ∉ (derivative (legendre m)).roots.toFinset := by
    rw [Multiset.mem_toFinset, mem_roots hne, IsRoot.def]
    intro h
    exact (legendre_deriv_simple_root _ _ hm h).2.2.2 rfl
  show _ = polyInt p
  rw [gauss_lobatto_exact m hm p (by
    rwa [show 2 * (m + 1) - 2 = 2 * m by omega] at hp)]
  unfold lobRoots
  rw [Finset.sum_insert h1, Finset.sum_insert h2, ← hset, List.sum_toFinset _ hnd]
  have hsq : ((-1 : ℝ) ^ m) ^ 2 = 1 := by rw [← pow_mul, mul_comm, pow_mul]; simp
  rw [legendre_eval_one, legendre_eval_neg_one, hsq]
  have e1 : ∀ (e : ℝ), ruleSum ([-1] ++ xs ++ [1]) ([e] ++ xs.map (fun x =>
      e / ((evalPn x m).1 * (evalPn x m).1)) ++ [e]) p.eval =
      e * p.eval (-1) + (xs.map (fun x => e / ((evalPn x m).1 * (evalPn x m).1) *
        p.eval x)).sum + e * p.eval 1 := by
    intro e
    have := ruleSum_map_list xs (fun x => e / ((evalPn x m).1 * (evalPn x m).1)) p.eval
    unfold ruleSum at this ⊢
    simp only [List.cons_append, List.nil_append]
    rw [List.zip_cons_cons, List.map_cons, List.sum_cons,
      List.zip_append (by simp), List.map_append, List.sum_append, this]
    simp
    ring
  rw [e1]
  simp only [real_lit, real_ofNat]
  push_cast
  rw [show ((m : ℝ) + 1) * (m + 1 - 1) = (m + 1) * m by ring]
  have e2 : xs.map (fun x => 2 / (((m : ℝ) + 1) * m) / ((evalPn x m).1 * (evalPn x m).1) *
        p.eval x) = xs.map (fun x => 2 / (((m : ℝ) + 1) * m * (legendre m).eval x ^ 2) *
        p.eval x) := by
    apply List.map_congr_left
    intro x _
    rw [(C11_eval_pn x m).1, div_div, sq]
  rw [e2]
  ring

/-- At a root of `P'_{n-1}` the Newton loop of GaussLobatto stops at once and leaves the value
used by the weight formula. -/
theorem C16_newton_at_root (n : ℕ) (hn : 2 ≤ n) (x : ℝ)
    (hx : (derivative (legendre (n - 1))).eval x = 0) (it : ℕ) :
    lobNewton n (it + 1) x = some (x, (evalPn x (n - 1)).1) := by
  obtain ⟨m, rfl⟩ : ∃ m, n = m + 2 := ⟨n - 2, by omega⟩
  have hd := congrArg (eval x) (legendre_deriv_formula m)
  rw [show m + 2 - 1 = m + 1 by omega] at hx ⊢
  simp only [eval_mul, eval_sub, eval_one, eval_pow, eval_X, eval_C, hx, mul_zero] at hd
  have h0 : x * (legendre (m + 1)).eval x - (legendre m).eval x = 0 := by
    have : (m + 1 : ℝ) ≠ 0 := by positivity
    have := (mul_eq_zero.1 hd.symm).resolve_left this
    linarith
  rw [lobNewton]
  rw [show m + 2 - 1 = m + 1 by omega, (C11_eval_pn x (m + 1)).1,
    (C11_eval_pn x (m + 1)).2.2 (by omega), Nat.add_sub_cancel, h0, zero_div, sub_zero, if_pos]
  rw [sub_self, real_le, real_abs, abs_zero]
  simp only [real_eps]
  positivity

/-- Non-vacuity: three interior nodes. -/
example : ∃ xs : List ℝ, xs.Nodup ∧ xs.length = 5 - 2 ∧
    ∀ x ∈ xs, (derivative (legendre (5 - 1))).eval x = 0 := by
  obtain ⟨xs, h1, h2, h3, -⟩ := C16_roots 4 (by norm_num)
  exact ⟨xs, h1, h2, fun x hx => (h3 x).1 hx⟩

end IntegratorXX
