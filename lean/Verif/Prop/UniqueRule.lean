import Verif.Prop.Chebyshev
import Verif.Prop.Legendre

/-!
# C118: the Gauss rules are the only rules of their order

A rule with at most as many nodes that is exact to the same degree has the same nodes and the same weights.
-/

namespace IntegratorXX

open Spec Real Polynomial

/-- The polynomial with the zeros `l`. -/
private noncomputable def nodal (l : List ℝ) : ℝ[X] := (l.map fun y => X - C y).prod

private theorem nodal_eval (l : List ℝ) (t : ℝ) : (nodal l).eval t = 0 ↔ t ∈ l := by
  unfold nodal
  induction l with
  | nil => simp
  | cons a l ih =>
    rw [List.map_cons, List.prod_cons, eval_mul, mul_eq_zero, ih, List.mem_cons, eval_sub, eval_X, eval_C, sub_eq_zero]

private theorem nodal_degree (l : List ℝ) : (nodal l).natDegree ≤ l.length := by
  unfold nodal
  induction l with
  | nil => simp
  | cons a l ih =>
    rw [List.map_cons, List.prod_cons, List.length_cons]
    refine natDegree_mul_le.trans ?_
    have := natDegree_X_sub_C_le a
    omega

private theorem nodal_ne (l : List ℝ) : nodal l ≠ 0 := by
  unfold nodal
  induction l with
  | nil => simp
  | cons a l ih =>
    rw [List.map_cons, List.prod_cons]
    exact mul_ne_zero (X_sub_C_ne_zero a) ih

/-- A rule with distinct nodes, on a function that vanishes at all nodes but one. -/
private theorem sum_single (l : List (ℝ × ℝ)) (hl : (l.map Prod.fst).Nodup) (f : ℝ → ℝ) (e : ℝ × ℝ) (he : e ∈ l)
    (hf : ∀ t ∈ l.map Prod.fst, t ≠ e.1 → f t = 0) : (l.map fun e => e.2 * f e.1).sum = e.2 * f e.1 := by
  induction l with
  | nil => simp at he
  | cons a l ih =>
    rw [List.map_cons, List.nodup_cons] at hl
    rw [List.map_cons, List.sum_cons]
    rcases List.mem_cons.1 he with rfl | he
    · rw [List.sum_eq_zero, add_zero]
      intro y hy
      obtain ⟨d, hd, rfl⟩ := List.mem_map.1 hy
      rw [hf d.1 (List.mem_map_of_mem (List.mem_cons_of_mem _ hd)) fun h => hl.1 (h ▸ List.mem_map_of_mem hd), mul_zero]
    · rw [ih hl.2 he fun t ht => hf t (List.mem_cons_of_mem _ ht),
        hf a.1 (by simp) fun h => hl.1 (h ▸ List.mem_map_of_mem he), mul_zero, zero_add]

private theorem sum_vanish (l : List (ℝ × ℝ)) (f : ℝ → ℝ) (h : ∀ t ∈ l.map Prod.fst, f t = 0) :
    (l.map fun e => e.2 * f e.1).sum = 0 := by
  rw [List.sum_eq_zero]
  intro y hy
  obtain ⟨e, he, rfl⟩ := List.mem_map.1 hy
  rw [h e.1 (List.mem_map_of_mem he), mul_zero]

/-- Two rules `l` and `m` that agree below degree `d`; the nodes of both include `Z`. -/
private theorem rules_eq (l m : List (ℝ × ℝ)) (Z : List ℝ) (g : ℝ → ℝ) (d : ℕ) (hl : (l.map Prod.fst).Nodup)
    (hw : ∀ e ∈ l, e.2 ≠ 0) (hg : ∀ e ∈ l, g e.1 ≠ 0) (hm : m.length ≤ l.length) (hZ : Z.Nodup)
    (hZl : Z ⊆ l.map Prod.fst) (hZm : Z ⊆ m.map Prod.fst) (hd : l.length ≤ d) (hd2 : 2 * l.length ≤ d + Z.length)
    (h : ∀ p : ℝ[X], p.degree < d →
      (m.map fun e => e.2 * (p.eval e.1 * g e.1)).sum = (l.map fun e => e.2 * (p.eval e.1 * g e.1)).sum) :
    m.Perm l := by
  have hdeg : ∀ p : ℝ[X], p ≠ 0 → p.natDegree < d → p.degree < d := fun p h0 hp => by
    rw [degree_eq_natDegree h0]
    exact_mod_cast hp
  have hsub : l.map Prod.fst ⊆ m.map Prod.fst := by
    intro t ht
    by_contra hn
    obtain ⟨e, he, rfl⟩ := List.mem_map.1 ht
    have heZ : e.1 ∉ Z := fun hz => hn (hZm hz)
    set R := ((l.map Prod.fst).diff Z).erase e.1 with hR
    have hR1 : R.length + 1 + Z.length ≤ l.length := by
      have hs : Z.Subperm (l.map Prod.fst) := List.subperm_of_subset hZ hZl
      have h1 : (((l.map Prod.fst).diff Z).length) + Z.length = l.length := by
        have := (List.subperm_append_diff_self_of_count_le fun x _ => hs.count_le x).length_eq
        rw [List.length_append, List.length_map] at this
        omega
      have h2 : e.1 ∈ (l.map Prod.fst).diff Z := (hl.mem_sdiff_iff).2 ⟨ht, heZ⟩
      have h3 : R.length + 1 = _ := List.length_erase_add_one h2
      omega
    have hp0 : nodal (m.map Prod.fst) * nodal R ≠ 0 := mul_ne_zero (nodal_ne _) (nodal_ne _)
    have hp := h (nodal (m.map Prod.fst) * nodal R) (hdeg _ hp0 (by
      refine lt_of_le_of_lt natDegree_mul_le ?_
      have h1 := nodal_degree (m.map Prod.fst)
      have h2 := nodal_degree R
      rw [List.length_map] at h1
      omega))
    rw [sum_vanish m (fun t => (nodal (m.map Prod.fst) * nodal R).eval t * g t) fun t ht => by
        rw [eval_mul, (nodal_eval _ _).2 ht, zero_mul, zero_mul],
      sum_single l hl (fun t => (nodal (m.map Prod.fst) * nodal R).eval t * g t) e he fun t ht hne => by
        rw [eval_mul]
        by_cases hz : t ∈ Z
        · rw [(nodal_eval _ _).2 (hZm hz), zero_mul, zero_mul]
        · rw [(nodal_eval R _).2 ((List.mem_erase_of_ne hne).2 ((hl.mem_sdiff_iff).2 ⟨ht, hz⟩)), mul_zero, zero_mul]] at hp
    have hR2 : e.1 ∉ R := (List.Nodup.not_mem_erase (hl.diff))
    rw [eval_mul] at hp
    exact mul_ne_zero (hw e he) (mul_ne_zero (mul_ne_zero (fun h => hn ((nodal_eval _ _).1 h))
      fun h => hR2 ((nodal_eval _ _).1 h)) (hg e he)) hp.symm
  have hperm : (l.map Prod.fst).Perm (m.map Prod.fst) :=
    (List.subperm_of_subset hl hsub).perm_of_length_le (by rw [List.length_map, List.length_map]; exact hm)
  have hmn : (m.map Prod.fst).Nodup := hperm.nodup_iff.1 hl
  have hlm : l ⊆ m := by
    intro e he
    have het : e.1 ∈ l.map Prod.fst := List.mem_map_of_mem he
    obtain ⟨c, hc, hce⟩ := List.mem_map.1 (hsub het)
    have hp := h (nodal ((l.map Prod.fst).erase e.1)) (hdeg _ (nodal_ne _) (by
      have h1 := nodal_degree ((l.map Prod.fst).erase e.1)
      have h3 := List.length_erase_add_one het
      rw [List.length_map] at h3
      omega))
    have hv : ∀ t ∈ l.map Prod.fst, t ≠ e.1 → (nodal ((l.map Prod.fst).erase e.1)).eval t * g t = 0 := fun t ht hne => by
      rw [(nodal_eval _ _).2 ((List.mem_erase_of_ne hne).2 ht), zero_mul]
    rw [sum_single l hl (fun t => (nodal ((l.map Prod.fst).erase e.1)).eval t * g t) e he hv,
      sum_single m hmn (fun t => (nodal ((l.map Prod.fst).erase e.1)).eval t * g t) c hc fun t ht hne =>
        hv t (hperm.mem_iff.2 ht) (hce ▸ hne)] at hp
    rw [hce] at hp
    have h0 : (nodal ((l.map Prod.fst).erase e.1)).eval e.1 * g e.1 ≠ 0 :=
      mul_ne_zero (fun h => hl.not_mem_erase ((nodal_eval _ _).1 h)) (hg e he)
    have := mul_right_cancel₀ h0 hp
    have hec : e = c := Prod.ext hce.symm this.symm
    exact hec ▸ hc
  exact ((List.subperm_of_subset (hl.of_map _) hlm).perm_of_length_le hm).symm

/-- The same, for rules given as the code gives them. -/
private theorem rules_eq' (x w xs ws : List ℝ) (g : ℝ → ℝ) (n : ℕ) (hxs : xs.length = n) (hws : ws.length = n)
    (hnd : xs.Nodup) (hw : ∀ v ∈ ws, v ≠ 0) (hg : ∀ t ∈ xs, g t ≠ 0) (hx : x.length ≤ n) (I : ℝ[X] → ℝ)
    (h : ∀ p : ℝ[X], p.degree < (2 * n : ℕ) → ruleSum x w (fun t => p.eval t * g t) = I p)
    (h' : ∀ p : ℝ[X], p.degree < (2 * n : ℕ) → ruleSum xs ws (fun t => p.eval t * g t) = I p) :
    (x.zip w).Perm (xs.zip ws) := by
  have hfst : (xs.zip ws).map Prod.fst = xs := List.map_fst_zip (by omega)
  have hlen : (xs.zip ws).length = n := by rw [List.length_zip]; omega
  refine rules_eq (xs.zip ws) (x.zip w) [] g (2 * n) (by rwa [hfst]) (fun e he => hw _ (List.of_mem_zip he).2)
    (fun e he => hg _ (List.of_mem_zip he).1) (by rw [List.length_zip]; omega) List.nodup_nil (by simp) (by simp)
    (by omega) (by omega) fun p hp => (h p hp).trans (h' p hp).symm

/-- **C118.**  GaussChebyshev1 is the only rule with at most `n` nodes that is exact to its degree. -/
theorem C118_chebyshev1 (b : Build) (npts : ℕ) (hn : 1 ≤ npts) (x w : List ℝ) (hx : x.length ≤ npts)
    (_hi : ∀ t ∈ x, -1 < t ∧ t < 1)
    (h : ∀ p : ℝ[X], p.degree < (2 * npts : ℕ) →
      ruleSum x w (fun t => p.eval t / √(1 - t ^ 2)) = ∫ t in (-1)..1, p.eval t / √(1 - t ^ 2)) :
    Returns (construct b (gaussChebyshev1 npts)) (fun q => (x.zip w).Perm (q.points.zip q.weights)) := by
  obtain ⟨q, e, hs, hin, hw⟩ := C03_gc1_sorted b npts
  obtain ⟨q', e', hl1, hl2⟩ := (C01_chebyshev_sizes (F := ℝ) b npts).1
  rw [e] at e'
  cases e'
  refine ⟨q, e, rules_eq' x w _ _ (fun t => (√(1 - t ^ 2))⁻¹) npts hl1 hl2 (hs.imp ne_of_lt) (fun v hv => (hw v hv).ne')
    (fun t ht => ?_) hx (fun p => ∫ t in (-1)..1, p.eval t / √(1 - t ^ 2)) h fun p hp => ?_⟩
  · have := hin t ht
    exact inv_ne_zero (sqrt_pos.2 (by nlinarith)).ne'
  · obtain ⟨q', e', h'⟩ := C04_gc1_exact b npts hn p (by exact_mod_cast hp)
    rw [e] at e'
    cases e'
    exact h'

example : ∃ x w : List ℝ, x.length ≤ 5 ∧ (∀ t ∈ x, -1 < t ∧ t < 1) ∧ ∀ p : ℝ[X], p.degree < (2 * 5 : ℕ) →
    ruleSum x w (fun t => p.eval t / √(1 - t ^ 2)) = ∫ t in (-1)..1, p.eval t / √(1 - t ^ 2) := by
  obtain ⟨q, e, -, hin, -⟩ := C03_gc1_sorted ⟨false⟩ 5
  obtain ⟨q', e', hl, -⟩ := (C01_chebyshev_sizes (F := ℝ) ⟨false⟩ 5).1
  rw [e] at e'
  cases e'
  refine ⟨q.points, q.weights, hl.le, hin, fun p hp => ?_⟩
  obtain ⟨q', e', h'⟩ := C04_gc1_exact ⟨false⟩ 5 (by norm_num) p (by exact_mod_cast hp)
  rw [e] at e'
  cases e'
  exact h'

/-- **C118.**  The same for GaussChebyshev2. -/
theorem C118_chebyshev2 (b : Build) (npts : ℕ) (x w : List ℝ) (hx : x.length ≤ npts)
    (_hi : ∀ t ∈ x, -1 < t ∧ t < 1)
    (h : ∀ p : ℝ[X], p.degree < (2 * npts : ℕ) →
      ruleSum x w (fun t => p.eval t * √(1 - t ^ 2)) = ∫ t in (-1)..1, p.eval t * √(1 - t ^ 2)) :
    Returns (construct b (gaussChebyshev2 npts)) (fun q => (x.zip w).Perm (q.points.zip q.weights)) := by
  obtain ⟨q, e, hs, hin, hw⟩ := C05_gc2_sorted b npts
  obtain ⟨q', e', hl1, hl2⟩ := (C01_chebyshev_sizes (F := ℝ) b npts).2.1
  rw [e] at e'
  cases e'
  refine ⟨q, e, rules_eq' x w _ _ (fun t => √(1 - t ^ 2)) npts hl1 hl2 (hs.imp ne_of_lt) (fun v hv => (hw v hv).ne')
    (fun t ht => ?_) hx (fun p => ∫ t in (-1)..1, p.eval t * √(1 - t ^ 2)) h fun p hp => ?_⟩
  · have := hin t ht
    exact (sqrt_pos.2 (by nlinarith)).ne'
  · obtain ⟨q', e', h'⟩ := C06_gc2_exact b npts p (by exact_mod_cast hp)
    rw [e] at e'
    cases e'
    exact h'

example : ∃ x w : List ℝ, x.length ≤ 5 ∧ (∀ t ∈ x, -1 < t ∧ t < 1) ∧ ∀ p : ℝ[X], p.degree < (2 * 5 : ℕ) →
    ruleSum x w (fun t => p.eval t * √(1 - t ^ 2)) = ∫ t in (-1)..1, p.eval t * √(1 - t ^ 2) := by
  obtain ⟨q, e, -, hin, -⟩ := C05_gc2_sorted ⟨false⟩ 5
  obtain ⟨q', e', hl, -⟩ := (C01_chebyshev_sizes (F := ℝ) ⟨false⟩ 5).2.1
  rw [e] at e'
  cases e'
  refine ⟨q.points, q.weights, hl.le, hin, fun p hp => ?_⟩
  obtain ⟨q', e', h'⟩ := C06_gc2_exact ⟨false⟩ 5 p (by exact_mod_cast hp)
  rw [e] at e'
  cases e'
  exact h'

/-- **C118.**  The same for GaussChebyshev3. -/
theorem C118_chebyshev3 (b : Build) (npts : ℕ) (x w : List ℝ) (hx : x.length ≤ npts)
    (_hi : ∀ t ∈ x, 0 < t ∧ t < 1)
    (h : ∀ p : ℝ[X], p.degree < (2 * npts : ℕ) →
      ruleSum x w (fun t => p.eval t * √(t / (1 - t))) = ∫ t in (0)..1, p.eval t * √(t / (1 - t))) :
    Returns (construct b (gaussChebyshev3 npts)) (fun q => (x.zip w).Perm (q.points.zip q.weights)) := by
  obtain ⟨q, e, hs, hin, hw⟩ := C07_gc3_sorted b npts
  obtain ⟨q', e', hl1, hl2⟩ := (C01_chebyshev_sizes (F := ℝ) b npts).2.2.2
  rw [e] at e'
  cases e'
  refine ⟨q, e, rules_eq' x w _ _ (fun t => √(t / (1 - t))) npts hl1 hl2 (hs.imp ne_of_lt) (fun v hv => (hw v hv).ne')
    (fun t ht => ?_) hx (fun p => ∫ t in (0)..1, p.eval t * √(t / (1 - t))) h fun p hp => ?_⟩
  · obtain ⟨h1, h2⟩ := hin t ht
    exact (sqrt_pos.2 (div_pos h1 (sub_pos.2 h2))).ne'
  · obtain ⟨q', e', h'⟩ := C08_gc3_exact b npts p (by exact_mod_cast hp)
    rw [e] at e'
    cases e'
    simpa only [mul_comm (√_)] using h'

example : ∃ x w : List ℝ, x.length ≤ 5 ∧ (∀ t ∈ x, 0 < t ∧ t < 1) ∧ ∀ p : ℝ[X], p.degree < (2 * 5 : ℕ) →
    ruleSum x w (fun t => p.eval t * √(t / (1 - t))) = ∫ t in (0)..1, p.eval t * √(t / (1 - t)) := by
  obtain ⟨q, e, -, hin, -⟩ := C07_gc3_sorted ⟨false⟩ 5
  obtain ⟨q', e', hl, -⟩ := (C01_chebyshev_sizes (F := ℝ) ⟨false⟩ 5).2.2.2
  rw [e] at e'
  cases e'
  refine ⟨q.points, q.weights, hl.le, hin, fun p hp => ?_⟩
  obtain ⟨q', e', h'⟩ := C08_gc3_exact ⟨false⟩ 5 p (by exact_mod_cast hp)
  rw [e] at e'
  cases e'
  simpa only [mul_comm (√_)] using h'

/-- **C118.**  The same for the Gauss-Legendre rule with the weight formula of the code. -/
theorem C118_gauss_legendre (n : ℕ) (hn : 1 ≤ n) (xs : List ℝ) (hnd : xs.Nodup) (hlen : xs.length = n)
    (hroot : ∀ t ∈ xs, (legendre n).eval t = 0) (x w : List ℝ) (hx : x.length ≤ n)
    (h : ∀ p : ℝ[X], p.degree < (2 * n : ℕ) → ruleSum x w p.eval = ∫ t in (-1 : ℝ)..1, p.eval t) :
    (x.zip w).Perm (xs.zip (xs.map fun t =>
      Arith.lit 2 / ((Arith.lit 1 - t * t) * (evalPn t n).2.1 * (evalPn t n).2.1))) := by
  refine rules_eq' x w _ _ (fun _ => 1) n hlen (by simpa using hlen) hnd ?_ (fun _ _ => one_ne_zero) hx
    (fun p => ∫ t in (-1 : ℝ)..1, p.eval t) (by simpa only [mul_one] using h) fun p hp => by
      simpa only [mul_one] using C14_weight_formula_exact n hn xs hnd hlen hroot p hp
  intro v hv
  obtain ⟨t, ht, rfl⟩ := List.mem_map.1 hv
  have hm := legendre_root_mem n t (hroot t ht)
  have h1 : (1 : ℝ) - t * t ≠ 0 := by nlinarith
  have h2 := legendre_simple_root n t (hroot t ht)
  rw [(C11_eval_pn t n).2.1 (by nlinarith)]
  simp only [Arith.real_lit]
  push_cast
  exact div_ne_zero two_ne_zero (mul_ne_zero (mul_ne_zero h1 h2) h2)

example : ∃ xs x w : List ℝ, xs.Nodup ∧ xs.length = 7 ∧ (∀ t ∈ xs, (legendre 7).eval t = 0) ∧ x.length ≤ 7 ∧
    ∀ p : ℝ[X], p.degree < (2 * 7 : ℕ) → ruleSum x w p.eval = ∫ t in (-1 : ℝ)..1, p.eval t := by
  obtain ⟨xs, h1, h2, h3, -⟩ := C14_roots 7
  exact ⟨xs, xs, _, h1, h2, fun t ht => (h3 t).1 ht, h2.le, fun p hp =>
    C14_weight_formula_exact 7 (by norm_num) xs h1 h2 (fun t ht => (h3 t).1 ht) p hp⟩

/-- **C118.**  The Gauss-Lobatto rule with the weight formula of the code is the only rule with at most `n` nodes,
among them both ends of the interval, that is exact to its degree. -/
theorem C118_gauss_lobatto (n : ℕ) (hn : 2 ≤ n) (xs : List ℝ) (hnd : xs.Nodup) (hlen : xs.length = n - 2)
    (hroot : ∀ t ∈ xs, (derivative (legendre (n - 1))).eval t = 0) (x w : List ℝ) (hx : x.length ≤ n)
    (hxw : w.length = x.length) (hm1 : -1 ∈ x) (h1 : 1 ∈ x)
    (h : ∀ p : ℝ[X], p.degree < (2 * n - 2 : ℕ) → ruleSum x w p.eval = ∫ t in (-1 : ℝ)..1, p.eval t) :
    let e : ℝ := Arith.lit 2 / (Arith.ofNat n * (Arith.ofNat n - Arith.lit 1))
    (x.zip w).Perm (([-1] ++ xs ++ [1]).zip ([e] ++ xs.map (fun t =>
      e / ((evalPn t (n - 1)).1 * (evalPn t (n - 1)).1)) ++ [e])) := by
  intro e
  have hn' : (2 : ℝ) ≤ n := by exact_mod_cast hn
  have he : e ≠ 0 := by
    have h0 : e = 2 / (n * (n - 1)) := by
      simp only [e, Arith.real_lit, Arith.real_ofNat]
      push_cast
      norm_num
    rw [h0]
    exact div_ne_zero two_ne_zero (mul_ne_zero (by linarith) (by linarith))
  have hr : ∀ t ∈ xs, _ := fun t ht => legendre_deriv_simple_root (n - 1) t (by omega) (hroot t ht)
  set ys := [-1] ++ xs ++ [(1 : ℝ)] with hys
  set vs := [e] ++ xs.map (fun t => e / ((evalPn t (n - 1)).1 * (evalPn t (n - 1)).1)) ++ [e] with hvs
  have hyl : ys.length = n := by simp [hys, hlen]; omega
  have hvl : vs.length = n := by simp [hvs, hlen]; omega
  have hynd : ys.Nodup := by
    have a1 : (1 : ℝ) ∉ xs := fun hc => (hr 1 hc).2.2.1 rfl
    have a2 : (-1 : ℝ) ∉ xs := fun hc => (hr (-1) hc).2.2.2 rfl
    have a3 : (-1 : ℝ) ≠ 1 := by norm_num
    rw [hys, List.singleton_append, List.cons_append, List.nodup_cons, List.nodup_append]
    refine ⟨by simp [a2, a3], hnd, List.nodup_singleton _, ?_⟩
    rintro t ht s hs rfl
    rw [List.mem_singleton] at hs
    exact a1 (hs ▸ ht)
  have hfst : (ys.zip vs).map Prod.fst = ys := List.map_fst_zip (by omega)
  have hfst' : (x.zip w).map Prod.fst = x := List.map_fst_zip (by omega)
  have hzl : (ys.zip vs).length = n := by rw [List.length_zip]; omega
  refine rules_eq (ys.zip vs) (x.zip w) [-1, 1] (fun _ => 1) (2 * n - 2) (by rwa [hfst]) ?_ (fun _ _ => one_ne_zero)
    (by rw [List.length_zip]; omega) (by norm_num) (by rw [hfst]; simp [hys]) (by rw [hfst']; simp [hm1, h1])
    (by omega) (by rw [hzl]; simp; omega) fun p hp => ?_
  · intro d hd
    have := (List.of_mem_zip hd).2
    simp only [hvs, List.mem_append, List.mem_singleton, List.mem_map] at this
    rcases this with (h0 | ⟨t, ht, h0⟩) | h0
    · rwa [h0]
    · rw [← h0]
      have hP : (evalPn t (n - 1)).1 ≠ 0 := by
        rw [(C11_eval_pn t (n - 1)).1]
        exact (hr t ht).1
      exact div_ne_zero he (mul_ne_zero hP hP)
    · rwa [h0]
  · have h2 := (h p hp).trans (C16_weight_formula_exact n hn xs hnd hlen hroot p hp).symm
    simp only [mul_one]
    exact h2

example : ∃ xs x w : List ℝ, xs.Nodup ∧ xs.length = 6 - 2 ∧ (∀ t ∈ xs, (derivative (legendre (6 - 1))).eval t = 0) ∧
    x.length ≤ 6 ∧ w.length = x.length ∧ -1 ∈ x ∧ 1 ∈ x ∧
    ∀ p : ℝ[X], p.degree < (2 * 6 - 2 : ℕ) → ruleSum x w p.eval = ∫ t in (-1 : ℝ)..1, p.eval t := by
  obtain ⟨xs, h1, h2, h3, -⟩ := C16_roots 5 (by norm_num)
  refine ⟨xs, _, _, h1, h2, fun t ht => (h3 t).1 ht, ?_, ?_, ?_, ?_, fun p hp =>
    C16_weight_formula_exact 6 (by norm_num) xs h1 h2 (fun t ht => (h3 t).1 ht) p hp⟩ <;> simp [h2]

end IntegratorXX
