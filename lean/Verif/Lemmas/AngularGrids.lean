import Verif.Lemmas.AngularFacts

/-!
# Consequences of the checks for the constructed grids
-/

set_option maxRecDepth 20000

namespace IntegratorXX

open Arith Spec Tables

/-! ## Looking up a grid -/

theorem llGrids_keys : (llGrids.map Prod.fst).Nodup ∧
    ∀ e ∈ llNptsByOrder, e.2.toNat ∈ llGrids.map Prod.fst := by decide +kernel
theorem deGrids_keys : (deGrids.map Prod.fst).Nodup ∧
    ∀ e ∈ deNptsByOrder, e.2.toNat ∈ deGrids.map Prod.fst := by decide +kernel
theorem abGrids_keys : (abGrids.map Prod.fst).Nodup ∧
    ∀ e ∈ abNptsByOrder, e.2.toNat ∈ abGrids.map Prod.fst := by decide +kernel
theorem woGrids_keys : (woGrids.map Prod.fst).Nodup ∧
    ∀ e ∈ woNptsByOrder, e.2.toNat ∈ woGrids.map Prod.fst := by decide +kernel

theorem lookup_of_mem {α : Type} {l : List (Nat × α)} (hn : (l.map Prod.fst).Nodup)
    {tab : List (Int × Int)} (h : ∀ e ∈ tab, e.2.toNat ∈ l.map Prod.fst) {n : Nat} {o : Int}
    (hm : (o, (n : Int)) ∈ tab) : ∃ g, (n, g) ∈ l ∧ chainLookup l n = some g := by
  have h1 := h _ hm
  rw [List.mem_map] at h1
  obtain ⟨⟨m, g⟩, h2, h3⟩ := h1
  dsimp only at h3
  rw [Int.toNat_natCast] at h3
  subst h3
  exact ⟨g, h2, (chainLookup_iff hn _ _).2 h2⟩

/-- The grid of a supported size. -/
theorem angData_supported (F : Type) [Arith F] [Mul F] [Div F] (fam : AngFam) (n : Nat)
    (h : fam.orderByNpts n ≠ -1) :
    (fam = .lebedevLaikov ∧ ∃ rows, (n, rows) ∈ llGrids ∧
      angData F fam n = octaGrid OctaKind.llPattern rows) ∨
    (fam = .delley ∧ ∃ rows, (n, rows) ∈ deGrids ∧
      angData F fam n = octaGrid OctaKind.dePattern rows) ∨
    (fam = .ahrensBeylkin ∧ ∃ g, (n, g) ∈ abGrids ∧ angData F fam n = icosaGrid g) ∨
    (fam = .womersley ∧ ∃ g, (n, g) ∈ woGrids ∧ angData F fam n = woGrid g) := by
  have hm := (fam.orderByNpts_iff _ _).1 ⟨rfl, h⟩
  cases fam
  · obtain ⟨g, h1, h2⟩ := lookup_of_mem abGrids_keys.1 abGrids_keys.2 hm
    refine .inr (.inr (.inl ⟨rfl, g, h1, ?_⟩))
    simp only [angData, h2, Option.map_some, Option.getD_some]
  · obtain ⟨g, h1, h2⟩ := lookup_of_mem deGrids_keys.1 deGrids_keys.2 hm
    refine .inr (.inl ⟨rfl, g, h1, ?_⟩)
    simp only [angData, h2, Option.map_some, Option.getD_some]
  · obtain ⟨g, h1, h2⟩ := lookup_of_mem llGrids_keys.1 llGrids_keys.2 hm
    refine .inl ⟨rfl, g, h1, ?_⟩
    simp only [angData, h2, Option.map_some, Option.getD_some]
  · obtain ⟨g, h1, h2⟩ := lookup_of_mem woGrids_keys.1 woGrids_keys.2 hm
    refine .inr (.inr (.inr ⟨rfl, g, h1, ?_⟩))
    simp only [angData, h2, Option.map_some, Option.getD_some]

/-! ## Sizes -/

theorem octa_sizes (pattern : OctaKind → List (Int × Int × Int)) {F : Type} [Arith F]
    (hp : ∀ k, (pattern k).length = k.size) (rows : List OctaRow) :
    (octaGrid pattern rows : StaticGrid F).points.length = (rows.map fun r => r.kind.size).sum ∧
    (octaGrid pattern rows : StaticGrid F).weights.length = (rows.map fun r => r.kind.size).sum := by
  unfold octaGrid
  simp only [List.length_flatMap, octaPoints, octaWeights, List.length_map, hp, and_self]

theorem ll_count : ∀ e ∈ llGrids, (e.2.map fun r => r.kind.size).sum = e.1 := by decide +kernel
theorem de_count : ∀ e ∈ deGrids, (e.2.map fun r => r.kind.size).sum = e.1 := by decide +kernel
theorem ab_count : ∀ e ∈ abGrids, 12 + 60 * e.2.rows.length = e.1 := by decide +kernel

theorem icosa_sizes {F : Type} [Arith F] (g : IcosaGrid) :
    (icosaGrid g : StaticGrid F).points.length = 12 + 60 * g.rows.length ∧
    (icosaGrid g : StaticGrid F).weights.length = 12 + 60 * g.rows.length := by
  have h1 : icosaPattern.length = 60 := by decide
  have h2 : icosaVertexPattern.length = 12 := by decide
  unfold icosaGrid
  simp only [List.length_append, List.length_map, List.length_flatMap, icosaPoints, icosaWeights, h1,
    h2, List.map_const', List.sum_replicate, smul_eq_mul, mul_comm, List.length_replicate, and_self]

/-- The static arrays have the declared lengths. -/
theorem angData_typed (F : Type) [Arith F] [Mul F] [Div F] : (angData F).Typed := by
  intro fam e he
  rw [fam.declared_eq] at he
  obtain ⟨⟨o, n⟩, hm, rfl⟩ := List.mem_map.1 he
  dsimp only
  have hpos := fam.entries_pos _ hm
  dsimp only at hpos
  have hn : ((n.toNat : Nat) : Int) = n := by omega
  have hs : fam.orderByNpts (n.toNat : Nat) ≠ -1 := by
    have := (fam.orderByNpts_iff o n).2 hm
    rw [hn, this.1]
    exact this.2
  rcases angData_supported F fam n.toNat hs with ⟨rfl, rows, h1, h2⟩ | ⟨rfl, rows, h1, h2⟩ |
    ⟨rfl, g, h1, h2⟩ | ⟨rfl, g, h1, h2⟩ <;> rw [h2]
  · have hc := ll_count _ h1
    dsimp only at hc
    rw [← hc]; exact octa_sizes _ llPattern_ok.1 rows
  · have hc := de_count _ h1
    dsimp only at hc
    rw [← hc]; exact octa_sizes _ dePattern_ok.1 rows
  · have hc := ab_count _ h1
    dsimp only at hc
    rw [← hc]; exact icosa_sizes g
  · obtain ⟨h3, h4⟩ := woBases _ h1
    dsimp only at h3 h4
    unfold woGrid
    dsimp only
    rw [List.length_map, List.length_replicate, ← h3]
    exact ⟨h4.length, rfl⟩

/-- What the constructor returns for a supported size. -/
theorem angData_construct (b : Build) (fam : AngFam) (n : Nat) (h : fam.orderByNpts n ≠ -1) :
    angConstruct b (angData ℝ) fam n =
      .ok ⟨(angData ℝ fam n).points, (angData ℝ fam n).weights.map fam.scaled⟩ := by
  have hk : fam.dispatch n = some n := by
    rw [fam.dispatch_iff]
    exact ⟨rfl, _, (fam.orderByNpts_iff _ _).1 ⟨rfl, h⟩⟩
  exact (angConstruct_supported b _ (angData_typed ℝ) fam n n hk).2.2.2.2

/-! ## Octahedral grids -/

theorem meanEven_le_one (i j k : Nat) : meanEven i j k ≤ 1 := by
  have z : meanEven 0 0 0 = 1 := by simp [meanEven, odf]
  have s1 : ∀ i j k, meanEven (i + 1) j k ≤ meanEven i j k ∧ meanEven i (j + 1) k ≤ meanEven i j k ∧
      meanEven i j (k + 1) ≤ meanEven i j k := by
    intro i j k
    have h := meanEven_step i j k
    have h1 := meanEven_pos (i + 1) j k
    have h2 := meanEven_pos i (j + 1) k
    have h3 := meanEven_pos i j (k + 1)
    refine ⟨by linarith, by linarith, by linarith⟩
  induction i with
  | succ i ih => exact (s1 i j k).1.trans ih
  | zero =>
    induction j with
    | succ j ih => exact (s1 0 j k).2.1.trans ih
    | zero =>
      induction k with
      | succ k ih => exact (s1 0 0 k).2.2.trans ih
      | zero => exact z.le

theorem ruleSum_map_mul {P : Type} (x : List P) (w : List ℝ) (c : ℝ) (f : P → ℝ) :
    ruleSum x (w.map (· * c)) f = c * ruleSum x w f := by
  unfold ruleSum
  rw [List.zip_map_right, List.map_map, ← List.sum_map_mul_left]
  congr 1
  refine List.map_congr_left (fun e _ => ?_)
  simp only [Function.comp, Prod.map, id]
  ring

theorem octa_mono {pattern : OctaKind → List (Int × Int × Int)} {rep : OctaRow → Nat × Nat × Nat}
    (hp : PatternOk pattern rep) {rows : List OctaRow} {D : Nat} (h : OctaExact rep rows D)
    (p q s : Nat) (hd : p + q + s ≤ 2 * D + 1) :
    |ruleSum (octaGrid pattern rows : StaticGrid ℝ).points
      ((octaGrid pattern rows : StaticGrid ℝ).weights.map (· * (4 * Real.pi)))
      (fun u => u.x ^ p * u.y ^ q * u.z ^ s) - sphereInt (fun u => u.x ^ p * u.y ^ q * u.z ^ s)| ≤
    4 * Real.pi / 10 ^ 13 := by
  have hπ := Real.pi_pos
  rw [ruleSum_map_mul]
  by_cases ho : p % 2 = 1 ∨ q % 2 = 1 ∨ s % 2 = 1
  · rw [octa_odd hp rows p q s ho, sphereInt_mono_odd p q s ho, mul_zero, sub_zero, abs_zero]
    positivity
  · obtain ⟨i, rfl⟩ : ∃ i, p = 2 * i := ⟨p / 2, by omega⟩
    obtain ⟨j, rfl⟩ : ∃ i, q = 2 * i := ⟨q / 2, by omega⟩
    obtain ⟨k, rfl⟩ : ∃ i, s = 2 * i := ⟨s / 2, by omega⟩
    rw [octa_even hp rows i j k, sphereInt_mono_even, ← mul_sub, abs_mul,
      abs_of_pos (by positivity : (0 : ℝ) < 4 * Real.pi)]
    have h1 := h i j k (by omega)
    have h2 := meanEven_le_one i j k
    have h3 : |evenMoment rep rows i j k - meanEven i j k| ≤ 1 / 10 ^ 13 := by
      refine h1.trans ?_
      calc _ ≤ 1 / 10 ^ 13 * (1 : ℝ) := mul_le_mul_of_nonneg_left h2 (by positivity)
        _ = _ := mul_one _
    calc _ ≤ 4 * Real.pi * (1 / 10 ^ 13) := mul_le_mul_of_nonneg_left h3 (by positivity)
      _ = _ := by ring

theorem octa_coord (r : OctaRow) :
    ((r.coord 1 : ℚ) : ℝ) = (r.a : ℝ) / 10 ^ 18 ∧ ((r.coord (-1) : ℚ) : ℝ) = -((r.a : ℝ) / 10 ^ 18) ∧
    ((r.coord 2 : ℚ) : ℝ) = (r.b : ℝ) / 10 ^ 18 ∧ ((r.coord (-2) : ℚ) : ℝ) = -((r.b : ℝ) / 10 ^ 18) ∧
    ((r.coord 3 : ℚ) : ℝ) = (r.c : ℝ) / 10 ^ 18 ∧ ((r.coord (-3) : ℚ) : ℝ) = -((r.c : ℝ) / 10 ^ 18) ∧
    ((r.coord 0 : ℚ) : ℝ) = 0 := by
  refine ⟨?_, ?_, ?_, ?_, ?_, ?_, ?_⟩ <;> simp [OctaRow.coord]

theorem ll_pointNorm (r : OctaRow) : ∀ u ∈ (octaPoints OctaKind.llPattern r : List (Pt ℝ)),
    u.x ^ 2 + u.y ^ 2 + u.z ^ 2 =
      (repR (llRep r)).1 ^ 2 + (repR (llRep r)).2.1 ^ 2 + (repR (llRep r)).2.2 ^ 2 := by
  obtain ⟨kind, a, b, c, w⟩ := r
  obtain ⟨h1, h2, h3, h4, h5, h6, h7⟩ := octa_coord ⟨kind, a, b, c, w⟩
  cases kind <;>
  simp only [octaPoints, OctaKind.llPattern, List.map_cons, List.map_nil, real_lit, h1, h2, h3, h4, h5,
    h6, h7, List.forall_mem_cons, repR, llRep, Nat.cast_zero, zero_div, List.not_mem_nil,
    false_imp_iff, implies_true, and_true] <;>
  generalize (a : ℝ) / 10 ^ 18 = x <;> generalize (b : ℝ) / 10 ^ 18 = y <;>
  generalize (c : ℝ) / 10 ^ 18 = z <;> (try and_intros) <;> first | trivial | ring

theorem de_pointNorm (r : OctaRow) : ∀ u ∈ (octaPoints OctaKind.dePattern r : List (Pt ℝ)),
    u.x ^ 2 + u.y ^ 2 + u.z ^ 2 =
      (repR (deRep r)).1 ^ 2 + (repR (deRep r)).2.1 ^ 2 + (repR (deRep r)).2.2 ^ 2 := by
  obtain ⟨kind, a, b, c, w⟩ := r
  obtain ⟨h1, h2, h3, h4, h5, h6, h7⟩ := octa_coord ⟨kind, a, b, c, w⟩
  cases kind <;>
  simp only [octaPoints, OctaKind.dePattern, List.map_cons, List.map_nil, real_lit, h1, h2, h3, h4, h5,
    h6, h7, List.forall_mem_cons, repR, deRep, Nat.cast_zero, zero_div, List.not_mem_nil,
    false_imp_iff, implies_true, and_true] <;>
  generalize (a : ℝ) / 10 ^ 18 = x <;> generalize (b : ℝ) / 10 ^ 18 = y <;>
  generalize (c : ℝ) / 10 ^ 18 = z <;> (try and_intros) <;> first | trivial | ring

theorem octa_normOk {pattern : OctaKind → List (Int × Int × Int)} {rep : OctaRow → Nat × Nat × Nat}
    (hp : ∀ r, ∀ u ∈ (octaPoints pattern r : List (Pt ℝ)), u.x ^ 2 + u.y ^ 2 + u.z ^ 2 =
      (repR (rep r)).1 ^ 2 + (repR (rep r)).2.1 ^ 2 + (repR (rep r)).2.2 ^ 2)
    {rows : List OctaRow} (h : ∀ r ∈ rows, octaNorm rep r = true) :
    NormOk (octaGrid pattern rows : StaticGrid ℝ).points (3 / 10 ^ 16) := by
  intro u hu
  obtain ⟨r, hr, hu⟩ := List.mem_flatMap.1 hu
  rw [hp r u hu]
  exact octaNorm_real (h r hr)

theorem ll_norm : ∀ e ∈ llGrids, ∀ r ∈ e.2, octaNorm llRep r = true := by decide +kernel
theorem de_norm : ∀ e ∈ deGrids, ∀ r ∈ e.2, octaNorm deRep r = true := by decide +kernel

/-! ## Signs of the weights -/

theorem ll_sign : ∀ e ∈ llGrids, e.1 ∉ [74, 230, 266] → ∀ r ∈ e.2, 0 < r.w := by decide +kernel
theorem ll_neg : ∀ e ∈ llGrids, e.1 ∈ [74, 230, 266] → ∃ r ∈ e.2, r.w < 0 := by decide +kernel
theorem de_sign : ∀ e ∈ deGrids, ∀ r ∈ e.2, 0 < r.w := by decide +kernel
theorem ab_sign : ∀ e ∈ abGrids, e.1 ≠ 1572 → 0 < e.2.w0 ∧ ∀ r ∈ e.2.rows, 0 < r.w := by decide +kernel
theorem ab_neg : ∀ e ∈ abGrids, e.1 = 1572 → e.2.w0 < 0 := by decide +kernel

theorem octa_weight_mem {pattern : OctaKind → List (Int × Int × Int)} {rows : List OctaRow} {w : ℝ} :
    w ∈ (octaGrid pattern rows : StaticGrid ℝ).weights →
    ∃ r ∈ rows, w = (r.w : ℝ) / 10 ^ 21 := by
  intro h
  obtain ⟨r, hr, h⟩ := List.mem_flatMap.1 h
  obtain ⟨t, -, rfl⟩ := List.mem_map.1 h
  exact ⟨r, hr, by simp⟩

theorem octa_weight_of {pattern : OctaKind → List (Int × Int × Int)} {rows : List OctaRow}
    (hp : ∀ k, (pattern k).length = k.size) {r : OctaRow} (hr : r ∈ rows) :
    (r.w : ℝ) / 10 ^ 21 ∈ (octaGrid pattern rows : StaticGrid ℝ).weights := by
  refine List.mem_flatMap.2 ⟨r, hr, ?_⟩
  have h1 : pattern r.kind ≠ [] := by
    intro h0
    have := hp r.kind
    rw [h0] at this
    revert this
    cases r.kind <;> decide
  obtain ⟨t, ht⟩ := List.exists_mem_of_ne_nil _ h1
  exact List.mem_map.2 ⟨t, ht, by simp⟩

theorem icosa_weight_mem {g : IcosaGrid} {w : ℝ} (h : w ∈ (icosaGrid g : StaticGrid ℝ).weights) :
    w = (g.w0 : ℝ) / 10 ^ 20 ∨ ∃ r ∈ g.rows, w = (r.w : ℝ) / 10 ^ 20 := by
  unfold icosaGrid at h
  dsimp only at h
  rw [List.mem_append] at h
  rcases h with h | h
  · obtain ⟨t, -, rfl⟩ := List.mem_map.1 h
    exact .inl (decimal_real _ _)
  · obtain ⟨r, hr, h⟩ := List.mem_flatMap.1 h
    obtain ⟨t, -, rfl⟩ := List.mem_map.1 h
    exact .inr ⟨r, hr, decimal_real _ _⟩

theorem icosa_weight_of (g : IcosaGrid) :
    (g.w0 : ℝ) / 10 ^ 20 ∈ (icosaGrid g : StaticGrid ℝ).weights := by
  unfold icosaGrid
  dsimp only
  refine List.mem_append_left _ (List.mem_map.2 ⟨(1, 2, 3), by decide, decimal_real _ _⟩)

theorem icosa_weight_sum (g : IcosaGrid) : (icosaGrid g : StaticGrid ℝ).weights.sum =
    ((12 * g.w0 + 60 * (g.rows.map fun r => r.w).sum : Int) : ℝ) / 10 ^ 20 := by
  unfold icosaGrid icosaWeights
  dsimp only
  have h1 : icosaPattern.length = 60 := by decide
  have h2 : icosaVertexPattern.length = 12 := by decide
  rw [List.sum_append, List.map_const', List.sum_replicate, h2, decimal_real]
  have : ∀ l : List IcosaRow, (l.flatMap fun r => icosaPattern.map fun _ => (decimal 20 r.w : ℝ)).sum =
      60 * ((l.map fun r => r.w).sum : Int) / 10 ^ 20 := by
    intro l
    induction l with
    | nil => simp
    | cons r l ih =>
      rw [List.flatMap_cons, List.sum_append, ih, List.map_const', List.sum_replicate, h1, decimal_real,
        List.map_cons, List.sum_cons]
      push_cast
      simp only [nsmul_eq_mul]
      push_cast
      ring
  rw [this]
  push_cast
  simp only [nsmul_eq_mul]
  push_cast
  ring

theorem ab552_sum : ∀ e ∈ abGrids, e.1 = 552 →
    12 * e.2.w0 + 60 * (e.2.rows.map fun r => r.w).sum < 1211 * 10 ^ 18 := by decide +kernel

theorem wo_abs_sum {g : WoGrid} (h : WoBase g) :
    ((woGrid g : StaticGrid ℝ).weights.map (|·|)).sum ≤ 13 := by
  unfold woGrid
  dsimp only
  have hpos : (0 : ℝ) < g.npts := by exact_mod_cast h.pos
  have hπ := Real.pi_lt_d2
  have hπ' := Real.pi_pos
  rw [List.map_replicate, List.sum_replicate, nsmul_eq_mul, real_lit, real_lit]
  push_cast
  show (g.npts : ℝ) * |4 * Real.pi / g.npts| ≤ 13
  rw [abs_of_pos (by positivity)]
  rw [mul_div_cancel₀ _ hpos.ne']
  linarith

end IntegratorXX
