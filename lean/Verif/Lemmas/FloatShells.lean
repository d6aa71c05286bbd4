import Verif.Lemmas.DistinctAng
import Verif.Lemmas.FloatApart
import Verif.Prop.FloatGrid

/-!
# Radii and directions of the grids in `double`
-/

namespace IntegratorXX

open Real Spec

variable {L : Libm}

private theorem nat_le {n e : ℕ} (hn : n < 2 ^ e) : (0 : ℝ) < (n : ℝ) + 1 ∧ (n : ℝ) + 1 ≤ 2 ^ e :=
  ⟨by positivity, by exact_mod_cast hn⟩

private theorem rng_of {a : F64 L} {x p : ℝ} {e : ℕ} (h : RelP a x p e) (he : e ≤ 115) : 2⁻¹ ^ 115 ≤ x ∧ x ≤ 2 ^ 115 :=
  ⟨le_trans (pow_le_pow_of_le_one (by norm_num) (by norm_num) he) h.lo,
    h.hi.trans (pow_le_pow_right₀ (by norm_num) he)⟩

/-- The gap between the exact radii exceeds four times the error. -/
theorem scheme_gap (hL : L.Accurate) {rq : RadialQuad} {t : RadialTraits (F64 L)} {r : RadialTraits ℝ} {p w : ℝ}
    (hs : SameScheme L rq t r p w) :
    ∃ g : ℝ, 4 * p ≤ g ∧ 2 * 2⁻¹ ^ 18 ≤ g ∧ g ≤ 1 ∧
      (∀ i j, i < j → j < r.npts → r.transform (r.nodeXR i) ≤ (1 - g) * r.transform (r.nodeXR j)) ∧
      ∀ j, j < r.npts → 2⁻¹ ^ 115 ≤ r.transform (r.nodeXR j) ∧ r.transform (r.nodeXR j) ≤ 2 ^ 115 := by
  cases hs with
  | becke n R hn hR h1 h2 =>
    have hs : RelP (F64.fin R : F64 L) R 0 50 := relP_exact hR h1 h2
    obtain ⟨N0, N1⟩ := nat_le hn
    have hX : ∀ j, (RadialTraits.becke n R).transform ((RadialTraits.becke n R).nodeXR j) =
        R * (1 + cos (gc2A n j)) / (1 - cos (gc2A n j)) := fun j => by
      simp [RadialTraits.transform, RadialTraits.nodeXR, RadialTraits.inclusive, RadialTraits.npts]
    refine ⟨1 / ((n : ℝ) + 1), ?_, ?_, ?_, ?_, ?_⟩
    · rw [le_div_iff₀ N0]
      calc 4 * (2⁻¹ ^ 47 * ((n : ℝ) + 1) ^ 2) * ((n : ℝ) + 1) = 4 * 2⁻¹ ^ 47 * ((n : ℝ) + 1) ^ 3 := by ring
        _ ≤ 4 * 2⁻¹ ^ 47 * (2 ^ 15) ^ 3 := by gcongr
        _ ≤ 1 := by norm_num
    · rw [le_div_iff₀ N0]
      calc 2 * 2⁻¹ ^ 18 * ((n : ℝ) + 1) ≤ 2 * 2⁻¹ ^ 18 * 2 ^ 15 := by gcongr
        _ ≤ 1 := by norm_num
    · rw [div_le_one N0]
      have : (0 : ℝ) ≤ n := Nat.cast_nonneg _
      linarith
    · intro i j hij hj
      have hj' : j < n := hj
      have hp := pi_pos
      have h := becke_gap (n := n) (gc2A_ge hj') (by linarith [gc2A_step hij hj']) (gc2A_le (j := i) (by omega))
      rw [hX, hX, mul_div_assoc, mul_div_assoc]
      calc R * ((1 + cos (gc2A n i)) / (1 - cos (gc2A n i)))
          ≤ R * ((1 - 1 / ((n : ℝ) + 1)) * ((1 + cos (gc2A n j)) / (1 - cos (gc2A n j)))) := by
            have := hs.pos
            gcongr
        _ = _ := by ring
    · intro j hj
      have hj' : j < n := hj
      rw [hX]
      exact rng_of (becke_point hL (sz_of (by omega) hn (by norm_num)) hj hs) (by norm_num)
  | mhl n R hn hR h1 h2 =>
    have hs : RelP (F64.fin R : F64 L) R 0 50 := relP_exact hR h1 h2
    obtain ⟨N0, N1⟩ := nat_le hn
    have hX : ∀ j, (RadialTraits.mhl 2 n R).transform ((RadialTraits.mhl 2 n R).nodeXR j) =
        R * (((j : ℝ) + 1) / (n + 1) / (1 - ((j : ℝ) + 1) / (n + 1))) ^ 2 := fun j => by
      simp [RadialTraits.transform, RadialTraits.nodeXR, RadialTraits.inclusive, RadialTraits.npts]
    refine ⟨1 / ((n : ℝ) + 1), ?_, ?_, ?_, ?_, ?_⟩
    · rw [le_div_iff₀ N0]
      calc 4 * (2⁻¹ ^ 48 * ((n : ℝ) + 1) ^ 2) * ((n : ℝ) + 1) = 4 * 2⁻¹ ^ 48 * ((n : ℝ) + 1) ^ 3 := by ring
        _ ≤ 4 * 2⁻¹ ^ 48 * (2 ^ 15) ^ 3 := by gcongr
        _ ≤ 1 := by norm_num
    · rw [le_div_iff₀ N0]
      calc 2 * 2⁻¹ ^ 18 * ((n : ℝ) + 1) ≤ 2 * 2⁻¹ ^ 18 * 2 ^ 15 := by gcongr
        _ ≤ 1 := by norm_num
    · rw [div_le_one N0]
      have : (0 : ℝ) ≤ n := Nat.cast_nonneg _
      linarith
    · intro i j hij hj
      rw [hX, hX]
      exact mhl_gap (M := 2) (by norm_num) hij hj hs.pos
    · intro j hj
      have hj' : (j : ℝ) + 1 ≤ n := by exact_mod_cast hj
      have j0 : (0 : ℝ) ≤ j := Nat.cast_nonneg _
      rw [hX]
      have e : ((j : ℝ) + 1) / (n + 1) / (1 - ((j : ℝ) + 1) / (n + 1)) = (j + 1) / (n - j) := by
        have a1 : (n : ℝ) - j ≠ 0 := by linarith
        have a2 : 1 - ((j : ℝ) + 1) / (n + 1) = (n - j) / (n + 1) := by field_simp; ring
        rw [a2]
        field_simp
      have b1 : 2⁻¹ ^ 15 ≤ ((j : ℝ) + 1) / (n - j) := by
        rw [le_div_iff₀ (by linarith)]
        have : (2⁻¹ : ℝ) ^ 15 * (n - j) ≤ 2⁻¹ ^ 15 * 2 ^ 15 := by gcongr; linarith
        have e : (2⁻¹ : ℝ) ^ 15 * 2 ^ 15 = 1 := by norm_num
        linarith
      have b2 : ((j : ℝ) + 1) / (n - j) ≤ 2 ^ 15 := by
        rw [div_le_iff₀ (by linarith)]
        have : (2 : ℝ) ^ 15 * 1 ≤ 2 ^ 15 * (n - j) := by gcongr; linarith
        linarith
      rw [e]
      constructor
      · calc (2⁻¹ : ℝ) ^ 115 ≤ 2⁻¹ ^ 50 * (2⁻¹ ^ 15) ^ 2 := by norm_num
          _ ≤ _ := by gcongr
      · have b0 : (0 : ℝ) ≤ ((j : ℝ) + 1) / (n - j) := le_trans (by positivity) b1
        calc R * (((j : ℝ) + 1) / (n - j)) ^ 2 ≤ 2 ^ 50 * (2 ^ 15) ^ 2 := by gcongr
          _ ≤ 2 ^ 115 := by norm_num
  | mk n R hn hR h1 h2 =>
    have hs : RelP (F64.fin R : F64 L) R 0 50 := relP_exact hR h1 h2
    obtain ⟨N0, N1⟩ := nat_le hn
    have hX : ∀ j, (RadialTraits.mk n R).transform ((RadialTraits.mk n R).nodeXR j) =
        R * -log (1 - (((j : ℝ) + 1) / (n + 1)) * (((j : ℝ) + 1) / (n + 1)) * (((j : ℝ) + 1) / (n + 1))) := fun j => by
      simp [RadialTraits.transform, RadialTraits.nodeXR, RadialTraits.inclusive, RadialTraits.npts]
    refine ⟨1 / ((n : ℝ) + 1), ?_, ?_, ?_, ?_, ?_⟩
    · rw [le_div_iff₀ N0]
      calc 4 * (2⁻¹ ^ 50 * ((n : ℝ) + 1) ^ 3) * ((n : ℝ) + 1) = 4 * 2⁻¹ ^ 50 * ((n : ℝ) + 1) ^ 4 := by ring
        _ ≤ 4 * 2⁻¹ ^ 50 * (2 ^ 12) ^ 4 := by gcongr
        _ ≤ 1 := by norm_num
    · rw [le_div_iff₀ N0]
      calc 2 * 2⁻¹ ^ 18 * ((n : ℝ) + 1) ≤ 2 * 2⁻¹ ^ 18 * 2 ^ 12 := by gcongr
        _ ≤ 1 := by norm_num
    · rw [div_le_one N0]
      have : (0 : ℝ) ≤ n := Nat.cast_nonneg _
      linarith
    · intro i j hij hj
      rw [hX, hX]
      exact mk_gap hij hj hs.pos
    · intro j hj
      have hj' : j < n := hj
      rw [hX]
      exact rng_of (mk_point hL (sz_of (by omega) hn (by norm_num)) (by norm_num) hj hs) (by norm_num)
  | ta n R α hn hR h1 h2 hα h3 h4 =>
    have hs : RelP (F64.fin R : F64 L) R 0 50 := relP_exact hR h1 h2
    have ha : RelP (F64.fin α : F64 L) α 0 30 := relP_exact hα h3 (h4.trans (by norm_num))
    obtain ⟨N0, N1⟩ := nat_le hn
    have hX : ∀ j, (RadialTraits.ta n R α).transform ((RadialTraits.ta n R α).nodeXR j) =
        R * (1 + cos (gc2A n j)) ^ α * log (2 / (1 - cos (gc2A n j))) / RadialTraits.taLn2 ℝ := fun j => by
      simp only [RadialTraits.transform, RadialTraits.nodeXR, RadialTraits.inclusive, RadialTraits.npts,
        RadialTraits.taA, Arith.real_lit, Arith.real_pow, Arith.real_log, Rat.cast_one]
      norm_num
    refine ⟨1 / (16 * ((n : ℝ) + 1)), ?_, ?_, ?_, ?_, ?_⟩
    · rw [le_div_iff₀ (by positivity)]
      calc 4 * (2⁻¹ ^ 47 * ((n : ℝ) + 1) ^ 2) * (16 * ((n : ℝ) + 1)) = 64 * 2⁻¹ ^ 47 * ((n : ℝ) + 1) ^ 3 := by ring
        _ ≤ 64 * 2⁻¹ ^ 47 * (2 ^ 13) ^ 3 := by gcongr
        _ ≤ 1 := by norm_num
    · rw [le_div_iff₀ (by positivity)]
      calc 2 * 2⁻¹ ^ 18 * (16 * ((n : ℝ) + 1)) ≤ 2 * 2⁻¹ ^ 18 * (16 * 2 ^ 13) := by gcongr
        _ ≤ 1 := by norm_num
    · rw [div_le_one (by positivity)]
      have : (0 : ℝ) ≤ n := Nat.cast_nonneg _
      linarith
    · intro i j hij hj
      have hj' : j < n := hj
      rw [hX, hX]
      exact ta_gap (N := (n : ℝ) + 1) rfl (by
        have : (1 : ℝ) ≤ n := by exact_mod_cast (by omega : 1 ≤ n)
        linarith) N1 hij hj' hs.pos ha.pos.le (ln2_rel (L := L)).pos
    · intro j hj
      have hj' : j < n := hj
      rw [hX]
      exact rng_of (ta_point hL (sz_of (by omega) hn (by norm_num)) le_rfl hj hs hα ha.pos.le h4) (by norm_num)

/-- The radii in `double`. -/
theorem radial_shells (hL : L.Accurate) (b : Build) {rq : RadialQuad} {t : RadialTraits (F64 L)} {r : RadialTraits ℝ}
    {p w : ℝ} (hs : SameScheme L rq t r p w) {q : Quad (F64 L) (F64 L)} {c : Quad ℝ ℝ}
    (hc : construct b r.generate = .ok c) (hcc : Consistent c) (hn : r.npts + 2 < sizeMod)
    (hp : 0 ≤ p ∧ p ≤ 1 / 200)
    (hq : List.Forall₂ (RadE p w) (q.points.zip q.weights) (c.points.zip c.weights)) :
    ShellsD (q.points.zip q.weights) := by
  obtain ⟨g, g1, g2, g3, hgap, hrng⟩ := scheme_gap hL hs
  rw [RadialTraits.generate_real r hn] at hc
  rw [construct_ok b (by simp)] at hc
  injection hc with hc
  clear hn
  have hpts : c.points = (List.range r.npts).map (fun i => r.transform (r.nodeXR i)) := by rw [← hc]
  have hfst : (c.points.zip c.weights).map Prod.fst = c.points := by
    unfold Consistent at hcc
    rw [List.map_fst_zip (by omega)]
  have hpw : (c.points.zip c.weights).Pairwise (fun x y => x.1 ≤ (1 - g) * y.1) := by
    have : ((c.points.zip c.weights).map Prod.fst).Pairwise (fun x y => x ≤ (1 - g) * y) := by
      rw [hfst, hpts, List.pairwise_map]
      refine List.pairwise_lt_range.imp_of_mem (fun {i j} _ hj hij => ?_)
      exact hgap i j hij (List.mem_range.1 hj)
    rwa [List.pairwise_map] at this
  have hr : ∀ x ∈ c.points.zip c.weights, 2⁻¹ ^ 115 ≤ x.1 ∧ x.1 ≤ 2 ^ 115 := by
    intro x hx
    have : x.1 ∈ c.points := by rw [← hfst]; exact List.mem_map.2 ⟨x, hx, rfl⟩
    rw [hpts, List.mem_map] at this
    obtain ⟨j, hj, e⟩ := this
    rw [← e]
    exact hrng j (List.mem_range.1 hj)
  rw [List.forall₂_iff_get] at hq
  obtain ⟨hlen, hq⟩ := hq
  have shell : ∀ {a : F64 L × F64 L} {x : ℝ × ℝ}, RadE p w a x → 2⁻¹ ^ 115 ≤ x.1 ∧ x.1 ≤ 2 ^ 115 →
      ∃ v, Shell a v ∧ |v - x.1| ≤ p * x.1 := by
    intro a x h hx
    obtain ⟨v, h1, h2, h3⟩ := h.pt
    have hx0 : 0 < x.1 := lt_of_lt_of_le (by positivity) hx.1
    rw [abs_of_pos hx0] at h3
    have h4 := abs_le.1 h3
    have e1 : (2⁻¹ : ℝ) ^ 120 ≤ (1 - 1 / 200) * 2⁻¹ ^ 115 := by norm_num
    have e2 : (1 + 1 / 200) * (2 : ℝ) ^ 115 ≤ 2 ^ 120 := by norm_num
    have h5 : p * x.1 ≤ 1 / 200 * x.1 := mul_le_mul_of_nonneg_right hp.2 hx0.le
    refine ⟨v, ⟨h1, h2, ?_, ?_⟩, h3⟩
    · have : (1 - 1 / 200) * 2⁻¹ ^ 115 ≤ (1 - 1 / 200) * x.1 := mul_le_mul_of_nonneg_left hx.1 (by norm_num)
      linarith
    · have : (1 + 1 / 200) * x.1 ≤ (1 + 1 / 200) * 2 ^ 115 := mul_le_mul_of_nonneg_left hx.2 (by norm_num)
      linarith
  constructor
  · intro a ha
    obtain ⟨i, hi, rfl⟩ := List.getElem_of_mem ha
    have hi' : i < (c.points.zip c.weights).length := by rw [← hlen]; exact hi
    obtain ⟨v, hv, -⟩ := shell (hq i hi hi') (hr _ (List.get_mem _ _))
    exact ⟨v, hv⟩
  · rw [List.pairwise_iff_getElem]
    intro i j hi hj hij v v' hv hv'
    have hi' : i < (c.points.zip c.weights).length := by rw [← hlen]; exact hi
    have hj' : j < (c.points.zip c.weights).length := by rw [← hlen]; exact hj
    obtain ⟨u, hu, e⟩ := shell (hq i hi hi') (hr _ (List.get_mem _ _))
    obtain ⟨u', hu', e'⟩ := shell (hq j hj hj') (hr _ (List.get_mem _ _))
    have hx := hr _ (List.get_mem (c.points.zip c.weights) ⟨j, hj'⟩)
    have hxi := hr _ (List.get_mem (c.points.zip c.weights) ⟨i, hi'⟩)
    have hxy := List.pairwise_iff_getElem.1 hpw i j hi' hj' hij
    rw [shell_unique hv hu, shell_unique hv' hu']
    simp only [List.get_eq_getElem] at e e' hx hxi
    generalize (c.points.zip c.weights)[i].1 = x at *
    generalize (c.points.zip c.weights)[j].1 = y at *
    have hy0 : 0 < y := lt_of_lt_of_le (by positivity) hx.1
    have hx0 : 0 < x := lt_of_lt_of_le (by positivity) hxi.1
    have k1 := (abs_le.1 e).2
    have k2 := (abs_le.1 e').1
    have hp0 := hp.1
    obtain ⟨κ, hκ⟩ : ∃ κ : ℝ, κ = 2⁻¹ ^ 18 := ⟨_, rfl⟩
    rw [← hκ] at g2 ⊢
    have κ0 : 0 ≤ κ := by rw [hκ]; positivity
    have m1 : u ≤ (1 + p) * x := by linarith
    have m2 : (1 - p) * y ≤ u' := by linarith
    have m3 : (1 + p) * x ≤ (1 + p) * ((1 - g) * y) := mul_le_mul_of_nonneg_left hxy (by linarith)
    have κ1 : κ ≤ 1 := by linarith
    have m4 : (1 - κ) * ((1 - p) * y) ≤ (1 - κ) * u' := mul_le_mul_of_nonneg_left m2 (by linarith)
    have m5 : (1 + p) * (1 - g) ≤ (1 - κ) * (1 - p) := by nlinarith
    have m6 : (1 + p) * (1 - g) * y ≤ (1 - κ) * (1 - p) * y := mul_le_mul_of_nonneg_right m5 hy0.le
    linarith

theorem dirs_double (b : Build) (fam : AngFam) (n : Nat) (h : fam.orderByNpts n ≠ -1) :
    ∃ q : Quad (Pt (F64 L)) (F64 L), angConstruct b (angData (F64 L)) fam n = .ok q ∧ Consistent q ∧
      q.points.length = n ∧ DirsD (q.points.zip q.weights) := by
  obtain ⟨q, a, h1, h2, h3, h4, h5⟩ := ang_entries (L := L) b fam n h
  obtain ⟨q', -, k1, -, k3, -⟩ := angular_double (L := L) b fam n h
  rw [h1] at k1
  injection k1 with k1
  refine ⟨q, h1, h3, by rw [k1]; exact k3, ?_⟩
  obtain ⟨a', h6, hunit⟩ := C64_unit_points b fam n h
  rw [h2] at h6
  injection h6 with h6
  rw [← h6] at hunit
  have h7 := angData_construct b fam n h
  rw [h2] at h7
  injection h7 with h7
  have hap : a.points.Pairwise (PtApart (2⁻¹ ^ 36)) := by rw [h7]; exact angData_apart fam n h
  have hfst : (a.points.zip a.weights).map Prod.fst = a.points := by
    unfold Consistent at h4
    rw [List.map_fst_zip (by omega)]
  rw [← hfst, List.pairwise_map] at hap
  have hu : ∀ y ∈ a.points.zip a.weights, |y.1.x ^ 2 + y.1.y ^ 2 + y.1.z ^ 2 - 1| ≤ 1 / 10 ^ 14 := by
    intro y hy
    exact hunit y.1 (by rw [← hfst]; exact List.mem_map.2 ⟨y, hy, rfl⟩)
  rw [List.forall₂_iff_get] at h5
  obtain ⟨hlen, h5⟩ := h5
  have dir : ∀ i (hi : i < (q.points.zip q.weights).length) (hi' : i < (a.points.zip a.weights).length),
      Dir (q.points.zip q.weights)[i] (a.points.zip a.weights)[i].1 := by
    intro i hi hi'
    have e := h5 i hi hi'
    simp only [List.get_eq_getElem] at e
    exact ⟨e.pt, ⟨e.rx, e.ry, e.rz⟩, hu _ (List.getElem_mem _)⟩
  constructor
  · intro x hx
    obtain ⟨i, hi, rfl⟩ := List.getElem_of_mem hx
    exact ⟨_, dir i hi (by rw [← hlen]; exact hi)⟩
  · rw [List.pairwise_iff_getElem]
    intro i j hi hj hij
    have hi' : i < (a.points.zip a.weights).length := by rw [← hlen]; exact hi
    have hj' : j < (a.points.zip a.weights).length := by rw [← hlen]; exact hj
    exact ⟨_, _, dir i hi hi', dir j hj hj', List.pairwise_iff_getElem.1 hap i j hi' hj' hij⟩

end IntegratorXX
