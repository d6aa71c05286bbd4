import Verif.Lemmas.FloatBatcher
import Verif.Prop.Batcher

/-!
# C74: the micro-batcher in `double` arithmetic
-/

namespace IntegratorXX

open Spec Arith

variable {L : Libm}

/-- In `double` arithmetic, for coordinates that are not NaN (infinities allowed): when the construction
returns, it returns normally, the points and weights are a permutation of the original ones, the
partition indices split them into non-empty batches of at most `max_batch_size` points, and the box
reported for a batch contains it. -/
theorem C74_batches_double (part : PartitionFn (F64 L)) (hp : StdPartition part) (maxBatch fuel : ℕ)
    (q : SphQuad (F64 L)) (hq : Consistent q.quad) (hne : q.quad.points ≠ [])
    (hS : ∀ p ∈ q.quad.points, PtIn NotNaN p) (hlt : q.quad.npts < sizeMod)
    (r : Outcome (Batcher (F64 L))) (h : Batcher.make part fuel maxBatch q = some r) :
    Returns r (fun b =>
      (b.quad.quad.points.zip b.quad.quad.weights).Perm (q.quad.points.zip q.quad.weights) ∧
      SplitsRange b.partIdx q.quad.npts ∧
      (∀ i, (hi : i + 1 < b.partIdx.length) →
        1 ≤ b.partIdx[i + 1] - b.partIdx[i] ∧ b.partIdx[i + 1] - b.partIdx[i] ≤ maxBatch) ∧
      ∀ n e, b.deref n = .ok e → e.points ≠ [] ∧ ∀ p ∈ e.points, InBox e.lo e.up p) := by
  obtain ⟨b, rfl, h1, h2, h3⟩ := C56_batches_tile f64_boxArith part hp maxBatch fuel q hq hne hS hlt r h
  obtain ⟨h4, h5, -⟩ := C55_batches_permute part hp maxBatch fuel q hq b h
  refine ⟨b, rfl, h4, by rwa [h2] at h1, h3, ?_⟩
  intro n e he
  have hperm : b.quad.quad.points.Perm q.quad.points := by
    have := h4.map Prod.fst
    unfold Consistent at hq h5
    rwa [List.map_fst_zip (by omega), List.map_fst_zip (by omega)] at this
  obtain ⟨h6, h7, -⟩ := C57_tight_boxes f64_boxArith.toWeakOrder b n e he
    (fun p hp => hS p (hperm.subset hp))
  exact ⟨h6, h7⟩

open Classical in
/-- The construction returns in `double` arithmetic when no point occurs more often than the batch size
and different coordinates differ by at least four units in the last place. -/
theorem C74_terminates_double (part : PartitionFn (F64 L)) (hp : StdPartition part) (maxBatch : ℕ)
    (q : SphQuad (F64 L)) (hq : Consistent q.quad) (hne : q.quad.points ≠ [])
    (hlt : q.quad.npts < sizeMod) (C : Set ℝ) (hC : Separated C)
    (hS : ∀ p ∈ q.quad.points, ∃ x ∈ C, ∃ y ∈ C, ∃ z ∈ C, p = ⟨F64.fin x, F64.fin y, F64.fin z⟩)
    (hc : ∀ p, q.quad.points.count p ≤ maxBatch) :
    ∃ b, Batcher.make part (q.quad.npts + 1) maxBatch q = some (.ok b) := by
  refine C58_terminates (f64_splitArith hC) part hp maxBatch q hq hne ?_ hlt hc
  intro p hp'
  obtain ⟨x, hx, y, hy, z, hz, rfl⟩ := hS p hp'
  exact ⟨⟨x, hx, rfl⟩, ⟨y, hy, rfl⟩, ⟨z, hz, rfl⟩⟩

/-- For example coordinates that are multiples of `2^-40` (about 1e-12) of magnitude up to 1024. -/
theorem C74_grid_separated : Separated {x | ∃ k : ℤ, |k| ≤ 2 ^ 50 ∧ x = k * 2⁻¹ ^ 40} := by
  have hle : ∀ k : ℤ, |k| ≤ 2 ^ 50 → |(k : ℝ) * 2⁻¹ ^ 40| ≤ 2 ^ 10 := by
    intro k hk
    have hk' : |(k : ℝ)| ≤ 2 ^ 50 := by exact_mod_cast hk
    rw [abs_mul, abs_of_pos (show (0 : ℝ) < 2⁻¹ ^ 40 by positivity)]
    calc |(k : ℝ)| * 2⁻¹ ^ 40 ≤ 2 ^ 50 * 2⁻¹ ^ 40 := by gcongr
      _ = 2 ^ 10 := by norm_num
  refine ⟨?_, ?_, ?_⟩
  · rintro _ ⟨k, hk, rfl⟩
    refine isF64_of_le ?_ ((hle k hk).trans (by norm_num))
    refine rnd_rep k (-40) (hk.trans (by norm_num)) (by norm_num) ?_
    rw [zpow_neg]
    norm_num
  · rintro _ ⟨k, hk, rfl⟩
    exact (hle k hk).trans (by norm_num)
  · rintro _ ⟨k, hk, rfl⟩ _ ⟨l, hl, rfl⟩ h
    have hkl : k + 1 ≤ l := by
      have h1 : (k : ℝ) < l := lt_of_mul_lt_mul_right h (by positivity)
      have : k < l := by exact_mod_cast h1
      omega
    have hkl' : (k : ℝ) + 1 ≤ l := by exact_mod_cast hkl
    have hd : (2⁻¹ : ℝ) ^ 40 ≤ l * 2⁻¹ ^ 40 - k * 2⁻¹ ^ 40 := by
      have : (1 : ℝ) * 2⁻¹ ^ 40 ≤ (l - k) * 2⁻¹ ^ 40 := by
        gcongr
        linarith
      linarith
    refine ⟨le_trans ?_ hd, le_trans (by norm_num) hd⟩
    calc (2⁻¹ : ℝ) ^ 50 * max |(k : ℝ) * 2⁻¹ ^ 40| |(l : ℝ) * 2⁻¹ ^ 40| ≤ 2⁻¹ ^ 50 * 2 ^ 10 := by
          gcongr
          exact max_le (hle k hk) (hle l hl)
      _ = 2⁻¹ ^ 40 := by norm_num

open Classical in
/-- In `double` arithmetic different points do not suffice: with a batch size of one the construction
never returns for the three points with first coordinates `1 + 2^-52`, `1 + 2^-51` and `2` (and the
same other coordinates), whatever the weights and the implementation of `std::partition`.  In exact
arithmetic it returns for these points. -/
theorem C74_hangs_double (y z : ℝ) (hy : IsF64 y) (hz : IsF64 z) (w₁ w₂ w₃ : F64 L) (c : Pt (F64 L))
    (part : PartitionFn (F64 L)) (hp : StdPartition part) :
    (∀ fuel, Batcher.make part fuel 1
      ⟨⟨[⟨F64.fin (1 + 2⁻¹ ^ 52), F64.fin y, F64.fin z⟩, ⟨F64.fin (1 + 2⁻¹ ^ 51), F64.fin y, F64.fin z⟩,
          ⟨F64.fin 2, F64.fin y, F64.fin z⟩], [w₁, w₂, w₃]⟩, c⟩ = none) ∧
    ∀ (rpart : PartitionFn ℝ), StdPartition rpart → ∀ (v₁ v₂ v₃ : ℝ) (d : Pt ℝ),
      ∃ fuel r, Batcher.make rpart fuel 1
        ⟨⟨[⟨1 + 2⁻¹ ^ 52, y, z⟩, ⟨1 + 2⁻¹ ^ 51, y, z⟩, ⟨2, y, z⟩], [v₁, v₂, v₃]⟩, d⟩ = some r := by
  have hu := uro_pos
  have hu1 := uro_lt
  have u52 : (2⁻¹ : ℝ) ^ 52 = 2 * uro := by rw [uro_eq]; norm_num
  have u51 : (2⁻¹ : ℝ) ^ 51 = 4 * uro := by rw [uro_eq]; norm_num
  rw [u52, u51]
  constructor
  · set p₁ : Pt (F64 L) := ⟨F64.fin (1 + 2 * uro), F64.fin y, F64.fin z⟩ with hp₁
    set p₂ : Pt (F64 L) := ⟨F64.fin (1 + 4 * uro), F64.fin y, F64.fin z⟩ with hp₂
    set p₃ : Pt (F64 L) := ⟨F64.fin 2, F64.fin y, F64.fin z⟩ with hp₃
    have h200 : (2 : ℝ) ≤ 2 ^ 200 := by norm_num
    have i1 : IsF64 (1 + 2 * uro) := isF64_of_le rnd_near1 (by rw [abs_of_pos (by linarith)]; linarith)
    have i2 : IsF64 (1 + 4 * uro) := isF64_of_le rnd_near2 (by rw [abs_of_pos (by linarith)]; linarith)
    have i3 : IsF64 2 := isF64_of_le (by exact_mod_cast rnd_nat (n := 2) (by norm_num))
      (by rw [abs_of_pos (by norm_num)]; exact h200)
    have s1 : PtIn NotNaN p₁ := ⟨.inl ⟨_, rfl, i1⟩, .inl ⟨_, rfl, hy⟩, .inl ⟨_, rfl, hz⟩⟩
    have s2 : PtIn NotNaN p₂ := ⟨.inl ⟨_, rfl, i2⟩, .inl ⟨_, rfl, hy⟩, .inl ⟨_, rfl, hz⟩⟩
    have s3 : PtIn NotNaN p₃ := ⟨.inl ⟨_, rfl, i3⟩, .inl ⟨_, rfl, hy⟩, .inl ⟨_, rfl, hz⟩⟩
    -- the bottom of a box is the first cut, up to comparison
    have bottom : ∀ (n : ℕ) (lo up x : ℝ), 0 < n → IsF64 lo → IsF64 up → IsF64 x → lo ≤ x →
        lt (F64.fin x : F64 L) (cut n (F64.fin lo) (F64.fin up) 0) = false := by
      intro n lo up x hn h1 h2 h3 h4
      unfold cut
      rw [if_pos hn]
      exact f64_boxArith.zeroStep _ _ _ n (.inl ⟨_, rfl, h1⟩) (.inl ⟨_, rfl, h2⟩) (.inl ⟨_, rfl, h3⟩)
        ((fin_lt_false _ _).2 h4)
    have flat : ∀ (n : ℕ) (t : ℝ), 0 < n → n ≤ 3 → IsF64 t →
        lt (cut n (F64.fin t) (F64.fin t) 1) (F64.fin t : F64 L) = false := by
      intro n t h1 h2 ht
      rw [cut_same ht (by omega) (by omega), fin_lt_false]
    intro fuel
    refine make_stuck f64_boxArith hp 1 _ (by simp [Consistent]) (by simp) ?_ (by unfold sizeMod; simp [Quad.npts])
      (fun b => (b.map Prod.fst).Perm [p₁, p₂]) ?_ ?_ fuel
    · intro p hp'
      simp only [List.mem_cons, List.not_mem_nil, or_false] at hp'
      rcases hp' with rfl | rfl | rfl
      exacts [s1, s2, s3]
    · intro b hb
      have hlen : b.length = 2 := by simpa using hb.length_eq
      refine ⟨by omega, ?_⟩
      have hmem : ∀ e ∈ b, e.1 = p₁ ∨ e.1 = p₂ := by
        intro e he
        have := hb.subset (List.mem_map_of_mem (f := Prod.fst) he)
        simpa using this
      have hex1 : ∃ e ∈ b, e.1 = p₁ := by
        have : p₁ ∈ b.map Prod.fst := hb.symm.subset (by simp)
        obtain ⟨e, he, h⟩ := List.mem_map.1 this
        exact ⟨e, he, h⟩
      have hex2 : ∃ e ∈ b, e.1 = p₂ := by
        have : p₂ ∈ b.map Prod.fst := hb.symm.subset (by simp)
        obtain ⟨e, he, h⟩ := List.mem_map.1 this
        exact ⟨e, he, h⟩
      have hSb : ∀ e ∈ b, PtIn NotNaN e.1 := by
        intro e he
        rcases hmem e he with h | h <;> rw [h]
        exacts [s1, s2]
      have hbne : b ≠ [] := by rintro rfl; simp at hlen
      obtain ⟨lo, up, h1, -, -, h4, ⟨lx, hlx, elx⟩, ⟨ly, hly, ely⟩, ⟨lz, hlz, elz⟩,
        ⟨ux, hux, eux⟩, ⟨uy, huy, euy⟩, ⟨uz, huz, euz⟩⟩ := bounds_of f64_boxArith.toWeakOrder b hbne hSb
      obtain ⟨e1, he1, hv1⟩ := hex1
      obtain ⟨e2, he2, hv2⟩ := hex2
      have b1 := (h4 e1 he1).2
      have b2 := (h4 e2 he2).2
      rw [hv1] at b1
      rw [hv2] at b2
      have lox : lo.x = F64.fin (1 + 2 * uro) := by
        rcases hmem lx hlx with h | h
        · rw [← elx, h]
        · exfalso
          have := b1.1.2
          rw [← elx, h, hp₁, hp₂, fin_lt_false] at this
          linarith
      have upx : up.x = F64.fin (1 + 4 * uro) := by
        rcases hmem ux hux with h | h
        · exfalso
          have := b2.1.1
          rw [← eux, h, hp₁, hp₂, fin_lt_false] at this
          linarith
        · rw [← eux, h]
      have hyz : ∀ e ∈ b, e.1.y = F64.fin y ∧ e.1.z = F64.fin z := by
        intro e he
        rcases hmem e he with h | h <;> rw [h] <;> exact ⟨rfl, rfl⟩
      have loy : lo.y = F64.fin y := by rw [← ely]; exact (hyz ly hly).1
      have upy : up.y = F64.fin y := by rw [← euy]; exact (hyz uy huy).1
      have loz : lo.z = F64.fin z := by rw [← elz]; exact (hyz lz hlz).2
      have upz : up.z = F64.fin z := by rw [← euz]; exact (hyz uz huz).2
      have hcc : cellCount lo up = 2 := by
        unfold cellCount
        rw [if_neg]
        rw [pointInBox_iff]
        intro h
        have := h.1.2
        rw [lox, lit_zero_eq, fin_lt_false] at this
        linarith
      have hall : ∀ e ∈ b, firstCell 2 lo up e = true := by
        intro e he
        unfold firstCell
        rw [pointInBox_iff]
        unfold InBox gridPt
        dsimp only
        rw [lox, upx, loy, upy, loz, upz, cut_half]
        have hx : e.1.x = F64.fin (1 + 2 * uro) ∨ e.1.x = F64.fin (1 + 4 * uro) := by
          rcases hmem e he with h | h <;> rw [h]
          exacts [.inl rfl, .inr rfl]
        rw [(hyz e he).1, (hyz e he).2]
        refine ⟨?_, ⟨flat 2 y (by norm_num) (by norm_num) hy, bottom 2 y y y (by norm_num) hy hy hy le_rfl⟩,
          ⟨flat 2 z (by norm_num) (by norm_num) hz, bottom 2 z z z (by norm_num) hz hz hz le_rfl⟩⟩
        rcases hx with h | h <;> rw [h]
        · exact ⟨(fin_lt_false _ _).2 (by linarith), bottom 2 _ _ _ (by norm_num) i1 i2 i1 le_rfl⟩
        · exact ⟨(fin_lt_false _ _).2 le_rfl, bottom 2 _ _ _ (by norm_num) i1 i2 i2 (by linarith)⟩
      have hfil := List.filter_eq_self.2 hall
      obtain ⟨c', hc', hcp⟩ := boxBlocks_first hp 2 (by norm_num) lo up b (by rw [hfil]; exact hbne)
      rw [hfil] at hcp
      refine ⟨c', ?_, (hcp.map Prod.fst).trans hb⟩
      unfold subBlocks
      rw [h1]
      dsimp only
      rw [hcc]
      exact hc'
    · intro lo up hb
      have hlu : lo = p₁ ∧ up = p₃ := by
        have t : ∀ a b : ℝ, (lt (F64.fin a : F64 L) (F64.fin b)) = decide (a < b) := by
          intro a b
          by_cases h : a < b
          · rw [(F64.lt_iff a b).2 h, decide_eq_true h]
          · rw [(fin_lt_false a b).2 (not_lt.1 h), decide_eq_false h]
        simp only [boxBounds, minCoord, maxCoord, hp₁, hp₂, hp₃, t, Outcome.ok.injEq, Prod.mk.injEq] at hb
        obtain ⟨rfl, rfl⟩ := hb
        have q1 : ¬(1 + 4 * uro < 1 + 2 * uro) := by linarith
        have q2 : ¬(2 < 1 + 2 * uro) := by linarith
        have q3 : ¬(2 < 1 + 4 * uro) := by linarith
        simp [hp₁, hp₃, t, q1, q2, q3]
      obtain ⟨rfl, rfl⟩ := hlu
      obtain ⟨c₁, hc1, hc2, hc3⟩ := cut_third (L := L)
      have f12 : ∀ x : ℝ, 1 + 2 * uro ≤ x → x ≤ c₁ → IsF64 x → ∀ w,
          firstCell 3 p₁ p₃ (⟨F64.fin x, F64.fin y, F64.fin z⟩, w) = true := by
        intro x hx1 hx2 hxF w
        unfold firstCell
        rw [pointInBox_iff]
        unfold InBox gridPt
        dsimp only [hp₁, hp₃]
        rw [hc1]
        exact ⟨⟨(fin_lt_false _ _).2 hx2, bottom 3 _ _ _ (by norm_num) i1 i3 hxF hx1⟩,
          ⟨flat 3 y (by norm_num) (by norm_num) hy, bottom 3 y y y (by norm_num) hy hy hy le_rfl⟩,
          ⟨flat 3 z (by norm_num) (by norm_num) hz, bottom 3 z z z (by norm_num) hz hz hz le_rfl⟩⟩
      have f3 : firstCell 3 p₁ p₃ (p₃, w₃) = false := by
        rw [Bool.eq_false_iff]
        unfold firstCell
        rw [Ne, pointInBox_iff]
        intro h
        have := h.1.1
        unfold gridPt at this
        dsimp only [hp₁, hp₃] at this
        rw [hc1, fin_lt_false] at this
        linarith
      have hfil : ([p₁, p₂, p₃].zip [w₁, w₂, w₃]).filter (firstCell 3 p₁ p₃) = [(p₁, w₁), (p₂, w₂)] := by
        have g1 := f12 (1 + 2 * uro) le_rfl (by linarith) i1 w₁
        have g2 := f12 (1 + 4 * uro) (by linarith) hc2 i2 w₂
        rw [← hp₁] at g1
        rw [← hp₂] at g2
        simp [g1, g2, f3]
      obtain ⟨c', hc', hcp⟩ := boxBlocks_first hp 3 (by norm_num) p₁ p₃ ([p₁, p₂, p₃].zip [w₁, w₂, w₃])
        (by rw [hfil]; simp)
      rw [hfil] at hcp
      exact ⟨c', hc', by simpa using hcp.map Prod.fst⟩
  · intro rpart hrp v₁ v₂ v₃ d
    refine (C58_terminates_iff rpart hrp 1 _ (by simp [Consistent]) (by simp) (by unfold sizeMod; simp [Quad.npts])).2 ?_
    refine List.nodup_iff_count_le_one.1 ?_
    have q1 : uro ≠ 0 := hu.ne'
    simp [q1]
    constructor <;> linarith

/-- The termination theorem applies to the three points `(0,0,0)`, `(2^-40,0,0)`, `(1,1,1)`. -/
example : ∃ b, Batcher.make (F := F64 Libm.correct) (fun p l => (l.filter p ++ l.filter (fun e => !p e), (l.filter p).length))
    4 1 ⟨⟨[⟨F64.fin 0, F64.fin 0, F64.fin 0⟩, ⟨F64.fin (2⁻¹ ^ 40), F64.fin 0, F64.fin 0⟩, ⟨F64.fin 1, F64.fin 1, F64.fin 1⟩],
      [F64.fin 1, F64.fin 1, F64.fin 1]⟩, ⟨F64.fin 0, F64.fin 0, F64.fin 0⟩⟩ = some (.ok b) := by
  classical
  refine C74_terminates_double _ stdPartition_exists 1 _ rfl (by simp) (by unfold sizeMod; simp [Quad.npts]) _
    C74_grid_separated ?_ ?_
  · have c0 : (0 : ℝ) ∈ {x : ℝ | ∃ k : ℤ, |k| ≤ 2 ^ 50 ∧ x = k * 2⁻¹ ^ 40} := ⟨0, by norm_num, by norm_num⟩
    have c1 : (2⁻¹ ^ 40 : ℝ) ∈ {x : ℝ | ∃ k : ℤ, |k| ≤ 2 ^ 50 ∧ x = k * 2⁻¹ ^ 40} := ⟨1, by norm_num, by norm_num⟩
    have c2 : (1 : ℝ) ∈ {x : ℝ | ∃ k : ℤ, |k| ≤ 2 ^ 50 ∧ x = k * 2⁻¹ ^ 40} := ⟨2 ^ 40, by norm_num, by norm_num⟩
    intro p hp
    simp only [List.mem_cons, List.not_mem_nil, or_false] at hp
    rcases hp with rfl | rfl | rfl
    · exact ⟨_, c0, _, c0, _, c0, rfl⟩
    · exact ⟨_, c1, _, c0, _, c0, rfl⟩
    · exact ⟨_, c2, _, c2, _, c2, rfl⟩
  · refine List.nodup_iff_count_le_one.1 ?_
    have hinj : ∀ a b : ℝ, (F64.fin a : F64 Libm.correct) = F64.fin b ↔ a = b :=
      fun a b => ⟨fun h => XReal.fin.inj h, fun h => by rw [h]⟩
    simp only [List.nodup_cons, List.mem_cons, Pt.mk.injEq, hinj, List.not_mem_nil, or_false, List.nodup_nil,
      not_false_eq_true, and_true]
    norm_num

/-- The hanging points are finite `double` numbers, for example with `y = z = 0`. -/
example : IsF64 0 ∧ IsF64 (1 + 2⁻¹ ^ 52) ∧ IsF64 (1 + 2⁻¹ ^ 51) ∧ IsF64 2 := by
  have u52 : (2⁻¹ : ℝ) ^ 52 = 2 * uro := by rw [uro_eq]; norm_num
  have u51 : (2⁻¹ : ℝ) ^ 51 = 4 * uro := by rw [uro_eq]; norm_num
  have h200 : (2 : ℝ) ≤ 2 ^ 200 := by norm_num
  have hu := uro_pos
  have hu1 := uro_lt
  rw [u52, u51]
  exact ⟨isF64_of_le rnd_zero (by norm_num), isF64_of_le rnd_near1 (by rw [abs_of_pos (by linarith)]; linarith),
    isF64_of_le rnd_near2 (by rw [abs_of_pos (by linarith)]; linarith),
    isF64_of_le (by exact_mod_cast rnd_nat (n := 2) (by norm_num)) (by rw [abs_of_pos (by norm_num)]; exact h200)⟩

end IntegratorXX
