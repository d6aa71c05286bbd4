import Verif.Lemmas.FloatCheb
import Verif.Lemmas.AngularGrids
import Verif.Prop.AngularData
import Verif.Prop.AngularStability
import Verif.Spec.FloatGrid

/-!
# The angular tables in `double` arithmetic
-/

namespace IntegratorXX

open Real

variable {L : Libm}

/-- A number that is zero or not tiny. -/
def Fine (q : ℚ) : Prop := q = 0 ∨ 1 / 10 ^ 40 ≤ |q|

theorem fine_div (v : ℤ) {d : ℕ} (hd : d ≤ 40) : Fine ((v : ℚ) / 10 ^ d) := by
  by_cases h : v = 0
  · left; simp [h]
  · right
    rw [abs_div, abs_of_pos (by positivity : (0 : ℚ) < 10 ^ d)]
    have h1 : (1 : ℚ) ≤ |(v : ℚ)| := by
      exact_mod_cast Int.one_le_abs h
    have h2 : (10 : ℚ) ^ d ≤ 10 ^ 40 := pow_le_pow_right₀ (by norm_num) hd
    gcongr

/-- The point with the given decimal coordinates. -/
def litPt (F : Type) [Arith F] (t : ℚ × ℚ × ℚ) : Pt F := ⟨Arith.lit t.1, Arith.lit t.2.1, Arith.lit t.2.2⟩

/-- The static arrays are lists of decimal numbers. -/
structure DecPts (F : Type) [Arith F] (G : List (Pt F)) (G' : List (Pt ℝ)) : Prop where
  ex : ∃ ps : List (ℚ × ℚ × ℚ), G = ps.map (litPt F) ∧ G' = ps.map (litPt ℝ) ∧
    ∀ p ∈ ps, Fine p.1 ∧ Fine p.2.1 ∧ Fine p.2.2

theorem DecPts.map {F : Type} [Arith F] {α : Type} (f : α → ℚ × ℚ × ℚ) (l : List α)
    (h : ∀ a ∈ l, Fine (f a).1 ∧ Fine (f a).2.1 ∧ Fine (f a).2.2) :
    DecPts F (l.map fun a => litPt F (f a)) (l.map fun a => litPt ℝ (f a)) := by
  refine ⟨l.map f, by rw [List.map_map]; rfl, by rw [List.map_map]; rfl, ?_⟩
  intro p hp
  obtain ⟨a, ha, rfl⟩ := List.mem_map.1 hp
  exact h a ha

theorem DecPts.append {F : Type} [Arith F] {G H : List (Pt F)} {G' H' : List (Pt ℝ)} (h : DecPts F G G')
    (k : DecPts F H H') : DecPts F (G ++ H) (G' ++ H') := by
  obtain ⟨ps, rfl, rfl, h1⟩ := h
  obtain ⟨qs, rfl, rfl, h2⟩ := k
  refine ⟨ps ++ qs, by simp, by simp, ?_⟩
  intro p hp
  rcases List.mem_append.1 hp with hp | hp
  · exact h1 p hp
  · exact h2 p hp

theorem DecPts.flatMap {F : Type} [Arith F] {α : Type} (l : List α) (f : α → List (Pt F)) (g : α → List (Pt ℝ))
    (h : ∀ a, DecPts F (f a) (g a)) : DecPts F (l.flatMap f) (l.flatMap g) := by
  induction l with
  | nil => exact ⟨[], rfl, rfl, by simp⟩
  | cons a l ih =>
    rw [List.flatMap_cons, List.flatMap_cons]
    exact (h a).append ih

theorem coord_fine (r : OctaRow) (s : Int) : Fine (r.coord s) := by
  have pos : ∀ v : ℕ, Fine ((v : ℚ) / 10 ^ 18) := fun v => by
    have := fine_div (v : ℤ) (d := 18) (by norm_num)
    rwa [Int.cast_natCast] at this
  have neg : ∀ v : ℕ, Fine (-((v : ℚ) / 10 ^ 18)) := fun v => by
    rcases pos v with h | h
    · left; rw [h, neg_zero]
    · right; rwa [abs_neg]
  unfold OctaRow.coord
  split
  · exact pos _
  · exact neg _
  · exact pos _
  · exact neg _
  · exact pos _
  · exact neg _
  · exact .inl rfl

theorem wo_digits : ∀ e ∈ Tables.woGrids, e.2.s ≤ 40 := by decide +kernel

theorem chainLookup_mem {α β : Type} [DecidableEq α] {l : List (α × β)} {a : α} {x : β} (h : chainLookup l a = some x) :
    (a, x) ∈ l := by
  induction l with
  | nil => cases h
  | cons e l ih =>
    obtain ⟨k, v⟩ := e
    unfold chainLookup at h
    split_ifs at h with hk
    · cases h; rw [hk]; simp
    · exact List.mem_cons_of_mem _ (ih h)

/-- The points of the tables. -/
theorem angData_points (F : Type) [Arith F] [Mul F] [Div F] (fam : AngFam) (n : ℕ) :
    DecPts F (angData F fam n).points (angData ℝ fam n).points := by
  have nil : DecPts F [] [] := ⟨[], rfl, rfl, by simp⟩
  have octa : ∀ (pattern : OctaKind → List (Int × Int × Int)) (o : Option (List OctaRow)),
      DecPts F ((o.map (octaGrid (F := F) pattern)).getD ⟨[], []⟩).points
        ((o.map (octaGrid (F := ℝ) pattern)).getD ⟨[], []⟩).points := by
    intro pattern o
    cases o with
    | none => exact nil
    | some rows =>
      refine DecPts.flatMap rows _ _ (fun r => ?_)
      exact DecPts.map (fun t : Int × Int × Int => (r.coord t.1, r.coord t.2.1, r.coord t.2.2)) _
        (fun t _ => ⟨coord_fine _ _, coord_fine _ _, coord_fine _ _⟩)
  have dec21 : ∀ v : ℤ, Fine ((v : ℚ) / 10 ^ 21) := fun v => fine_div v (by norm_num)
  have tri : ∀ (α : Type) (l : List α) (t s : α → Int × Int × Int), DecPts F (l.map fun a => triplePoint (t a) (s a))
      (l.map fun a => triplePoint (t a) (s a)) := fun α l t s =>
    DecPts.map (fun a => ((tripleAt (t a) (s a).1 : ℚ) / 10 ^ 21, (tripleAt (t a) (s a).2.1 : ℚ) / 10 ^ 21,
      (tripleAt (t a) (s a).2.2 : ℚ) / 10 ^ 21)) l (fun a _ => ⟨dec21 _, dec21 _, dec21 _⟩)
  cases fam with
  | lebedevLaikov => exact octa _ _
  | delley => exact octa _ _
  | ahrensBeylkin =>
    show DecPts F (((chainLookup Tables.abGrids n).map icosaGrid).getD ⟨[], []⟩).points
      (((chainLookup Tables.abGrids n).map icosaGrid).getD ⟨[], []⟩).points
    cases chainLookup Tables.abGrids n with
    | none => exact nil
    | some g => exact (tri _ _ _ _).append (DecPts.flatMap g.rows _ _ (fun r => tri _ _ _ _))
  | womersley =>
    show DecPts F (((chainLookup Tables.woGrids n).map woGrid).getD ⟨[], []⟩).points
      (((chainLookup Tables.woGrids n).map woGrid).getD ⟨[], []⟩).points
    cases hg : chainLookup Tables.woGrids n with
    | none => exact nil
    | some g =>
      have hs := wo_digits _ (chainLookup_mem hg)
      exact DecPts.map (fun d : Nat × Nat × Nat => ((((d.1 : Int) - 10 ^ g.s : Int) : ℚ) / 10 ^ g.s,
        (((d.2.1 : Int) - 10 ^ g.s : Int) : ℚ) / 10 ^ g.s, (((d.2.2 : Int) - 10 ^ g.s : Int) : ℚ) / 10 ^ g.s)) _
        (fun a _ => ⟨fine_div _ hs, fine_div _ hs, fine_div _ hs⟩)

theorem wo_npts : ∀ e ∈ Tables.woGrids, e.2.npts = e.1 ∧ 1 ≤ e.1 ∧ e.1 ≤ 20000 := by decide +kernel

/-- Lists of decimal numbers. -/
structure DecNums (F : Type) [Arith F] (G : List F) (G' : List ℝ) : Prop where
  ex : ∃ ws : List ℚ, G = ws.map Arith.lit ∧ G' = ws.map Arith.lit ∧ ∀ w ∈ ws, Fine w

theorem DecNums.map {F : Type} [Arith F] {α : Type} (f : α → ℚ) (l : List α) (h : ∀ a ∈ l, Fine (f a)) :
    DecNums F (l.map fun a => Arith.lit (f a)) (l.map fun a => Arith.lit (f a)) := by
  refine ⟨l.map f, by rw [List.map_map]; rfl, by rw [List.map_map]; rfl, ?_⟩
  intro p hp
  obtain ⟨a, ha, rfl⟩ := List.mem_map.1 hp
  exact h a ha

theorem DecNums.append {F : Type} [Arith F] {G H : List F} {G' H' : List ℝ} (h : DecNums F G G')
    (k : DecNums F H H') : DecNums F (G ++ H) (G' ++ H') := by
  obtain ⟨ps, rfl, rfl, h1⟩ := h
  obtain ⟨qs, rfl, rfl, h2⟩ := k
  refine ⟨ps ++ qs, by simp, by simp, ?_⟩
  intro p hp
  rcases List.mem_append.1 hp with hp | hp
  · exact h1 p hp
  · exact h2 p hp

theorem DecNums.flatMap {F : Type} [Arith F] {α : Type} (l : List α) (f : α → List F) (g : α → List ℝ)
    (h : ∀ a, DecNums F (f a) (g a)) : DecNums F (l.flatMap f) (l.flatMap g) := by
  induction l with
  | nil => exact ⟨[], rfl, rfl, by simp⟩
  | cons a l ih =>
    rw [List.flatMap_cons, List.flatMap_cons]
    exact (h a).append ih

/-- The weights of the tables. -/
theorem angData_weights (F : Type) [Arith F] [Mul F] [Div F] (fam : AngFam) (n : ℕ) :
    (fam ≠ .womersley ∧ DecNums F (angData F fam n).weights (angData ℝ fam n).weights) ∨
    (fam = .womersley ∧ ∃ m : ℕ, 1 ≤ m ∧ m ≤ 20000 ∧ ∃ k,
      (angData F fam n).weights = List.replicate k (Arith.lit 4 * Arith.pi / Arith.lit m) ∧
      (angData ℝ fam n).weights = List.replicate k (Arith.lit 4 * Arith.pi / Arith.lit m)) := by
  have nil : DecNums F [] [] := ⟨[], rfl, rfl, by simp⟩
  have octa : ∀ (pattern : OctaKind → List (Int × Int × Int)) (o : Option (List OctaRow)),
      DecNums F ((o.map (octaGrid (F := F) pattern)).getD ⟨[], []⟩).weights
        ((o.map (octaGrid (F := ℝ) pattern)).getD ⟨[], []⟩).weights := by
    intro pattern o
    cases o with
    | none => exact nil
    | some rows =>
      refine DecNums.flatMap rows _ _ (fun r => ?_)
      exact DecNums.map (fun _ : Int × Int × Int => (r.w : ℚ) / 10 ^ 21) _ (fun t _ => fine_div _ (by norm_num))
  have dec20 : ∀ (α : Type) (l : List α) (v : α → ℤ), DecNums F (l.map fun a => decimal 20 (v a))
      (l.map fun a => decimal 20 (v a)) := fun α l v =>
    DecNums.map (fun a => (v a : ℚ) / 10 ^ 20) l (fun a _ => fine_div _ (by norm_num))
  cases fam with
  | lebedevLaikov => exact .inl ⟨by decide, octa _ _⟩
  | delley => exact .inl ⟨by decide, octa _ _⟩
  | ahrensBeylkin =>
    refine .inl ⟨by decide, ?_⟩
    show DecNums F (((chainLookup Tables.abGrids n).map icosaGrid).getD ⟨[], []⟩).weights
      (((chainLookup Tables.abGrids n).map icosaGrid).getD ⟨[], []⟩).weights
    cases chainLookup Tables.abGrids n with
    | none => exact nil
    | some g => exact (dec20 _ _ _).append (DecNums.flatMap g.rows _ _ (fun r => dec20 _ _ _))
  | womersley =>
    refine .inr ⟨rfl, ?_⟩
    show ∃ m : ℕ, 1 ≤ m ∧ m ≤ 20000 ∧ ∃ k, (((chainLookup Tables.woGrids n).map woGrid).getD ⟨[], []⟩).weights = _ ∧
      (((chainLookup Tables.woGrids n).map woGrid).getD ⟨[], []⟩).weights = _
    cases hg : chainLookup Tables.woGrids n with
    | none => exact ⟨1, by norm_num, by norm_num, 0, rfl, rfl⟩
    | some g =>
      obtain ⟨h1, h2, h3⟩ := wo_npts _ (chainLookup_mem hg)
      exact ⟨g.npts, by rw [h1]; exact h2, by rw [h1]; exact h3, g.npts, rfl, rfl⟩

/-! ## Rounding -/

theorem Rel.close {a : F64 L} {x k p : ℝ} (h : Rel a x k) (hp : k * uro ≤ p) : Close p a x := by
  obtain ⟨v, h1, h2, h3⟩ := h
  exact ⟨v, h1, h2, h3.trans (by gcongr)⟩

theorem fine_mid {q : ℚ} (h : Fine q) (hq : |(q : ℝ)| ≤ 2 ^ 100) : (q : ℝ) = 0 ∨ Mid (q : ℝ) := by
  rcases h with h | h
  · left; rw [h]; norm_num
  · right
    have h1 : ((1 / 10 ^ 40 : ℚ) : ℝ) ≤ ((|q| : ℚ) : ℝ) := by exact_mod_cast h
    rw [Rat.cast_abs] at h1
    push_cast at h1
    exact ⟨le_trans (by norm_num) h1, hq.trans (by norm_num)⟩

theorem lit_rel {q : ℚ} (h : Fine q) (hq : |(q : ℝ)| ≤ 2 ^ 100) : Rel (Arith.lit q : F64 L) q (5 / 4) := by
  rw [F64.lit_eq]
  rcases fine_mid h hq with h | h
  · rw [h]
    exact (rel_exact rnd_zero (by norm_num)).mono (by norm_num)
  · exact of_rel' h

theorem four_rel : Rel (Arith.lit 4 : F64 L) 4 0 := by
  rw [F64.lit_eq]
  have : rnd (4 : ℝ) = 4 := by
    have := rnd_nat (n := 4) (by norm_num)
    exact_mod_cast this
  have h := rel_exact (L := L) this (by norm_num)
  push_cast
  exact h

theorem fourpi_rel : Rel (Arith.lit 4 * Arith.pi : F64 L) (4 * π) 4 := by
  have h3 := pi_gt_three
  have h4 := pi_le_four
  have := Rel.mul (four_rel (L := L)) (rel_pi (L := L)) (by norm_num) (by norm_num) (by norm_num) (by norm_num)
    (mid_of (by norm_num; linarith) (by norm_num; linarith))
  exact this.mono (by norm_num)

theorem scale_rel {a : F64 L} {x : ℝ} (h : Rel a x (5 / 4)) (hx : x = 0 ∨ Mid (x * (4 * π))) :
    Rel (a * (Arith.lit 4 * Arith.pi)) (x * (4 * π)) 8 := by
  rcases hx with rfl | hx
  · obtain ⟨v, rfl, h2, h3⟩ := h
    obtain ⟨w, hw, h5, h6⟩ := fourpi_rel (L := L)
    rw [hw]
    have : v = 0 := by
      rw [abs_zero, mul_zero, sub_zero] at h3
      exact abs_nonpos_iff.1 h3
    subst this
    rw [F64.fin_mul, zero_mul, zero_mul]
    exact (rel_exact rnd_zero (by norm_num)).mono (by norm_num)
  · have := Rel.mul h (fourpi_rel (L := L)) (by norm_num) (by norm_num) (by norm_num) (by norm_num) hx
    exact this.mono (by norm_num)

theorem wo_rel {m : ℕ} (h1 : 1 ≤ m) (h2 : m ≤ 20000) :
    Rel (Arith.lit 4 * Arith.pi / Arith.lit m : F64 L) (4 * π / m) 8 := by
  have h3 := pi_gt_three
  have h4 := pi_le_four
  have hm : (1 : ℝ) ≤ m := by exact_mod_cast h1
  have hm' : (m : ℝ) ≤ 20000 := by exact_mod_cast h2
  have hm0 : (m : ℝ) ≠ 0 := by positivity
  obtain ⟨v, hv⟩ := lit_nat (L := L) m (by omega)
  have hl : Rel (Arith.lit (m : ℚ) : F64 L) m 0 := ⟨v, hv.1, hv.2.1, by simpa using hv.2.2⟩
  have := Rel.div (fourpi_rel (L := L)) hl (by norm_num) (by norm_num) (by norm_num) (by norm_num) hm0 (mid_of (by
      rw [le_div_iff₀ (by positivity)]
      nlinarith) (by
      rw [div_le_iff₀ (by positivity)]
      nlinarith))
  exact this.mono (by norm_num)

/-- Sizes in an exact angular grid. -/
structure AngRange (a : Quad (Pt ℝ) ℝ) : Prop where
  pts : ∀ u ∈ a.points, (∀ c ∈ [u.x, u.y, u.z], c = 0 ∨ 2⁻¹ ^ 150 ≤ |c|) ∧ |u.x| ≤ 2 ∧ |u.y| ≤ 2 ∧ |u.z| ≤ 2
  wts : ∀ w ∈ a.weights, (w = 0 ∨ 2⁻¹ ^ 150 ≤ |w|) ∧ |w| ≤ 32

theorem fine_lo {q : ℚ} (h : Fine q) : (q : ℝ) = 0 ∨ 2⁻¹ ^ 150 ≤ |(q : ℝ)| := by
  rcases h with h | h
  · left; rw [h]; norm_num
  · right
    have h1 : ((1 / 10 ^ 40 : ℚ) : ℝ) ≤ ((|q| : ℚ) : ℝ) := by exact_mod_cast h
    rw [Rat.cast_abs] at h1
    push_cast at h1
    exact le_trans (by norm_num) h1

/-- The angular grids in `double`. -/
theorem angular_double (b : Build) (fam : AngFam) (n : Nat) (h : fam.orderByNpts n ≠ -1) :
    ∃ (q : Quad (Pt (F64 L)) (F64 L)) (a : Quad (Pt ℝ) ℝ),
      angConstruct b (angData (F64 L)) fam n = .ok q ∧ angConstruct b (angData ℝ) fam n = .ok a ∧
      q.points.length = n ∧ q.weights.length = n ∧ AngRange a ∧ CloseGrid (2⁻¹ ^ 52) (2⁻¹ ^ 50) q a := by
  have hk : fam.dispatch n = some n := by
    rw [fam.dispatch_iff]
    exact ⟨rfl, _, (fam.orderByNpts_iff _ _).1 ⟨rfl, h⟩⟩
  obtain ⟨-, -, l1, l2, l3⟩ := angConstruct_supported b _ (angData_typed (F64 L)) fam n n hk
  have hu := uro_pos
  have e52 : (2⁻¹ : ℝ) ^ 52 = 2 * uro := by rw [uro_eq]; norm_num
  have e50 : (2⁻¹ : ℝ) ^ 50 = 8 * uro := by rw [uro_eq]; norm_num
  obtain ⟨a, ha, hunit⟩ := C64_unit_points b fam n h
  obtain ⟨a', ha', habs⟩ := C65_abs_sum b fam n h
  rw [ha] at ha'
  injection ha' with ha'
  rw [← ha'] at habs
  have hcoord : ∀ u ∈ a.points, |u.x| ≤ 2 ∧ |u.y| ≤ 2 ∧ |u.z| ≤ 2 := by
    intro u hu'
    have h1 := (abs_le.1 (hunit u hu')).2
    have h2 : (1 : ℝ) / 10 ^ 14 ≤ 1 := by norm_num
    refine ⟨abs_le_of_sq_le_sq (by nlinarith [sq_nonneg u.y, sq_nonneg u.z]) (by norm_num),
      abs_le_of_sq_le_sq (by nlinarith [sq_nonneg u.x, sq_nonneg u.z]) (by norm_num),
      abs_le_of_sq_le_sq (by nlinarith [sq_nonneg u.x, sq_nonneg u.y]) (by norm_num)⟩
  have hwt : ∀ w ∈ a.weights, |w| ≤ 32 := by
    intro w hw
    have h1 : |w| ≤ (a.weights.map (|·|)).sum :=
      List.single_le_sum (by simp) _ (List.mem_map.2 ⟨w, hw, rfl⟩)
    have := pi_le_four
    linarith
  have haeq := angData_construct b fam n h
  rw [ha] at haeq
  injection haeq with haeq
  have hap : a.points = (angData ℝ fam n).points := by rw [haeq]
  have haw : a.weights = (angData ℝ fam n).weights.map fam.scaled := by rw [haeq]
  have hall : List.Forall₂ (fun (x : F64 L) (y : ℝ) => Rel x y 8 ∧ (y = 0 ∨ 2⁻¹ ^ 150 ≤ |y|))
      ((angData (F64 L) fam n).weights.map fam.scaled) a.weights := by
    have h3 := pi_gt_three
    rcases angData_weights (F64 L) fam n with ⟨hf, ⟨ws, e1, e2, e3⟩⟩ | ⟨hf, m, m1, m2, k, e1, e2⟩
    · rw [haw, e1, e2, List.map_map, List.map_map, List.forall₂_map_left_iff, List.forall₂_map_right_iff,
        List.forall₂_same]
      intro q hq
      have hfine := e3 q hq
      have hle : |(fam.scaled (Arith.lit q : ℝ))| ≤ 32 :=
        hwt _ (by rw [haw, e2]; exact List.mem_map.2 ⟨_, List.mem_map.2 ⟨q, hq, rfl⟩, rfl⟩)
      dsimp only [Function.comp]
      have scaled : |(q : ℝ) * (4 * π)| ≤ 32 → Rel ((Arith.lit q : F64 L) * (Arith.lit 4 * Arith.pi)) (q * (4 * π)) 8 ∧
          ((q : ℝ) * (4 * π) = 0 ∨ 2⁻¹ ^ 150 ≤ |(q : ℝ) * (4 * π)|) := by
        intro hle
        rw [abs_mul, abs_of_pos (by positivity : 0 < 4 * π)] at hle ⊢
        have h0 := abs_nonneg (q : ℝ)
        have hq100 : |(q : ℝ)| ≤ 2 ^ 100 := by
          have : |(q : ℝ)| ≤ 32 := by nlinarith
          exact this.trans (by norm_num)
        refine ⟨scale_rel (lit_rel hfine hq100) ?_, ?_⟩
        · rcases fine_mid hfine hq100 with h | h
          · exact .inl h
          · right
            have h1 := h.1
            refine ⟨?_, ?_⟩ <;> rw [abs_mul, abs_of_pos (by positivity : 0 < 4 * π)]
            · exact h1.trans (by nlinarith)
            · exact hle.trans (by norm_num)
        · rcases fine_lo hfine with h | h
          · left; rw [h, zero_mul]
          · right; exact h.trans (by nlinarith)
      have plain : |(q : ℝ)| ≤ 32 → Rel (Arith.lit q : F64 L) q 8 ∧ ((q : ℝ) = 0 ∨ 2⁻¹ ^ 150 ≤ |(q : ℝ)|) :=
        fun hle => ⟨(lit_rel hfine (hle.trans (by norm_num))).mono (by norm_num), fine_lo hfine⟩
      cases fam with
      | lebedevLaikov => simpa [AngFam.scaled] using scaled (by simpa [AngFam.scaled] using hle)
      | delley => simpa [AngFam.scaled] using scaled (by simpa [AngFam.scaled] using hle)
      | ahrensBeylkin => exact plain hle
      | womersley => exact absurd rfl hf
    · subst hf
      rw [haw, e1, e2, List.map_replicate, List.map_replicate]
      have hm : (1 : ℝ) ≤ m := by exact_mod_cast m1
      have hm' : (m : ℝ) ≤ 20000 := by exact_mod_cast m2
      have key : Rel (Arith.lit 4 * Arith.pi / Arith.lit m : F64 L) (4 * π / m) 8 ∧
          (4 * π / (m : ℝ) = 0 ∨ 2⁻¹ ^ 150 ≤ |4 * π / (m : ℝ)|) := by
        refine ⟨wo_rel m1 m2, .inr ?_⟩
        rw [abs_of_pos (by positivity), le_div_iff₀ (by positivity)]
        nlinarith
      have key' : Rel (AngFam.womersley.scaled (Arith.lit 4 * Arith.pi / Arith.lit m : F64 L))
          (AngFam.womersley.scaled (Arith.lit 4 * Arith.pi / Arith.lit m : ℝ)) 8 ∧
          (AngFam.womersley.scaled (Arith.lit 4 * Arith.pi / Arith.lit m : ℝ) = 0 ∨
            2⁻¹ ^ 150 ≤ |AngFam.womersley.scaled (Arith.lit 4 * Arith.pi / Arith.lit m : ℝ)|) := by
        simpa [AngFam.scaled] using key
      clear e1 e2
      induction k with
      | zero => exact List.Forall₂.nil
      | succ k ih => exact List.Forall₂.cons key' ih
  refine ⟨_, a, l3, ha, l1, by rw [List.length_map]; exact l2, ?_, ?_, ?_⟩
  · constructor
    · intro u hu'
      refine ⟨?_, hcoord u hu'⟩
      obtain ⟨ps, -, h2, h3⟩ := (angData_points (F64 L) fam n).ex
      rw [hap, h2] at hu'
      obtain ⟨t, ht, rfl⟩ := List.mem_map.1 hu'
      obtain ⟨f1, f2, f3⟩ := h3 t ht
      intro c hc
      simp only [List.mem_cons, List.not_mem_nil, or_false] at hc
      rcases hc with rfl | rfl | rfl
      · exact fine_lo f1
      · exact fine_lo f2
      · exact fine_lo f3
    · intro w hw
      refine ⟨?_, hwt w hw⟩
      obtain ⟨i, hi, rfl⟩ := List.getElem_of_mem hw
      exact (List.forall₂_iff_get.1 hall |>.2 i (by rw [hall.length_eq]; exact hi) hi).2
  · dsimp only
    obtain ⟨ps, h1, h2, h3⟩ := (angData_points (F64 L) fam n).ex
    rw [hap, h1, h2, List.forall₂_map_left_iff, List.forall₂_map_right_iff, List.forall₂_same]
    intro t ht
    obtain ⟨f1, f2, f3⟩ := h3 t ht
    obtain ⟨c1, c2, c3⟩ := hcoord (litPt ℝ t) (by rw [hap, h2]; exact List.mem_map.2 ⟨t, ht, rfl⟩)
    have big : ∀ q : ℚ, |(q : ℝ)| ≤ 2 → |(q : ℝ)| ≤ 2 ^ 100 := fun q hq => hq.trans (by norm_num)
    exact ⟨(lit_rel f1 (big _ c1)).close (by rw [e52]; linarith), (lit_rel f2 (big _ c2)).close (by rw [e52]; linarith),
      (lit_rel f3 (big _ c3)).close (by rw [e52]; linarith)⟩
  · exact hall.imp (fun x y hxy => hxy.1.close (by rw [e50]))

end IntegratorXX
