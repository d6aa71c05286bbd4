import Verif.Model.Composite
import Verif.Lemmas.Loop
import Verif.Lemmas.RuleSum

/-!
# Closed forms of the composite generators
-/

set_option linter.unusedSectionVars false

namespace IntegratorXX

/-- The quadrature with the given (point, weight) entries. -/
def Quad.ofPairs {P W : Type} (l : List (P × W)) : Quad P W := ⟨l.map Prod.fst, l.map Prod.snd⟩

theorem Quad.eq_ofPairs {P W : Type} (q : Quad P W) (h : q.points.length = q.weights.length) :
    q = Quad.ofPairs (q.points.zip q.weights) := by
  unfold Quad.ofPairs
  rw [List.map_fst_zip (by omega), List.map_snd_zip (by omega)]

theorem Quad.zip_ofPairs {P W : Type} (l : List (P × W)) :
    (Quad.ofPairs l).points.zip (Quad.ofPairs l).weights = l := by
  simp only [Quad.ofPairs, List.zip_map']; simp

theorem vset_at {α : Type u} (A B : List α) (d v : α) {i : Nat} (hi : i = A.length) :
    vset (A ++ d :: B) i v = .ok (A ++ v :: B) := by
  subst hi
  rw [vset_ok (by simp)]
  congr 1
  rw [List.set_append_right _ _ (le_refl _)]; simp

theorem vget_at {α : Type u} (A B : List α) (d : α) {i : Nat} (hi : i = A.length) :
    vget (A ++ d :: B) i = .ok d := by
  subst hi
  exact vget_ok (by simp)

/-! ## Products -/

section
variable {P₁ P₂ P W₁ W₂ W : Type} (opP : P₁ → P₂ → P) (opW : W₁ → W₂ → W)

/-- One column of the product: all entries of `l1` combined with `b`. -/
def column (l1 : List (P₁ × W₁)) (b : P₂ × W₂) : List (P × W) :=
  l1.map (fun a => (opP a.1 b.1, opW a.2 b.2))

theorem product_column (l1 : List (P₁ × W₁)) (l2 : List (P₂ × W₂)) (p0 : P) (w0 : W)
    (j : Nat) (hj : j < l2.length) (A : List (P × W)) (hA : A.length = j * l1.length) (m : Nat)
    (hm : l1.length ≤ m) :
    forRange 0 l1.length (fun i s => productStep opP opW (Quad.ofPairs l1) (Quad.ofPairs l2)
        (i + j * l1.length) i j s)
      (A.map Prod.fst ++ List.replicate m p0, A.map Prod.snd ++ List.replicate m w0) =
    .ok ((A ++ column opP opW l1 l2[j]).map Prod.fst ++ List.replicate (m - l1.length) p0,
      (A ++ column opP opW l1 l2[j]).map Prod.snd ++ List.replicate (m - l1.length) w0) := by
  obtain ⟨s', h1, h2⟩ := forRange_inv
    (body := fun i s => productStep opP opW (Quad.ofPairs l1) (Quad.ofPairs l2)
        (i + j * l1.length) i j s)
    (fun i s => s = ((A ++ column opP opW (l1.take i) l2[j]).map Prod.fst ++
        List.replicate (m - i) p0,
      (A ++ column opP opW (l1.take i) l2[j]).map Prod.snd ++ List.replicate (m - i) w0))
    (Nat.zero_le l1.length)
    (s := (A.map Prod.fst ++ List.replicate m p0, A.map Prod.snd ++ List.replicate m w0))
    (by simp [column]) (by
      rintro i s - hi rfl
      refine ⟨_, ?_, rfl⟩
      have e1 : ∀ {α : Type} (d : α), List.replicate (m - i) d =
          d :: List.replicate (m - (i + 1)) d := by
        intro α d
        rw [show m - i = (m - (i + 1)) + 1 by omega, List.replicate_succ]
      have hlen : (A ++ column opP opW (l1.take i) l2[j]).length = i + j * l1.length := by
        simp [column, hA]; omega
      unfold productStep
      rw [vget_ok (a := l1[i].1) (by simp [Quad.ofPairs, hi]), Outcome.ok_bind,
        vget_ok (a := l2[j].1) (by simp [Quad.ofPairs, hj]), Outcome.ok_bind]
      dsimp only
      rw [e1, vset_at _ _ _ _ (by rw [List.length_map, hlen]), Outcome.ok_bind,
        vget_ok (a := l1[i].2) (by simp [Quad.ofPairs, hi]), Outcome.ok_bind,
        vget_ok (a := l2[j].2) (by simp [Quad.ofPairs, hj]), Outcome.ok_bind,
        e1, vset_at _ _ _ _ (by rw [List.length_map, hlen]), Outcome.ok_bind]
      rw [← List.take_concat_get' l1 i hi]
      simp [column, List.map_append, -List.take_append_getElem, -List.map_take])
  rw [h1, h2, List.take_length]

/-- Closed form of `ProductQuadrature::generate`. -/
theorem product_pairs (l1 : List (P₁ × W₁)) (l2 : List (P₂ × W₂)) (p0 : P) (w0 : W) :
    productGenerate opP opW p0 w0 (Quad.ofPairs l1) (Quad.ofPairs l2) =
      .ok ((l2.flatMap (column opP opW l1)).map Prod.fst,
        (l2.flatMap (column opP opW l1)).map Prod.snd) := by
  unfold productGenerate
  have n1 : (Quad.ofPairs l1).npts = l1.length := by simp [Quad.npts, Quad.ofPairs]
  have n2 : (Quad.ofPairs l2).npts = l2.length := by simp [Quad.npts, Quad.ofPairs]
  rw [n1, n2]
  have hcol : ∀ l : List (P₂ × W₂),
      (l.flatMap (column opP opW l1)).length = l.length * l1.length := by
    intro l
    induction l with
    | nil => simp
    | cons a t ih => simp [List.flatMap_cons, ih, column, Nat.add_mul]; omega
  obtain ⟨s', h1, h2⟩ := forRange_inv
    (body := fun j s => forRange 0 l1.length (fun i s =>
      productStep opP opW (Quad.ofPairs l1) (Quad.ofPairs l2) (i + j * l1.length) i j s) s)
    (fun j s => s = (((l2.take j).flatMap (column opP opW l1)).map Prod.fst ++
        List.replicate ((l2.length - j) * l1.length) p0,
      ((l2.take j).flatMap (column opP opW l1)).map Prod.snd ++
        List.replicate ((l2.length - j) * l1.length) w0))
    (Nat.zero_le l2.length)
    (s := (List.replicate (l1.length * l2.length) p0, List.replicate (l1.length * l2.length) w0))
    (by simp [Nat.mul_comm]) (by
      rintro j s - hj rfl
      have hs : (l2.length - j) * l1.length = (l2.length - (j + 1)) * l1.length + l1.length := by
        rw [show l2.length - j = (l2.length - (j + 1)) + 1 by omega, Nat.add_mul]; omega
      refine ⟨_, product_column opP opW l1 l2 p0 w0 j hj _ ?_ _ ?_, ?_⟩
      · rw [hcol, List.length_take]; congr 1; omega
      · omega
      · rw [show (l2.length - j) * l1.length - l1.length = (l2.length - (j + 1)) * l1.length by
          omega, ← List.take_concat_get' l2 j hj, List.flatMap_append]
        simp)
  dsimp only
  rw [h1, h2]
  simp

end

/-! ## Spherical grids -/

section
variable {F : Type} [Add F] [Sub F] [Mul F] [Arith F]

/-- Entry of the spherical grid (before translation) for a radial and an angular entry. -/
def sphEntry (r : F × F) (a : Pt F × F) : Pt F × F :=
  (combinePt r.1 a.1, combineWt r.2 a.2 * (r.1 * r.1))

/-- All entries, radial index running fastest. -/
def sphEntries (rl : List (F × F)) (al : List (Pt F × F)) : List (Pt F × F) :=
  al.flatMap (fun a => rl.map (fun r => sphEntry r a))

theorem jacobian_column (rl : List (F × F)) (wa : F) (A B : List F) (j : Nat)
    (hA : A.length = j * rl.length) :
    forRange 0 rl.length (fun i s => jacobianStep (rl.map Prod.fst) (i + j * rl.length) i s)
      (A ++ (rl.map (fun r => combineWt r.2 wa) ++ B)) =
    .ok (A ++ (rl.map (fun r => combineWt r.2 wa * (r.1 * r.1)) ++ B)) := by
  obtain ⟨s', h1, h2⟩ := forRange_inv
    (body := fun i s => jacobianStep (rl.map Prod.fst) (i + j * rl.length) i s)
    (fun i s => s = (A ++ (rl.take i).map (fun r => combineWt r.2 wa * (r.1 * r.1))) ++
      ((rl.drop i).map (fun r => combineWt r.2 wa) ++ B))
    (Nat.zero_le rl.length) (s := A ++ (rl.map (fun r => combineWt r.2 wa) ++ B))
    (by simp) (by
      rintro i s - hi rfl
      refine ⟨_, ?_, rfl⟩
      have hlen : (A ++ (rl.take i).map
          (fun r => combineWt r.2 wa * (r.1 * r.1))).length = i + j * rl.length := by
        simp [hA]; omega
      unfold jacobianStep
      rw [vget_ok (a := rl[i].1) (by simp [hi]), Outcome.ok_bind,
        List.drop_eq_getElem_cons hi, List.map_cons, List.cons_append,
        vget_at _ _ _ hlen.symm, Outcome.ok_bind, vset_at _ _ _ _ hlen.symm]
      rw [← List.take_concat_get' rl i hi]
      simp [-List.take_append_getElem, -List.map_take])
  rw [h1, h2]
  simp

theorem jacobianLoop_eq (rl : List (F × F)) (al : List (Pt F × F)) :
    jacobianLoop (rl.map Prod.fst) rl.length al.length
      ((al.flatMap (column combinePt combineWt rl)).map Prod.snd) =
    .ok ((sphEntries rl al).map Prod.snd) := by
  unfold jacobianLoop
  have hcol : ∀ l : List (Pt F × F),
      (l.flatMap (fun a => rl.map (fun r => combineWt r.2 a.2 * (r.1 * r.1)))).length =
        l.length * rl.length := by
    intro l
    induction l with
    | nil => simp
    | cons a t ih => simp [List.flatMap_cons, ih, Nat.add_mul]; omega
  obtain ⟨s', h1, h2⟩ := forRange_inv
    (body := fun j s => forRange 0 rl.length (fun i s =>
      jacobianStep (rl.map Prod.fst) (i + j * rl.length) i s) s)
    (fun j s => s = (al.take j).flatMap
        (fun a => rl.map (fun r => combineWt r.2 a.2 * (r.1 * r.1))) ++
      (al.drop j).flatMap (fun a => rl.map (fun r => combineWt r.2 a.2)))
    (Nat.zero_le al.length) (s := (al.flatMap (column combinePt combineWt rl)).map Prod.snd)
    (by simp [List.map_flatMap, column, Function.comp_def]) (by
      rintro j s - hj rfl
      rw [List.drop_eq_getElem_cons hj, List.flatMap_cons]
      refine ⟨_, jacobian_column rl al[j].2 _ _ j ?_, ?_⟩
      · rw [hcol, List.length_take]; congr 1; omega
      · rw [← List.take_concat_get' al j hj]
        simp [-List.take_append_getElem, -List.map_take])
  rw [h1, h2]
  simp [sphEntries, sphEntry, List.map_flatMap, Function.comp_def]

theorem shiftGrid_eq (v : Pt F) (points : List (Pt F)) :
    shiftGrid v points = .ok (points.map (shiftPt v)) := by
  unfold shiftGrid
  obtain ⟨s', h1, h2⟩ := forRange_inv
    (body := fun i (s : List (Pt F)) => (do
      let p ← vget s i
      vset s i (shiftPt v p) : Outcome (List (Pt F))))
    (fun i s => s = (points.take i).map (shiftPt v) ++ points.drop i)
    (Nat.zero_le points.length) (s := points) (by simp) (by
      rintro i s - hi rfl
      refine ⟨_, ?_, rfl⟩
      have hlen : i = ((points.take i).map (shiftPt v)).length := by simp; omega
      rw [List.drop_eq_getElem_cons hi, vget_at _ _ _ hlen, Outcome.ok_bind,
        vset_at _ _ _ _ hlen]
      rw [← List.take_concat_get' points i hi]
      simp [-List.take_append_getElem, -List.map_take])
  rw [h1, h2]
  simp

theorem sphProduct_eq (rl : List (F × F)) (al : List (Pt F × F)) :
    sphProduct (Quad.ofPairs rl) (Quad.ofPairs al) =
      .ok ((sphEntries rl al).map Prod.fst,
        (al.flatMap (column combinePt combineWt rl)).map Prod.snd) := by
  unfold sphProduct
  rw [product_pairs]
  simp [sphEntries, sphEntry, column, List.map_flatMap, Function.comp_def]

/-- Entry after translation. -/
def shiftEntry (c : Pt F) (e : Pt F × F) : Pt F × F := (shiftPt c e.1, e.2)

theorem sphGenerate_eq (rl : List (F × F)) (al : List (Pt F × F)) (cen : Pt F) :
    sphGenerate (Quad.ofPairs rl) (Quad.ofPairs al) cen =
      .ok (((sphEntries rl al).map (shiftEntry cen)).map Prod.fst,
        ((sphEntries rl al).map (shiftEntry cen)).map Prod.snd) := by
  unfold sphGenerate
  rw [sphProduct_eq, Outcome.ok_bind]
  have n1 : (Quad.ofPairs rl).npts = rl.length := by simp [Quad.npts, Quad.ofPairs]
  have n2 : (Quad.ofPairs al).npts = al.length := by simp [Quad.npts, Quad.ofPairs]
  have n3 : (Quad.ofPairs rl).points = rl.map Prod.fst := rfl
  dsimp only
  rw [n1, n2, n3, jacobianLoop_eq, Outcome.ok_bind, shiftGrid_eq, Outcome.ok_bind]
  simp [shiftEntry, Function.comp_def]

theorem sphConstruct_eq (b : Build) (rl : List (F × F)) (al : List (Pt F × F)) (cen : Pt F) :
    sphConstruct b (Quad.ofPairs rl) (Quad.ofPairs al) cen =
      .ok ⟨Quad.ofPairs ((sphEntries rl al).map (shiftEntry cen)), cen⟩ := by
  unfold sphConstruct
  rw [sphGenerate_eq, construct_ok b (by simp)]
  rfl

end

/-! ## Sub-quadratures -/

theorem subConstruct_eq {P W : Type} (b : Build) (i j : Nat) (l : List (P × W)) (hij : i < j)
    (hj : j ≤ l.length) :
    subConstruct b (i, j) (Quad.ofPairs l) = .ok (Quad.ofPairs ((l.take j).drop i)) := by
  have n1 : (Quad.ofPairs l).npts = l.length := by simp [Quad.npts, Quad.ofPairs]
  unfold subConstruct subGenerate
  simp only [n1, cassert, decide_eq_true (show i ≤ l.length by omega), decide_eq_true hj,
    decide_eq_true hij, Bool.not_true, Bool.and_false, Bool.false_eq_true, if_false,
    Outcome.ok_bind]
  unfold vrange
  rw [if_pos ⟨by omega, by simpa [Quad.ofPairs] using hj⟩,
    if_pos ⟨by omega, by simpa [Quad.ofPairs] using hj⟩, Outcome.ok_bind, Outcome.ok_bind,
    Outcome.pure_eq, construct_ok b (by simp [Quad.ofPairs])]
  simp [Quad.ofPairs, List.map_take, List.map_drop]

/-! ## Partitions -/

namespace Partition
variable {A : Type}

/-- Ranges and angular rules described by an index vector. -/
def ranges : List Nat → List A → List ((Nat × Nat) × A)
  | i :: j :: is, q :: qs => ((i, j), q) :: ranges (j :: is) qs
  | _, _ => []

theorem ranges_length : ∀ (idx : List Nat) (qs : List A), idx.length = qs.length + 1 →
    (ranges idx qs).length = qs.length
  | _, [], _ => by unfold ranges; split <;> simp_all
  | [], _ :: _, h => by simp at h
  | [_], _ :: _, h => by simp at h
  | i :: j :: is, q :: qs, h => by
    have := ranges_length (j :: is) qs (by simpa using h)
    simp [ranges, this]

theorem ranges_getElem : ∀ (idx : List Nat) (qs : List A) (h : idx.length = qs.length + 1)
    (k : Nat) (hk : k < qs.length),
    (ranges idx qs)[k]'(by rw [ranges_length _ _ h]; exact hk) =
      ((idx[k], idx[k + 1]), qs[k])
  | _, [], _, _, hk => by simp at hk
  | [], _ :: _, h, _, _ => by simp at h
  | [_], _ :: _, h, _, _ => by simp at h
  | i :: j :: is, q :: qs, h, 0, _ => by simp [ranges]
  | i :: j :: is, q :: qs, h, k + 1, hk => by
    have := ranges_getElem (j :: is) qs (by simpa using h) k (by simpa using hk)
    simp only [ranges, List.getElem_cons_succ, this]

/-- Sequential execution of a loop body over a list. -/
def runList {E σ : Type} (body : E → σ → Outcome σ) : List E → σ → Outcome σ
  | [], s => .ok s
  | e :: es, s => body e s >>= runList body es

theorem loopFrom_eq {σ : Type} (p : Partition A) (h : p.idx.length = p.quads.length + 1)
    (body : (Nat × Nat) × A → σ → Outcome σ) (d : Nat) :
    ∀ (i : Nat) (s : σ), i + d = p.quads.length →
      loopFrom p body i i s = runList body ((ranges p.idx p.quads).drop i) s := by
  induction d with
  | zero =>
    intro i s hi
    unfold loopFrom
    rw [if_pos ⟨by omega, by omega⟩,
      List.drop_eq_nil_of_le (by rw [ranges_length _ _ h]; omega)]
    rfl
  | succ d ih =>
    intro i s hi
    unfold loopFrom
    rw [if_neg (by omega), dif_pos ⟨by omega, by omega⟩,
      List.drop_eq_getElem_cons (by rw [ranges_length _ _ h]; omega),
      ranges_getElem _ _ h i (by omega)]
    unfold runList
    congr 1
    funext s'
    exact ih (i + 1) s' (by omega)

theorem forEach_eq {σ : Type} (p : Partition A) (h : p.idx.length = p.quads.length + 1)
    (body : (Nat × Nat) × A → σ → Outcome σ) (s : σ) :
    p.forEach body s = runList body (ranges p.idx p.quads) s := by
  unfold forEach
  rw [if_neg (by omega), loopFrom_eq p h body p.quads.length 0 s (by omega)]
  rfl

theorem runList_append {E : Type} (es acc : List E) :
    runList (fun e acc => Outcome.ok (acc ++ [e])) es acc = .ok (acc ++ es) := by
  induction es generalizing acc with
  | nil => simp [runList]
  | cons e es ih => simp [runList, ih]

theorem visited_eq (p : Partition A) (h : p.idx.length = p.quads.length + 1) :
    p.visited = .ok (ranges p.idx p.quads) := by
  unfold visited
  rw [forEach_eq p h, runList_append]
  rfl

end Partition

/-! ## Pruned grids -/

section
variable {F : Type} [Add F] [Sub F] [Mul F] [Arith F]

theorem prunedStep_eq (b : Build) (rl : List (F × F)) (al : List (Pt F × F)) (i j : Nat)
    (hij : i < j) (hj : j ≤ rl.length) (s : List (Pt F) × List F) :
    prunedStep b (Quad.ofPairs rl) ((i, j), Quad.ofPairs al) s =
      .ok (s.1 ++ (sphEntries ((rl.take j).drop i) al).map Prod.fst,
        s.2 ++ (sphEntries ((rl.take j).drop i) al).map Prod.snd) := by
  unfold prunedStep
  dsimp only
  have n1 : ∀ rl : List (F × F), (Quad.ofPairs rl).npts = rl.length := by
    simp [Quad.npts, Quad.ofPairs]
  have n2 : (Quad.ofPairs al).npts = al.length := by simp [Quad.npts, Quad.ofPairs]
  have n3 : ∀ rl : List (F × F), (Quad.ofPairs rl).points = rl.map Prod.fst := fun _ => rfl
  rw [subConstruct_eq b i j rl hij hj, Outcome.ok_bind, sphProduct_eq, Outcome.ok_bind, n1, n2,
    n3, jacobianLoop_eq, Outcome.ok_bind]
  rfl

/-- Well-formed regions of a radial grid of `n` points with a well-formed angular rule. -/
def RegionOk (n : Nat) (e : (Nat × Nat) × Quad (Pt F) F) : Prop :=
  e.1.1 < e.1.2 ∧ e.1.2 ≤ n ∧ e.2.points.length = e.2.weights.length

/-- Entries contributed by a region. -/
def regionEntries (rl : List (F × F)) (e : (Nat × Nat) × Quad (Pt F) F) : List (Pt F × F) :=
  sphEntries ((rl.take e.1.2).drop e.1.1) (e.2.points.zip e.2.weights)

theorem pruned_runList (b : Build) (rl : List (F × F))
    (es : List ((Nat × Nat) × Quad (Pt F) F)) (hes : ∀ e ∈ es, RegionOk rl.length e)
    (s : List (Pt F) × List F) :
    Partition.runList (prunedStep b (Quad.ofPairs rl)) es s =
      .ok (s.1 ++ (es.flatMap (regionEntries rl)).map Prod.fst,
        s.2 ++ (es.flatMap (regionEntries rl)).map Prod.snd) := by
  induction es generalizing s with
  | nil => simp [Partition.runList]
  | cons e es ih =>
    obtain ⟨h1, h2, h3⟩ := hes e (by simp)
    unfold Partition.runList
    obtain ⟨⟨i, j⟩, a⟩ := e
    have ha := Quad.eq_ofPairs a h3
    conv_lhs => rw [ha]
    rw [prunedStep_eq b rl _ i j h1 h2, Outcome.ok_bind, ih (fun e he => hes e (by simp [he]))]
    simp [regionEntries]

theorem prunedConstruct_eq (b : Build) (rl : List (F × F)) (p : Partition (Quad (Pt F) F))
    (h : p.idx.length = p.quads.length + 1)
    (hes : ∀ e ∈ Partition.ranges p.idx p.quads, RegionOk rl.length e) (cen : Pt F) :
    prunedConstruct b (Quad.ofPairs rl) p cen =
      .ok ⟨Quad.ofPairs (((Partition.ranges p.idx p.quads).flatMap (regionEntries rl)).map
        (shiftEntry cen)), cen⟩ := by
  unfold prunedConstruct prunedGenerate
  rw [Partition.forEach_eq p h, pruned_runList b rl _ hes, Outcome.ok_bind]
  dsimp only
  rw [shiftGrid_eq, Outcome.ok_bind, Outcome.pure_eq, construct_ok b (by simp)]
  simp [Quad.ofPairs, shiftEntry, Function.comp_def]

end

end IntegratorXX
