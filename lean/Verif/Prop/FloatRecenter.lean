import Verif.Lemmas.FloatCalc
import Verif.Spec.FloatGrid
import Verif.Prop.Product

/-!
# C88: `recenter` in `double` arithmetic
-/

namespace IntegratorXX

open Spec

variable {L : Libm}

private theorem eq_fin (x y : ℝ) : Arith.eq (F64.fin x : F64 L) (F64.fin y) = true ↔ x = y :=
  XReal.eq_iff (XReal.fin x) (XReal.fin y)

theorem ptEq_fin (u v : Pt ℝ) : ptEq (finPt u : Pt (F64 L)) (finPt v) = true ↔ u = v := by
  cases u; cases v
  simp [ptEq, finPt, eq_fin, and_assoc]

private theorem step_coord {a o c x e B : ℝ} (ha : IsF64 a) (ho : IsF64 o) (hc : IsF64 c) (hB : 2⁻¹ ^ 100 ≤ B)
    (hB' : B ≤ 2 ^ 100) (hob : |o| ≤ B) (hcb : |c| ≤ B) (hx : |x| ≤ B) (h : |a - (x + o)| ≤ e) (he : e ≤ B) :
    ∃ v, (F64.fin a + (F64.fin c - F64.fin o) : F64 L) = F64.fin v ∧ IsF64 v ∧
      |v - (x + c)| ≤ e + 2⁻¹ ^ 50 * B := by
  have hu := uro_eq
  have tiny : (2⁻¹ : ℝ) ^ 200 ≤ uro * B / 4 := by
    calc (2⁻¹ : ℝ) ^ 200 ≤ uro * 2⁻¹ ^ 100 / 4 := by rw [hu]; norm_num
      _ ≤ _ := by have := uro_pos; gcongr
  have hB0 : 0 ≤ B := le_trans (by positivity) hB
  have h4 : 4 * B ≤ 2 ^ 200 := by
    have : (4 : ℝ) * 2 ^ 100 ≤ 2 ^ 200 := by norm_num
    linarith
  have s1 : Near (F64.fin c - F64.fin o : F64 L) (c - o) (0 + 0 + uro * (2 * B) + 2⁻¹ ^ 200) :=
    Near.sub (near_self hc) (near_self ho) (by have := abs_sub c o; linarith) (by linarith)
  have hA : Near (F64.fin a : F64 L) (x + o) e := ⟨a, rfl, ha, h⟩
  have ht := hA.add s1 (B := 4 * B) (by
    have e1 : x + o + (c - o) = x + c := by ring
    rw [e1]
    have := abs_add_le x c
    have : uro * (2 * B) + uro * B / 4 ≤ B := by rw [hu]; linarith
    linarith) h4
  obtain ⟨v, h1, h2, h3⟩ := ht
  refine ⟨v, h1, h2, ?_⟩
  rw [show x + o + (c - o) = x + c by ring] at h3
  refine h3.trans ?_
  have : (2⁻¹ : ℝ) ^ 50 * B = 8 * (uro * B) := by rw [hu]; ring
  rw [this]
  linarith

/-- **C88.**  `k` calls of `recenter` with centres and a grid within the bound `B`: every coordinate stays within
`k 2^-50 B` of its exact position, the weights do not change and `center()` is the last centre. -/
theorem C88_recenter_drift {B : ℝ} (hB : 2⁻¹ ^ 100 ≤ B) (hB' : B ≤ 2 ^ 100) (c0 : Pt ℝ) (hc0 : F64Pt c0)
    (hc0' : NearPt B c0 ⟨0, 0, 0⟩) (ps : List (Pt ℝ)) (hps : ∀ p ∈ ps, F64Pt p ∧ NearPt B p c0) (ws : List (F64 L))
    (cs : List (Pt ℝ)) (hcs : ∀ c ∈ cs, F64Pt c ∧ NearPt B c ⟨0, 0, 0⟩) (hk : cs.length ≤ 2 ^ 50) :
    Returns (recenterAll (cs.map finPt) (⟨⟨ps.map finPt, ws⟩, finPt c0⟩ : SphQuad (F64 L))) (fun s =>
      s.quad.weights = ws ∧ s.center = finPt (cs.getLastD c0) ∧
      ∃ ps', s.quad.points = ps'.map finPt ∧ (∀ p ∈ ps', F64Pt p) ∧ List.Forall₂ (fun p' p : Pt ℝ =>
        NearPt (cs.length * (2⁻¹ ^ 50 * B)) p' ⟨p.x - c0.x + (cs.getLastD c0).x, p.y - c0.y + (cs.getLastD c0).y,
          p.z - c0.z + (cs.getLastD c0).z⟩) ps' ps) := by
  have hB0 : 0 ≤ B := le_trans (by positivity) hB
  -- a general invariant
  have key : ∀ (cs : List (Pt ℝ)) (o : Pt ℝ) (e : ℝ) (vs : List (Pt ℝ)), (∀ c ∈ cs, F64Pt c ∧ NearPt B c ⟨0, 0, 0⟩) →
      F64Pt o → NearPt B o ⟨0, 0, 0⟩ → 0 ≤ e → e + cs.length * (2⁻¹ ^ 50 * B) ≤ B →
      List.Forall₂ (fun v p : Pt ℝ => F64Pt v ∧ NearPt e v ⟨p.x - c0.x + o.x, p.y - c0.y + o.y, p.z - c0.z + o.z⟩) vs ps →
      ∃ vs' s, recenterAll (cs.map finPt) (⟨⟨vs.map finPt, ws⟩, finPt o⟩ : SphQuad (F64 L)) = .ok s ∧
        s.quad.weights = ws ∧ s.center = finPt (cs.getLastD o) ∧ s.quad.points = vs'.map finPt ∧
        List.Forall₂ (fun v p : Pt ℝ => F64Pt v ∧ NearPt (e + cs.length * (2⁻¹ ^ 50 * B)) v
          ⟨p.x - c0.x + (cs.getLastD o).x, p.y - c0.y + (cs.getLastD o).y, p.z - c0.z + (cs.getLastD o).z⟩) vs' ps := by
    intro cs
    induction cs with
    | nil =>
      intro o e vs _ _ _ _ _ h
      refine ⟨vs, _, rfl, rfl, rfl, rfl, ?_⟩
      simpa using h
    | cons c cs ih =>
      intro o e vs hcs ho ho' he heB h
      obtain ⟨⟨hcx, hcy, hcz⟩, hbx, hby, hbz⟩ := hcs c (by simp)
      obtain ⟨hox, hoy, hoz⟩ := ho
      obtain ⟨hdx, hdy, hdz⟩ := ho'
      simp only [sub_zero] at hbx hby hbz hdx hdy hdz
      have heB' : e + 2⁻¹ ^ 50 * B + cs.length * (2⁻¹ ^ 50 * B) ≤ B := by
        rw [List.length_cons] at heB
        push_cast at heB
        linarith
      have hl0 : 0 ≤ (cs.length : ℝ) * (2⁻¹ ^ 50 * B) := by positivity
      have hg0 : 0 ≤ (2⁻¹ : ℝ) ^ 50 * B := by positivity
      have hstep : ∃ vs1, recenter (finPt c) (⟨⟨vs.map finPt, ws⟩, finPt o⟩ : SphQuad (F64 L)) =
          .ok ⟨⟨vs1.map finPt, ws⟩, finPt c⟩ ∧ List.Forall₂ (fun v p : Pt ℝ => F64Pt v ∧ NearPt (e + 2⁻¹ ^ 50 * B) v
            ⟨p.x - c0.x + c.x, p.y - c0.y + c.y, p.z - c0.z + c.z⟩) vs1 ps := by
        obtain ⟨s', h1, h2, -, h3, h4⟩ := C30_recenter_step (finPt c) (⟨⟨vs.map finPt, ws⟩, finPt o⟩ : SphQuad (F64 L))
        cases heq : ptEq (finPt c : Pt (F64 L)) (finPt o) with
        | true =>
          have hco := (ptEq_fin c o).1 heq
          subst hco
          refine ⟨vs, by rw [h1, h3 heq], h.imp ?_⟩
          rintro v p ⟨g1, g2, g3, g4⟩
          exact ⟨g1, by linarith, by linarith, by linarith⟩
        | false =>
          obtain ⟨h5, h6⟩ := h4 heq
          have hex : ∃ vs1, s'.quad.points = vs1.map finPt ∧ List.Forall₂ (fun v p : Pt ℝ => F64Pt v ∧
              NearPt (e + 2⁻¹ ^ 50 * B) v ⟨p.x - c0.x + c.x, p.y - c0.y + c.y, p.z - c0.z + c.z⟩) vs1 ps := by
            rw [h6]
            clear h1 h2 h3 h4 h5 h6 heq ih
            dsimp only
            induction h with
            | nil => exact ⟨[], rfl, .nil⟩
            | @cons v p vs ps g1 g2 ih =>
              obtain ⟨⟨fx, fy, fz⟩, gx, gy, gz⟩ := g1
              obtain ⟨vs1, i1, i2⟩ := ih (fun p hp => hps p (List.mem_cons_of_mem _ hp))
              obtain ⟨-, bx, bY, bz⟩ := hps p (by simp)
              dsimp only at gx gy gz
              obtain ⟨x, x1, x2, x3⟩ := step_coord (L := L) fx hox hcx hB hB' hdx hbx bx gx (by linarith)
              obtain ⟨y, y1, y2, y3⟩ := step_coord (L := L) fy hoy hcy hB hB' hdy hby bY gy (by linarith)
              obtain ⟨z, z1, z2, z3⟩ := step_coord (L := L) fz hoz hcz hB hB' hdz hbz bz gz (by linarith)
              refine ⟨⟨x, y, z⟩ :: vs1, ?_, .cons ⟨⟨x2, y2, z2⟩, x3, y3, z3⟩ i2⟩
              rw [List.map_cons, List.map_cons, List.map_cons, i1]
              congr 1
              simp only [finPt]
              rw [x1, y1, z1]
          obtain ⟨vs1, i1, i2⟩ := hex
          refine ⟨vs1, ?_, i2⟩
          rw [h1]
          obtain ⟨⟨sp, sw⟩, sc⟩ := s'
          dsimp only at h2 h5 i1
          rw [h2, h5, i1]
      obtain ⟨vs1, h1, h2⟩ := hstep
      obtain ⟨vs', s, e1, e2, e3, e4, e5⟩ := ih c (e + 2⁻¹ ^ 50 * B) vs1 (fun c' hc' => hcs c' (List.mem_cons_of_mem _ hc'))
        ⟨hcx, hcy, hcz⟩ ⟨by simpa using hbx, by simpa using hby, by simpa using hbz⟩ (by linarith) heB' h2
      refine ⟨vs', s, ?_, e2, ?_, e4, ?_⟩
      · rw [List.map_cons]
        unfold recenterAll
        rw [h1]
        exact e1
      · rw [List.getLastD_cons]; exact e3
      · rw [List.getLastD_cons]
        have : e + ((c :: cs).length : ℕ) * (2⁻¹ ^ 50 * B) = e + 2⁻¹ ^ 50 * B + cs.length * (2⁻¹ ^ 50 * B) := by
          rw [List.length_cons]; push_cast; ring
        rw [this]
        exact e5
  have hk' : (cs.length : ℝ) * (2⁻¹ ^ 50 * B) ≤ B := by
    have : (cs.length : ℝ) ≤ 2 ^ 50 := by exact_mod_cast hk
    calc (cs.length : ℝ) * (2⁻¹ ^ 50 * B) ≤ 2 ^ 50 * (2⁻¹ ^ 50 * B) := by gcongr
      _ = B := by rw [← mul_assoc, ← mul_pow]; norm_num
  obtain ⟨vs', s, e1, e2, e3, e4, e5⟩ := key cs c0 0 ps hcs hc0 hc0' le_rfl (by linarith) (by
    rw [List.forall₂_same]
    intro p hp
    exact ⟨(hps p hp).1, by simp, by simp, by simp⟩)
  rw [zero_add] at e5
  refine ⟨s, e1, e2, e3, vs', e4, ?_, e5.imp fun _ _ h => h.2⟩
  intro p hp
  obtain ⟨i, hi, rfl⟩ := List.getElem_of_mem hp
  have hl := e5.length_eq
  exact ((List.forall₂_iff_get.1 e5).2 i hi (by omega)).1

/-- Three centres satisfying the hypotheses with `B = 8`. -/
example : ∀ c ∈ [(⟨1, 2, 3⟩ : Pt ℝ), ⟨0, 0, 0⟩, ⟨5, 4, 1⟩], F64Pt c ∧ NearPt 8 c ⟨0, 0, 0⟩ := by
  have h : ∀ n : ℕ, n ≤ 8 → IsF64 (n : ℝ) := by
    intro n hn
    refine ⟨rnd_nat (by omega), ?_⟩
    rw [abs_of_nonneg (Nat.cast_nonneg n)]
    have h1 : (n : ℝ) ≤ 8 := by exact_mod_cast hn
    have h2 := le_f64Big
    have h3 : (8 : ℝ) ≤ 2 ^ 201 := by norm_num
    linarith [f64Big_pos]
  have h0 := h 0 (by omega)
  have h1 := h 1 (by omega)
  have h2 := h 2 (by omega)
  have h3 := h 3 (by omega)
  have h4 := h 4 (by omega)
  have h5 := h 5 (by omega)
  norm_num at h0 h1 h2 h3 h4 h5
  simp only [List.mem_cons, List.not_mem_nil, or_false, forall_eq_or_imp, forall_eq, F64Pt, NearPt]
  refine ⟨⟨⟨h1, h2, h3⟩, ?_⟩, ⟨⟨h0, h0, h0⟩, ?_⟩, ⟨⟨h5, h4, h1⟩, ?_⟩⟩ <;> norm_num

/-! ### Going far away and back -/

private theorem log_of {x : ℝ} {k : ℤ} (h1 : (2 : ℝ) ^ k ≤ x) (h2 : x < (2 : ℝ) ^ (k + 1)) : Int.log 2 |x| = k := by
  have hx : 0 < x := lt_of_lt_of_le (by positivity) h1
  rw [abs_of_pos hx]
  apply le_antisymm
  · have := (Int.lt_zpow_iff_log_lt (b := 2) (by norm_num) (x := k + 1) hx).1 (by exact_mod_cast h2)
    omega
  · exact (Int.zpow_le_iff_le_log (b := 2) (by norm_num) hx).1 (by exact_mod_cast h1)

theorem absorb {x : ℝ} (h : |x| ≤ 32) : rnd (x + 2 ^ 60) = 2 ^ 60 := by
  obtain ⟨h1, h2⟩ := abs_le.1 h
  have up : rnd ((32 : ℝ) + 2 ^ 60) ≤ 2 ^ 60 := by
    have hl : Int.log 2 |(32 : ℝ) + 2 ^ 60| = 60 := log_of (by norm_num) (by norm_num)
    have hu : ulp ((32 : ℝ) + 2 ^ 60) = 2 ^ 8 := by
      unfold ulp ulpExp; rw [hl]; norm_num
    unfold rnd
    rw [hu]
    have hr : rne (((32 : ℝ) + 2 ^ 60) / 2 ^ 8) = 2 ^ 52 := by
      have hf : ⌊((32 : ℝ) + 2 ^ 60) / 2 ^ 8⌋ = 2 ^ 52 := by rw [Int.floor_eq_iff]; norm_num
      have hfr : Int.fract (((32 : ℝ) + 2 ^ 60) / 2 ^ 8) = 1 / 8 := by
        rw [Int.fract, hf]; norm_num
      unfold rne
      rw [hfr, hf, if_pos (by norm_num)]
    rw [hr]; norm_num
  have lo : 2 ^ 60 ≤ rnd ((-32 : ℝ) + 2 ^ 60) := by
    have hl : Int.log 2 |(-32 : ℝ) + 2 ^ 60| = 59 := log_of (by norm_num) (by norm_num)
    have hu : ulp ((-32 : ℝ) + 2 ^ 60) = 2 ^ 7 := by
      unfold ulp ulpExp; rw [hl]; norm_num
    unfold rnd
    rw [hu]
    have hr : rne (((-32 : ℝ) + 2 ^ 60) / 2 ^ 7) = 2 ^ 53 := by
      have hf : ⌊((-32 : ℝ) + 2 ^ 60) / 2 ^ 7⌋ = 2 ^ 53 - 1 := by rw [Int.floor_eq_iff]; norm_num
      have hfr : Int.fract (((-32 : ℝ) + 2 ^ 60) / 2 ^ 7) = 3 / 4 := by
        rw [Int.fract, hf]; norm_num
      unfold rne
      rw [hfr, hf, if_neg (by norm_num), if_pos (by norm_num)]
      norm_num
    rw [hr]; norm_num
  refine le_antisymm (le_trans (rnd_mono ?_) up) (le_trans lo (rnd_mono ?_)) <;> linarith

theorem of_60 : (F64.of (2 ^ 60) : F64 L) = F64.fin (2 ^ 60) := by
  have := absorb (x := 0) (by norm_num)
  rw [zero_add] at this
  exact (of_exact this (by rw [abs_of_pos (by positivity)]; norm_num)).1

private theorem fin_zero_of {x : ℝ} (h : x = 0) : (F64.of x : F64 L) = F64.fin 0 := by
  rw [h]; exact (of_exact rnd_zero (by rw [abs_zero]; positivity)).1

/-- `recenter` is not reversible: a grid around the origin, moved to a centre at `x = 2^60` and back, has lost all its
first coordinates when they were at most 32. -/
theorem C88_recenter_collapse (q : Quad (Pt (F64 L)) (F64 L)) (ps : List (Pt ℝ)) (hq : q.points = ps.map finPt)
    (hps : ∀ p ∈ ps, F64Pt p ∧ |p.x| ≤ 32) :
    Returns (recenterAll [finPt ⟨2 ^ 60, 0, 0⟩, finPt ⟨0, 0, 0⟩] ⟨q, finPt ⟨0, 0, 0⟩⟩) (fun s =>
      s.center = finPt ⟨0, 0, 0⟩ ∧ ∀ p ∈ s.quad.points, p.x = F64.fin 0) := by
  have ne1 : ptEq (finPt ⟨2 ^ 60, 0, 0⟩ : Pt (F64 L)) (finPt ⟨0, 0, 0⟩) = false := by
    rw [Bool.eq_false_iff, ne_eq, ptEq_fin]
    simp
  have ne2 : ptEq (finPt ⟨0, 0, 0⟩ : Pt (F64 L)) (finPt ⟨2 ^ 60, 0, 0⟩) = false := by
    rw [Bool.eq_false_iff, ne_eq, ptEq_fin]
    norm_num
  obtain ⟨s1, h1, -, -, -, g1⟩ := C30_recenter_step (finPt ⟨2 ^ 60, 0, 0⟩) (⟨q, finPt ⟨0, 0, 0⟩⟩ : SphQuad (F64 L))
  obtain ⟨c1, p1⟩ := g1 ne1
  obtain ⟨s2, h2, -, -, -, g2⟩ := C30_recenter_step (finPt ⟨0, 0, 0⟩) s1
  rw [c1] at g2
  obtain ⟨c2, p2⟩ := g2 ne2
  refine ⟨s2, ?_, c2, ?_⟩
  · unfold recenterAll
    rw [h1, Outcome.ok_bind]
    unfold recenterAll
    rw [h2]
    rfl
  · intro p hp
    rw [p2, p1, hq] at hp
    simp only [List.mem_map, exists_exists_and_eq_and] at hp
    obtain ⟨u, hu, rfl⟩ := hp
    simp only [finPt, F64.fin_sub, sub_zero, zero_sub]
    have e1 : (F64.of (-2 ^ 60) : F64 L) = F64.fin (-2 ^ 60) := by
      refine (of_exact ?_ ?_).1
      · rw [rnd_neg]
        have := absorb (x := 0) (by norm_num)
        rw [zero_add] at this
        rw [this]
      · rw [abs_neg, abs_of_pos (by positivity)]; norm_num
    rw [of_60, e1, F64.fin_add]
    have e2 : (F64.of (u.x + 2 ^ 60) : F64 L) = F64.fin (2 ^ 60) := by
      rw [F64.of_fin, absorb (hps u hu).2]
      have := le_f64Big
      have h3 : (33 : ℝ) + 2 ^ 60 ≤ 2 ^ 201 := by norm_num
      have := abs_add_le u.x (2 ^ 60)
      rw [abs_of_pos (by positivity : (0 : ℝ) < 2 ^ 60)] at this
      linarith [(hps u hu).2]
    rw [e2, F64.fin_add, fin_zero_of (by norm_num)]

example : F64Pt ⟨1, 0, 0⟩ ∧ |(⟨1, 0, 0⟩ : Pt ℝ).x| ≤ 32 := by
  refine ⟨⟨⟨rnd_one, ?_⟩, ⟨rnd_zero, ?_⟩, ⟨rnd_zero, ?_⟩⟩, by norm_num⟩
  · rw [abs_one]; have := le_f64Big; have h3 : (1 : ℝ) ≤ 2 ^ 201 := by norm_num
    linarith
  all_goals rw [abs_zero]; have := f64Big_pos; linarith

/-! ### NaN and infinite centres -/

private theorem nan_add (a : F64 L) : F64.nan + a = XReal.nan := by
  show (XReal.add XReal.nan a).roundX = _
  cases a <;> rfl

private theorem add_nan (a : F64 L) : a + F64.nan = XReal.nan := by
  show (XReal.add a XReal.nan).roundX = XReal.nan
  cases a <;> rfl

private theorem nan_stays (cs : List (Pt (F64 L))) (s : SphQuad (F64 L))
    (h : ∀ p ∈ s.quad.points, p.x = F64.nan) :
    Returns (recenterAll cs s) (fun s' => s'.quad.npts = s.quad.npts ∧
      ∀ p ∈ s'.quad.points, p.x = F64.nan) := by
  induction cs generalizing s with
  | nil => exact ⟨s, rfl, rfl, h⟩
  | cons c cs ih =>
    obtain ⟨s1, h1, -, hn, h3, h4⟩ := C30_recenter_step c s
    obtain ⟨s2, h5, h6, h7⟩ := ih s1 (by
      cases heq : ptEq c s.center with
      | true => rw [h3 heq]; exact h
      | false =>
        rw [(h4 heq).2]
        intro p hp
        obtain ⟨u, hu, rfl⟩ := List.mem_map.1 hp
        dsimp only
        rw [h u hu]
        exact nan_add _)
    exact ⟨s2, by unfold recenterAll; rw [h1]; exact h5, h6.trans hn, h7⟩

/-- After a `recenter` to a centre with a NaN coordinate all points have a NaN there, whatever centres follow. -/
theorem C88_nan_centre (s : SphQuad (F64 L)) (c : Pt (F64 L)) (hc : c.x = F64.nan) (cs : List (Pt (F64 L))) :
    Returns (recenterAll (c :: cs) s) (fun s' => s'.quad.npts = s.quad.npts ∧
      ∀ p ∈ s'.quad.points, p.x = F64.nan) := by
  obtain ⟨s1, h1, -, hn, -, h4⟩ := C30_recenter_step c s
  have heq : ptEq c s.center = false := by
    unfold ptEq
    have : Arith.eq c.x s.center.x = false := by
      rw [Bool.eq_false_iff, hc]
      intro h
      have := (XReal.eq_iff XReal.nan s.center.x).1 h
      cases hx : s.center.x <;> rw [hx] at this <;> exact this
    rw [this, Bool.false_and, Bool.false_and]
  obtain ⟨s2, h5, h6, h7⟩ := nan_stays cs s1 (by
    rw [(h4 heq).2]
    intro p hp
    obtain ⟨u, hu, rfl⟩ := List.mem_map.1 hp
    dsimp only
    have : c.x - s.center.x = F64.nan := by
      rw [hc]
      show (XReal.add XReal.nan (XReal.neg s.center.x)).roundX = XReal.nan
      cases s.center.x <;> rfl
    rw [this]
    exact add_nan _)
  exact ⟨s2, by unfold recenterAll; rw [h1]; exact h5, h6.trans hn, h7⟩

/-- After a `recenter` of a finite grid to an infinite centre and one to a finite centre all points have a NaN there,
whatever centres follow. -/
theorem C88_infinite_centre (s : SphQuad (F64 L)) (hs : ∀ p ∈ s.quad.points, ∃ x, p.x = F64.fin x)
    (o : ℝ) (ho : s.center.x = F64.fin o) (c d : Pt (F64 L)) (hc : c.x = F64.inf) (y : ℝ)
    (hd : d.x = F64.fin y) (cs : List (Pt (F64 L))) :
    Returns (recenterAll (c :: d :: cs) s) (fun s' => s'.quad.npts = s.quad.npts ∧
      ∀ p ∈ s'.quad.points, p.x = F64.nan) := by
  have neq : ∀ (a b : Pt (F64 L)), Arith.eq a.x b.x = false → ptEq a b = false := by
    intro a b h
    unfold ptEq
    rw [h, Bool.false_and, Bool.false_and]
  obtain ⟨s1, h1, -, hn, -, h4⟩ := C30_recenter_step c s
  obtain ⟨c1, p1⟩ := h4 (neq _ _ (by
    rw [Bool.eq_false_iff, hc, ho]
    intro h
    exact (XReal.eq_iff XReal.pinf (XReal.fin o)).1 h))
  obtain ⟨s2, h1', -, hn', -, h4'⟩ := C30_recenter_step d s1
  rw [c1] at h4'
  obtain ⟨c2, p2⟩ := h4' (neq _ _ (by
    rw [Bool.eq_false_iff, hc, hd]
    intro h
    exact (XReal.eq_iff (XReal.fin y) XReal.pinf).1 h))
  obtain ⟨s3, h5, h6, h7⟩ := nan_stays cs s2 (by
    rw [p2, p1]
    intro p hp
    simp only [List.mem_map, exists_exists_and_eq_and] at hp
    obtain ⟨u, hu, rfl⟩ := hp
    obtain ⟨x, hx⟩ := hs u hu
    dsimp only
    rw [hx, hc, ho, hd]
    rfl)
  refine ⟨s3, ?_, h6.trans (hn'.trans hn), h7⟩
  unfold recenterAll
  rw [h1, Outcome.ok_bind]
  unfold recenterAll
  rw [h1']
  exact h5

example : (⟨F64.nan, F64.fin 0, F64.fin 0⟩ : Pt (F64 L)).x = F64.nan ∧
    (⟨F64.inf, F64.fin 0, F64.fin 0⟩ : Pt (F64 L)).x = F64.inf := ⟨rfl, rfl⟩

end IntegratorXX
