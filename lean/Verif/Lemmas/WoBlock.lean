import Verif.Lemmas.WoExact

/-!
# Moments of Womersley grids

The points have no symmetry and the weights are equal.  A monomial `x^i y^j z^c` with `c ≤ 1` is
`(x²)^i' (y²)^j'` times one of the eight products of `1` or `x`, `1` or `y`, and `1` or `z`.  The first
factors are computed once for a point and all `i' < W`, `j0 ≤ j' < j0 + J`, in one number.  To avoid
negative numbers 1 is added to the second factors.
-/

namespace IntegratorXX

open Spec Arith

/-! ## The check -/

/-- The product of `e` and the powers `a, a^2, a^4, …` picked by `bits`. -/
noncomputable def fixPow (bits : List Bool) : Nat → Nat → Nat :=
  List.rec (fun e _ => e) (fun c _ ih e a =>
    ih (Bool.rec e (Nat.shiftRight (Nat.mul e a) 63) c) (Nat.shiftRight (Nat.mul a a) 63)) bits

/-- The number with these binary digits. -/
def bitsVal : List Bool → Nat
  | [] => 0
  | c :: l => c.toNat + 2 * bitsVal l

/-- `powVec` with masks and shifts prepared differently. -/
noncomputable def powVecL (steps : List (Nat × Nat)) : Nat → Nat → Nat :=
  List.rec (fun v _ => v) (fun st _ ih v a =>
    ih (Nat.add v (Nat.shiftLeft (Nat.land (Nat.mul v a) st.1) st.2))
      (Nat.shiftRight (Nat.mul a a) 63)) steps

/-- The same as `withSteps` for `powVecL`; passes on the function. -/
noncomputable def withStepsL (m n : Nat) (kont : (Nat → Nat → Nat) → Bool) : Nat → Nat →
    ((Nat → Nat → Nat) → Nat → Nat → Nat) → Bool
  | 0, _, acc => kont (acc fun v _ => v)
  | fuel + 1, len, acc => bif Nat.ble n len then kont (acc fun v _ => v) else
      forceNat (min len (n - len)) fun r => forceNat (Nat.shiftLeft (maskN 144 m r) 63) fun mk =>
        forceNat (144 * len - 63) fun sh => forceNat (len + r) fun len' =>
          withStepsL m n kont fuel len' (fun f => acc fun v a =>
            f (Nat.add v (Nat.shiftLeft (Nat.land (Nat.mul v a) mk) sh))
              (Nat.shiftRight (Nat.mul a a) 63))

/-- `1 + x y` from `1 + x` and `1 + y`, with 63 binary digits; `two` is `2^64`. -/
noncomputable def offMul (two a b : Nat) : Nat :=
  Nat.sub (Nat.add (Nat.shiftRight (Nat.mul a b) 63) two) (Nat.add a b)

/-- What is done with eight sums. -/
abbrev Kont8 : Type := Nat → Nat → Nat → Nat → Nat → Nat → Nat → Nat → Bool

/-- Eight sums over a list. -/
noncomputable def go8 {D : Type} (f : D → Kont8 → Kont8) (l : List D) (k : Kont8) : Kont8 :=
  List.rec k (fun d _ ih => f d ih) l

/-- Eight sums over a list in pieces. -/
noncomputable def all8 {D : Type} (f : D → Kont8 → Kont8) (l : List (List D)) (k : Kont8) : Kont8 :=
  List.rec k (fun c _ ih => go8 f c fun a0 a1 a2 a3 a4 a5 a6 a7 =>
    forceNat a0 fun a0 => forceNat a1 fun a1 => forceNat a2 fun a2 => forceNat a3 fun a3 =>
    forceNat a4 fun a4 => forceNat a5 fun a5 => forceNat a6 fun a6 => forceNat a7 fun a7 =>
    ih a0 a1 a2 a3 a4 a5 a6 a7) l

/-- The exponent of `x` or `y`. -/
def dbl (c : Bool) (i : Nat) : Nat := Nat.add (Nat.mul 2 i) c.toNat

/-- The differences of the sums in `P` and `N` are as expected. -/
noncomputable def blkOk (g : WoGrid) (L W J j0 : Nat) (cx cy cz : Bool) (P N : Nat) : Bool :=
  slotsOk 144 (144 * W) 1 0 0 W J (g.npts * 2 ^ 126 * 29 / 10 ^ 16)
    (fun i j => Nat.ble (dbl cx i + dbl cy (j0 + j) + cz.toNat) L)
    (fun i j => woTarget g.npts cz (dbl cx i) (dbl cy (j0 + j)) * 2 ^ 63) P N

/-- The moments with `i' < W` and `j0 ≤ j' < j0 + J` of degree at most `L`. -/
noncomputable def woBlock (g : WoGrid) (L W J j0 : Nat) (bits : List Bool) : Bool :=
  forceNat (Nat.sub (Nat.pow 2 81) 1) fun m =>
  withStepsL m W (fun pw1 => withStepsL m (Nat.mul W J) (fun pw2 =>
    forceNat (maskN 144 m W) fun mW => forceNat (Nat.pow 2 63) fun one => forceNat (Nat.pow 2 64) fun two =>
    forceNat (Nat.pow 10 g.s) fun t => forceNat (Nat.mul t t) fun tt =>
    all8 (fun d k a0 a1 a2 a3 a4 a5 a6 a7 =>
      (fun sx sy X Y Z => (fun E XY =>
          k (Nat.add a0 E) (Nat.add a1 (Nat.mul E X)) (Nat.add a2 (Nat.mul E Y)) (Nat.add a3 (Nat.mul E XY))
            (Nat.add a4 (Nat.mul E Z)) (Nat.add a5 (Nat.mul E (offMul two X Z)))
            (Nat.add a6 (Nat.mul E (offMul two Y Z))) (Nat.add a7 (Nat.mul E (offMul two XY Z))))
        (pw2 (Nat.land (Nat.shiftRight (Nat.mul (pw1 one sx) (fixPow bits one sy)) 63) mW) sy)
        (offMul two X Y))
      (Nat.div (Nat.mul (Nat.mul (woAbs t d.1) (woAbs t d.1)) one) tt)
      (Nat.div (Nat.mul (Nat.mul (woAbs t d.2.1) (woAbs t d.2.1)) one) tt)
      (Nat.div (Nat.mul d.1 one) t) (Nat.div (Nat.mul d.2.1 one) t) (Nat.div (Nat.mul d.2.2 one) t))
    (woPts (Nat.pow 16 g.h) g.chunks g.npts)
    (fun a0 a1 a2 a3 a4 a5 a6 a7 => forceNat (Nat.mul a0 one) fun b0 =>
      blkOk g L W J j0 false false false b0 0 && blkOk g L W J j0 true false false a1 b0 &&
      blkOk g L W J j0 false true false a2 b0 && blkOk g L W J j0 true true false a3 b0 &&
      blkOk g L W J j0 false false true a4 b0 && blkOk g L W J j0 true false true a5 b0 &&
      blkOk g L W J j0 false true true a6 b0 && blkOk g L W J j0 true true true a7 b0)
    0 0 0 0 0 0 0 0) 6 W id) 6 1 id

/-! ## What it computes -/

/-- The steps for `powVecL`. -/
noncomputable def stepsL (n len : Nat) : List (Nat × Nat) :=
  (mkSteps 144 (2 ^ (144 - 63) - 1) n 6 len).map (fun st => (st.1 <<< 63, st.2 - 63))

/-- All members times `a`. -/
noncomputable def scaleV (V a mask : Nat) : Nat := Nat.land (Nat.shiftRight (Nat.mul V a) 63) mask

/-- The square of a coordinate with 63 binary digits. -/
noncomputable def woSqr (t a : Nat) : Nat :=
  Nat.div (Nat.mul (Nat.mul (woAbs t a) (woAbs t a)) (Nat.pow 2 63)) (Nat.mul t t)

/-- A coordinate plus 1 with 63 binary digits. -/
noncomputable def woOff (t a : Nat) : Nat := Nat.div (Nat.mul a (Nat.pow 2 63)) t

/-- The products `(x²)^i (y²)^(j0 + j)`. -/
noncomputable def blkMat (t W J : Nat) (bits : List Bool) (d : Nat × Nat × Nat) : Nat :=
  powVecL (stepsL (W * J) W) (scaleV (powVecL (stepsL W 1) (Nat.pow 2 63) (woSqr t d.1))
    (fixPow bits (Nat.pow 2 63) (woSqr t d.2.1)) (pkF 144 W (fun _ => 2 ^ (144 - 63) - 1)))
    (woSqr t d.2.1)

/-- The second factors plus 1. -/
noncomputable def blkFac (t : Nat) (cx cy cz : Bool) (d : Nat × Nat × Nat) : Nat :=
  match cx, cy, cz with
  | false, false, false => Nat.pow 2 63
  | true, false, false => woOff t d.1
  | false, true, false => woOff t d.2.1
  | true, true, false => offMul (Nat.pow 2 64) (woOff t d.1) (woOff t d.2.1)
  | false, false, true => woOff t d.2.2
  | true, false, true => offMul (Nat.pow 2 64) (woOff t d.1) (woOff t d.2.2)
  | false, true, true => offMul (Nat.pow 2 64) (woOff t d.2.1) (woOff t d.2.2)
  | true, true, true =>
    offMul (Nat.pow 2 64) (offMul (Nat.pow 2 64) (woOff t d.1) (woOff t d.2.1)) (woOff t d.2.2)

/-! ## Steps -/

theorem withStepsL_eq (m n : Nat) (kont : (Nat → Nat → Nat) → Bool) (fuel len : Nat)
    (acc : (Nat → Nat → Nat) → Nat → Nat → Nat) :
    withStepsL m n kont fuel len acc =
      kont (acc (powVecL ((mkSteps 144 m n fuel len).map (fun st => (st.1 <<< 63, st.2 - 63))))) := by
  induction fuel generalizing len acc with
  | zero => rfl
  | succ fuel ih =>
    rw [withStepsL, mkSteps]
    simp only [forceNat_eq]
    by_cases h : n ≤ len
    · have : Nat.ble n len = true := by rw [Nat.ble_eq]; exact h
      rw [this, cond_true, if_pos h]; rfl
    · have : Nat.ble n len = false := by
        rw [Bool.eq_false_iff, Ne, Nat.ble_eq]; exact h
      rw [this, cond_false, if_neg h, ih, maskN_eq]; rfl

theorem land_shift (N m sh : Nat) (h : 63 ≤ sh) :
    (N &&& (m <<< 63)) <<< (sh - 63) = ((N >>> 63) &&& m) <<< sh := by
  have e : (N >>> 63 &&& m) <<< 63 = N &&& (m <<< 63) := by
    refine Nat.eq_of_testBit_eq (fun i => ?_)
    rw [Nat.testBit_shiftLeft, Nat.testBit_and, Nat.testBit_and, Nat.testBit_shiftRight,
      Nat.testBit_shiftLeft]
    by_cases hi : 63 ≤ i
    · simp [hi, Nat.add_sub_cancel' hi]
    · simp [hi]
  rw [← e, ← Nat.shiftLeft_add, Nat.add_sub_cancel' h]

theorem powVecL_eq (l : List (Nat × Nat)) (hl : ∀ st ∈ l, 63 ≤ st.2) (v a : Nat) :
    powVecL (l.map (fun st => (st.1 <<< 63, st.2 - 63))) v a = powVec 63 l v a := by
  induction l generalizing v a with
  | nil => rfl
  | cons st l ih =>
    have e : powVecL ((st :: l).map (fun st => (st.1 <<< 63, st.2 - 63))) v a =
        powVecL (l.map (fun st => (st.1 <<< 63, st.2 - 63)))
          (v + ((v * a) &&& (st.1 <<< 63)) <<< (st.2 - 63)) ((a * a) >>> 63) := rfl
    rw [e, ih (fun st h => hl st (List.mem_cons_of_mem _ h)), powVec_cons,
      land_shift _ _ _ (hl st List.mem_cons_self)]

theorem mkSteps_shift (m n fuel len : Nat) (h : 0 < len) : ∀ st ∈ mkSteps 144 m n fuel len, 63 ≤ st.2 := by
  induction fuel generalizing len with
  | zero => intro st hst; cases hst
  | succ fuel ih =>
    intro st hst
    rw [mkSteps] at hst
    split at hst
    · cases hst
    · rcases List.mem_cons.1 hst with rfl | hst
      · dsimp only; omega
      · exact ih _ (by omega) st hst

/-! ## Scalars -/

theorem fixPow_spec {y : ℝ} (bits : List Bool) : ∀ (e a n r : Nat), 0 < r → Fix 63 e (y ^ n) (2 * n) →
    Fix 63 a (y ^ r) (2 * r - 1) →
    Fix 63 (fixPow bits e a) (y ^ (n + r * bitsVal bits)) (2 * (n + r * bitsVal bits : Nat)) := by
  induction bits with
  | nil =>
    intro e a n r _ he _
    have : fixPow [] e a = e := rfl
    rw [this, bitsVal, mul_zero, add_zero]
    exact he
  | cons c l ih =>
    intro e a n r hr he ha
    have e1 : fixPow (c :: l) e a =
        fixPow l (Bool.rec e ((e * a) >>> 63) c) ((a * a) >>> 63) := rfl
    have h2 := fix_mul ha ha
    rw [← pow_add, ← two_mul] at h2
    have h3 : Fix 63 ((a * a) >>> 63) (y ^ (2 * r)) (2 * (2 * r : Nat) - 1) := by
      rw [Nat.shiftRight_eq_div_pow]
      exact h2.mono (by push_cast; linarith)
    rw [e1, bitsVal]
    cases c
    · have h4 := ih e ((a * a) >>> 63) n (2 * r) (by omega) he h3
      have e2 : n + r * (Bool.toNat false + 2 * bitsVal l) = n + 2 * r * bitsVal l := by
        rw [Bool.toNat_false]; ring
      rw [e2]
      exact h4
    · have h5 := fix_mul he ha
      rw [← pow_add] at h5
      have h6 : Fix 63 ((e * a) >>> 63) (y ^ (n + r)) (2 * (n + r : Nat)) := by
        rw [Nat.shiftRight_eq_div_pow]
        exact h5.mono (by push_cast; linarith)
      have h4 := ih ((e * a) >>> 63) ((a * a) >>> 63) (n + r) (2 * r) (by omega) h6 h3
      have e2 : n + r * (Bool.toNat true + 2 * bitsVal l) = n + r + 2 * r * bitsVal l := by
        rw [Bool.toNat_true]; ring
      rw [e2]
      exact h4

/-- Multiplying by a number. -/
theorem scaleV_spec {n V m : Nat} {x : Nat → ℝ} {e d z : ℝ} (h : HasVec 144 63 n V x e)
    (hm : Fix 63 m z d) :
    HasVec 144 63 n (scaleV V m (pkF 144 n (fun _ => 2 ^ (144 - 63) - 1))) (fun i => x i * z)
      (e + d + 1) := by
  obtain ⟨u, rfl, hu⟩ := h
  have e0 : scaleV (pkF 144 n u) m (pkF 144 n (fun _ => 2 ^ (144 - 63) - 1)) =
      ((pkF 144 n u * m) >>> 63) &&& pkF 144 n (fun _ => 2 ^ (144 - 63) - 1) := rfl
  refine ⟨fun i => u i * m / 2 ^ 63, ?_, fun i hi => fix_mul (hu i hi) hm⟩
  rw [e0, pkF_mul, pkF_trunc (by norm_num) le_rfl (fun i hi => two_pow_lt (by norm_num) (hu i hi).1 hm.1)]

/-! ## Points -/

theorem woSqr_spec {t a : Nat} (ht : 0 < t) (h : woAbs t a ≤ t) : Fix 63 (woSqr t a) (woReal t a ^ 2) 1 := by
  have h1 := fix_div 63 (woAbs t a * woAbs t a) (t * t) (Nat.mul_pos ht ht) (Nat.mul_le_mul h h)
  have e : ((woAbs t a * woAbs t a : Nat) : ℝ) / ((t * t : Nat) : ℝ) = woReal t a ^ 2 := by
    push_cast
    rw [mul_div_mul_comm, woAbs_real ht, abs_mul_abs_self, sq]
  rw [e] at h1
  exact h1

theorem blkMat_spec {t W J j0 : Nat} {bits : List Bool} {d : Nat × Nat × Nat} (ht : 0 < t)
    (hd : WoIn t d) (hW : 0 < W) (hW' : W ≤ 64) (hJ : 0 < J) (hJ' : J ≤ 64)
    (hb : bitsVal bits = j0) (hj : j0 ≤ 64) :
    HasVec 144 63 (W * J) (blkMat t W J bits d)
      (fun r => (woReal t d.1 ^ 2) ^ (r % W) * (woReal t d.2.1 ^ 2) ^ (j0 + r / W)) 641 := by
  have f1 := woSqr_spec ht hd.1
  have f2 := woSqr_spec ht hd.2.1
  obtain ⟨u, hu, hu'⟩ := powVec_start (k := 144) (s := 63) (fuel := 6) (by norm_num) hW hW' f1
  have f3 := fixPow_spec bits (2 ^ 63) (woSqr t d.2.1) 0 1 one_pos (y := (woReal t d.2.1 ^ 2))
    ⟨le_rfl, by simp, by simp, by norm_num⟩ (by rw [pow_one]; exact f2.mono (by norm_num))
  rw [hb, one_mul, zero_add] at f3
  obtain ⟨v, hv, hv'⟩ := scaleV_spec ⟨u, rfl, hu'⟩ f3
  have h2 := powVec_spec (k := 144) (s := 63) (m := W) (J := J) (by norm_num)
    (fun r => (woReal t d.1 ^ 2) ^ (r % W) * (woReal t d.2.1 ^ 2) ^ (j0 + r / W)) (woReal t d.2.1 ^ 2)
    (4 * W + 2 * j0 + 1) hW
    (fun i r => by
      rw [Nat.add_mul_mod_self_left, Nat.add_mul_div_left _ _ hW, ← add_assoc, pow_add _ (j0 + i / W),
        mul_assoc]) 6 1 v
    (woSqr t d.2.1) one_pos hJ (by omega) (fun i hi => by
      rw [mul_one] at hi
      rw [Nat.mod_eq_of_lt hi, Nat.div_eq_of_lt hi, add_zero]
      refine (hv' i hi).mono ?_
      norm_num) (by
      rw [pow_one]
      exact f2.mono (by norm_num))
  rw [mul_one] at h2
  obtain ⟨g, hg, hg'⟩ := h2
  have e : blkMat t W J bits d =
    powVecL ((mkSteps 144 (2 ^ (144 - 63) - 1) (W * J) 6 W).map (fun st => (st.1 <<< 63, st.2 - 63)))
    (scaleV (powVecL ((mkSteps 144 (2 ^ (144 - 63) - 1) W 6 1).map (fun st => (st.1 <<< 63, st.2 - 63)))
      (2 ^ 63) (woSqr t d.1)) (fixPow bits (2 ^ 63) (woSqr t d.2.1))
      (pkF 144 W (fun _ => 2 ^ (144 - 63) - 1))) (woSqr t d.2.1) := rfl
  refine ⟨g, ?_, fun r hr => (hg' r hr).mono ?_⟩
  · rw [e, powVecL_eq _ (mkSteps_shift _ _ _ _ hW), powVecL_eq _ (mkSteps_shift _ _ _ _ one_pos), hu, hv, hg]
  · have h1 : (W : ℝ) ≤ 64 := by exact_mod_cast hW'
    have h2 : (J : ℝ) ≤ 64 := by exact_mod_cast hJ'
    have h3 : (j0 : ℝ) ≤ 64 := by exact_mod_cast hj
    linarith

/-! ## Sums -/

theorem go8_eq {D : Type} {f : D → Kont8 → Kont8} {T0 T1 T2 T3 T4 T5 T6 T7 : D → Nat}
    (hf : ∀ d k a0 a1 a2 a3 a4 a5 a6 a7, f d k a0 a1 a2 a3 a4 a5 a6 a7 =
      k (a0 + T0 d) (a1 + T1 d) (a2 + T2 d) (a3 + T3 d) (a4 + T4 d) (a5 + T5 d) (a6 + T6 d) (a7 + T7 d))
    (l : List D) (k : Kont8) (a0 a1 a2 a3 a4 a5 a6 a7 : Nat) :
    go8 f l k a0 a1 a2 a3 a4 a5 a6 a7 =
      k (a0 + sumL T0 l) (a1 + sumL T1 l) (a2 + sumL T2 l) (a3 + sumL T3 l) (a4 + sumL T4 l)
        (a5 + sumL T5 l) (a6 + sumL T6 l) (a7 + sumL T7 l) := by
  induction l generalizing a0 a1 a2 a3 a4 a5 a6 a7 with
  | nil => rfl
  | cons d l ih =>
    have : go8 f (d :: l) k = f d (go8 f l k) := rfl
    rw [this, hf, ih]
    simp only [sumL_cons, Nat.add_assoc]

theorem all8_eq {D : Type} {f : D → Kont8 → Kont8} {T0 T1 T2 T3 T4 T5 T6 T7 : D → Nat}
    (hf : ∀ d k a0 a1 a2 a3 a4 a5 a6 a7, f d k a0 a1 a2 a3 a4 a5 a6 a7 =
      k (a0 + T0 d) (a1 + T1 d) (a2 + T2 d) (a3 + T3 d) (a4 + T4 d) (a5 + T5 d) (a6 + T6 d) (a7 + T7 d))
    (l : List (List D)) (k : Kont8) (a0 a1 a2 a3 a4 a5 a6 a7 : Nat) :
    all8 f l k a0 a1 a2 a3 a4 a5 a6 a7 =
      k (a0 + sumLL T0 l) (a1 + sumLL T1 l) (a2 + sumLL T2 l) (a3 + sumLL T3 l) (a4 + sumLL T4 l)
        (a5 + sumLL T5 l) (a6 + sumLL T6 l) (a7 + sumLL T7 l) := by
  induction l generalizing a0 a1 a2 a3 a4 a5 a6 a7 with
  | nil => rfl
  | cons c l ih =>
    have : all8 f (c :: l) k a0 a1 a2 a3 a4 a5 a6 a7 = go8 f c (fun a0 a1 a2 a3 a4 a5 a6 a7 =>
        forceNat a0 fun a0 => forceNat a1 fun a1 => forceNat a2 fun a2 => forceNat a3 fun a3 =>
        forceNat a4 fun a4 => forceNat a5 fun a5 => forceNat a6 fun a6 => forceNat a7 fun a7 =>
        all8 f l k a0 a1 a2 a3 a4 a5 a6 a7) a0 a1 a2 a3 a4 a5 a6 a7 := rfl
    rw [this, go8_eq hf]
    simp only [forceNat_eq]
    rw [ih]
    have e : ∀ T : D → Nat, sumLL T (c :: l) = sumL T c + sumLL T l := fun _ => rfl
    simp only [e, Nat.add_assoc]

/-- A number between 0 and 2 with 63 binary digits. -/
def Off (a : Nat) (z e : ℝ) : Prop := a ≤ 2 ^ 64 ∧ 0 ≤ z ∧ z ≤ 2 ∧ |(a : ℝ) - 2 ^ 63 * z| ≤ e

theorem Off.mono {a : Nat} {z e e' : ℝ} (h : Off a z e) (he : e ≤ e') : Off a z e' :=
  ⟨h.1, h.2.1, h.2.2.1, h.2.2.2.trans he⟩

theorem woOff_spec {t a : Nat} (ht : 0 < t) (h : woAbs t a ≤ t) : Off (woOff t a) (1 + woReal t a) 1 := by
  have ht' : (0 : ℝ) < t := by exact_mod_cast ht
  have h1 : |woReal t a| ≤ 1 := by
    rw [← woAbs_real ht, div_le_one ht']
    exact_mod_cast h
  have h2 := abs_le.1 h1
  have e1 : 1 + woReal t a = (a : ℝ) / t := by
    unfold woReal
    field_simp
    ring
  have h3 : (a : ℝ) ≤ 2 * t := by
    have : (a : ℝ) / t ≤ 2 := by rw [← e1]; linarith
    rwa [div_le_iff₀ ht'] at this
  have h4 : a ≤ 2 * t := by exact_mod_cast h3
  have h5 := floor_close (a * 2 ^ 63) t ht
  have e2 : woOff t a = a * 2 ^ 63 / t := rfl
  refine ⟨?_, by linarith, by linarith, ?_⟩
  · rw [e2]
    refine Nat.div_le_of_le_mul ?_
    calc a * 2 ^ 63 ≤ 2 * t * 2 ^ 63 := Nat.mul_le_mul_right _ h4
      _ = t * 2 ^ 64 := by ring
  · rw [e2, e1]
    have e3 : 2 ^ 63 * ((a : ℝ) / t) = ((a * 2 ^ 63 : Nat) : ℝ) / t := by
      push_cast
      ring
    rw [e3]
    exact h5

theorem offMul_spec {a b : Nat} {x y d e : ℝ} (ha : Off a (1 + x) d) (hb : Off b (1 + y) e) :
    Off (offMul (Nat.pow 2 64) a b) (1 + x * y) (d + e + 1) := by
  obtain ⟨a1, a2, a3, a4⟩ := ha
  obtain ⟨b1, b2, b3, b4⟩ := hb
  have e0 : offMul (Nat.pow 2 64) a b = a * b / 2 ^ 63 + 2 ^ 64 - (a + b) := by
    have : offMul (Nat.pow 2 64) a b = (a * b) >>> 63 + 2 ^ 64 - (a + b) := rfl
    rw [this, Nat.shiftRight_eq_div_pow]
  have hx : |x| ≤ 1 := abs_le.2 ⟨by linarith, by linarith⟩
  have hy : |y| ≤ 1 := abs_le.2 ⟨by linarith, by linarith⟩
  have hxy : |x * y| ≤ 1 := by rw [abs_mul]; exact mul_le_one₀ hx (abs_nonneg _) hy
  have hxy' := abs_le.1 hxy
  have f1 := floor_close (a * b) (2 ^ 63) (by norm_num)
  have f2 : ((a * b / 2 ^ 63 : Nat) : ℝ) ≤ ((a * b : Nat) : ℝ) / ((2 ^ 63 : Nat) : ℝ) := Nat.cast_div_le
  have a1' : (a : ℝ) ≤ 2 ^ 64 := by exact_mod_cast a1
  have b1' : (b : ℝ) ≤ 2 ^ 64 := by exact_mod_cast b1
  have a0' : (0 : ℝ) ≤ a := by positivity
  have b0' : (0 : ℝ) ≤ b := by positivity
  -- with `a = 2^63 (1 + u)` and `b = 2^63 (1 + v)`
  obtain ⟨u, hu⟩ : ∃ u : ℝ, (a : ℝ) = 2 ^ 63 * (1 + u) := ⟨a / 2 ^ 63 - 1, by ring⟩
  obtain ⟨v, hv⟩ : ∃ v : ℝ, (b : ℝ) = 2 ^ 63 * (1 + v) := ⟨b / 2 ^ 63 - 1, by ring⟩
  rw [hu] at a1' a0' a4
  rw [hv] at b1' b0' b4
  have hu1 : |u| ≤ 1 := abs_le.2 ⟨by linarith, by linarith⟩
  have hv1 : |v| ≤ 1 := abs_le.2 ⟨by linarith, by linarith⟩
  have huv := abs_le.1 (show |u * v| ≤ 1 by rw [abs_mul]; exact mul_le_one₀ hu1 (abs_nonneg _) hv1)
  have e1 : ((a * b : Nat) : ℝ) / ((2 ^ 63 : Nat) : ℝ) = 2 ^ 63 * ((1 + u) * (1 + v)) := by
    push_cast
    rw [hu, hv]
    ring
  rw [e1] at f1 f2
  -- errors
  have g1 : 2 ^ 63 * |u - x| ≤ d := by
    rw [show (2 : ℝ) ^ 63 * (1 + u) - 2 ^ 63 * (1 + x) = 2 ^ 63 * (u - x) by ring, abs_mul,
      abs_of_nonneg (by positivity)] at a4
    exact a4
  have g2 : 2 ^ 63 * |v - y| ≤ e := by
    rw [show (2 : ℝ) ^ 63 * (1 + v) - 2 ^ 63 * (1 + y) = 2 ^ 63 * (v - y) by ring, abs_mul,
      abs_of_nonneg (by positivity)] at b4
    exact b4
  have g3 : 2 ^ 63 * |u * v - x * y| ≤ d + e := by
    have : |u * v - x * y| ≤ |u - x| + |v - y| := by
      have e3 : u * v - x * y = (u - x) * v + x * (v - y) := by ring
      rw [e3]
      refine (abs_add_le _ _).trans ?_
      rw [abs_mul, abs_mul]
      have h1 := mul_le_of_le_one_right (abs_nonneg (u - x)) hv1
      have h2 := mul_le_of_le_one_left (abs_nonneg (v - y)) hx
      linarith
    have := mul_le_mul_of_nonneg_left this (show (0 : ℝ) ≤ 2 ^ 63 by positivity)
    linarith
  have g4 : |(2 : ℝ) ^ 63 * (u * v) - 2 ^ 63 * (x * y)| ≤ d + e := by
    rw [← mul_sub, abs_mul, abs_of_nonneg (by positivity)]
    exact g3
  have g5 := abs_le.1 g4
  have g6 := abs_le.1 f1
  rw [e0]
  generalize a * b / 2 ^ 63 = Q at *
  refine ⟨?_, by linarith, by linarith, ?_⟩
  · rw [Nat.sub_le_iff_le_add]
    have : ((Q + 2 ^ 64 : Nat) : ℝ) ≤ ((2 ^ 64 + (a + b) : Nat) : ℝ) := by
      push_cast
      rw [hu, hv]
      linarith
    exact_mod_cast this
  · rcases le_total (a + b) (Q + 2 ^ 64) with h | h
    · rw [Nat.cast_sub h]
      push_cast
      rw [hu, hv, abs_le]
      constructor <;> linarith
    · rw [Nat.sub_eq_zero_of_le h, Nat.cast_zero, zero_sub, abs_neg,
        abs_of_nonneg (by nlinarith)]
      have h' : ((Q + 2 ^ 64 : Nat) : ℝ) ≤ ((a + b : Nat) : ℝ) := by exact_mod_cast h
      push_cast at h'
      rw [hu, hv] at h'
      linarith

/-- The products of one point with a second factor. -/
theorem term_mat {W J E S : Nat} {x : Nat → ℝ} {z e f : ℝ} (hW : 0 < W)
    (hE : HasVec 144 63 (W * J) E x e) (hS : Off S z f) :
    HasMat 144 126 W J 2 (E * S) (fun i j => x (i + W * j) * z) (2 ^ 63 * (2 * e + f)) := by
  obtain ⟨u, rfl, hu⟩ := hE
  obtain ⟨s1, s2, s3, s4⟩ := hS
  have s1' : (S : ℝ) ≤ 2 ^ 64 := by exact_mod_cast s1
  refine ⟨fun i j => u (i + W * j) * S, ?_, fun i hi j hj => ?_⟩
  · rw [pkF_mul, pkF_nest 144 W J (fun j i => u (i + W * j) * S) hW]
    exact pkF_congr (fun t _ => by rw [Nat.mod_add_div])
  · have hlt : i + W * j < W * J := by
      calc i + W * j < W + W * j := by omega
        _ = W * (j + 1) := by ring
        _ ≤ W * J := Nat.mul_le_mul_left _ hj
    obtain ⟨u1, u2, u3, u4⟩ := hu _ hlt
    dsimp only
    generalize u (i + W * j) = U at *
    generalize x (i + W * j) = X at *
    constructor
    · calc U * S ≤ 2 ^ 63 * 2 ^ 64 := Nat.mul_le_mul u1 s1
        _ = 2 * 2 ^ 126 := by norm_num
    · have e1 : ((U * S : Nat) : ℝ) - 2 ^ 126 * (X * z) =
          (U - 2 ^ 63 * X) * S + 2 ^ 63 * X * (S - 2 ^ 63 * z) := by
        push_cast; ring
      rw [e1]
      refine (abs_add_le _ _).trans ?_
      rw [abs_mul, abs_mul, abs_of_nonneg (show (0 : ℝ) ≤ S by positivity),
        abs_of_nonneg (show (0 : ℝ) ≤ 2 ^ 63 * X by positivity)]
      have h1 : |(U : ℝ) - 2 ^ 63 * X| * S ≤ e * 2 ^ 64 :=
        mul_le_mul u4 s1' (by positivity) (le_trans (abs_nonneg _) u4)
      have h2 : 2 ^ 63 * X * |(S : ℝ) - 2 ^ 63 * z| ≤ 2 ^ 63 * f := by
        refine mul_le_mul ?_ s4 (abs_nonneg _) (by positivity)
        linarith
      linarith

theorem sumL_mul {D : Type} (T : D → Nat) (c : Nat) (l : List D) : sumL T l * c = sumL (fun d => T d * c) l := by
  induction l with
  | nil => exact Nat.zero_mul c
  | cons d l ih => rw [sumL_cons, sumL_cons, Nat.add_mul, ih]

/-- The same for the second factor 1. -/
theorem term_mat1 {W J E : Nat} {x : Nat → ℝ} {e : ℝ} (hW : 0 < W) (hE : HasVec 144 63 (W * J) E x e) :
    HasMat 144 126 W J 2 (E * 2 ^ 63) (fun i j => x (i + W * j) * 1) (2 ^ 63 * e) := by
  obtain ⟨u, rfl, hu⟩ := hE
  refine ⟨fun i j => u (i + W * j) * 2 ^ 63, ?_, fun i hi j hj => ?_⟩
  · rw [pkF_mul, pkF_nest 144 W J (fun j i => u (i + W * j) * 2 ^ 63) hW]
    exact pkF_congr (fun t _ => by rw [Nat.mod_add_div])
  · have hlt : i + W * j < W * J := by
      calc i + W * j < W + W * j := by omega
        _ = W * (j + 1) := by ring
        _ ≤ W * J := Nat.mul_le_mul_left _ hj
    obtain ⟨u1, u2, u3, u4⟩ := hu _ hlt
    dsimp only
    generalize u (i + W * j) = U at *
    generalize x (i + W * j) = X at *
    constructor
    · calc U * 2 ^ 63 ≤ 2 ^ 63 * 2 ^ 63 := Nat.mul_le_mul_right _ u1
        _ ≤ 2 * 2 ^ 126 := by norm_num
    · have e1 : ((U * 2 ^ 63 : Nat) : ℝ) - 2 ^ 126 * (X * 1) = 2 ^ 63 * (U - 2 ^ 63 * X) := by
        push_cast; ring
      rw [e1, abs_mul, abs_of_nonneg (by positivity)]
      exact mul_le_mul_of_nonneg_left u4 (by positivity)

/-! ## Classes of monomials -/

/-- `x` or `1`. -/
theorem dbl_pow (c : Bool) (i : Nat) (x : ℝ) : x ^ dbl c i = (x ^ 2) ^ i * x ^ c.toNat := by
  have : dbl c i = 2 * i + c.toNat := rfl
  rw [this, pow_add, pow_mul]

/-- The second factor. -/
noncomputable def facReal (t : Nat) (cx cy cz : Bool) (d : Nat × Nat × Nat) : ℝ :=
  woReal t d.1 ^ cx.toNat * woReal t d.2.1 ^ cy.toNat * woReal t d.2.2 ^ cz.toNat

theorem blkFac_spec {t : Nat} {d : Nat × Nat × Nat} (ht : 0 < t) (hd : WoIn t d) (cx cy cz : Bool)
    (h : (cx || (cy || cz)) = true) : Off (blkFac t cx cy cz d) (1 + facReal t cx cy cz d) 5 := by
  have fx := woOff_spec ht hd.1
  have fy := woOff_spec ht hd.2.1
  have fz := woOff_spec ht hd.2.2
  unfold facReal
  cases cx <;> cases cy <;> cases cz
  · cases h
  · simpa [blkFac] using fz.mono (by norm_num)
  · simpa [blkFac] using fy.mono (by norm_num)
  · simpa [blkFac] using (offMul_spec fy fz).mono (by norm_num)
  · simpa [blkFac] using fx.mono (by norm_num)
  · simpa [blkFac] using (offMul_spec fx fz).mono (by norm_num)
  · simpa [blkFac] using (offMul_spec fx fy).mono (by norm_num)
  · simpa [blkFac] using (offMul_spec (offMul_spec fx fy) fz).mono (by norm_num)

/-- What the check of a class says. -/
theorem blkOk_real {g : WoGrid} {L W J j0 P N : Nat} {cx cy cz : Bool} {X Y : Nat → Nat → ℝ} {E F : ℝ}
    (h : blkOk g L W J j0 cx cy cz P N = true) (hg : WoBase g)
    (hP : HasMat 144 126 W J (g.npts * 2) P X (g.npts * E)) (hN : HasMat 144 126 W J (g.npts * 2) N Y (g.npts * F))
    (hE : E + F ≤ 2 ^ 63 * 1928)
    {i j : Nat} (hi : i < W) (hj : j < J) (hL : dbl cx i + dbl cy (j0 + j) + cz.toNat ≤ L)
    (hXY : X i j - Y i j = woSum g (dbl cx i) (dbl cy (j0 + j)) cz.toNat) :
    |woSum g (dbl cx i) (dbl cy (j0 + j)) cz.toNat - g.npts * woMean cz (dbl cx i) (dbl cy (j0 + j))| ≤
      g.npts * (32 / 10 ^ 16) + 1 / 10 ^ 18 := by
  unfold blkOk at h
  have hnp := hg.npts
  have b1 : g.npts * 2 * 2 ^ 126 < 2 ^ 144 := by
    calc g.npts * 2 * 2 ^ 126 ≤ 10000 * 2 * 2 ^ 126 := by gcongr
      _ < 2 ^ 144 := by norm_num
  have key := slotsOk_spec h hP hN b1 b1 (i := i) (j := j) hi hj (by omega) (by omega)
    (by rw [Nat.ble_eq]; exact hL)
  simp only [one_mul, add_zero] at key
  rw [hXY] at key
  have h2 := woTarget_close' g.npts cz (dbl cx i) (dbl cy (j0 + j))
  have e0 : ((g.npts * 2 ^ 126 * 29 / 10 ^ 16 : Nat) : ℝ) ≤ g.npts * 2 ^ 126 * 29 / 10 ^ 16 := by
    have := Nat.cast_div_le (α := ℝ) (m := g.npts * 2 ^ 126 * 29) (n := 10 ^ 16)
    refine this.trans (le_of_eq ?_)
    push_cast
    norm_num
  rw [Nat.cast_mul] at key
  generalize ((g.npts * 2 ^ 126 * 29 / 10 ^ 16 : Nat) : ℝ) = Q1 at *
  generalize (woTarget g.npts cz (dbl cx i) (dbl cy (j0 + j)) : ℝ) = T at *
  generalize woSum g (dbl cx i) (dbl cy (j0 + j)) cz.toNat = S at *
  generalize woMean cz (dbl cx i) (dbl cy (j0 + j)) = M at *
  have hn : (0 : ℝ) ≤ g.npts := by positivity
  generalize (g.npts : ℝ) = n at *
  have hEn := mul_le_mul_of_nonneg_left hE hn
  have a1 := abs_le.1 key
  have a2 := abs_le.1 h2
  rw [abs_le]
  norm_num at a1 a2 e0 hEn ⊢
  constructor <;> linarith

theorem sum_one_add {D : Type} (l : List D) (f z : D → ℝ) :
    (l.map (fun d => f d * (1 + z d))).sum - (l.map (fun d => f d * 1)).sum =
      (l.map (fun d => f d * z d)).sum := by
  induction l with
  | nil => simp
  | cons d l ih => simp only [List.map_cons, List.sum_cons]; linear_combination ih

/-- What a successful check says. -/
theorem woBlock_real {g : WoGrid} {L W J j0 : Nat} {bits : List Bool}
    (h : woBlock g L W J j0 bits = true) (hg : WoBase g)
    (hW : 0 < W) (hW' : W ≤ 64) (hJ : 0 < J)
    (hJ' : J ≤ 64) (hbits : bitsVal bits = j0) (hj0 : j0 ≤ 64) (cx cy cz : Bool)
    {i j : Nat} (hi : i < W) (hj : j < J) (hL : dbl cx i + dbl cy (j0 + j) + cz.toNat ≤ L) :
    |woSum g (dbl cx i) (dbl cy (j0 + j)) cz.toNat - g.npts * woMean cz (dbl cx i) (dbl cy (j0 + j))| ≤
      g.npts * (32 / 10 ^ 16) + 1 / 10 ^ 18 := by
  have ht : 0 < 10 ^ g.s := by positivity
  -- the sums of one class
  have hm : ∀ cx cy cz, (cx || (cy || cz)) = true →
      HasMat 144 126 W J (g.npts * 2)
        (sumLL (fun d => blkMat (10 ^ g.s) W J bits d * blkFac (10 ^ g.s) cx cy cz d)
          (woRaw (16 ^ g.h) g.npts g.chunks))
        (fun i j => ((woAll g).map (fun d => (woReal (10 ^ g.s) d.1 ^ 2) ^ ((i + W * j) % W) *
          (woReal (10 ^ g.s) d.2.1 ^ 2) ^ (j0 + (i + W * j) / W) * (1 + facReal (10 ^ g.s) cx cy cz d))).sum)
        (g.npts * (2 ^ 63 * (2 * 641 + 5))) := by
    intro cx cy cz hc
    have := HasMat.sum (woAll g) (fun d hd => term_mat hW
      (blkMat_spec ht (hg.bounded d hd) hW hW' hJ hJ' hbits hj0) (blkFac_spec ht (hg.bounded d hd) cx cy cz hc))
    rw [show (woAll g).length = g.npts from hg.toWoShape.length] at this
    rw [sumLL_eq]
    exact this
  have h0 : HasMat 144 126 W J (g.npts * 2)
      (sumLL (fun d => blkMat (10 ^ g.s) W J bits d) (woRaw (16 ^ g.h) g.npts g.chunks) * 2 ^ 63)
      (fun i j => ((woAll g).map (fun d => (woReal (10 ^ g.s) d.1 ^ 2) ^ ((i + W * j) % W) *
        (woReal (10 ^ g.s) d.2.1 ^ 2) ^ (j0 + (i + W * j) / W) * 1)).sum)
      (g.npts * (2 ^ 63 * 641)) := by
    have := HasMat.sum (woAll g) (fun d hd => term_mat1 hW
      (blkMat_spec ht (hg.bounded d hd) hW hW' hJ hJ' hbits hj0))
    rw [show (woAll g).length = g.npts from hg.toWoShape.length] at this
    rw [sumLL_eq, sumL_mul]
    exact this
  have hz : HasMat 144 126 W J (g.npts * 2) 0 (fun _ _ => 0) (g.npts * 0) := by
    have := (HasMat.zero 144 126 W J).mono_count (Nat.zero_le (g.npts * 2))
    rwa [mul_zero]
  have hs : ∀ cx cy cz, ((woAll g).map (fun d => (woReal (10 ^ g.s) d.1 ^ 2) ^ ((i + W * j) % W) *
      (woReal (10 ^ g.s) d.2.1 ^ 2) ^ (j0 + (i + W * j) / W) * facReal (10 ^ g.s) cx cy cz d)).sum =
      woSum g (dbl cx i) (dbl cy (j0 + j)) cz.toNat := by
    intro cx cy cz
    unfold woSum
    congr 1
    refine List.map_congr_left (fun d hd => ?_)
    rw [(mod_div_block hi j).1, (mod_div_block hi j).2, dbl_pow, dbl_pow]
    unfold facReal
    ring
  have hd : ∀ cx cy cz, (cx || (cy || cz)) = true → blkOk g L W J j0 cx cy cz
      (sumLL (fun d => blkMat (10 ^ g.s) W J bits d * blkFac (10 ^ g.s) cx cy cz d)
        (woRaw (16 ^ g.h) g.npts g.chunks))
      (sumLL (fun d => blkMat (10 ^ g.s) W J bits d) (woRaw (16 ^ g.h) g.npts g.chunks) * 2 ^ 63) = true →
      dbl cx i + dbl cy (j0 + j) + cz.toNat ≤ L →
      |woSum g (dbl cx i) (dbl cy (j0 + j)) cz.toNat - g.npts * woMean cz (dbl cx i) (dbl cy (j0 + j))| ≤
      g.npts * (32 / 10 ^ 16) + 1 / 10 ^ 18 := by
    intro cx cy cz hc hk hL
    refine blkOk_real hk hg (hm cx cy cz hc) h0 (by norm_num) hi hj hL ?_
    rw [sum_one_add, hs]
  unfold woBlock at h
  rw [forceNat_eq, withStepsL_eq, withStepsL_eq] at h
  simp only [forceNat_eq] at h
  rw [all8_eq (T0 := fun d => blkMat (10 ^ g.s) W J bits d)
    (T1 := fun d => blkMat (10 ^ g.s) W J bits d * blkFac (10 ^ g.s) true false false d)
    (T2 := fun d => blkMat (10 ^ g.s) W J bits d * blkFac (10 ^ g.s) false true false d)
    (T3 := fun d => blkMat (10 ^ g.s) W J bits d * blkFac (10 ^ g.s) true true false d)
    (T4 := fun d => blkMat (10 ^ g.s) W J bits d * blkFac (10 ^ g.s) false false true d)
    (T5 := fun d => blkMat (10 ^ g.s) W J bits d * blkFac (10 ^ g.s) true false true d)
    (T6 := fun d => blkMat (10 ^ g.s) W J bits d * blkFac (10 ^ g.s) false true true d)
    (T7 := fun d => blkMat (10 ^ g.s) W J bits d * blkFac (10 ^ g.s) true true true d)
    (by intros; rw [maskN_eq]; rfl), woPts_eq] at h
  simp only [Nat.zero_add, Bool.and_eq_true] at h
  obtain ⟨⟨⟨⟨⟨⟨⟨h000, h100⟩, h010⟩, h110⟩, h001⟩, h101⟩, h011⟩, h111⟩ := h
  cases cx <;> cases cy <;> cases cz
  · refine blkOk_real h000 hg h0 hz (by norm_num) hi hj hL ?_
    rw [sub_zero, ← hs]
    simp [facReal]
  · exact hd _ _ _ rfl h001 hL
  · exact hd _ _ _ rfl h010 hL
  · exact hd _ _ _ rfl h011 hL
  · exact hd _ _ _ rfl h100 hL
  · exact hd _ _ _ rfl h101 hL
  · exact hd _ _ _ rfl h110 hL
  · exact hd _ _ _ rfl h111 hL

/-- Blocks that cover all degrees up to `L` from `(y²)^j0` on. -/
def blkCover (L : Nat) : Nat → List (Nat × Nat × List Bool) → Bool
  | j0, [] => decide (L < 2 * j0)
  | j0, (W, J, bits) :: l => decide (0 < W ∧ W ≤ 64 ∧ 0 < J ∧ J ≤ 64 ∧ bitsVal bits = j0 ∧ j0 ≤ 64 ∧
      L < 2 * (j0 + W)) && blkCover L (j0 + J) l

/-- The checks of all blocks. -/
def BlkAll (g : WoGrid) (L : Nat) : Nat → List (Nat × Nat × List Bool) → Prop
  | _, [] => True
  | j0, (W, J, bits) :: l => woBlock g L W J j0 bits = true ∧ BlkAll g L (j0 + J) l

theorem blkAll_real {g : WoGrid} {L : Nat} (hg : WoBase g) (cx cy cz : Bool) :
    ∀ (l : List (Nat × Nat × List Bool)) (j0 : Nat), blkCover L j0 l = true → BlkAll g L j0 l →
    ∀ i j, dbl cx i + dbl cy (j0 + j) + cz.toNat ≤ L →
      |woSum g (dbl cx i) (dbl cy (j0 + j)) cz.toNat - g.npts * woMean cz (dbl cx i) (dbl cy (j0 + j))| ≤
        g.npts * (32 / 10 ^ 16) + 1 / 10 ^ 18
  | [], j0, h, _, i, j, hL => by
    rw [blkCover, decide_eq_true_eq] at h
    have : dbl cy (j0 + j) = 2 * (j0 + j) + cy.toNat := rfl
    omega
  | (W, J, bits) :: l, j0, h, h', i, j, hL => by
    rw [blkCover, Bool.and_eq_true, decide_eq_true_eq] at h
    obtain ⟨⟨h1, h2, h3, h4, h5, h6, h7⟩, h8⟩ := h
    obtain ⟨k1, k2⟩ := h'
    by_cases hj : j < J
    · have e1 : dbl cy (j0 + j) = 2 * (j0 + j) + cy.toNat := rfl
      have e2 : dbl cx i = 2 * i + cx.toNat := rfl
      exact woBlock_real k1 hg h1 h2 h3 h4 h5 h6 cx cy cz (by omega) hj hL
    · have := blkAll_real hg cx cy cz l (j0 + J) h8 k2 i (j - J)
      rw [show j0 + J + (j - J) = j0 + j by omega] at this
      exact this hL

theorem exists_dbl (i : Nat) : ∃ c r, i = dbl c r := by
  rcases Nat.mod_two_eq_zero_or_one i with h | h
  · exact ⟨false, i / 2, by have : dbl false (i / 2) = 2 * (i / 2) + 0 := rfl; omega⟩
  · exact ⟨true, i / 2, by have : dbl true (i / 2) = 2 * (i / 2) + 1 := rfl; omega⟩

/-- A grid exact up to its order. -/
theorem woBlocks_exact {g : WoGrid} {L : Nat} (l : List (Nat × Nat × List Bool)) (hg : WoBase g)
    (h : blkCover L 0 l = true) (h' : BlkAll g L 0 l) :
    ReducedExact (woGrid g : StaticGrid ℝ).points (woGrid g : StaticGrid ℝ).weights L (5 / 10 ^ 14) :=
  woSum_exact hg (fun c i j hL => by
    obtain ⟨cx, i, rfl⟩ := exists_dbl i
    obtain ⟨cy, j, rfl⟩ := exists_dbl j
    have := blkAll_real hg cx cy c l 0 h h' i j (by rwa [zero_add])
    rwa [zero_add] at this)

end IntegratorXX
