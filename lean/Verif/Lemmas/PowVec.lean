import Mathlib.Algebra.BigOperators.Intervals
import Mathlib.Algebra.BigOperators.Ring.Finset
import Mathlib.Algebra.Order.Floor.Semiring
import Mathlib.Data.Nat.Cast.Order.Field
import Mathlib.Algebra.Order.BigOperators.Group.List
import Mathlib.Data.Nat.Bitwise
import Mathlib.Data.Real.Basic
import Mathlib.Tactic.Linarith
import Mathlib.Tactic.Positivity
import Mathlib.Tactic.Ring
import Mathlib.Tactic.FieldSimp
import Mathlib.Tactic.NormNum

/-!
# Moments by multiplication of large integers

The moments of the larger angular grids are sums of thousands of products for thousands of pairs of
exponents.  The kernel multiplies large integers quickly but takes its time over everything else.  So
the powers `1, a, a², …` of a fixed-point number are kept in one integer, obtained by repeated
doubling, and the product of two such integers holds all products `a^i b^j`.
-/

namespace IntegratorXX

open Finset

/-! ## Packed sequences -/

/-- `Σ f i · 2^(k i)`. -/
def pkF (k n : Nat) (f : Nat → Nat) : Nat := ∑ i ∈ range n, f i * 2 ^ (k * i)

theorem pkF_zero (k : Nat) (f : Nat → Nat) : pkF k 0 f = 0 := by simp [pkF]

theorem pkF_one (k : Nat) (f : Nat → Nat) : pkF k 1 f = f 0 := by simp [pkF]

theorem pkF_succ' (k n : Nat) (f : Nat → Nat) :
    pkF k (n + 1) f = f 0 + 2 ^ k * pkF k n (fun i => f (i + 1)) := by
  unfold pkF
  rw [sum_range_succ', mul_sum, mul_zero, pow_zero, mul_one, add_comm]
  congr 1
  refine sum_congr rfl (fun i _ => ?_)
  rw [mul_add, mul_one, pow_add]
  ring

theorem pkF_congr {k n : Nat} {f g : Nat → Nat} (h : ∀ i < n, f i = g i) : pkF k n f = pkF k n g :=
  sum_congr rfl (fun i hi => by rw [h i (mem_range.1 hi)])

theorem pkF_mul (k n : Nat) (f : Nat → Nat) (c : Nat) :
    pkF k n f * c = pkF k n (fun i => f i * c) := by
  unfold pkF
  rw [sum_mul]
  exact sum_congr rfl (fun i _ => by ring)

theorem pkF_add (k n : Nat) (f g : Nat → Nat) :
    pkF k n f + pkF k n g = pkF k n (fun i => f i + g i) := by
  unfold pkF
  rw [← sum_add_distrib]
  exact sum_congr rfl (fun i _ => by ring)

theorem pkF_append (k n r : Nat) (f g : Nat → Nat) :
    pkF k n f + pkF k r g * 2 ^ (k * n) =
      pkF k (n + r) (fun i => if i < n then f i else g (i - n)) := by
  unfold pkF
  rw [sum_range_add, sum_mul]
  congr 1
  · exact sum_congr rfl (fun i hi => by dsimp only; rw [if_pos (mem_range.1 hi)])
  · refine sum_congr rfl (fun i _ => ?_)
    dsimp only
    rw [if_neg (by omega), Nat.add_sub_cancel_left, mul_add, pow_add]
    ring

theorem pkF_lt {k n : Nat} {f : Nat → Nat} (h : ∀ i < n, f i < 2 ^ k) : pkF k n f < 2 ^ (k * n) := by
  induction n generalizing f with
  | zero => simp [pkF_zero]
  | succ n ih =>
    rw [pkF_succ']
    have h0 := h 0 (by omega)
    have h1 := ih (f := fun i => f (i + 1)) (fun i hi => h (i + 1) (by omega))
    have e : 2 ^ (k * (n + 1)) = 2 ^ k * 2 ^ (k * n) := by rw [← pow_add]; congr 1; ring
    rw [e]
    calc _ < 2 ^ k + 2 ^ k * pkF k n (fun i => f (i + 1)) := by omega
      _ = 2 ^ k * (pkF k n (fun i => f (i + 1)) + 1) := by ring
      _ ≤ _ := Nat.mul_le_mul_left _ h1

/-- Reading off one member. -/
theorem pkF_digit {k n : Nat} {f : Nat → Nat} (h : ∀ i < n, f i < 2 ^ k) {i : Nat} (hi : i < n) :
    (pkF k n f >>> (k * i)) % 2 ^ k = f i := by
  rw [Nat.shiftRight_eq_div_pow]
  induction n generalizing f i with
  | zero => omega
  | succ n ih =>
    rw [pkF_succ']
    have h0 := h 0 (by omega)
    rcases i with _ | i
    · rw [mul_zero, pow_zero, Nat.div_one, Nat.add_mul_mod_self_left, Nat.mod_eq_of_lt h0]
    · rw [mul_add, mul_one, add_comm (k * i) k, pow_add, ← Nat.div_div_eq_div_mul,
        Nat.add_mul_div_left _ _ (by positivity), Nat.div_eq_of_lt h0, zero_add]
      exact ih (f := fun i => f (i + 1)) (fun i hi => h (i + 1) (by omega)) (by omega)

theorem land_split (k a b c d : Nat) (ha : a < 2 ^ k) (hc : c < 2 ^ k) :
    (a + 2 ^ k * b) &&& (c + 2 ^ k * d) = (a &&& c) + 2 ^ k * (b &&& d) := by
  refine Nat.eq_of_testBit_eq (fun i => ?_)
  rw [add_comm a, add_comm c, add_comm (a &&& c), Nat.testBit_and,
    Nat.testBit_two_pow_mul_add _ ha, Nat.testBit_two_pow_mul_add _ hc,
    Nat.testBit_two_pow_mul_add _ (Nat.and_lt_two_pow _ hc)]
  split <;> rw [Nat.testBit_and]

/-- Dividing all members by `2^s` at once, keeping `r` of them. -/
theorem pkF_trunc {k s n r : Nat} {f : Nat → Nat} (hs : s ≤ k) (hr : r ≤ n)
    (h : ∀ i < n, f i < 2 ^ k) :
    (pkF k n f >>> s) &&& pkF k r (fun _ => 2 ^ (k - s) - 1) = pkF k r (fun i => f i / 2 ^ s) := by
  induction n generalizing f r with
  | zero =>
    obtain rfl : r = 0 := by omega
    simp [pkF_zero]
  | succ n ih =>
    rcases r with _ | r
    · simp [pkF_zero]
    · have ih' := ih (r := r) (f := fun i => f (i + 1)) (by omega) (fun i hi => h (i + 1) (by omega))
      rw [pkF_succ', pkF_succ', pkF_succ' k r (fun i => f i / 2 ^ s), ← ih']
      generalize pkF k n (fun i => f (i + 1)) = P
      generalize pkF k r (fun _ => 2 ^ (k - s) - 1) = M
      have h0 := h 0 (by omega)
      generalize f 0 = e at *
      obtain ⟨c, rfl⟩ : ∃ c, k = s + c := ⟨k - s, by omega⟩
      rw [Nat.add_sub_cancel_left, Nat.shiftRight_eq_div_pow, Nat.shiftRight_eq_div_pow]
      have hp : 0 < 2 ^ s := by positivity
      have he : e / 2 ^ s < 2 ^ c := by
        rw [Nat.div_lt_iff_lt_mul hp, ← pow_add, add_comm]; exact h0
      have e1 : (e + 2 ^ (s + c) * P) / 2 ^ s =
          (e / 2 ^ s + 2 ^ c * (P % 2 ^ s)) + 2 ^ (s + c) * (P / 2 ^ s) := by
        rw [pow_add, mul_assoc, Nat.add_mul_div_left _ _ hp]
        conv_lhs => rw [← Nat.div_add_mod P (2 ^ s)]
        ring
      have hlt : e / 2 ^ s + 2 ^ c * (P % 2 ^ s) < 2 ^ (s + c) := by
        have h1 := Nat.mod_lt P hp
        calc _ < 2 ^ c + 2 ^ c * (P % 2 ^ s) := by omega
          _ = 2 ^ c * (P % 2 ^ s + 1) := by ring
          _ ≤ 2 ^ c * 2 ^ s := Nat.mul_le_mul_left _ h1
          _ = _ := by rw [← pow_add, add_comm]
      have hm : 2 ^ c - 1 < 2 ^ (s + c) := by
        have h1 : 2 ^ c ≤ 2 ^ (s + c) := Nat.pow_le_pow_right (by norm_num) (by omega)
        have h2 : 0 < 2 ^ c := by positivity
        omega
      rw [e1, land_split _ _ _ _ _ hlt hm, Nat.and_two_pow_sub_one_eq_mod,
        Nat.add_mul_mod_self_left, Nat.mod_eq_of_lt he]

/-- Two levels of packing. -/
theorem pkF_nest (k a b : Nat) (g : Nat → Nat → Nat) (ha : 0 < a) :
    pkF (k * a) b (fun j => pkF k a (g j)) = pkF k (a * b) (fun t => g (t / a) (t % a)) := by
  induction b with
  | zero => simp [pkF_zero]
  | succ b ih =>
    have e1 : pkF (k * a) (b + 1) (fun j => pkF k a (g j)) =
        pkF (k * a) b (fun j => pkF k a (g j)) + pkF k a (g b) * 2 ^ (k * (a * b)) := by
      unfold pkF
      rw [sum_range_succ, mul_assoc]
    rw [e1, ih, pkF_append, mul_add, mul_one]
    refine pkF_congr (fun t ht => ?_)
    split
    · rfl
    · rename_i h
      obtain ⟨r, rfl⟩ : ∃ r, t = a * b + r := ⟨t - a * b, by omega⟩
      rw [Nat.mul_add_div ha, Nat.mul_add_mod, Nat.add_sub_cancel_left,
        Nat.div_eq_of_lt (by omega : r < a), Nat.mod_eq_of_lt (by omega : r < a), add_zero]

theorem pkF_land {k n : Nat} {f g : Nat → Nat} (hf : ∀ i < n, f i < 2 ^ k)
    (hg : ∀ i < n, g i < 2 ^ k) :
    pkF k n f &&& pkF k n g = pkF k n (fun i => f i &&& g i) := by
  induction n generalizing f g with
  | zero => simp [pkF_zero]
  | succ n ih =>
    rw [pkF_succ', pkF_succ' k n g, pkF_succ' k n (fun i => f i &&& g i),
      land_split _ _ _ _ _ (hf 0 (by omega)) (hg 0 (by omega)),
      ih (fun i hi => hf (i + 1) (by omega)) (fun i hi => hg (i + 1) (by omega))]

theorem pkF_extend {k n m : Nat} {f : Nat → Nat} (h : n ≤ m) (hf : ∀ i, n ≤ i → f i = 0) :
    pkF k n f = pkF k m f := by
  unfold pkF
  refine sum_subset (fun i hi => ?_) (fun i _ hi => ?_)
  · rw [mem_range] at hi ⊢; omega
  · rw [mem_range, not_lt] at hi; rw [hf i hi, zero_mul]

/-- Packing with wider slots. -/
theorem pkF_wide (k a b : Nat) (v : Nat → Nat) (ha : 0 < a) :
    pkF (k * a) b v = pkF k (a * b) (fun t => if t % a = 0 then v (t / a) else 0) := by
  rw [← pkF_nest k a b (fun j i => if i = 0 then v j else 0) ha]
  refine pkF_congr (fun j _ => ?_)
  unfold pkF
  rw [sum_eq_single 0]
  · simp
  · intro i _ hi; simp [hi]
  · intro h; simp at h; omega

/-- Moving the members of a packed sequence apart. -/
theorem pkF_spread {k J : Nat} {v : Nat → Nat} (hv : ∀ j < J, v j < 2 ^ k) :
    (pkF k J v * pkF (k * J) J (fun _ => 1)) &&& pkF (k * (J + 1)) J (fun _ => 2 ^ k - 1) =
      pkF (k * (J + 1)) J v := by
  rcases Nat.eq_zero_or_pos J with rfl | hJ
  · simp [pkF_zero]
  rw [mul_comm, pkF_mul]
  simp only [one_mul]
  have hp : 0 < 2 ^ k := by positivity
  have e1 := pkF_nest k J J (fun _ => v) hJ
  have hlt : ∀ t < J * J, v (t % J) < 2 ^ k := fun t _ => hv _ (Nat.mod_lt _ hJ)
  -- the last slots are empty
  have wide : ∀ v : Nat → Nat, pkF (k * (J + 1)) J v =
      pkF k (J * J) (fun t => if t % (J + 1) = 0 then v (t / (J + 1)) else 0) := by
    intro v
    rw [pkF_wide k (J + 1) J v (by omega)]
    unfold pkF
    symm
    refine sum_subset (fun i hi => ?_) (fun i hi hi' => ?_)
    · rw [mem_range] at hi ⊢
      calc i < J * J := hi
        _ ≤ (J + 1) * J := Nat.mul_le_mul_right _ (by omega)
    · rw [mem_range] at hi
      rw [mem_range, not_lt] at hi'
      have : i % (J + 1) ≠ 0 := by
        intro h
        obtain ⟨q, rfl⟩ := Nat.dvd_of_mod_eq_zero h
        have h1 : q < J := lt_of_mul_lt_mul_left hi (by omega)
        have h2 : (J + 1) * q ≤ (J + 1) * (J - 1) := Nat.mul_le_mul_left _ (by omega)
        have h3 : (J + 1) * (J - 1) + 1 = J * J := by
          obtain ⟨c, rfl⟩ : ∃ c, J = c + 1 := ⟨J - 1, by omega⟩
          rw [Nat.add_sub_cancel]; ring
        omega
      dsimp only
      rw [if_neg this, zero_mul]
  rw [e1, wide v, wide (fun _ => 2 ^ k - 1), pkF_land hlt]
  · refine pkF_congr (fun t ht => ?_)
    by_cases h : t % (J + 1) = 0
    · rw [if_pos h, if_pos h, Nat.and_two_pow_sub_one_eq_mod, Nat.mod_eq_of_lt (hlt t ht)]
      obtain ⟨q, rfl⟩ := Nat.dvd_of_mod_eq_zero h
      have hq : q < J := by
        by_contra hq
        have : (J + 1) * J ≤ (J + 1) * q := Nat.mul_le_mul_left _ (by omega)
        have : (J + 1) * J = J * J + J := by ring
        omega
      rw [Nat.mul_div_cancel_left _ (by omega : 0 < J + 1), add_mul, one_mul, Nat.mul_add_mod,
        Nat.mod_eq_of_lt hq]
    · rw [if_neg h, if_neg h, Nat.and_zero]
  · intro t _
    split <;> omega

/-- A section of a packed sequence. -/
theorem pkF_section {k n i0 m : Nat} {f : Nat → Nat} (hf : ∀ i < n, f i < 2 ^ k) (h : i0 + m ≤ n) :
    (pkF k n f >>> (k * i0)) % 2 ^ (k * m) = pkF k m (fun i => f (i0 + i)) := by
  obtain ⟨r, rfl⟩ : ∃ r, n = i0 + (m + r) := ⟨n - i0 - m, by omega⟩
  have e1 : pkF k (i0 + (m + r)) f =
      pkF k i0 f + pkF k (m + r) (fun i => f (i0 + i)) * 2 ^ (k * i0) := by
    rw [pkF_append]
    refine pkF_congr (fun i hi => ?_)
    split
    · rfl
    · rw [Nat.add_sub_cancel' (by omega)]
  have e2 : pkF k (m + r) (fun i => f (i0 + i)) =
      pkF k m (fun i => f (i0 + i)) + pkF k r (fun i => f (i0 + (m + i))) * 2 ^ (k * m) := by
    rw [pkF_append]
    refine pkF_congr (fun i hi => ?_)
    split
    · rfl
    · rw [Nat.add_sub_cancel' (by omega)]
  rw [e1, Nat.shiftRight_eq_div_pow, Nat.add_mul_div_right _ _ (by positivity),
    Nat.div_eq_of_lt (pkF_lt (fun i hi => hf i (by omega))), zero_add, e2,
    Nat.add_mul_mod_self_right, Nat.mod_eq_of_lt (pkF_lt (fun i hi => hf _ (by omega)))]

/-! ## What is evaluated -/

/-- Evaluates its argument before passing it on. -/
def forceNat {α : Type} (n : Nat) (f : Nat → α) : α := Nat.casesOn n (f 0) (fun k => f (Nat.succ k))

theorem forceNat_eq {α : Type} (n : Nat) (f : Nat → α) : forceNat n f = f n := by
  cases n <;> rfl

/-- `m` repeated `r` times. -/
noncomputable def maskN (k m r : Nat) : Nat :=
  Nat.rec 0 (fun _ acc => Nat.add m (Nat.shiftLeft acc k)) r

theorem maskN_eq (k m r : Nat) : maskN k m r = pkF k r (fun _ => m) := by
  induction r with
  | zero => rw [pkF_zero]; rfl
  | succ r ih =>
    have e : maskN k m (r + 1) = m + (maskN k m r) <<< k := rfl
    rw [e, ih, pkF_succ', Nat.shiftLeft_eq, mul_comm]

/-- The masks and shifts for extending a vector of `len` powers to `n`. -/
noncomputable def mkSteps (k m n : Nat) : Nat → Nat → List (Nat × Nat)
  | 0, _ => []
  | fuel + 1, len => if n ≤ len then [] else
      (maskN k m (min len (n - len)), k * len) :: mkSteps k m n fuel (len + min len (n - len))

/-- The same, passed on evaluated. -/
noncomputable def withSteps (k m n : Nat) (kont : List (Nat × Nat) → Bool) : Nat → Nat →
    (List (Nat × Nat) → List (Nat × Nat)) → Bool
  | 0, _, acc => kont (acc [])
  | fuel + 1, len, acc => bif Nat.ble n len then kont (acc []) else
      forceNat (min len (n - len)) fun r => forceNat (maskN k m r) fun v => forceNat (k * len) fun sh =>
        forceNat (len + r) fun len' =>
          withSteps k m n kont fuel len' (fun l => acc ((v, sh) :: l))

theorem withSteps_eq (k m n : Nat) (kont : List (Nat × Nat) → Bool) (fuel len : Nat)
    (acc : List (Nat × Nat) → List (Nat × Nat)) :
    withSteps k m n kont fuel len acc = kont (acc (mkSteps k m n fuel len)) := by
  induction fuel generalizing len acc with
  | zero => rfl
  | succ fuel ih =>
    rw [withSteps, mkSteps]
    simp only [forceNat_eq]
    by_cases h : n ≤ len
    · have : Nat.ble n len = true := by rw [Nat.ble_eq]; exact h
      rw [this, cond_true, if_pos h]
    · have : Nat.ble n len = false := by
        rw [Bool.eq_false_iff, Ne, Nat.ble_eq]; exact h
      rw [this, cond_false, if_neg h, ih]

/-- The vector of powers of `a` from the vector `v` of the first ones. -/
noncomputable def powVec (s : Nat) (steps : List (Nat × Nat)) : Nat → Nat → Nat :=
  List.rec (fun v _ => v) (fun st _ ih v a =>
    ih (Nat.add v (Nat.shiftLeft (Nat.land (Nat.shiftRight (Nat.mul v a) s) st.1) st.2))
      (Nat.shiftRight (Nat.mul a a) s)) steps

theorem powVec_nil (s v a : Nat) : powVec s [] v a = v := rfl

theorem powVec_cons (s : Nat) (st : Nat × Nat) (l : List (Nat × Nat)) (v a : Nat) :
    powVec s (st :: l) v a =
      powVec s l (v + (((v * a) >>> s) &&& st.1) <<< st.2) ((a * a) >>> s) := rfl

/-- `Σ f e` over a list. -/
noncomputable def sumL {E : Type} (f : E → Nat) (l : List E) : Nat :=
  List.rec 0 (fun e _ acc => Nat.add (f e) acc) l

/-- `Σ f e` over a list in pieces. -/
noncomputable def sumLL {E : Type} (f : E → Nat) (l : List (List E)) : Nat :=
  List.rec 0 (fun c _ acc => Nat.add (sumL f c) acc) l

theorem sumL_cons {E : Type} (f : E → Nat) (e : E) (l : List E) : sumL f (e :: l) = f e + sumL f l :=
  rfl

theorem sumLL_eq {E : Type} (f : E → Nat) (l : List (List E)) : sumLL f l = sumL f l.flatten := by
  induction l with
  | nil => rfl
  | cons c l ih =>
    have e : sumLL f (c :: l) = sumL f c + sumLL f l := rfl
    rw [e, ih, List.flatten_cons]
    induction c with
    | nil => exact Nat.zero_add _
    | cons e c ihc => rw [sumL_cons, List.cons_append, sumL_cons, ← ihc rfl]; ring

/-! ## Accuracy -/

theorem div_close (N s : Nat) : |((N / 2 ^ s : Nat) : ℝ) - (N : ℝ) / 2 ^ s| ≤ 1 ∧
    ((N / 2 ^ s : Nat) : ℝ) ≤ (N : ℝ) / 2 ^ s := by
  have hd' : (0 : ℝ) < 2 ^ s := by positivity
  have h1 : (((N / 2 ^ s : Nat) : ℝ)) ≤ (N : ℝ) / 2 ^ s := by
    have := Nat.cast_div_le (α := ℝ) (m := N) (n := 2 ^ s)
    rwa [Nat.cast_pow, Nat.cast_ofNat] at this
  have h2 : (N : ℝ) / 2 ^ s < ((N / 2 ^ s : Nat) : ℝ) + 1 := by
    rw [div_lt_iff₀ hd']
    have := Nat.lt_div_mul_add (a := N) (b := 2 ^ s) (by positivity)
    have h3 : (N : ℝ) < ((N / 2 ^ s : Nat) : ℝ) * ((2 ^ s : Nat) : ℝ) + ((2 ^ s : Nat) : ℝ) := by
      exact_mod_cast this
    rw [Nat.cast_pow, Nat.cast_ofNat] at h3
    linarith
  refine ⟨?_, h1⟩
  rw [abs_le]; constructor <;> linarith

/-- A fixed-point number in `[0, 1]`. -/
def Fix (s a : Nat) (x e : ℝ) : Prop := a ≤ 2 ^ s ∧ 0 ≤ x ∧ x ≤ 1 ∧ |(a : ℝ) - 2 ^ s * x| ≤ e

theorem Fix.mono {s a : Nat} {x e e' : ℝ} (h : Fix s a x e) (he : e ≤ e') : Fix s a x e' :=
  ⟨h.1, h.2.1, h.2.2.1, h.2.2.2.trans he⟩

/-- The exact product of two of them. -/
theorem fix_mul_close {s a b : Nat} {x y d e : ℝ} (ha : Fix s a x d) (hb : Fix s b y e) :
    |((a * b : Nat) : ℝ) - 2 ^ (2 * s) * (x * y)| ≤ 2 ^ s * (d + e) := by
  obtain ⟨a1, a2, a3, a4⟩ := ha
  obtain ⟨b1, b2, b3, b4⟩ := hb
  have hs : (0 : ℝ) ≤ 2 ^ s := by positivity
  have b1' : (b : ℝ) ≤ 2 ^ s := by exact_mod_cast b1
  have hb0 : (0 : ℝ) ≤ b := by positivity
  have e1 : ((a * b : Nat) : ℝ) - 2 ^ (2 * s) * (x * y) =
      (a - 2 ^ s * x) * b + 2 ^ s * x * (b - 2 ^ s * y) := by
    push_cast
    rw [two_mul, pow_add]; ring
  rw [e1]
  refine (abs_add_le _ _).trans ?_
  rw [abs_mul, abs_mul, abs_mul, abs_of_nonneg hb0, abs_of_nonneg hs, abs_of_nonneg a2]
  have hd : 0 ≤ d := (abs_nonneg _).trans a4
  have he : 0 ≤ e := (abs_nonneg _).trans b4
  calc _ ≤ d * 2 ^ s + 2 ^ s * 1 * e := by gcongr
    _ = _ := by ring

/-- The product, rounded down. -/
theorem fix_mul {s a b : Nat} {x y d e : ℝ} (ha : Fix s a x d) (hb : Fix s b y e) :
    Fix s (a * b / 2 ^ s) (x * y) (d + e + 1) := by
  have h1 := fix_mul_close ha hb
  obtain ⟨a1, a2, a3, a4⟩ := ha
  obtain ⟨b1, b2, b3, b4⟩ := hb
  refine ⟨?_, mul_nonneg a2 b2, mul_le_one₀ a3 b2 b3, ?_⟩
  · exact Nat.div_le_of_le_mul (Nat.mul_le_mul a1 b1)
  · have hp : (0 : ℝ) < 2 ^ s := by positivity
    have h2 := (div_close (a * b) s).1
    have h3 : |((a * b : Nat) : ℝ) / 2 ^ s - 2 ^ s * (x * y)| ≤ d + e := by
      have e2 : ((a * b : Nat) : ℝ) / 2 ^ s - 2 ^ s * (x * y) =
          (((a * b : Nat) : ℝ) - 2 ^ (2 * s) * (x * y)) / 2 ^ s := by
        rw [two_mul, pow_add]; field_simp
      rw [e2, abs_div, abs_of_pos hp, div_le_iff₀ hp]
      linarith
    rw [abs_le] at h2 h3 ⊢
    constructor <;> linarith

/-- The vector holds a sequence that is multiplied by `y` every `m` members. -/
theorem powVec_spec {k s m J : Nat} (hk : 2 * s + 1 ≤ k) (X : Nat → ℝ) (y e : ℝ) (hm : 0 < m)
    (hX : ∀ i r, X (i + m * r) = X i * y ^ r) (fuel : Nat) :
    ∀ (r : Nat) (f : Nat → Nat) (a : Nat), 0 < r → r ≤ J → J ≤ r * 2 ^ fuel →
    (∀ i < m * r, Fix s (f i) (X i) (e + 2 * r - 2)) → Fix s a (y ^ r) (2 * r - 1) →
    ∃ g : Nat → Nat, powVec s (mkSteps k (2 ^ (k - s) - 1) (m * J) fuel (m * r)) (pkF k (m * r) f) a =
      pkF k (m * J) g ∧ ∀ i < m * J, Fix s (g i) (X i) (e + 4 * J) := by
  induction fuel with
  | zero =>
    intro r f a h0 hl hn hf ha
    obtain rfl : r = J := by simp at hn; omega
    refine ⟨f, rfl, fun i hi => (hf i hi).mono ?_⟩
    have : (0 : ℝ) ≤ r := by positivity
    linarith
  | succ fuel ih =>
    intro r f a h0 hl hn hf ha
    rw [mkSteps]
    by_cases h : J ≤ r
    · obtain rfl : r = J := by omega
      rw [if_pos le_rfl]
      refine ⟨f, rfl, fun i hi => (hf i hi).mono ?_⟩
      have : (0 : ℝ) ≤ r := by positivity
      linarith
    · have hlt' : m * r < m * J := Nat.mul_lt_mul_of_pos_left (by omega) hm
      rw [if_neg (by omega), powVec_cons]
      dsimp only
      have hlt : ∀ i < m * r, f i * a < 2 ^ k := by
        intro i hi
        calc f i * a ≤ 2 ^ s * 2 ^ s := Nat.mul_le_mul (hf i hi).1 ha.1
          _ = 2 ^ (2 * s) := by rw [two_mul, pow_add]
          _ < 2 ^ k := Nat.pow_lt_pow_right (by norm_num) (by omega)
      rw [pkF_mul, maskN_eq, pkF_trunc (by omega) (Nat.min_le_left _ _) hlt, Nat.shiftLeft_eq,
        pkF_append, Nat.shiftRight_eq_div_pow]
      have h0R : (1 : ℝ) ≤ r := by exact_mod_cast h0
      have hnew : ∀ i < m * r + min (m * r) (m * J - m * r),
          Fix s (if i < m * r then f i else f (i - m * r) * a / 2 ^ s) (X i) (e + 4 * r - 2) := by
        intro i hi
        split
        · rename_i hi'
          refine (hf i hi').mono ?_
          linarith
        · rename_i hi'
          have h1 := fix_mul (hf (i - m * r) (by omega)) ha
          rw [← hX, Nat.sub_add_cancel (by omega)] at h1
          refine h1.mono ?_
          linarith
      by_cases h2 : 2 * r ≤ J
      · have h3 : 2 * (m * r) ≤ m * J := by
          calc 2 * (m * r) = m * (2 * r) := by ring
            _ ≤ m * J := Nat.mul_le_mul_left _ h2
        have h4 : m * r + m * r = m * (2 * r) := by ring
        rw [Nat.min_eq_left (by omega), h4] at hnew ⊢
        refine ih _ _ _ (by omega) h2 ?_ ?_ ?_
        · calc J ≤ r * 2 ^ (fuel + 1) := hn
            _ = (2 * r) * 2 ^ fuel := by rw [pow_succ]; ring
        · intro i hi
          refine (hnew i hi).mono ?_
          push_cast; linarith
        · have h1 := fix_mul ha ha
          rw [← pow_add, ← two_mul] at h1
          refine h1.mono ?_
          push_cast; linarith
      · have h3 : m * J ≤ 2 * (m * r) := by
          calc m * J ≤ m * (2 * r) := Nat.mul_le_mul_left _ (by omega)
            _ = 2 * (m * r) := by ring
        rw [Nat.min_eq_right (by omega)] at hnew ⊢
        rw [Nat.add_sub_cancel' hlt'.le] at hnew ⊢
        have hst : mkSteps k (2 ^ (k - s) - 1) (m * J) fuel (m * J) = [] := by
          cases fuel with
          | zero => rfl
          | succ _ => rw [mkSteps, if_pos le_rfl]
        rw [hst, powVec_nil]
        refine ⟨_, rfl, fun i hi => (hnew i hi).mono ?_⟩
        have : (r : ℝ) ≤ J := by exact_mod_cast hl
        linarith

/-- The vector of `n` powers starting with 1. -/
theorem powVec_start {k s n fuel : Nat} (hk : 2 * s + 1 ≤ k) (hn : 0 < n) (hf : n ≤ 2 ^ fuel) {a : Nat}
    {x : ℝ} (ha : Fix s a x 1) :
    ∃ g : Nat → Nat, powVec s (mkSteps k (2 ^ (k - s) - 1) n fuel 1) (2 ^ s) a = pkF k n g ∧
      ∀ i < n, Fix s (g i) (x ^ i) (4 * n) := by
  have := powVec_spec (m := 1) (J := n) hk (fun i => x ^ i) x 0 one_pos
      (fun i r => by rw [one_mul, pow_add]) fuel 1 (fun _ => 2 ^ s) a (by omega) hn (by omega) (by
      intro i hi
      obtain rfl : i = 0 := by omega
      refine ⟨le_rfl, by simp, by simp, by simp⟩) (by
      rw [pow_one]
      refine ha.mono (by norm_num))
  simp only [one_mul, zero_add] at this
  rwa [pkF_one] at this

/-! ## Vectors and matrices -/

/-- `V` holds the numbers `x 0, …, x (n - 1)` up to `e` units. -/
def HasVec (k s n V : Nat) (x : Nat → ℝ) (e : ℝ) : Prop :=
  ∃ u : Nat → Nat, V = pkF k n u ∧ ∀ i < n, Fix s (u i) (x i) e

/-- `T` holds for every `(i, j)` a sum of `c` numbers with `q` binary digits, up to `E` units. -/
def HasMat (k q I J c T : Nat) (X : Nat → Nat → ℝ) (E : ℝ) : Prop :=
  ∃ M : Nat → Nat → Nat, T = pkF (k * I) J (fun j => pkF k I (fun i => M i j)) ∧
    ∀ i < I, ∀ j < J, M i j ≤ c * 2 ^ q ∧ |(M i j : ℝ) - 2 ^ q * X i j| ≤ E

theorem two_pow_lt {k s : Nat} (hk : 2 * s + 1 ≤ k) {a b : Nat} (ha : a ≤ 2 ^ s) (hb : b ≤ 2 ^ s) :
    a * b < 2 ^ k := by
  calc a * b ≤ 2 ^ s * 2 ^ s := Nat.mul_le_mul ha hb
    _ = 2 ^ (2 * s) := by rw [two_mul, pow_add]
    _ < 2 ^ k := Nat.pow_lt_pow_right (by norm_num) (by omega)

/-- Multiplying by a number. -/
theorem HasVec.scale {k s n V m : Nat} {x : Nat → ℝ} {e z : ℝ} (hk : 2 * s + 1 ≤ k)
    (h : HasVec k s n V x e) (hm : Fix s m z 1) :
    HasVec k s n (((V * m) >>> s) &&& pkF k n (fun _ => 2 ^ (k - s) - 1)) (fun i => x i * z)
      (e + 2) := by
  obtain ⟨u, rfl, hu⟩ := h
  refine ⟨fun i => u i * m / 2 ^ s, ?_, fun i hi => ?_⟩
  · rw [pkF_mul, pkF_trunc (by omega) le_rfl (fun i hi => two_pow_lt hk (hu i hi).1 hm.1)]
  · exact (fix_mul (hu i hi) hm).mono (by linarith)

/-- A section. -/
theorem HasVec.section {k s n V i0 m : Nat} {x : Nat → ℝ} {e : ℝ} (hk : 2 * s + 1 ≤ k)
    (h : HasVec k s n V x e) (hm : i0 + m ≤ n) :
    HasVec k s m ((V >>> (k * i0)) % 2 ^ (k * m)) (fun i => x (i0 + i)) e := by
  obtain ⟨u, rfl, hu⟩ := h
  refine ⟨fun i => u (i0 + i), ?_, fun i hi => hu _ (by omega)⟩
  refine pkF_section (fun i hi => ?_) hm
  exact lt_of_le_of_lt (hu i hi).1 (Nat.pow_lt_pow_right (by norm_num) (by omega))

/-- Wider slots. -/
theorem HasVec.spread {k s J V : Nat} {y : Nat → ℝ} {e : ℝ} (hk : 2 * s + 1 ≤ k)
    (hV : HasVec k s J V y e) :
    HasVec (k * (J + 1)) s J ((V * pkF (k * J) J (fun _ => 1)) &&&
      pkF (k * (J + 1)) J (fun _ => 2 ^ k - 1)) y e := by
  obtain ⟨v, rfl, hv⟩ := hV
  refine ⟨v, ?_, hv⟩
  exact pkF_spread (fun j hj => lt_of_le_of_lt (hv j hj).1
    (Nat.pow_lt_pow_right (by norm_num) (by omega)))

/-- All products of two vectors. -/
theorem HasVec.outer {k s I J P W : Nat} {x y : Nat → ℝ} {d e : ℝ}
    (hP : HasVec k s I P x d) (hW : HasVec (k * I) s J W y e) :
    HasMat k (2 * s) I J 1 (P * W) (fun i j => x i * y j) (2 ^ s * (d + e)) := by
  obtain ⟨u, rfl, hu⟩ := hP
  obtain ⟨v, rfl, hv⟩ := hW
  refine ⟨fun i j => u i * v j, ?_, fun i hi j hj => ⟨?_, fix_mul_close (hu i hi) (hv j hj)⟩⟩
  · rw [mul_comm, pkF_mul]
    refine pkF_congr (fun j _ => ?_)
    rw [mul_comm, pkF_mul]
  · rw [one_mul, two_mul, pow_add]
    exact Nat.mul_le_mul (hu i hi).1 (hv j hj).1

/-- A vector as a matrix. -/
theorem HasVec.mat {k s I J V : Nat} {x : Nat → ℝ} {e : ℝ} (h : HasVec k s (I * J) V x e) (hI : 0 < I) :
    HasMat k s I J 1 V (fun i j => x (i + I * j)) e := by
  obtain ⟨u, rfl, hu⟩ := h
  refine ⟨fun i j => u (i + I * j), ?_, fun i hi j hj => ?_⟩
  · rw [pkF_nest k I J (fun j i => u (i + I * j)) hI]
    exact pkF_congr (fun t _ => by rw [Nat.mod_add_div])
  · have hlt : i + I * j < I * J := by
      calc i + I * j < I + I * j := by omega
        _ = I * (j + 1) := by ring
        _ ≤ I * J := Nat.mul_le_mul_left _ hj
    rw [one_mul]
    exact ⟨(hu _ hlt).1, (hu _ hlt).2.2.2⟩

theorem HasMat.zero (k q I J : Nat) : HasMat k q I J 0 0 (fun _ _ => 0) 0 := by
  refine ⟨fun _ _ => 0, ?_, fun i _ j _ => by simp⟩
  simp only [pkF, zero_mul, sum_const_zero]

theorem HasMat.add {k q I J c c' T T' : Nat} {X X' : Nat → Nat → ℝ} {E E' : ℝ}
    (h : HasMat k q I J c T X E) (h' : HasMat k q I J c' T' X' E') :
    HasMat k q I J (c + c') (T + T') (fun i j => X i j + X' i j) (E + E') := by
  obtain ⟨M, rfl, hM⟩ := h
  obtain ⟨M', rfl, hM'⟩ := h'
  refine ⟨fun i j => M i j + M' i j, ?_, fun i hi j hj => ?_⟩
  · rw [pkF_add]
    exact pkF_congr (fun j _ => pkF_add _ _ _ _)
  · obtain ⟨b1, b2⟩ := hM i hi j hj
    obtain ⟨c1, c2⟩ := hM' i hi j hj
    constructor
    · rw [add_mul]; exact Nat.add_le_add b1 c1
    · push_cast
      rw [abs_le] at b2 c2 ⊢
      constructor <;> linarith

theorem HasMat.congr {k q I J c T : Nat} {X X' : Nat → Nat → ℝ} {E : ℝ} (h : HasMat k q I J c T X E)
    (hX : ∀ i j, X i j = X' i j) : HasMat k q I J c T X' E := by
  have : X = X' := funext fun i => funext fun j => hX i j
  rwa [← this]

theorem HasMat.mono {k q I J c T : Nat} {X : Nat → Nat → ℝ} {E E' : ℝ} (h : HasMat k q I J c T X E)
    (hE : E ≤ E') : HasMat k q I J c T X E' := by
  obtain ⟨M, h1, h2⟩ := h
  exact ⟨M, h1, fun i hi j hj => ⟨(h2 i hi j hj).1, (h2 i hi j hj).2.trans hE⟩⟩

theorem HasMat.mono_count {k q I J c c' T : Nat} {X : Nat → Nat → ℝ} {E : ℝ}
    (h : HasMat k q I J c T X E) (hc : c ≤ c') : HasMat k q I J c' T X E := by
  obtain ⟨M, h1, h2⟩ := h
  exact ⟨M, h1, fun i hi j hj => ⟨(h2 i hi j hj).1.trans (Nat.mul_le_mul_right _ hc),
    (h2 i hi j hj).2⟩⟩

/-- The sum over a list. -/
theorem HasMat.sum {E : Type} {k q I J c : Nat} {f : E → Nat} {X : E → Nat → Nat → ℝ} {e : ℝ}
    (l : List E) (h : ∀ a ∈ l, HasMat k q I J c (f a) (X a) e) :
    HasMat k q I J (l.length * c) (sumL f l) (fun i j => (l.map (fun a => X a i j)).sum)
      (l.length * e) := by
  induction l with
  | nil =>
    have h0 : sumL f [] = 0 := rfl
    simpa [h0] using HasMat.zero k q I J
  | cons a l ih =>
    have h1 := (h a List.mem_cons_self).add (ih (fun b hb => h b (List.mem_cons_of_mem _ hb)))
    rw [sumL_cons, List.length_cons]
    have e1 : c + l.length * c = (l.length + 1) * c := by ring
    have e2 : e + l.length * e = ((l.length + 1 : Nat) : ℝ) * e := by push_cast; ring
    rw [e1, e2] at h1
    exact h1.congr (fun i j => by rw [List.map_cons, List.sum_cons])

/-! ## Comparing with the expected values -/

/-- `f` holds below `n`. -/
noncomputable def allBelow (f : Nat → Bool) (n : Nat) : Bool :=
  Nat.rec true (fun i ih => and (f i) ih) n

theorem allBelow_iff (f : Nat → Bool) (n : Nat) : allBelow f n = true ↔ ∀ i < n, f i = true := by
  induction n with
  | zero => simp [allBelow]
  | succ n ih =>
    have e : allBelow f (n + 1) = (f n && allBelow f n) := rfl
    rw [e, Bool.and_eq_true, ih]
    constructor
    · rintro ⟨h1, h2⟩ i hi
      rcases Nat.lt_succ_iff_lt_or_eq.1 hi with h | rfl
      · exact h2 i h
      · exact h1
    · intro h
      exact ⟨h n (by omega), fun i hi => h i (by omega)⟩

/-- `|a - b - t| ≤ tol`. -/
def slotOk (tol t a b : Nat) : Bool :=
  and (Nat.ble a (Nat.add (Nat.add b t) tol)) (Nat.ble (Nat.add b t) (Nat.add a tol))

/-- Members `(d i + a, d j + b)` of `P - N` for `i < nI`, `j < nJ` with `c i j` agree with `t i j`. -/
noncomputable def slotsOk (k kI d a b nI nJ tol : Nat) (c : Nat → Nat → Bool) (t : Nat → Nat → Nat)
    (P N : Nat) : Bool :=
  allBelow (fun j =>
    (fun p n => allBelow (fun i => bif c i j then
        slotOk tol (t i j) (Nat.mod (Nat.shiftRight p (Nat.mul k (Nat.add (Nat.mul d i) a))) (Nat.pow 2 k))
          (Nat.mod (Nat.shiftRight n (Nat.mul k (Nat.add (Nat.mul d i) a))) (Nat.pow 2 k))
        else true) nI)
      (Nat.mod (Nat.shiftRight P (Nat.mul kI (Nat.add (Nat.mul d j) b))) (Nat.pow 2 kI))
      (Nat.mod (Nat.shiftRight N (Nat.mul kI (Nat.add (Nat.mul d j) b))) (Nat.pow 2 kI))) nJ

theorem slotsOk_spec {k q I J c1 c2 d a b nI nJ tol : Nat} {c : Nat → Nat → Bool}
    {t : Nat → Nat → Nat} {P N : Nat} {X Y : Nat → Nat → ℝ} {E F : ℝ}
    (h : slotsOk k (k * I) d a b nI nJ tol c t P N = true)
    (hP : HasMat k q I J c1 P X E) (hN : HasMat k q I J c2 N Y F)
    (b1 : c1 * 2 ^ q < 2 ^ k) (b2 : c2 * 2 ^ q < 2 ^ k)
    {i j : Nat} (hi : i < nI) (hj : j < nJ) (hi' : d * i + a < I) (hj' : d * j + b < J)
    (hc : c i j = true) :
    |2 ^ q * (X (d * i + a) (d * j + b) - Y (d * i + a) (d * j + b)) - t i j| ≤ tol + E + F := by
  obtain ⟨MP, hP, hP'⟩ := hP
  obtain ⟨MN, hN, hN'⟩ := hN
  have bP : ∀ i < I, ∀ j < J, MP i j < 2 ^ k := fun i hi j hj => lt_of_le_of_lt (hP' i hi j hj).1 b1
  have bN : ∀ i < I, ∀ j < J, MN i j < 2 ^ k := fun i hi j hj => lt_of_le_of_lt (hN' i hi j hj).1 b2
  unfold slotsOk at h
  rw [allBelow_iff] at h
  have h1 := h j hj
  rw [allBelow_iff] at h1
  have h2 := h1 i hi
  rw [hc, cond_true] at h2
  have read : ∀ (T : Nat) (M : Nat → Nat → Nat), T = pkF (k * I) J (fun j => pkF k I (fun i => M i j)) →
      (∀ i < I, ∀ j < J, M i j < 2 ^ k) →
      Nat.mod (Nat.shiftRight (Nat.mod (Nat.shiftRight T (Nat.mul (k * I) (Nat.add (Nat.mul d j) b)))
        (Nat.pow 2 (k * I))) (Nat.mul k (Nat.add (Nat.mul d i) a))) (Nat.pow 2 k) =
        M (d * i + a) (d * j + b) := by
    intro T M hT hM
    have r : Nat.mod (Nat.shiftRight T (Nat.mul (k * I) (Nat.add (Nat.mul d j) b)))
        (Nat.pow 2 (k * I)) = (T >>> ((k * I) * (d * j + b))) % 2 ^ (k * I) := rfl
    rw [r, hT, pkF_digit (fun j hj => pkF_lt (fun i hi => hM i hi j hj)) hj']
    exact pkF_digit (fun i hi => hM i hi _ hj') hi'
  rw [read P MP hP bP, read N MN hN bN] at h2
  unfold slotOk at h2
  rw [Bool.and_eq_true, Nat.ble_eq, Nat.ble_eq] at h2
  obtain ⟨h3, h4⟩ := h2
  have h3 : MP (d * i + a) (d * j + b) ≤ MN (d * i + a) (d * j + b) + t i j + tol := h3
  have h4 : MN (d * i + a) (d * j + b) + t i j ≤ MP (d * i + a) (d * j + b) + tol := h4
  have hP2 := abs_le.1 (hP' _ hi' _ hj').2
  have hN2 := abs_le.1 (hN' _ hi' _ hj').2
  generalize d * i + a = i' at *
  generalize d * j + b = j' at *
  have h3' : (MP i' j' : ℝ) ≤ MN i' j' + t i j + tol := by exact_mod_cast h3
  have h4' : (MN i' j' + t i j : ℝ) ≤ MP i' j' + tol := by exact_mod_cast h4
  rw [abs_le]
  constructor <;> linarith

/-! ## Setting up -/

/-- What is prepared once: the steps and the mask for `n` powers, the mask of `J` members, and the factor
and the mask for moving `J` members apart. -/
structure MomPrep where
  k : Nat
  s : Nat
  one : Nat
  steps : List (Nat × Nat)
  maskJ : Nat
  rep : Nat
  wide : Nat

/-- Prepares vectors of `n` numbers with `s` binary digits in slots of `k`, and sections of `J`. -/
noncomputable def momPrep (k s n J : Nat) (kont : MomPrep → Bool) : Bool :=
  forceNat (Nat.sub (Nat.pow 2 (Nat.sub k s)) 1) fun m =>
    withSteps k m n (fun st =>
      forceNat (maskN k m J) fun mJ =>
        forceNat (maskN (Nat.mul k J) 1 J) fun r =>
          forceNat (maskN (Nat.mul k (Nat.succ J)) (Nat.sub (Nat.pow 2 k) 1) J) fun w =>
            forceNat (Nat.pow 2 s) fun one => kont ⟨k, s, one, st, mJ, r, w⟩) 7 1 id

/-- What `momPrep` passes on. -/
noncomputable def momPrepOf (k s n J : Nat) : MomPrep :=
  ⟨k, s, 2 ^ s, mkSteps k (2 ^ (k - s) - 1) n 7 1, pkF k J (fun _ => 2 ^ (k - s) - 1),
    pkF (k * J) J (fun _ => 1), pkF (k * (J + 1)) J (fun _ => 2 ^ k - 1)⟩

theorem momPrep_eq (k s n J : Nat) (kont : MomPrep → Bool) :
    momPrep k s n J kont = kont (momPrepOf k s n J) := by
  unfold momPrep
  simp only [forceNat_eq]
  rw [withSteps_eq, maskN_eq, maskN_eq, maskN_eq]
  rfl

/-- The powers of `a`. -/
noncomputable def MomPrep.pow (p : MomPrep) (a : Nat) : Nat := powVec p.s p.steps p.one a

/-- Members `j0, …, j0 + J - 1` of `V` times `m`, moved apart. -/
noncomputable def MomPrep.right (p : MomPrep) (j0 J : Nat) (V m : Nat) : Nat :=
  Nat.land (Nat.mul (Nat.land (Nat.shiftRight (Nat.mul
    (Nat.mod (Nat.shiftRight V (Nat.mul p.k j0)) (Nat.pow 2 (Nat.mul p.k J))) m) p.s) p.maskJ) p.rep)
    p.wide

/-- Members `i0, …, i0 + J` of `V`. -/
noncomputable def MomPrep.left (p : MomPrep) (i0 J : Nat) (V : Nat) : Nat :=
  Nat.mod (Nat.shiftRight V (Nat.mul p.k i0)) (Nat.pow 2 (Nat.mul p.k (Nat.succ J)))

theorem MomPrep.pow_spec {k s n J : Nat} (hk : 2 * s + 1 ≤ k) (hn : 0 < n) (hn' : n ≤ 128) {a : Nat}
    {x : ℝ} (ha : Fix s a x 1) :
    HasVec k s n ((momPrepOf k s n J).pow a) (fun i => x ^ i) (4 * n) :=
  powVec_start hk hn hn' ha

/-- The products of two vectors. -/
theorem MomPrep.prod_spec {k s n i0 j0 J V W m : Nat} (hk : 2 * s + 1 ≤ k) {x y : Nat → ℝ} {z d e : ℝ}
    (hV : HasVec k s n V x d) (hW : HasVec k s n W y e) (hm : Fix s m z 1) (hi : i0 + (J + 1) ≤ n)
    (hj : j0 + J ≤ n) :
    HasMat k (2 * s) (J + 1) J 1 (Nat.mul ((momPrepOf k s n J).left i0 J V) ((momPrepOf k s n J).right j0 J W m))
      (fun i j => x (i0 + i) * (y (j0 + j) * z)) (2 ^ s * (d + (e + 2))) :=
  (hV.section hk hi).outer (((hW.section hk hj).scale hk hm).spread hk)

/-- Rounding a fraction down. -/
theorem fix_div (s N d : Nat) (hd : 0 < d) (h : N ≤ d) :
    Fix s (N * 2 ^ s / d) ((N : ℝ) / d) 1 := by
  have hd' : (0 : ℝ) < d := by exact_mod_cast hd
  have hN : (N : ℝ) ≤ d := by exact_mod_cast h
  refine ⟨?_, by positivity, (div_le_one hd').2 hN, ?_⟩
  · exact Nat.div_le_of_le_mul (Nat.mul_le_mul_right _ h)
  · have h1 : ((N * 2 ^ s / d : Nat) : ℝ) ≤ ((N * 2 ^ s : Nat) : ℝ) / d := Nat.cast_div_le
    have h2 : ((N * 2 ^ s : Nat) : ℝ) / d < ((N * 2 ^ s / d : Nat) : ℝ) + 1 := by
      rw [div_lt_iff₀ hd']
      have := Nat.lt_div_mul_add (a := N * 2 ^ s) hd
      have h3 : ((N * 2 ^ s : Nat) : ℝ) < ((N * 2 ^ s / d : Nat) : ℝ) * d + d := by exact_mod_cast this
      linarith
    have e : ((N * 2 ^ s : Nat) : ℝ) / d = 2 ^ s * ((N : ℝ) / d) := by push_cast; ring
    rw [e] at h1 h2
    rw [abs_le]; constructor <;> linarith

end IntegratorXX
