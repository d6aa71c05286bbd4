import Verif.Model.Womersley.Base
import Verif.Lemmas.IcosaExact

/-!
# Moments of Womersley grids

The points have no symmetry and the weights are equal.  Decoding, the check of the norms, and the
numbers the sums of the monomials `x^i y^j z^c`, `c ≤ 1`, are compared with.
-/

namespace IntegratorXX

open Spec Arith

/-! ## Decoding -/

/-- `woDigits` as the kernel evaluates it best. -/
noncomputable def woDig (b k v : Nat) : List (Nat × Nat × Nat) :=
  Nat.rec (fun _ => []) (fun _ ih v =>
    (Nat.mod v b, Nat.mod (Nat.div v b) b, Nat.mod (Nat.div (Nat.div v b) b) b) ::
      ih (Nat.div (Nat.div (Nat.div v b) b) b)) k v

/-- `woRaw` as the kernel evaluates it best. -/
noncomputable def woPts (b : Nat) (l : List Nat) : Nat → List (List (Nat × Nat × Nat)) :=
  List.rec (fun _ => []) (fun v _ ih n =>
    woDig b (bif Nat.ble n 64 then n else 64) v :: ih (Nat.sub n 64)) l

theorem woDig_eq (b k v : Nat) : woDig b k v = woDigits b k v := by
  induction k generalizing v with
  | zero => rfl
  | succ k ih =>
    have : woDig b (k + 1) v = (v % b, v / b % b, v / b / b % b) :: woDig b k (v / b / b / b) := rfl
    rw [this, ih, woDigits]

theorem woPts_eq (b : Nat) (l : List Nat) (n : Nat) : woPts b l n = woRaw b n l := by
  induction l generalizing n with
  | nil => rfl
  | cons v l ih =>
    have : woPts b (v :: l) n = woDig b (bif Nat.ble n 64 then n else 64) v :: woPts b l (n - 64) := rfl
    rw [this, ih, woRaw, woDig_eq]
    congr 2
    cases h : Nat.ble n 64
    · have : ¬ n ≤ 64 := fun h' => by rw [Nat.ble_eq_true_of_le h'] at h; cases h
      rw [cond_false, min_eq_right (by omega)]
    · have := Nat.le_of_ble_eq_true h
      rw [cond_true, min_eq_left this]

/-! ## The checks -/

/-- The distance of `a` from `t`. -/
noncomputable def woAbs (t a : Nat) : Nat := Bool.rec (Nat.sub t a) (Nat.sub a t) (Nat.ble t a)

/-- Whether a coordinate is negative. -/
noncomputable def woNeg (t a : Nat) : Bool := Bool.rec true false (Nat.ble t a)

def oddB (i : Nat) : Bool := Nat.beq (Nat.mod i 2) 1

/-- A coordinate with 63 binary digits. -/
noncomputable def woFix (t a : Nat) : Nat := Nat.div (Nat.mul (woAbs t a) (Nat.pow 2 63)) t

/-- `2^63 N · mean of x^i y^j z^c`. -/
def woTarget (N : Nat) (c : Bool) (i j : Nat) : Nat :=
  bif c || (oddB i || oddB j) then 0 else
    odf (Nat.div i 2) * odf (Nat.div j 2) * (N * 2 ^ 63) / odf (Nat.div i 2 + Nat.div j 2 + 1)

/-- `p` holds for all members. -/
noncomputable def allL {E : Type} (p : E → Bool) (l : List E) : Bool :=
  List.rec true (fun d _ ih => Bool.rec false ih (p d)) l

/-- `a` and `b` differ by at most `tol`. -/
noncomputable def near (tol a b : Nat) : Bool :=
  Bool.rec false (Nat.ble a (Nat.add b tol)) (Nat.ble b (Nat.add a tol))

/-- The coordinates are at most 1 and the squared norms 1 up to `4·10^-16`. -/
noncomputable def woNorm (g : WoGrid) : Bool :=
  forceNat (Nat.pow 10 g.s) fun t =>
    forceNat (Nat.mul t t) fun tt =>
      forceNat (Nat.div tt 2500000000000000) fun tol =>
        allL (allL fun d =>
          (fun x y z => Bool.rec false (Bool.rec false (Bool.rec false
            (near tol (Nat.add (Nat.mul x x) (Nat.add (Nat.mul y y) (Nat.mul z z))) tt)
            (Nat.ble z t)) (Nat.ble y t)) (Nat.ble x t))
            (woAbs t d.1) (woAbs t d.2.1) (woAbs t d.2.2))
          (woPts (Nat.pow 16 g.h) g.chunks g.npts)

/-! ## Points -/

/-- A coordinate. -/
noncomputable def woReal (t a : Nat) : ℝ := ((a : ℝ) - t) / t

theorem woAbs_real {t a : Nat} (ht : 0 < t) : (woAbs t a : ℝ) / t = |woReal t a| := by
  have ht' : (0 : ℝ) < t := by exact_mod_cast ht
  unfold woAbs woReal
  rw [abs_div, abs_of_pos ht']
  congr 1
  cases h : Nat.ble t a
  · have hlt : a < t := by
      by_contra hc
      rw [Nat.ble_eq_true_of_le (by omega)] at h; cases h
    have : ((Nat.sub t a : Nat) : ℝ) = t - a := Nat.cast_sub hlt.le
    have h2 : (a : ℝ) < t := by exact_mod_cast hlt
    rw [abs_of_neg (by linarith)]
    simp only [this]; ring
  · have hle := Nat.le_of_ble_eq_true h
    have : ((Nat.sub a t : Nat) : ℝ) = a - t := Nat.cast_sub hle
    have h2 : (t : ℝ) ≤ a := by exact_mod_cast hle
    rw [abs_of_nonneg (by linarith)]
    simp only [this]

theorem woNeg_real {t a : Nat} (ht : 0 < t) :
    woReal t a = (if woNeg t a then -1 else 1) * |woReal t a| := by
  have ht' : (0 : ℝ) < t := by exact_mod_cast ht
  unfold woNeg
  cases h : Nat.ble t a
  · have hlt : a < t := by
      by_contra hc
      rw [Nat.ble_eq_true_of_le (by omega)] at h; cases h
    have h2 : (a : ℝ) < t := by exact_mod_cast hlt
    have : woReal t a ≤ 0 := div_nonpos_of_nonpos_of_nonneg (by linarith) ht'.le
    rw [abs_of_nonpos this]
    simp
  · have hle := Nat.le_of_ble_eq_true h
    have h2 : (t : ℝ) ≤ a := by exact_mod_cast hle
    have : 0 ≤ woReal t a := div_nonneg (by linarith) ht'.le
    rw [abs_of_nonneg this]
    simp

theorem oddB_iff (i : Nat) : oddB i = true ↔ i % 2 = 1 := by
  unfold oddB
  rw [Nat.beq_eq]
  rfl

theorem woFix_spec {t a : Nat} (ht : 0 < t) (h : woAbs t a ≤ t) :
    Fix 63 (woFix t a) |woReal t a| 1 := by
  rw [← woAbs_real ht]
  exact fix_div 63 (woAbs t a) t ht h

/-- The coordinates of a point are at most 1. -/
def WoIn (t : Nat) (d : Nat × Nat × Nat) : Prop :=
  woAbs t d.1 ≤ t ∧ woAbs t d.2.1 ≤ t ∧ woAbs t d.2.2 ≤ t

theorem mod_div_block {B i : Nat} (hi : i < B) (j : Nat) : (i + B * j) % B = i ∧ (i + B * j) / B = j :=
  ⟨by rw [Nat.add_mul_mod_self_left, Nat.mod_eq_of_lt hi],
    by rw [Nat.add_mul_div_left _ _ (by omega), Nat.div_eq_of_lt hi, zero_add]⟩

/-! ## Grids -/

/-- The points of a grid as digits. -/
def woAll (g : WoGrid) : List (Nat × Nat × Nat) := (woRaw (16 ^ g.h) g.npts g.chunks).flatten

/-- The sum of a monomial over the points. -/
noncomputable def woSum (g : WoGrid) (i j k : Nat) : ℝ :=
  ((woAll g).map (fun d => woReal (10 ^ g.s) d.1 ^ i * woReal (10 ^ g.s) d.2.1 ^ j *
    woReal (10 ^ g.s) d.2.2 ^ k)).sum

theorem woTarget_close (N : Nat) (i j : Nat) :
    |(woTarget N false (2 * i) (2 * j) : ℝ) - 2 ^ 63 * (N * meanEven i j 0)| ≤ 1 := by
  have ho := odf_pos (i + j + 1)
  have e0 : woTarget N false (2 * i) (2 * j) = odf i * odf j * (N * 2 ^ 63) / odf (i + j + 1) := by
    have h1 : oddB (2 * i) = false := by rw [Bool.eq_false_iff, Ne, oddB_iff]; omega
    have h2 : oddB (2 * j) = false := by rw [Bool.eq_false_iff, Ne, oddB_iff]; omega
    have h3 : Nat.div (2 * i) 2 = i := Nat.mul_div_cancel_left i two_pos
    have h4 : Nat.div (2 * j) 2 = j := Nat.mul_div_cancel_left j two_pos
    unfold woTarget
    rw [h1, h2, h3, h4]
    rfl
  have h1 := floor_close (odf i * odf j * (N * 2 ^ 63)) (odf (i + j + 1)) ho
  have e1 : ((odf i * odf j * (N * 2 ^ 63) : Nat) : ℝ) / ((odf (i + j + 1) : Nat) : ℝ) =
      2 ^ 63 * (N * meanEven i j 0) := by
    unfold meanEven
    rw [show odf 0 = 1 from rfl, add_zero]
    have : (0 : ℝ) < odf (i + j + 1) := by exact_mod_cast ho
    push_cast
    field_simp
    norm_num
  rw [e0, ← e1]
  exact h1

theorem woTarget_zero (N : Nat) (c : Bool) (i j : Nat) (h : i % 2 = 1 ∨ j % 2 = 1 ∨ c = true) :
    woTarget N c i j = 0 := by
  unfold woTarget
  have : (c || (oddB i || oddB j)) = true := by
    rw [Bool.or_eq_true, Bool.or_eq_true, oddB_iff, oddB_iff]; tauto
  rw [this, cond_true]

/-- The expected sum. -/
noncomputable def woMean (c : Bool) (i j : Nat) : ℝ :=
  if i % 2 = 1 ∨ j % 2 = 1 ∨ c = true then 0 else meanEven (i / 2) (j / 2) 0

theorem woTarget_close' (N : Nat) (c : Bool) (i j : Nat) :
    |(woTarget N c i j : ℝ) - 2 ^ 63 * (N * woMean c i j)| ≤ 1 := by
  unfold woMean
  split
  · rw [woTarget_zero N c i j ‹_›]; simp
  · rename_i h
    push Not at h
    obtain ⟨h1, h2, h3⟩ := h
    obtain rfl : c = false := by simpa using h3
    have e1 : i = 2 * (i / 2) := by omega
    have e2 : j = 2 * (j / 2) := by omega
    conv_lhs => rw [e1, e2]
    have := woTarget_close N (i / 2) (j / 2)
    rwa [show 2 * (i / 2) / 2 = i / 2 by omega, show 2 * (j / 2) / 2 = j / 2 by omega]

/-- The digits are those of points in the unit cube. -/
def WoBounded (g : WoGrid) : Prop := ∀ d ∈ woAll g, WoIn (10 ^ g.s) d

end IntegratorXX
