import Verif.Lemmas.Distinct
import Verif.Lemmas.WoCheck
import Verif.Model.WomersleyTables

/-!
# The points of the Womersley grids are distinct

The coordinates are cut into cells.  No two points are in the same cells, and no coordinate is close to the end of a
cell.  Hence two points differ in a coordinate by more than the margin.
-/

namespace IntegratorXX

open Tables

/-- The lowest `k` digits of `v` in base `b` are put in front of a list. -/
noncomputable def keysChunk (b k : Nat) (kont : List Nat → Bool) : Nat → List Nat → Bool :=
  Nat.rec (fun _ acc => kont acc) (fun _ ih v acc =>
    forceNat (Nat.mod v b) fun a => forceNat (Nat.div v b) fun v' => ih v' (a :: acc)) k

/-- The same for all chunks. -/
noncomputable def keysAll (b : Nat) (kont : List Nat → Bool) (l : List Nat) : Nat → List Nat → Bool :=
  List.rec (fun _ acc => kont acc) (fun v _ ih n acc =>
    keysChunk b (bif Nat.ble n 64 then n else 64) (fun acc => forceNat (Nat.sub n 64) fun n' => ih n' acc) v acc) l

/-- Three digits of a number. -/
def threeDigits (b a : Nat) : Nat × Nat × Nat := (a % b, a / b % b, a / b / b % b)

theorem threeDigits_mod (b v : Nat) : threeDigits b (v % (b * (b * b))) = threeDigits b v := by
  unfold threeDigits
  have e1 : v % (b * (b * b)) % b = v % b := Nat.mod_mod_of_dvd _ (Nat.dvd_mul_right _ _)
  have e2 : v % (b * (b * b)) / b = v / b % (b * b) := Nat.mod_mul_right_div_self _ _ _
  have e3 : v / b % (b * b) % b = v / b % b := Nat.mod_mod_of_dvd _ (Nat.dvd_mul_right _ _)
  have e4 : v / b % (b * b) / b = v / b / b % b := Nat.mod_mul_right_div_self _ _ _
  rw [e1, e2, e3, e4, Nat.mod_mod]

theorem threeDigits_inj {b x y : Nat} (hx : x < b * (b * b)) (hy : y < b * (b * b))
    (h : threeDigits b x = threeDigits b y) : x = y := by
  unfold threeDigits at h
  simp only [Prod.mk.injEq] at h
  obtain ⟨h1, h2, h3⟩ := h
  rw [Nat.mod_eq_of_lt (by rw [Nat.div_div_eq_div_mul]; exact Nat.div_lt_of_lt_mul (by rw [Nat.mul_assoc]; exact hx)),
    Nat.mod_eq_of_lt (by rw [Nat.div_div_eq_div_mul]; exact Nat.div_lt_of_lt_mul (by rw [Nat.mul_assoc]; exact hy))] at h3
  have e1 := Nat.div_add_mod (x / b) b
  have e2 := Nat.div_add_mod (y / b) b
  have e3 := Nat.div_add_mod x b
  have e4 := Nat.div_add_mod y b
  rw [h3, h2, e2] at e1
  rw [← e1, h1, e4] at e3
  exact e3.symm

/-- The digits in base `b`. -/
def keyDigits (b : Nat) : Nat → Nat → List Nat
  | 0, _ => []
  | k + 1, v => v % b :: keyDigits b k (v / b)

theorem woDigits_keys (b : Nat) : ∀ k v, woDigits b k v = (keyDigits (b * (b * b)) k v).map (threeDigits b)
  | 0, _ => rfl
  | k + 1, v => by
    rw [woDigits, keyDigits, List.map_cons, threeDigits_mod, woDigits_keys b k]
    congr 2
    rw [Nat.div_div_eq_div_mul, Nat.div_div_eq_div_mul]

/-- The digits of all chunks. -/
def keyRaw (b : Nat) : Nat → List Nat → List Nat
  | _, [] => []
  | n, v :: vs => keyDigits b (min n 64) v ++ keyRaw b (n - 64) vs

theorem woRaw_keys (b : Nat) : ∀ l n, (woRaw b n l).flatten = (keyRaw (b * (b * b)) n l).map (threeDigits b)
  | [], _ => rfl
  | v :: vs, n => by
    rw [woRaw, keyRaw, List.flatten_cons, List.map_append, woDigits_keys, woRaw_keys b vs]

theorem keysChunk_eq (b k : Nat) (kont : List Nat → Bool) : ∀ v acc,
    keysChunk b k kont v acc = kont ((keyDigits b k v).reverse ++ acc) := by
  induction k with
  | zero => intro v acc; rfl
  | succ k ih =>
    intro v acc
    have e : keysChunk b (k + 1) kont v acc = forceNat (Nat.mod v b) fun a => forceNat (Nat.div v b) fun v' =>
      keysChunk b k kont v' (a :: acc) := rfl
    rw [e, forceNat_eq, forceNat_eq, ih, keyDigits, List.reverse_cons, List.append_assoc]
    rfl

theorem keysAll_eq (b : Nat) (kont : List Nat → Bool) (l : List Nat) : ∀ n acc,
    keysAll b kont l n acc = kont ((keyRaw b n l).reverse ++ acc) := by
  induction l with
  | nil => intro n acc; rfl
  | cons v l ih =>
    intro n acc
    have e : keysAll b kont (v :: l) n acc = keysChunk b (bif Nat.ble n 64 then n else 64)
      (fun acc => forceNat (Nat.sub n 64) fun n' => keysAll b kont l n' acc) v acc := rfl
    rw [e, keysChunk_eq, forceNat_eq, ih, keyRaw, List.reverse_append, List.append_assoc]
    have : (bif Nat.ble n 64 then n else 64) = min n 64 := by
      cases h : Nat.ble n 64
      · have : ¬ n ≤ 64 := fun h' => by rw [Nat.ble_eq_true_of_le h'] at h; cases h
        rw [cond_false, min_eq_right (by omega)]
      · have := Nat.le_of_ble_eq_true h
        rw [cond_true, min_eq_left this]
    rw [this]
    rfl

theorem keyDigits_lt {b : Nat} (hb : 0 < b) : ∀ k v, ∀ a ∈ keyDigits b k v, a < b := by
  intro k
  induction k with
  | zero => intro v a h; cases h
  | succ k ih =>
    intro v a h
    rw [keyDigits, List.mem_cons] at h
    rcases h with rfl | h
    · exact Nat.mod_lt _ hb
    · exact ih _ _ h

theorem keyRaw_lt {b : Nat} (hb : 0 < b) : ∀ l n, ∀ a ∈ keyRaw b n l, a < b := by
  intro l
  induction l with
  | nil => intro n a h; cases h
  | cons v l ih =>
    intro n a h
    rw [keyRaw, List.mem_append] at h
    rcases h with h | h
    · exact keyDigits_lt hb _ _ _ h
    · exact ih _ _ h

/-! ## Fields of equal width -/

/-- The number with `j` digits 1 in base `2^w`. -/
def ones (w : Nat) : Nat → Nat
  | 0 => 0
  | j + 1 => 1 + 2 ^ w * ones w j

theorem ones_mul (w j : Nat) : ones w j * (2 ^ w - 1) = 2 ^ (w * j) - 1 := by
  have hp : ∀ k, 1 ≤ 2 ^ k := fun k => Nat.one_le_two_pow
  induction j with
  | zero => simp [ones]
  | succ j ih =>
    have e : 2 ^ (w * (j + 1)) = 2 ^ w * 2 ^ (w * j) := by rw [← pow_add]; congr 1; ring
    rw [ones, Nat.add_mul, Nat.one_mul, Nat.mul_assoc, ih, e, Nat.mul_sub, Nat.mul_one]
    have := hp w
    have := hp (w * j)
    have : 2 ^ w ≤ 2 ^ w * 2 ^ (w * j) := Nat.le_mul_of_pos_right _ (hp _)
    omega

theorem ones_eq {w : Nat} (hw : 0 < w) (j : Nat) : (2 ^ (w * j) - 1) / (2 ^ w - 1) = ones w j := by
  rw [← ones_mul]
  refine Nat.mul_div_cancel _ ?_
  have := Nat.one_lt_two_pow hw.ne'
  omega

theorem land_step (w x y : Nat) : x &&& y = (x % 2 ^ w &&& y % 2 ^ w) + 2 ^ w * (x / 2 ^ w &&& y / 2 ^ w) := by
  rw [← Nat.and_mod_two_pow, ← Nat.and_div_two_pow]
  exact (Nat.mod_add_div _ _).symm

theorem field_split {w c : Nat} (hc : c < 2 ^ w) (j : Nat) :
    ones w (j + 1) * c % 2 ^ w = c ∧ ones w (j + 1) * c / 2 ^ w = ones w j * c := by
  have e : ones w (j + 1) * c = c + 2 ^ w * (ones w j * c) := by rw [ones]; ring
  rw [e]
  constructor
  · rw [Nat.add_mul_mod_self_left, Nat.mod_eq_of_lt hc]
  · rw [Nat.add_mul_div_left _ _ (by positivity), Nat.div_eq_of_lt hc, Nat.zero_add]

/-- The lower bits of each field. -/
def lowBits (w m j v : Nat) : Nat := v &&& ones w j * (2 ^ m - 1)

theorem lowBits_succ {w m : Nat} (hm : m < w) (j v : Nat) :
    lowBits w m (j + 1) v = v % 2 ^ w % 2 ^ m + 2 ^ w * lowBits w m j (v / 2 ^ w) := by
  have hc : 2 ^ m - 1 < 2 ^ w := by
    have := Nat.pow_lt_pow_right (a := 2) (by norm_num) hm
    have : 1 ≤ 2 ^ m := Nat.one_le_two_pow
    omega
  obtain ⟨h1, h2⟩ := field_split hc j
  unfold lowBits
  rw [land_step w, h1, h2, Nat.and_two_pow_sub_one_eq_mod]

/-- The checks that lower bits are at least `2^t` and less than `2^m - 2^t`. -/
def Margins (w m t j l : Nat) : Prop :=
  (l + ones w j * (2 ^ m - 2 ^ t)) &&& (ones w j * 2 ^ m) = ones w j * 2 ^ m ∧
  (l + ones w j * 2 ^ t) &&& (ones w j * 2 ^ m) = 0

theorem land_bit {x m : Nat} (hx : x < 2 ^ (m + 1)) : x &&& 2 ^ m = if 2 ^ m ≤ x then 2 ^ m else 0 := by
  rw [Nat.and_two_pow]
  split_ifs with h
  · obtain ⟨y, rfl⟩ := Nat.exists_eq_add_of_le h
    rw [Nat.testBit_two_pow_add_eq, Nat.testBit_lt_two_pow (by rw [pow_succ] at hx; omega)]
    simp
  · rw [Nat.testBit_lt_two_pow (by omega)]
    simp

theorem margins_succ {w m t : Nat} (hm : m + 1 < w) (ht : t ≤ m) {j d l : Nat} (hd : d < 2 ^ m)
    (h : Margins w m t (j + 1) (d + 2 ^ w * l)) : (2 ^ t ≤ d ∧ d < 2 ^ m - 2 ^ t) ∧ Margins w m t j l := by
  have hw : 2 ^ (m + 1) ≤ 2 ^ w := Nat.pow_le_pow_right (by norm_num) (by omega)
  have htm : 2 ^ t ≤ 2 ^ m := Nat.pow_le_pow_right (by norm_num) ht
  have ht1 : 1 ≤ 2 ^ t := Nat.one_le_two_pow
  have e1 : 2 ^ (m + 1) = 2 * 2 ^ m := by rw [pow_succ]; ring
  have hmw : 2 ^ m < 2 ^ w := by omega
  obtain ⟨f1, f2⟩ := field_split hmw j
  have sum : ∀ c, d + 2 ^ w * l + ones w (j + 1) * c = (d + c) + 2 ^ w * (l + ones w j * c) := by
    intro c
    rw [ones]
    ring
  have part : ∀ c, d + c < 2 ^ (m + 1) → (d + 2 ^ w * l + ones w (j + 1) * c) &&& (ones w (j + 1) * 2 ^ m) =
      (if 2 ^ m ≤ d + c then 2 ^ m else 0) + 2 ^ w * ((l + ones w j * c) &&& (ones w j * 2 ^ m)) := by
    intro c hc
    have hc' : d + c < 2 ^ w := by omega
    rw [land_step w, f1, f2, sum, Nat.add_mul_mod_self_left, Nat.mod_eq_of_lt hc',
      Nat.add_mul_div_left _ _ (by positivity), Nat.div_eq_of_lt hc', Nat.zero_add, land_bit hc]
  obtain ⟨h1, h2⟩ := h
  rw [part _ (by omega)] at h1 h2
  have e2 : ones w (j + 1) * 2 ^ m = 2 ^ m + 2 ^ w * (ones w j * 2 ^ m) := by rw [ones]; ring
  rw [e2] at h1
  have hpos : 0 < 2 ^ w := by positivity
  have hm0 : 0 < 2 ^ m := by positivity
  split_ifs at h1 h2 with g1 g2 g2
  · omega
  · have h3 : 2 ^ w * ((l + ones w j * (2 ^ m - 2 ^ t)) &&& (ones w j * 2 ^ m)) = 2 ^ w * (ones w j * 2 ^ m) := by omega
    have h4 : 2 ^ w * ((l + ones w j * 2 ^ t) &&& (ones w j * 2 ^ m)) = 0 := by omega
    refine ⟨⟨by omega, by omega⟩, Nat.eq_of_mul_eq_mul_left hpos h3, ?_⟩
    rcases Nat.mul_eq_zero.1 h4 with h | h
    · omega
    · exact h
  · omega
  · exfalso
    generalize (l + ones w j * (2 ^ m - 2 ^ t)) &&& (ones w j * 2 ^ m) = A at h1
    generalize ones w j * 2 ^ m = B at h1
    have : (2 ^ w * A) % 2 ^ w = (2 ^ m + 2 ^ w * B) % 2 ^ w := by rw [← h1, Nat.zero_add]
    rw [Nat.mul_mod_right, Nat.add_mul_mod_self_left, Nat.mod_eq_of_lt hmw] at this
    omega

/-- A coordinate away from the ends of its cell. -/
def Inner (m t d : Nat) : Prop := 2 ^ t ≤ d % 2 ^ m ∧ d % 2 ^ m < 2 ^ m - 2 ^ t

/-- The start of the cell. -/
def cellStart (m d : Nat) : Nat := d - d % 2 ^ m

theorem chunk_fields {w m t : Nat} (hm : m + 1 < w) (ht : t ≤ m) : ∀ k v,
    Margins w m t (3 * k) (lowBits w m (3 * k) v) →
    ∀ e ∈ woDigits (2 ^ w) k v, Inner m t e.1 ∧ Inner m t e.2.1 ∧ Inner m t e.2.2 := by
  have one : ∀ j v, Margins w m t (j + 1) (lowBits w m (j + 1) v) →
      Inner m t (v % 2 ^ w) ∧ Margins w m t j (lowBits w m j (v / 2 ^ w)) := by
    intro j v h
    rw [lowBits_succ (by omega)] at h
    exact margins_succ hm ht (Nat.mod_lt _ (by positivity)) h
  intro k
  induction k with
  | zero => intro v _ e he; exact absurd he List.not_mem_nil
  | succ k ih =>
    intro v h e he
    have e3 : 3 * (k + 1) = 3 * k + 1 + 1 + 1 := by ring
    rw [e3] at h
    obtain ⟨a1, a2⟩ := one _ _ h
    obtain ⟨b1, b2⟩ := one _ _ a2
    obtain ⟨c1, c2⟩ := one _ _ b2
    rw [woDigits, List.mem_cons] at he
    rcases he with rfl | he
    · exact ⟨a1, b1, c1⟩
    · exact ih _ c2 e he

/-- A number for the cells of a point. -/
def cellKey (w m a : Nat) : Nat := (a &&& ones w 3 * (2 ^ w - 2 ^ m)) % 2305843009213693921

theorem cell_land {w m d e : Nat} (hm : m < w) (h : cellStart m d = cellStart m e) :
    d &&& (2 ^ w - 2 ^ m) = e &&& (2 ^ w - 2 ^ m) := by
  have hM : (2 ^ w - 2 ^ m) % 2 ^ m = 0 := by
    apply Nat.mod_eq_zero_of_dvd
    exact Nat.dvd_sub (pow_dvd_pow _ hm.le) (dvd_refl _)
  have hd : d / 2 ^ m = e / 2 ^ m := by
    unfold cellStart at h
    have h1 := Nat.div_add_mod d (2 ^ m)
    have h2 := Nat.div_add_mod e (2 ^ m)
    have h3 : 2 ^ m * (d / 2 ^ m) = 2 ^ m * (e / 2 ^ m) := by omega
    exact Nat.eq_of_mul_eq_mul_left (by positivity) h3
  rw [land_step m d, land_step m e, hM, hd, Nat.and_zero, Nat.and_zero]

theorem cellKey_congr {w m a a' : Nat} (hm : m < w)
    (h1 : cellStart m (threeDigits (2 ^ w) a).1 = cellStart m (threeDigits (2 ^ w) a').1)
    (h2 : cellStart m (threeDigits (2 ^ w) a).2.1 = cellStart m (threeDigits (2 ^ w) a').2.1)
    (h3 : cellStart m (threeDigits (2 ^ w) a).2.2 = cellStart m (threeDigits (2 ^ w) a').2.2) :
    cellKey w m a = cellKey w m a' := by
  have hc : 2 ^ w - 2 ^ m < 2 ^ w := by
    have : 1 ≤ 2 ^ m := Nat.one_le_two_pow
    have : 1 ≤ 2 ^ w := Nat.one_le_two_pow
    omega
  have e : ∀ j x, x &&& ones w (j + 1) * (2 ^ w - 2 ^ m) =
      (x % 2 ^ w &&& (2 ^ w - 2 ^ m)) + 2 ^ w * (x / 2 ^ w &&& ones w j * (2 ^ w - 2 ^ m)) := by
    intro j x
    obtain ⟨f1, f2⟩ := field_split hc j
    rw [land_step w, f1, f2]
  have e0 : ∀ x, x &&& ones w 0 * (2 ^ w - 2 ^ m) = 0 := by
    intro x
    rw [ones, Nat.zero_mul, Nat.and_zero]
  unfold threeDigits at h1 h2 h3
  unfold cellKey
  rw [e, e, e, e0, e 2 a', e, e, e0, cell_land hm h1, cell_land hm h2, cell_land hm h3]

/-! ## The check -/

/-- The check of the margins of a chunk of `k` points. -/
noncomputable def cellChunk (w m t k v : Nat) : Bool :=
  forceNat (Nat.div (Nat.sub (Nat.pow 2 (Nat.mul w (Nat.mul 3 k))) 1) (Nat.sub (Nat.pow 2 w) 1)) fun r =>
  forceNat (Nat.land v (Nat.mul r (Nat.sub (Nat.pow 2 m) 1))) fun l =>
  forceNat (Nat.mul r (Nat.pow 2 m)) fun c =>
  Bool.rec false (Nat.beq (Nat.land (Nat.add l (Nat.mul r (Nat.pow 2 t))) c) 0)
    (Nat.beq (Nat.land (Nat.add l (Nat.mul r (Nat.sub (Nat.pow 2 m) (Nat.pow 2 t)))) c) c)

/-- The numbers of the cells of `k` points are put in front of a list. -/
noncomputable def cellKeys (b hm k : Nat) (kont : List Nat → Bool) : Nat → List Nat → Bool :=
  Nat.rec (fun _ acc => kont acc) (fun _ ih v acc =>
    forceNat (Nat.mod (Nat.land (Nat.mod v b) hm) 2305843009213693921) fun a => forceNat (Nat.div v b) fun v' =>
      ih v' (a :: acc)) k

/-- The same for all chunks, with the check of the margins. -/
noncomputable def cellsAll (w m t b hm : Nat) (kont : List Nat → Bool) (l : List Nat) : Nat → List Nat → Bool :=
  List.rec (fun _ acc => kont acc) (fun v _ ih n acc =>
    Bool.rec false (cellKeys b hm (bif Nat.ble n 64 then n else 64)
        (fun acc => forceNat (Nat.sub n 64) fun n' => ih n' acc) v acc)
      (cellChunk w m t (bif Nat.ble n 64 then n else 64) v)) l

/-- The check of a grid: cells of about `2^-12`, margins of `2^-36`. -/
noncomputable def woDistinct (g : WoGrid) : Bool :=
  forceNat (Nat.mul 4 g.h) fun w => forceNat (Nat.sub (Nat.log2 (Nat.pow 10 g.s)) 11) fun m =>
  forceNat (Nat.sub m 24) fun t => forceNat (Nat.pow 2 (Nat.mul w 3)) fun b =>
  forceNat (Nat.mul (ones w 3) (Nat.sub (Nat.pow 2 w) (Nat.pow 2 m))) fun hm =>
  Bool.rec false (Bool.rec false (cellsAll w m t b hm (distinctNat 6) g.chunks g.npts [])
    (Nat.ble (Nat.add m 2) w)) (Nat.ble 24 m)

/-- The check of the grid with coordinates 0 and 1 only. -/
noncomputable def woDistinct0 (g : WoGrid) : Bool :=
  Bool.rec false (keysAll (Nat.pow 2 (Nat.mul (Nat.mul 4 g.h) 3)) (distinctNat 6) g.chunks g.npts []) (Nat.beq g.s 0)

theorem cellChunk_true {w m t k v : Nat} (hw : 0 < w) (h : cellChunk w m t k v = true) :
    Margins w m t (3 * k) (lowBits w m (3 * k) v) := by
  have e : cellChunk w m t k v = Bool.rec false
      (Nat.beq ((lowBits w m (3 * k) v + ones w (3 * k) * 2 ^ t) &&& (ones w (3 * k) * 2 ^ m)) 0)
      (Nat.beq ((lowBits w m (3 * k) v + ones w (3 * k) * (2 ^ m - 2 ^ t)) &&& (ones w (3 * k) * 2 ^ m))
        (ones w (3 * k) * 2 ^ m)) := by
    unfold cellChunk
    simp only [forceNat_eq]
    unfold lowBits
    rw [← ones_eq hw]
    rfl
  rw [e] at h
  cases h1 : Nat.beq ((lowBits w m (3 * k) v + ones w (3 * k) * (2 ^ m - 2 ^ t)) &&& (ones w (3 * k) * 2 ^ m))
      (ones w (3 * k) * 2 ^ m) with
  | false => rw [h1] at h; cases h
  | true =>
    rw [h1] at h
    exact ⟨Nat.eq_of_beq_eq_true h1, Nat.eq_of_beq_eq_true h⟩

theorem cellKeys_eq (w m k : Nat) (kont : List Nat → Bool) : ∀ v acc,
    cellKeys (2 ^ (w * 3)) (ones w 3 * (2 ^ w - 2 ^ m)) k kont v acc =
      kont (((keyDigits (2 ^ (w * 3)) k v).map (cellKey w m)).reverse ++ acc) := by
  induction k with
  | zero => intro v acc; rfl
  | succ k ih =>
    intro v acc
    have e : cellKeys (2 ^ (w * 3)) (ones w 3 * (2 ^ w - 2 ^ m)) (k + 1) kont v acc =
      forceNat (cellKey w m (v % 2 ^ (w * 3))) fun a => forceNat (Nat.div v (2 ^ (w * 3))) fun v' =>
        cellKeys (2 ^ (w * 3)) (ones w 3 * (2 ^ w - 2 ^ m)) k kont v' (a :: acc) := rfl
    rw [e, forceNat_eq, forceNat_eq, ih, keyDigits, List.map_cons, List.reverse_cons, List.append_assoc]
    rfl

/-- The point with the starts of the cells. -/
def cellPt (m : Nat) (e : Nat × Nat × Nat) : Nat × Nat × Nat :=
  (cellStart m e.1, cellStart m e.2.1, cellStart m e.2.2)

/-- All coordinates are away from the ends of their cells. -/
def InnerPt (m t : Nat) (e : Nat × Nat × Nat) : Prop := Inner m t e.1 ∧ Inner m t e.2.1 ∧ Inner m t e.2.2

theorem cellsAll_true {w m t : Nat} (hm : m + 1 < w) (ht : t ≤ m) {kont : List Nat → Bool} (l : List Nat) : ∀ n acc,
    cellsAll w m t (2 ^ (w * 3)) (ones w 3 * (2 ^ w - 2 ^ m)) kont l n acc = true →
      kont (((keyRaw (2 ^ (w * 3)) n l).map (cellKey w m)).reverse ++ acc) = true ∧
      ∀ e ∈ (woRaw (2 ^ w) n l).flatten, InnerPt m t e := by
  induction l with
  | nil => intro n acc h; exact ⟨h, fun e he => absurd he List.not_mem_nil⟩
  | cons v l ih =>
    intro n acc h
    have hmin : (bif Nat.ble n 64 then n else 64) = min n 64 := by
      cases h : Nat.ble n 64
      · have : ¬ n ≤ 64 := fun h' => by rw [Nat.ble_eq_true_of_le h'] at h; cases h
        rw [cond_false, min_eq_right (by omega)]
      · have := Nat.le_of_ble_eq_true h
        rw [cond_true, min_eq_left this]
    have e : cellsAll w m t (2 ^ (w * 3)) (ones w 3 * (2 ^ w - 2 ^ m)) kont (v :: l) n acc =
      Bool.rec false (cellKeys (2 ^ (w * 3)) (ones w 3 * (2 ^ w - 2 ^ m)) (bif Nat.ble n 64 then n else 64)
        (fun acc => forceNat (Nat.sub n 64) fun n' =>
          cellsAll w m t (2 ^ (w * 3)) (ones w 3 * (2 ^ w - 2 ^ m)) kont l n' acc) v acc)
      (cellChunk w m t (bif Nat.ble n 64 then n else 64) v) := rfl
    rw [e, hmin] at h
    cases h1 : cellChunk w m t (min n 64) v with
    | false => rw [h1] at h; cases h
    | true =>
      rw [h1] at h
      have h2 : cellKeys (2 ^ (w * 3)) (ones w 3 * (2 ^ w - 2 ^ m)) (min n 64)
        (fun acc => forceNat (Nat.sub n 64) fun n' =>
          cellsAll w m t (2 ^ (w * 3)) (ones w 3 * (2 ^ w - 2 ^ m)) kont l n' acc) v acc = true := h
      rw [cellKeys_eq, forceNat_eq] at h2
      obtain ⟨k1, k3⟩ := ih _ _ h2
      have f1 := chunk_fields hm ht _ _ (cellChunk_true (by omega) h1)
      constructor
      · rw [keyRaw, List.map_append, List.reverse_append, List.append_assoc]
        exact k1
      · intro e he
        rw [woRaw, List.flatten_cons, List.mem_append] at he
        rcases he with he | he
        · exact f1 e he
        · exact k3 e he

/-- Two points differ in a coordinate by at least `D` units. -/
def UnitsApart (D : Nat) (d e : Nat × Nat × Nat) : Prop :=
  (d.1 + D ≤ e.1 ∨ e.1 + D ≤ d.1) ∨ (d.2.1 + D ≤ e.2.1 ∨ e.2.1 + D ≤ d.2.1) ∨
    (d.2.2 + D ≤ e.2.2 ∨ e.2.2 + D ≤ d.2.2)

theorem inner_apart {m t a b : Nat} (ha : Inner m t a) (hb : Inner m t b) (h : cellStart m a ≠ cellStart m b) :
    a + 2 ^ t ≤ b ∨ b + 2 ^ t ≤ a := by
  obtain ⟨a1, a2⟩ := ha
  obtain ⟨b1, b2⟩ := hb
  unfold cellStart at h
  have ea := Nat.div_add_mod a (2 ^ m)
  have eb := Nat.div_add_mod b (2 ^ m)
  obtain ⟨p, hp⟩ : ∃ p, p = a / 2 ^ m := ⟨_, rfl⟩
  obtain ⟨q, hq⟩ : ∃ q, q = b / 2 ^ m := ⟨_, rfl⟩
  rw [← hp] at ea
  rw [← hq] at eb
  have hpq : p ≠ q := by
    rintro rfl
    apply h
    omega
  rcases Nat.lt_or_gt_of_ne hpq with hlt | hlt
  · left
    have : 2 ^ m * (p + 1) ≤ 2 ^ m * q := Nat.mul_le_mul_left _ hlt
    rw [Nat.mul_add, Nat.mul_one] at this
    omega
  · right
    have : 2 ^ m * (q + 1) ≤ 2 ^ m * p := Nat.mul_le_mul_left _ hlt
    rw [Nat.mul_add, Nat.mul_one] at this
    omega

theorem innerPt_apart {m t : Nat} {d e : Nat × Nat × Nat} (hd : InnerPt m t d) (he : InnerPt m t e)
    (h : cellPt m d ≠ cellPt m e) : UnitsApart (2 ^ t) d e := by
  by_cases h1 : cellStart m d.1 = cellStart m e.1
  · by_cases h2 : cellStart m d.2.1 = cellStart m e.2.1
    · by_cases h3 : cellStart m d.2.2 = cellStart m e.2.2
      · exact absurd (Prod.ext h1 (Prod.ext h2 h3)) h
      · exact .inr (.inr (inner_apart hd.2.2 he.2.2 h3))
    · exact .inr (.inl (inner_apart hd.2.1 he.2.1 h2))
  · exact .inl (inner_apart hd.1 he.1 h1)

/-- What the check shows. -/
theorem woDistinct_apart {g : WoGrid} (h : woDistinct g = true) :
    ∃ t, 10 ^ g.s ≤ 2 ^ (t + 36) ∧ (woAll g).Pairwise (UnitsApart (2 ^ t)) := by
  obtain ⟨w, hw⟩ : ∃ w, w = 4 * g.h := ⟨_, rfl⟩
  obtain ⟨m, hm⟩ : ∃ m, m = Nat.log2 (10 ^ g.s) - 11 := ⟨_, rfl⟩
  have e : woDistinct g = Bool.rec false (Bool.rec false
      (cellsAll w m (m - 24) (2 ^ (w * 3)) (ones w 3 * (2 ^ w - 2 ^ m)) (distinctNat 6) g.chunks g.npts [])
      (Nat.ble (m + 2) w)) (Nat.ble 24 m) := by
    unfold woDistinct
    simp only [forceNat_eq]
    rw [hw, hm]
    rfl
  rw [e] at h
  cases h1 : Nat.ble 24 m with
  | false => rw [h1] at h; cases h
  | true =>
    rw [h1] at h
    have m24 := Nat.le_of_ble_eq_true h1
    cases h2 : Nat.ble (m + 2) w with
    | false => rw [h2] at h; cases h
    | true =>
      rw [h2] at h
      have hmw := Nat.le_of_ble_eq_true h2
      obtain ⟨k1, k3⟩ := cellsAll_true (by omega) (by omega) _ _ _ h
      rw [List.append_nil] at k1
      have hn := distinctNat_nodup _ _ k1
      rw [List.nodup_reverse, List.Nodup, List.pairwise_map] at hn
      refine ⟨m - 24, ?_, ?_⟩
      · have hs : m - 24 + 36 = Nat.log2 (10 ^ g.s) + 1 := by omega
        rw [hs]
        exact Nat.lt_log2_self.le
      · have hb : 2 ^ (w * 3) = 2 ^ w * (2 ^ w * 2 ^ w) := by rw [← pow_add, ← pow_add]; congr 1; ring
        have h16 : 16 ^ g.h = 2 ^ w := by rw [hw, pow_mul]; norm_num
        unfold woAll
        rw [h16]
        have h3 : (woRaw (2 ^ w) g.npts g.chunks).flatten.Pairwise (fun d e => cellPt m d ≠ cellPt m e) := by
          rw [woRaw_keys, ← hb, List.pairwise_map]
          refine hn.imp (fun {x y} hne he => hne ?_)
          unfold cellPt at he
          injection he with h1 he
          injection he with h2 h3
          exact cellKey_congr (by omega) h1 h2 h3
        exact h3.imp_of_mem (fun {d e} hd he hne => innerPt_apart (k3 d hd) (k3 e he) hne)

/-- The same for the grid with coordinates 0 and 1 only. -/
theorem woDistinct0_apart {g : WoGrid} (h : woDistinct0 g = true) :
    g.s = 0 ∧ (woAll g).Pairwise (UnitsApart 1) := by
  unfold woDistinct0 at h
  cases hs : Nat.beq g.s 0 with
  | false => rw [hs] at h; cases h
  | true =>
    rw [hs] at h
    refine ⟨Nat.eq_of_beq_eq_true hs, ?_⟩
    have hb : 2 ^ (4 * g.h * 3) = 16 ^ g.h * (16 ^ g.h * 16 ^ g.h) := by
      have : (16 : Nat) = 2 ^ 4 := rfl
      rw [this, ← pow_mul, ← pow_add, ← pow_add]; congr 1; ring
    have h' : keysAll (2 ^ (4 * g.h * 3)) (distinctNat 6) g.chunks g.npts [] = true := h
    rw [keysAll_eq, List.append_nil, hb] at h'
    have hn := distinctNat_nodup _ _ h'
    rw [List.nodup_reverse] at hn
    have h3 := List.Nodup.map_on (f := threeDigits (16 ^ g.h)) (fun x hx y hy he =>
      threeDigits_inj (keyRaw_lt (by positivity) _ _ x hx) (keyRaw_lt (by positivity) _ _ y hy) he) hn
    unfold woAll
    rw [woRaw_keys]
    refine h3.imp (fun {d e} hne => ?_)
    by_contra hc
    apply hne
    unfold UnitsApart at hc
    exact Prod.ext (by omega) (Prod.ext (by omega) (by omega))

end IntegratorXX
