import Verif.Lemmas.DistinctWo1
import Verif.Lemmas.DistinctWo2
import Verif.Lemmas.DistinctIcosa
import Verif.Lemmas.AngularGrids

/-!
# The points of every angular grid are distinct
-/

set_option maxRecDepth 20000

namespace IntegratorXX

open Arith Tables Spec

theorem woGrids_distinct : ∀ e ∈ woGrids, woDistinct e.2 = true ∨ woDistinct0 e.2 = true := by
  unfold woGrids
  refine List.forall_mem_cons.2 ⟨.inl woDistinct3, ?_⟩
  refine List.forall_mem_cons.2 ⟨.inr woDistinct6, ?_⟩
  refine List.forall_mem_cons.2 ⟨.inl woDistinct8, ?_⟩
  refine List.forall_mem_cons.2 ⟨.inl woDistinct14, ?_⟩
  refine List.forall_mem_cons.2 ⟨.inl woDistinct18, ?_⟩
  refine List.forall_mem_cons.2 ⟨.inl woDistinct26, ?_⟩
  refine List.forall_mem_cons.2 ⟨.inl woDistinct32, ?_⟩
  refine List.forall_mem_cons.2 ⟨.inl woDistinct42, ?_⟩
  refine List.forall_mem_cons.2 ⟨.inl woDistinct50, ?_⟩
  refine List.forall_mem_cons.2 ⟨.inl woDistinct62, ?_⟩
  refine List.forall_mem_cons.2 ⟨.inl woDistinct72, ?_⟩
  refine List.forall_mem_cons.2 ⟨.inl woDistinct86, ?_⟩
  refine List.forall_mem_cons.2 ⟨.inl woDistinct98, ?_⟩
  refine List.forall_mem_cons.2 ⟨.inl woDistinct114, ?_⟩
  refine List.forall_mem_cons.2 ⟨.inl woDistinct128, ?_⟩
  refine List.forall_mem_cons.2 ⟨.inl woDistinct146, ?_⟩
  refine List.forall_mem_cons.2 ⟨.inl woDistinct163, ?_⟩
  refine List.forall_mem_cons.2 ⟨.inl woDistinct182, ?_⟩
  refine List.forall_mem_cons.2 ⟨.inl woDistinct201, ?_⟩
  refine List.forall_mem_cons.2 ⟨.inl woDistinct222, ?_⟩
  refine List.forall_mem_cons.2 ⟨.inl woDistinct243, ?_⟩
  refine List.forall_mem_cons.2 ⟨.inl woDistinct266, ?_⟩
  refine List.forall_mem_cons.2 ⟨.inl woDistinct289, ?_⟩
  refine List.forall_mem_cons.2 ⟨.inl woDistinct314, ?_⟩
  refine List.forall_mem_cons.2 ⟨.inl woDistinct339, ?_⟩
  refine List.forall_mem_cons.2 ⟨.inl woDistinct366, ?_⟩
  refine List.forall_mem_cons.2 ⟨.inl woDistinct393, ?_⟩
  refine List.forall_mem_cons.2 ⟨.inl woDistinct422, ?_⟩
  refine List.forall_mem_cons.2 ⟨.inl woDistinct451, ?_⟩
  refine List.forall_mem_cons.2 ⟨.inl woDistinct482, ?_⟩
  refine List.forall_mem_cons.2 ⟨.inl woDistinct513, ?_⟩
  refine List.forall_mem_cons.2 ⟨.inl woDistinct546, ?_⟩
  refine List.forall_mem_cons.2 ⟨.inl woDistinct579, ?_⟩
  refine List.forall_mem_cons.2 ⟨.inl woDistinct614, ?_⟩
  refine List.forall_mem_cons.2 ⟨.inl woDistinct649, ?_⟩
  refine List.forall_mem_cons.2 ⟨.inl woDistinct686, ?_⟩
  refine List.forall_mem_cons.2 ⟨.inl woDistinct723, ?_⟩
  refine List.forall_mem_cons.2 ⟨.inl woDistinct762, ?_⟩
  refine List.forall_mem_cons.2 ⟨.inl woDistinct801, ?_⟩
  refine List.forall_mem_cons.2 ⟨.inl woDistinct842, ?_⟩
  refine List.forall_mem_cons.2 ⟨.inl woDistinct883, ?_⟩
  refine List.forall_mem_cons.2 ⟨.inl woDistinct926, ?_⟩
  refine List.forall_mem_cons.2 ⟨.inl woDistinct969, ?_⟩
  refine List.forall_mem_cons.2 ⟨.inl woDistinct1014, ?_⟩
  refine List.forall_mem_cons.2 ⟨.inl woDistinct1059, ?_⟩
  refine List.forall_mem_cons.2 ⟨.inl woDistinct1106, ?_⟩
  refine List.forall_mem_cons.2 ⟨.inl woDistinct1153, ?_⟩
  refine List.forall_mem_cons.2 ⟨.inl woDistinct1202, ?_⟩
  refine List.forall_mem_cons.2 ⟨.inl woDistinct1251, ?_⟩
  refine List.forall_mem_cons.2 ⟨.inl woDistinct1302, ?_⟩
  refine List.forall_mem_cons.2 ⟨.inl woDistinct1353, ?_⟩
  refine List.forall_mem_cons.2 ⟨.inl woDistinct1406, ?_⟩
  refine List.forall_mem_cons.2 ⟨.inl woDistinct1459, ?_⟩
  refine List.forall_mem_cons.2 ⟨.inl woDistinct1514, ?_⟩
  refine List.forall_mem_cons.2 ⟨.inl woDistinct1569, ?_⟩
  refine List.forall_mem_cons.2 ⟨.inl woDistinct1626, ?_⟩
  refine List.forall_mem_cons.2 ⟨.inl woDistinct1683, ?_⟩
  refine List.forall_mem_cons.2 ⟨.inl woDistinct1742, ?_⟩
  refine List.forall_mem_cons.2 ⟨.inl woDistinct1801, ?_⟩
  refine List.forall_mem_cons.2 ⟨.inl woDistinct1862, ?_⟩
  refine List.forall_mem_cons.2 ⟨.inl woDistinct1923, ?_⟩
  refine List.forall_mem_cons.2 ⟨.inl woDistinct1986, ?_⟩
  refine List.forall_mem_cons.2 ⟨.inl woDistinct2049, ?_⟩
  refine List.forall_mem_cons.2 ⟨.inl woDistinct2114, ?_⟩
  refine List.forall_mem_cons.2 ⟨.inl woDistinct2179, ?_⟩
  refine List.forall_mem_cons.2 ⟨.inl woDistinct2246, ?_⟩
  refine List.forall_mem_cons.2 ⟨.inl woDistinct2313, ?_⟩
  refine List.forall_mem_cons.2 ⟨.inl woDistinct2382, ?_⟩
  refine List.forall_mem_cons.2 ⟨.inl woDistinct2451, ?_⟩
  refine List.forall_mem_cons.2 ⟨.inl woDistinct2522, ?_⟩
  refine List.forall_mem_cons.2 ⟨.inl woDistinct2593, ?_⟩
  refine List.forall_mem_cons.2 ⟨.inl woDistinct2666, ?_⟩
  refine List.forall_mem_cons.2 ⟨.inl woDistinct2739, ?_⟩
  refine List.forall_mem_cons.2 ⟨.inl woDistinct2814, ?_⟩
  refine List.forall_mem_cons.2 ⟨.inl woDistinct2889, ?_⟩
  refine List.forall_mem_cons.2 ⟨.inl woDistinct2966, ?_⟩
  refine List.forall_mem_cons.2 ⟨.inl woDistinct3043, ?_⟩
  refine List.forall_mem_cons.2 ⟨.inl woDistinct3122, ?_⟩
  refine List.forall_mem_cons.2 ⟨.inl woDistinct3201, ?_⟩
  refine List.forall_mem_cons.2 ⟨.inl woDistinct3282, ?_⟩
  refine List.forall_mem_cons.2 ⟨.inl woDistinct3363, ?_⟩
  refine List.forall_mem_cons.2 ⟨.inl woDistinct3446, ?_⟩
  refine List.forall_mem_cons.2 ⟨.inl woDistinct3529, ?_⟩
  refine List.forall_mem_cons.2 ⟨.inl woDistinct3614, ?_⟩
  refine List.forall_mem_cons.2 ⟨.inl woDistinct3699, ?_⟩
  refine List.forall_mem_cons.2 ⟨.inl woDistinct3786, ?_⟩
  refine List.forall_mem_cons.2 ⟨.inl woDistinct3873, ?_⟩
  refine List.forall_mem_cons.2 ⟨.inl woDistinct3962, ?_⟩
  refine List.forall_mem_cons.2 ⟨.inl woDistinct4051, ?_⟩
  refine List.forall_mem_cons.2 ⟨.inl woDistinct4142, ?_⟩
  refine List.forall_mem_cons.2 ⟨.inl woDistinct4233, ?_⟩
  refine List.forall_mem_cons.2 ⟨.inl woDistinct4326, ?_⟩
  refine List.forall_mem_cons.2 ⟨.inl woDistinct4419, ?_⟩
  refine List.forall_mem_cons.2 ⟨.inl woDistinct4514, ?_⟩
  refine List.forall_mem_cons.2 ⟨.inl woDistinct4609, ?_⟩
  refine List.forall_mem_cons.2 ⟨.inl woDistinct4706, ?_⟩
  refine List.forall_mem_cons.2 ⟨.inl woDistinct4803, ?_⟩
  refine List.forall_mem_cons.2 ⟨.inl woDistinct4902, ?_⟩
  refine List.forall_mem_cons.2 ⟨.inl woDistinct5001, ?_⟩
  refine List.forall_mem_cons.2 ⟨.inl woDistinct5102, ?_⟩
  refine List.forall_mem_cons.2 ⟨.inl woDistinct5203, ?_⟩
  refine List.forall_mem_cons.2 ⟨.inl woDistinct5306, ?_⟩
  refine List.forall_mem_cons.2 ⟨.inl woDistinct5409, ?_⟩
  refine List.forall_mem_cons.2 ⟨.inl woDistinct5514, ?_⟩
  refine List.forall_mem_cons.2 ⟨.inl woDistinct5619, ?_⟩
  refine List.forall_mem_cons.2 ⟨.inl woDistinct5726, ?_⟩
  refine List.forall_mem_cons.2 ⟨.inl woDistinct5833, ?_⟩
  refine List.forall_mem_cons.2 ⟨.inl woDistinct5942, ?_⟩
  refine List.forall_mem_cons.2 ⟨.inl woDistinct6051, ?_⟩
  refine List.forall_mem_cons.2 ⟨.inl woDistinct6162, ?_⟩
  refine List.forall_mem_cons.2 ⟨.inl woDistinct6273, ?_⟩
  refine List.forall_mem_cons.2 ⟨.inl woDistinct6386, ?_⟩
  refine List.forall_mem_cons.2 ⟨.inl woDistinct6499, ?_⟩
  refine List.forall_mem_cons.2 ⟨.inl woDistinct6614, ?_⟩
  refine List.forall_mem_cons.2 ⟨.inl woDistinct6729, ?_⟩
  refine List.forall_mem_cons.2 ⟨.inl woDistinct6846, ?_⟩
  refine List.forall_mem_cons.2 ⟨.inl woDistinct6963, ?_⟩
  refine List.forall_mem_cons.2 ⟨.inl woDistinct7082, ?_⟩
  refine List.forall_mem_cons.2 ⟨.inl woDistinct7201, ?_⟩
  refine List.forall_mem_cons.2 ⟨.inl woDistinct7322, ?_⟩
  refine List.forall_mem_cons.2 ⟨.inl woDistinct7443, ?_⟩
  refine List.forall_mem_cons.2 ⟨.inl woDistinct7566, ?_⟩
  refine List.forall_mem_cons.2 ⟨.inl woDistinct7689, ?_⟩
  refine List.forall_mem_cons.2 ⟨.inl woDistinct7814, ?_⟩
  refine List.forall_mem_cons.2 ⟨.inl woDistinct7939, ?_⟩
  exact fun e he => absurd he List.not_mem_nil

theorem woPoint_apart {s D : Nat} (hD : (2⁻¹ : ℝ) ^ 36 ≤ D / 10 ^ s) {d e : Nat × Nat × Nat} (h : UnitsApart D d e) :
    PtApart (2⁻¹ ^ 36) (woPoint s d : Pt ℝ) (woPoint s e) := by
  have key : ∀ a b : Nat, a + D ≤ b ∨ b + D ≤ a →
      (2⁻¹ : ℝ) ^ 36 ≤ |(decimal s ((a : Int) - 10 ^ s) : ℝ) - decimal s ((b : Int) - 10 ^ s)| := by
    intro a b h
    show _ ≤ |(((((a : Int) - 10 ^ s : Int) : Rat) / 10 ^ s : Rat) : ℝ) - (((((b : Int) - 10 ^ s : Int) : Rat) / 10 ^ s : Rat) : ℝ)|
    push_cast
    rw [← sub_div, abs_div, abs_of_pos (by positivity : (0 : ℝ) < 10 ^ s)]
    refine le_trans hD ?_
    gcongr
    rw [le_abs]
    rcases h with h | h
    · right
      have : ((a + D : Nat) : ℝ) ≤ b := by exact_mod_cast h
      push_cast at this
      linarith
    · left
      have : ((b + D : Nat) : ℝ) ≤ a := by exact_mod_cast h
      push_cast at this
      linarith
  rcases h with h | h | h
  · exact .inl (key _ _ h)
  · exact .inr (.inl (key _ _ h))
  · exact .inr (.inr (key _ _ h))

theorem wo_apart {g : WoGrid} (h : woDistinct g = true ∨ woDistinct0 g = true) :
    (woGrid g : StaticGrid ℝ).points.Pairwise (PtApart (2⁻¹ ^ 36)) := by
  show ((woAll g).map (woPoint g.s)).Pairwise _
  rw [List.pairwise_map]
  rcases h with h | h
  · obtain ⟨t, ht, hp⟩ := woDistinct_apart h
    refine hp.imp (fun h => woPoint_apart ?_ h)
    rw [le_div_iff₀ (by positivity)]
    have h1 : ((10 : ℝ) ^ g.s) ≤ 2 ^ (t + 36) := by exact_mod_cast ht
    rw [pow_add] at h1
    push_cast
    calc (2⁻¹ : ℝ) ^ 36 * 10 ^ g.s ≤ 2⁻¹ ^ 36 * (2 ^ t * 2 ^ 36) := by gcongr
      _ = 2 ^ t := by rw [inv_pow]; field_simp
  · obtain ⟨hs, hp⟩ := woDistinct0_apart h
    refine hp.imp (fun h => woPoint_apart ?_ h)
    rw [hs]
    norm_num

/-- Two points of an angular grid differ by `2^-36` in a coordinate. -/
theorem angData_apart (fam : AngFam) (n : Nat) (h : fam.orderByNpts n ≠ -1) :
    (angData ℝ fam n).points.Pairwise (PtApart (2⁻¹ ^ 36)) := by
  rcases angData_supported ℝ fam n h with ⟨rfl, rows, hm, e⟩ | ⟨rfl, rows, hm, e⟩ | ⟨rfl, g, hm, e⟩ | ⟨rfl, g, hm, e⟩
  · rw [e]; exact octa_apart llPattern_proper (llGrids_distinct _ hm)
  · rw [e]; exact octa_apart dePattern_proper (deGrids_distinct _ hm)
  · rw [e]; exact icosa_apart (abGrids_distinct _ hm)
  · rw [e]
    have hd := woGrids_distinct (n, g) hm
    exact wo_apart hd

/-- All angular grids. -/
theorem angData_nodup (fam : AngFam) (n : Nat) (h : fam.orderByNpts n ≠ -1) :
    (angData ℝ fam n).points.Nodup := by
  refine (angData_apart fam n h).imp (fun {u v} h e => ?_)
  subst e
  have : (0 : ℝ) < 2⁻¹ ^ 36 := by positivity
  rcases h with h | h | h <;> rw [sub_self, abs_zero] at h <;> linarith

end IntegratorXX
