import Verif.Props.SyntheticDoubles
import Verif.Props.Benchmarks
/-!
# C82: benchmarks of full hierarchies with IEEE doubles
-/
namespace Verif
open Res Spec Benchmarks SyntheticData

theorem levelSize_ieee : ∀ n, n ≤ 19 → ∀ i, i < n →
    levelSize ⟨fun _ => 0, roundDouble⟩ n i = ((20 * (i + 1) / n : Nat) : Int) := by decide +kernel

/-- C82, full hierarchies with IEEE doubles: `BM_EvaluateHierarchicalFull` with 1 to 19 levels completes, and no rounding is
visible: level `i` has domain size `20 * (i + 1) / n`, rounded down. In each iteration all points of all levels are
evaluated with a key for 12345 and value `i` on level `i`. -/
theorem C82_full_ieee (D : Doubles) (hround : D.round = roundDouble) (fp : FpEnv) (env : Env) (w : Width)
    (n iterations : Nat) (hn0 : 0 < n) (hn : n ≤ 19) (seed0 seed1 : U128) :
    ∃ r, hierarchicalFull D fp env w n iterations seed0 seed1 = ok r ∧
      EvaluatesHierarchy fp env w ((List.range n).map fun i => 20 * (i + 1) / n) 12345 (fun i => i)
        (allPoints (parametersOf w (((List.range n).map fun i => 20 * (i + 1) / n).map Int.ofNat))) iterations r := by
  obtain ⟨sizes, r, h, e, _, _, _, _, _, h'⟩ := full_sizes D fp env w n iterations hn0 hn (by
    intro x h0 h21
    have := roundDouble_error x (by rw [abs_of_nonneg h0]; linarith)
    rw [hround]
    rw [abs_le] at this
    norm_num at this
    constructor <;> linarith [this.1, this.2]) (by rw [hround]; decide +kernel) (by rw [hround]; decide +kernel) seed0 seed1
  have hs : sizes = (List.range n).map fun i => 20 * (i + 1) / n := by
    have h2 : sizes.map Int.ofNat = ((List.range n).map fun i => 20 * (i + 1) / n).map Int.ofNat := by
      rw [← e, List.map_map]
      apply List.map_congr_left
      intro i hi
      have := levelSize_ieee n hn i (List.mem_range.mp hi)
      simp only [levelSize] at this ⊢
      rw [hround, this]; rfl
    exact List.map_injective_iff.mpr (fun a b h => by simpa using h) h2
  subst hs
  exact ⟨r, h, h'⟩

/-- C82_full_ieee for 16 levels, as registered. -/
example : ∃ r, hierarchicalFull ⟨fun _ => 0, roundDouble⟩ exFp { aes := fun k x => k ^^^ x } .w8 16 3 1 2 = ok r ∧
    EvaluatesHierarchy exFp { aes := fun k x => k ^^^ x } .w8 [1, 2, 3, 5, 6, 7, 8, 10, 11, 12, 13, 15, 16, 17, 18, 20] 12345
      (fun i => i) (allPoints (parametersOf .w8 ([1, 2, 3, 5, 6, 7, 8, 10, 11, 12, 13, 15, 16, 17, 18, 20].map Int.ofNat))) 3
      r :=
  C82_full_ieee ⟨fun _ => 0, roundDouble⟩ rfl exFp { aes := fun k x => k ^^^ x } .w8 16 3 (by decide) (by decide) 1 2

end Verif
