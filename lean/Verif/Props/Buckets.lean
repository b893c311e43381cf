import Verif.Lemmas.Buckets
import Verif.Props.SparseAccept
/-!
# Parameters for hashing (C55)
-/
namespace Verif
open Res Spec

open Classical in
/-- C55 for simple hashing: parameters are generated exactly for configurations of the right kind with a positive number
and a hash family; otherwise the result is INVALID_ARGUMENT. -/
theorem C55_simple_params (random : Nat → BitVec 8) (config : PirConfig) :
    if ∃ family n, config = .simple family n ∧ 0 < n ∧ family ≠ 0 then
      ∃ family n seed, config = .simple family n ∧ seed.length = 16 ∧
        SimpleServer.generateParams random config = ok ⟨⟨family, seed⟩, n⟩
    else SimpleServer.generateParams random config = err .invalidArgument := by
  have hl : (hashSeed random).length = 16 := by simp [hashSeed]
  unfold SimpleServer.generateParams
  match config with
  | .notSet => rw [if_neg (by rintro ⟨_, _, h, _⟩; cases h)]
  | .dense _ => rw [if_neg (by rintro ⟨_, _, h, _⟩; cases h)]
  | .cuckoo _ _ => rw [if_neg (by rintro ⟨_, _, h, _⟩; cases h)]
  | .simple family n =>
    dsimp only
    by_cases h1 : n ≤ 0
    · rw [if_neg (by rintro ⟨_, _, h, h', _⟩; cases h; omega), failIf_true h1]; rfl
    rw [failIf_false h1, bind_ok]
    by_cases h2 : family = 0
    · rw [if_neg (by rintro ⟨_, _, h, _, h'⟩; cases h; exact h' h2), failIf_true h2]; rfl
    rw [failIf_false h2, bind_ok, if_pos ⟨family, n, rfl, by omega, h2⟩]
    exact ⟨family, n, hashSeed random, rfl, hl, rfl⟩

/-- C55 for cuckoo hashing and up to 6148914691236516352 (two thirds of 2^63) elements: for configurations of the right
kind with a positive number and a hash family, parameters are generated, with three hash functions and one and a half
times as many buckets as elements. The number of buckets is exact (rounded down) up to 2^53 / 3 elements; in general,
the relative error is 2^-50. All other configurations are INVALID_ARGUMENT. -/
theorem C55_cuckoo_params_partial (random : Nat → BitVec 8) (config : PirConfig) :
    (∀ family n, config = .cuckoo family n → 0 < n → n ≤ 6148914691236516352 → family ≠ 0 →
      ∃ seed m, seed.length = 16 ∧ CuckooServer.generateParams random config = ok ⟨⟨family, seed⟩, 3, m⟩ ∧
        (3 * n ≤ 2 ^ 53 → m = 3 * n / 2) ∧ |2 * m - 3 * n| * 2 ^ 50 ≤ n + 2 ^ 51) ∧
    ((∀ family n, config = .cuckoo family n → n ≤ 0 ∨ family = 0) →
      CuckooServer.generateParams random config = err .invalidArgument) := by
  constructor
  · rintro family n rfl h0 hn hf
    obtain ⟨m, h1, h2⟩ := scaledBuckets_close h0.le hn
    refine ⟨hashSeed random, m, by simp [hashSeed], ?_, fun h => ?_, h2⟩
    · unfold CuckooServer.generateParams
      dsimp only
      rw [failIf_false (by omega), bind_ok, failIf_false hf, bind_ok, h1, bind_ok]
    · have := scaledBuckets_exact h0.le h
      rw [h1] at this
      exact ok.inj this
  · intro h
    unfold CuckooServer.generateParams
    match config, h with
    | .notSet, _ => rfl
    | .dense _, _ => rfl
    | .simple _ _, _ => rfl
    | .cuckoo family n, h =>
      dsimp only
      by_cases h1 : n ≤ 0
      · rw [failIf_true h1]; rfl
      rw [failIf_false h1, bind_ok]
      rcases h family n rfl with h2 | h2
      · exact absurd h2 h1
      · rw [failIf_true h2]; rfl

/-- For more elements, the number of buckets does not fit into 64 bits, and converting it is undefined. -/
theorem C55_cuckoo_params_refuted (random : Nat → BitVec 8) (family n : Int) (hf : family ≠ 0)
    (hn : 6148914691236516352 < n) : CuckooServer.generateParams random (.cuckoo family n) = ub := by
  unfold CuckooServer.generateParams
  dsimp only
  rw [failIf_false (by omega), bind_ok, failIf_false hf, bind_ok, scaledBuckets_ub (by omega)]
  rfl

/-- C55 on examples: 1000003 elements get 1500004 buckets; 2^62 + 2^61 elements are too many. -/
example (random : Nat → BitVec 8) : (∃ seed, seed.length = 16 ∧
    CuckooServer.generateParams random (.cuckoo 1 1000003) = ok ⟨⟨1, seed⟩, 3, 1500004⟩) ∧
    CuckooServer.generateParams random (.cuckoo 1 (2 ^ 62 + 2 ^ 61)) = ub := by
  obtain ⟨seed, m, h1, h2, h3, _⟩ := (C55_cuckoo_params_partial random (.cuckoo 1 1000003)).1 1 1000003 rfl (by norm_num)
    (by norm_num) (by decide)
  have h3 := h3 (by norm_num)
  refine ⟨⟨seed, h1, h2.trans (by rw [h3]; rfl)⟩, C55_cuckoo_params_refuted random 1 _ (by decide) (by norm_num)⟩

/-- C55 on an example: a configuration for dense databases. -/
example (random : Nat → BitVec 8) : CuckooServer.generateParams random (.dense 5) = err .invalidArgument ∧
    SimpleServer.generateParams random (.simple 0 5) = err .invalidArgument := by
  have h := C55_simple_params random (.simple 0 5)
  rw [if_neg (by rintro ⟨_, _, h, _, h'⟩; cases h; exact h' rfl)] at h
  exact ⟨(C55_cuckoo_params_partial random (.dense 5)).2 (by rintro _ _ h; cases h), h⟩

end Verif
