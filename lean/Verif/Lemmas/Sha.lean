import Verif.Model.Hashing
import Verif.Spec.Fips180
/-!
# SHA-256: sizes
-/
namespace Verif
open Spec

theorem bigEndian_length (n x : Nat) : (Fips180.bigEndian n x).length = n := by
  induction n generalizing x with
  | zero => rfl
  | succ n ih => simp [Fips180.bigEndian, ih]

theorem sha256_length (m : Bytes) : (Fips180.sha256 m).length = 32 := by
  simp [Fips180.sha256, Fips180.wordBytes, bigEndian_length]

theorem pad_length (m : Bytes) : (Fips180.pad m).length % 64 = 0 ∧ m.length + 9 ≤ (Fips180.pad m).length ∧
    (Fips180.pad m).length < m.length + 9 + 64 := by
  simp only [Fips180.pad, List.length_append, List.length_cons, List.length_nil, List.length_replicate,
    bigEndian_length]
  omega

/-- SHA-256 of OpenSSL (/repo/pir/hashing/sha256_hash_family.cc:54-66), as in FIPS 180-4. -/
def opensslSha : Sha256 := ⟨Fips180.sha256, sha256_length⟩

end Verif
