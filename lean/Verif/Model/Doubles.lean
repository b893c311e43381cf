import Verif.Model.IntModN
import Verif.Model.Round
/-!
# Double precision arithmetic and `GetSecurityLevel` (/repo/dpf/int_mod_n.cc:29-34)

The library functions `std::log2` and the conversion of `absl::uint128` to `double` are parameters. Doubles are rational
numbers; infinities, which occur only for modulus 0, are not modelled.
-/
namespace Verif

/-- Functions that `GetSecurityLevel` calls (/repo/dpf/int_mod_n.cc:31-33): `static_cast<double>` of an
`absl::uint128`, and `std::log2`. -/
structure Libm where
  ofU128 : U128 → Rat
  log2 : Rat → Rat

/-- `IntModNBase::GetSecurityLevel` (/repo/dpf/int_mod_n.cc:29-34): sums are rounded one after the other; the conversions
of `int` to `double` are exact. The overflow of `num_samples + 1` is in `IntModN.checkParameters`. -/
def getSecurityLevel (M : Libm) (numSamples : Int) (modulus : U128) : Rat :=
  roundDouble (((128 + 3 : Int) : Rat) -
    roundDouble (roundDouble (M.log2 (M.ofU128 modulus) + M.log2 (numSamples : Rat)) +
      M.log2 ((numSamples + 1 : Int) : Rat)))

/-- The floating-point functions that the other parts of the model take as parameters: `GetSecurityLevel`
(/repo/dpf/int_mod_n.cc:29-34) and `std::log2` of an `int` (/repo/dpf/internal/value_type_helpers.cc:107-108,
/repo/dpf/int_mod_n_benchmark.cc). -/
def Libm.fp (M : Libm) : FpEnv := ⟨getSecurityLevel M, fun n => M.log2 (n : Rat)⟩

/-- `static_cast<int>(std::ceil(std::log2(n)))` (/repo/pir/dense_dpf_pir_server.cc:78, /repo/pir/dense_dpf_pir_client.cc:66,
/repo/pir/cuckoo_hashing_sparse_dpf_pir_server.cc:121, /repo/pir/simple_hashing_sparse_dpf_pir_server.cc:115,
/repo/dpf/internal/proto_validator.cc:138): the integer is converted to a double, which rounds it if it has more than 53
bits. -/
def Libm.ceilLog2 (M : Libm) (n : Int) : Int := (M.log2 (roundDouble (n : Rat))).ceil

end Verif
