/-!
# Rounding to double precision
-/
namespace Verif

/-- Rounding of the exact results of `+` and `-` to doubles (in /repo/dpf/int_mod_n.cc:30-33,
/repo/dpf/internal/value_type_helpers.cc:107-108 and /repo/experiments/synthetic_data_benchmarks.cc:154-169): to 53 bits, to the even number if there are two closest ones;
exponents are unbounded. -/
def roundDouble (x : Rat) : Rat :=
  if x = 0 then 0
  else
    let a := x.abs
    let e0 : Int := (Nat.log2 a.num.natAbs : Int) - Nat.log2 a.den
    let e : Int := if a < 2 ^ e0 then e0 - 1 else e0
    let y := x * 2 ^ (52 - e)
    let r := y - y.floor
    let z : Int := if r < 1 / 2 then y.floor else if 1 / 2 < r then y.floor + 1 else
      if y.floor % 2 = 0 then y.floor else y.floor + 1
    z * 2 ^ (e - 52)

example : roundDouble (1 / 10) = 3602879701896397 / 2 ^ 55 ∧ roundDouble (2 ^ 53 + 1) = 2 ^ 53 ∧
    roundDouble (2 ^ 53 + 3) = 2 ^ 53 + 4 ∧ roundDouble (-3 / 4) = -3 / 4 := by decide +kernel

end Verif
