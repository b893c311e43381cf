import Verif.Lemmas.IntModN
import Verif.Model.Round
/-!
# DPF output types and `ValueTypeHelper<T>` (/repo/dpf/internal/value_type_helpers.h and .cc)
-/
namespace Verif
open Res

/-! ## Integer messages -/

/-- `absl::Uint128High64`. -/
def high64 (x : U128) : BitVec 64 := x.extractLsb' 64 64
/-- `absl::Uint128Low64`. -/
def low64 (x : U128) : BitVec 64 := x.extractLsb' 0 64
/-- `absl::MakeUint128(high, low)`. -/
def makeU128 (hi lo : BitVec 64) : U128 := hi ++ lo

/-- `Uint128ToValueInteger` (/repo/dpf/internal/value_type_helpers.cc:145-155). -/
def uint128ToValueInteger (x : U128) : IntegerP :=
  if high64 x = 0 then .u64 (low64 x) else .u128 (high64 x) (low64 x)

/-- `ValueIntegerToUint128` (/repo/dpf/internal/value_type_helpers.cc:157-166). -/
def valueIntegerToUint128 : IntegerP → Res U128
  | .u128 hi lo => ok (makeU128 hi lo)
  | .u64 v => ok (v.setWidth 128)
  | .notSet => err .invalidArgument

/-- `Uint128To<T>` (/repo/dpf/internal/value_type_helpers.h:168-179) for a `w`-bit unsigned `T`.
Only the low 64 bits are compared with the maximum of `T`. -/
def uint128To (w : Nat) (x : U128) : Res (BitVec w) :=
  if w ≠ 128 ∧ (low64 x).toNat > 2 ^ w - 1 then err .invalidArgument else ok (x.setWidth w)

/-! ## Types -/

/-- Unsigned integer types (/repo/dpf/internal/value_type_helpers.h:142-152). -/
inductive Width where
  | w8 | w16 | w32 | w64 | w128
  deriving DecidableEq, Repr

/-- `8 * sizeof(T)`. -/
def Width.bits : Width → Nat
  | .w8 => 8 | .w16 => 16 | .w32 => 32 | .w64 => 64 | .w128 => 128

theorem Width.bits_le (w : Width) : w.bits ≤ 128 := by cases w <;> decide

mutual
/-- Supported C++ output types. `intModN` carries the `static_assert` of
/repo/dpf/int_mod_n.h:100-101 (and a nonzero modulus, required for `%`). -/
inductive Ty where
  | uint (w : Width)
  | intModN (w : Width) (N : U128) (hpos : 0 < N.toNat) (hlt : N.toNat < 2 ^ w.bits)
  | xorWrapper (w : Width)
  | tuple (ts : Tys)
/-- Non-empty list of tuple element types (`Tuple<>` does not compile). -/
inductive Tys where
  | one (t : Ty)
  | cons (t : Ty) (ts : Tys)
end

mutual
/-- The set of C++ objects of a type. For `IntModN` the class invariant `value_ < kModulus` holds by
construction of every operation (/repo/dpf/int_mod_n.h:104-129). -/
@[reducible] def Ty.den : Ty → Type
  | .uint w => BitVec w.bits
  | .intModN w N _ _ => { v : BitVec w.bits // v.toNat < N.toNat }
  | .xorWrapper w => BitVec w.bits
  | .tuple ts => Tys.den ts
/-- Objects of a tuple type. -/
@[reducible] def Tys.den : Tys → Type
  | .one t => Ty.den t
  | .cons t ts => Ty.den t × Tys.den ts
end

/-- Functions of `ValueTypeHelper<T>` (/repo/dpf/internal/value_type_helpers.h:59-104) together with
the operators of `T`. -/
structure Helper (α : Type) where
  /-- `T{}`. -/
  zero : α
  /-- `operator+` / `operator+=`. -/
  add : α → α → α
  /-- binary `operator-`. -/
  sub : α → α → α
  /-- unary `operator-`. -/
  neg : α → α
  /-- `CanBeConvertedDirectly()`. -/
  canDirect : Bool
  /-- `TotalBitSize()`. -/
  totalBitSize : Nat
  fromValue : Value → Res α
  toValue : α → Value
  toValueType : ValueType
  directlyFromBytes : Bytes → Res α
  sampleAndUpdateBytes : Bool → U128 → Bytes → Res (α × U128 × Bytes)

/-- The same, for the parameter pack of a tuple. -/
structure TupHelper (α : Type) where
  /-- `sizeof...(ElementType)`. -/
  size : Nat
  zero : α
  add : α → α → α
  neg : α → α
  canDirect : Bool
  totalBitSize : Nat
  /-- Decodes the elements in order, stopping at the first error. -/
  fromValues : List Value → Res α
  toValues : α → List Value
  toValueTypes : List ValueType
  /-- Converts the elements starting at a byte offset. -/
  directlyAt : Bytes → Nat → Res α
  /-- Samples the elements in order. -/
  sample : Bool → U128 → Bytes → Res (α × U128 × Bytes)

/-- Unsigned integers (/repo/dpf/internal/value_type_helpers.h:181-252). -/
def uintHelper (w : Nat) : Helper (BitVec w) where
  zero := 0
  add a b := a + b
  sub a b := a - b
  neg a := -a
  canDirect := true
  totalBitSize := w
  fromValue
    | .integer i => do uint128To w (← valueIntegerToUint128 i)
    | _ => err .invalidArgument
  toValue x := .integer (uint128ToValueInteger (x.setWidth 128))
  toValueType := .integer w
  directlyFromBytes := IntModN.convertBytesTo w
  sampleAndUpdateBytes update block remaining :=
    let result := block.setWidth w
    if update then do
      let masked := if w < 128 then block &&& ~~~(((BitVec.allOnes w)).setWidth 128) else 0
      let fresh ← IntModN.convertBytesTo w (← substr remaining 0 (w / 8))
      let rest ← substrFrom remaining (w / 8)
      ok (result, masked ||| fresh.setWidth 128, rest)
    else ok (result, block, remaining)

/-- `IntModN` (/repo/dpf/internal/value_type_helpers.h:258-329). -/
def intModNHelper (w : Nat) (hw : w ≤ 128) (N : U128) (hpos : 0 < N.toNat)
    (hlt : N.toNat < 2 ^ w) : Helper { v : BitVec w // v.toNat < N.toNat } where
  zero := ⟨IntModN.mk N 0, IntModN.mk_lt N hw hpos _⟩
  add a b := ⟨IntModN.addBase N a.1 b.1, IntModN.addBase_lt N hw hlt _ _ a.2 b.2⟩
  sub a b := ⟨IntModN.subBase N a.1 b.1, IntModN.subBase_lt N hw hlt _ _ a.2 (Nat.le_of_lt b.2)⟩
  neg a := ⟨IntModN.neg N a.1, IntModN.neg_lt N hw hlt _ a.2⟩
  canDirect := false
  totalBitSize := 0
  fromValue
    | .intModN i => do
      let v ← valueIntegerToUint128 i
      failIf (v ≥ N) .invalidArgument
      ok ⟨IntModN.mk N (v.setWidth w), IntModN.mk_lt N hw hpos _⟩
    | _ => err .invalidArgument
  toValue x := .intModN (uint128ToValueInteger (x.1.setWidth 128))
  toValueType := .intModN w (uint128ToValueInteger N)
  directlyFromBytes _ := crash  -- not instantiated: CanBeConvertedDirectly() is false
  sampleAndUpdateBytes update block remaining :=
    let quotient := block / N
    let remainder := block % N
    let result := ⟨IntModN.mk N (remainder.setWidth w), IntModN.mk_lt N hw hpos _⟩
    if update then do
      let shifted := if w < 128 then quotient <<< w else 0
      let fresh ← IntModN.convertBytesTo w (← substr remaining 0 (w / 8))
      let rest ← substrFrom remaining (w / 8)
      ok (result, shifted ||| fresh.setWidth 128, rest)
    else ok (result, block, remaining)

/-- `XorWrapper<T>` (/repo/dpf/xor_wrapper.h:25-73,
/repo/dpf/internal/value_type_helpers.h:467-516). `value.xor_wrapper()` of another case is the
default message, whose integer is unset. -/
def xorHelper (w : Nat) : Helper (BitVec w) where
  zero := 0
  add a b := a ^^^ b
  sub a b := a ^^^ b
  neg a := a
  canDirect := (uintHelper w).canDirect
  totalBitSize := (uintHelper w).totalBitSize
  fromValue
    | .xorWrapper i => do uint128To w (← valueIntegerToUint128 i)
    | _ => do uint128To w (← valueIntegerToUint128 .notSet)
  toValue x := .xorWrapper (uint128ToValueInteger (x.setWidth 128))
  toValueType := .xorWrapper w
  directlyFromBytes := (uintHelper w).directlyFromBytes
  sampleAndUpdateBytes := (uintHelper w).sampleAndUpdateBytes

/-- A tuple seen as one element (/repo/dpf/tuple.h:65-118,
/repo/dpf/internal/value_type_helpers.h:351-461). -/
def tupleHelper {α : Type} (h : TupHelper α) : Helper α where
  zero := h.zero
  add := h.add
  sub a b := h.add a (h.neg b)
  neg := h.neg
  canDirect := h.canDirect
  totalBitSize := h.totalBitSize
  fromValue
    | .tuple vs => do
      failIf (vs.length ≠ h.size) .invalidArgument
      h.fromValues vs
    | _ => err .invalidArgument
  toValue x := .tuple (h.toValues x)
  toValueType := .tuple h.toValueTypes
  directlyFromBytes bytes := do
    check (8 * bytes.length ≥ h.totalBitSize)
    h.directlyAt bytes 0
  sampleAndUpdateBytes := h.sample

/-- Pack with one element type. -/
def oneHelper {α : Type} (h : Helper α) : TupHelper α where
  size := 1
  zero := h.zero
  add := h.add
  neg := h.neg
  canDirect := h.canDirect
  totalBitSize := h.totalBitSize
  fromValues
    | v :: _ => h.fromValue v
    | [] => ub
  toValues x := [h.toValue x]
  toValueTypes := [h.toValueType]
  directlyAt bytes offset := do
    h.directlyFromBytes (← substr bytes offset ((h.totalBitSize + 7) / 8))
  -- last element: `update2 = update` (value_type_helpers.h:455-458)
  sample := h.sampleAndUpdateBytes

/-- Pack with a first element type and further ones. -/
def consHelper {α β : Type} (h : Helper α) (t : TupHelper β) : TupHelper (α × β) where
  size := t.size + 1
  zero := (h.zero, t.zero)
  add a b := (h.add a.1 b.1, t.add a.2 b.2)
  neg a := (h.neg a.1, t.neg a.2)
  canDirect := h.canDirect && t.canDirect
  totalBitSize := h.totalBitSize + t.totalBitSize
  fromValues
    | v :: vs => do
      let a ← h.fromValue v
      let b ← t.fromValues vs
      ok (a, b)
    | [] => ub
  toValues x := h.toValue x.1 :: t.toValues x.2
  toValueTypes := h.toValueType :: t.toValueTypes
  directlyAt bytes offset := do
    let sz := (h.totalBitSize + 7) / 8
    let a ← h.directlyFromBytes (← substr bytes offset sz)
    let b ← t.directlyAt bytes (offset + sz)
    ok (a, b)
  -- not the last element: `++element_counter < num_elements` (value_type_helpers.h:455-458)
  sample update block remaining := do
    let (a, block, remaining) ← h.sampleAndUpdateBytes true block remaining
    let (b, block, remaining) ← t.sample update block remaining
    ok ((a, b), block, remaining)

mutual
/-- `ValueTypeHelper<T>`. -/
def Ty.helper : (t : Ty) → Helper t.den
  | .uint w => uintHelper w.bits
  | .intModN w N hp hl => intModNHelper w.bits w.bits_le N hp hl
  | .xorWrapper w => xorHelper w.bits
  | .tuple ts => tupleHelper (Tys.helper ts)
/-- Helper of a parameter pack. -/
def Tys.helper : (ts : Tys) → TupHelper ts.den
  | .one t => oneHelper (Ty.helper t)
  | .cons t ts => consHelper (Ty.helper t) (Tys.helper ts)
end

/-! ## Free-standing helpers -/

namespace Helper
variable {α : Type} (H : Helper α)

/-- `ElementsPerBlock<T>()` (/repo/dpf/internal/value_type_helpers.h:523-537). -/
def elementsPerBlock : Nat :=
  if H.canDirect then (if H.totalBitSize ≤ 128 then 128 / H.totalBitSize else 1) else 1

/-- `FromBytes<T>` (/repo/dpf/internal/value_type_helpers.h:539-555). -/
def fromBytes (bytes : Bytes) : Res α :=
  if H.canDirect then H.directlyFromBytes bytes
  else do
    let block ← IntModN.convertBytesTo 128 (← substr bytes 0 16)
    let rest ← substrFrom bytes 16
    let (a, _, _) ← H.sampleAndUpdateBytes false block rest
    ok a

/-- `ValuesToArray<T>` (/repo/dpf/internal/value_type_helpers.h:561-580). -/
def valuesToArray (values : List Value) : Res (List α) :=
  if values.length ≠ H.elementsPerBlock then err .invalidArgument
  else mapRes H.fromValue values

/-- `ConvertBytesToArrayOf<T>` (/repo/dpf/internal/value_type_helpers.h:586-606). -/
def convertBytesToArrayOf (bytes : Bytes) : Res (List α) :=
  if H.canDirect then do
    let sz := (H.totalBitSize + 7) / 8
    check (bytes.length ≥ H.elementsPerBlock * sz)
    mapRes (fun i => do H.fromBytes (← substr bytes (i * sz) sz)) (List.range H.elementsPerBlock)
  else do
    let a ← H.fromBytes bytes
    ok [a]

/-- `ComputeValueCorrectionFor<T>` (/repo/dpf/internal/value_type_helpers.h:614-648).
`block_index` outside the array is undefined. -/
def computeValueCorrectionFor (seedA seedB : Bytes) (blockIndex : Nat) (beta : Value)
    (invert : Bool) : Res (List Value) := do
  let betaT ← H.fromValue beta
  let intsA ← H.convertBytesToArrayOf seedA
  let intsB ← H.convertBytesToArrayOf seedB
  let old ← rd intsB blockIndex
  let intsB := intsB.set blockIndex (H.add old betaT)
  let intsB := List.zipWith (fun b a =>
    let d := H.sub b a
    if invert then H.neg d else d) intsB intsA
  ok (intsB.map H.toValue)

end Helper

/-! ## Functions on `ValueType` messages -/

mutual
/-- `ValueTypesAreEqual` (/repo/dpf/internal/value_type_helpers.cc:33-69). -/
def valueTypesAreEqual : ValueType → ValueType → Res Bool
  | .notSet, _ => err .invalidArgument
  | _, .notSet => err .invalidArgument
  | .integer a, .integer b => ok (a == b)
  | .tuple as, .tuple bs =>
    if as.length = bs.length then valueTypesAreEqualList as bs else ok false
  | .intModN a m, .intModN b n =>
    valueIntegerToUint128 m >>= fun m128 =>
    valueIntegerToUint128 n >>= fun n128 =>
    ok (a == b && m128 == n128)
  | .xorWrapper a, .xorWrapper b => ok (a == b)
  | _, _ => ok false
/-- The loop over tuple elements (value_type_helpers.cc:45-52); it goes on after a mismatch. -/
def valueTypesAreEqualList : List ValueType → List ValueType → Res Bool
  | a :: as, b :: bs =>
    valueTypesAreEqual a b >>= fun r =>
    valueTypesAreEqualList as bs >>= fun rs =>
    ok (r && rs)
  | _, _ => ok true
end

/-- Addition of a number to a `double` (/repo/dpf/internal/value_type_helpers.cc:107-108). -/
def Sec.add : Sec → Rat → Sec
  | .nan, _ => .nan
  | .val q, r => .val (roundDouble (q + r))

/-- First loop of the tuple case of `BitsNeeded` (value_type_helpers.cc:83-104): the first IntModN
element, the number of IntModN elements and of other elements. -/
def countTuple : List ValueType → Option ValueType → Nat → Nat →
    Res (Option ValueType × Nat × Nat)
  | [], im, nMod, nOther => ok (im, nMod, nOther)
  | el :: els, im, nMod, nOther =>
    match el with
    | .intModN _ _ =>
      match im with
      | none => countTuple els (some el) (nMod + 1) nOther
      | some im' => do
        let eq ← valueTypesAreEqual el im'
        failIf (eq = false) .unimplemented
        countTuple els im (nMod + 1) nOther
    | _ => countTuple els im nMod (nOther + 1)

mutual
/-- `BitsNeeded` (/repo/dpf/internal/value_type_helpers.cc:71-141). Note that the second loop
(lines 106-113) runs over the *first* `num_other` elements. Sums are `int`; the conversion of
`bytes_needed_ints_mod_n * 8` from 64 to 32 bits (line 124) is taken to be undefined where it changes the
value (C++ reduces modulo 2^32). -/
def bitsNeeded (fp : FpEnv) : ValueType → Sec → Res Int
  | .integer b, _ => ok b
  | .tuple els, sec =>
    countTuple els none 0 0 >>= fun (im, nMod, nOther) =>
    bitsNeededFirst fp els nOther (sec.add (fp.log2 nOther)) 0 >>= fun other =>
    (match im with
      | some (.intModN b m) =>
        valueIntegerToUint128 m >>= fun modulus =>
        IntModN.getNumBytesRequired fp nMod b modulus sec >>= fun n => intRange (n * 8)
      | _ => ok 0) >>= fun mods =>
    intRange (mods + other)
  | .intModN b m, sec =>
    valueIntegerToUint128 m >>= fun modulus =>
    IntModN.getNumBytesRequired fp 1 b modulus sec >>= fun n => ok (8 * n)
  | .xorWrapper b, _ => ok b
  | .notSet, _ => err .invalidArgument
/-- Adds `BitsNeeded` of the first `n` elements to `bitsize_other` (value_type_helpers.cc:105-114). -/
def bitsNeededFirst (fp : FpEnv) : List ValueType → Nat → Sec → Int → Res Int
  | _, 0, _, bitsizeOther => ok bitsizeOther
  | [], _ + 1, _, _ => ub
  | el :: els, n + 1, sec, bitsizeOther =>
    bitsNeeded fp el sec >>= fun b =>
    intRange (bitsizeOther + b) >>= fun bitsizeOther => bitsNeededFirst fp els n sec bitsizeOther
end

end Verif
