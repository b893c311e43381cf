import Verif.Model.PirProto
/-!
# Some serialization of helper requests

Shows that the assumption on the protobuf library in C36 can be met.
-/
namespace Verif

/-- A self-delimiting code. -/
structure PrefixCode (α : Type) where
  enc : α → Bytes
  dec : Bytes → Option (α × Bytes)
  law : ∀ a r, dec (enc a ++ r) = some (a, r)

namespace PrefixCode

/-- Reads a number in unary. -/
def natDec : Bytes → Option (Nat × Bytes)
  | [] => none
  | b :: bs => if b = 0 then some (0, bs) else (natDec bs).map fun (n, r) => (n + 1, r)

/-- Numbers in unary. -/
def nat : PrefixCode Nat where
  enc n := List.replicate n 1 ++ [0]
  dec := natDec
  law n r := by
    induction n with
    | zero => rfl
    | succ n ih =>
      rw [List.replicate_succ, List.cons_append, List.cons_append, natDec, if_neg (by decide), ih]
      rfl

/-- Codes along an embedding. -/
def map {α β : Type} (c : PrefixCode α) (f : β → α) (g : α → β) (h : ∀ b, g (f b) = b) : PrefixCode β where
  enc b := c.enc (f b)
  dec l := (c.dec l).map fun (a, r) => (g a, r)
  law b r := by rw [c.law]; simp [h]

/-- Pairs. -/
def prod {α β : Type} (c : PrefixCode α) (d : PrefixCode β) : PrefixCode (α × β) where
  enc p := c.enc p.1 ++ d.enc p.2
  dec l := (c.dec l).bind fun (a, r) => (d.dec r).map fun (b, r) => ((a, b), r)
  law p r := by simp [c.law, d.law]

/-- Reads `n` elements. -/
def listDec {α : Type} (dec : Bytes → Option (α × Bytes)) : Nat → Bytes → Option (List α × Bytes)
  | 0, l => some ([], l)
  | n + 1, l => (dec l).bind fun (a, r) => (listDec dec n r).map fun (as, r) => (a :: as, r)

theorem listDec_law {α : Type} {dec : Bytes → Option (α × Bytes)} {enc : α → Bytes} (as : List α)
    (law : ∀ a ∈ as, ∀ r, dec (enc a ++ r) = some (a, r)) (r : Bytes) :
    listDec dec as.length (as.flatMap enc ++ r) = some (as, r) := by
  induction as with
  | nil => rfl
  | cons a as ih =>
    rw [List.flatMap_cons, List.append_assoc, List.length_cons, listDec, law a (by simp)]
    simp [ih fun b hb => law b (by simp [hb])]

/-- Lists. -/
def list {α : Type} (c : PrefixCode α) : PrefixCode (List α) where
  enc as := nat.enc as.length ++ as.flatMap c.enc
  dec l := (nat.dec l).bind fun (n, r) => listDec c.dec n r
  law as r := by
    rw [List.append_assoc, nat.law]
    exact listDec_law as (fun a _ => c.law a) r

/-- Booleans. -/
def bool : PrefixCode Bool := nat.map (fun b => if b then 1 else 0) (fun n => n == 1) (by decide)

/-- Bit vectors. -/
def bitVec (w : Nat) : PrefixCode (BitVec w) := nat.map BitVec.toNat (BitVec.ofNat w) (by simp)

/-- Integers. -/
def int : PrefixCode Int :=
  (bool.prod nat).map (fun i => (decide (i < 0), i.natAbs)) (fun (s, n) => if s then -(n : Int) else n) (by
    intro i
    dsimp only
    by_cases h : i < 0
    · rw [if_pos (by simpa using h)]; omega
    · rw [if_neg (by simpa using h)]; omega)

/-- Optional values. -/
def option {α : Type} (c : PrefixCode α) : PrefixCode (Option α) :=
  c.list.map Option.toList List.head? (by intro o; cases o <;> rfl)

/-- `Value.Integer`. -/
def integerP : PrefixCode IntegerP :=
  (nat.prod ((bitVec 64).prod (bitVec 64))).map
    (fun
      | .notSet => (0, 0, 0)
      | .u64 v => (1, v, 0)
      | .u128 hi lo => (2, hi, lo))
    (fun (n, a, b) => if n = 0 then .notSet else if n = 1 then .u64 a else .u128 a b)
    (by intro i; cases i <;> rfl)

mutual
/-- Depth of a value. -/
def depth : Value → Nat
  | .tuple vs => depths vs + 1
  | _ => 0
/-- Depth of the deepest value. -/
def depths : List Value → Nat
  | [] => 0
  | v :: vs => max (depth v) (depths vs)
end

mutual
/-- Code of a value. -/
def valueEnc : Value → Bytes
  | .notSet => nat.enc 0
  | .integer v => nat.enc 1 ++ integerP.enc v
  | .tuple vs => nat.enc 2 ++ (nat.enc vs.length ++ valueEncs vs)
  | .intModN v => nat.enc 3 ++ integerP.enc v
  | .xorWrapper v => nat.enc 4 ++ integerP.enc v
/-- Codes of values. -/
def valueEncs : List Value → Bytes
  | [] => []
  | v :: vs => valueEnc v ++ valueEncs vs
end

/-- Reads an integer of a value. -/
def intDec (f : IntegerP → Value) (l : Bytes) : Option (Value × Bytes) :=
  (integerP.dec l).map fun (v, r) => (f v, r)

/-- Reads a value, given a function that reads elements. -/
def valueStep (elem : Bytes → Option (Value × Bytes)) (l : Bytes) : Option (Value × Bytes) :=
  (nat.dec l).bind fun (tag, r) =>
    match tag with
    | 0 => some (.notSet, r)
    | 1 => intDec .integer r
    | 2 => (nat.dec r).bind fun (n, r) => (listDec elem n r).map fun (vs, r) => (.tuple vs, r)
    | 3 => intDec .intModN r
    | _ => intDec .xorWrapper r

/-- Reads a value of at most this depth. -/
def valueDec : Nat → Bytes → Option (Value × Bytes)
  | 0 => valueStep fun _ => none
  | fuel + 1 => valueStep (valueDec fuel)

theorem valueDec_eq (fuel : Nat) : ∃ elem, valueDec fuel = valueStep elem := by
  cases fuel
  · exact ⟨_, rfl⟩
  · exact ⟨_, rfl⟩

theorem valueEncs_eq (vs : List Value) : valueEncs vs = vs.flatMap valueEnc := by
  induction vs with
  | nil => rfl
  | cons v vs ih => rw [valueEncs, ih, List.flatMap_cons]

mutual
theorem valueDec_law : ∀ (v : Value) (fuel : Nat), depth v ≤ fuel → ∀ r,
    valueDec fuel (valueEnc v ++ r) = some (v, r)
  | .notSet, fuel, _, r => by
    obtain ⟨elem, he⟩ := valueDec_eq fuel
    rw [he, valueStep, valueEnc, nat.law]; rfl
  | .integer v, fuel, _, r => by
    obtain ⟨elem, he⟩ := valueDec_eq fuel
    rw [he, valueStep, valueEnc, List.append_assoc, nat.law]
    show intDec .integer _ = _
    unfold intDec; rw [integerP.law]; rfl
  | .intModN v, fuel, _, r => by
    obtain ⟨elem, he⟩ := valueDec_eq fuel
    rw [he, valueStep, valueEnc, List.append_assoc, nat.law]
    show intDec .intModN _ = _
    unfold intDec; rw [integerP.law]; rfl
  | .xorWrapper v, fuel, _, r => by
    obtain ⟨elem, he⟩ := valueDec_eq fuel
    rw [he, valueStep, valueEnc, List.append_assoc, nat.law]
    show intDec .xorWrapper _ = _
    unfold intDec; rw [integerP.law]; rfl
  | .tuple vs, 0, h, _ => by rw [depth] at h; omega
  | .tuple vs, fuel + 1, h, r => by
    rw [depth] at h
    rw [valueDec, valueStep, valueEnc, List.append_assoc, nat.law]
    show ((nat.dec _).bind fun (n, r) => (listDec (valueDec fuel) n r).map fun (vs, r) =>
      (Value.tuple vs, r)) = _
    rw [List.append_assoc, nat.law, valueEncs_eq]
    show (listDec (valueDec fuel) _ _).map _ = _
    rw [listDec_law vs (valuesDec_law vs fuel (by omega))]
    rfl
theorem valuesDec_law : ∀ (vs : List Value) (fuel : Nat), depths vs ≤ fuel → ∀ v ∈ vs, ∀ r,
    valueDec fuel (valueEnc v ++ r) = some (v, r)
  | [], _, _, v, hv => by cases hv
  | w :: vs, fuel, h, v, hv => by
    rw [depths] at h
    have h1 := valueDec_law w fuel (by omega)
    have h2 := valuesDec_law vs fuel (by omega)
    rcases List.mem_cons.mp hv with e | hv
    · rw [e]; exact h1
    · exact h2 v hv
end

/-- `Value`. -/
def value : PrefixCode Value where
  enc v := nat.enc (depth v) ++ valueEnc v
  dec l := (nat.dec l).bind fun (fuel, r) => valueDec fuel r
  law v r := by
    rw [List.append_assoc, nat.law]
    exact valueDec_law v _ (Nat.le_refl _) r

/-- `CorrectionWord`. -/
def correctionWord : PrefixCode CorrectionWord :=
  ((bitVec 128).prod (bool.prod (bool.prod value.list))).map
    (fun c => (c.seed, c.controlLeft, c.controlRight, c.valueCorrection))
    (fun (a, b, c, d) => ⟨a, b, c, d⟩) (fun _ => rfl)

/-- `DpfKey`. -/
def dpfKey : PrefixCode DpfKey :=
  ((bitVec 128).option.prod (correctionWord.list.prod (int.prod value.list))).map
    (fun k => (k.seed, k.correctionWords, k.party, k.lastLevelValueCorrection))
    (fun (a, b, c, d) => ⟨a, b, c, d⟩) (fun _ => rfl)

/-- `HelperRequest`. -/
def helperRequest : PrefixCode HelperRequest :=
  (((dpfKey.list.prod (bitVec 32)).map (fun r => (r.dpfKeys, r.seedFingerprint))
    (fun (a, b) => (⟨a, b⟩ : PlainRequest)) (fun _ => rfl)).option.prod (bitVec 8).list).map
    (fun r => (r.plainRequest, r.oneTimePadSeed)) (fun (a, b) => ⟨a, b⟩) (fun _ => rfl)

end PrefixCode

/-- Some serialization that can be parsed. -/
def exCodec : HelperCodec where
  serialize r := PrefixCode.helperRequest.enc r
  parse l := (PrefixCode.helperRequest.dec l).map (·.1)

theorem exCodec_ok (m : HelperRequest) : exCodec.parse (exCodec.serialize m) = some m := by
  have := PrefixCode.helperRequest.law m []
  rw [List.append_nil] at this
  unfold exCodec
  dsimp only
  rw [this]; rfl

end Verif
