/-!
# Outcomes of C++ functions

`Res α` is the outcome of a C++ call: a value, a non-OK `absl::Status`, undefined behaviour or a
fatal check.  Loops over lists in `Res` are written with `mapRes` / `foldRes`.
-/

namespace Verif

/-- Status codes used by the code base (`absl::StatusCode`). Messages are not modelled. -/
inductive Code where
  | invalidArgument
  | failedPrecondition
  | internal
  | unimplemented
  | notFound
  | resourceExhausted
  | other
  deriving DecidableEq, Repr, Inhabited

/-- Outcome of a C++ function returning `absl::StatusOr<α>` / `absl::Status` (`α = Unit`).
`ub` is undefined behaviour, `crash` an aborted process (`ABSL_CHECK`, `substr` out of range). -/
inductive Res (α : Type u) where
  | ok (a : α)
  | err (c : Code)
  | ub
  | crash
  deriving DecidableEq, Repr

namespace Res

/-- `DPF_ASSIGN_OR_RETURN` / `DPF_RETURN_IF_ERROR` (/repo/dpf/status_macros.h:24-64): continue on
success, propagate everything else. -/
@[reducible] def bind {α : Type u} {β : Type v} (x : Res α) (f : α → Res β) : Res β :=
  match x with
  | ok a => f a
  | err c => err c
  | ub => ub
  | crash => crash

instance : Monad Res where
  pure := Res.ok
  bind := Res.bind

@[simp] theorem pure_eq {α : Type u} (a : α) : (pure a : Res α) = ok a := rfl
@[simp] theorem bind_ok {α β : Type u} (a : α) (f : α → Res β) : (ok a >>= f) = f a := rfl
@[simp] theorem bind_err {α β : Type u} (c : Code) (f : α → Res β) :
    ((err c : Res α) >>= f) = err c := rfl
@[simp] theorem bind_ub {α β : Type u} (f : α → Res β) : ((ub : Res α) >>= f) = ub := rfl
@[simp] theorem bind_crash {α β : Type u} (f : α → Res β) : ((crash : Res α) >>= f) = crash := rfl

/-- `status.ok()`. -/
def isOk {α : Type u} : Res α → Bool
  | ok _ => true
  | _ => false

theorem bind_eq_ok {α β : Type u} {x : Res α} {f : α → Res β} {b : β} :
    (x >>= f) = ok b ↔ ∃ a, x = ok a ∧ f a = ok b := by
  cases x <;> simp [Bind.bind, Res.bind]

/-- Functor law used in rewriting. -/
theorem bind_assoc {α β γ : Type u} (x : Res α) (f : α → Res β) (g : β → Res γ) :
    ((x >>= f) >>= g) = (x >>= fun a => f a >>= g) := by
  cases x <;> rfl

end Res

open Res

/-- Early return of a status: `if (cond) return absl::…Error(…)`. -/
def failIf (cond : Prop) [Decidable cond] (c : Code) : Res Unit :=
  if cond then err c else ok ()

/-- `ABSL_CHECK(cond)`. -/
def check (cond : Prop) [Decidable cond] : Res Unit :=
  if cond then ok () else crash

/-- Reading element `i` of an array / vector / repeated field: out of bounds is undefined. -/
def rd {α : Type u} (l : List α) (i : Nat) : Res α :=
  match l[i]? with
  | some a => ok a
  | none => ub

/-- Reading with a C++ `int` index; a negative index is out of bounds. -/
def rdInt {α : Type u} (l : List α) (i : Int) : Res α :=
  if i < 0 then ub else rd l i.toNat

/-- The mathematical value `x` of an `int` expression: overflow of a 32-bit `int` is undefined. -/
def intRange (x : Int) : Res Int :=
  if -2 ^ 31 ≤ x ∧ x < 2 ^ 31 then ok x else ub

/-- A C++ `int` obtained from an integer `x` by conversion: reduction modulo 2^32. -/
def wrapInt32 (x : Int) : Int := (x + 2 ^ 31) % 2 ^ 32 - 2 ^ 31

/-- `for (x : l) out.push_back(f(x))` stopping at the first failure. -/
def mapRes {α : Type u} {β : Type v} (f : α → Res β) : List α → Res (List β)
  | [] => .ok []
  | a :: l =>
    match f a with
    | .ok b => match mapRes f l with
      | .ok bs => .ok (b :: bs)
      | .err c => .err c
      | .ub => .ub
      | .crash => .crash
    | .err c => .err c
    | .ub => .ub
    | .crash => .crash

/-- `for (x : l) state = f(state, x)` stopping at the first failure. -/
def foldRes {α : Type u} {σ : Type v} (f : σ → α → Res σ) : σ → List α → Res σ
  | s, [] => .ok s
  | s, a :: l =>
    match f s a with
    | .ok s' => foldRes f s' l
    | .err c => .err c
    | .ub => .ub
    | .crash => .crash

/-- `absl::uint128`. -/
abbrev U128 := BitVec 128

/-- A string of bytes (`absl::string_view`, `std::string`). -/
abbrev Bytes := List (BitVec 8)

/-- `x >> n` on `absl::uint128`; a shift amount outside `[0, 128)` is undefined. -/
def shr128 (x : U128) (n : Int) : Res U128 :=
  if n < 0 ∨ n ≥ 128 then ub else ok (x >>> n.toNat)

/-- `absl::uint128{1} << n`; a shift amount outside `[0, 128)` is undefined. -/
def shl128 (x : U128) (n : Int) : Res U128 :=
  if n < 0 ∨ n ≥ 128 then ub else ok (x <<< n.toNat)

/-- `absl::string_view::substr(pos, n)`: aborts if `pos > size()`, clips `n`. -/
def substr (b : Bytes) (pos n : Nat) : Res Bytes :=
  if pos > b.length then crash else ok ((b.drop pos).take n)

/-- `absl::string_view::substr(pos)`. -/
def substrFrom (b : Bytes) (pos : Nat) : Res Bytes :=
  if pos > b.length then crash else ok (b.drop pos)

/-- Little-endian value of a byte string (x86/ARM `std::copy_n` into an integer,
/repo/dpf/internal/value_type_helpers.h:219-220). -/
def leNat : Bytes → Nat
  | [] => 0
  | b :: bs => b.toNat + 256 * leNat bs

/-- `reinterpret_cast<const char*>(&x)` for a `uint128` on a little-endian machine. -/
def blockBytes (x : U128) : Bytes :=
  (List.range 16).map fun i => x.extractLsb' (8 * i) 8

/-- The bytes of an array of blocks, e.g. /repo/dpf/distributed_point_function.cc:114-117. -/
def blocksBytes (xs : List U128) : Bytes := xs.flatMap blockBytes

end Verif
