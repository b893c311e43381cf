import Verif.Model.Hash
/-!
# Threads that share hash objects (/repo/dpf/aes_128_fixed_key_hash.cc)

`Evaluate` as the sequence of its accesses to memory, for calls by any number of threads. Memory is divided into blocks
of 16 bytes (the elements of the spans). A step of a thread is one access to a block, so steps of different threads can
come in any order. Reads of the four halves of `in[start_block + i]` (lines 77-80) are one step.
-/
namespace Verif.HashThreads

/-- Contents of memory: blocks by address. -/
abbrev Mem := Nat → U128

/-- An `absl::Span<absl::uint128>`. -/
structure Span where
  data : Nat
  size : Nat

/-- The arguments of a call of `Evaluate` (/repo/dpf/aes_128_fixed_key_hash.cc:59-60): `object` tells which
`Aes128FixedKeyHash` it is called on. -/
structure Call where
  object : Nat
  input : Span
  out : Span

/-- Where a thread is in `Evaluate` (/repo/dpf/aes_128_fixed_key_hash.cc:61-99): before the first line; about to compute
`sigma_in[i]` in the iteration for `start_block = start`; about to write block `i` of the batch in `EVP_Cipher`; about to
read, or to write, `out[start_block + i]` in line 95; or returned. -/
inductive Pc where
  | entry
  | sigma (start i : Nat)
  | cipher (start i : Nat)
  | load (start i : Nat)
  | store (start i : Nat) (x : U128)
  | done (status : Res Unit)

/-- The variables of a thread. -/
structure Local where
  pc : Pc
  sigmaIn : Nat → U128

/-- `batch_size` (/repo/dpf/aes_128_fixed_key_hash.cc:75). -/
def batchSize (size start : Nat) : Nat := min (size - start) Aes128FixedKeyHash.kBatchSize

/-- The head of the loop over batches (/repo/dpf/aes_128_fixed_key_hash.cc:73-74). -/
def batchOrReturn (size start : Nat) : Pc :=
  if start < size then .sigma start 0 else .done (.ok ())

/-- One step of a thread in a call (/repo/dpf/aes_128_fixed_key_hash.cc:61-99): the memory and the variables afterwards,
or `none` if it has returned. `keys` are the keys in the cipher contexts of the objects. `EVP_Cipher` does not change the
context (lines 83-84) and encrypts block by block; failures of it (lines 89-94) are left out. -/
def step (aes : U128 → U128 → U128) (keys : Nat → U128) (c : Call) (mem : Mem) (l : Local) : Option (Mem × Local) :=
  match l.pc with
  | .entry =>
    if c.input.size ≠ c.out.size then some (mem, { l with pc := .done (.err .invalidArgument) })
    else some (mem, { l with pc := batchOrReturn c.input.size 0 })
  | .sigma start i =>
    some (mem, {
      pc := if i + 1 < batchSize c.input.size start then .sigma start (i + 1) else .cipher start 0
      sigmaIn := fun j => if j = i then Verif.sigma (mem (c.input.data + (start + i))) else l.sigmaIn j })
  | .cipher start i =>
    some (fun a => if a = c.out.data + (start + i) then aes (keys c.object) (l.sigmaIn i) else mem a,
      { l with pc := if i + 1 < batchSize c.input.size start then .cipher start (i + 1) else .load start 0 })
  | .load start i => some (mem, { l with pc := .store start i (mem (c.out.data + (start + i))) })
  | .store start i x =>
    some (fun a => if a = c.out.data + (start + i) then x ^^^ l.sigmaIn i else mem a,
      { l with pc := if i + 1 < batchSize c.input.size start then .load start (i + 1)
          else batchOrReturn c.input.size (start + Aes128FixedKeyHash.kBatchSize) })
  | .done _ => none

/-- What the next step of a thread reads (the address) or writes (/repo/dpf/aes_128_fixed_key_hash.cc:77-80, 85-88, 95). -/
inductive Access where
  | read (a : Nat)
  | write (a : Nat)

@[inherit_doc Access]
def nextAccess (c : Call) (l : Local) : Option Access :=
  match l.pc with
  | .sigma start i => some (.read (c.input.data + (start + i)))
  | .cipher start i => some (.write (c.out.data + (start + i)))
  | .load start i => some (.read (c.out.data + (start + i)))
  | .store start i _ => some (.write (c.out.data + (start + i)))
  | .entry => none
  | .done _ => none

/-- Memory, the keys in the cipher contexts, and the variables of the threads. -/
structure State where
  mem : Mem
  keys : Nat → U128
  locals : List Local

/-- A step of one of the threads. -/
inductive Step (aes : U128 → U128 → U128) (calls : List Call) : State → State → Prop
  | mk {s : State} {i : Nat} {c : Call} {l l' : Local} {mem' : Mem} : calls[i]? = some c → s.locals[i]? = some l →
      step aes s.keys c s.mem l = some (mem', l') →
      Step aes calls s { s with mem := mem', locals := s.locals.set i l' }

/-- The states that can be reached by steps of the threads in any order. -/
inductive Reach (aes : U128 → U128 → U128) (calls : List Call) (s0 : State) : Nat → State → Prop
  | start : Reach aes calls s0 0 s0
  | next {n : Nat} {s s' : State} : Reach aes calls s0 n s → Step aes calls s s' → Reach aes calls s0 (n + 1) s'

/-- All threads are about to call `Evaluate`, with uninitialised variables. -/
def Started (calls : List Call) (s : State) : Prop :=
  s.locals.length = calls.length ∧ ∀ l ∈ s.locals, l.pc = .entry

end Verif.HashThreads
