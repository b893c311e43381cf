import Verif.Lemmas.HashThreads
/-!
# C87: threads may share hash objects
-/
namespace Verif
open Res Spec HashThreads

/-- C87: whatever the other threads do and have done, a call that has returned has written the hashes of the blocks that
were in its input when the threads started, with the key of its object; or, if the spans have different sizes, it has
returned INVALID_ARGUMENT and its output is as before. -/
theorem C87_result (aes : U128 → U128 → U128) (calls : List Call) (hsep : Separate calls)
    (hkeep : ∀ c ∈ calls, Keeps c) (s0 s : State) (n : Nat) (h0 : Started calls s0) (hr : Reach aes calls s0 n s)
    (i : Nat) (c : Call) (l : Local) (r : Res Unit) (hc : calls[i]? = some c) (hl : s.locals[i]? = some l)
    (hd : l.pc = .done r) :
    (c.input.size = c.out.size → r = ok () ∧ Hashed aes (s0.keys c.object) c s0.mem s.mem) ∧
    (c.input.size ≠ c.out.size → r = err .invalidArgument ∧ ∀ a, InSpan c.out a → s.mem a = s0.mem a) := by
  have h := (sysInv hsep hkeep h0 hr).each i c l hc hl
  unfold HashThreads.Inv at h
  rw [hd] at h
  rcases h with ⟨h1, h2, h3⟩ | ⟨h1, h2, h3⟩
  · exact ⟨fun _ => ⟨h1, h3⟩, fun hn => absurd h2 hn⟩
  · refine ⟨fun hn => absurd hn h2, fun _ => ⟨h1, fun a ha => ?_⟩⟩
    obtain ⟨ha1, ha2⟩ := ha
    have := h3 (a - c.out.data) (by omega)
    rwa [show c.out.data + (a - c.out.data) = a by omega] at this

/-- C87: at no time can two threads access the same block when one of them writes, and no access is outside of the spans
of the call. -/
theorem C87_no_race (aes : U128 → U128 → U128) (calls : List Call) (hsep : Separate calls)
    (hkeep : ∀ c ∈ calls, Keeps c) (s0 s : State) (n : Nat) (h0 : Started calls s0) (hr : Reach aes calls s0 n s)
    (i : Nat) (c : Call) (l : Local) (a : Access) (hc : calls[i]? = some c) (hl : s.locals[i]? = some l)
    (ha : nextAccess c l = some a) :
    (InSpan c.input (Access.address a) ∨ InSpan c.out (Access.address a)) ∧
    ∀ (j : Nat) (c' : Call) (l' : Local) (b : Access), calls[j]? = some c' → s.locals[j]? = some l' → i ≠ j →
      nextAccess c' l' = some b → ¬ Conflict a b := by
  have inv := sysInv hsep hkeep h0 hr
  have h1 := nextAccess_in (inv.each i c l hc hl) ha
  refine ⟨?_, ?_⟩
  · cases a with
    | read x => exact h1
    | write x => exact Or.inr h1
  · intro j c' l' b hc' hl' hij hb hconf
    have h2 := nextAccess_in (inv.each j c' l' hc' hl') hb
    obtain ⟨d1, d2⟩ := hsep i j c c' hc hc' hij
    obtain ⟨d3, d4⟩ := hsep j i c' c hc' hc (Ne.symm hij)
    cases a with
    | read x =>
      cases b with
      | read y => exact hconf
      | write y =>
        cases (show x = y from hconf)
        rcases h1 with h1 | h1
        · exact d3 x ⟨h2, h1⟩
        · exact d4 x ⟨h2, h1⟩
    | write x =>
      cases b with
      | read y =>
        cases (show x = y from hconf)
        rcases h2 with h2 | h2
        · exact d1 x ⟨h1, h2⟩
        · exact d2 x ⟨h1, h2⟩
      | write y =>
        cases (show x = y from hconf)
        exact d2 x ⟨h1, h2⟩

/-- C87: the keys in the objects, and all blocks that are in no output, stay as they are. -/
theorem C87_rest (aes : U128 → U128 → U128) (calls : List Call) (hsep : Separate calls)
    (hkeep : ∀ c ∈ calls, Keeps c) (s0 s : State) (n : Nat) (h0 : Started calls s0) (hr : Reach aes calls s0 n s) :
    s.keys = s0.keys ∧ ∀ a, (∀ c ∈ calls, ¬ InSpan c.out a) → s.mem a = s0.mem a :=
  ⟨(sysInv hsep hkeep h0 hr).keys, (sysInv hsep hkeep h0 hr).other⟩

/-- C87: in whatever order the threads run, no thread waits for another one, and after four steps per block of input and
one per call all have returned. -/
theorem C87_terminates (aes : U128 → U128 → U128) (calls : List Call) (hsep : Separate calls)
    (hkeep : ∀ c ∈ calls, Keeps c) (s0 s : State) (n : Nat) (h0 : Started calls s0) (hr : Reach aes calls s0 n s) :
    n ≤ (calls.map fun c => 1 + 4 * c.input.size).sum ∧
    ∀ (i : Nat) (c : Call) (l : Local), calls[i]? = some c → s.locals[i]? = some l → (∀ r, l.pc ≠ .done r) →
      ∃ l' mem', Step aes calls s { s with mem := mem', locals := s.locals.set i l' } := by
  have inv := sysInv hsep hkeep h0 hr
  refine ⟨by have := inv.steps; omega, ?_⟩
  intro i c l hc hl hn
  obtain ⟨⟨mem', l'⟩, h⟩ := step_some aes s.keys c s.mem l hn
  exact ⟨l', mem', .mk hc hl h⟩

/-! ## Examples -/

/-- Runs the threads in the order given by their numbers. -/
def runOrder (aes : U128 → U128 → U128) (calls : List Call) : List Nat → State → Option State
  | [], s => some s
  | i :: is, s =>
    match calls[i]?, s.locals[i]? with
    | some c, some l =>
      match step aes s.keys c s.mem l with
      | some (mem', l') => runOrder aes calls is { s with mem := mem', locals := s.locals.set i l' }
      | none => none
    | _, _ => none

theorem reach_runOrder {aes : U128 → U128 → U128} {calls : List Call} {s0 : State} :
    ∀ (is : List Nat) {n : Nat} {s s' : State}, Reach aes calls s0 n s → runOrder aes calls is s = some s' →
      Reach aes calls s0 (n + is.length) s'
  | [], n, s, s', h, hr => by cases hr; exact h
  | i :: is, n, s, s', h, hr => by
    unfold runOrder at hr
    split at hr
    · rename_i c l hc hl
      split at hr
      · rename_i mem' l' hst
        have := reach_runOrder is (h.next (.mk hc hl hst)) hr
        rwa [show n + 1 + is.length = n + (i :: is).length by simp; omega] at this
      · cases hr
    · cases hr

/-- Three calls: two of them with the same object and input, one in place. -/
def exCalls : List Call := [⟨0, ⟨0, 2⟩, ⟨10, 2⟩⟩, ⟨0, ⟨0, 2⟩, ⟨20, 2⟩⟩, ⟨1, ⟨30, 3⟩, ⟨30, 3⟩⟩]

/-- Block `a` holds `a + 5`. -/
def exThreads : State :=
  ⟨fun a => BitVec.ofNat 128 (a + 5), fun o => BitVec.ofNat 128 (o + 7), List.replicate 3 ⟨.entry, fun _ => 0⟩⟩

/-- An order in which the threads take turns. -/
def exOrder : List Nat := [0, 1, 2, 2, 0, 1, 2, 1, 1, 0, 0, 2, 2, 2, 0, 1, 2, 2, 1, 0, 0, 1, 2, 2, 1, 0, 2, 1, 0, 2, 2]

theorem exCalls_separate : Separate exCalls := by
  intro i j c c' hi hj hij
  match i, j with
  | 0, 0 => exact absurd rfl hij
  | 1, 1 => exact absurd rfl hij
  | 2, 2 => exact absurd rfl hij
  | 0, 1 | 0, 2 | 1, 0 | 1, 2 | 2, 0 | 2, 1 =>
    cases hi
    cases hj
    constructor <;> (intro a; simp only [InSpan]; omega)
  | i + 3, _ => simp [exCalls] at hi
  | 0, j + 3 => simp [exCalls] at hj
  | 1, j + 3 => simp [exCalls] at hj
  | 2, j + 3 => simp [exCalls] at hj

/-- Some permutation in place of AES. -/
def exCipher (k x : U128) : U128 := k ^^^ (x * 5 + 3)

/-- All threads have returned OK. -/
def allReturned (s : State) : Bool :=
  s.locals.all fun l => match l.pc with | .done (.ok ()) => true | _ => false

theorem exCalls_keeps : ∀ c ∈ exCalls, Keeps c := by
  intro c hc
  simp only [exCalls, List.mem_cons, List.not_mem_nil, or_false] at hc
  rcases hc with rfl | rfl | rfl <;> exact Or.inr (Or.inr (by decide))

theorem exThreads_started : Started exCalls exThreads := by
  refine ⟨rfl, fun l hl => ?_⟩
  rw [List.eq_of_mem_replicate hl]

/-- C87 on the example: the three threads return, after 31 steps, and the last one has hashed in place. -/
example : ∃ s, Reach exCipher exCalls exThreads 31 s ∧ allReturned s = true ∧
    s.mem 32 = hashBlock exCipher 8 37 := by
  have h : ((runOrder exCipher exCalls exOrder exThreads).map allReturned) = some true := by decide +kernel
  obtain ⟨s, hs, h2⟩ := Option.map_eq_some_iff.mp h
  have hr := reach_runOrder exOrder .start hs
  refine ⟨s, hr, h2, ?_⟩
  have hlen := (sysInv exCalls_separate exCalls_keeps exThreads_started hr).len
  have h2' : 2 < s.locals.length := by rw [hlen]; exact Nat.lt_succ_self 2
  have h3 : (s.locals[2]).pc = .done (ok ()) := by
    have := List.all_eq_true.mp h2 _ (List.getElem_mem h2')
    split at this
    · assumption
    · cases this
  exact ((C87_result _ _ exCalls_separate exCalls_keeps _ _ _ exThreads_started hr 2 _ _ _ rfl
    (List.getElem?_eq_getElem _) h3).1 rfl).2 2 (by decide)

/-- C87 does not hold if the output begins within the input and there is more than one batch: the first batch overwrites
the input of the second. Here 65 blocks are hashed to the next addresses, and the last output is the hash of a hash. -/
theorem C87_overlap_refuted : ∃ (aes : U128 → U128 → U128) (c : Call) (s0 s : State) (n : Nat),
    Started [c] s0 ∧ Reach aes [c] s0 n s ∧ allReturned s = true ∧ c.input.size = c.out.size ∧
    ¬ Hashed aes (s0.keys c.object) c s0.mem s.mem := by
  have h : (runOrder exCipher [⟨0, ⟨0, 65⟩, ⟨1, 65⟩⟩] (List.replicate 261 0)
      ⟨fun a => BitVec.ofNat 128 (a + 5), fun _ => 7, [⟨.entry, fun _ => 0⟩]⟩).map (fun s =>
        allReturned s && s.mem 65 != hashBlock exCipher 7 69) = some true := by decide +kernel
  obtain ⟨s, hs, h2⟩ := Option.map_eq_some_iff.mp h
  rw [Bool.and_eq_true] at h2
  refine ⟨exCipher, _, _, s, _, ⟨rfl, ?_⟩, reach_runOrder _ .start hs, h2.1, rfl, fun hh => ?_⟩
  · intro l hl
    rw [List.mem_singleton.mp hl]
  · have h3 := hh 64 (by decide)
    have h4 := h2.2
    rw [bne_iff_ne] at h4
    exact h4 h3

/-- C87 does not hold if two threads have the same output: the second one overwrites the hash of the first. -/
theorem C87_shared_output_refuted : ∃ (aes : U128 → U128 → U128) (c c' : Call) (s0 s : State) (n : Nat),
    Keeps c ∧ Keeps c' ∧ Disjoint c.out c'.input ∧ Disjoint c'.out c.input ∧
    Started [c, c'] s0 ∧ Reach aes [c, c'] s0 n s ∧ allReturned s = true ∧ c.input.size = c.out.size ∧
    ¬ Hashed aes (s0.keys c.object) c s0.mem s.mem := by
  have h : (runOrder exCipher [⟨0, ⟨0, 1⟩, ⟨10, 1⟩⟩, ⟨0, ⟨1, 1⟩, ⟨10, 1⟩⟩] [0, 0, 0, 0, 0, 1, 1, 1, 1, 1]
      ⟨fun a => BitVec.ofNat 128 (a + 5), fun _ => 7, List.replicate 2 ⟨.entry, fun _ => 0⟩⟩).map (fun s =>
        allReturned s && s.mem 10 != hashBlock exCipher 7 5) = some true := by decide +kernel
  obtain ⟨s, hs, h2⟩ := Option.map_eq_some_iff.mp h
  rw [Bool.and_eq_true] at h2
  refine ⟨exCipher, _, _, _, s, _, Or.inr (Or.inl (by decide)), Or.inr (Or.inl (by decide)), ?_, ?_, ⟨rfl, ?_⟩,
    reach_runOrder _ .start hs, h2.1, rfl, fun hh => ?_⟩
  · intro a
    simp only [InSpan]
    omega
  · intro a
    simp only [InSpan]
    omega
  · intro l hl
    rw [List.eq_of_mem_replicate hl]
  · have h3 := hh 0 (by decide)
    have h4 := h2.2
    rw [bne_iff_ne] at h4
    exact h4 h3

/-- C87 on the example, in every state that the three threads reach. -/
example (s : State) (n : Nat) (h : Reach exCipher exCalls exThreads n s) : n ≤ 31 ∧ s.keys = exThreads.keys ∧ s.mem 0 = 5 := by
  refine ⟨(C87_terminates exCipher exCalls exCalls_separate exCalls_keeps _ s n exThreads_started h).1,
    (C87_rest exCipher exCalls exCalls_separate exCalls_keeps _ s n exThreads_started h).1,
    (C87_rest exCipher exCalls exCalls_separate exCalls_keeps _ s n exThreads_started h).2 0 ?_⟩
  intro c hc
  simp only [exCalls, List.mem_cons, List.not_mem_nil, or_false] at hc
  rcases hc with rfl | rfl | rfl <;> simp [InSpan]
example (s : State) (n : Nat) (h : Reach exCipher exCalls exThreads n s) (l l' : Local) (a b : Access)
    (hl : s.locals[0]? = some l) (hl' : s.locals[2]? = some l') (ha : nextAccess ⟨0, ⟨0, 2⟩, ⟨10, 2⟩⟩ l = some a)
    (hb : nextAccess ⟨1, ⟨30, 3⟩, ⟨30, 3⟩⟩ l' = some b) : ¬ Conflict a b :=
  (C87_no_race exCipher exCalls exCalls_separate exCalls_keeps _ s n exThreads_started h 0 _ l a rfl hl ha).2 2 _ l' b rfl hl'
    (by decide) hb

end Verif
