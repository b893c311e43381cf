import Verif.Props.Hashing
/-!
# The hash functions of a family are independent of each other (C81)

`CreateHashFunctions` gives the `i`-th function the seed `StrCat(i)`, `WrapWithSeed` puts the seed of the
family in front of it and SHA-256 hashes that seed followed by the input. Nothing separates the three
parts. Independence is stated as: whatever functions `f seed i` one asks for, there is a hash that makes
the `i`-th function of the family with this seed equal to `f seed i`, so no relation between the
functions holds by construction. A relation that holds for every hash refutes it.
-/
namespace Verif
open Res

theorem digits_inj {i j : Nat} (h : stringBytes (toString i) = stringBytes (toString j)) :
    i = j := by
  have key : ∀ (l m : List Char), (∀ c ∈ l, c.isDigit = true) → (∀ c ∈ m, c.isDigit = true) →
      l.map (fun c => BitVec.ofNat 8 c.toNat) = m.map (fun c => BitVec.ofNat 8 c.toNat) → l = m := by
    intro l
    induction l with
    | nil => intro m _ _ h; cases m with
      | nil => rfl
      | cons => cases h
    | cons c l ih =>
      intro m hl hm h
      cases m with
      | nil => cases h
      | cons d m =>
        simp only [List.map_cons, List.cons.injEq] at h
        have h1 := hl c (by simp)
        have h2 := hm d (by simp)
        simp only [Char.isDigit, Bool.and_eq_true, decide_eq_true_eq, UInt32.le_iff_toNat_le] at h1 h2
        have h3 := congrArg BitVec.toNat h.1
        simp only [BitVec.toNat_ofNat] at h3
        have e1 : c.toNat = c.val.toNat := rfl
        have e2 : d.toNat = d.val.toNat := rfl
        have h4 : c.toNat = d.toNat := by
          have a1 : c.val.toNat ≤ 57 := h1.2
          have a2 : d.val.toNat ≤ 57 := h2.2
          omega
        rw [ih m (fun c hc => hl c (by simp [hc])) (fun c hc => hm c (by simp [hc])) h.2,
          Char.toNat_inj.mp h4]
  have hd : ∀ n : Nat, ∀ c ∈ (toString n).toList, c.isDigit = true := by
    intro n c hc
    rw [Nat.toString_eq_repr, Nat.repr_eq_ofList_toDigits, String.toList_ofList] at hc
    exact Nat.isDigit_of_mem_toDigits (b := 10) (by decide) (by decide) hc
  have h5 := key _ _ (hd i) (hd j) h
  have h6 := congrArg (fun l => Nat.ofDigitChars 10 l 0) h5
  simpa only [Nat.toString_eq_repr, Nat.toList_repr,
    Nat.ofDigitChars_toDigits (b := 10) (by decide) (by decide)] using h6

theorem digits_single {i : Nat} (h : i < 10) :
    stringBytes (toString i) = [BitVec.ofNat 8 (48 + i)] := by
  have h2 : ∀ j : Fin 10, stringBytes (toString j.val) = [BitVec.ofNat 8 (48 + j.val)] := by
    decide +kernel
  exact h2 ⟨i, h⟩

private theorem digits_append {i d : Nat} (hi : 0 < i) (hd : d < 10) :
    stringBytes (toString (10 * i + d)) = stringBytes (toString i) ++ stringBytes (toString d) := by
  unfold stringBytes
  simp only [Nat.toString_eq_repr, Nat.toList_repr]
  rw [← List.map_append, Nat.toDigits_append_toDigits (by decide) hi hd]

/-- The full claim for SHA-256 with `k` functions and seeds of `len` bytes: whatever digests `f seed i`
one asks for, there is a hash in place of SHA-256 for which the `i`-th function of the configuration with
seed `seed` reduces `f seed i input`. -/
def Independent (len k : Nat) : Prop :=
  ∀ f : Bytes → Nat → Bytes → Bytes, (∀ seed i input, (f seed i input).length = 32) →
    ∃ sha : Sha256, ∀ seed : Bytes, seed.length = len →
      ∃ family functions, createHashFamilyFromConfig sha ⟨1, seed⟩ = ok family ∧
        createHashFunctions family k = ok functions ∧ functions.length = k ∧
        ∀ (i : Nat) (h : HashFunction), functions[i]? = some h →
          ∀ (input : Bytes) (n : Nat), 0 < n → n < 2 ^ 31 →
            h input n = ok ((leNat (f seed i input) % n : Nat) : Int)

theorem config_functions (sha : Sha256) {seed : Bytes} (hs : seed ≠ []) (k : Nat) :
    createHashFamilyFromConfig sha ⟨1, seed⟩ = ok (wrapWithSeed sha.hashFamily seed) ∧
      createHashFunctions (wrapWithSeed sha.hashFamily seed) k = ok ((List.range k).map fun i =>
        sha.hashFunction (seed ++ stringBytes (toString i))) := by
  constructor
  · unfold createHashFamilyFromConfig
    rw [failIf_false (by simpa using hs), bind_ok, if_pos rfl]
  · unfold createHashFunctions
    rw [failIf_false (by omega), bind_ok]
    rfl

/-- C81: with up to ten functions, and seeds of one length, the hash functions of all configurations are
independent: every choice of digests is met. From eleven functions on this is false. (What is missing
of the property: more than ten functions.) -/
theorem C81_functions_partial (len k : Nat) (hlen : 0 < len) : Independent len k ↔ k ≤ 10 := by
  constructor
  · intro h
    apply Nat.le_of_not_lt
    intro hk
    obtain ⟨sha, h1⟩ := h (fun _ i _ => if i = 1 then 1 :: List.replicate 31 0 else List.replicate 32 0)
      (by intro _ i _; split <;> simp)
    have hne : (List.replicate len (0 : BitVec 8)) ≠ [] := by
      intro h; have := congrArg List.length h; simp at this; omega
    obtain ⟨family, fs, h2, h3, -, h4⟩ := h1 (List.replicate len 0) (by simp)
    obtain ⟨e1, e2⟩ := config_functions sha hne k
    rw [e1] at h2
    obtain rfl := Res.ok.inj h2
    rw [e2] at h3
    obtain rfl := Res.ok.inj h3
    have a1 := h4 1 _ (by rw [List.getElem?_map, List.getElem?_range (by omega)]; rfl)
      (stringBytes (toString 0)) 2 (by decide) (by decide)
    have a2 := h4 10 _ (by rw [List.getElem?_map, List.getElem?_range (by omega)]; rfl)
      [] 2 (by decide) (by decide)
    dsimp only at a1 a2
    rw [sha_hashFunction_ok sha _ _ (n := 2) (by decide) (by decide)] at a1 a2
    rw [show (10 : Nat) = 10 * 1 + 0 from rfl, digits_append (by decide) (by decide), List.append_nil,
      ← List.append_assoc] at a2
    rw [a1] at a2
    revert a2
    decide +kernel
  · intro hk f hf
    refine ⟨⟨fun m => f (m.take len) ((m.getD len 0).toNat - 48) (m.drop (len + 1)),
      fun m => hf _ _ _⟩, ?_⟩
    intro seed hs
    have hne : seed ≠ [] := by rintro rfl; simp at hs; omega
    obtain ⟨e1, e2⟩ := config_functions ⟨fun m => f (m.take len) ((m.getD len 0).toNat - 48)
      (m.drop (len + 1)), fun m => hf _ _ _⟩ hne k
    refine ⟨_, _, e1, e2, by simp, ?_⟩
    intro i h hi input n hn hn2
    rw [List.getElem?_map] at hi
    by_cases hik : i < k
    · rw [List.getElem?_range hik] at hi
      obtain rfl := Option.some.inj hi
      dsimp only
      rw [sha_hashFunction_ok _ _ _ hn hn2]
      dsimp only
      rw [digits_single (by omega), List.append_assoc, ← hs, List.take_left' rfl,
        List.getD_eq_getElem?_getD, List.getElem?_append_right (Nat.le_refl _), Nat.sub_self,
        ← List.drop_drop, List.drop_left' rfl]
      simp only [List.singleton_append, List.getElem?_cons_zero, Option.getD_some, List.drop_succ_cons,
        List.drop_zero, BitVec.toNat_ofNat]
      rw [show (48 + i) % 2 ^ 8 - 48 = i by omega]
    · rw [List.getElem?_eq_none (by simpa using hik)] at hi
      cases hi

/-- C81 fails from eleven functions on, whatever the hash: function `10 i + d` of a configuration is
function `i` of the same configuration on the input with the digit `d` in front. -/
theorem C81_functions_refuted (sha : Sha256) (seed : Bytes) (hs : seed ≠ []) (k : Nat)
    (family : HashFamily) (functions : List HashFunction)
    (hc : createHashFamilyFromConfig sha ⟨1, seed⟩ = ok family)
    (hf : createHashFunctions family k = ok functions) (i d : Nat) (hi : 0 < i) (hd : d < 10)
    (g h : HashFunction) (hg : functions[i]? = some g) (hh : functions[10 * i + d]? = some h)
    (input : Bytes) (n : Nat) (hn : 0 < n) (hn2 : n < 2 ^ 31) :
    h input n = g (stringBytes (toString d) ++ input) n := by
  obtain ⟨e1, e2⟩ := config_functions sha hs k
  rw [e1] at hc
  obtain rfl := Res.ok.inj hc
  rw [e2] at hf
  obtain rfl := Res.ok.inj hf
  have hk : 10 * i + d < k := by
    have := (List.getElem?_eq_some_iff.mp hh).1
    simpa using this
  rw [List.getElem?_map, List.getElem?_range hk] at hh
  rw [List.getElem?_map, List.getElem?_range (by omega)] at hg
  obtain rfl := Option.some.inj hh
  obtain rfl := Option.some.inj hg
  dsimp only
  rw [sha_hashFunction_ok _ _ _ hn hn2, sha_hashFunction_ok _ _ _ hn hn2, digits_append hi hd]
  simp only [List.append_assoc]

/-- C81 fails for seeds of different lengths, whatever the hash and already for one function: with the
digit 0 appended to the seed, the first function is the first function of the shorter seed on the input
with this digit in front. -/
theorem C81_seeds_refuted (sha : Sha256) (seed : Bytes) (hs : seed ≠ []) (k : Nat) (hk : 0 < k) :
    ∃ family family' functions functions' g h,
      createHashFamilyFromConfig sha ⟨1, seed⟩ = ok family ∧
      createHashFamilyFromConfig sha ⟨1, seed ++ stringBytes "0"⟩ = ok family' ∧
      createHashFunctions family k = ok functions ∧ createHashFunctions family' k = ok functions' ∧
      functions[0]? = some g ∧ functions'[0]? = some h ∧
      ∀ (input : Bytes) (n : Nat), 0 < n → n < 2 ^ 31 →
        h input n = g (stringBytes "0" ++ input) n := by
  obtain ⟨e1, e2⟩ := config_functions sha hs k
  obtain ⟨e3, e4⟩ := config_functions sha (seed := seed ++ stringBytes "0") (by simp [hs]) k
  refine ⟨_, _, _, _, sha.hashFunction (seed ++ stringBytes (toString 0)),
    sha.hashFunction (seed ++ stringBytes "0" ++ stringBytes (toString 0)), e1, e3, e2, e4,
    by rw [List.getElem?_map, List.getElem?_range hk]; rfl,
    by rw [List.getElem?_map, List.getElem?_range hk]; rfl, ?_⟩
  intro input n hn hn2
  rw [sha_hashFunction_ok _ _ _ hn hn2, sha_hashFunction_ok _ _ _ hn hn2,
    show toString 0 = "0" from rfl]
  simp only [List.append_assoc]

/-- C81: any family (also FarmHash) that treats different seeds independently gives independent functions,
any number of them, for family seeds of one length. -/
theorem C81_family (f : Bytes → Nat → HashFunction) (len : Nat) :
    ∃ family : HashFamily, ∀ seed : Bytes, seed.length = len → ∀ k : Nat,
      ∃ functions, createHashFunctions (wrapWithSeed family seed) k = ok functions ∧
        functions.length = k ∧
        ∀ (i : Nat) (h : HashFunction), functions[i]? = some h → h = f seed i := by
  classical
  refine ⟨fun s => if h : ∃ j : Nat, s.drop len = stringBytes (toString j)
    then f (s.take len) h.choose else f [] 0, ?_⟩
  intro seed hs k
  unfold createHashFunctions
  rw [failIf_false (by omega), bind_ok]
  refine ⟨_, rfl, by simp, ?_⟩
  intro i h hi
  rw [List.getElem?_map] at hi
  by_cases hik : i < k
  · rw [List.getElem?_range (by simpa using hik)] at hi
    obtain rfl := Option.some.inj hi
    have h1 : ∃ j : Nat, (seed ++ stringBytes (toString i)).drop len = stringBytes (toString j) :=
      ⟨i, by rw [List.drop_left' hs]⟩
    unfold wrapWithSeed
    dsimp only
    rw [dif_pos h1, List.take_left' hs]
    rw [digits_inj ((List.drop_left' hs).symm.trans h1.choose_spec) |>.symm]
  · rw [List.getElem?_eq_none (by simpa using hik)] at hi
    cases hi

/-- The hypotheses of C81 are met: eleven functions of a configuration. -/
example : ∃ family functions, createHashFamilyFromConfig exSha ⟨1, [7, 8]⟩ = ok family ∧
    createHashFunctions family 11 = ok functions ∧ functions.length = 11 :=
  ⟨_, _, rfl, rfl, rfl⟩

/-- The third function of a configuration, and the relation between functions 1 and 10. -/
example : exSha.hashFunction ([7, 8] ++ stringBytes "10") [5] 1000 =
    exSha.hashFunction ([7, 8] ++ stringBytes "1") (stringBytes "0" ++ [5]) 1000 ∧
    exSha.hashFunction ([7, 8] ++ stringBytes "1") [5] 1000 ≠
      exSha.hashFunction ([7, 8] ++ stringBytes "2") [5] 1000 := by
  decide +kernel

/-- C81 for ten and eleven functions. -/
example : Independent 32 10 ∧ ¬ Independent 32 11 :=
  ⟨(C81_functions_partial 32 10 (by decide)).mpr (by decide), fun h => absurd ((C81_functions_partial 32 11 (by decide)).mp h) (by decide)⟩

end Verif
