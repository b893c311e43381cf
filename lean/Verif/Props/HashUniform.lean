import Verif.Spec.HashUniform
import Verif.Props.HashSeparation
import Verif.Lemmas.IdealBits
import Mathlib.Data.Int.CardIntervalMod
import Mathlib.SetTheory.Cardinal.Finite
/-!
# Hash values are uniform up to rounding (C90)

SHA-256 is idealised: its answers to different messages are independent and uniform on strings of 32 bytes. What is
proved does not need probabilities: of all possible answers, the numbers of those that lead to given hash values are
counted.
-/
namespace Verif
open Res Spec

theorem card_residues (total n v : Nat) (hn : 0 < n) (hv : v < n) :
    Nat.card { x : Fin total // x.val % n = v } = evenShare total n v := by
  have h1 : Nat.card { x : Fin total // x.val % n = v } = total.count (· ≡ v [MOD n]) := by
    rw [Nat.count_eq_card_filter_range, Nat.card_eq_fintype_card, Fintype.card_subtype]
    refine Finset.card_bij (fun x _ => x.val) ?_ ?_ ?_
    · intro x hx
      simp only [Finset.mem_filter, Finset.mem_univ, true_and] at hx
      simp only [Finset.mem_filter, Finset.mem_range]
      exact ⟨x.isLt, by rw [Nat.ModEq, hx, Nat.mod_eq_of_lt hv]⟩
    · intro x _ y _ h
      exact Fin.ext h
    · intro x hx
      simp only [Finset.mem_filter, Finset.mem_range] at hx
      refine ⟨⟨x, hx.1⟩, ?_, rfl⟩
      simp only [Finset.mem_filter, Finset.mem_univ, true_and]
      have := hx.2
      rwa [Nat.ModEq, Nat.mod_eq_of_lt hv] at this
  rw [h1, Nat.count_modEq_card _ hn, Nat.mod_eq_of_lt hv]
  rfl

/-- Digests are the numbers below 2^256. -/
def digestEquiv : Digest ≃ Fin (2 ^ 256) where
  toFun d := ⟨leNat d.1, by have := leNat_lt d.1; rw [d.2] at this; exact this⟩
  invFun x := ⟨leBytes 32 x.val, leBytes_length _ _⟩
  left_inv d := by
    apply Subtype.ext
    have := leBytes_leNat d.1
    rw [d.2] at this
    exact this
  right_inv x := Fin.ext (leNat_leBytes 32 x.val x.isLt)

theorem card_digests (n v : Nat) (hn : 0 < n) (hv : v < n) :
    Nat.card { d : Digest // leNat d.1 % n = v } = evenShare (2 ^ 256) n v := by
  rw [← card_residues _ n v hn hv]
  exact Nat.card_congr (digestEquiv.subtypeEquiv fun d => Iff.rfl)

/-- Some hash with given answers. -/
def shaOf (f : Bytes → Digest) : Sha256 := ⟨fun m => (f m).1, fun m => (f m).2⟩

/-- C90: of the 2^256 answers of SHA-256 to a message, each value below the bound `n` is the hash value for
`2^256 / n` of them, rounded down or up. -/
theorem C90_sha256 (seed input : Bytes) (n v : Nat) (hn : n < 2 ^ 31) (hv : v < n) :
    Nat.card { d : Digest // ∀ sha : Sha256, sha.digest (seed ++ input) = d.1 →
      sha.hashFunction seed input n = ok (v : Int) } = evenShare (2 ^ 256) n v := by
  rw [← card_digests n v (by omega) hv]
  refine Nat.card_congr (Equiv.subtypeEquivRight fun d => ⟨fun h => ?_, fun h sha hs => ?_⟩)
  · have h1 := h (shaOf fun _ => d) rfl
    rw [sha_hashFunction_ok _ _ _ (by omega) hn] at h1
    have h2 := Res.ok.inj h1
    exact_mod_cast h2
  · rw [sha_hashFunction_ok _ _ _ (by omega) hn, hs, h]

/-- C90 for several values: `q j` says which function is applied to what, with the bound `n j`. If the queries differ,
all combinations of values are met by the expected number of answers: the values are independent. -/
theorem C90_family (seed : Bytes) (hs : seed ≠ []) (k : Nat) (hk : k ≤ 10) (m : Nat) (q : Fin m → Nat × Bytes)
    (hq : ∀ i j, q i = q j → i = j) (hi : ∀ j, (q j).1 < k) (n v : Fin m → Nat) (hn : ∀ j, n j < 2 ^ 31)
    (hv : ∀ j, v j < n j) :
    Nat.card { d : Fin m → Digest // ∃ sha family functions,
      (∀ j, sha.digest (seed ++ stringBytes (toString (q j).1) ++ (q j).2) = (d j).1) ∧
      createHashFamilyFromConfig sha ⟨1, seed⟩ = ok family ∧ createHashFunctions family k = ok functions ∧
      ∀ j, ∃ f, functions[(q j).1]? = some f ∧ f (q j).2 (n j) = ok (v j : Int) } =
    ∏ j, evenShare (2 ^ 256) (n j) (v j) := by
  have h1 : ∀ j, evenShare (2 ^ 256) (n j) (v j) = Nat.card { d : Digest // leNat d.1 % n j = v j } := fun j =>
    (card_digests _ _ (by have := hv j; omega) (hv j)).symm
  rw [Finset.prod_congr rfl fun j _ => h1 j, ← Nat.card_pi]
  refine (Nat.card_congr (Equiv.subtypeEquivRight fun d => ?_)).trans
    (Nat.card_congr (Equiv.subtypePiEquivPi (p := fun j (d : Digest) => leNat d.1 % n j = v j)))
  have hne : ∀ i j, seed ++ stringBytes (toString (q i).1) ++ (q i).2 =
      seed ++ stringBytes (toString (q j).1) ++ (q j).2 → i = j := by
    intro i j h
    have a1 := hi i
    have a2 := hi j
    rw [List.append_assoc, List.append_assoc, List.append_cancel_left_eq, digits_single (by omega),
      digits_single (by omega), List.singleton_append, List.singleton_append, List.cons.injEq] at h
    refine hq i j (Prod.ext ?_ h.2)
    have := congrArg BitVec.toNat h.1
    simp only [BitVec.toNat_ofNat] at this
    omega
  constructor
  · rintro ⟨sha, family, fs, hd, hc, hf, h⟩ j
    obtain ⟨e1, e2⟩ := config_functions sha hs k
    rw [e1] at hc
    obtain rfl := Res.ok.inj hc
    rw [e2] at hf
    obtain rfl := Res.ok.inj hf
    obtain ⟨f, hf, hfv⟩ := h j
    rw [List.getElem?_map, List.getElem?_range (hi j)] at hf
    obtain rfl := Option.some.inj hf
    dsimp only at hfv
    rw [sha_hashFunction_ok _ _ _ (by have := hv j; omega) (hn j), hd j] at hfv
    have h2 := Res.ok.inj hfv
    exact_mod_cast h2
  · intro h
    classical
    let f : Bytes → Digest := fun b =>
      if hb : ∃ j, b = seed ++ stringBytes (toString (q j).1) ++ (q j).2 then d hb.choose
      else ⟨List.replicate 32 0, by simp⟩
    have hd : ∀ j, (shaOf f).digest (seed ++ stringBytes (toString (q j).1) ++ (q j).2) = (d j).1 := by
      intro j
      have hb : ∃ i, seed ++ stringBytes (toString (q j).1) ++ (q j).2 =
        seed ++ stringBytes (toString (q i).1) ++ (q i).2 := ⟨j, rfl⟩
      show (f _).1 = _
      simp only [f]
      rw [dif_pos hb, ← hne j _ hb.choose_spec]
    obtain ⟨e1, e2⟩ := config_functions (shaOf f) hs k
    refine ⟨shaOf f, _, _, hd, e1, e2, fun j =>
      ⟨(shaOf f).hashFunction (seed ++ stringBytes (toString (q j).1)), ?_, ?_⟩⟩
    · rw [List.getElem?_map, List.getElem?_range (hi j)]
      rfl
    · rw [sha_hashFunction_ok _ _ _ (by have := hv j; omega) (hn j), hd j]
      exact congrArg (fun x : Nat => ok (x : Int)) (h j)

/-- C90 for FarmHash, whose hashes have 128 bits. -/
theorem C90_farm (input : Bytes) (n v : Nat) (hn : n < 2 ^ 31) (hv : v < n) :
    Nat.card { d : U128 // ∀ hash : Bytes → U128, hash input = d → farmHashFunction hash input n = ok (v : Int) } =
      evenShare (2 ^ 128) n v := by
  rw [← card_residues (2 ^ 128) n v (by omega) hv]
  refine Nat.card_congr (Equiv.subtypeEquiv ⟨fun x => x.toFin, fun x => ⟨x⟩, fun _ => rfl, fun _ => rfl⟩ fun d =>
    ⟨fun h => ?_, fun h hash hh => ?_⟩)
  · have h1 := h (fun _ => d) rfl
    rw [C44_farm _ _ _ (by omega) hn] at h1
    have h2 := Res.ok.inj h1
    exact_mod_cast h2
  · rw [C44_farm _ _ _ (by omega) hn, hh]
    exact congrArg (fun x : Nat => ok (x : Int)) h

/-- What even shares are: they add up to the total and differ by at most one. -/
theorem C90_evenShare (total n : Nat) (hn : 0 < n) :
    (List.range n).foldl (fun s v => s + evenShare total n v) 0 = total ∧
      ∀ v w, evenShare total n v ≤ evenShare total n w + 1 := by
  constructor
  · have key : ∀ m, m ≤ n → (List.range m).foldl (fun s v => s + evenShare total n v) 0 =
        m * (total / n) + min m (total % n) := by
      intro m
      induction m with
      | zero => intro _; simp
      | succ m ih =>
        intro hm
        rw [List.range_succ, List.foldl_append, ih (by omega)]
        simp only [List.foldl_cons, List.foldl_nil, evenShare]
        rw [Nat.succ_mul]
        split <;> omega
    rw [key n (Nat.le_refl _), Nat.min_eq_right (Nat.mod_lt _ hn).le]
    exact Nat.div_add_mod total n
  · intro v w
    unfold evenShare
    split <;> split <;> omega

/-- With a power of two as bound, as for a table with 1024 buckets, the shares are equal. -/
example : ∀ v, evenShare (2 ^ 256) 1024 v = 2 ^ 246 := by
  intro v
  unfold evenShare
  rw [if_neg (by norm_num)]
  norm_num

/-- Shares for three buckets. -/
example : evenShare (2 ^ 256) 3 0 = 2 ^ 256 / 3 + 1 ∧ evenShare (2 ^ 256) 3 1 = 2 ^ 256 / 3 ∧
    evenShare (2 ^ 256) 3 2 = 2 ^ 256 / 3 := by
  decide +kernel

/-- C90 for the three functions of the cuckoo hashed database on one key, with 1500 buckets. -/
example : Nat.card { d : Fin 3 → Digest // ∃ sha family functions,
      (∀ j : Fin 3, sha.digest ([7] ++ stringBytes (toString j.val) ++ [1, 2]) = (d j).1) ∧
      createHashFamilyFromConfig sha ⟨1, [7]⟩ = ok family ∧ createHashFunctions family 3 = ok functions ∧
      ∀ j : Fin 3, ∃ f, functions[j.val]? = some f ∧ f [1, 2] 1500 = ok (j.val : Int) } =
    ∏ j : Fin 3, evenShare (2 ^ 256) 1500 j.val :=
  C90_family [7] (by decide) 3 (by decide) 3 (fun j => (j.val, [1, 2]))
    (fun i j h => Fin.ext (congrArg Prod.fst h)) (fun j => j.isLt) (fun _ => 1500) (fun j => j.val)
    (fun _ => by decide) (fun j => by have := j.isLt; show j.val < 1500; omega)

/-- C90 on examples: 1500 buckets. -/
example : Nat.card { d : Digest // ∀ sha : Sha256, sha.digest ([7] ++ [1, 2]) = d.1 →
    sha.hashFunction [7] [1, 2] ((1500 : Nat) : Int) = ok ((20 : Nat) : Int) } = evenShare (2 ^ 256) 1500 20 :=
  C90_sha256 [7] [1, 2] 1500 20 (by norm_num) (by norm_num)
example : Nat.card { d : U128 // ∀ hash : Bytes → U128, hash [1, 2] = d →
    farmHashFunction hash [1, 2] ((1500 : Nat) : Int) = ok ((20 : Nat) : Int) } = evenShare (2 ^ 128) 1500 20 :=
  C90_farm [1, 2] 1500 20 (by norm_num) (by norm_num)
example : (List.range 1500).foldl (fun s v => s + evenShare (2 ^ 256) 1500 v) 0 = 2 ^ 256 :=
  (C90_evenShare (2 ^ 256) 1500 (by norm_num)).1

end Verif
