import Verif.Spec.PirTesting
import Verif.Model.PirTesting
import Verif.Lemmas.DensePir
import Verif.Lemmas.Context
/-! Helpers for tests of PIR. -/
namespace Verif
open Res Spec

namespace PirTesting

theorem foldRes_ok {α σ : Type} {f : σ → α → Res σ} {g : σ → α → σ} (l : List α) (s : σ)
    (h : ∀ s, ∀ a ∈ l, f s a = ok (g s a)) : foldRes f s l = ok (l.foldl g s) := by
  induction l generalizing s with
  | nil => rfl
  | cons a l ih =>
    rw [foldRes_cons, h s a (by simp), bind_ok, ih _ fun s b hb => h s b (by simp [hb])]
    rfl

/-! ### Packing -/

theorem packBit_ok (bits : List Bool) (base : Nat) (block : U128) (j : Nat) :
    packBit bits base block j = ok (if bits.getD (base + j) false then block ||| (1#128 <<< j) else block) := by
  unfold packBit
  by_cases h : bits.length ≤ base + j
  · rw [if_pos h, List.getD_eq_getElem?_getD, List.getElem?_eq_none h]
    rfl
  · rw [if_neg h, rd_lt (by omega), bind_ok, List.getD_eq_getElem?_getD,
      List.getElem?_eq_getElem (by omega)]
    rfl

theorem packed_bit (f : Nat → Bool) (k : Nat) (i : Nat) :
    ((List.range k).foldl (fun (b : U128) j => if f j then b ||| (1#128 <<< j) else b) 0).getLsbD i =
      (decide (i < k) && decide (i < 128) && f i) := by
  induction k with
  | zero => simp
  | succ k ih =>
    rw [List.range_succ, List.foldl_append, List.foldl_cons, List.foldl_nil]
    split
    · rename_i h
      rw [BitVec.getLsbD_or, ih, BitVec.getLsbD_shiftLeft, BitVec.getLsbD_one]
      by_cases h1 : i = k
      · subst h1; simp [h]
      · by_cases h2 : i < k
        · simp [h2, show i < k + 1 by omega]
        · have : ¬ i < k + 1 := by omega
          simp [h2, this, show i - k ≠ 0 by omega]
    · rename_i h
      rw [ih]
      by_cases h1 : i = k
      · subst h1; simp [h]
      · by_cases h2 : i < k
        · simp [h2, show i < k + 1 by omega]
        · simp [h2, show ¬ i < k + 1 by omega]

theorem packBlock_ok {bits : List Bool} {i : Nat} (h : i * 128 < 2 ^ 31) :
    ∃ b, packBlock bits i = ok b ∧ ∀ j, j < 128 → b.getLsbD j = bits.getD (i * 128 + j) false := by
  unfold packBlock
  rw [if_neg (by omega), foldRes_ok _ _ fun s j _ => packBit_ok bits (i * 128) s j]
  refine ⟨_, rfl, fun j hj => ?_⟩
  rw [packed_bit (fun j => bits.getD (i * 128 + j) false)]
  simp [hj]

theorem packSelectionBits_ok {bits : List Bool} (h : bits.length ≤ 2 ^ 31) :
    ∃ blocks, packSelectionBits bits = ok blocks ∧ blocks.length = (bits.length + 127) / 128 ∧
      ∀ i, selectionBit blocks i = bits.getD i false := by
  unfold packSelectionBits
  have hw : wrapInt32 (((bits.length + 127) / 128 : Nat) : Int) = ((bits.length + 127) / 128 : Nat) :=
    wrapInt32_of_lt (by omega)
  rw [hw, if_neg (by omega), Int.toNat_natCast]
  have key : ∀ i ∈ List.range ((bits.length + 127) / 128), packBlock bits i =
      ok ((packBlock bits i).getD 0) := by
    intro i hi
    rw [List.mem_range] at hi
    obtain ⟨b, h1, _⟩ := packBlock_ok (bits := bits) (i := i) (by omega)
    rw [h1]; rfl
  refine ⟨_, mapRes_eq_ok_map key, by simp, fun i => ?_⟩
  unfold selectionBit
  rw [List.getD_eq_getElem?_getD, List.getElem?_map]
  by_cases hi : i / 128 < (bits.length + 127) / 128
  · rw [List.getElem?_range hi, Option.map_some, Option.getD_some]
    obtain ⟨b, h1, h2⟩ := packBlock_ok (bits := bits) (i := i / 128) (by omega)
    rw [h1]
    show b.getLsbD (i % 128) = _
    rw [h2 _ (Nat.mod_lt _ (by decide)), show i / 128 * 128 + i % 128 = i by omega]
  · rw [List.getElem?_eq_none (by simp; omega), Option.map_none, Option.getD_none,
      List.getD_eq_getElem?_getD, List.getElem?_eq_none (by omega)]
    simp

/-! ### The reference inner product -/

/-- Byte `p` of the XOR of the selected among the first `k` values. -/
def prefixByte (bits : List Bool) (values : List Bytes) (k p : Nat) : BitVec 8 :=
  xorSum (List.range k) fun i => if bits.getD i false then byteAt (values.getD i []) p else 0

theorem prefixByte_succ (bits : List Bool) (values : List Bytes) (k p : Nat) :
    prefixByte bits values (k + 1) p = prefixByte bits values k p ^^^
      (if bits.getD k false then byteAt (values.getD k []) p else 0) := by
  unfold prefixByte
  rw [List.range_succ, xorSum_append]
  simp [xorSum]

theorem prefixByte_zero {bits : List Bool} {values : List Bytes} {k p : Nat} (hk : k ≤ values.length)
    (hp : maxLength (values.take k) ≤ p) : prefixByte bits values k p = 0 := by
  unfold prefixByte
  have : ∀ l : List Nat, (∀ i ∈ l, i < k) →
      xorSum l (fun i => if bits.getD i false then byteAt (values.getD i []) p else 0) = xorSum l fun _ => 0 := by
    intro l hl
    apply xorSum_congr
    intro i hi
    have hi' := hl i hi
    have hmem : values.getD i [] ∈ values.take k := by
      rw [List.getD_eq_getElem?_getD, List.getElem?_eq_getElem (by omega), Option.getD_some]
      exact List.mem_of_getElem? (i := i) (by rw [List.getElem?_take, if_pos hi', List.getElem?_eq_getElem])
    have := length_le_maxLength hmem
    have hz : byteAt (values.getD i []) p = 0 := by
      unfold byteAt
      generalize values.getD i [] = v at this ⊢
      rw [List.getD_eq_getElem?_getD, List.getElem?_eq_none (by omega)]
      rfl
    rw [hz]
    simp
  rw [this _ fun i hi => List.mem_range.mp hi]
  generalize List.range k = l
  unfold xorSum
  induction l with
  | nil => rfl
  | cons a l ih => simpa using ih

theorem unpackedStep_ok {bits : List Bool} {values : List Bytes} (hlen : values.length = bits.length) {k : Nat}
    (hk : k < values.length) :
    unpackedStep bits values ((List.range (maxLength (values.take k))).map (prefixByte bits values k)) k =
      ok ((List.range (maxLength (values.take (k + 1)))).map (prefixByte bits values (k + 1))) := by
  unfold unpackedStep
  have hv : rd values k = ok (values.getD k []) := by
    rw [rd_lt hk, List.getD_eq_getElem?_getD, List.getElem?_eq_getElem hk]; rfl
  have hb : rd bits k = ok (bits.getD k false) := by
    rw [rd_lt (by omega), List.getD_eq_getElem?_getD, List.getElem?_eq_getElem (by omega)]; rfl
  rw [hv, bind_ok, hb, bind_ok]
  have hmax : maxLength (values.take (k + 1)) = max (maxLength (values.take k)) (values.getD k []).length := by
    rw [List.take_add_one, List.getElem?_eq_getElem hk, Option.toList_some, maxLength_append,
      List.getD_eq_getElem?_getD, List.getElem?_eq_getElem hk, Option.getD_some]
    split <;> omega
  have hres : ((List.range (maxLength (values.take k))).map (prefixByte bits values k)) ++
      List.replicate ((values.getD k []).length -
        ((List.range (maxLength (values.take k))).map (prefixByte bits values k)).length) 0 =
      (List.range (maxLength (values.take (k + 1)))).map (prefixByte bits values k) := by
    rw [hmax, List.length_map, List.length_range]
    apply List.ext_getElem
    · simp; omega
    intro p h1 h2
    rw [List.getElem_append]
    by_cases hp : p < maxLength (values.take k)
    · rw [dif_pos (by simpa using hp)]
      simp
    · rw [dif_neg (by simpa using hp), List.getElem_replicate, List.getElem_map, List.getElem_range,
        prefixByte_zero (by omega) (by omega)]
  rw [hres]
  have hn : (values.getD k []).length ≤ maxLength (values.take (k + 1)) := by omega
  cases hbit : bits.getD k false
  · rw [if_neg (by simp)]
    congr 1
    apply List.map_congr_left
    intro p _
    rw [prefixByte_succ, hbit]
    simp
  · rw [if_pos rfl, ← xoredUpTo_zero _ (values.getD k []) (prefixByte bits values k),
      foldRes_range_eq (fun i => xoredUpTo (maxLength (values.take (k + 1))) (values.getD k []) i
        (prefixByte bits values k)) fun i hi => xorByteAt_ok hn hi, xoredUpTo_length]
    congr 1
    apply List.map_congr_left
    intro p _
    rw [prefixByte_succ, hbit, if_pos rfl]

theorem innerProductWithUnpacked_ok {bits : List Bool} {values : List Bytes} (hlen : values.length = bits.length)
    (h31 : bits.length < 2 ^ 31) :
    innerProductWithUnpacked bits values =
      ok (xorPadded (maxLength values) (selectedRecords values fun i => bits.getD i false)) := by
  unfold innerProductWithUnpacked
  rw [failIf_false (by omega), bind_ok, if_neg (by omega)]
  have := foldRes_range_eq (f := unpackedStep bits values) (n := bits.length)
    (fun k => (List.range (maxLength (values.take k))).map (prefixByte bits values k))
    (fun k hk => unpackedStep_ok hlen (by omega))
  rw [show (List.range (maxLength (values.take 0))).map (prefixByte bits values 0) = [] from rfl] at this
  rw [this, List.take_of_length_le (by omega)]
  congr 1
  unfold xorPadded
  apply List.map_congr_left
  intro p _
  unfold prefixByte
  rw [← hlen, xorSum_selected]

/-! ### Strings -/

theorem digitChar_toNat : ∀ k : Nat, k < 10 → k.digitChar.toNat = 48 + k := by decide

theorem decimal_toString (n : Nat) : IsDecimal (stringBytes (toString n)) n := by
  have key : ∀ n : Nat, IsDecimal ((Nat.toDigits 10 n).map fun c => BitVec.ofNat 8 c.toNat) n ∧
      (0 < n → ((Nat.toDigits 10 n).map fun c => BitVec.ofNat 8 c.toNat).head? ≠ some 48) := by
    intro n
    induction n using Nat.strongRecOn with
    | _ n ih =>
      rw [Nat.toDigits_eq_if (by decide)]
      have hb : ∀ k, k < 10 → (BitVec.ofNat 8 k.digitChar.toNat).toNat = 48 + k := by
        intro k hk
        rw [digitChar_toNat k hk, BitVec.toNat_ofNat]; omega
      split
      · rename_i h
        refine ⟨⟨?_, ?_, Or.inl rfl⟩, ?_⟩
        · intro c hc
          simp only [List.map_cons, List.map_nil, List.mem_singleton] at hc
          rw [hc, hb n h]; omega
        · simp only [List.map_cons, List.map_nil, List.foldl_cons, List.foldl_nil]
          rw [hb n h]; omega
        · intro hpos he
          simp only [List.map_cons, List.map_nil, List.head?_cons, Option.some.injEq] at he
          have := congrArg BitVec.toNat he
          rw [hb n h, show (48 : BitVec 8).toNat = 48 from rfl] at this
          omega
      · rename_i h
        obtain ⟨⟨i1, i2, i3⟩, i4⟩ := ih (n / 10) (by omega)
        have hne : (Nat.toDigits 10 (n / 10)).map (fun c => BitVec.ofNat 8 c.toNat) ≠ [] := by
          simp [Nat.toDigits_ne_nil]
        have hm := hb (n % 10) (by omega)
        rw [List.map_append]
        have hhead : ((Nat.toDigits 10 (n / 10)).map (fun c => BitVec.ofNat 8 c.toNat) ++
            [n % 10].map (fun k => BitVec.ofNat 8 k.digitChar.toNat)).head? ≠ some 48 := by
          have := i4 (by omega)
          generalize (Nat.toDigits 10 (n / 10)).map (fun c => BitVec.ofNat 8 c.toNat) = t at hne this ⊢
          cases t with
          | nil => exact absurd rfl hne
          | cons a t => exact this
        refine ⟨⟨?_, ?_, Or.inr hhead⟩, fun _ => hhead⟩
        · intro c hc
          rcases List.mem_append.mp hc with hc | hc
          · exact i1 c hc
          · simp only [List.map_cons, List.map_nil, List.mem_singleton] at hc
            rw [hc, hm]; omega
        · rw [List.foldl_append, i2]
          simp only [List.map_cons, List.map_nil, List.foldl_cons, List.foldl_nil]
          rw [hm]; omega
  unfold stringBytes
  rw [Nat.toString_eq_repr, Nat.toList_repr]
  exact (key n).1

theorem generateRandomStrings_ok {random : Nat → Nat → BitVec 8} {sizes : List Int} (h : ∀ s ∈ sizes, 0 ≤ s) :
    ∃ r, generateRandomStrings random sizes = ok r ∧ r.map (fun v => (v.length : Int)) = sizes := by
  unfold generateRandomStrings
  have key : ∀ x ∈ sizes.zipIdx, (fun (x : Int × Nat) => (do
      failIf (x.1 < 0) .invalidArgument
      ok ((List.range x.1.toNat).map (random x.2)) : Res Bytes)) x =
      ok ((List.range x.1.toNat).map (random x.2)) := by
    intro x hx
    have := h x.1 (List.fst_mem_of_mem_zipIdx hx)
    show (failIf _ _ >>= _) = _
    rw [failIf_false (by omega), bind_ok]
  refine ⟨_, mapRes_eq_ok_map key, ?_⟩
  rw [List.map_map]
  have : ∀ x ∈ sizes.zipIdx, ((fun v : Bytes => (v.length : Int)) ∘ fun x : Int × Nat =>
      (List.range x.1.toNat).map (random x.2)) x = x.1 := by
    intro x hx
    have := h x.1 (List.fst_mem_of_mem_zipIdx hx)
    simp [Int.toNat_of_nonneg this]
  rw [List.map_congr_left this]
  exact List.zipIdx_map_fst 0 sizes

theorem generateRandomStrings_err {random : Nat → Nat → BitVec 8} {sizes : List Int} (h : ∃ s ∈ sizes, s < 0) :
    generateRandomStrings random sizes = err .invalidArgument := by
  unfold generateRandomStrings
  apply Dpf.mapRes_err
  · intro x _
    by_cases hx : x.1 < 0
    · right
      show (failIf _ _ >>= _) = _
      rw [failIf_true hx]; rfl
    · left
      refine ⟨(List.range x.1.toNat).map (random x.2), ?_⟩
      show (failIf _ _ >>= _) = _
      rw [failIf_false hx, bind_ok]
  · obtain ⟨s, hs, h0⟩ := h
    obtain ⟨i, hi, rfl⟩ := List.mem_iff_getElem.mp hs
    refine ⟨(sizes[i], i), ?_, ?_⟩
    · rw [List.mem_zipIdx_iff_getElem?]
      exact List.getElem?_eq_getElem hi
    · show (failIf _ _ >>= _) = _
      rw [failIf_true h0]; rfl

/-! ### Requests -/

theorem keysAt_eq {g : RequestGenerator} {env : Env} {seeds : Nat → U128 × U128} {x : Int × Nat} (h0 : 0 ≤ x.1)
    (h1 : x.1 < g.databaseSize) : g.keysAt env seeds x = DenseClient.keysFor g.dpf env x.1 (seeds x.2) := by
  unfold RequestGenerator.keysAt
  rw [failIf_false (by omega), bind_ok, failIf_false (by omega), bind_ok]

theorem createPlainRequests_of_client {g : RequestGenerator} {c : DenseClient} (hd : g.dpf = c.dpf)
    (hs : g.databaseSize = c.databaseSize) {env : Env} {queries : List Nat}
    (hq : ∀ q ∈ queries, (q : Int) < c.databaseSize) {seeds : Nat → U128 × U128} {random : Nat → BitVec 8}
    {r0 r1 : PlainRequest} {seed : Bytes} {state : ClientState}
    (h : c.createPlainRequests env (queries.map fun q : Nat => (q : Int)) seeds random =
      ok (r0, ⟨some r1, seed⟩, state)) :
    g.createPlainRequests env (queries.map fun q : Nat => (q : Int)) seeds = ok (r0, r1) := by
  unfold DenseClient.createPlainRequests at h
  obtain ⟨_, _, h⟩ := bind_eq_ok.mp h
  obtain ⟨keys, hk, h⟩ := bind_eq_ok.mp h
  simp only [ok.injEq, Prod.mk.injEq, HelperRequest.mk.injEq] at h
  obtain ⟨e1, ⟨e2, _⟩, _⟩ := h
  unfold RequestGenerator.createPlainRequests
  have hcongr : mapRes (g.keysAt env seeds) (queries.map fun q : Nat => (q : Int)).zipIdx =
      mapRes (fun (q, i) => DenseClient.keysFor c.dpf env q (seeds i))
        (queries.map fun q : Nat => (q : Int)).zipIdx := by
    apply mapRes_congr
    intro x hx
    obtain ⟨q, hq', hx'⟩ := List.mem_map.mp (List.fst_mem_of_mem_zipIdx hx)
    have := hq q hq'
    rw [keysAt_eq (by omega) (by omega), hd]
  rw [hcongr, hk, bind_ok]
  split at e2
  · cases e2
  · cases e2
    rw [← e1]

end PirTesting
end Verif
