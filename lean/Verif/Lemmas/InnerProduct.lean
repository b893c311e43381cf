import Verif.Model.InnerProduct
import Verif.Spec.InnerProduct
import Verif.Lemmas.EvalSeeds
/-!
# Lemmas: inner products
-/
namespace Verif
open Res Spec

/-! ### Sums of bytes -/

/-- XOR of `f x` over a list. -/
def xorSum {α : Type} (l : List α) (f : α → BitVec 8) : BitVec 8 :=
  l.foldl (fun a x => a ^^^ f x) 0

theorem xorSum_foldl {α : Type} (l : List α) (f : α → BitVec 8) (a : BitVec 8) :
    l.foldl (fun a x => a ^^^ f x) a = a ^^^ xorSum l f := by
  unfold xorSum
  induction l generalizing a with
  | nil => simp
  | cons x l ih =>
    rw [List.foldl_cons, List.foldl_cons, ih, ih (0 ^^^ f x)]
    simp [BitVec.xor_assoc]

@[simp] theorem xorSum_nil {α : Type} (f : α → BitVec 8) : xorSum [] f = 0 := rfl

theorem xorSum_cons {α : Type} (x : α) (l : List α) (f : α → BitVec 8) :
    xorSum (x :: l) f = f x ^^^ xorSum l f := by
  rw [xorSum, List.foldl_cons, xorSum_foldl]; simp

theorem xorSum_append {α : Type} (l l' : List α) (f : α → BitVec 8) :
    xorSum (l ++ l') f = xorSum l f ^^^ xorSum l' f := by
  rw [xorSum, List.foldl_append, xorSum_foldl]; rfl

theorem xorSum_congr {α : Type} {l : List α} {f g : α → BitVec 8} (h : ∀ x ∈ l, f x = g x) :
    xorSum l f = xorSum l g := by
  induction l with
  | nil => rfl
  | cons x l ih =>
    rw [xorSum_cons, xorSum_cons, h x (by simp), ih fun y hy => h y (by simp [hy])]

theorem xorSum_zero {α : Type} {l : List α} {f : α → BitVec 8} (h : ∀ x ∈ l, f x = 0) :
    xorSum l f = 0 := by
  induction l with
  | nil => rfl
  | cons x l ih => rw [xorSum_cons, h x (by simp), ih fun y hy => h y (by simp [hy])]; simp

theorem xorSum_xor {α : Type} (l : List α) (f g : α → BitVec 8) :
    xorSum l (fun x => f x ^^^ g x) = xorSum l f ^^^ xorSum l g := by
  induction l with
  | nil => simp
  | cons x l ih =>
    rw [xorSum_cons, xorSum_cons, xorSum_cons, ih]
    ac_rfl

theorem xorSum_map {α β : Type} (l : List α) (g : α → β) (f : β → BitVec 8) :
    xorSum (l.map g) f = xorSum l (fun x => f (g x)) := by
  unfold xorSum; rw [List.foldl_map]

theorem xorSum_filter {α : Type} (l : List α) (q : α → Bool) (f : α → BitVec 8) :
    xorSum (l.filter q) f = xorSum l (fun x => if q x then f x else 0) := by
  induction l with
  | nil => rfl
  | cons x l ih =>
    rw [xorSum_cons, List.filter_cons]
    cases hq : q x <;> simp [ih, xorSum_cons]

/-! ### Words -/

theorem leNat_testBit (b : Bytes) (i j : Nat) (hj : j < 8) :
    (leNat b).testBit (8 * i + j) = (byteAt b i).getLsbD j := by
  induction b generalizing i with
  | nil => simp [leNat, byteAt]
  | cons x b ih =>
    have hx := x.isLt
    have h2 : leNat (x :: b) = 2 ^ 8 * leNat b + x.toNat := by simp [leNat]; omega
    rw [h2, Nat.testBit_two_pow_mul_add _ hx]
    cases i with
    | zero => simp [hj, byteAt, BitVec.getLsbD]
    | succ i =>
      rw [if_neg (by omega), show 8 * (i + 1) + j - 8 = 8 * i + j by omega, ih]
      simp [byteAt]

theorem blockBytes_length (x : U128) : (blockBytes x).length = 16 := by simp [blockBytes]

theorem xorBlock_bytes (r v : Bytes) :
    blockBytes (BitVec.ofNat 128 (leNat r) ^^^ BitVec.ofNat 128 (leNat v)) =
      (List.range 16).map fun i => byteAt r i ^^^ byteAt v i := by
  unfold blockBytes
  apply List.map_congr_left
  intro i hi
  rw [List.mem_range] at hi
  apply BitVec.eq_of_getLsbD_eq
  intro j hj
  rw [BitVec.getLsbD_extractLsb', BitVec.getLsbD_xor, BitVec.getLsbD_xor, BitVec.getLsbD_ofNat,
    BitVec.getLsbD_ofNat, leNat_testBit r i j hj, leNat_testBit v i j hj]
  simp [hj, show 8 * i + j < 128 by omega]

/-! ### XOR of one record -/

/-- A buffer whose first `q` bytes have been XORed with `value`. -/
def xoredUpTo (n : Nat) (value : Bytes) (q : Nat) (F : Nat → BitVec 8) : Bytes :=
  (List.range n).map fun p => if p < q then F p ^^^ byteAt value p else F p

theorem xoredUpTo_zero (n : Nat) (value : Bytes) (F : Nat → BitVec 8) :
    xoredUpTo n value 0 F = (List.range n).map F := by simp [xoredUpTo]

theorem byteAt_of_le {v : Bytes} {p : Nat} (h : v.length ≤ p) : byteAt v p = 0 := by
  simp [byteAt, List.getD_eq_getElem?_getD, h]

theorem xoredUpTo_length (n : Nat) (value : Bytes) (F : Nat → BitVec 8) :
    xoredUpTo n value value.length F = (List.range n).map fun p => F p ^^^ byteAt value p := by
  apply List.map_congr_left
  intro p _
  split
  · rfl
  · rw [byteAt_of_le (by omega)]; simp

theorem slice_bytes {v : Bytes} {pos m : Nat} (h : pos + m ≤ v.length) :
    slice v pos m = ok ((List.range m).map fun i => byteAt v (pos + i)) := by
  have hv : v = (List.range v.length).map fun p => byteAt v p := by
    apply List.ext_getElem (by simp)
    intro i h1 h2
    simp [byteAt, h1]
  conv => lhs; rw [hv]
  rw [slice_range _ h]

theorem xored_step {n : Nat} {value : Bytes} {pos m : Nat} {F : Nat → BitVec 8}
    (hn : value.length ≤ n) (hm : pos + m ≤ value.length) :
    (slice (xoredUpTo n value pos F) pos m >>= fun cur =>
      writeAt (xoredUpTo n value pos F) pos
        (List.zipWith (· ^^^ ·) ((List.range m).map fun i => byteAt value (pos + i)) cur)) =
      ok (xoredUpTo n value (pos + m) F) := by
  unfold xoredUpTo
  rw [slice_range _ (by omega), bind_ok, List.zipWith_map]
  rw [show List.zipWith (fun a b => byteAt value (pos + a) ^^^
      (if pos + b < pos then F (pos + b) ^^^ byteAt value (pos + b) else F (pos + b)))
      (List.range m) (List.range m) = (List.range m).map (fun i =>
        (fun p => F p ^^^ byteAt value p) (pos + i)) from ?_,
    writeAt_range _ (fun p => F p ^^^ byteAt value p) (by omega)]
  · congr 1
    apply List.map_congr_left
    intro p _
    by_cases h1 : p < pos
    · rw [if_neg (by omega), if_pos h1, if_pos (by omega)]
    · by_cases h2 : p < pos + m
      · rw [if_pos (by omega), if_pos h2]
      · rw [if_neg (by omega), if_neg h1, if_neg h2]
  · rw [List.zipWith_self]
    apply List.map_congr_left
    intro i _
    rw [if_neg (by omega), BitVec.xor_comm]

theorem xorByteAt_ok {n : Nat} {value : Bytes} {i : Nat} {F : Nat → BitVec 8}
    (hn : value.length ≤ n) (hi : i < value.length) :
    xorByteAt value (xoredUpTo n value i F) i = ok (xoredUpTo n value (i + 1) F) := by
  unfold xorByteAt
  have h1 : rd value i = ok (byteAt value i) := by rw [rd_lt hi]; simp [byteAt, hi]
  have h2 : rd (xoredUpTo n value i F) i = ok (F i) := by
    rw [rd_eq_ok]
    simp [xoredUpTo, show i < n by omega]
  rw [h1, bind_ok, h2, bind_ok, ← xored_step hn hi]
  unfold xoredUpTo
  rw [slice_range _ (by omega), bind_ok]
  simp [BitVec.xor_comm]

theorem access_ok {address alignment : Nat} (h : address % alignment = 0) : access address alignment = ok () := if_pos h

theorem access_add {address alignment pos : Nat} (h : address % alignment = 0) (hp : pos % alignment = 0) :
    access (address + pos) alignment = ok () :=
  access_ok (by rw [Nat.add_mod, h, hp, Nat.add_zero, Nat.zero_mod])

theorem xorBlockAt_ok {a src dst : Nat} (ha : 16 % a = 0) (hsrc : src % a = 0) (hdst : dst % a = 0) {n : Nat}
    {value : Bytes} {i : Nat} {F : Nat → BitVec 8}
    (hn : value.length ≤ n) (hi : 16 * i + 16 ≤ value.length) :
    xorBlockAt a src dst value (xoredUpTo n value (16 * i) F) i = ok (xoredUpTo n value (16 * (i + 1)) F) := by
  unfold xorBlockAt
  have h16 : 16 * i % a = 0 := by rw [Nat.mul_mod, ha, Nat.zero_mul, Nat.zero_mod]
  rw [access_add hsrc h16, bind_ok, access_add hdst h16, bind_ok, slice_bytes hi, bind_ok, show 16 * (i + 1) = 16 * i + 16 by omega, ← xored_step hn hi]
  unfold xoredUpTo
  rw [slice_range _ (by omega), bind_ok, bind_ok]
  congr 1
  rw [xorBlock_bytes, List.zipWith_map, List.zipWith_self]
  apply List.map_congr_left
  intro k hk
  rw [List.mem_range] at hk
  simp only [byteAt, List.getD_eq_getElem?_getD, List.getElem?_map, List.getElem?_range hk,
    Option.map_some, Option.getD_some]
  rw [BitVec.xor_comm]

theorem foldRes_range_eq {σ : Type} {f : σ → Nat → Res σ} {n : Nat} (S : Nat → σ)
    (h : ∀ i, i < n → f (S i) i = ok (S (i + 1))) :
    foldRes f (S 0) (List.range n) = ok (S n) := by
  obtain ⟨s', h1, h2⟩ := foldRes_range_inv (f := f) (s := S 0) (n := n) (fun i s => s = S i) rfl
    (by rintro i s hi rfl; exact ⟨_, h i hi, rfl⟩)
  rw [h1, h2]

theorem xorStringInPlaceNoHwy_ok {a : Nat} (ha : 16 % a = 0) (src dst : Nat) {n : Nat} {value : Bytes}
    {F : Nat → BitVec 8} (hn : value.length ≤ n) :
    xorStringInPlaceNoHwy a src dst value ((List.range n).map F) =
      ok ((List.range n).map fun p => F p ^^^ byteAt value p) := by
  rw [← xoredUpTo_length, ← xoredUpTo_zero n value F]
  unfold xorStringInPlaceNoHwy
  by_cases hal : dst % a ≠ 0 ∨ src % a ≠ 0
  · rw [if_pos hal]
    exact foldRes_range_eq (fun i => xoredUpTo n value i F) fun i hi => xorByteAt_ok hn hi
  · have h16 := Nat.div_mul_le_self value.length 16
    rw [if_neg hal]
    dsimp only
    have h1 := foldRes_range_eq (f := xorBlockAt a src dst value) (n := value.length / 16)
      (fun i => xoredUpTo n value (16 * i) F)
      fun i hi => xorBlockAt_ok ha (by omega) (by omega) hn (by
        have := (Nat.le_div_iff_mul_le (by decide : 0 < 16)).mp (show i + 1 ≤ value.length / 16 from hi)
        omega)
    have h2 := foldRes_range_eq (n := value.length - 16 * (value.length / 16))
      (f := fun r j => xorByteAt value r (16 * (value.length / 16) + j))
      (fun i => xoredUpTo n value (16 * (value.length / 16) + i) F)
      fun i hi => xorByteAt_ok hn (by omega)
    rw [show 16 * 0 = 0 from rfl] at h1
    rw [h1, bind_ok]
    rw [show 16 * (value.length / 16) + 0 = 16 * (value.length / 16) from rfl,
      show 16 * (value.length / 16) + (value.length - 16 * (value.length / 16)) = value.length by omega]
      at h2
    exact h2

/-! ### Several results at once -/

theorem updateResults_ok {f : Nat → Bytes → Res Bytes} {K : Nat} {R : Nat → Bytes} {g : Nat → Bytes}
    {ks : List Nat} (hks : ks.Nodup) (hlt : ∀ k ∈ ks, k < K) (hf : ∀ k ∈ ks, f k (R k) = ok (g k)) :
    updateResults f ((List.range K).map R) ks =
      ok ((List.range K).map fun k => if k ∈ ks then g k else R k) := by
  unfold updateResults
  induction ks generalizing R with
  | nil => simp
  | cons k ks ih =>
    rw [List.nodup_cons] at hks
    have hk := hlt k (by simp)
    have hrd : rd ((List.range K).map R) k = ok (R k) := by
      rw [rd_eq_ok]; simp [hk]
    have hw : writeAt ((List.range K).map R) k [g k] =
        ok ((List.range K).map fun j => if k ≤ j ∧ j < k + 1 then g j else R j) := by
      rw [← writeAt_range (m := 1) R g (by omega)]
      simp
    rw [foldRes_cons, hrd, bind_ok, hf k (by simp), bind_ok, hw, bind_ok,
      ih hks.2 (fun j hj => hlt j (by simp [hj])) (fun j hj => by
        rw [if_neg]
        · exact hf j (by simp [hj])
        · intro h
          have : j = k := by omega
          exact hks.1 (this ▸ hj))]
    congr 1
    apply List.map_congr_left
    intro j _
    by_cases hj : j ∈ ks
    · simp [hj]
    · by_cases hjk : j = k
      · subst hjk; simp [hj]
      · rw [if_neg hj, if_neg (by omega), if_neg (by simp [hj, hjk])]

/-- The results after the first `q` bytes of `value` have been XORed into those in `ks`. -/
def resultsUpTo (K n : Nat) (value : Bytes) (ks : List Nat) (q : Nat) (R : Nat → Nat → BitVec 8) :
    List Bytes :=
  (List.range K).map fun k => if k ∈ ks then xoredUpTo n value q (R k) else (List.range n).map (R k)

theorem resultsUpTo_zero (K n : Nat) (value : Bytes) (ks : List Nat) (R : Nat → Nat → BitVec 8) :
    resultsUpTo K n value ks 0 R = (List.range K).map fun k => (List.range n).map (R k) := by
  simp [resultsUpTo, xoredUpTo_zero]

/-- The results after `value` has been XORed into those in `ks`. -/
def xoredResults (K n : Nat) (value : Bytes) (ks : List Nat) (R : Nat → Nat → BitVec 8) :
    List Bytes :=
  (List.range K).map fun k => (List.range n).map fun p =>
    R k p ^^^ (if k ∈ ks then byteAt value p else 0)

theorem resultsUpTo_length (K n : Nat) (value : Bytes) (ks : List Nat) (R : Nat → Nat → BitVec 8) :
    resultsUpTo K n value ks value.length R = xoredResults K n value ks R := by
  apply List.map_congr_left
  intro k _
  by_cases hk : k ∈ ks <;> simp [hk, xoredUpTo_length]

theorem xorVector_ok {src : Nat} {dst : Nat → Nat} {K n : Nat} {value : Bytes} {ks : List Nat} {pos m : Nat}
    {R : Nat → Nat → BitVec 8} (hsrc : src % m = 0) (hdst : ∀ k, dst k % m = 0) (hp : pos % m = 0)
    (hks : ks.Nodup) (hlt : ∀ k ∈ ks, k < K) (hn : value.length ≤ n)
    (hm : pos + m ≤ value.length) :
    xorVector src dst value pos m ks (resultsUpTo K n value ks pos R) =
      ok (resultsUpTo K n value ks (pos + m) R) := by
  unfold xorVector resultsUpTo
  rw [access_add hsrc hp, bind_ok, slice_bytes hm, bind_ok, updateResults_ok (g := fun k => xoredUpTo n value (pos + m) (R k))
    hks hlt]
  · congr 1
    apply List.map_congr_left
    intro k _
    by_cases hk : k ∈ ks <;> simp [hk]
  · intro k hk
    rw [if_pos hk, access_add (hdst k) hp, bind_ok, xored_step hn hm]

theorem and_two_pow_eq (x e : Nat) : x &&& 2 ^ e = (x.testBit e).toNat * 2 ^ e := by
  apply Nat.eq_of_testBit_eq
  intro i
  rw [Nat.testBit_and, Nat.testBit_two_pow]
  by_cases hi : e = i
  · subst hi
    cases x.testBit e <;> simp
  · cases x.testBit e <;> simp [hi]

theorem mod_pow_of_succ {x e : Nat} (h : x % 2 ^ (e + 1) = 0) : x % 2 ^ e = 0 :=
  Nat.mod_eq_zero_of_dvd (Nat.dvd_trans (Nat.pow_dvd_pow 2 (Nat.le_succ e)) (Nat.dvd_of_mod_eq_zero h))

theorem xorPartialString_ok {src : Nat} {dst : Nat → Nat} {K n : Nat} {value : Bytes} {ks : List Nat} {R : Nat → Nat → BitVec 8}
    (hks : ks.Nodup) (hlt : ∀ k ∈ ks, k < K) (hn : value.length ≤ n) (remaining : Nat) {e : Nat}
    {fuel : Nat} (he : 0 < e) (hfuel : e ≤ fuel) {pos : Nat}
    (hpos : pos + remaining % 2 ^ e = value.length) (hsrc : src % 2 ^ e = 0) (hdst : ∀ k, dst k % 2 ^ e = 0)
    (hp : pos % 2 ^ e = 0) :
    xorPartialString src dst value remaining ks fuel (2 ^ e) pos (resultsUpTo K n value ks pos R) =
      ok (xoredResults K n value ks R) := by
  induction fuel generalizing e pos with
  | zero => omega
  | succ fuel ih =>
    obtain ⟨e, rfl⟩ : ∃ e', e = e' + 1 := ⟨e - 1, by omega⟩
    have hhalf : 2 ^ (e + 1) / 2 = 2 ^ e := by rw [Nat.pow_succ]; omega
    have hmod : remaining % 2 ^ (e + 1) =
        (if remaining.testBit e then 2 ^ e else 0) + remaining % 2 ^ e := by
      rw [Nat.mod_pow_succ, Nat.testBit_eq_decide_div_mod_eq]
      have := Nat.mod_two_eq_zero_or_one (remaining / 2 ^ e)
      rcases this with h | h <;> simp [h] <;> omega
    have hsrc' := mod_pow_of_succ hsrc
    have hdst' := fun k => mod_pow_of_succ (hdst k)
    have hp' := mod_pow_of_succ hp
    have hfin : ∀ pos', pos' + remaining % 2 ^ e = value.length → pos' % 2 ^ e = 0 →
        (if 2 ^ e > 1 then xorPartialString src dst value remaining ks fuel (2 ^ e) pos'
          (resultsUpTo K n value ks pos' R) else ok (resultsUpTo K n value ks pos' R)) =
        ok (xoredResults K n value ks R) := by
      intro pos' hp hpe
      cases e with
      | zero =>
        rw [Nat.pow_zero, if_neg (by decide), ← resultsUpTo_length]
        rw [Nat.pow_zero, Nat.mod_one] at hp
        rw [← hp, Nat.add_zero]
      | succ e =>
        have h1 : 1 < 2 ^ (e + 1) := Nat.one_lt_two_pow (by omega)
        rw [if_pos h1]
        exact ih (by omega) (by omega) hp hsrc' hdst' hpe
    rw [xorPartialString]
    dsimp only
    rw [hhalf, and_two_pow_eq]
    rw [hmod] at hpos
    cases hb : remaining.testBit e
    · rw [hb] at hpos
      simp only [Bool.toNat_false, Nat.zero_mul, ne_eq, not_true_eq_false, if_false, bind_ok]
      exact hfin pos (by simpa using hpos) hp'
    · rw [hb, if_pos rfl] at hpos
      have hp2 : 0 < 2 ^ e := Nat.two_pow_pos e
      rw [if_pos (by simp), xorVector_ok hsrc' hdst' hp' hks hlt hn (by omega)]
      simp only [bind_ok]
      exact hfin (pos + 2 ^ e) (by omega) (by rw [Nat.add_mod_right, hp'])

theorem xorAligned_ok {env : SimdEnv} {e : Nat} (hl : env.lanes = 2 ^ e) (he : 0 < e)
    (hh : e ≤ env.halvings) {K n : Nat} {value : Bytes} {ks : List Nat} {R : Nat → Nat → BitVec 8}
    {src : Nat} (hsrc : src % env.lanes = 0) (hdst : ∀ k, env.bufferAddress k % env.lanes = 0)
    (hks : ks.Nodup) (hlt : ∀ k ∈ ks, k < K) (hn : value.length ≤ n) :
    xorAligned env src value ks ((List.range K).map fun k => (List.range n).map (R k)) =
      ok (xoredResults K n value ks R) := by
  unfold xorAligned
  dsimp only
  have hd := Nat.div_mul_le_self value.length env.lanes
  have hpos : 0 < env.lanes := by rw [hl]; exact Nat.two_pow_pos e
  have h1 := foldRes_range_eq (n := value.length / env.lanes)
    (f := fun rs m => xorVector src env.bufferAddress value (m * env.lanes) env.lanes ks rs)
    (fun m => resultsUpTo K n value ks (m * env.lanes) R) (fun m hm => by
      have h2 : (m + 1) * env.lanes ≤ value.length :=
        (Nat.le_div_iff_mul_le hpos).mp (show m + 1 ≤ value.length / env.lanes from hm)
      rw [Nat.add_mul, Nat.one_mul] at h2 ⊢
      exact xorVector_ok hsrc hdst (Nat.mul_mod_left m env.lanes) hks hlt hn h2)
  rw [Nat.zero_mul, resultsUpTo_zero] at h1
  rw [h1, bind_ok]
  split
  · have hmod : value.length - value.length / env.lanes * env.lanes = value.length % env.lanes := by
      have := Nat.div_add_mod value.length env.lanes
      rw [Nat.mul_comm] at this
      omega
    rw [hl] at hmod hsrc hdst ⊢
    refine xorPartialString_ok hks hlt hn _ he hh ?_ hsrc hdst (Nat.mul_mod_left _ _)
    rw [hmod, Nat.mod_mod, ← hmod]
    rw [hl] at hd
    omega
  · rw [← resultsUpTo_length]
    rw [show value.length / env.lanes * env.lanes = value.length by omega]

theorem xorNoHwy_ok {K n : Nat} {value : Bytes} {ks : List Nat} {R : Nat → Nat → BitVec 8}
    {a : Nat} (ha : 16 % a = 0) (src : Nat) (dst : Nat → Nat)
    (hks : ks.Nodup) (hlt : ∀ k ∈ ks, k < K) (hn : value.length ≤ n) :
    foldRes (fun rs k => updateResults (fun k => xorStringInPlaceNoHwy a src (dst k) value) rs [k])
      ((List.range K).map fun k => (List.range n).map (R k)) ks =
      ok (xoredResults K n value ks R) := by
  induction ks generalizing R with
  | nil => simp [xoredResults]
  | cons k ks ih =>
    rw [List.nodup_cons] at hks
    rw [foldRes_cons, updateResults_ok
      (g := fun j => (List.range n).map fun p => R j p ^^^ byteAt value p) (by simp)
      (by simpa using hlt k (by simp)) (by
        intro j hj
        exact xorStringInPlaceNoHwy_ok ha _ _ hn), bind_ok]
    rw [show ((List.range K).map fun j => if j ∈ [k] then (List.range n).map fun p =>
        R j p ^^^ byteAt value p else (List.range n).map (R j)) =
      (List.range K).map fun j => (List.range n).map ((fun j p => if j = k then R j p ^^^ byteAt value p
        else R j p) j) from ?_]
    · rw [ih (R := fun j p => if j = k then R j p ^^^ byteAt value p else R j p) hks.2
        fun j hj => hlt j (by simp [hj])]
      congr 1
      apply List.map_congr_left
      intro j _
      apply List.map_congr_left
      intro p _
      by_cases hjk : j = k
      · subst hjk; simp [hks.1]
      · simp [hjk]
    · apply List.map_congr_left
      intro j _
      by_cases hjk : j = k <;> simp [hjk]

/-! ### The loops -/

/-- Bit `j` of block `i` of selection vector `k`. -/
def bitAt (selections : List (List U128)) (k i j : Nat) : Bool :=
  ((selections.getD k []).getD i 0).getLsbD j

theorem and_shl_ne_zero (x : U128) {j : Nat} (hj : j < 128) :
    (x &&& (1#128 <<< j) != 0#128) = x.getLsbD j := by
  rw [show x &&& (1#128 <<< j) = if x.getLsbD j then 1#128 <<< j else 0#128 from ?_]
  · cases h : x.getLsbD j
    · simp
    · simp only [if_pos]
      rw [bne_iff_ne]
      intro h0
      have := congrArg (fun y : U128 => y.getLsbD j) h0
      simp [hj] at this
  · apply BitVec.eq_of_getLsbD_eq
    intro i hi
    rw [BitVec.getLsbD_and, BitVec.getLsbD_shiftLeft]
    by_cases hij : i = j
    · subst hij
      cases x.getLsbD i <;> simp [hi]
    · have : (decide (i < j) || !decide (i - j = 0)) = true := by simp; omega
      cases x.getLsbD j <;> simp [BitVec.getLsbD_one] <;> omega

theorem selectedResults_ok {selections : List (List U128)} {i j : Nat} (hj : j < 128)
    (hi : ∀ sel ∈ selections, i < sel.length) :
    selectedResults selections i j =
      ok ((List.range selections.length).filter fun k => bitAt selections k i j) := by
  unfold selectedResults
  rw [mapRes_eq_ok_map (g := fun sel => (sel.getD i 0).getLsbD j) (fun sel hs => by
    rw [rd_getD (hi sel hs) 0, bind_ok, and_shl_ne_zero _ hj]), bind_ok]
  congr 1
  apply List.filter_congr
  intro k hk
  rw [List.mem_range] at hk
  simp [bitAt, hk]

/-- Where a record is XORed in: block, bit, number of the record. -/
abbrev Visit := Nat × Nat × Nat

/-- Contribution of a visit to byte `p` of result `k`. -/
def term (values : List Bytes) (selections : List (List U128)) (k p : Nat) (v : Visit) : BitVec 8 :=
  if bitAt selections k v.1 v.2.1 then byteAt (values.getD v.2.2 []) p else 0

/-- The results after some visits. -/
def resultsAfter (n : Nat) (values : List Bytes) (selections : List (List U128)) (vs : List Visit) :
    List Bytes :=
  (List.range selections.length).map fun k => (List.range n).map fun p =>
    xorSum vs (term values selections k p)

theorem xoredResults_after {n : Nat} {values : List Bytes} {selections : List (List U128)}
    {vs : List Visit} {i j idx : Nat} :
    xoredResults selections.length n (values.getD idx [])
      ((List.range selections.length).filter fun k => bitAt selections k i j)
      (fun k p => xorSum vs (term values selections k p)) =
    resultsAfter n values selections (vs ++ [(i, j, idx)]) := by
  apply List.map_congr_left
  intro k hk
  apply List.map_congr_left
  intro p _
  rw [xorSum_append, xorSum_cons, xorSum_nil]
  rw [List.mem_range] at hk
  simp [term, hk]

theorem noHwyRecord_ok {env : SimdEnv} {n : Nat} {values : List Bytes} {selections : List (List U128)}
    {vs : List Visit} {i j idx : Nat} (hj : j < 128) (hi : ∀ sel ∈ selections, i < sel.length)
    (hidx : idx < values.length) (hn : ∀ v ∈ values, v.length ≤ n) :
    noHwyRecord env values selections i (resultsAfter n values selections vs) j idx =
      ok (resultsAfter n values selections (vs ++ [(i, j, idx)])) := by
  unfold noHwyRecord
  rw [rd_getD hidx [], bind_ok, selectedResults_ok hj hi, bind_ok]
  unfold resultsAfter
  rw [xorNoHwy_ok (R := fun k p => xorSum vs (term values selections k p))
    env.sizeof _ _ (List.nodup_range.sublist List.filter_sublist)
    (by intro k hk; rw [List.mem_filter, List.mem_range] at hk; exact hk.1)
    (by
      rw [List.getD_eq_getElem?_getD, List.getElem?_eq_getElem hidx]
      exact hn _ (List.getElem_mem hidx)), xoredResults_after]
  rfl

theorem hwyRecord_ok {env : SimdEnv} {e f : Nat} (hl : env.lanes = 2 ^ e) (he : 0 < e)
    (hh : e ≤ env.halvings) (hf : env.alignment = 2 ^ f) (hef : e ≤ f)
    (hdst : ∀ k, env.bufferAddress k % env.lanes = 0) {n : Nat} {values : List Bytes} {selections : List (List U128)}
    {vs : List Visit} {i j idx : Nat} (hj : j < 128) (hi : ∀ sel ∈ selections, i < sel.length)
    (hidx : idx < values.length) (hn : ∀ v ∈ values, v.length ≤ n) :
    hwyRecord env values selections i (resultsAfter n values selections vs) j idx =
      ok (resultsAfter n values selections (vs ++ [(i, j, idx)])) := by
  have hks : ((List.range selections.length).filter fun k => bitAt selections k i j).Nodup :=
    List.nodup_range.sublist List.filter_sublist
  have hlt : ∀ k ∈ (List.range selections.length).filter fun k => bitAt selections k i j, k < selections.length := by
    intro k hk; rw [List.mem_filter, List.mem_range] at hk; exact hk.1
  have hlen : (values.getD idx []).length ≤ n := by
    rw [List.getD_eq_getElem?_getD, List.getElem?_eq_getElem hidx]
    exact hn _ (List.getElem_mem hidx)
  unfold hwyRecord
  rw [rd_getD hidx [], bind_ok, selectedResults_ok hj hi, bind_ok]
  dsimp only
  have hno := xorNoHwy_ok (R := fun k p => xorSum vs (term values selections k p)) env.sizeof
    (env.recordAddress idx) env.bufferAddress hks hlt hlen
  rw [xoredResults_after] at hno
  split
  · rename_i hal
    split
    · rename_i h0
      rw [h0, foldRes_nil] at hno
      exact hno
    · unfold resultsAfter
      rw [hf, Nat.and_two_pow_sub_one_eq_mod] at hal
      have hsrc : env.recordAddress idx % env.lanes = 0 := by
        rw [hl]
        exact Nat.mod_eq_zero_of_dvd (Nat.dvd_trans (Nat.pow_dvd_pow 2 hef) (Nat.dvd_of_mod_eq_zero hal))
      rw [xorAligned_ok (R := fun k p => xorSum vs (term values selections k p)) hl he hh hsrc hdst hks hlt hlen,
        xoredResults_after]
      rfl
  · exact hno

/-- The visits in block `i` at the bits in `js`. -/
def visitsIn (size : Nat) (base : Int) (i : Nat) (js : List Nat) : List Visit :=
  (js.takeWhile fun j : Nat => decide (0 ≤ base + j ∧ base + j < size)).map
    fun j : Nat => (i, j, (base + j).toNat)

/-- The visits in block `i`. -/
def blockVisits (size : Nat) (base : Int) (i : Nat) : List Visit :=
  visitsIn size base i (List.range 128)

theorem loopBits_ok {n : Nat} {values : List Bytes} {selections : List (List U128)} {base : Int}
    {i : Nat} {f : List Bytes → Nat → Nat → Res (List Bytes)}
    (hf : ∀ vs j idx, j < 128 → idx < values.length →
      f (resultsAfter n values selections vs) j idx =
        ok (resultsAfter n values selections (vs ++ [(i, j, idx)])))
    (js : List Nat) (hjs : ∀ j ∈ js, j < 128) (vs : List Visit) :
    loopBits values.length base f js (resultsAfter n values selections vs) =
      ok (resultsAfter n values selections (vs ++ visitsIn values.length base i js)) := by
  induction js generalizing vs with
  | nil => simp [loopBits, visitsIn]
  | cons j js ih =>
    rw [loopBits]
    by_cases hc : base + (j : Int) < 0 ∨ base + (j : Int) ≥ values.length
    · rw [if_pos hc, visitsIn, List.takeWhile_cons_of_neg (by rw [decide_eq_true_eq]; omega)]
      simp
    · rw [if_neg hc, hf vs j _ (hjs j (by simp)) (by omega), bind_ok,
        ih (fun k hk => hjs k (by simp [hk])), visitsIn, visitsIn,
        List.takeWhile_cons_of_pos (by rw [decide_eq_true_eq]; omega)]
      simp

/-- All visits, if block `i` starts at index `base i`. -/
def visits (size : Nat) (base : Nat → Int) (I : Nat) : List Visit :=
  (List.range I).flatMap fun i => blockVisits size (base i) i

theorem visits_succ (size : Nat) (base : Nat → Int) (I : Nat) :
    visits size base (I + 1) = visits size base I ++ blockVisits size (base I) I := by
  simp [visits, List.range_succ]

theorem resultsAfter_nil (n : Nat) (values : List Bytes) (selections : List (List U128)) :
    List.replicate selections.length (List.replicate n (0 : BitVec 8)) =
      resultsAfter n values selections [] := by
  unfold resultsAfter
  apply List.ext_getElem (by simp)
  intro i h1 h2
  simp
  apply List.ext_getElem (by simp)
  intro j h3 h4
  simp

theorem innerProductNoHwy_ok {env : SimdEnv} {n : Nat} {values : List Bytes}
    {first : List U128} {rest : List (List U128)}
    (hlen : ∀ sel ∈ first :: rest, sel.length = first.length) (hn : ∀ v ∈ values, v.length ≤ n)
    (hI : first.length ≤ 2 ^ 24) :
    innerProductNoHwy env values (first :: rest) n =
      ok (resultsAfter n values (first :: rest)
        (visits values.length (fun i => ((i * 128 : Nat) : Int)) first.length)) := by
  unfold innerProductNoHwy
  rw [rd_eq_ok.mpr (List.getElem?_cons_zero), bind_ok, resultsAfter_nil]
  refine foldRes_range_eq (fun i => resultsAfter n values (first :: rest)
    (visits values.length (fun i => ((i * 128 : Nat) : Int)) i)) fun i hi => ?_
  rw [if_neg (by omega), visits_succ]
  refine loopBits_ok (fun vs j idx hj hidx => noHwyRecord_ok hj ?_ hidx hn) _
    (fun j hj => List.mem_range.mp hj) _
  intro sel hs
  rw [hlen sel hs]; exact hi

theorem innerProductHwy_ok {env : SimdEnv} {e f : Nat} (hl : env.lanes = 2 ^ e) (he : 0 < e)
    (hh : e ≤ env.halvings) (hf : env.alignment = 2 ^ f) (hef : e ≤ f)
    (hdst : ∀ k, env.bufferAddress k % env.lanes = 0) {n : Nat} {values : List Bytes} {first : List U128}
    {rest : List (List U128)} (hlen : ∀ sel ∈ first :: rest, sel.length = first.length)
    (hn : ∀ v ∈ values, v.length ≤ n) (hs : ¬ (env.scalar = true ∨ env.lanes < 16 ∨ env.lanes % 16 ≠ 0)) :
    innerProductHwy env values (first :: rest) n =
      ok (resultsAfter n values (first :: rest)
        (visits values.length (fun i => wrapInt32 ((i * 128 : Nat) : Int)) first.length)) := by
  unfold innerProductHwy
  rw [if_neg hs, rd_eq_ok.mpr (List.getElem?_cons_zero), bind_ok, resultsAfter_nil]
  refine foldRes_range_eq (fun i => resultsAfter n values (first :: rest)
    (visits values.length (fun i => wrapInt32 ((i * 128 : Nat) : Int)) i)) fun i hi => ?_
  rw [visits_succ]
  refine loopBits_ok (fun vs j idx hj hidx => hwyRecord_ok hl he hh hf hef hdst hj ?_ hidx hn) _
    (fun j hj => List.mem_range.mp hj) _
  intro sel hs
  rw [hlen sel hs]; exact hi

/-! ### Reading off the result -/

theorem takeWhile_range (m N : Nat) :
    (List.range N).takeWhile (fun j => decide (j < m)) = List.range (min m N) := by
  induction N with
  | zero => simp
  | succ N ih =>
    rw [List.range_succ, List.takeWhile_append, ih]
    by_cases h : N < m
    · rw [Nat.min_eq_right (by omega : N ≤ m), if_pos rfl,
        List.takeWhile_cons_of_pos (by simpa using h), Nat.min_eq_right (by omega : N + 1 ≤ m),
        List.range_succ]
      simp
    · rw [Nat.min_eq_left (by omega : m ≤ N), Nat.min_eq_left (by omega : m ≤ N + 1)]
      split
      · rename_i h2
        simp at h2
        have : m = N := h2
        rw [List.takeWhile_cons_of_neg (by simpa using h), List.append_nil, this]
      · rfl

theorem blockVisits_nat (size i : Nat) :
    blockVisits size ((i * 128 : Nat) : Int) i =
      (List.range (min (size - i * 128) 128)).map fun j => (i, j, i * 128 + j) := by
  unfold blockVisits visitsIn
  rw [← takeWhile_range]
  have h1 : (fun j : Nat => decide (0 ≤ ((i * 128 : Nat) : Int) + j ∧ ((i * 128 : Nat) : Int) + j < size)) =
      fun j => decide (j < size - i * 128) := by
    funext j
    rw [decide_eq_decide]
    omega
  rw [h1]
  apply List.map_congr_left
  intro j _
  have h2 : (((i * 128 : Nat) : Int) + j).toNat = i * 128 + j := by omega
  rw [h2]

/-- Without overflow, every record is visited once. -/
theorem xorSum_visits (size I : Nat) (f : Visit → BitVec 8) (g : Nat → BitVec 8)
    (hfg : ∀ i j, j < 128 → f (i, j, i * 128 + j) = g (i * 128 + j)) :
    xorSum (visits size (fun i => ((i * 128 : Nat) : Int)) I) f =
      xorSum (List.range (min size (I * 128))) g := by
  induction I with
  | zero => simp [visits]
  | succ I ih =>
    rw [visits_succ, xorSum_append, ih, blockVisits_nat, xorSum_map]
    have : List.range (min size ((I + 1) * 128)) = List.range (min size (I * 128)) ++
        (List.range (min (size - I * 128) 128)).map (min size (I * 128) + ·) := by
      rw [← List.range_add]
      congr 1
      omega
    rw [this, xorSum_append, xorSum_map]
    congr 1
    apply xorSum_congr
    intro j hj
    rw [List.mem_range] at hj
    rw [hfg I j (by omega), Nat.min_eq_right (by omega)]

theorem wrapInt32_of_lt {x : Nat} (h : x < 2 ^ 31) : wrapInt32 (x : Int) = x := by
  unfold wrapInt32; omega

theorem visits_wrap (size : Nat) {I : Nat} (hI : I ≤ 2 ^ 24) :
    visits size (fun i => wrapInt32 ((i * 128 : Nat) : Int)) I =
      visits size (fun i => ((i * 128 : Nat) : Int)) I := by
  induction I with
  | zero => simp [visits]
  | succ I ih =>
    rw [visits_succ, visits_succ, ih (by omega), wrapInt32_of_lt (by omega)]

theorem foldl_xor_map {α : Type} (l : List α) (f : α → BitVec 8) :
    (l.map f).foldl (· ^^^ ·) 0 = xorSum l f := by
  rw [List.foldl_map]; rfl

theorem xorSum_selected (values : List Bytes) (sel : Nat → Bool) (p : Nat) :
    xorSum (List.range values.length) (fun i => if sel i then byteAt (values.getD i []) p else 0) =
      ((selectedRecords values sel).map fun r => byteAt r p).foldl (· ^^^ ·) 0 := by
  rw [foldl_xor_map]
  unfold selectedRecords
  rw [xorSum_map, xorSum_filter]
  have : values.zipIdx = (List.range values.length).map fun i => (values.getD i [], i) := by
    apply List.ext_getElem (by simp)
    intro i h1 h2
    simp at h1 h2
    simp [h1]
  rw [this, xorSum_map]

theorem innerProduct_results {n : Nat} {values : List Bytes} {selections : List (List U128)} {I : Nat}
    (hI : values.length ≤ I * 128) :
    resultsAfter n values selections (visits values.length (fun i => ((i * 128 : Nat) : Int)) I) =
      selections.map fun sel => xorPadded n (selectedRecords values (selectionBit sel)) := by
  unfold resultsAfter
  have : selections = (List.range selections.length).map fun k => selections.getD k [] := by
    apply List.ext_getElem (by simp)
    intro i h1 h2
    simp [h1]
  conv => rhs; rw [this]
  rw [List.map_map]
  apply List.map_congr_left
  intro k _
  apply List.map_congr_left
  intro p _
  rw [← xorSum_selected, xorSum_visits values.length I _
    (fun i => if selectionBit (selections.getD k []) i then byteAt (values.getD i []) p else 0),
    Nat.min_eq_left hI]
  intro i j hj
  have hb : selectionBit (selections.getD k []) (i * 128 + j) = bitAt selections k i j := by
    unfold selectionBit bitAt
    rw [show (i * 128 + j) / 128 = i by omega, show (i * 128 + j) % 128 = j by omega]
  rw [hb, term]

/-! ### The checks on the records -/

theorem checkValues_ok {n : Nat} {values : List Bytes} (hn : ∀ v ∈ values, v.length ≤ n)
    (h31 : values.length < 2 ^ 31) : checkValues n values = ok () := by
  unfold checkValues
  rw [mapRes_eq_ok_map (g := fun _ => ()) (fun v hv => by
    have := hn v (List.mem_of_mem_take hv)
    rw [failIf_false (by omega)]), bind_ok, if_neg (by omega)]

theorem checkValues_ub {n : Nat} {values : List Bytes} (hn : ∀ v ∈ values, v.length ≤ n)
    (h31 : 2 ^ 31 ≤ values.length) : checkValues n values = ub := by
  unfold checkValues
  rw [mapRes_eq_ok_map (g := fun _ => ()) (fun v hv => by
    have := hn v (List.mem_of_mem_take hv)
    rw [failIf_false (by omega)]), bind_ok, if_pos h31]

end Verif
