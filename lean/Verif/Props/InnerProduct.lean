import Verif.Lemmas.InnerProduct
import Verif.Lemmas.KeyGenErrors
/-!
# C32, C33: inner products of records with packed bit vectors
-/
namespace Verif
open Res Spec

theorem SimdOk.lanes_pos {env : SimdEnv} {e : Nat} (hl : env.lanes = 2 ^ e)
    (hs : ¬ (env.scalar = true ∨ env.lanes < 16 ∨ env.lanes % 16 ≠ 0)) : 0 < e := by
  rcases Nat.eq_zero_or_pos e with h | h
  · rw [hl, h] at hs; simp at hs
  · exact h

/-- C33, one record: for every vector width, record and result buffers, XORing the record into the
results `ks` with full vectors and halved vectors gives the same bytes as the scalar loop over the
results. For the vectors the address of the record passes the check of the code; for the scalar loop the
addresses and the alignment for `uint128` are arbitrary. -/
theorem C33_record (env : SimdEnv) (henv : SimdOk env) (hw : 1 < env.lanes) (value : Bytes) (n : Nat)
    (hn : value.length ≤ n) (results : List Bytes) (hr : ∀ r ∈ results, r.length = n) (ks : List Nat)
    (hks : ks.Nodup) (hlt : ∀ k ∈ ks, k < results.length) (src : Nat)
    (hsrc : src % env.alignment = 0) (src' : Nat) (dst' : Nat → Nat) :
    ∃ out, xorAligned env src value ks results = ok out ∧
      foldRes (fun rs k => updateResults (fun k => xorStringInPlaceNoHwy env.blockAlignment src' (dst' k) value) rs [k])
        results ks = ok out ∧
      out.length = results.length ∧
      ∀ k r, results[k]? = some r → out[k]? = some (if k ∈ ks then
        (List.range n).map fun p => byteAt r p ^^^ byteAt value p else r) := by
  obtain ⟨e, hl, hh, ⟨f, hf, hef⟩, hdst⟩ := henv
  have hsrc' : src % env.lanes = 0 := by
    rw [hf] at hsrc
    rw [hl]
    exact Nat.mod_eq_zero_of_dvd (Nat.dvd_trans (Nat.pow_dvd_pow 2 hef) (Nat.dvd_of_mod_eq_zero hsrc))
  have he : 0 < e := by
    rcases Nat.eq_zero_or_pos e with h | h
    · rw [hl, h] at hw; simp at hw
    · exact h
  have hrep : ∀ r : Bytes, r.length = n → r = (List.range n).map fun p => byteAt r p := by
    rintro r rfl
    apply List.ext_getElem (by simp)
    intro i h1 h2
    simp [byteAt, h1]
  have hres : results = (List.range results.length).map fun k =>
      (List.range n).map fun p => byteAt (results.getD k []) p := by
    apply List.ext_getElem (by simp)
    intro i h1 h2
    simp only [List.getElem_map, List.getElem_range]
    rw [List.getD_eq_getElem?_getD, List.getElem?_eq_getElem h1, Option.getD_some]
    exact hrep _ (hr _ (List.getElem_mem h1))
  refine ⟨xoredResults results.length n value ks fun k p => byteAt (results.getD k []) p, ?_, ?_, ?_, ?_⟩
  · conv => lhs; rw [hres]
    exact xorAligned_ok hl he hh hsrc' hdst hks hlt hn
  · conv => lhs; rw [hres]
    exact xorNoHwy_ok env.sizeof src' dst' hks hlt hn
  · simp [xoredResults]
  · intro k r hk
    have hlt := (List.getElem?_eq_some_iff.mp hk).1
    have hmem : r ∈ results := List.mem_of_getElem? hk
    simp only [xoredResults, List.getElem?_map, List.getElem?_range hlt, Option.map_some,
      Option.some.injEq, List.getD_eq_getElem?_getD, hk, Option.getD_some]
    split
    · rfl
    · conv => rhs; rw [hrep r (hr r hmem)]
      apply List.map_congr_left
      intro p _
      exact BitVec.xor_zero

/-- C33: for every vector width, record lengths and addresses, the vectorised inner product is the
scalar one, for up to 2^24 blocks of selection bits. -/
theorem C33_inner_product_partial (env : SimdEnv) (henv : SimdOk env) (values : List Bytes)
    (selections : List (List U128)) (hne : selections ≠ []) (n L : Nat)
    (hlen : ∀ sel ∈ selections, sel.length = L) (hL : L ≤ 2 ^ 24) (hn : ∀ v ∈ values, v.length ≤ n) :
    innerProductHwy env values selections n = innerProductNoHwy env values selections n := by
  obtain ⟨first, rest, rfl⟩ : ∃ f r, selections = f :: r := by
    cases selections with
    | nil => exact absurd rfl hne
    | cons f r => exact ⟨f, r, rfl⟩
  by_cases hs : env.scalar = true ∨ env.lanes < 16 ∨ env.lanes % 16 ≠ 0
  · unfold innerProductHwy
    rw [if_pos hs]
  · obtain ⟨e, hl, hh, ⟨f, hal, hef⟩, hdst⟩ := henv
    have hf := hlen first (by simp)
    have hlen' : ∀ sel ∈ first :: rest, sel.length = first.length := by
      intro sel h; rw [hlen sel h, hf]
    rw [innerProductHwy_ok hl (SimdOk.lanes_pos hl hs) hh hal hef hdst hlen' hn hs, visits_wrap _ (by omega),
      innerProductNoHwy_ok hlen' hn (by omega)]

/-- C32: the inner product of a list of records with each of several packed bit vectors is the XOR of
the records whose bit is set, continued by zeros to the given size. Missing from the full statement:
selections of more than 2^24 blocks (`C32_refuted`, `C32_scalar_refuted`) and 2^31 or more records
(`C32_many_refuted`). -/
theorem C32_inner_product_partial (env : SimdEnv) (henv : SimdOk env) (values : List Bytes)
    (selections : List (List U128)) (n L : Nat) (hpos : 0 < n)
    (hlen : ∀ sel ∈ selections, sel.length = L) (hL : L ≤ 2 ^ 24) (hsize : values.length ≤ 128 * L)
    (h31 : values.length < 2 ^ 31) (hn : ∀ v ∈ values, v.length ≤ n) :
    innerProduct env values selections n =
      ok (selections.map fun sel => xorPadded n (selectedRecords values (selectionBit sel))) := by
  cases selections with
  | nil => rfl
  | cons first rest =>
    have hf := hlen first (by simp)
    have hlen' : ∀ sel ∈ first :: rest, sel.length = first.length := by
      intro sel h; rw [hlen sel h, hf]
    unfold innerProduct
    dsimp only
    have h1 : mapRes (checkSelection values.length (wrapInt32 first.length) n) (first :: rest) =
        ok ((first :: rest).map fun _ => ()) := by
      apply mapRes_eq_ok_map
      intro sel hs
      unfold checkSelection
      rw [hlen sel hs, hf, wrapInt32_of_lt (by omega), failIf_false (by omega), bind_ok,
        failIf_false (by omega), bind_ok, failIf_false (by omega)]
    have h2 := checkValues_ok hn h31
    rw [h1, bind_ok, h2, bind_ok, Int.toNat_natCast,
      C33_inner_product_partial env henv values (first :: rest) (by simp) n L hlen hL hn,
      innerProductNoHwy_ok hlen' hn (by omega), innerProduct_results (by omega)]

/-- C32: a selection vector with fewer bits than there are records, selection vectors of different
lengths, an empty result size (as for an empty database) and records longer than the result (among
the first 2^31) are rejected. -/
theorem C32_rejects (env : SimdEnv) (values : List Bytes) (selections : List (List U128)) (n : Int)
    (hne : selections ≠ [])
    (hbad : (∃ sel ∈ selections, 128 * sel.length < values.length) ∨
      (∃ sel ∈ selections, ∃ sel' ∈ selections, sel.length ≠ sel'.length) ∨ n ≤ 0 ∨
      ∃ i v, i < 2 ^ 31 ∧ values[i]? = some v ∧ n < v.length) :
    innerProduct env values selections n = err .invalidArgument := by
  cases selections with
  | nil => exact absurd rfl hne
  | cons first rest =>
    unfold innerProduct
    dsimp only
    have hcases : ∀ sel, OkOrInvalid (checkSelection values.length (wrapInt32 first.length) n sel) :=
      fun sel => (OkOrInvalid.failIf _).bind fun _ _ => (OkOrInvalid.failIf _).bind fun _ _ =>
        OkOrInvalid.failIf _
    have h1 : OkOrInvalid (mapRes (checkSelection values.length (wrapInt32 first.length) n)
        (first :: rest)) := OkOrInvalid.mapRes_unit fun sel _ => hcases sel
    have h2 : OkOrInvalid (mapRes (fun v : Bytes => failIf ((v.length : Int) > n) .invalidArgument)
        (values.take (2 ^ 31))) := OkOrInvalid.mapRes_unit fun _ _ => OkOrInvalid.failIf _
    unfold checkValues
    rcases h1 with ⟨us, h1⟩ | h1
    · rw [h1, bind_ok]
      rcases h2 with ⟨vs, h2⟩ | h2
      · exfalso
        have hsel : ∀ sel ∈ first :: rest, ¬ (sel.length * 128 < values.length) ∧
            (sel.length : Int) = wrapInt32 first.length ∧ ¬ n ≤ 0 := by
          intro sel hs
          have hu := (mapRes_exists_of_ok h1 hs).choose_spec
          unfold checkSelection at hu
          simp only [bind_eq_ok, failIf_eq_ok] at hu
          obtain ⟨_, h3, _, h4, h5⟩ := hu
          exact ⟨h3, by omega, h5⟩
        have hval : ∀ v ∈ values.take (2 ^ 31), ¬ (v.length : Int) > n := by
          intro v hv
          have hu := (mapRes_exists_of_ok h2 hv).choose_spec
          rwa [failIf_eq_ok] at hu
        rcases hbad with ⟨s, hs, h⟩ | ⟨s, hs, s', hs', h⟩ | h | ⟨i, v, hi, hv, h⟩
        · exact (hsel s hs).1 (by omega)
        · have h3 := (hsel s hs).2.1
          have h4 := (hsel s' hs').2.1
          omega
        · exact (hsel first (by simp)).2.2 h
        · exact hval v (List.mem_of_getElem? (i := i) (by rw [List.getElem?_take, if_pos hi, hv])) h
      · rw [h2]; rfl
    · rw [h1]; rfl

/-- A CPU with 16-byte vectors; records at odd positions are not aligned. -/
def exSimd : SimdEnv := ⟨false, 16, 6, 16, 16, rfl, fun i => 4096 + 24 * i, fun k => 64 * k, fun k => 32 * k + 8⟩

theorem exSimd_buffers (k : Nat) : exSimd.bufferAddress k % exSimd.lanes = 0 :=
  Nat.mod_eq_zero_of_dvd ⟨4 * k, by show 64 * k = 16 * (4 * k); omega⟩

theorem exSimd_ok : SimdOk exSimd := ⟨4, rfl, by decide, ⟨4, rfl, Nat.le_refl 4⟩, exSimd_buffers⟩

/-- Three records of 19, 16 and 3 bytes. -/
def exRecords : List Bytes :=
  [List.replicate 19 1, List.replicate 16 2, [4, 5, 6]]

/-- C32 on an example: two selections of records 0, 2 and 1. -/
example : innerProduct exSimd exRecords [[5], [2]] 19 =
    ok [[5, 4, 7] ++ List.replicate 16 1, List.replicate 16 2 ++ [0, 0, 0]] := by
  have := C32_inner_product_partial exSimd exSimd_ok exRecords [[5], [2]] 19 1 (by decide) (by decide)
    (by decide) (by decide) (by decide) (by decide)
  rw [show ((19 : Nat) : Int) = 19 from rfl] at this
  rw [this]
  decide +kernel

/-- C33 on the example: all three records into results 0 and 2. -/
example : ∃ out, xorAligned exSimd 4096 (List.replicate 19 1) [2, 0]
      [List.replicate 20 0, List.replicate 20 0, List.replicate 20 3] = ok out ∧
    out = [List.replicate 19 1 ++ [0], List.replicate 20 0, List.replicate 19 2 ++ [3]] := by
  obtain ⟨out, h1, h2, h3, h4⟩ := C33_record exSimd exSimd_ok (by decide) (List.replicate 19 1) 20
    (by decide) [List.replicate 20 0, List.replicate 20 0, List.replicate 20 3] (by decide) [2, 0]
    (by decide) (by decide) 4096 (by decide) 4096 (fun k => 64 * k)
  refine ⟨out, h1, ?_⟩
  have : foldRes (fun rs k => updateResults
      (fun k => xorStringInPlaceNoHwy exSimd.blockAlignment 4096 (64 * k) (List.replicate 19 1)) rs [k])
      [List.replicate 20 0, List.replicate 20 0, List.replicate 20 3] [2, 0] =
      ok [List.replicate 19 1 ++ [0], List.replicate 20 0, List.replicate 19 2 ++ [3]] := by
    decide +kernel
  rw [this] at h2
  exact (ok.inj h2).symm

/-- C32 rejections on an example: 129 records and one block. -/
example : innerProduct exSimd (List.replicate 129 [1]) [[0, 0], [0]] 1 = err .invalidArgument :=
  C32_rejects exSimd _ _ 1 (by simp) (Or.inl ⟨[0], by simp, by simp⟩)

/-- C33 needs vectors that can be halved to single bytes: with 16-byte vectors and `HWY_MIN_POW2` equal
to -3, the last byte of a record of 17 bytes is dropped. -/
theorem C33_few_halvings_refuted : ∃ (env : SimdEnv) (value : Bytes) (result : Bytes),
    env.lanes = 16 ∧ env.halvings = 3 ∧ value.length = result.length ∧
    ∃ r r', xorAligned env 0 value [0] [result] = ok [r] ∧
      xorStringInPlaceNoHwy 16 0 0 value result = ok r' ∧ r ≠ r' :=
  ⟨⟨false, 16, 3, 16, 16, rfl, fun _ => 0, fun _ => 0, fun _ => 0⟩, List.replicate 17 1, List.replicate 17 0, rfl, rfl,
    rfl, List.replicate 16 1 ++ [0], List.replicate 17 1, by decide +kernel, by decide +kernel,
    by decide +kernel⟩

/-- C33 needs the check of the address: a record at an address that is not a multiple of the size of a vector must not
be read with vectors. -/
theorem C33_unaligned (env : SimdEnv) (src : Nat) (hsrc : src % env.lanes ≠ 0) (value : Bytes) (hpos : 0 < env.lanes)
    (hlen : env.lanes ≤ value.length) (ks : List Nat) (results : List Bytes) :
    xorAligned env src value ks results = ub := by
  unfold xorAligned
  dsimp only
  obtain ⟨m, hm⟩ : ∃ m, value.length / env.lanes = m + 1 :=
    ⟨value.length / env.lanes - 1, by have := Nat.div_pos hlen hpos; omega⟩
  rw [hm, List.range_succ_eq_map, foldRes_cons]
  unfold xorVector access
  rw [Nat.zero_mul, Nat.add_zero, if_neg hsrc, bind_ub, bind_ub, bind_ub]

/-- C33_unaligned on an example: record 1 of `exSimd`. -/
example : xorAligned exSimd 4120 (List.replicate 19 1) [0] [List.replicate 20 0] = ub :=
  C33_unaligned exSimd 4120 (by decide) _ (by decide) (by decide) _ _

/-- The block with number 2^25 is taken for the first one. -/
theorem wrapInt32_block : wrapInt32 ((2 ^ 25 * 128 : Nat) : Int) = 0 := by decide

theorem wrapped_bit {sel : List U128} (hlen : sel.length = 2 ^ 25 + 1)
    (h0 : ∀ i, i < 2 ^ 25 → sel.getD i 0 = 0) (h1 : sel.getD (2 ^ 25) 0 = 1) :
    innerProduct exSimd [[1]] [sel] (1 : Nat) = ok [[1]] ∧
      xorPadded 1 (selectedRecords [[1]] (selectionBit sel)) = [0] := by
  have hchk : mapRes (checkSelection 1 (wrapInt32 sel.length) (1 : Nat)) [sel] = ok [()] := by
    rw [mapRes_cons]
    have : checkSelection 1 (wrapInt32 sel.length) (1 : Nat) sel = ok () := by
      unfold checkSelection
      rw [wrapInt32_of_lt (by omega), failIf_false (by omega), bind_ok, failIf_false (by simp), bind_ok,
        failIf_false (by omega)]
    rw [this]; rfl
  constructor
  · unfold innerProduct
    dsimp only
    rw [show (([[1]] : List Bytes).length) = 1 from rfl, hchk, bind_ok,
      checkValues_ok (n := 1) (values := [[1]]) (by decide) (by decide),
      bind_ok, Int.toNat_natCast,
      innerProductHwy_ok (env := exSimd) (e := 4) (f := 4) rfl (by decide) (by decide) rfl (by decide) exSimd_buffers
        (by simp) (by decide) (by decide), hlen, visits_succ, wrapInt32_block]
    apply congrArg
    unfold resultsAfter
    rw [show ([sel] : List (List U128)).length = 1 from rfl, show List.range 1 = [0] from rfl, List.map_singleton,
      List.map_singleton, xorSum_append]
    rw [xorSum_zero]
    · have hb : blockVisits 1 0 (2 ^ 25) = [(2 ^ 25, 0, 0)] := by
        have h : ((List.range 128).takeWhile fun j : Nat => decide (0 ≤ (0 : Int) + j ∧ (0 : Int) + j < (1 : Nat))) =
            [0] := by decide +kernel
        unfold blockVisits visitsIn
        rw [h]
        rfl
      rw [show (([[1]] : List Bytes).length) = 1 from rfl, hb, xorSum_cons, xorSum_nil]
      have hbit : bitAt [sel] 0 (2 ^ 25) 0 = true := by
        unfold bitAt
        rw [List.getD_cons_zero, h1]; rfl
      unfold term
      dsimp only
      rw [hbit]
      rfl
    · intro v hv
      unfold visits at hv
      rw [List.mem_flatMap] at hv
      obtain ⟨i, hi, hv⟩ := hv
      unfold blockVisits visitsIn at hv
      rw [List.mem_map] at hv
      obtain ⟨j, _, rfl⟩ := hv
      rw [List.mem_range] at hi
      have hbit : bitAt [sel] 0 i j = false := by
        unfold bitAt
        rw [List.getD_cons_zero, h0 i hi]; simp
      unfold term
      dsimp only
      rw [hbit]
      rfl
  · have hb : selectionBit sel 0 = false := by
      unfold selectionBit
      rw [Nat.zero_div, h0 0 (by decide)]; rfl
    simp [selectedRecords, hb, xorPadded]

/-- Blocks of zeros and a last bit. -/
theorem exists_wrapped (m : Nat) : ∃ sel : List U128, sel.length = m + 1 ∧
    (∀ i, i < m → sel.getD i 0 = 0) ∧ sel.getD m 0 = 1 := by
  refine ⟨List.replicate m 0 ++ [1], by simp, ?_, ?_⟩
  · intro i hi
    rw [List.getD_eq_getElem?_getD, List.getElem?_append_left (by rw [List.length_replicate]; exact hi),
      List.getElem?_replicate, if_pos hi, Option.getD_some]
  · rw [List.getD_eq_getElem?_getD, List.getElem?_append_right (by rw [List.length_replicate]; omega),
      List.length_replicate, Nat.sub_self, List.getElem?_cons_zero, Option.getD_some]

/-- C32 is false for selections of more than 2^25 blocks in the vectorised version: the index of the
first bit of a block is truncated to 32 bits, so that bit 2^32 selects record 0 (although there is only
one record, and its bit is not set). -/
theorem C32_refuted : ∃ (env : SimdEnv) (values : List Bytes) (sel : List U128) (n : Nat),
    SimdOk env ∧ 0 < n ∧ values.length ≤ 128 * sel.length ∧ (∀ v ∈ values, v.length ≤ n) ∧
    ∃ out, innerProduct env values [sel] n = ok [out] ∧
      out ≠ xorPadded n (selectedRecords values (selectionBit sel)) := by
  obtain ⟨sel, hlen, h0, h1⟩ := exists_wrapped (2 ^ 25)
  obtain ⟨h2, h3⟩ := wrapped_bit hlen h0 h1
  refine ⟨exSimd, [[1]], sel, 1, exSimd_ok, by decide, ?_, by decide, [1], h2, ?_⟩
  · rw [List.length_singleton]; omega
  · rw [h3]; decide

/-- The scalar inner product has undefined behaviour for more than 2^24 blocks of selection bits (signed
overflow), however small the database is. -/
theorem C32_scalar_refuted (env : SimdEnv) (hs : env.scalar = true) (values : List Bytes)
    (sel : List U128) (hlen : sel.length = 2 ^ 24 + 1) (n : Nat) (hpos : 0 < n)
    (hv : values.length < 2 ^ 31) (hn : ∀ v ∈ values, v.length ≤ n) :
    innerProduct env values [sel] n = ub := by
  have hchk : mapRes (checkSelection values.length (wrapInt32 sel.length) n) [sel] = ok [()] := by
    rw [mapRes_cons]
    have : checkSelection values.length (wrapInt32 sel.length) n sel = ok () := by
      unfold checkSelection
      rw [wrapInt32_of_lt (by omega), failIf_false (by omega), bind_ok, failIf_false (by simp), bind_ok,
        failIf_false (by omega)]
    rw [this]; rfl
  have h2 := checkValues_ok hn hv
  unfold innerProduct
  dsimp only
  rw [hchk, bind_ok, h2, bind_ok, Int.toNat_natCast]
  unfold innerProductHwy
  rw [if_pos (Or.inl hs)]
  unfold innerProductNoHwy
  rw [rd_eq_ok.mpr (List.getElem?_cons_zero), bind_ok, hlen, List.range_succ (n := 2 ^ 24), foldRes_append,
    resultsAfter_nil n values]
  have := foldRes_range_eq (n := 2 ^ 24) (f := fun results i =>
      if i * 128 ≥ 2 ^ 31 then ub
      else loopBits values.length ((i * 128 : Nat) : Int) (noHwyRecord env values [sel] i)
        (List.range 128) results) (fun i => resultsAfter n values [sel]
    (visits values.length (fun i => ((i * 128 : Nat) : Int)) i)) (fun i hi => by
      rw [if_neg (by omega), visits_succ]
      refine loopBits_ok (fun vs j idx hj hidx => noHwyRecord_ok hj ?_ hidx hn) _
        (fun j hj => List.mem_range.mp hj) _
      intro s hs
      rw [List.mem_singleton] at hs
      rw [hs]; omega)
  rw [show visits values.length (fun i => ((i * 128 : Nat) : Int)) 0 = [] from rfl] at this
  rw [this, bind_ok, foldRes_cons, if_pos (by omega), bind_ub]

/-- C32_scalar_refuted on an example. -/
example : ∃ sel, innerProduct ⟨true, 1, 0, 16, 16, rfl, fun _ => 0, fun _ => 0, fun _ => 0⟩ [[1]] [sel] (1 : Nat) = ub := by
  obtain ⟨sel, hlen, _⟩ := exists_wrapped (2 ^ 24)
  exact ⟨sel, C32_scalar_refuted _ rfl _ _ hlen 1 (by decide) (by decide) (by decide)⟩

/-- C32 is false for 2^31 or more records: the counter of the loop that checks the records is an `int`,
and incrementing it is undefined. -/
theorem C32_many_refuted (env : SimdEnv) (values : List Bytes) (selections : List (List U128))
    (hne : selections ≠ []) (n L : Nat) (hpos : 0 < n) (hlen : ∀ sel ∈ selections, sel.length = L)
    (hL : L < 2 ^ 31) (hsize : values.length ≤ 128 * L) (h31 : 2 ^ 31 ≤ values.length)
    (hn : ∀ v ∈ values, v.length ≤ n) : innerProduct env values selections n = ub := by
  cases selections with
  | nil => exact absurd rfl hne
  | cons first rest =>
    have hf := hlen first (by simp)
    unfold innerProduct
    dsimp only
    rw [mapRes_eq_ok_map (g := fun _ => ()) (fun sel hs => by
      unfold checkSelection
      rw [hlen sel hs, hf, wrapInt32_of_lt (by omega), failIf_false (by omega), bind_ok,
        failIf_false (by omega), bind_ok, failIf_false (by omega)]), bind_ok, checkValues_ub hn h31]
    rfl

/-- C32_many_refuted on an example: 2^31 records of one byte and 2^24 blocks of selection bits. -/
example : innerProduct exSimd (List.replicate (2 ^ 31) [1]) [List.replicate (2 ^ 24) 1] (1 : Nat) = ub := by
  refine C32_many_refuted _ _ _ (List.cons_ne_nil _ _) 1 (2 ^ 24) (by decide) ?_ (by decide) ?_ ?_ ?_
  · intro sel h
    rw [List.mem_singleton.mp h, List.length_replicate]
  · rw [List.length_replicate]; decide
  · rw [List.length_replicate]; exact Nat.le_refl _
  · intro v h
    rw [(List.mem_replicate.mp h).2]; decide

/-- C33 on the example: vectors and no vectors, two selections. -/
example : innerProductHwy exSimd exRecords [[5], [2]] 19 = innerProductNoHwy exSimd exRecords [[5], [2]] 19 :=
  C33_inner_product_partial exSimd exSimd_ok exRecords _ (by simp) 19 1 (by simp) (by decide) (by decide)

end Verif
