import Verif.Lemmas.DenseDb
import Verif.Lemmas.Accept
import Verif.Lemmas.Prng
import Verif.Props.Evaluation
/-!
# Dense PIR: the two selection vectors differ in one bit
-/
namespace Verif
open Res Spec

/-! ### The inner products -/

/-- All visits of the vectorised code. -/
abbrev wrappedVisits (size L : Nat) : List Visit :=
  visits size (fun i => wrapInt32 ((i * 128 : Nat) : Int)) L

theorem innerProduct_visits {env : SimdEnv} (henv : SimdOk env) {values : List Bytes}
    {selections : List (List U128)} {n L : Nat} (hpos : 0 < n)
    (hlen : ∀ sel ∈ selections, sel.length = L) (hL : L ≤ 2 ^ 24 ∨ (Vectorised env ∧ L < 2 ^ 31))
    (hsize : values.length ≤ 128 * L) (h31 : values.length < 2 ^ 31) (hn : ∀ v ∈ values, v.length ≤ n) :
    innerProduct env values selections n =
      ok (resultsAfter n values selections (wrappedVisits values.length L)) := by
  cases selections with
  | nil => rfl
  | cons first rest =>
    have hf := hlen first (by simp)
    have hlen' : ∀ sel ∈ first :: rest, sel.length = first.length := by
      intro sel h; rw [hlen sel h, hf]
    have hL31 : L < 2 ^ 31 := by omega
    unfold innerProduct
    dsimp only
    have h1 : mapRes (checkSelection values.length (wrapInt32 first.length) n) (first :: rest) =
        ok ((first :: rest).map fun _ => ()) := by
      apply mapRes_eq_ok_map
      intro sel hs
      have := hlen sel hs
      unfold checkSelection
      rw [hf, wrapInt32_of_lt hL31, failIf_false (by omega), bind_ok, failIf_false (by omega), bind_ok,
        failIf_false (by omega)]
    have h2 := checkValues_ok hn (show values.length < 2 ^ 31 from h31)
    rw [h1, bind_ok, h2, bind_ok, Int.toNat_natCast]
    obtain ⟨e, hl, hh, ⟨f, hal, hef⟩, hdst⟩ := henv
    by_cases hs : env.scalar = true ∨ env.lanes < 16 ∨ env.lanes % 16 ≠ 0
    · have hL' : L ≤ 2 ^ 24 := by
        rcases hL with h | ⟨⟨h3, h4, h5⟩, _⟩
        · exact h
        · rcases hs with h | h | h
          · rw [h3] at h; cases h
          · omega
          · omega
      unfold innerProductHwy
      rw [if_pos hs, innerProductNoHwy_ok hlen' hn (by omega), ← visits_wrap _ (by omega), hf]
    · have he : 0 < e := by
        rcases Nat.eq_zero_or_pos e with h | h
        · rw [h] at hl; omega
        · exact h
      rw [innerProductHwy_ok hl he hh hal hef hdst hlen' hn hs, hf]

theorem xorSum_single {α : Type} [DecidableEq α] {l : List α} (hl : l.Nodup) {x : α} (hx : x ∈ l)
    (b : BitVec 8) : xorSum l (fun y => if y = x then b else 0) = b := by
  induction l with
  | nil => cases hx
  | cons y l ih =>
    rw [xorSum_cons]
    rw [List.nodup_cons] at hl
    rcases List.mem_cons.mp hx with rfl | hx
    · rw [if_pos rfl, xorSum_zero]
      · simp
      · intro z hz
        rw [if_neg]
        rintro rfl
        exact hl.1 hz
    · rw [if_neg (by rintro rfl; exact hl.1 hx), ih hl.2 hx]; simp

/-- Only one visit belongs to the selected bit. -/
theorem xorSum_bit {size L m : Nat} (hm : m < size) (hL : m / 128 < L) (h31 : m < 2 ^ 31)
    (f : Nat → BitVec 8) :
    xorSum (wrappedVisits size L) (fun v => if v.1 = m / 128 ∧ v.2.1 = m % 128 then f v.2.2 else 0) =
      f m := by
  obtain ⟨d, rfl⟩ : ∃ d, L = m / 128 + 1 + d := ⟨L - (m / 128 + 1), by omega⟩
  clear hL
  have hblk : ∀ i base, i ≠ m / 128 → xorSum (blockVisits size base i)
      (fun v => if v.1 = m / 128 ∧ v.2.1 = m % 128 then f v.2.2 else 0) = 0 := by
    intro i base hi
    apply xorSum_zero
    intro v hv
    unfold blockVisits visitsIn at hv
    obtain ⟨j, _, rfl⟩ := List.mem_map.mp hv
    rw [if_neg]
    exact fun h => hi h.1
  have hlow : ∀ I, I ≤ m / 128 → xorSum (wrappedVisits size I)
      (fun v => if v.1 = m / 128 ∧ v.2.1 = m % 128 then f v.2.2 else 0) = 0 := by
    intro I
    induction I with
    | zero => intro _; rfl
    | succ I ih =>
      intro hI
      rw [wrappedVisits, visits_succ, xorSum_append, ih (by omega), hblk I _ (by omega)]; simp
  induction d with
  | succ d ih =>
    rw [show m / 128 + 1 + (d + 1) = (m / 128 + 1 + d) + 1 by omega, wrappedVisits, visits_succ,
      xorSum_append, ih, hblk _ _ (by omega)]; simp
  | zero =>
    rw [Nat.add_zero, wrappedVisits, visits_succ, xorSum_append, hlow _ (Nat.le_refl _),
      wrapInt32_of_lt (by omega), blockVisits_nat, xorSum_map]
    rw [xorSum_congr (g := fun j => if j = m % 128 then f m else 0)]
    · rw [xorSum_single List.nodup_range (List.mem_range.mpr (by omega))]; simp
    · intro j _
      dsimp only
      by_cases hj : j = m % 128
      · rw [if_pos ⟨rfl, hj⟩, if_pos hj, hj, show m / 128 * 128 + m % 128 = m by omega]
      · rw [if_neg (fun h => hj h.2), if_neg hj]

/-- Two selection vectors that differ exactly in bit `m`. -/
def DifferAt (L m : Nat) (s0 s1 : List U128) : Prop :=
  s0.length = L ∧ s1.length = L ∧ ∀ i j, i < L → j < 128 →
    ((s0.getD i 0).getLsbD j ^^ (s1.getD i 0).getLsbD j) = decide (i = m / 128 ∧ j = m % 128)

theorem mem_wrappedVisits {size L : Nat} {v : Visit} (h : v ∈ wrappedVisits size L) :
    v.1 < L ∧ v.2.1 < 128 := by
  obtain ⟨i, hi, hv⟩ := List.mem_flatMap.mp h
  unfold blockVisits visitsIn at hv
  obtain ⟨j, hj, rfl⟩ := List.mem_map.mp hv
  exact ⟨List.mem_range.mp hi, List.mem_range.mp ((List.takeWhile_sublist _).subset hj)⟩

theorem padded_eq {n : Nat} {r : Bytes} (h : r.length ≤ n) :
    padded n r = (List.range n).map (byteAt r) := by
  unfold padded
  apply List.ext_getElem (by simp; omega)
  intro p h1 h2
  simp only [List.length_map, List.length_range] at h2
  rw [List.getElem_map, List.getElem_range]
  unfold byteAt
  by_cases hp : p < r.length
  · rw [List.getElem_append_left hp, List.getD_eq_getElem?_getD, List.getElem?_eq_getElem hp]; rfl
  · rw [List.getElem_append_right (by omega), List.getElem_replicate, List.getD_eq_getElem?_getD,
      List.getElem?_eq_none (by omega)]; rfl

/-- XOR of the results for selections that differ in single bits: the records with these numbers. -/
theorem results_differ {n L : Nat} {values : List Bytes} (hn : ∀ v ∈ values, v.length ≤ n)
    {sels0 sels1 : List (List U128)} {ms : List Nat} (hl0 : sels0.length = ms.length)
    (hl1 : sels1.length = ms.length)
    (hd : ∀ k, k < ms.length → DifferAt L (ms.getD k 0) (sels0.getD k []) (sels1.getD k []))
    (hm : ∀ m ∈ ms, m < values.length ∧ m / 128 < L ∧ m < 2 ^ 31) :
    List.zipWith (List.zipWith (· ^^^ ·)) (resultsAfter n values sels0 (wrappedVisits values.length L))
      (resultsAfter n values sels1 (wrappedVisits values.length L)) =
      ms.map fun m => padded n (values.getD m []) := by
  have hms : ms = (List.range ms.length).map fun k => ms.getD k 0 := by
    apply List.ext_getElem (by simp)
    intro i h1 h2
    simp [h1]
  conv => rhs; rw [hms]
  unfold resultsAfter
  rw [hl0, hl1, List.zipWith_map, List.map_map, List.zipWith_self]
  apply List.map_congr_left
  intro k hk
  rw [List.mem_range] at hk
  have hmem : ms.getD k 0 ∈ ms := by
    rw [List.getD_eq_getElem?_getD, List.getElem?_eq_getElem hk]
    exact List.getElem_mem hk
  obtain ⟨h1, h2, h3⟩ := hm _ hmem
  obtain ⟨_, _, hbit⟩ := hd k hk
  have hle : (values.getD (ms.getD k 0) []).length ≤ n := by
    rw [List.getD_eq_getElem?_getD, List.getElem?_eq_getElem h1]
    exact hn _ (List.getElem_mem h1)
  rw [Function.comp, padded_eq hle, List.zipWith_map, List.zipWith_self]
  apply List.map_congr_left
  intro p _
  rw [← xorSum_xor, ← xorSum_bit h1 h2 h3 (fun idx => byteAt (values.getD idx []) p)]
  apply xorSum_congr
  intro v hv
  obtain ⟨hv1, hv2⟩ := mem_wrappedVisits hv
  have hb := hbit v.1 v.2.1 hv1 hv2
  unfold term bitAt
  generalize ((sels0.getD k []).getD v.1 0).getLsbD v.2.1 = b0 at hb ⊢
  generalize ((sels1.getD k []).getD v.1 0).getLsbD v.2.1 = b1 at hb ⊢
  by_cases hc : v.1 = ms.getD k 0 / 128 ∧ v.2.1 = ms.getD k 0 % 128
  · rw [if_pos hc]
    rw [decide_eq_true hc] at hb
    cases b0 <;> cases b1 <;> simp at hb ⊢
  · rw [if_neg hc]
    rw [decide_eq_false hc] at hb
    cases b0 <;> cases b1 <;> simp at hb ⊢

/-! ### The DPF -/

/-- Parameters of a PIR DPF with a domain of 2^l blocks. -/
abbrev pirParams (l : Nat) : DpfParameters := ⟨l, some (.xorWrapper 128), .val 0⟩

theorem pirDpf_exists (fp : FpEnv) {l : Nat} (hl : l ≤ 128) : ∃ d, Dpf.create fp (pirParams l) = ok d := by
  apply createIncremental_noMod fp
  · refine ⟨by simp, ?_, by simp, ?_, ?_⟩
    · intro p hp
      simp only [List.mem_singleton] at hp
      subst hp
      exact ⟨by simp, by simp; omega⟩
    · intro p hp
      simp only [List.mem_singleton] at hp
      subst hp
      exact ⟨.xorWrapper 128, rfl, by simp [ValidType, ValidBits]⟩
    · intro p hp
      simp only [List.mem_singleton] at hp
      subst hp
      exact ⟨0, rfl, by decide, by decide⟩
  · intro p hp
    simp only [List.mem_singleton] at hp
    subst hp
    exact ⟨pirTy, rfl, by decide, rfl⟩

theorem pirDpf_setup {fp : FpEnv} {l : Nat} {d : Dpf} (h : Dpf.create fp (pirParams l) = ok d) :
    Setup fp [pirParams l] (fun _ => pirTy) (d.registerValueType pirTy.helper) :=
  Setup.of_flat (Ts := [pirTy]) h
    (by
      intro h p hp
      match h, hp with
      | 0, hp => simp at hp; rw [← hp]; rfl)
    (fun _ _ => Or.inl (by simp)) (fun _ _ => Or.inl rfl)

theorem selection_register (d : Dpf) (env : Env) (k : DpfKey) :
    DenseServer.selection (d.registerValueType pirTy.helper) env k = DenseServer.selection d env k := rfl

theorem differAt_of_zip {l m : Nat} {v0 v1 : List U128} (l0 : v0.length = 2 ^ l)
    (l1 : v1.length = 2 ^ l) (hz : List.zipWith (fun a b : U128 => a ^^^ b) v0 v1 =
      (List.range (2 ^ l)).map fun i => if i = m / 128 then (1 : U128) <<< (m % 128) else 0) :
    DifferAt (2 ^ l) m v0 v1 := by
  refine ⟨l0, l1, ?_⟩
  intro i j hi hj
  have hi0 : i < v0.length := by rw [l0]; exact hi
  have hi1 : i < v1.length := by rw [l1]; exact hi
  have hx : (v0[i] ^^^ v1[i] : U128) = if i = m / 128 then (1 : U128) <<< (m % 128) else 0 := by
    have hz' := congrArg (fun z : List U128 => z[i]?) hz

    rw [List.getElem?_zipWith, List.getElem?_eq_getElem hi0, List.getElem?_eq_getElem hi1,
      List.getElem?_map, List.getElem?_range hi] at hz'
    simpa using hz'
  rw [List.getD_eq_getElem?_getD, List.getD_eq_getElem?_getD, List.getElem?_eq_getElem hi0,
    List.getElem?_eq_getElem hi1, Option.getD_some, Option.getD_some, ← BitVec.getLsbD_xor, hx]
  by_cases hi' : i = m / 128
  · rw [if_pos hi']
    by_cases hj' : j = m % 128
    · rw [decide_eq_true ⟨hi', hj'⟩]
      subst hj'
      simp [hj]
    · rw [decide_eq_false (fun h => hj' h.2)]
      rw [BitVec.getLsbD_shiftLeft]
      simp
      omega
  · rw [if_neg hi', decide_eq_false (fun h => hi' h.1)]
    simp

/-- The keys for a query give selection vectors that differ in one bit. -/
theorem keysFor_ok {fp : FpEnv} {l : Nat} (hl : l < 63) {d : Dpf}
    (h : Dpf.create fp (pirParams l) = ok d) (env : Env) {m : Nat} (hm : m / 128 < 2 ^ l)
    (seeds : U128 × U128) :
    ∃ k0 k1 s0 s1, DenseClient.keysFor d env (m : Int) seeds = ok (k0, k1) ∧
      DenseServer.selection d env k0 = ok s0 ∧ DenseServer.selection d env k1 = ok s1 ∧
      DifferAt (2 ^ l) m s0 s1 := by
  have hs := pirDpf_setup h
  have hp63 : 2 ^ l < 2 ^ 63 := Nat.pow_lt_pow_right (by decide) hl
  have halpha : (BitVec.ofInt 128 ((m : Int).tdiv 128)).toNat = m / 128 := by
    rw [show ((m : Int).tdiv 128) = ((m / 128 : Nat) : Int) from rfl, BitVec.ofInt_natCast,
      BitVec.toNat_ofNat, Nat.mod_eq_of_lt (by omega)]
  have hshl : shl128 1 ((m : Int).tmod 128) = ok ((1 : U128) <<< (m % 128)) := by
    rw [show ((m : Int).tmod 128) = ((m % 128 : Nat) : Int) from rfl]
    exact shl128_ok (by omega)
  have hlast : lastLogSize [pirParams l] = l := rfl
  have hlog : logSize [pirParams l] 0 = l := rfl
  have hb : BetasRepresent [pirParams l] (fun _ => pirTy)
      [pirTy.helper.toValue ((1 : U128) <<< (m % 128))] (fun _ => (1 : U128) <<< (m % 128)) := by
    refine ⟨rfl, ?_⟩
    intro h v hv
    match h, hv with
    | 0, hv =>
      simp at hv
      rw [← hv]
      exact C20_encoded_represents pirTy _
  have ha' : (BitVec.ofInt 128 ((m : Int).tdiv 128)).toNat < 2 ^ lastLogSize [pirParams l] := by
    rw [halpha, hlast]; exact hm
  obtain ⟨k0, k1, hk, hacc⟩ := C17_keys_accepted fp _ _ _ hs env _ ha' _ _ hb seeds.1 seeds.2
  obtain ⟨k0', k1', hk', hev⟩ := C01_point_function_partial fp _ _ _ hs env _ ha' _ _ hb seeds.1 seeds.2
  rw [hk] at hk'
  cases hk'
  obtain ⟨v0, v1, e0, e1, l0, l1, hz⟩ := hev 0 (by simp) (allPoints [pirParams l] 0) (by
    intro x hx
    obtain ⟨i, hi, rfl⟩ := List.mem_map.mp hx
    rw [List.mem_range, hlog] at hi
    rw [BitVec.toNat_ofNat, hlog, Nat.mod_eq_of_lt (by omega)]
    exact hi)
  obtain ⟨_, ⟨c0, hc0, _⟩, _⟩ := hacc k0 (Or.inl rfl)
  obtain ⟨_, ⟨c1, hc1, _⟩, _⟩ := hacc k1 (Or.inr rfl)
  have n0 := C02_next fp _ _ _ hs env k0 c0 hc0 (by rw [hlog]; exact hl)
  have n1 := C02_next fp _ _ _ hs env k1 c1 hc1 (by rw [hlog]; exact hl)
  have hlen : (allPoints [pirParams l] 0).length = 2 ^ l := by
    unfold allPoints; rw [List.length_map, List.length_range, hlog]
  refine ⟨k0, k1, v0, v1, ?_, ?_, ?_, ?_⟩
  · unfold DenseClient.keysFor
    rw [hshl]
    exact hk
  · rw [← selection_register]
    unfold DenseServer.selection
    rw [hc0, bind_ok, n0]
    exact e0
  · rw [← selection_register]
    unfold DenseServer.selection
    rw [hc1, bind_ok, n1]
    exact e1
  · apply differAt_of_zip (l0.trans hlen) (l1.trans hlen)
    refine Eq.trans hz ?_
    unfold allPoints
    rw [List.map_map, hlog]
    apply List.map_congr_left
    intro i hi
    rw [List.mem_range] at hi
    rw [Function.comp, show alphaPrefix [pirParams l] (BitVec.ofInt 128 ((m : Int).tdiv 128)) 0 = m / 128 by
        unfold alphaPrefix; rw [hlast, hlog, Nat.sub_self, Nat.pow_zero, Nat.div_one, halpha],
        BitVec.toNat_ofNat, Nat.mod_eq_of_lt (by omega)]
    rfl

/-- The keys and selection vectors for all queries. -/
theorem keysAll_ok {fp : FpEnv} {l : Nat} (hl : l < 63) {d : Dpf}
    (h : Dpf.create fp (pirParams l) = ok d) (env : Env) (seeds : Nat → U128 × U128) (ms : List Nat)
    (c : Nat) (hms : ∀ m ∈ ms, m / 128 < 2 ^ l) :
    ∃ keys s0 s1,
      mapRes (fun (q, i) => DenseClient.keysFor d env q (seeds i))
        ((ms.map fun m : Nat => (m : Int)).zipIdx c) = ok keys ∧
      keys.length = ms.length ∧
      mapRes (DenseServer.selection d env) (keys.map (·.1)) = ok s0 ∧
      mapRes (DenseServer.selection d env) (keys.map (·.2)) = ok s1 ∧
      s0.length = ms.length ∧ s1.length = ms.length ∧
      (∀ s ∈ s0, s.length = 2 ^ l) ∧ (∀ s ∈ s1, s.length = 2 ^ l) ∧
      ∀ k, k < ms.length → DifferAt (2 ^ l) (ms.getD k 0) (s0.getD k []) (s1.getD k []) := by
  induction ms generalizing c with
  | nil => exact ⟨[], [], [], rfl, rfl, rfl, rfl, rfl, rfl, by simp, by simp, by simp⟩
  | cons m ms ih =>
    obtain ⟨k0, k1, t0, t1, a1, a2, a3, a4⟩ := keysFor_ok hl h env (hms m (by simp)) (seeds c)
    obtain ⟨keys, s0, s1, b1, b2, b3, b4, b5, b6, b7, b8, b9⟩ :=
      ih (c + 1) (fun x hx => hms x (by simp [hx]))
    refine ⟨(k0, k1) :: keys, t0 :: s0, t1 :: s1, ?_, by simp [b2], ?_, ?_, by simp [b5], by simp [b6],
      ?_, ?_, ?_⟩
    · rw [List.map_cons, List.zipIdx_cons, mapRes_cons, b1]
      dsimp only
      rw [a1]; rfl
    · rw [List.map_cons, mapRes_cons, a2, b3]; rfl
    · rw [List.map_cons, mapRes_cons, a3, b4]; rfl
    · intro s hs
      rcases List.mem_cons.mp hs with rfl | hs
      · exact a4.1
      · exact b7 s hs
    · intro s hs
      rcases List.mem_cons.mp hs with rfl | hs
      · exact a4.2.1
      · exact b8 s hs
    · intro k hk
      cases k with
      | zero => exact a4
      | succ k => exact b9 k (by rw [List.length_cons] at hk; omega)

/-- All queries: the client's keys make the servers' inner products differ in the records asked for. -/
theorem pir_core {fp : FpEnv} {l : Nat} {d : Dpf} (h : Dpf.create fp (pirParams l) = ok d) (env : Env)
    {records : List Bytes} {db : DenseDb} (hh : db.Holds records) (hpos : 0 < maxLength records)
    (hsize : records.length ≤ 128 * 2 ^ l) (h31 : records.length < 2 ^ 31) {simd0 simd1 : SimdEnv}
    (ok0 : SimdOk simd0) (ok1 : SimdOk simd1)
    (hL : 2 ^ l ≤ 2 ^ 24 ∨ (Vectorised simd0 ∧ Vectorised simd1 ∧ 2 ^ l < 2 ^ 31))
    (ms : List Nat) (hm : ∀ m ∈ ms, m < records.length) (seeds : Nat → U128 × U128) :
    ∃ keys s0 s1 r0 r1,
      mapRes (fun (q, i) => DenseClient.keysFor d env q (seeds i)) (ms.map fun m : Nat => (m : Int)).zipIdx =
        ok keys ∧
      keys.length = ms.length ∧
      mapRes (DenseServer.selection d env) (keys.map (·.1)) = ok s0 ∧
      mapRes (DenseServer.selection d env) (keys.map (·.2)) = ok s1 ∧
      db.innerProductWith simd0 s0 = ok r0 ∧ db.innerProductWith simd1 s1 = ok r1 ∧
      r0.length = ms.length ∧ r1.length = ms.length ∧
      (∀ r ∈ r0, r.length = maxLength records) ∧ (∀ r ∈ r1, r.length = maxLength records) ∧
      List.zipWith (List.zipWith (· ^^^ ·)) r0 r1 =
        ms.map fun m => padded (maxLength records) (records.getD m []) := by
  have hl : l < 63 := by
    have : 2 ^ l < 2 ^ 31 := by omega
    have := (Nat.pow_lt_pow_iff_right (by decide : 1 < 2)).mp this
    omega
  have hm' : ∀ m ∈ ms, m < records.length ∧ m / 128 < 2 ^ l ∧ m < 2 ^ 31 := by
    intro m hmem
    have := hm m hmem
    refine ⟨this, ?_, by omega⟩
    exact (Nat.div_lt_iff_lt_mul (by decide)).mpr (by omega)
  obtain ⟨keys, s0, s1, b1, b2, b3, b4, b5, b6, b7, b8, b9⟩ := keysAll_ok hl h env seeds ms 0 (fun m hmem => (hm' m hmem).2.1)
  have hrec : ∀ v ∈ records, v.length ≤ maxLength records := fun v hv => length_le_maxLength hv
  refine ⟨keys, s0, s1, resultsAfter (maxLength records) records s0 (wrappedVisits records.length (2 ^ l)),
    resultsAfter (maxLength records) records s1 (wrappedVisits records.length (2 ^ l)),
    b1, b2, b3, b4, ?_, ?_, ?_, ?_, ?_, ?_, ?_⟩
  · unfold DenseDb.innerProductWith
    rw [hh.content, bind_ok, hh.max]
    refine innerProduct_visits ok0 hpos b7 ?_ hsize (by omega) hrec
    rcases hL with h | ⟨h, _, h'⟩
    · exact Or.inl h
    · exact Or.inr ⟨h, h'⟩
  · unfold DenseDb.innerProductWith
    rw [hh.content, bind_ok, hh.max]
    refine innerProduct_visits ok1 hpos b8 ?_ hsize (by omega) hrec
    rcases hL with h | ⟨_, h, h'⟩
    · exact Or.inl h
    · exact Or.inr ⟨h, h'⟩
  · unfold resultsAfter; simp [b5]
  · unfold resultsAfter; simp [b6]
  · intro r hr
    unfold resultsAfter at hr
    obtain ⟨k, _, rfl⟩ := List.mem_map.mp hr
    simp
  · intro r hr
    unfold resultsAfter at hr
    obtain ⟨k, _, rfl⟩ := List.mem_map.mp hr
    simp
  · exact results_differ hrec b5 b6 b9 hm'

/-! ### Masking -/

theorem xorString_ok {a b : Bytes} (h : b.length = a.length) :
    PirServer.xorString a b = ok (List.zipWith (· ^^^ ·) a b) := by
  unfold PirServer.xorString
  rw [mapRes_eq_ok_map (g := fun j => a.getD j 0 ^^^ b.getD j 0)]
  · apply congrArg
    apply List.ext_getElem (by simp [h])
    intro i h1 h2
    simp only [List.length_map, List.length_range] at h1
    simp [h1, h ▸ h1]
  · intro j hj
    rw [List.mem_range] at hj
    rw [rd_getD (by omega) 0, bind_ok, rd_getD (by omega) 0, bind_ok]

/-- XOR of successive strings with successive parts of a stream. -/
def maskWith (stream : Nat → BitVec 8) : Nat → List Bytes → List Bytes
  | _, [] => []
  | k, r :: rs => List.zipWith (· ^^^ ·) r (streamBytes stream k r.length) ::
      maskWith stream (k + r.length) rs

theorem maskAll_ok {aes : AesBlock} {seed : Bytes} {nonce : U128} {prng : Prng} {k : Nat}
    (h : prng.After aes seed nonce k) (rs : List Bytes) :
    PirServer.maskAll aes prng rs = ok (maskWith (ctrStream aes seed nonce) k rs) := by
  have hf : ∀ (rs : List Bytes) (prng : Prng) (k : Nat) (out : List Bytes),
      prng.After aes seed nonce k → ∃ prng',
      foldRes (fun (out, prng) (response : Bytes) => do
        let (mask, prng) ← Prng.getRandomBytes aes prng response.length
        let masked ← PirServer.xorString response mask
        ok (out ++ [masked], prng)) ((out, prng) : List Bytes × Prng) rs =
        ok (out ++ maskWith (ctrStream aes seed nonce) k rs, prng') := by
    intro rs
    induction rs with
    | nil => intro prng k out _; exact ⟨prng, by simp [foldRes, maskWith]⟩
    | cons r rs ih =>
      intro prng k out ha
      obtain ⟨p', h1, h2⟩ := Prng.getRandomBytes_ok ha r.length
      obtain ⟨p'', h3⟩ := ih p' (k + r.length)
        (out ++ [List.zipWith (· ^^^ ·) r (streamBytes (ctrStream aes seed nonce) k r.length)]) h2
      refine ⟨p'', ?_⟩
      rw [foldRes_cons]
      dsimp only
      rw [h1, bind_ok]
      dsimp only
      rw [xorString_ok (streamBytes_length _ _ _), bind_ok, bind_ok, h3]
      simp [maskWith]
  obtain ⟨p', h1⟩ := hf rs prng k [] h
  unfold PirServer.maskAll
  rw [h1]
  rfl

theorem maskWith_lengths (stream : Nat → BitVec 8) (rs : List Bytes) (k : Nat) :
    (maskWith stream k rs).map List.length = rs.map List.length := by
  induction rs generalizing k with
  | nil => rfl
  | cons r rs ih => simp [maskWith, ih, streamBytes_length]

/-- Two lists of strings of the same shape. -/
theorem combine_ok {a b : List Bytes} (h : b.map List.length = a.map List.length) :
    PirServer.combine a b = ok (xorResponses a b) := by
  have hl : b.length = a.length := by simpa using congrArg List.length h
  unfold PirServer.combine
  rw [mapRes_eq_ok_map (g := fun i => List.zipWith (· ^^^ ·) (a.getD i []) (b.getD i []))]
  · apply congrArg
    unfold xorResponses
    apply List.ext_getElem (by simp [hl])
    intro i h1 h2
    simp only [List.length_map, List.length_range] at h1
    have h3 : i < a.length := by omega
    simp [h1, h3]
  · intro i hi
    rw [List.mem_range] at hi
    have hi' : i < a.length := by omega
    have hel : (b.getD i []).length = (a.getD i []).length := by
      have := congrArg (fun l : List Nat => l[i]?) h
      simpa [List.getD_eq_getElem?_getD, hi, hi'] using this
    rw [rd_getD hi' [], bind_ok, rd_getD hi [], bind_ok, failIf_false (fun hne => hne hel), bind_ok,
      xorString_ok hel]

theorem zipWith_xor_mask (a b c : Bytes) (h1 : b.length = a.length) (h2 : c.length = a.length) :
    List.zipWith (· ^^^ ·) (List.zipWith (· ^^^ ·) a (List.zipWith (· ^^^ ·) b c)) c =
      List.zipWith (fun x y : BitVec 8 => x ^^^ y) a b := by
  apply List.ext_getElem (by simp; omega)
  intro i _ _
  simp [BitVec.xor_assoc]

/-- Masking one of two responses and unmasking their XOR. -/
theorem unmask (stream : Nat → BitVec 8) (a b : List Bytes) (k : Nat)
    (h : b.map List.length = a.map List.length) :
    maskWith stream k (xorResponses a (maskWith stream k b)) = xorResponses a b := by
  induction a generalizing b k with
  | nil => rfl
  | cons r a ih =>
    cases b with
    | nil => simp at h
    | cons r' b =>
      simp only [List.map_cons, List.cons.injEq] at h
      have hl : (List.zipWith (fun x y : BitVec 8 => x ^^^ y) r (List.zipWith (fun x y : BitVec 8 => x ^^^ y) r'
        (streamBytes stream k r'.length))).length = r'.length := by
        simp [streamBytes_length]; omega
      simp only [xorResponses, maskWith, List.zipWith_cons_cons]
      rw [hl, zipWith_xor_mask _ _ _ h.1 (by rw [streamBytes_length]; exact h.1)]
      have := ih b (k + r'.length) h.2
      unfold xorResponses at this
      rw [this]

/-! ### Client and server -/

theorem Spec.ExactAt.small {c : CeilLog2} {n : Nat} (h : ExactAt c n) (k : Nat) (hn : n ≤ 2 ^ k) :
    ∃ l : Nat, c n = l ∧ n ≤ 2 ^ l ∧ l ≤ k := by
  obtain ⟨l, h1, h2, h3⟩ := h
  refine ⟨l, h1, h2, ?_⟩
  rcases h3 with h3 | h3
  · omega
  · have := (Nat.pow_lt_pow_iff_right (by decide : 1 < 2)).mp (Nat.lt_of_lt_of_le h3 hn)
    omega

theorem Spec.Plausible.nat {c : CeilLog2} (h : Plausible c) (n : Nat) (h0 : 0 < n) (h63 : n < 2 ^ 63) :
    ∃ l : Nat, c n = l ∧ l ≤ 64 := by
  obtain ⟨h1, h2⟩ := h n h0 h63
  exact ⟨(c n).toNat, by omega, by omega⟩

theorem Spec.Plausible.of_exact {c : CeilLog2} (h : ∀ n : Nat, 0 < n → n < 2 ^ 63 → ExactAt c n) : Plausible c := by
  intro n h0 h63
  obtain ⟨l, e1, _, e3⟩ := (h n h0 h63).small 63 (by omega)
  omega

theorem DenseServer.createPlain_ok {fp : FpEnv} {c : CeilLog2} {n : Nat} {db : DenseDb} {d : Dpf}
    (hn : 0 < n) (hs : db.size = n) (hd : Dpf.create fp (pirParameters c n) = ok d) :
    DenseServer.createPlain fp c (.dense n) (some db) = ok ⟨d, db, .plain⟩ := by
  unfold DenseServer.createPlain
  dsimp only
  rw [failIf_false (by omega), bind_ok, failIf_false (by rw [hs]; simp), bind_ok, hd]
  rfl

theorem DenseClient.create_ok {fp : FpEnv} {c : CeilLog2} {n : Nat} {d : Dpf} (hn : 0 < n)
    (h31 : n < 2 ^ 31) (hd : Dpf.create fp (pirParameters c n) = ok d) (enc : CryptFn) (info : Bytes) :
    DenseClient.create fp c (.dense n) (some enc) info = ok ⟨d, enc, info, n⟩ := by
  unfold DenseClient.create
  dsimp only
  rw [failIf_false (by omega), bind_ok, hd, bind_ok, wrapInt32_of_lt h31]

theorem createPlainRequests_eq {c : DenseClient} {n : Nat} (hc : c.databaseSize = n) (env : Env)
    (queries : List Nat) (hq : ∀ q ∈ queries, q < n) (seeds : Nat → U128 × U128)
    (random : Nat → BitVec 8) {keys : List (DpfKey × DpfKey)}
    (hk : mapRes (fun (q, i) => DenseClient.keysFor c.dpf env q (seeds i))
      (queries.map fun m : Nat => (m : Int)).zipIdx = ok keys) :
    c.createPlainRequests env (queries.map fun m : Nat => (m : Int)) seeds random =
      ok (⟨keys.map (·.1), 0⟩, ⟨if keys = [] then none else some ⟨keys.map (·.2), 0⟩,
        Prng.generateSeed random⟩, .dense (Prng.generateSeed random)) := by
  unfold DenseClient.createPlainRequests
  rw [mapRes_eq_ok_map (g := fun _ => ())]
  · rw [bind_ok, hk]; rfl
  · intro q hmem
    obtain ⟨m, hm, rfl⟩ := List.mem_map.mp hmem
    have := hq m hm
    rw [failIf_false (by omega), bind_ok, failIf_false (by rw [hc]; omega)]

theorem manageable_pow {n l : Nat} {simd0 simd1 : SimdEnv} (h : Manageable n simd0 simd1)
    {c : CeilLog2} (hc : ExactAt c n) (hl : c n = l) :
    n ≤ 2 ^ l ∧ (2 ^ l ≤ 2 ^ 24 ∨ (Vectorised simd0 ∧ Vectorised simd1 ∧ 2 ^ l < 2 ^ 31)) := by
  rcases h with h | ⟨h0, h1, h⟩
  · obtain ⟨l', e1, e2, e3⟩ := hc.small 24 h
    have : l' = l := by omega
    subst this
    exact ⟨e2, Or.inl (Nat.pow_le_pow_right (by decide) e3)⟩
  · obtain ⟨l', e1, e2, e3⟩ := hc.small 30 h
    have : l' = l := by omega
    subst this
    exact ⟨e2, Or.inr ⟨h0, h1, Nat.lt_of_le_of_lt (Nat.pow_le_pow_right (by decide) e3) (by decide)⟩⟩

theorem pirDpf_of_exact (fp : FpEnv) {c : CeilLog2} {n : Nat} (hc : ExactAt c n) (h31 : n ≤ 2 ^ 31) :
    ∃ (l : Nat) (d : Dpf), c n = l ∧ n ≤ 2 ^ l ∧ l ≤ 31 ∧ Dpf.create fp (pirParameters c n) = ok d ∧
      Dpf.create fp (pirParams l) = ok d := by
  obtain ⟨l, e1, e2, e3⟩ := hc.small 31 h31
  obtain ⟨d, hd⟩ := pirDpf_exists fp (l := l) (by omega)
  refine ⟨l, d, e1, e2, e3, ?_, hd⟩
  unfold pirParameters
  rw [e1]
  exact hd

end Verif
