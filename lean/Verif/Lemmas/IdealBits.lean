import Verif.Lemmas.Ideal
import Verif.Lemmas.Sampling
/-! Elements of types without `IntModN` made from uniform bits are uniform. -/
namespace Verif
open Res Spec

/-! ### Bytes and numbers -/

/-- The `k` low bytes of a number. -/
def leBytes : Nat → Nat → Bytes
  | 0, _ => []
  | k + 1, n => BitVec.ofNat 8 n :: leBytes k (n / 256)

theorem leBytes_length (k n : Nat) : (leBytes k n).length = k := by
  induction k generalizing n with
  | zero => rfl
  | succ k ih => rw [leBytes, List.length_cons, ih]

theorem leBytes_leNat (b : Bytes) : leBytes b.length (leNat b) = b := by
  induction b with
  | nil => rfl
  | cons x b ih =>
    have hx := x.isLt
    rw [List.length_cons, leBytes, leNat]
    have h1 : (x.toNat + 256 * leNat b) / 256 = leNat b := by omega
    have h2 : BitVec.ofNat 8 (x.toNat + 256 * leNat b) = x := by
      apply BitVec.eq_of_toNat_eq
      rw [BitVec.toNat_ofNat]
      omega
    rw [h1, h2, ih]

theorem leNat_leBytes (k n : Nat) (h : n < 2 ^ (8 * k)) : leNat (leBytes k n) = n := by
  induction k generalizing n with
  | zero => simp at h; subst h; rfl
  | succ k ih =>
    rw [leBytes, leNat, ih]
    · rw [BitVec.toNat_ofNat]; omega
    · rw [Nat.mul_succ, Nat.pow_add] at h
      exact Nat.div_lt_of_lt_mul (by omega)

/-- Bytes of integers side by side. -/
def unstored : List Leaf → List Nat → Bytes
  | l :: ls, n :: ns => leBytes (l.width / 8) n ++ unstored ls ns
  | _, _ => []

/-- Bytes of integers. -/
def leafSum (ls : List Leaf) : Nat := (ls.map fun l => l.width / 8).sum

/-- The numbers fit the integers. -/
def FitAll : List Leaf → List Nat → Prop
  | [], [] => True
  | l :: ls, n :: ns => n < 2 ^ (8 * (l.width / 8)) ∧ FitAll ls ns
  | _, _ => False

theorem unstored_length (ls : List Leaf) : (ns : List Nat) → FitAll ls ns → (unstored ls ns).length = leafSum ls := by
  induction ls with
  | nil => intro ns h; cases ns <;> rfl
  | cons l ls ih =>
    intro ns h
    cases ns with
    | nil => cases h
    | cons n ns =>
      rw [unstored, List.length_append, leBytes_length, ih ns h.2]
      simp [leafSum]

theorem stored_unstored (ls : List Leaf) : (ns : List Nat) → FitAll ls ns → ∀ r, stored ls (unstored ls ns ++ r) = ns := by
  induction ls with
  | nil => intro ns h r; cases ns; rfl; cases h
  | cons l ls ih =>
    intro ns h r
    cases ns with
    | nil => cases h
    | cons n ns =>
      rw [unstored, stored, List.append_assoc]
      have hl := leBytes_length (l.width / 8) n
      have e : leAt (leBytes (l.width / 8) n ++ (unstored ls ns ++ r)) 0 (l.width / 8) = n := by
        unfold leAt
        rw [List.drop_zero, List.take_append_of_le_length (by omega), List.take_of_length_le (by omega)]
        exact leNat_leBytes _ _ h.1
      rw [e, List.drop_append_of_le_length (by omega), List.drop_of_length_le (by omega), List.nil_append,
        ih ns h.2]

theorem unstored_stored (ls : List Leaf) (b : Bytes) (h : leafSum ls ≤ b.length) :
    unstored ls (stored ls b) = b.take (leafSum ls) := by
  induction ls generalizing b with
  | nil => simp [unstored, leafSum]
  | cons l ls ih =>
    have hs : leafSum (l :: ls) = l.width / 8 + leafSum ls := by simp [leafSum]
    rw [hs] at h ⊢
    rw [stored, unstored, ih _ (by rw [List.length_drop]; omega), List.take_add]
    congr 1
    unfold leAt
    rw [List.drop_zero]
    have := leBytes_leNat (b.take (l.width / 8))
    rw [List.length_take, Nat.min_eq_left (by omega)] at this
    exact this

theorem FitAll.append {a b : List Leaf} : {m n : List Nat} → FitAll a m → FitAll b n → FitAll (a ++ b) (m ++ n) := by
  induction a with
  | nil => intro m n h1 h2; cases m; exact h2; cases h1
  | cons l a ih =>
    intro m n h1 h2
    cases m with
    | nil => cases h1
    | cons x m => exact ⟨h1.1, ih h1.2 h2⟩

theorem FitAll.length_eq {a : List Leaf} : {m : List Nat} → FitAll a m → m.length = a.length := by
  induction a with
  | nil => intro m h1; cases m; rfl; cases h1
  | cons l a ih =>
    intro m h1
    cases m with
    | nil => cases h1
    | cons x m => rw [List.length_cons, List.length_cons, ih h1.2]

mutual
theorem numbersOf_fit : (t : Ty) → (x : t.den) → FitAll (leavesOf t) (numbersOf t x)
  | .uint w, x => ⟨by
      have h1 := BitVec.isLt (w := w.bits) x
      show BitVec.toNat x < 2 ^ (8 * (w.bits / 8))
      rw [← w.bits_dvd]; exact h1, trivial⟩
  | .intModN w N _ _, x => ⟨by
      have h1 := BitVec.isLt (w := w.bits) x.1
      show x.1.toNat < 2 ^ (8 * (w.bits / 8))
      rw [← w.bits_dvd]; exact h1, trivial⟩
  | .xorWrapper w, x => ⟨by
      have h1 := BitVec.isLt (w := w.bits) x
      show BitVec.toNat x < 2 ^ (8 * (w.bits / 8))
      rw [← w.bits_dvd]; exact h1, trivial⟩
  | .tuple ts, x => numbersOfAll_fit ts x
theorem numbersOfAll_fit : (ts : Tys) → (x : ts.den) → FitAll (leavesOfAll ts) (numbersOfAll ts x)
  | .one t, x => numbersOf_fit t x
  | .cons t ts, x => (numbersOf_fit t x.1).append (numbersOfAll_fit ts x.2)
end

mutual
theorem numbersOf_inj : (t : Ty) → (x y : t.den) → numbersOf t x = numbersOf t y → x = y
  | .uint w, x, y, h => by
    simp only [numbersOf, List.cons.injEq, and_true] at h
    exact BitVec.eq_of_toNat_eq h
  | .intModN w N _ _, x, y, h => by
    simp only [numbersOf, List.cons.injEq, and_true] at h
    exact Subtype.ext (BitVec.eq_of_toNat_eq h)
  | .xorWrapper w, x, y, h => by
    simp only [numbersOf, List.cons.injEq, and_true] at h
    exact BitVec.eq_of_toNat_eq h
  | .tuple ts, x, y, h => numbersOfAll_inj ts x y h
theorem numbersOfAll_inj : (ts : Tys) → (x y : ts.den) → numbersOfAll ts x = numbersOfAll ts y → x = y
  | .one t, x, y, h => numbersOf_inj t x y h
  | .cons t ts, x, y, h => by
    have h' : numbersOf t x.1 ++ numbersOfAll ts x.2 = numbersOf t y.1 ++ numbersOfAll ts y.2 := h
    have hl : (numbersOf t x.1).length = (numbersOf t y.1).length := by
      rw [(numbersOf_fit t x.1).length_eq, (numbersOf_fit t y.1).length_eq]
    obtain ⟨h1, h2⟩ := List.append_inj h' hl
    exact Prod.ext (numbersOf_inj t _ _ h1) (numbersOfAll_inj ts _ _ h2)
end

/-! ### Replacing elements in a byte string -/

/-- Bytes of an element. -/
def encodeElt (t : Ty) (x : t.den) : Bytes := unstored (leavesOf t) (numbersOf t x)

theorem leafSum_eq (t : Ty) : leafSum (leavesOf t) = t.leafBytes := leafBytes_eq t

theorem encodeElt_length (t : Ty) (x : t.den) : (encodeElt t x).length = t.leafBytes := by
  unfold encodeElt
  rw [unstored_length _ _ (numbersOf_fit t x), leafSum_eq]

/-- The elements as a function. -/
def eltsOf (t : Ty) (b : Bytes) : List t.den :=
  match t.helper.convertBytesToArrayOf b with
  | .ok xs => xs
  | _ => []

/-- A byte string with its elements replaced. -/
def putElts (t : Ty) (xs : List t.den) (b : Bytes) : Bytes :=
  xs.flatMap (encodeElt t) ++ b.drop (xs.length * t.leafBytes)

theorem flatMap_encode_length (t : Ty) (xs : List t.den) :
    (xs.flatMap (encodeElt t)).length = xs.length * t.leafBytes := by
  induction xs with
  | nil => simp
  | cons x xs ih =>
    rw [List.flatMap_cons, List.length_append, ih, encodeElt_length, List.length_cons, Nat.succ_mul xs.length]
    omega

theorem putElts_length (t : Ty) (xs : List t.den) (b : Bytes) (h : xs.length * t.leafBytes ≤ b.length) :
    (putElts t xs b).length = b.length := by
  unfold putElts
  rw [List.length_append, flatMap_encode_length, List.length_drop]
  omega

theorem flatMap_encode_drop (t : Ty) (xs : List t.den) (r : Bytes) {i : Nat} (hi : i < xs.length) :
    ∃ r', (xs.flatMap (encodeElt t) ++ r).drop (i * t.leafBytes) = encodeElt t xs[i] ++ r' := by
  induction xs generalizing i with
  | nil => simp at hi
  | cons x xs ih =>
    cases i with
    | zero =>
      refine ⟨xs.flatMap (encodeElt t) ++ r, ?_⟩
      simp
    | succ i =>
      obtain ⟨r', hr⟩ := ih (i := i) (by simpa using hi)
      refine ⟨r', ?_⟩
      rw [List.flatMap_cons, Nat.succ_mul i, Nat.add_comm, ← List.drop_drop, List.append_assoc,
        List.drop_left' (encodeElt_length t x), hr]
      rfl

theorem eltsOf_ok (t : Ty) (hm : t.noMod = true) (b : Bytes) (hb : t.bytesRead ≤ b.length) :
    (eltsOf t b).length = t.helper.elementsPerBlock ∧
      ∀ i (h : i < (eltsOf t b).length), numbersOf t (eltsOf t b)[i] = stored (leavesOf t) (b.drop (i * t.leafBytes)) := by
  obtain ⟨xs, hx, hlen⟩ := t.convert_ok b hb
  have e : eltsOf t b = xs := by unfold eltsOf; rw [hx]
  rw [e]
  refine ⟨hlen, ?_⟩
  intro i hi
  unfold Helper.convertBytesToArrayOf at hx
  rw [t.canDirect_eq, if_pos hm] at hx
  have hsz : (t.helper.totalBitSize + 7) / 8 = t.leafBytes := by
    rw [Ty.totalBitSize_eq t hm]; omega
  dsimp only at hx
  rw [hsz] at hx
  obtain ⟨_, _, hx⟩ := bind_eq_ok.mp hx
  have := (mapRes_eq_ok.mp hx).2 i (by simpa using (by omega : i < t.helper.elementsPerBlock)) hi
  rw [List.getElem_range] at this
  obtain ⟨s, hs, he⟩ := bind_eq_ok.mp this
  unfold Helper.fromBytes at he
  rw [t.canDirect_eq, if_pos hm] at he
  rw [t.directly_spec hm s _ he]
  unfold substr at hs
  split at hs
  · cases hs
  · simp only [ok.injEq] at hs
    rw [← hs, stored_take _ _ _ (Nat.le_of_eq (leafBytes_eq t))]

theorem bytesRead_noMod (t : Ty) (hm : t.noMod = true) : t.helper.elementsPerBlock * t.leafBytes = t.bytesRead := by
  rw [t.elementsPerBlock_eq, if_pos hm]
  unfold Ty.bytesRead
  rw [if_pos hm]
  split <;> simp

theorem eltsOf_putElts (t : Ty) (hm : t.noMod = true) (b : Bytes) (hb : t.bytesRead ≤ b.length) (xs : List t.den)
    (hl : xs.length = t.helper.elementsPerBlock) : eltsOf t (putElts t xs b) = xs := by
  have hbr := bytesRead_noMod t hm
  obtain ⟨h1, h2⟩ := eltsOf_ok t hm (putElts t xs b) (by rw [putElts_length _ _ _ (by rw [hl]; omega)]; exact hb)
  apply List.ext_getElem (by omega)
  intro i hi hi'
  apply numbersOf_inj
  rw [h2 i hi]
  obtain ⟨r', hr⟩ := flatMap_encode_drop t xs (b.drop (xs.length * t.leafBytes)) hi'
  unfold putElts
  rw [hr]
  exact stored_unstored _ _ (numbersOf_fit t _) _

theorem take_chunks (f : Nat → Bytes) (b : Bytes) (m n : Nat) (hb : n * m ≤ b.length)
    (hf : ∀ i, i < n → f i = (b.drop (i * m)).take m) : (List.range n).flatMap f = b.take (n * m) := by
  induction n with
  | zero => simp
  | succ n ih =>
    rw [Nat.succ_mul n] at hb ⊢
    rw [List.range_succ, List.flatMap_append, ih (by omega) (fun i hi => hf i (by omega))]
    simp only [List.flatMap_cons, List.flatMap_nil, List.append_nil]
    rw [hf n (by omega), List.take_add]

theorem putElts_eltsOf (t : Ty) (hm : t.noMod = true) (b : Bytes) (hb : t.bytesRead ≤ b.length) :
    putElts t (eltsOf t b) b = b := by
  have hbr := bytesRead_noMod t hm
  obtain ⟨h1, h2⟩ := eltsOf_ok t hm b hb
  unfold putElts
  have e : (eltsOf t b).flatMap (encodeElt t) = b.take ((eltsOf t b).length * t.leafBytes) := by
    rw [← take_chunks (fun i => (b.drop (i * t.leafBytes)).take t.leafBytes) b t.leafBytes (eltsOf t b).length
      (by rw [h1]; omega) (fun i _ => rfl)]
    rw [List.flatMap_def, List.flatMap_def]
    apply congrArg
    apply List.ext_getElem
    · simp
    · intro i hi hi'
      simp only [List.length_map] at hi
      rw [List.getElem_map, List.getElem_map, List.getElem_range]
      unfold encodeElt
      rw [h2 i hi, unstored_stored, leafSum_eq]
      rw [leafSum_eq, List.length_drop]
      have : (i + 1) * t.leafBytes ≤ (eltsOf t b).length * t.leafBytes := Nat.mul_le_mul_right _ hi
      rw [Nat.succ_mul i, h1] at this
      omega
  rw [e, List.take_append_drop]

theorem putElts_putElts (t : Ty) (b : Bytes) (xs ys : List t.den) (hl : ys.length = xs.length) :
    putElts t ys (putElts t xs b) = putElts t ys b := by
  unfold putElts
  rw [hl, List.drop_append_of_le_length (by rw [flatMap_encode_length]; omega),
    List.drop_of_length_le (by rw [flatMap_encode_length]; omega), List.nil_append]

/-! ### Blocks -/

theorem blockBytes_eq (x : U128) : blockBytes x = leBytes 16 x.toNat := by
  unfold blockBytes
  have h : ∀ k n, leBytes k n = (List.range k).map fun i => BitVec.ofNat 8 (n / 256 ^ i) := by
    intro k
    induction k with
    | zero => intro n; rfl
    | succ k ih =>
      intro n
      rw [leBytes, ih, List.range_succ_eq_map, List.map_cons, List.map_map]
      congr 1
      · simp
      · apply List.map_congr_left
        intro i _
        show BitVec.ofNat 8 _ = BitVec.ofNat 8 _
        rw [Nat.div_div_eq_div_mul, Nat.pow_succ, Nat.mul_comm]
  rw [h]
  apply List.map_congr_left
  intro i _
  apply BitVec.eq_of_toNat_eq
  rw [BitVec.extractLsb'_toNat, BitVec.toNat_ofNat, Nat.shiftRight_eq_div_pow, Nat.pow_mul]

/-- The blocks of a byte string. -/
def bytesBlocks (b : Bytes) (k : Nat) (i : Fin k) : U128 := BitVec.ofNat 128 (leAt b (16 * i) 16)

theorem blocksBytes_drop (l : List U128) {i : Nat} (hi : i < l.length) :
    ((blocksBytes l).drop (16 * i)).take 16 = blockBytes l[i] := by
  induction l generalizing i with
  | nil => simp at hi
  | cons x l ih =>
    have hx : (blockBytes x).length = 16 := by simp [blockBytes]
    unfold blocksBytes
    rw [List.flatMap_cons]
    cases i with
    | zero => 
      rw [Nat.mul_zero, List.drop_zero, List.take_append_of_le_length (by omega), List.take_of_length_le (by omega)]
      rfl
    | succ i =>
      rw [Nat.mul_succ, Nat.add_comm, ← List.drop_drop, List.drop_left' hx]
      exact ih (by simpa using hi)

theorem bytesBlocks_blocksBytes {k : Nat} (f : Fin k → U128) : bytesBlocks (blocksBytes (List.ofFn f)) k = f := by
  funext i
  unfold bytesBlocks leAt
  rw [blocksBytes_drop _ (by simp), blockBytes_eq, List.getElem_ofFn, leNat_leBytes _ _ (f i).isLt]
  simp

theorem blocksBytes_bytesBlocks {b : Bytes} {k : Nat} (h : b.length = 16 * k) :
    blocksBytes (List.ofFn (bytesBlocks b k)) = b := by
  unfold blocksBytes
  have e := take_chunks (fun i => (b.drop (i * 16)).take 16) b 16 k (by omega) (fun i _ => rfl)
  rw [List.take_of_length_le (by omega)] at e
  refine Eq.trans ?_ e
  rw [List.flatMap_def, List.flatMap_def]
  apply congrArg
  apply List.ext_getElem
  · simp
  · intro i hi hi'
    simp only [List.length_map, List.length_ofFn] at hi
    rw [List.getElem_map, List.getElem_map, List.getElem_range, List.getElem_ofFn, blockBytes_eq]
    unfold bytesBlocks leAt
    have hl : ((b.drop (16 * i)).take 16).length = 16 := by
      rw [List.length_take, List.length_drop]; omega
    have h3 := leNat_lt ((b.drop (16 * i)).take 16)
    rw [hl] at h3
    rw [BitVec.toNat_ofNat, Nat.mod_eq_of_lt h3]
    have := leBytes_leNat ((b.drop (16 * i)).take 16)
    rw [hl] at this
    rw [this, Nat.mul_comm]

theorem elementsOfBlocks_eq (t : Ty) (l : List U128) : elementsOfBlocks t l = eltsOf t (blocksBytes l) := rfl

/-- Reading and replacing the elements that blocks stand for. -/
theorem blocks_lens (t : Ty) (hm : t.noMod = true) (k : Nat) (hk : t.bytesRead ≤ 16 * k) :
    ∃ put : (Fin t.helper.elementsPerBlock → t.den) → (Fin k → U128) → Fin k → U128,
      let get := fun (f : Fin k → U128) (i : Fin t.helper.elementsPerBlock) =>
        (elementsOfBlocks t (List.ofFn f)).getD i t.helper.zero
      (∀ xs f, get (put xs f) = xs) ∧ (∀ f, put (get f) f = f) ∧
      ∀ xs ys f, put ys (put xs f) = put ys f := by
  have hbl : ∀ f : Fin k → U128, (blocksBytes (List.ofFn f)).length = 16 * k := by
    intro f; rw [blocksBytes_length, List.length_ofFn]
  have hbr := bytesRead_noMod t hm
  refine ⟨fun xs f => bytesBlocks (putElts t (List.ofFn xs) (blocksBytes (List.ofFn f))) k, ?_, ?_, ?_⟩
  · intro xs f
    funext i
    dsimp only
    rw [elementsOfBlocks_eq, blocksBytes_bytesBlocks (by
      rw [putElts_length _ _ _ (by rw [hbl, List.length_ofFn]; omega), hbl]),
      eltsOf_putElts t hm _ (by rw [hbl]; exact hk) _ (by simp), getD_eq_getElem _ _ _ (by simp),
      List.getElem_ofFn]
  · intro f
    have h1 := (eltsOf_ok t hm (blocksBytes (List.ofFn f)) (by rw [hbl]; exact hk)).1
    have e : List.ofFn (fun (i : Fin t.helper.elementsPerBlock) =>
        (elementsOfBlocks t (List.ofFn f)).getD i t.helper.zero) = eltsOf t (blocksBytes (List.ofFn f)) := by
      rw [elementsOfBlocks_eq]
      apply List.ext_getElem
      · simp [h1]
      · intro i _ h
        rw [List.getElem_ofFn, getD_eq_getElem _ _ _ h]
    dsimp only
    rw [e, putElts_eltsOf t hm _ (by rw [hbl]; exact hk), bytesBlocks_blocksBytes]
  · intro xs ys f
    dsimp only
    rw [blocksBytes_bytesBlocks (by
      rw [putElts_length _ _ _ (by rw [hbl, List.length_ofFn]; omega), hbl]),
      putElts_putElts _ _ _ _ (by simp)]

theorem elementsOf_blocks (d : Dpf) (env : Env) (T : Nat → Ty) (h : Nat) (seed : U128) :
    elementsOfBlocks (T h) (List.ofFn fun (i : Fin (blocksOf d h)) =>
      hash env kPrgKeyValue (seed + BitVec.ofNat 128 i)) = elementsOf d env T h seed := by
  have e : (List.ofFn fun (i : Fin (blocksOf d h)) => hash env kPrgKeyValue (seed + BitVec.ofNat 128 i)) =
      (Dpf.iota seed (d.blocksNeeded.getD h 0)).map (hash env kPrgKeyValue) := by
    unfold Dpf.iota
    apply List.ext_getElem
    · simp [blocksOf]
    · intro i h1 h2
      simp
  rw [e]
  unfold elementsOf elementsOfBlocks
  dsimp only
  cases (T h).helper.convertBytesToArrayOf
    (blocksBytes ((Dpf.iota seed (d.blocksNeeded.getD h 0)).map (hash env kPrgKeyValue))) <;> rfl

/-- There is no injection from `m + 1` numbers into `m`. -/
theorem pigeonhole (m : Nat) (f : Nat → Nat) (hlt : ∀ i, i ≤ m → f i < m)
    (hinj : ∀ i j, i ≤ m → j ≤ m → f i = f j → i = j) : False := by
  induction m generalizing f with
  | zero => exact absurd (hlt 0 (Nat.le_refl _)) (by omega)
  | succ m ih =>
    apply ih (fun i => if f i = m then f (m + 1) else f i)
    · intro i hi
      have h1 := hlt i (by omega)
      have h2 := hlt (m + 1) (by omega)
      split
      · have : f (m + 1) ≠ f i := fun e => absurd (hinj _ _ (by omega) (by omega) e) (by omega)
        omega
      · omega
    · intro i j hi hj e
      have hi' : f (m + 1) ≠ f i := fun e => absurd (hinj _ _ (by omega) (by omega) e) (by omega)
      have hj' : f (m + 1) ≠ f j := fun e => absurd (hinj _ _ (by omega) (by omega) e) (by omega)
      apply hinj i j (by omega) (by omega)
      split at e <;> split at e <;> omega

end Verif
