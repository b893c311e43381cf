import Verif.Spec.Textbook
import Verif.Lemmas.PointFunction
import Verif.Lemmas.IdealBits
import Verif.Props.Sampling
/-! The algorithm of Spec/Textbook.lean and the functions used in the other proofs. -/
namespace Verif
open Res Spec

theorem hashBlock_eq (env : Env) : hashBlock env.aes = hash env := rfl
theorem treePrg_eq (env : Env) : treePrg env.aes = dpfPrg env := rfl
theorem keyNode_eq (env : Env) : keyNode env.aes = Dpf.nodeAt env := rfl
theorem valueBytes_eq (env : Env) (seed : U128) (n : Nat) : valueBytes env.aes seed n = seedBytes env n seed := by
  unfold valueBytes seedBytes blocksBytes Dpf.iota
  rw [List.map_map, List.flatMap_map]
  rfl

theorem perBlock_eq (t : Ty) : t.helper.elementsPerBlock = perBlock t := by
  rw [t.elementsPerBlock_eq]
  unfold perBlock
  cases t.noMod <;> simp

/-! ## Elements use the first bytes only -/

/-- Bytes for all integers but the last. -/
def tailBytes : List Leaf → Nat
  | [] => 0
  | [_] => 0
  | l :: m :: ls => l.width / 8 + tailBytes (m :: ls)

theorem leavesOf_ne : (t : Ty) → leavesOf t ≠ []
  | .uint _ => by simp [leavesOf]
  | .intModN _ _ _ _ => by simp [leavesOf]
  | .xorWrapper _ => by simp [leavesOf]
  | .tuple (.one t) => leavesOf_ne t
  | .tuple (.cons t ts) => by
    have := leavesOf_ne t
    simp [leavesOf, leavesOfAll, this]

theorem leavesOfAll_ne : (ts : Tys) → leavesOfAll ts ≠ []
  | .one t => leavesOf_ne t
  | .cons t ts => by
    have := leavesOf_ne t
    simp [leavesOfAll, this]

theorem tailBytes_append (a : List Leaf) {b : List Leaf} (hb : b ≠ []) :
    tailBytes (a ++ b) = (a.map fun l => l.width / 8).sum + tailBytes b := by
  induction a with
  | nil => simp
  | cons l a ih =>
    cases h : a ++ b with
    | nil => simp at h; exact absurd h.2 hb
    | cons m ms =>
      rw [List.cons_append, h, tailBytes, ← h, ih]
      simp; omega

mutual
theorem tailBytes_eq : (t : Ty) → tailBytes (leavesOf t) + t.lastLeafBytes = t.leafBytes
  | .uint _ => by simp [leavesOf, tailBytes, Ty.lastLeafBytes, Ty.leafBytes]
  | .intModN _ _ _ _ => by simp [leavesOf, tailBytes, Ty.lastLeafBytes, Ty.leafBytes]
  | .xorWrapper _ => by simp [leavesOf, tailBytes, Ty.lastLeafBytes, Ty.leafBytes]
  | .tuple ts => tailBytesAll_eq ts
theorem tailBytesAll_eq : (ts : Tys) → tailBytes (leavesOfAll ts) + ts.lastLeafBytes = ts.leafBytes
  | .one t => tailBytes_eq t
  | .cons t ts => by
    have h := tailBytesAll_eq ts
    have h2 := leafBytes_eq t
    rw [leavesOfAll, tailBytes_append _ (leavesOfAll_ne ts), h2, Tys.lastLeafBytes, Tys.leafBytes]
    omega
end

theorem leAt_take (b : Bytes) {n k : Nat} (h : n ≤ k) : leAt (b.take k) 0 n = leAt b 0 n := by
  unfold leAt
  rw [List.drop_zero, List.drop_zero, List.take_take, Nat.min_eq_left h]

theorem sampled_take (ls : List Leaf) (s : Nat) (b : Bytes) (n : Nat) (h : tailBytes ls ≤ n) :
    sampled ls s (b.take n) = sampled ls s b := by
  induction ls generalizing s b n with
  | nil => rfl
  | cons l ls ih =>
    cases ls with
    | nil => rfl
    | cons m ls =>
      rw [tailBytes] at h
      have := ih (l.refill s (leAt b 0 (l.width / 8))) (b.drop (l.width / 8)) (n - l.width / 8) (by omega)
      rw [sampled, leAt_take b (by omega), List.drop_take, this]
      rfl

theorem elementsFrom_take (t : Ty) (b : Bytes) (n : Nat) (h : t.bytesRead ≤ n) :
    elementsFrom t (b.take n) = elementsFrom t b := by
  unfold elementsFrom
  unfold Ty.bytesRead at h
  split
  · rename_i hm
    rw [if_pos hm] at h
    apply List.map_congr_left
    intro i hi
    rw [List.mem_range] at hi
    rw [List.drop_take]
    apply stored_take
    rw [leafBytes_eq]
    have : (i + 1) * t.leafBytes ≤ n := by
      refine Nat.le_trans ?_ h
      split at hi
      · rename_i h16
        rw [if_pos h16]
        exact Nat.mul_le_mul_right _ hi
      · rename_i h16
        rw [if_neg h16]
        have : i = 0 := by omega
        simp [this]
    rw [Nat.add_mul, Nat.one_mul] at this
    omega
  · rename_i hm
    rw [if_neg hm] at h
    have := tailBytes_eq t
    rw [leAt_take b (by omega), List.drop_take, sampled_take _ _ _ _ (by omega)]

theorem seedBytes_take (env : Env) (seed : U128) {m k : Nat} (h : m ≤ k) :
    (seedBytes env k seed).take (16 * m) = seedBytes env m seed := by
  obtain ⟨r, rfl⟩ := Nat.exists_eq_add_of_le h
  have : seedBytes env (m + r) seed = seedBytes env m seed ++
      blocksBytes (((List.range r).map fun j => seed + BitVec.ofNat 128 (m + j)).map (hash env kPrgKeyValue)) := by
    unfold seedBytes blocksBytes Dpf.iota
    rw [List.range_add, List.map_append, List.map_append, List.flatMap_append]
    simp only [List.map_map]
    rfl
  rw [this, List.take_append_of_le_length (by rw [seedBytes_length]; exact Nat.le_refl _),
    List.take_of_length_le (by rw [seedBytes_length]; exact Nat.le_refl _)]

/-- The elements of a block are the specified ones. -/
theorem blockElems_isElement (env : Env) {T : Ty} {k : Nat} (h : T.bytesRead ≤ 16 * k) (seed : U128) {i : Nat}
    (hi : i < T.helper.elementsPerBlock) :
    IsElement env.aes T seed i ((blockElems env T k seed).getD i T.helper.zero) := by
  obtain ⟨h1, h2⟩ := blockElems_ok env h seed
  obtain ⟨xs, h3, h4⟩ := C51_elements T (seedBytes env k seed) (by rw [seedBytes_length]; exact h)
  rw [h1] at h3
  have h3 := Res.ok.inj h3
  subst h3
  unfold IsElement
  have hm : (T.bytesRead + 15) / 16 ≤ k := by omega
  rw [valueBytes_eq, ← seedBytes_take env seed hm, elementsFrom_take T _ _ (by omega), ← h4,
    List.getElem?_map, getD_eq_getElem _ _ _ (by omega), List.getElem?_eq_getElem (by omega)]
  rfl

/-! ## Depths -/

/-- Every depth is the smallest possible one, or one more than the depth before. -/
def MinimalDepths (fp : FpEnv) (ps : List DpfParameters) (h2t : List Nat) : Prop :=
  ∀ (i t : Nat) (p : DpfParameters), h2t[i]? = some t → ps[i]? = some p →
    t = 0 ∨ (∃ j t', i = j + 1 ∧ h2t[j]? = some t' ∧ t = t' + 1) ∨
    ∃ bits lb, bitsNeeded fp p.vt p.securityParameter = ok bits ∧ ceilLog2 bits = ok lb ∧
      (t : Int) = p.logDomainSize - 7 + min (lb : Int) 7

theorem create_minimal {fp : FpEnv} {params : List DpfParameters} {pv : ProtoValidator}
    (h : ProtoValidator.create fp params = ok pv) : MinimalDepths fp pv.parameters pv.hierarchyToTree := by
  unfold ProtoValidator.create at h
  simp only [bind_eq_ok] at h
  obtain ⟨_, h1, ⟨h2t, t2h, needed⟩, h2, h3⟩ := h
  simp only [ok.injEq] at h3
  subst h3
  have key := foldRes_prefix_inv (fun ps (st : List Nat × List (Nat × Nat) × Nat) =>
    st.1.length = ps.length ∧ (∀ i, i + 1 = st.1.length → st.1[i]? = some (st.2.2 - 1) ∧ 0 < st.2.2) ∧
      (st.1 = [] → st.2.2 = 0) ∧ MinimalDepths fp ps st.1) ?_ ?_ h2
  · exact key.2.2.2
  · refine ⟨rfl, by simp, fun _ => rfl, ?_⟩
    intro i t p ht; simp at ht
  · rintro ps p rest ⟨h2t, t2h, needed⟩ st' hl ⟨hlen, hlast, hnil, hmin⟩ hs
    dsimp only at hlen hlast hnil hmin
    unfold createStep at hs
    simp only [bind_eq_ok] at hs
    obtain ⟨bits, hb, lb, hlb, hs⟩ := hs
    simp only [ok.injEq] at hs
    generalize ht : (max (needed : Int) (p.logDomainSize - 7 + min (lb : Int) 7)).toNat = t at hs
    have hge : needed ≤ t := by omega
    subst hs
    refine ⟨by simp [hlen], ?_, by simp, ?_⟩
    · intro i hi
      dsimp only at hi ⊢
      rw [List.length_append, List.length_singleton] at hi
      have : i = h2t.length := by omega
      subst this
      have : max needed (t + 1) = t + 1 := by omega
      rw [this]
      exact ⟨by simp, by omega⟩
    · intro i t' p' ht' hp'
      dsimp only at ht'
      rcases Nat.lt_or_ge i h2t.length with hi | hi
      · rw [List.getElem?_append_left hi] at ht'
        rw [List.getElem?_append_left (by omega)] at hp'
        rcases hmin i t' p' ht' hp' with h | ⟨j, u, e1, e2, e3⟩ | h
        · exact Or.inl h
        · refine Or.inr (Or.inl ⟨j, u, e1, ?_, e3⟩)
          dsimp only
          rw [List.getElem?_append_left (by omega)]
          exact e2
        · exact Or.inr (Or.inr h)
      · have hlt := (List.getElem?_eq_some_iff.mp ht').1
        rw [List.length_append, List.length_singleton] at hlt
        have : i = h2t.length := by omega
        subst this
        simp only [List.getElem?_concat_length, Option.some.injEq] at ht'
        rw [hlen] at hp'
        simp only [List.getElem?_concat_length, Option.some.injEq] at hp'
        subst ht' hp'
        rcases Nat.eq_or_lt_of_le hge with e | e
        · -- one more than the depth before
          cases hn : h2t.length with
          | zero =>
            left
            have := hnil (List.eq_nil_of_length_eq_zero hn)
            omega
          | succ j =>
            right; left
            obtain ⟨q1, q2⟩ := hlast j hn.symm
            refine ⟨j, needed - 1, rfl, ?_, by omega⟩
            dsimp only
            rw [List.getElem?_append_left (by omega)]
            exact q1
        · exact Or.inr (Or.inr ⟨bits, lb, hb, hlb, by omega⟩)

/-- If a depth is the smallest possible one, the values below a node one level higher do not fit into a block. -/
theorem perBlock_lt {fp : FpEnv} {T : Ty} {sec : Sec} {bits : Int} {lb : Nat}
    (hb : bitsNeeded fp T.helper.toValueType sec = ok bits) (hlb : ceilLog2 bits = ok lb) {g : Nat}
    (hg : 7 - min (lb : Int) 7 < g) : perBlock T < 2 ^ g := by
  obtain ⟨h1, h2, h3⟩ := ceilLog2_spec hlb
  unfold perBlock
  split
  · rename_i hc
    have hbits := T.bitsNeeded_noMod fp hc.1 _ _ hb
    have hB : 0 < T.leafBytes := by omega
    rw [Nat.div_lt_iff_lt_mul hB]
    have hlb0 : lb ≠ 0 := by
      rintro rfl
      simp at h2; omega
    have h4 := h3 hlb0
    have hlb7 : lb ≤ 7 := by
      rcases Nat.lt_or_ge 7 lb with h | h
      · exfalso
        have : 2 ^ 7 ≤ 2 ^ (lb - 1) := Nat.pow_le_pow_right (by decide) (by omega)
        omega
      · exact h
    have h5 : 2 ^ (8 - lb) ≤ 2 ^ g := Nat.pow_le_pow_right (by decide) (by omega)
    have h6 : 2 ^ (8 - lb) * 2 ^ (lb - 1) = 128 := by
      rw [← Nat.pow_add, show 8 - lb + (lb - 1) = 7 by omega]
    have h7 : 2 ^ (lb - 1) < 8 * T.leafBytes := by omega
    have h8 : 2 ^ (8 - lb) * 2 ^ (lb - 1) < 2 ^ g * (8 * T.leafBytes) :=
      Nat.lt_of_lt_of_le (Nat.mul_lt_mul_of_pos_left h7 (Nat.two_pow_pos _)) (Nat.mul_le_mul_right _ h5)
    rw [h6, Nat.mul_left_comm] at h8
    omega
  · exact Nat.one_lt_two_pow (by omega)

theorem Spec.Setup.isDepth {fp : FpEnv} {params : List DpfParameters} {T : Nat → Ty} {d : Dpf}
    (hs : Setup fp params T d) : IsDepth params T d.treeAt := by
  have hc := hs.toCreated
  have wf := hs.wf
  intro h hh
  have hh' : h < d.n := by rw [hc.n_eq]; exact hh
  refine ⟨fun j hj => wf.tree_asc j h hj hh', ?_, ?_⟩
  · rw [← perBlock_eq, ← hc.logAt_eq]
    exact (hs.typedAt hh').elems
  · intro t ht hprev
    have hmin : MinimalDepths fp d.pv.parameters d.pv.hierarchyToTree := by
      obtain ⟨d0, Ts, h1, h2, _⟩ := hs.created
      rw [h2, (d0.registerAll_pv Ts).1]
      exact create_minimal (createIncremental_spec h1).1
    have hlt : h < d.pv.hierarchyToTree.length := by rw [wf.len_tree]; exact hh'
    obtain ⟨p, _, hp⟩ := wf.param_ok hh'
    have e : d.pv.hierarchyToTree[h]? = some (d.treeAt h) := by
      rw [Dpf.treeAt, getD_eq_getElem _ _ _ hlt, List.getElem?_eq_getElem hlt]
    rcases hmin h _ p e hp with h0 | ⟨j, u, rfl, e2, e3⟩ | ⟨bits, lb, hb, hlb, e3⟩
    · omega
    · have := hprev j (by omega)
      have e4 : d.treeAt j = u := by
        rw [Dpf.treeAt, List.getD_eq_getElem?_getD, e2]; rfl
      omega
    · rw [(hs.typedAt hh').vt p hp] at hb
      refine perBlock_lt hb hlb ?_
      rw [wf.log_eq h p hp] at e3
      rw [← hc.logAt_eq]
      omega

theorem Spec.IsDepth.unique {params : List DpfParameters} {T : Nat → Ty} {a b : Nat → Nat} (ha : IsDepth params T a)
    (hb : IsDepth params T b) (h : Nat) (hh : h < params.length) : a h = b h := by
  induction h using Nat.strongRecOn with
  | _ h ih =>
    obtain ⟨a1, a2, a3⟩ := ha h hh
    obtain ⟨b1, b2, b3⟩ := hb h hh
    rcases Nat.lt_trichotomy (a h) (b h) with hlt | e | hlt
    · have := b3 (a h) hlt (fun j hj => by rw [← ih j hj (by omega)]; exact a1 j hj)
      omega
    · exact e
    · have := a3 (b h) hlt (fun j hj => by rw [ih j hj (by omega)]; exact b1 j hj)
      omega

/-! ## Keys -/

namespace Dpf

variable {fp : FpEnv} {params : List DpfParameters} {T : Nat → Ty} {d : Dpf} {depth : Nat → Nat}

theorem depth_eq (hs : Setup fp params T d) (hd : IsDepth params T depth) {h : Nat} (hh : h < params.length) :
    depth h = d.treeAt h := hd.unique hs.isDepth h hh

theorem length_of_words (hs : Setup fp params T d) (hd : IsDepth params T depth) {key : DpfKey}
    (hw : key.correctionWords.length = depth (params.length - 1)) :
    key.correctionWords.length + 1 = d.pv.treeLevelsNeeded := by
  have hc := hs.toCreated
  have wf := hs.wf
  have hpos := wf.pos
  have hn := hc.n_eq
  rw [wf.needed, hw, depth_eq hs hd (by omega), hn]

/-- The value corrections of a key are where the code reads them. -/
theorem valueCorrectionOf_eq (hs : Setup fp params T d) (hd : IsDepth params T depth) {key : DpfKey}
    (hw : key.correctionWords.length = depth (params.length - 1)) {h : Nat} (hh : h < params.length) :
    d.valueCorrectionOf key h = ok (corrections params depth key h) := by
  have hc := hs.toCreated
  have wf := hs.wf
  have hn := hc.n_eq
  have hl := length_of_words hs hd hw
  unfold valueCorrectionOf corrections
  have e : d.pv.parameters.length = params.length := hn
  rw [e]
  by_cases h1 : h + 1 = params.length
  · rw [if_neg (by omega), if_pos h1]
  · rw [if_pos (by omega), if_neg h1, depth_eq hs hd hh]
    have hlt := wf.tree_lt_needed' (h := h) (by omega)
    rw [wf.tree_ok (by omega), bind_ok, rd_lt (by omega), bind_ok, List.getElem?_eq_getElem (by omega)]
    rfl

theorem keyOk_of_hasShape (hs : Setup fp params T d) (hd : IsDepth params T depth) {key : DpfKey}
    (hk : HasShape params depth key) : d.KeyOk key := by
  have hc := hs.toCreated
  have wf := hs.wf
  have hn := hc.n_eq
  have hpos := wf.pos
  refine ⟨hk.seed, ?_, length_of_words hs hd hk.words, ?_⟩
  · have := hk.values (params.length - 1) (by omega)
    unfold corrections at this
    rwa [if_pos (by omega)] at this
  · intro h hh cw hcw
    have := hk.values h (by omega)
    unfold corrections at this
    rw [if_neg (by omega), depth_eq hs hd (by omega), hcw] at this
    exact this

theorem hasShape_of_keyOk (hs : Setup fp params T d) (hd : IsDepth params T depth) {key : DpfKey}
    (hk : d.KeyOk key) : HasShape params depth key := by
  have hc := hs.toCreated
  have wf := hs.wf
  have hn := hc.n_eq
  have hpos := wf.pos
  have hl := hk.len
  refine ⟨hk.seed, ?_, ?_⟩
  · rw [depth_eq hs hd (by omega), ← hn]
    rw [wf.needed] at hl
    omega
  · intro h hh
    unfold corrections
    split
    · exact hk.last
    · have hlt := wf.tree_lt_needed' (h := h) (by omega)
      rw [depth_eq hs hd hh, List.getElem?_eq_getElem (by omega)]
      exact hk.vc h (by omega) _ (List.getElem?_eq_getElem _)

theorem valuesToArray_of_represents {t : Ty} {vs : List Value} {corr : List t.den}
    (hl : vs.length = perBlock t) (hl' : corr.length = vs.length)
    (hr : ∀ (i : Nat) (v : Value) (c : t.den), vs[i]? = some v → corr[i]? = some c → Represents t v c) :
    t.helper.valuesToArray vs = ok corr := by
  unfold Helper.valuesToArray
  rw [perBlock_eq, if_neg (by omega)]
  rw [mapRes_eq_ok]
  refine ⟨hl', ?_⟩
  intro i hi hi'
  exact t.fromValue_of_represents _ _ (hr i _ _ (List.getElem?_eq_getElem hi) (List.getElem?_eq_getElem hi'))

theorem valuesToArray_iff {t : Ty} {vs : List Value} {corr : List t.den} :
    t.helper.valuesToArray vs = ok corr ↔ ReadsCorrections t vs corr := by
  unfold Helper.valuesToArray ReadsCorrections
  rw [perBlock_eq]
  by_cases hl : vs.length = perBlock t
  · rw [if_neg (by omega), mapRes_eq_ok]
    constructor
    · rintro ⟨h1, h2⟩
      refine ⟨hl, by omega, ?_⟩
      intro i v c hv hc
      obtain ⟨a, rfl⟩ := List.getElem?_eq_some_iff.mp hv
      obtain ⟨b, rfl⟩ := List.getElem?_eq_some_iff.mp hc
      exact (t.fromValue_iff _ _).mp (h2 i a b)
    · rintro ⟨_, h1, h2⟩
      refine ⟨by omega, fun i a b => ?_⟩
      exact (t.fromValue_iff _ _).mpr (h2 i _ _ (List.getElem?_eq_getElem a) (List.getElem?_eq_getElem b))
  · rw [if_pos (by omega)]
    exact ⟨(fun h => nomatch h), fun h => absurd h.1 hl⟩

/-- The value of a key is the specified one. -/
theorem share_isShare (hs : Setup fp params T d) (hd : IsDepth params T depth) (env : Env) (key : DpfKey) {h : Nat}
    (hh : h < params.length) {corr : List (T h).den} (hl : corr.length = perBlock (T h)) (x : U128) :
    IsShare env.aes (T h) (logSize params h) (depth h) key corr x (d.share env (T h) key h corr x.toNat) := by
  have hc := hs.toCreated
  have hh' : h < d.n := by rw [hc.n_eq]; exact hh
  have ht := hs.typedAt hh'
  have hg : d.gapAt h = logSize params h - depth h := by
    rw [gapAt, hc.logAt_eq, depth_eq hs hd hh]
  have hm := ht.mod_lt x.toNat
  have hm' : x.toNat % 2 ^ d.gapAt h < corr.length := by rw [hl, ← perBlock_eq]; exact hm
  unfold IsShare
  rw [← hg, depth_eq hs hd hh]
  refine ⟨_, _, blockElems_isElement env ht.fits _ hm, List.getElem?_eq_getElem hm', ?_⟩
  rw [← getD_eq_getElem _ _ (T h).helper.zero hm']
  rfl

end Dpf

/-! ## Addition -/

theorem addNumbers_append {fs : List (Nat → Nat → Nat)} {as bs : List Nat} (ha : as.length = fs.length)
    (hb : bs.length = fs.length) (fs' : List (Nat → Nat → Nat)) (as' bs' : List Nat) :
    addNumbers (fs ++ fs') (as ++ as') (bs ++ bs') = addNumbers fs as bs ++ addNumbers fs' as' bs' := by
  induction fs generalizing as bs with
  | nil =>
    rw [List.eq_nil_of_length_eq_zero ha, List.eq_nil_of_length_eq_zero hb]
    rfl
  | cons f fs ih =>
    cases as with
    | nil => simp at ha
    | cons a as =>
      cases bs with
      | nil => simp at hb
      | cons b bs =>
        simp only [List.length_cons, Nat.add_right_cancel_iff] at ha hb
        show f a b :: addNumbers (fs ++ fs') (as ++ as') (bs ++ bs') = _
        rw [ih ha hb]; rfl

mutual
theorem numbersOf_length : (t : Ty) → (a : t.den) → (numbersOf t a).length = (addOf t).length
  | .uint _, _ | .intModN _ _ _ _, _ | .xorWrapper _, _ => rfl
  | .tuple ts, a => numbersOfAll_length ts a
theorem numbersOfAll_length : (ts : Tys) → (a : ts.den) → (numbersOfAll ts a).length = (addOfAll ts).length
  | .one t, a => numbersOf_length t a
  | .cons t ts, a => by
    simp only [numbersOfAll, addOfAll, List.length_append, numbersOf_length t a.1, numbersOfAll_length ts a.2]
end

mutual
theorem zero_numbers : (t : Ty) → ∀ n ∈ numbersOf t t.helper.zero, n = 0
  | .uint w => by simp [numbersOf, Ty.helper, uintHelper]
  | .intModN w N hpos hlt => by
    simp only [numbersOf, Ty.helper, intModNHelper, List.mem_singleton, forall_eq]
    rw [IntModN.mk_toNat N w.bits_le]
    simp
  | .xorWrapper w => by simp [numbersOf, Ty.helper, xorHelper]
  | .tuple ts => zero_numbersAll ts
theorem zero_numbersAll : (ts : Tys) → ∀ n ∈ numbersOfAll ts ts.helper.zero, n = 0
  | .one t => zero_numbers t
  | .cons t ts => by
    intro n hn
    rcases List.mem_append.mp (show n ∈ numbersOf t t.helper.zero ++ numbersOfAll ts ts.helper.zero from hn) with h | h
    · exact zero_numbers t n h
    · exact zero_numbersAll ts n h
end

mutual
theorem add_numbers : (t : Ty) → (a b : t.den) →
    numbersOf t (t.helper.add a b) = addNumbers (addOf t) (numbersOf t a) (numbersOf t b)
  | .uint w, a, b => by
    simp [numbersOf, addOf, addNumbers, Ty.helper, uintHelper]
  | .intModN w N hpos hlt, a, b => by
    simp only [numbersOf, addOf, addNumbers, Ty.helper, intModNHelper]
    rw [IntModN.addBase_toNat N w.bits_le hlt _ _ a.2 b.2]
  | .xorWrapper w, a, b => by
    simp [numbersOf, addOf, addNumbers, Ty.helper, xorHelper]
  | .tuple ts, a, b => add_numbersAll ts a b
theorem add_numbersAll : (ts : Tys) → (a b : ts.den) →
    numbersOfAll ts (ts.helper.add a b) = addNumbers (addOfAll ts) (numbersOfAll ts a) (numbersOfAll ts b)
  | .one t, a, b => add_numbers t a b
  | .cons t ts, a, b => by
    have h1 := add_numbers t a.1 b.1
    have h2 := add_numbersAll ts a.2 b.2
    show numbersOf t (t.helper.add a.1 b.1) ++ numbersOfAll ts (ts.helper.add a.2 b.2) = _
    rw [h1, h2]
    simp only [addOfAll, numbersOfAll]
    rw [addNumbers_append (numbersOf_length t _) (numbersOf_length t _)]
end

end Verif
