import Verif.Lemmas.OtherContext
import Verif.Lemmas.Short
import Verif.Spec.Interchange
/-! Objects whose parameters mean the same. -/
namespace Verif
open Res Spec

/-! ## Bits needed -/

theorem getNumBytesRequired_unique {fp fp' : FpEnv} {n b : Int} {m : U128} {s s' : Sec} {x y : Int}
    (hx : IntModN.getNumBytesRequired fp n b m s = ok x) (hy : IntModN.getNumBytesRequired fp' n b m s' = ok y) :
    x = y := by
  unfold IntModN.getNumBytesRequired at hx hy
  obtain ⟨_, _, hx⟩ := bind_eq_ok.mp hx
  obtain ⟨_, _, hy⟩ := bind_eq_ok.mp hy
  dsimp only at hx hy
  rw [hx] at hy
  exact ok.inj hy

/-- The first `IntModN` elements of two tuples mean the same. -/
inductive SameMod : Option ValueType → Option ValueType → Prop
  | none : SameMod none none
  | some (b : Int) (m m' : IntegerP) (n : Nat) : intMsg m = some n → intMsg m' = some n →
      SameMod (some (.intModN b m)) (some (.intModN b m'))

theorem canon_intModN {el : ValueType} {b : Int} {m : IntegerP} {c : Canon} (h1 : canon (.intModN b m) = some c)
    (h2 : canon el = some c) : ∃ m' n, el = .intModN b m' ∧ intMsg m = some n ∧ intMsg m' = some n := by
  simp only [canon, Option.map_eq_some_iff] at h1
  obtain ⟨n, hn, rfl⟩ := h1
  cases el with
  | notSet => simp [canon] at h2
  | integer => simp [canon] at h2
  | xorWrapper => simp [canon] at h2
  | tuple => simp [canon] at h2
  | intModN b' m' =>
    simp only [canon, Option.map_eq_some_iff, Canon.intModN.injEq] at h2
    obtain ⟨n', hn', rfl, rfl⟩ := h2
    exact ⟨m', n', rfl, hn, hn'⟩

theorem countTuple_cons_other {el : ValueType} (h : ∀ b m, el ≠ .intModN b m) (els : List ValueType)
    (im : Option ValueType) (a b : Nat) : countTuple (el :: els) im a b = countTuple els im a (b + 1) := by
  cases el <;> first | exact absurd rfl (h _ _) | rfl

theorem canons_cons {el : ValueType} {els : List ValueType} {cs : List Canon} (h : canons (el :: els) = some cs) :
    ∃ c cs', cs = c :: cs' ∧ canon el = some c ∧ canons els = some cs' := by
  rw [canons] at h
  split at h
  · rename_i c cs' h1 h2
    simp only [Option.some.injEq] at h
    exact ⟨c, cs', h.symm, h1, h2⟩
  · simp at h

theorem countTuple_same : (as bs : List ValueType) → (cs : List Canon) → canons as = some cs → canons bs = some cs →
    (im im' : Option ValueType) → SameMod im im' → (a b : Nat) → (r r' : Option ValueType × Nat × Nat) →
    countTuple as im a b = ok r → countTuple bs im' a b = ok r' → SameMod r.1 r'.1 ∧ r.2 = r'.2
  | [], bs, cs, ha, hb, im, im', hm, a, b, r, r', h, h' => by
    simp only [canons, Option.some.injEq] at ha
    subst ha
    have := canons_length hb
    match bs with
    | [] =>
      simp only [countTuple, ok.injEq] at h h'
      subst h; subst h'
      exact ⟨hm, rfl⟩
  | el :: as, bs, cs, ha, hb, im, im', hm, a, b, r, r', h, h' => by
    obtain ⟨c, cs, rfl, h1, h2⟩ := canons_cons ha
    match bs with
    | [] => simp [canons] at hb
    | el' :: bs =>
      obtain ⟨c', cs', e, h3, h4⟩ := canons_cons hb
      cases e
      by_cases hel : ∃ b m, el = .intModN b m
      · obtain ⟨bb, m, rfl⟩ := hel
        obtain ⟨m', n, rfl, hn, hn'⟩ := canon_intModN h1 h3
        cases hm with
        | none =>
          rw [countTuple] at h h'
          exact countTuple_same as bs cs h2 h4 _ _ (.some bb m m' n hn hn') _ _ r r' h h'
        | some b2 m2 m2' n2 hn2 hn2' =>
          rw [countTuple] at h h'
          obtain ⟨_, _, h⟩ := bind_eq_ok.mp h
          obtain ⟨_, _, h⟩ := bind_eq_ok.mp h
          obtain ⟨_, _, h'⟩ := bind_eq_ok.mp h'
          obtain ⟨_, _, h'⟩ := bind_eq_ok.mp h'
          exact countTuple_same as bs cs h2 h4 _ _ (.some b2 m2 m2' n2 hn2 hn2') _ _ r r' h h'
      · have hne : ∀ b m, el ≠ .intModN b m := fun b m e => hel ⟨b, m, e⟩
        have hne' : ∀ b m, el' ≠ .intModN b m := by
          rintro b m rfl
          obtain ⟨m', n, e, _⟩ := canon_intModN h3 h1
          exact hne _ _ e
        rw [countTuple_cons_other hne] at h
        rw [countTuple_cons_other hne'] at h'
        exact countTuple_same as bs cs h2 h4 _ _ hm _ _ r r' h h'

theorem valueInteger_same {m m' : IntegerP} {n : Nat} (h : intMsg m = some n) (h' : intMsg m' = some n) {x y : U128}
    (hx : valueIntegerToUint128 m = ok x) (hy : valueIntegerToUint128 m' = ok y) : x = y := by
  rw [valueInteger_eq_ok] at hx hy
  rw [h, Option.some.injEq] at hx
  rw [h', Option.some.injEq] at hy
  exact BitVec.eq_of_toNat_eq (by omega)

mutual
/-- The number of bits depends neither on the encoding of the type nor on the security parameter and rounding. -/
theorem bitsNeeded_same (fp fp' : FpEnv) : (a b : ValueType) → (c : Canon) → canon a = some c → canon b = some c →
    (s s' : Sec) → (x y : Int) → bitsNeeded fp a s = ok x → bitsNeeded fp' b s' = ok y → x = y
  | .notSet, _, _, h, _, _, _, _, _, _, _ => by simp [canon] at h
  | .integer n, b, c, h, h', s, s', x, y, hx, hy => by
    simp only [canon, Option.some.injEq] at h
    subst h
    cases b <;> simp [canon] at h'
    subst h'
    simp only [bitsNeeded, ok.injEq] at hx hy
    omega
  | .xorWrapper n, b, c, h, h', s, s', x, y, hx, hy => by
    simp only [canon, Option.some.injEq] at h
    subst h
    cases b <;> simp [canon] at h'
    subst h'
    simp only [bitsNeeded, ok.injEq] at hx hy
    omega
  | .intModN n m, b, c, h, h', s, s', x, y, hx, hy => by
    obtain ⟨m', k, rfl, e1, e2⟩ := canon_intModN h h'
    simp only [bitsNeeded] at hx hy
    obtain ⟨z, h1, hx⟩ := bind_eq_ok.mp hx
    obtain ⟨z', h1', hy⟩ := bind_eq_ok.mp hy
    cases valueInteger_same e1 e2 h1 h1'
    obtain ⟨u, h2, hx⟩ := bind_eq_ok.mp hx
    obtain ⟨u', h2', hy⟩ := bind_eq_ok.mp hy
    cases getNumBytesRequired_unique h2 h2'
    exact ok.inj (hx.symm.trans hy)
  | .tuple els, b, c, h, h', s, s', x, y, hx, hy => by
    simp only [canon, Option.map_eq_some_iff] at h
    obtain ⟨cs, hcs, rfl⟩ := h
    cases b with
    | notSet => simp [canon] at h'
    | integer => simp [canon] at h'
    | xorWrapper => simp [canon] at h'
    | intModN => simp [canon] at h'
    | tuple els' =>
      simp only [canon, Option.map_eq_some_iff, Canon.tuple.injEq] at h'
      obtain ⟨cs', hcs', rfl⟩ := h'
      simp only [bitsNeeded] at hx hy
      obtain ⟨⟨im, nMod, nOther⟩, h1, hx⟩ := bind_eq_ok.mp hx
      obtain ⟨⟨im', nMod', nOther'⟩, h1', hy⟩ := bind_eq_ok.mp hy
      obtain ⟨hm, he⟩ := countTuple_same els els' cs' hcs hcs' none none .none 0 0 _ _ h1 h1'
      simp only [Prod.mk.injEq] at hm he
      obtain ⟨rfl, rfl⟩ := he
      obtain ⟨other, h2, hx⟩ := bind_eq_ok.mp hx
      obtain ⟨other', h2', hy⟩ := bind_eq_ok.mp hy
      obtain ⟨mods, h3, hx⟩ := bind_eq_ok.mp hx
      obtain ⟨mods', h3', hy⟩ := bind_eq_ok.mp hy
      have e1 : other = other' := bitsNeededFirst_same fp fp' els els' cs' hcs hcs' nOther _ _ 0 _ _ h2 h2'
      have e2 : mods = mods' := by
        cases hm with
        | none => exact ok.inj (h3.symm.trans h3')
        | some bb m m' n hn hn' =>
          dsimp only at h3 h3'
          obtain ⟨z, g1, h3⟩ := bind_eq_ok.mp h3
          obtain ⟨z', g1', h3'⟩ := bind_eq_ok.mp h3'
          cases valueInteger_same hn hn' g1 g1'
          obtain ⟨u, g2, h3⟩ := bind_eq_ok.mp h3
          obtain ⟨u', g2', h3'⟩ := bind_eq_ok.mp h3'
          cases getNumBytesRequired_unique g2 g2'
          exact ok.inj (h3.symm.trans h3')
      subst e1; subst e2
      exact ok.inj (hx.symm.trans hy)
theorem bitsNeededFirst_same (fp fp' : FpEnv) : (as bs : List ValueType) → (cs : List Canon) → canons as = some cs →
    canons bs = some cs → (n : Nat) → (s s' : Sec) → (acc : Int) → (x y : Int) →
    bitsNeededFirst fp as n s acc = ok x → bitsNeededFirst fp' bs n s' acc = ok y → x = y
  | as, bs, cs, h, h', 0, s, s', acc, x, y, hx, hy => by
    simp only [bitsNeededFirst, ok.injEq] at hx hy
    omega
  | [], bs, cs, h, h', n + 1, s, s', acc, x, y, hx, hy => by
    simp [bitsNeededFirst] at hx
  | a :: as, bs, cs, h, h', n + 1, s, s', acc, x, y, hx, hy => by
    obtain ⟨c, cs, rfl, h1, h2⟩ := canons_cons h
    match bs with
    | [] => simp [canons] at h'
    | b :: bs =>
      obtain ⟨c', cs', e, h3, h4⟩ := canons_cons h'
      cases e
      simp only [bitsNeededFirst] at hx hy
      obtain ⟨u, g1, hx⟩ := bind_eq_ok.mp hx
      obtain ⟨u', g1', hy⟩ := bind_eq_ok.mp hy
      have e : u = u' := bitsNeeded_same fp fp' a b c h1 h3 _ _ _ _ g1 g1'
      subst e
      obtain ⟨v, g2, hx⟩ := bind_eq_ok.mp hx
      obtain ⟨v', g2', hy⟩ := bind_eq_ok.mp hy
      cases ok.inj (g2.symm.trans g2')
      exact bitsNeededFirst_same fp fp' as bs cs h2 h4 n _ _ v x y hx hy
end

/-! ## Members of objects -/

/-- The members of two objects that evaluation depends on agree. -/
structure Dpf.Alike (d d' : Dpf) : Prop where
  needed : d'.pv.treeLevelsNeeded = d.pv.treeLevelsNeeded
  t2h : d'.pv.treeToHierarchy = d.pv.treeToHierarchy
  h2t : d'.pv.hierarchyToTree = d.pv.hierarchyToTree
  blocks : d'.blocksNeeded = d.blocksNeeded
  count : d'.pv.parameters.length = d.pv.parameters.length
  log : ∀ (i : Nat) (p q : DpfParameters), d.pv.parameters[i]? = some p → d'.pv.parameters[i]? = some q →
    p.logDomainSize = q.logDomainSize
  type : ∀ (i : Nat) (p q : DpfParameters), d.pv.parameters[i]? = some p → d'.pv.parameters[i]? = some q →
    SameType p.vt q.vt

theorem foldRes_createStep_same {fp fp' : FpEnv} : (ps qs : List DpfParameters) → qs.length = ps.length →
    (∀ (i : Nat) (p q : DpfParameters), ps[i]? = some p → qs[i]? = some q → p.logDomainSize = q.logDomainSize) →
    (∀ (i : Nat) (p q : DpfParameters), ps[i]? = some p → qs[i]? = some q → SameType p.vt q.vt) →
    (st r r' : List Nat × List (Nat × Nat) × Nat) → foldRes (createStep fp) st ps = ok r →
    foldRes (createStep fp') st qs = ok r' → r = r'
  | [], [], _, _, _, st, r, r', h, h' => by
    simp only [foldRes, ok.injEq] at h h'
    rw [← h, ← h']
  | p :: ps, q :: qs, hl, hd, ht, st, r, r', h, h' => by
    simp only [foldRes] at h h'
    obtain ⟨st1, h1, h⟩ := bind_eq_ok.mp h
    obtain ⟨st2, h2, h'⟩ := bind_eq_ok.mp h'
    have e : st1 = st2 := by
      unfold createStep at h1 h2
      obtain ⟨c, c1, c2⟩ := ht 0 p q rfl rfl
      obtain ⟨b, g1, h1⟩ := bind_eq_ok.mp h1
      obtain ⟨b', g1', h2⟩ := bind_eq_ok.mp h2
      cases bitsNeeded_same fp fp' _ _ c c1 c2 _ _ _ _ g1 g1'
      obtain ⟨lb, g2, h1⟩ := bind_eq_ok.mp h1
      obtain ⟨lb', g2', h2⟩ := bind_eq_ok.mp h2
      cases ok.inj (g2.symm.trans g2')
      rw [hd 0 p q rfl rfl] at h1
      exact ok.inj (h1.symm.trans h2)
    subst e
    exact foldRes_createStep_same ps qs (by simpa using hl) (fun i p q hp hq => hd (i + 1) p q hp hq)
      (fun i p q hp hq => ht (i + 1) p q hp hq) st1 r r' h h'

theorem Spec.Created.blocks_spec {fp : FpEnv} {params : List DpfParameters} {d : Dpf} (hc : Created fp params d) :
    mapRes (fun (p : DpfParameters) => (do
      let bits ← bitsNeeded fp p.vt p.securityParameter
      let sum ← intRange (bits + 127)
      ok (sum.tdiv 128).toNat : Res Nat)) params = ok d.blocksNeeded := by
  obtain ⟨d0, Ts, h1, rfl⟩ := hc
  rw [(d0.registerAll_pv Ts).2]
  exact (createIncremental_spec h1).2.1

theorem Spec.Created.fold_spec {fp : FpEnv} {params : List DpfParameters} {d : Dpf} (hc : Created fp params d) :
    foldRes (createStep fp) ([], [], 0) d.pv.parameters =
      ok (d.pv.hierarchyToTree, d.pv.treeToHierarchy, d.pv.treeLevelsNeeded) := by
  obtain ⟨d0, Ts, h1, rfl⟩ := hc
  rw [(d0.registerAll_pv Ts).1]
  have h := (createIncremental_spec h1).1
  unfold ProtoValidator.create at h
  obtain ⟨_, _, h⟩ := bind_eq_ok.mp h
  obtain ⟨⟨h2t, t2h, needed⟩, h2, h⟩ := bind_eq_ok.mp h
  simp only [ok.injEq] at h
  rw [← h]
  exact h2

theorem Spec.Created.alike {fp fp' : FpEnv} {params params' : List DpfParameters} {d d' : Dpf} (hc : Created fp params d)
    (hc' : Created fp' params' d') (hs : SameLevels params params') : d.Alike d' := by
  have hlog : ∀ (i : Nat) (p q : DpfParameters), d.pv.parameters[i]? = some p → d'.pv.parameters[i]? = some q →
      p.logDomainSize = q.logDomainSize := by
    intro i p q hp hq
    rw [hc.params, List.getElem?_map, Option.map_eq_some_iff] at hp
    rw [hc'.params, List.getElem?_map, Option.map_eq_some_iff] at hq
    obtain ⟨p0, hp, rfl⟩ := hp
    obtain ⟨q0, hq, rfl⟩ := hq
    rw [withDefaultSecurity_log, withDefaultSecurity_log]
    exact hs.domain i p0 q0 hp hq
  have htype : ∀ (i : Nat) (p q : DpfParameters), d.pv.parameters[i]? = some p → d'.pv.parameters[i]? = some q →
      SameType p.vt q.vt := by
    intro i p q hp hq
    rw [hc.params, List.getElem?_map, Option.map_eq_some_iff] at hp
    rw [hc'.params, List.getElem?_map, Option.map_eq_some_iff] at hq
    obtain ⟨p0, hp, rfl⟩ := hp
    obtain ⟨q0, hq, rfl⟩ := hq
    rw [DpfParameters.vt, DpfParameters.vt, withDefaultSecurity_vt, withDefaultSecurity_vt]
    exact hs.type i p0 q0 hp hq
  have hn : d'.pv.parameters.length = d.pv.parameters.length := by
    have h1 : d.pv.parameters.length = params.length := hc.n_eq
    have h2 : d'.pv.parameters.length = params'.length := hc'.n_eq
    have := hs.count
    omega
  have he := foldRes_createStep_same _ _ hn hlog htype _ _ _ hc.fold_spec hc'.fold_spec
  simp only [Prod.mk.injEq] at he
  refine ⟨he.2.2.symm, he.2.1.symm, he.1.symm, ?_, hn, hlog, htype⟩
  have h1 := hc.blocks_spec
  have h2 := hc'.blocks_spec
  rw [mapRes_eq_ok] at h1 h2
  have := hs.count
  refine List.ext_getElem (by omega) fun i hi hi' => ?_
  have g1 := h1.2 i (by omega) hi'
  have g2 := h2.2 i (by omega) hi
  obtain ⟨b, e1, g1⟩ := bind_eq_ok.mp g1
  obtain ⟨b', e1', g2⟩ := bind_eq_ok.mp g2
  obtain ⟨c, c1, c2⟩ := hs.type i _ _ (List.getElem?_eq_getElem (by omega)) (List.getElem?_eq_getElem (by omega))
  cases bitsNeeded_same fp fp' _ _ c c1 c2 _ _ _ _ e1 e1'
  exact ok.inj (g2.symm.trans g1)

/-! ## Evaluation -/

namespace Dpf
variable {d d' : Dpf}

theorem Alike.param_cases (ha : d.Alike d') (h : Nat) : (d.param h = ub ∧ d'.param h = ub) ∨
    ∃ p q, d.param h = ok p ∧ d'.param h = ok q ∧ p.logDomainSize = q.logDomainSize ∧ SameType p.vt q.vt := by
  unfold param rd
  have := ha.count
  cases hp : d.pv.parameters[h]? with
  | none =>
    rw [List.getElem?_eq_none_iff] at hp
    rw [List.getElem?_eq_none (by omega)]
    exact Or.inl ⟨rfl, rfl⟩
  | some p =>
    have hi := (List.getElem?_eq_some_iff.mp hp).1
    have hq : d'.pv.parameters[h]? = some d'.pv.parameters[h] := List.getElem?_eq_getElem (by omega)
    rw [hq]
    exact Or.inr ⟨p, _, rfl, rfl, ha.log h p _ hp hq, ha.type h p _ hp hq⟩

/-- What is read of the parameters of a level depends on the domain size only. -/
theorem Alike.param_log (ha : d.Alike d') (h : Nat) :
    (d'.param h >>= fun p => ok p.logDomainSize) = (d.param h >>= fun p => ok p.logDomainSize) := by
  rcases ha.param_cases h with ⟨h1, h2⟩ | ⟨p, q, h1, h2, h3, _⟩
  · rw [h1, h2]
  · rw [h1, h2, bind_ok, bind_ok, h3]

theorem param_bind {β : Type} (d : Dpf) (h : Nat) (f : Int → Res β) :
    (d.param h >>= fun p => f p.logDomainSize) = ((d.param h >>= fun p => ok p.logDomainSize) >>= f) := by
  rw [bind_assoc]; simp only [bind_ok]

theorem Alike.lastLog (ha : d.Alike d') : d'.lastLog = d.lastLog := by
  unfold Dpf.lastLog
  have := ha.count
  rw [List.getLast?_eq_getElem?, List.getLast?_eq_getElem?]
  rw [ha.count]
  cases hp : d.pv.parameters[d.pv.parameters.length - 1]? with
  | none =>
    rw [List.getElem?_eq_none_iff] at hp
    rw [List.getElem?_eq_none (by omega)]
  | some p =>
    have hi := (List.getElem?_eq_some_iff.mp hp).1
    have hq : d'.pv.parameters[d.pv.parameters.length - 1]? = some d'.pv.parameters[d.pv.parameters.length - 1] :=
      List.getElem?_eq_getElem (by omega)
    rw [hq]
    simp only [ha.log _ p _ hp hq]

theorem Alike.blockIndexBits (ha : d.Alike d') : d'.blockIndexBits = d.blockIndexBits := by
  funext h
  unfold Dpf.blockIndexBits
  rw [ha.h2t]
  rcases ha.param_cases h with ⟨h1, h2⟩ | ⟨p, q, h1, h2, h3, _⟩
  · rw [h1, h2]
  · rw [h1, h2, bind_ok, bind_ok, h3]

theorem Alike.domainToTreeIndex (ha : d.Alike d') : d'.domainToTreeIndex = d.domainToTreeIndex := by
  funext x h
  unfold Dpf.domainToTreeIndex
  rw [ha.blockIndexBits]

theorem Alike.domainToBlockIndex (ha : d.Alike d') : d'.domainToBlockIndex = d.domainToBlockIndex := by
  funext x h
  unfold Dpf.domainToBlockIndex
  rw [ha.blockIndexBits]

theorem Alike.validateDpfKey (ha : d.Alike d') : d'.pv.validateDpfKey = d.pv.validateDpfKey := by
  funext key
  unfold ProtoValidator.validateDpfKey ProtoValidator.validateKeyLevel
  rw [ha.needed, ha.h2t]

theorem Alike.hashExpandedSeeds (ha : d.Alike d') : d'.hashExpandedSeeds = d.hashExpandedSeeds := by
  funext env h ex
  unfold Dpf.hashExpandedSeeds
  rw [ha.blocks]

theorem Alike.getValueCorrectionAsArray (ha : d.Alike d') {α : Type} (H : Helper α) :
    d'.getValueCorrectionAsArray H = d.getValueCorrectionAsArray H := by
  funext key h
  unfold Dpf.getValueCorrectionAsArray
  rw [ha.count, ha.h2t]

theorem Alike.checkEvaluateAt (ha : d.Alike d') (key : DpfKey) (h : Int) (points : List U128) :
    d'.checkEvaluateAt key h points = d.checkEvaluateAt key h points := by
  unfold Dpf.checkEvaluateAt
  rw [ha.count, ha.validateDpfKey]
  dsimp only
  rcases ha.param_cases h.toNat with ⟨h1, h2⟩ | ⟨p, q, h1, h2, h3, _⟩
  · rw [h1, h2]
  · simp only [h1, h2, bind_ok, h3]

theorem Alike.treeIndicesFor (ha : d.Alike d') {α : Type} (H : Helper α) :
    d'.treeIndicesFor H = d.treeIndicesFor H := by
  funext h points
  unfold Dpf.treeIndicesFor
  rw [ha.domainToTreeIndex]

theorem Alike.finishAt (ha : d.Alike d') (env : Env) {α : Type} (H : Helper α) :
    d'.finishAt env H = d.finishAt env H := by
  funext key h points ti sel s
  unfold Dpf.finishAt
  rw [ha.h2t, ha.hashExpandedSeeds, ha.getValueCorrectionAsArray, ha.blocks, ha.domainToBlockIndex]

theorem Alike.evaluateAt (ha : d.Alike d') (env : Env) {α : Type} (H : Helper α) (key : DpfKey) (h : Int)
    (points : List U128) : d'.evaluateAt env H key h points = d.evaluateAt env H key h points := by
  unfold Dpf.evaluateAt
  rw [ha.checkEvaluateAt]
  simp only [ha.treeIndicesFor, ha.finishAt]

theorem Alike.computePartialEvaluations (ha : d.Alike d') :
    d'.computePartialEvaluations = d.computePartialEvaluations := by
  funext env prefixes h u ctx
  unfold Dpf.computePartialEvaluations
  rw [ha.h2t]

theorem Alike.expandAndUpdateContext (ha : d.Alike d') : d'.expandAndUpdateContext = d.expandAndUpdateContext := by
  funext env h prefixes ctx
  unfold Dpf.expandAndUpdateContext
  rw [ha.h2t, ha.computePartialEvaluations, ha.count]

theorem Alike.dedupPrefixes (ha : d.Alike d') : d'.dedupPrefixes = d.dedupPrefixes := by
  funext prevH prefixes
  unfold Dpf.dedupPrefixes
  rw [ha.domainToTreeIndex, ha.domainToBlockIndex]

theorem Alike.finishUntil (ha : d.Alike d') (env : Env) {α : Type} (H : Helper α) :
    d'.finishUntil env H = d.finishUntil env H := by
  funext h gap prefixes ti pm key ev
  unfold Dpf.finishUntil
  rw [ha.hashExpandedSeeds, ha.getValueCorrectionAsArray, ha.blocks, ha.blockIndexBits]

theorem sameType_cases {a b : ValueType} (h : SameType a b) (T : Ty) :
    valueTypesAreEqual T.helper.toValueType b = valueTypesAreEqual T.helper.toValueType a := by
  obtain ⟨c, ha, hb⟩ := h
  obtain ⟨ct, ht, _⟩ := sameType_iff.mp T.valueTypesAreEqual_self
  obtain ⟨r, h1, h2⟩ := valueTypesAreEqual_canon _ _ _ _ ht ha
  obtain ⟨r', h1', h2'⟩ := valueTypesAreEqual_canon _ _ _ _ ht hb
  rw [h1, h1']
  have : r = true ↔ r' = true := h2.trans h2'.symm
  cases r <;> cases r' <;> simp_all

theorem Alike.rdParam (ha : d.Alike d') (i : Int) :
    (rdInt d'.pv.parameters i >>= fun p => ok p.logDomainSize) =
      (rdInt d.pv.parameters i >>= fun p => ok p.logDomainSize) := by
  unfold rdInt
  split
  · rfl
  · exact ha.param_log i.toNat

theorem Alike.checkEvaluateUntil (ha : d.Alike d') (T : Ty) (h : Int) (prefixes : List U128)
    {ctx ctx' : EvaluationContext}
    (hv : d'.pv.validateEvaluationContext ctx' = d.pv.validateEvaluationContext ctx)
    (hp : ctx'.previousHierarchyLevel = ctx.previousHierarchyLevel) :
    d'.checkEvaluateUntil T.helper h prefixes ctx' = d.checkEvaluateUntil T.helper h prefixes ctx := by
  rw [checkEvaluateUntil_unfold, checkEvaluateUntil_unfold, hv, hp, ha.count]
  have hr : ∀ (f : Int → Res Int), (rdInt d'.pv.parameters ctx.previousHierarchyLevel >>= fun pp => f pp.logDomainSize) =
      (rdInt d.pv.parameters ctx.previousHierarchyLevel >>= fun pp => f pp.logDomainSize) := by
    intro f
    have h1 := congrArg (fun r => r >>= f) (ha.rdParam ctx.previousHierarchyLevel)
    simp only [bind_assoc, bind_ok] at h1
    exact h1
  have hr' := hr (fun n => mapRes (fun x => if n < 128 then
          shl128 1 n >>= fun bound => failIf (x ≥ bound) .invalidArgument
          else ok ()) prefixes >>= fun _ => ok n)
  rw [hr']
  rcases ha.param_cases h.toNat with ⟨h1, h2⟩ | ⟨p, q, h1, h2, h3, h4⟩
  · rw [h1, h2]
  · simp only [h1, h2, bind_ok, h3, sameType_cases h4 T]

theorem Alike.evaluateUntil (ha : d.Alike d') (env : Env) (T : Ty) (h : Int) (prefixes : List U128)
    (ctx : EvaluationContext) (ps : List DpfParameters)
    (hv : d'.pv.validateEvaluationContext (ctx.withParams ps) = d.pv.validateEvaluationContext ctx) :
    d'.evaluateUntil env T.helper h prefixes (ctx.withParams ps) =
      ((d.evaluateUntil env T.helper h prefixes ctx).1,
        (d.evaluateUntil env T.helper h prefixes ctx).2.withParams ps) := by
  unfold Dpf.evaluateUntil
  rw [ha.checkEvaluateUntil T h prefixes hv rfl]
  simp only [ha.dedupPrefixes, ha.expandAndUpdateContext, ha.finishUntil]
  cases d.checkEvaluateUntil T.helper h prefixes ctx <;> try rfl
  rename_i r
  obtain ⟨hN, prevH, gap⟩ := r
  dsimp only [keep]
  cases d.dedupPrefixes prevH prefixes <;> try rfl
  rename_i r
  obtain ⟨treeIndices, prefixMap⟩ := r
  dsimp only
  rw [expandAndUpdateContext_withParams]
  cases d.expandAndUpdateContext env hN treeIndices ctx <;> rfl

theorem Alike.evaluateAtCtx (ha : d.Alike d') (env : Env) {α : Type} (H : Helper α) (h : Int) (points : List U128)
    (ctx : EvaluationContext) : d'.evaluateAtCtx env H h points ctx = d.evaluateAtCtx env H h points ctx := by
  unfold Dpf.evaluateAtCtx
  rw [ha.checkEvaluateAt, ha.h2t, ha.treeIndicesFor, ha.computePartialEvaluations, ha.finishAt]

theorem Alike.run (ha : d.Alike d') (env : Env) (ctx : EvaluationContext) (ps : List DpfParameters)
    (hv : d'.pv.validateEvaluationContext (ctx.withParams ps) = d.pv.validateEvaluationContext ctx) (c : ContextCall) :
    c.run d' env (ctx.withParams ps) = ((c.run d env ctx).1, (c.run d env ctx).2.withParams ps) := by
  cases c with
  | evalUntil S h prefixes =>
    simp only [ContextCall.run, ha.evaluateUntil env S h prefixes ctx ps hv]
  | evalNext S prefixes =>
    have : d'.evaluateNext env S.helper prefixes (ctx.withParams ps) = ((d.evaluateNext env S.helper prefixes ctx).1,
        (d.evaluateNext env S.helper prefixes ctx).2.withParams ps) := by
      unfold Dpf.evaluateNext
      split
      · exact ha.evaluateUntil env S _ prefixes ctx ps hv
      · exact ha.evaluateUntil env S _ prefixes ctx ps hv
    simp only [ContextCall.run, this]
  | evalAt S h points =>
    simp only [ContextCall.run, ha.evaluateAtCtx, evaluateAtCtx_withParams]

theorem Alike.keyOk_iff (ha : d.Alike d') (wf : d.WF) (wf' : d'.WF) (key : DpfKey) : d'.KeyOk key ↔ d.KeyOk key := by
  rw [← wf'.validateDpfKey_iff, ← wf.validateDpfKey_iff, ha.validateDpfKey]

theorem Alike.applyLevel (ha : d.Alike d') (env : Env) {α : Type} (H : Helper α) :
    d'.applyLevel env H = d.applyLevel env H := by
  funext keys points rs st h
  unfold Dpf.applyLevel Dpf.applyValue Dpf.applyBlockIndex
  rw [ha.h2t, ha.lastLog, ha.hashExpandedSeeds, ha.blocks, ha.getValueCorrectionAsArray, ha.domainToBlockIndex]
  rcases ha.param_cases h with ⟨h1, h2⟩ | ⟨p, q, h1, h2, h3, _⟩
  · rw [h1, h2]
  · simp only [h1, h2, bind_ok, h3]

theorem Alike.applyLoop (ha : d.Alike d') (env : Env) {α σ : Type} (H : Helper α) (keys : List DpfKey)
    (points : List U128) (rs : Int) (op : σ → List α → Bool × σ) : (hs : List Nat) → (st : ApplyState) → (s : σ) →
    d'.applyLoop env H keys points rs op hs st s = d.applyLoop env H keys points rs op hs st s
  | [], _, _ => rfl
  | h :: hs, st, s => by
    unfold Dpf.applyLoop
    rw [ha.applyLevel]
    have ih := fun st' s' => Alike.applyLoop ha env H keys points rs op hs st' s'
    simp only [ih]

theorem Alike.evaluateAndApply (ha : d.Alike d') (env : Env) {α σ : Type} (H : Helper α) (keys : List DpfKey)
    (points : List U128) (op : σ → List α → Bool × σ) (s : σ) (rs : Int) :
    d'.evaluateAndApply env H keys points op s rs = d.evaluateAndApply env H keys points op s rs := by
  unfold Dpf.evaluateAndApply
  rw [ha.validateDpfKey, ha.h2t, ha.count]
  simp only [ha.applyLoop]

end Dpf

/-- Validation of contexts made for either object. -/
theorem Spec.Created.validate_alike {fp fp' : FpEnv} {params params' : List DpfParameters} {d d' : Dpf}
    (hc : Created fp params d) (hc' : Created fp' params' d') (hs : SameLevels params params')
    {ctx : EvaluationContext} {ps : List DpfParameters} (hp : SameParameters params ctx.parameters)
    (hp' : SameParameters params' ps) :
    d'.pv.validateEvaluationContext (ctx.withParams ps) = d.pv.validateEvaluationContext ctx := by
  have ha := hc.alike hc' hs
  have hi : d'.pv.validateEvaluationContext (ctx.withParams ps) = ok () ↔
      d.pv.validateEvaluationContext ctx = ok () := by
    rw [hc.validateEvaluationContext_iff, hc'.validateEvaluationContext_iff]
    have h1 := hp.count
    have h2 := hp'.count
    have h3 := hs.count
    simp only [EvaluationContext.withParams, hp, hp', h1, h2, h3, ha.keyOk_iff hc.wf hc'.wf]
  rcases hc'.wf.validateEvaluationContext_cases (ctx.withParams ps) with ⟨⟨⟩, h⟩ | h
  · rw [h, hi.mp h]
  · rcases hc.wf.validateEvaluationContext_cases ctx with ⟨⟨⟩, h'⟩ | h'
    · rw [hi.mpr h'] at h; cases h
    · rw [h, h']

theorem Spec.Created.callResults_alike {fp fp' : FpEnv} {params params' : List DpfParameters} {d d' : Dpf}
    (hc : Created fp params d) (hc' : Created fp' params' d') (hs : SameLevels params params') (env : Env)
    (calls : List ContextCall) {ctx : EvaluationContext} {ps : List DpfParameters}
    (hp : SameParameters params ctx.parameters) (hp' : SameParameters params' ps) :
    callResults d' env calls (ctx.withParams ps) = callResults d env calls ctx := by
  induction calls generalizing ctx with
  | nil => rfl
  | cons c cs ih =>
    have h1 := (hc.alike hc' hs).run env ctx ps (hc.validate_alike hc' hs hp hp') c
    have h2 := d.run_withParams env ctx ctx.parameters rfl c
    have hq : (c.run d env ctx).2.parameters = ctx.parameters := by
      have := congrArg (fun r => r.2.parameters) h2
      exact this
    show (c.run d' env (ctx.withParams ps)).1 :: callResults d' env cs (c.run d' env (ctx.withParams ps)).2 =
      (c.run d env ctx).1 :: callResults d env cs (c.run d env ctx).2
    rw [h1, ih (ctx := (c.run d env ctx).2) (by rw [hq]; exact hp)]

end Verif

namespace Verif
open Res Spec

/-! ## Key generation -/

theorem foldRes_step {σ α : Type} {f : σ → α → Res σ} : (l : List α) → {s r : σ} → foldRes f s l = ok r →
    ∀ x ∈ l, ∃ s s', f s x = ok s'
  | [], _, _, _, x, hx => by simp at hx
  | y :: l, s, r, h, x, hx => by
    simp only [foldRes] at h
    obtain ⟨s1, h1, h⟩ := bind_eq_ok.mp h
    rcases List.mem_cons.mp hx with rfl | hx
    · exact ⟨s, s1, h1⟩
    · exact foldRes_step l h x hx

namespace Dpf
variable {d : Dpf}

/-- In a successful key generation a value correction was computed for every level. -/
theorem WF.generateKeys_levels (wf : d.WF) {env : Env} {alpha : U128} {beta : List Value} {seed0 seed1 : U128}
    {r : DpfKey × DpfKey} (hk : d.generateKeysIncremental env alpha beta seed0 seed1 = ok r) {h : Nat} (hh : h < d.n) :
    ∃ seeds a v inv vs, d.computeValueCorrection env h seeds a v inv = ok vs := by
  unfold generateKeysIncremental at hk
  obtain ⟨_, _, hk⟩ := bind_eq_ok.mp hk
  obtain ⟨st, h1, hk⟩ := bind_eq_ok.mp hk
  dsimp only at hk
  obtain ⟨bl, _, hk⟩ := bind_eq_ok.mp hk
  obtain ⟨vs, h2, _⟩ := bind_eq_ok.mp hk
  by_cases hl : h = d.n - 1
  · subst hl
    exact ⟨_, _, _, _, vs, h2⟩
  · have hlt : d.treeAt h < d.treeAt (d.n - 1) := wf.tree_asc h (d.n - 1) (by omega) (by omega)
    obtain ⟨s, s', h3⟩ := foldRes_step _ h1 (d.treeAt h + 1) (by
      rw [wf.needed, List.mem_map]
      exact ⟨d.treeAt h, by simp; omega, rfl⟩)
    unfold generateNext at h3
    obtain ⟨vc, h4, _⟩ := bind_eq_ok.mp h3
    unfold valueCorrectionAt at h4
    rw [show d.treeAt h + 1 - 1 = d.treeAt h from rfl, (wf.lookup (d.treeAt h) h).mpr ⟨hh, rfl⟩] at h4
    dsimp only at h4
    obtain ⟨p, _, h4⟩ := bind_eq_ok.mp h4
    obtain ⟨last, _, h4⟩ := bind_eq_ok.mp h4
    split at h4 <;>
    · obtain ⟨a, _, h4⟩ := bind_eq_ok.mp h4
      obtain ⟨v, _, h4⟩ := bind_eq_ok.mp h4
      exact ⟨_, _, _, _, vc, h4⟩

theorem WF.registered_of_correction (wf : d.WF) {env : Env} {h : Nat} (hh : h < d.n) {p : DpfParameters}
    (hp : d.pv.parameters[h]? = some p) {seeds : U128 × U128} {a : U128} {v : Value} {inv : Bool} {vs : List Value}
    (hc : d.computeValueCorrection env h seeds a v inv = ok vs) : p.vt ∈ d.registry.map (·.1) := by
  obtain ⟨x, y, i, e⟩ := wf.computeValueCorrection_head env hh hp seeds a v inv
  rw [e] at hc
  obtain ⟨f, h1, _⟩ := bind_eq_ok.mp hc
  unfold getValueCorrectionFunction at h1
  split at h1
  · rename_i g hg
    clear hc e h1
    generalize d.registry = l at hg
    induction l with
    | nil => simp at hg
    | cons e l ih =>
      rw [List.lookup_cons] at hg
      split at hg
      · rename_i hb
        simp only [List.map_cons, List.mem_cons]
        exact Or.inl (by simpa using hb)
      · simp only [List.map_cons, List.mem_cons]
        exact Or.inr (ih hg)
  · simp at h1

end Dpf

/-- Whoever gets keys used types that are registered, and enough bytes were reserved. -/
theorem Spec.Created.setup_of_generateKeys {fp : FpEnv} {params : List DpfParameters} {d : Dpf}
    (hc : Created fp params d) {env : Env} {alpha : U128} {beta : List Value} {seed0 seed1 : U128}
    {r : DpfKey × DpfKey} (hk : d.generateKeysIncremental env alpha beta seed0 seed1 = ok r) :
    ∃ T, Setup fp params T d := by
  have wf := hc.wf
  obtain ⟨d0, Ts, h1, h2⟩ := hc
  have hc : Created fp params d := ⟨d0, Ts, h1, h2⟩
  have hex : ∀ h : Nat, ∃ T : Ty, ∀ p : DpfParameters, params[h]? = some p →
      p.vt = T.helper.toValueType ∧ (T ∈ Ts ∨ ∃ w, T = .uint w) := by
    intro h
    by_cases hh : h < d.n
    · obtain ⟨q, _, hq⟩ := wf.param_ok hh
      obtain ⟨seeds, a, v, inv, vs, h3⟩ := wf.generateKeys_levels hk hh
      have hm := wf.registered_of_correction hh hq h3
      have hvt : ∀ p : DpfParameters, params[h]? = some p → p.vt = q.vt := by
        intro p hp
        rw [hc.params, List.getElem?_map, hp] at hq
        simp only [Option.map_some, Option.some.injEq] at hq
        rw [← hq, DpfParameters.vt, DpfParameters.vt, withDefaultSecurity_vt]
      rw [h2, Dpf.registerAll_keys, (createIncremental_spec h1).2.2] at hm
      rcases hm with hm | ⟨T, hT, e⟩
      · simp only [List.map_cons, List.map_nil, List.mem_cons, List.not_mem_nil, or_false] at hm
        rcases hm with e | e | e | e | e
        · exact ⟨.uint .w128, fun p hp => ⟨(hvt p hp).trans e, Or.inr ⟨_, rfl⟩⟩⟩
        · exact ⟨.uint .w64, fun p hp => ⟨(hvt p hp).trans e, Or.inr ⟨_, rfl⟩⟩⟩
        · exact ⟨.uint .w32, fun p hp => ⟨(hvt p hp).trans e, Or.inr ⟨_, rfl⟩⟩⟩
        · exact ⟨.uint .w16, fun p hp => ⟨(hvt p hp).trans e, Or.inr ⟨_, rfl⟩⟩⟩
        · exact ⟨.uint .w8, fun p hp => ⟨(hvt p hp).trans e, Or.inr ⟨_, rfl⟩⟩⟩
      · exact ⟨T, fun p hp => ⟨(hvt p hp).trans e, Or.inl hT⟩⟩
    · refine ⟨.uint .w8, fun p hp => absurd (List.getElem?_eq_some_iff.mp hp).1 ?_⟩
      rw [← hc.n_eq]; exact hh
  obtain ⟨T, hT⟩ := Classical.axiomOfChoice hex
  have types : ∀ h p, params[h]? = some p → p.valueType = some (T h).helper.toValueType := by
    intro h p hp
    have e := (hT h p hp).1
    cases hv : p.valueType with
    | none =>
      rw [DpfParameters.vt, hv] at e
      have := (T h).valueTypesAreEqual_self
      rw [← e] at this
      cases this
    | some t =>
      rw [DpfParameters.vt, hv] at e
      exact congrArg some e
  have hst : SetupTypes fp params T d := by
    refine ⟨⟨d0, Ts, h1, h2, fun h hh => ?_⟩, types⟩
    exact (hT h _ (List.getElem?_eq_getElem hh)).2
  refine ⟨T, hst.created, types, ?_⟩
  intro h k hkk
  apply Nat.le_of_not_lt
  intro hlt
  have hh : h < d.n := by rw [← wf.len_blocks]; exact (List.getElem?_eq_some_iff.mp hkk).1
  obtain ⟨seeds, a, v, inv, vs, h3⟩ := wf.generateKeys_levels hk hh
  have hb : d.blocksAt h = k := by
    obtain ⟨hl, e⟩ := List.getElem?_eq_some_iff.mp hkk
    rw [Dpf.blocksAt, getD_eq_getElem _ _ _ hl, e]
  have hvt : ∀ p, d.pv.parameters[h]? = some p → p.vt = (T h).helper.toValueType := by
    intro q hq
    rw [hc.params, List.getElem?_map, Option.map_eq_some_iff] at hq
    obtain ⟨p, hp, rfl⟩ := hq
    rw [DpfParameters.vt, withDefaultSecurity_vt]
    exact (hT h p hp).1
  have hreg := hst.registered hh
  by_cases hf : ∃ b, (T h).helper.fromValue v = ok b
  · obtain ⟨b, hf⟩ := hf
    rw [wf.computeValueCorrection_short env hh hvt hreg (by rw [hb]; exact hlt) seeds a inv hf] at h3
    cases h3
  · obtain ⟨p, _, hp⟩ := wf.param_ok hh
    obtain ⟨x, y, i, e⟩ := wf.computeValueCorrection_head env hh hp seeds a v inv
    rw [e, Dpf.getValueCorrectionFunction, hvt p hp, hreg, bind_ok, Helper.computeValueCorrectionFor] at h3
    obtain ⟨b, h4, _⟩ := bind_eq_ok.mp h3
    exact hf ⟨b, h4⟩

end Verif

namespace Verif.Dpf
open Res Spec
variable {d d' : Dpf}

/-- Objects that in addition use the same functions at all levels generate the same keys. -/
theorem Alike.generateKeys (ha : d.Alike d')
    (hvt : ∀ (i : Nat) (p q : DpfParameters), d.pv.parameters[i]? = some p → d'.pv.parameters[i]? = some q →
      p.vt = q.vt ∧ d.registry.lookup p.vt = d'.registry.lookup q.vt)
    (env : Env) (alpha : U128) (beta : List Value) (seed0 seed1 : U128) :
    d'.generateKeysIncremental env alpha beta seed0 seed1 = d.generateKeysIncremental env alpha beta seed0 seed1 := by
  have hparam : ∀ h, (d.param h = ub ∧ d'.param h = ub) ∨ ∃ p q, d.param h = ok p ∧ d'.param h = ok q ∧
      p.logDomainSize = q.logDomainSize ∧ p.vt = q.vt ∧ d.registry.lookup p.vt = d'.registry.lookup q.vt := by
    intro h
    rcases ha.param_cases h with h1 | ⟨p, q, h1, h2, h3, _⟩
    · exact Or.inl h1
    · exact Or.inr ⟨p, q, h1, h2, h3, hvt h p q (rd_eq_ok.mp h1) (rd_eq_ok.mp h2)⟩
  have hval : d'.validateBeta = d.validateBeta := by
    funext h v
    unfold validateBeta
    rcases hparam h with ⟨h1, h2⟩ | ⟨p, q, h1, h2, _, h3, _⟩
    · rw [h1, h2]
    · rw [h1, h2, bind_ok, bind_ok, h3]
  have hchk : d'.checkKeyGenArgs alpha beta = d.checkKeyGenArgs alpha beta := by
    unfold checkKeyGenArgs
    rw [ha.count, hval, ha.lastLog]
  have hcorr : d'.computeValueCorrection = d.computeValueCorrection := by
    funext env h seeds a v inv
    unfold computeValueCorrection
    rw [ha.blocks, ha.domainToBlockIndex]
    rcases hparam h with ⟨h1, h2⟩ | ⟨p, q, h1, h2, _, _, h3⟩
    · rw [h1, h2]; rfl
    · simp only [h1, h2, bind_ok, getValueCorrectionFunction, h3]
  have hat : d'.valueCorrectionAt = d.valueCorrectionAt := by
    funext env t a b st
    unfold valueCorrectionAt
    rw [ha.t2h, hcorr, ha.lastLog]
    split
    · rename_i h _
      rcases hparam h with ⟨h1, h2⟩ | ⟨p, q, h1, h2, h3, _⟩
      · rw [h1, h2]
      · simp only [h1, h2, bind_ok, h3]
    · rfl
  have hnext : d'.generateNext = d.generateNext := by
    funext env a b st t
    unfold generateNext
    rw [hat, ha.lastLog]
  unfold generateKeysIncremental
  rw [hchk, hnext, ha.needed, ha.count, hcorr]

end Verif.Dpf

namespace Verif
open Res Spec

/-! ## Key generation with types encoded differently -/

mutual
theorem validateValue_same : (a b : ValueType) → (c : Canon) → canon a = some c → canon b = some c → (v : Value) →
    validateValue a v = validateValue b v
  | .notSet, _, _, h, _, _ => by simp [canon] at h
  | .integer n, b, c, h, h', v => by
    simp only [canon, Option.some.injEq] at h
    subst h
    cases b <;> simp [canon] at h'
    subst h'
    rfl
  | .xorWrapper n, b, c, h, h', v => by
    simp only [canon, Option.some.injEq] at h
    subst h
    cases b <;> simp [canon] at h'
    subst h'
    rfl
  | .intModN n m, b, c, h, h', v => by
    obtain ⟨m', k, rfl, e1, e2⟩ := canon_intModN h h'
    simp only [validateValue, valueInteger_of_intMsg e1, valueInteger_of_intMsg e2]
  | .tuple els, b, c, h, h', v => by
    simp only [canon, Option.map_eq_some_iff] at h
    obtain ⟨cs, hcs, rfl⟩ := h
    cases b with
    | notSet => simp [canon] at h'
    | integer => simp [canon] at h'
    | xorWrapper => simp [canon] at h'
    | intModN => simp [canon] at h'
    | tuple els' =>
      simp only [canon, Option.map_eq_some_iff, Canon.tuple.injEq] at h'
      obtain ⟨cs', hcs', rfl⟩ := h'
      have hl : els.length = els'.length := by rw [← canons_length hcs, ← canons_length hcs']
      cases v with
      | tuple vs =>
        simp only [validateValue]
        rw [hl, validateValues_same els els' cs' hcs hcs' vs]
      | _ => simp only [validateValue]
theorem validateValues_same : (as bs : List ValueType) → (cs : List Canon) → canons as = some cs →
    canons bs = some cs → (vs : List Value) → validateValues as vs = validateValues bs vs
  | [], bs, cs, h, h', vs => by
    simp only [canons, Option.some.injEq] at h
    subst h
    have := canons_length h'
    match bs with
    | [] => rfl
  | a :: as, bs, cs, h, h', vs => by
    obtain ⟨c, cs, rfl, h1, h2⟩ := canons_cons h
    match bs with
    | [] => simp [canons] at h'
    | b :: bs =>
      obtain ⟨c', cs', e, h3, h4⟩ := canons_cons h'
      cases e
      cases vs with
      | nil => rfl
      | cons v vs =>
        simp only [validateValues]
        rw [validateValue_same a b c h1 h3 v, validateValues_same as bs cs h2 h4 vs]
end

theorem mem_keys_iff_lookup {l : List (ValueType × ValueCorrectionFunction)} {vt : ValueType}
    (h : vt ∉ l.map (·.1)) : l.lookup vt = none := by
  cases hlk : l.lookup vt with
  | none => rfl
  | some f => exact absurd (mem_keys_of_lookup hlk) h

/-- A level of another object that uses a registered type has the same output type. -/
theorem Spec.Setup.typed_other {fp fp' : FpEnv} {params params' : List DpfParameters} {T : Nat → Ty} {d d' : Dpf}
    (hs : Setup fp params T d) (hc' : Created fp' params' d') (hl : SameLevels params params') {h : Nat}
    (hh : h < d'.n) {q : DpfParameters} (hq : d'.pv.parameters[h]? = some q) (hm : q.vt ∈ d'.registry.map (·.1)) :
    q.vt = (T h).helper.toValueType ∧ d'.TypedAt h (T h) ∧ d'.Registered (T h) := by
  have ha := hs.toCreated.alike hc' hl
  have hn : h < d.n := by
    have : d'.n = d.n := ha.count
    omega
  obtain ⟨p, _, hp⟩ := hs.wf.param_ok hn
  have ht := hs.typedAt hn
  obtain ⟨S, hS⟩ : ∃ S : Ty, q.vt = S.helper.toValueType := by
    have hsome : d'.registry.lookup q.vt ≠ none := by
      clear hq ht
      generalize d'.registry = l at hm
      generalize q.vt = vt at hm
      induction l with
      | nil => simp at hm
      | cons e l ih =>
        rw [List.lookup_cons]
        split
        · simp
        · rename_i hb
          refine ih ?_
          rcases List.mem_cons.mp hm with e1 | e1
          · rw [e1] at hb; simp at hb
          · exact e1
    obtain ⟨f, hf⟩ := Option.ne_none_iff_exists'.mp hsome
    obtain ⟨S, e, _⟩ := hc'.registryOk.lookup hf
    exact ⟨S, e⟩
  have e : T h = S := by
    have := ha.type h p q hp hq
    rw [ht.vt p hp, hS] at this
    exact Ty.eq_of_equal _ _ (sameType_iff.mpr this)
  rw [e]
  refine ⟨hS, ⟨?_, ?_, ?_⟩, ?_⟩
  · intro q' hq'
    rw [hq] at hq'
    cases hq'
    exact hS
  · rw [Dpf.blocksAt, ha.blocks, ← e]
    exact ht.fits
  · have h1 : d'.logAt h = d.logAt h := by
      have := hs.wf.log_eq h p hp
      have := hc'.wf.log_eq h q hq
      have := ha.log h p q hp hq
      omega
    have h2 : d'.treeAt h = d.treeAt h := by rw [Dpf.treeAt, ha.h2t]; rfl
    rw [h1, h2, ← e]
    exact ht.elems
  · refine hc'.registryOk.of_mem ?_
    rw [← hS]
    exact hm

/-- With a type that is not registered in its encoding, valid arguments are refused. -/
theorem Spec.Setup.generateKeys_other {fp fp' : FpEnv} {params params' : List DpfParameters} {T : Nat → Ty}
    {d d' : Dpf} (hs : Setup fp params T d) (hc' : Created fp' params' d') (hl : SameLevels params params') (env : Env)
    {alpha : U128} (halpha : alpha.toNat < 2 ^ lastLogSize params) {beta : List Value} {b : (h : Nat) → (T h).den}
    (hb : BetasRepresent params T beta b) (seed0 seed1 : U128) {h0 : Nat} {q0 : DpfParameters}
    (hq0 : d'.pv.parameters[h0]? = some q0) (hun : q0.vt ∉ d'.registry.map (·.1)) :
    d'.generateKeysIncremental env alpha beta seed0 seed1 = err .failedPrecondition := by
  have hc := hs.toCreated
  have ha := hc.alike hc' hl
  have wf' := hc'.wf
  have hn : d'.n = d.n := ha.count
  have hlen : beta.length = d'.n := by rw [hb.1, hn, hc.n_eq]
  have hh0 : h0 < d'.n := (List.getElem?_eq_some_iff.mp hq0).1
  have hchk : d'.checkKeyGenArgs alpha beta = ok () := by
    refine wf'.checkKeyGenArgs_ok ?_ hlen ?_
    · have hpos := wf'.pos
      obtain ⟨p, _, hp⟩ := hs.wf.param_ok (show d.n - 1 < d.n by omega)
      obtain ⟨q, _, hq⟩ := wf'.param_ok (show d.n - 1 < d'.n by omega)
      have h1 := hs.wf.log_eq _ p hp
      have h2 := wf'.log_eq _ q hq
      have h3 := ha.log _ p q hp hq
      rw [hn, show d'.logAt (d.n - 1) = d.logAt (d.n - 1) by omega, hc.last_eq]
      exact halpha
    · intro h q v hq hv
      have hh : h < d.n := by rw [← hn]; exact (List.getElem?_eq_some_iff.mp hq).1
      obtain ⟨p, _, hp⟩ := hs.wf.param_ok hh
      obtain ⟨c, c1, c2⟩ := ha.type h p q hp hq
      rw [← validateValue_same _ _ c c1 c2, (hs.typedAt hh).vt p hp]
      exact (T h).validateValue_of_represents v (b h) (hb.2 h v hv)
  obtain ⟨m, hm, ⟨qm, hqm, hmu⟩, hlt⟩ := Dpf.exists_least (P := fun h => ∃ q : DpfParameters,
    d'.pv.parameters[h]? = some q ∧ q.vt ∉ d'.registry.map (·.1)) ⟨q0, hq0, hun⟩
  refine wf'.generateKeys_err env seed0 seed1 hchk hlen (h0 := m) (by omega) ?_ ?_
  · intro h hh
    obtain ⟨q, _, hq⟩ := wf'.param_ok (show h < d'.n by omega)
    have hmem : q.vt ∈ d'.registry.map (·.1) := Classical.not_not.mp fun hne => hlt h hh ⟨q, hq, hne⟩
    obtain ⟨_, h2, h3⟩ := hs.typed_other hc' hl (by omega) hq hmem
    refine wf'.levelOutcome_good env (by omega) h2 h3 fun v hv => ?_
    exact ⟨b h, (T h).fromValue_of_represents v (b h) (hb.2 h v hv)⟩
  · exact wf'.levelOutcome_unregistered env beta (by omega) hqm (mem_keys_iff_lookup hmu)

end Verif
