import Verif.Lemmas.Create
import Verif.Spec.Setup
/-! Well-formedness of created DPF objects: level maps, registered types, reserved bytes. -/
namespace Verif
open Res Spec

namespace Dpf
variable (d : Dpf)

/-- Number of hierarchy levels. -/
def n : Nat := d.pv.parameters.length
/-- Log domain size of a level. -/
def logAt (h : Nat) : Nat :=
  match d.pv.parameters[h]? with | some p => p.logDomainSize.toNat | none => 0
/-- Tree level of a hierarchy level. -/
def treeAt (h : Nat) : Nat := d.pv.hierarchyToTree.getD h 0
/-- Blocks reserved for a level. -/
def blocksAt (h : Nat) : Nat := d.blocksNeeded.getD h 0

/-- Level maps of a created DPF. -/
structure WF : Prop where
  pos : 0 < d.n
  len_tree : d.pv.hierarchyToTree.length = d.n
  len_blocks : d.blocksNeeded.length = d.n
  log_eq : ∀ h p, d.pv.parameters[h]? = some p → p.logDomainSize = (d.logAt h : Int)
  log_le : ∀ h, d.logAt h ≤ 128
  log_asc : ∀ h h', h < h' → h' < d.n → d.logAt h < d.logAt h'
  tree_asc : ∀ h h', h < h' → h' < d.n → d.treeAt h < d.treeAt h'
  tree_le : ∀ h, d.treeAt h ≤ d.logAt h
  log_le_tree : ∀ h, d.logAt h ≤ d.treeAt h + 7
  needed : d.pv.treeLevelsNeeded = d.treeAt (d.n - 1) + 1
  lookup : ∀ t h, d.pv.treeToHierarchy.lookup t = some h ↔ h < d.n ∧ d.treeAt h = t

/-- The level `h` of the DPF has type `T`, and the reserved bytes suffice. -/
structure TypedAt (h : Nat) (T : Ty) : Prop where
  vt : ∀ p, d.pv.parameters[h]? = some p → p.vt = T.helper.toValueType
  fits : T.bytesRead ≤ 16 * d.blocksAt h
  elems : 2 ^ (d.logAt h - d.treeAt h) ≤ T.helper.elementsPerBlock

/-- Blocks of the level `h` suffice for elements of `T`, which need not be its type. -/
structure SizedAt (h : Nat) (T : Ty) : Prop where
  fits : T.bytesRead ≤ 16 * d.blocksAt h
  elems : 2 ^ (d.logAt h - d.treeAt h) ≤ T.helper.elementsPerBlock

/-- `T` is registered. -/
def Registered (T : Ty) : Prop :=
  d.registry.lookup T.helper.toValueType = some T.helper.computeValueCorrectionFor

end Dpf

theorem lookup_eq_some_iff {α β : Type} [BEq α] [LawfulBEq α] {l : List (α × β)}
    (h : (l.map (·.1)).Nodup) (a : α) (b : β) : l.lookup a = some b ↔ (a, b) ∈ l := by
  induction l with
  | nil => simp
  | cons x l ih =>
    obtain ⟨a', b'⟩ := x
    simp only [List.map_cons, List.nodup_cons] at h
    rw [List.lookup_cons]
    by_cases e : a = a'
    · subst e
      simp only [beq_self_eq_true, List.mem_cons, Prod.mk.injEq, true_and]
      constructor
      · intro h'; left; simpa using h'.symm
      · rintro (rfl | hm)
        · rfl
        · exact absurd (List.mem_map_of_mem (f := (·.1)) hm) h.1
    · have : (a == a') = false := by simpa using e
      simp only [this, List.mem_cons, Prod.mk.injEq, e, false_and, false_or]
      exact ih h.2

theorem mem_keys_of_lookup {α β : Type} [BEq α] [LawfulBEq α] {l : List (α × β)} {a : α} {b : β}
    (h : l.lookup a = some b) : a ∈ l.map (·.1) := by
  induction l with
  | nil => simp at h
  | cons e l ih =>
    rw [List.lookup_cons] at h
    split at h
    · rename_i he
      simp [eq_of_beq he]
    · simp [ih h]

theorem zipIdx_lookup {l : List Nat} (h : l.Nodup) (t i : Nat) :
    l.zipIdx.reverse.lookup t = some i ↔ l[i]? = some t := by
  rw [lookup_eq_some_iff, List.mem_reverse, List.mem_zipIdx_iff_getElem?]
  rw [List.map_reverse]
  have : l.zipIdx.map (·.1) = l := by simp
  rw [this]
  exact List.pairwise_reverse.mpr (h.imp fun h e => h e.symm)

theorem getD_eq_getElem {α : Type} (l : List α) (i : Nat) (a : α) (h : i < l.length) :
    l.getD i a = l[i] := by simp [List.getD, h]

/-- Accepted parameters give well-formed level maps. -/
theorem createIncremental_wf {fp : FpEnv} {params : List DpfParameters} {d : Dpf}
    (hd : Dpf.createIncremental fp params = ok d) : d.WF := by
  obtain ⟨hpv, _, _⟩ := createIncremental_spec hd
  obtain ⟨hv, hp, inv⟩ := create_spec hpv
  have hlen : d.pv.hierarchyToTree.length = d.n := inv.len
  have hn : d.n = params.length := by simp [Dpf.n, hp]
  have hpos : 0 < d.n := by
    rw [hn]; exact List.length_pos_iff.mpr hv.nonempty
  have hrange : ∀ p ∈ d.pv.parameters, 0 ≤ p.logDomainSize ∧ p.logDomainSize ≤ 128 := by
    intro p hp'
    rw [hp] at hp'
    obtain ⟨q, hq, rfl⟩ := List.mem_map.mp hp'
    rw [withDefaultSecurity_log]
    exact hv.log_range q hq
  have hlog : ∀ h p, d.pv.parameters[h]? = some p → p.logDomainSize = (d.logAt h : Int) := by
    intro h p hp'
    have := hrange p (List.mem_of_getElem? hp')
    simp only [Dpf.logAt, hp']
    omega
  have hpw : d.pv.parameters.Pairwise fun p q => p.logDomainSize < q.logDomainSize := by
    rw [hp, List.pairwise_map]
    simp only [withDefaultSecurity_log]
    exact hv.log_ascending
  have hbnd : ∀ h, h < d.n → d.treeAt h ≤ d.logAt h ∧ d.logAt h ≤ d.treeAt h + 7 := by
    intro h hh
    have hh' : h < d.pv.hierarchyToTree.length := by omega
    obtain ⟨b1, bits, lb, _, _, b2⟩ := inv.bounds h hh' hh
    have e := hlog h _ (List.getElem?_eq_getElem hh)
    have e2 : d.treeAt h = d.pv.hierarchyToTree[h] := getD_eq_getElem _ _ _ hh'
    simp only [] at b1 b2
    rw [e] at b1 b2
    omega
  have hout : ∀ h, ¬ h < d.n → d.treeAt h = 0 ∧ d.logAt h = 0 := by
    intro h hh
    constructor
    · have : d.pv.hierarchyToTree.length ≤ h := by omega
      simp [Dpf.treeAt, List.getD, this]
    · have : d.pv.parameters[h]? = none := by
        rw [List.getElem?_eq_none_iff]; unfold Dpf.n at hh; omega
      simp [Dpf.logAt, this]
  refine ⟨hpos, hlen, ?_, hlog, ?_, ?_, ?_, ?_, ?_, ?_, ?_⟩
  · rw [createIncremental_blocks_length hd, hn]
  · intro h
    cases hp' : d.pv.parameters[h]? with
    | none => simp [Dpf.logAt, hp']
    | some p =>
      have := hrange p (List.mem_of_getElem? hp')
      simp only [Dpf.logAt, hp']; omega
  · intro h h' hlt hh'
    have e1 := hlog h _ (List.getElem?_eq_getElem (show h < d.pv.parameters.length by
      unfold Dpf.n at hh'; omega))
    have e2 := hlog h' _ (List.getElem?_eq_getElem hh')
    have := List.pairwise_iff_getElem.mp hpw h h' (by unfold Dpf.n at hh'; omega) hh' hlt
    omega
  · intro h h' hlt hh'
    have := List.pairwise_iff_getElem.mp inv.asc h h' (by simp only []; omega)
      (by simp only []; omega) hlt
    simp only [Dpf.treeAt]
    rw [getD_eq_getElem _ _ _ (by omega), getD_eq_getElem _ _ _ (by omega)]
    exact this
  · intro h
    by_cases hh : h < d.n
    · exact (hbnd h hh).1
    · rw [(hout h hh).1]; omega
  · intro h
    by_cases hh : h < d.n
    · exact (hbnd h hh).2
    · rw [(hout h hh).2]; omega
  · have := inv.last
    simp only [] at this
    rw [this, List.getLast?_eq_getElem?, hlen]
    have hlt : d.n - 1 < d.pv.hierarchyToTree.length := by omega
    simp [Dpf.treeAt, List.getD, hlt]
  · intro t h
    have h1 : d.pv.treeToHierarchy = d.pv.hierarchyToTree.zipIdx.reverse := inv.t2h
    rw [h1, zipIdx_lookup (by
      have := inv.asc
      simp only [] at this
      exact this.imp fun h => by omega)]
    constructor
    · intro e
      obtain ⟨hlt, e⟩ := List.getElem?_eq_some_iff.mp e
      exact ⟨by omega, by rw [Dpf.treeAt, getD_eq_getElem _ _ _ hlt, e]⟩
    · rintro ⟨hlt, e⟩
      rw [List.getElem?_eq_getElem (by omega)]
      rw [Dpf.treeAt, getD_eq_getElem _ _ _ (by omega)] at e
      rw [e]

theorem two_pow_le_of_ceilLog2 {bits : Int} {lb : Nat} (h : ceilLog2 bits = ok lb) {B : Nat}
    (hb : bits = 8 * (B : Int)) (h16 : B ≤ 16) {g : Nat} (hg : (g : Int) ≤ 7 - min (lb : Int) 7) :
    2 ^ g ≤ 16 / B := by
  obtain ⟨h1, h2, _⟩ := ceilLog2_spec h
  have hB : 0 < B := by omega
  have hlb : lb ≤ 7 := by
    rcases Nat.lt_or_ge 7 lb with h | h
    · exfalso
      have h3 := (ceilLog2_spec ‹_›).2.2 (by omega)
      have : 2 ^ 7 ≤ 2 ^ (lb - 1) := Nat.pow_le_pow_right (by decide) (by omega)
      omega
    · exact h
  rw [Nat.le_div_iff_mul_le hB]
  have h8 : 8 * B ≤ 2 ^ lb := by omega
  have hge : g + lb ≤ 7 := by omega
  have : 2 ^ g * (8 * B) ≤ 2 ^ g * 2 ^ lb := Nat.mul_le_mul_left _ h8
  rw [← Nat.pow_add] at this
  have h7 : 2 ^ (g + lb) ≤ 2 ^ 7 := Nat.pow_le_pow_right (by decide) hge
  have e : 2 ^ g * (8 * B) = 8 * (2 ^ g * B) := by
    rw [Nat.mul_left_comm]
  omega

/-- The packed elements of a level fit into one block. -/
theorem createIncremental_elems {fp : FpEnv} {params : List DpfParameters} {d : Dpf}
    (hd : Dpf.createIncremental fp params = ok d) {h : Nat} {p : DpfParameters} {T : Ty}
    (hp : params[h]? = some p) (ht : p.valueType = some T.helper.toValueType) :
    2 ^ (d.logAt h - d.treeAt h) ≤ T.helper.elementsPerBlock := by
  obtain ⟨hpv, _, _⟩ := createIncremental_spec hd
  obtain ⟨hv, hpp, inv⟩ := create_spec hpv
  have hwf := createIncremental_wf hd
  obtain ⟨hlt, hpe⟩ := List.getElem?_eq_some_iff.mp hp
  have hh : h < d.pv.parameters.length := by rw [hpp]; simpa using hlt
  have hlen : d.pv.hierarchyToTree.length = d.n := inv.len
  have hh' : h < d.pv.hierarchyToTree.length := by rw [hlen]; exact hh
  obtain ⟨b1, bits, lb, hbits, hlb, b2⟩ := inv.bounds h hh' hh
  have e := hwf.log_eq h _ (List.getElem?_eq_getElem hh)
  have e2 : d.treeAt h = d.pv.hierarchyToTree[h] := getD_eq_getElem _ _ _ hh'
  simp only [] at b2
  rw [e, ← e2] at b2
  have hvt : d.pv.parameters[h].vt = T.helper.toValueType := by
    have : d.pv.parameters[h] = withDefaultSecurity p := by
      simp [hpp, hpe]
    rw [this, DpfParameters.vt, withDefaultSecurity_vt, ht]; rfl
  rw [hvt] at hbits
  rw [T.elementsPerBlock_eq]
  have htl := hwf.tree_le h
  cases hn : T.noMod with
  | true =>
    have hbits := T.bitsNeeded_noMod fp hn _ _ hbits
    simp only [if_true]
    split
    · rename_i h16
      exact two_pow_le_of_ceilLog2 hlb (B := T.leafBytes) (by omega) h16 (by omega)
    · rename_i h16
      have : 7 ≤ lb := by
        obtain ⟨_, h2, _⟩ := ceilLog2_spec hlb
        rcases Nat.lt_or_ge lb 7 with h | h
        · have : 2 ^ lb ≤ 2 ^ 6 := Nat.pow_le_pow_right (by decide) (by omega)
          omega
        · exact h
      have : d.logAt h - d.treeAt h = 0 := by omega
      simp [this]
  | false =>
    have h128 := (Ty.bitsNeeded_nonneg fp T _ bits hbits).2 hn
    have : 7 ≤ lb := by
      obtain ⟨_, h2, _⟩ := ceilLog2_spec hlb
      rcases Nat.lt_or_ge lb 7 with h | h
      · have : 2 ^ lb ≤ 2 ^ 6 := Nat.pow_le_pow_right (by decide) (by omega)
        omega
      · exact h
    have : d.logAt h - d.treeAt h = 0 := by omega
    simp [this]

/-! ### Registered types -/

theorem Dpf.registerAll_pv (d : Dpf) (Ts : List Ty) :
    (d.registerAll Ts).pv = d.pv ∧ (d.registerAll Ts).blocksNeeded = d.blocksNeeded := by
  induction Ts generalizing d with
  | nil => exact ⟨rfl, rfl⟩
  | cons T Ts ih =>
    have := ih (d.registerValueType T.helper)
    exact this

/-- Registry entries belong to types. -/
def Dpf.RegistryOk (d : Dpf) : Prop :=
  ∀ e ∈ d.registry, ∃ T : Ty, e = (T.helper.toValueType, T.helper.computeValueCorrectionFor)

theorem Dpf.RegistryOk.lookup {d : Dpf} (h : d.RegistryOk) {vt : ValueType}
    {f : ValueCorrectionFunction} (hf : d.registry.lookup vt = some f) :
    ∃ T : Ty, vt = T.helper.toValueType ∧ f = T.helper.computeValueCorrectionFor := by
  unfold Dpf.RegistryOk at h
  generalize d.registry = l at h hf
  induction l with
  | nil => simp at hf
  | cons e l ih =>
    rw [List.lookup_cons] at hf
    split at hf
    · rename_i he
      obtain ⟨T, hT⟩ := h e (by simp)
      simp only [Option.some.injEq] at hf
      refine ⟨T, ?_, ?_⟩
      · have := eq_of_beq he
        rw [this, hT]
      · rw [← hf, hT]
    · exact ih (fun e he => h e (by simp [he])) hf

theorem Dpf.RegistryOk.of_mem {d : Dpf} (h : d.RegistryOk) {T : Ty}
    (hm : T.helper.toValueType ∈ d.registry.map (·.1)) : d.Registered T := by
  have : (d.registry.lookup T.helper.toValueType).isSome = true := by
    rw [List.mem_map] at hm
    obtain ⟨e, he, hk⟩ := hm
    clear h
    generalize d.registry = l at he
    induction l with
    | nil => simp at he
    | cons x l ih =>
      rw [List.lookup_cons]
      split
      · rfl
      · rename_i hx
        simp only [List.mem_cons] at he
        rcases he with rfl | he
        · rw [hk] at hx; simp at hx
        · exact ih he
  obtain ⟨f, hf⟩ := Option.isSome_iff_exists.mp this
  obtain ⟨S, h1, h2⟩ := h.lookup hf
  have := Ty.toValueType_inj _ _ h1
  subst this
  rw [Dpf.Registered, hf, h2]

theorem createIncremental_registryOk {fp : FpEnv} {params : List DpfParameters} {d : Dpf}
    (hd : Dpf.createIncremental fp params = ok d) : d.RegistryOk := by
  obtain ⟨_, _, hr⟩ := createIncremental_spec hd
  intro e he
  rw [hr] at he
  simp only [List.mem_cons, List.not_mem_nil, or_false] at he
  rcases he with rfl | rfl | rfl | rfl | rfl
  · exact ⟨.uint .w128, rfl⟩
  · exact ⟨.uint .w64, rfl⟩
  · exact ⟨.uint .w32, rfl⟩
  · exact ⟨.uint .w16, rfl⟩
  · exact ⟨.uint .w8, rfl⟩

theorem Dpf.RegistryOk.registerAll {d : Dpf} (h : d.RegistryOk) (Ts : List Ty) :
    (d.registerAll Ts).RegistryOk := by
  induction Ts generalizing d with
  | nil => exact h
  | cons T Ts ih =>
    refine ih (d := d.registerValueType T.helper) ?_
    intro e he
    simp only [Dpf.registerValueType, registerType, List.mem_cons] at he
    rcases he with rfl | he
    · exact ⟨T, rfl⟩
    · exact h e he

theorem Dpf.registerAll_keys (d : Dpf) (Ts : List Ty) (vt : ValueType) :
    vt ∈ (d.registerAll Ts).registry.map (·.1) ↔
      vt ∈ d.registry.map (·.1) ∨ ∃ T ∈ Ts, vt = T.helper.toValueType := by
  induction Ts generalizing d with
  | nil => simp [Dpf.registerAll]
  | cons T Ts ih =>
    have := ih (d.registerValueType T.helper)
    rw [show (d.registerAll (T :: Ts)) = (d.registerValueType T.helper).registerAll Ts from rfl, this]
    simp only [Dpf.registerValueType, registerType, List.map_cons, List.mem_cons,
      exists_eq_or_imp]
    constructor
    · rintro ((h | h) | h)
      · exact Or.inr (Or.inl h)
      · exact Or.inl h
      · exact Or.inr (Or.inr h)
    · rintro (h | h | h)
      · exact Or.inl (Or.inr h)
      · exact Or.inl (Or.inl h)
      · exact Or.inr h

theorem Dpf.registerAll_registered {fp : FpEnv} {params : List DpfParameters} {d : Dpf}
    (hd : Dpf.createIncremental fp params = ok d) {Ts : List Ty} {T : Ty} (hT : T ∈ Ts) :
    (d.registerAll Ts).Registered T :=
  ((createIncremental_registryOk hd).registerAll Ts).of_mem
    ((d.registerAll_keys Ts _).mpr (Or.inr ⟨T, hT, rfl⟩))

theorem Dpf.WF.registerAll {d : Dpf} (h : d.WF) (Ts : List Ty) : (d.registerAll Ts).WF := by
  obtain ⟨e1, e2⟩ := d.registerAll_pv Ts
  generalize d.registerAll Ts = d' at e1 e2
  obtain ⟨pv, bl, reg⟩ := d
  obtain ⟨pv', bl', reg'⟩ := d'
  simp only at e1 e2
  subst e1; subst e2
  exact ⟨h.pos, h.len_tree, h.len_blocks, h.log_eq, h.log_le, h.log_asc, h.tree_asc, h.tree_le,
    h.log_le_tree, h.needed, h.lookup⟩

theorem createIncremental_typedAt {fp : FpEnv} {params : List DpfParameters} {d : Dpf}
    (hd : Dpf.createIncremental fp params = ok d) {h : Nat} {p : DpfParameters} {T : Ty}
    (hp : params[h]? = some p) (ht : p.valueType = some T.helper.toValueType)
    (hflat : T.flat = true ∨ T.noMod = true) : d.TypedAt h T := by
  obtain ⟨hpv, _, _⟩ := createIncremental_spec hd
  obtain ⟨hv, hpp, inv⟩ := create_spec hpv
  refine ⟨?_, ?_, createIncremental_elems hd hp ht⟩
  · intro q hq
    rw [hpp, List.getElem?_map, hp] at hq
    simp only [Option.map_some, Option.some.injEq] at hq
    rw [← hq, DpfParameters.vt, withDefaultSecurity_vt, ht]; rfl
  · have hlt : h < d.blocksNeeded.length := by
      rw [createIncremental_blocks_length hd]
      exact (List.getElem?_eq_some_iff.mp hp).1
    have hk : d.blocksNeeded[h]? = some (d.blocksAt h) := by
      rw [Dpf.blocksAt, getD_eq_getElem _ _ _ hlt, List.getElem?_eq_getElem hlt]
    obtain ⟨bits, hbits, hkb⟩ := createIncremental_blocks hd hp hk
    have hvt : p.vt = T.helper.toValueType := by simp [DpfParameters.vt, ht]
    rw [hvt] at hbits
    exact T.fits_of_flat fp hflat hbits hkb

theorem Dpf.TypedAt.registerAll {d : Dpf} {h : Nat} {T : Ty} (ht : d.TypedAt h T) (Ts : List Ty) :
    (d.registerAll Ts).TypedAt h T := by
  obtain ⟨e1, e2⟩ := d.registerAll_pv Ts
  generalize d.registerAll Ts = d' at e1 e2
  obtain ⟨pv, bl, reg⟩ := d
  obtain ⟨pv', bl', reg'⟩ := d'
  simp only at e1 e2
  subst e1; subst e2
  exact ⟨ht.vt, ht.fits, ht.elems⟩

end Verif
