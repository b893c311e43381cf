import Verif.Spec.PirMessages
import Verif.Lemmas.DensePir
import Verif.Props.Textbook
/-!
# The keys in requests
-/
namespace Verif
open Res Spec

theorem keysFor_shape {fp : FpEnv} {l : Nat} (hl : l < 63) {d : Dpf}
    (h : Dpf.create fp (pirParams l) = ok d) (env : Env) {m : Nat} (hm : m / 128 < 2 ^ l)
    (seeds : U128 × U128) {k0 k1 : DpfKey} (hk : DenseClient.keysFor d env (m : Int) seeds = ok (k0, k1)) :
    PirKey k0 ∧ PirKey k1 := by
  have hs := pirDpf_setup h
  have hp63 : 2 ^ l < 2 ^ 63 := Nat.pow_lt_pow_right (by decide) hl
  have halpha : (BitVec.ofInt 128 ((m : Int).tdiv 128)).toNat = m / 128 := by
    rw [show ((m : Int).tdiv 128) = ((m / 128 : Nat) : Int) from rfl, BitVec.ofInt_natCast,
      BitVec.toNat_ofNat, Nat.mod_eq_of_lt (by omega)]
  have hshl : shl128 1 ((m : Int).tmod 128) = ok ((1 : U128) <<< (m % 128)) := by
    rw [show ((m : Int).tmod 128) = ((m % 128 : Nat) : Int) from rfl]
    exact shl128_ok (by omega)
  have hb : BetasRepresent [pirParams l] (fun _ => pirTy)
      [pirTy.helper.toValue ((1 : U128) <<< (m % 128))] (fun _ => (1 : U128) <<< (m % 128)) := by
    refine ⟨rfl, ?_⟩
    intro h v hv
    match h, hv with
    | 0, hv =>
      simp at hv
      rw [← hv]
      exact C20_encoded_represents pirTy _
  have ha' : (BitVec.ofInt 128 ((m : Int).tdiv 128)).toNat < 2 ^ lastLogSize [pirParams l] := by
    rw [halpha]; exact hm
  have hd := (C69_depth fp _ _ _ hs).1
  obtain ⟨k0', k1', hk', g⟩ := C69_generateKeys fp _ _ _ hs env _ hd _ ha' _ _ hb seeds.1 seeds.2
  unfold DenseClient.keysFor at hk
  dsimp only at hk
  rw [hshl, bind_ok, hk'] at hk
  cases hk
  have hdepth : treeDepth (d.registerValueType pirTy.helper) 0 ≤ 128 := by
    have h1 := (hd 0 (by simp)).2.2
    by_cases h2 : treeDepth (d.registerValueType pirTy.helper) 0 ≤ l
    · omega
    · have h3 := h1 l (by omega) (by omega)
      rw [show logSize [pirParams l] 0 = l from rfl, Nat.sub_self] at h3
      exact absurd h3 (by decide)
  have hw : k0.correctionWords.length = treeDepth (d.registerValueType pirTy.helper) 0 := g.words
  have hno : ∀ w ∈ k0.correctionWords, w.valueCorrection = [] := by
    intro w hw'
    obtain ⟨t, ht, rfl⟩ := List.mem_iff_getElem.mp hw'
    refine (g.word t _ (List.getElem?_eq_getElem ht)).2.2.2 ?_
    intro h hh
    have : h = 0 := by simp at hh; omega
    subst this
    omega
  have hlast : ∃ i, k0.lastLevelValueCorrection = [.xorWrapper i] := by
    obtain ⟨e1, e2⟩ := g.value 0 (by simp)
    rw [show corrections [pirParams l] (treeDepth (d.registerValueType pirTy.helper)) k0 0 =
      k0.lastLevelValueCorrection from rfl, show perBlock pirTy = 1 from by decide] at e1
    rw [show corrections [pirParams l] (treeDepth (d.registerValueType pirTy.helper)) k0 0 =
      k0.lastLevelValueCorrection from rfl] at e2
    match hv : k0.lastLevelValueCorrection, e1 with
    | [v], _ =>
      obtain ⟨_, _, _, _, i, rfl, _⟩ := e2 0 v (by rw [hv]; rfl)
      exact ⟨i, rfl⟩
  refine ⟨⟨by rw [g.key0.1]; simp, Or.inl g.key0.2, by omega, hno, hlast⟩,
    ⟨by rw [g.key1.1]; simp, Or.inr g.key1.2, by rw [← g.shared.1]; omega, by rw [← g.shared.1]; exact hno,
      by rw [← g.shared.2]; exact hlast⟩⟩

theorem keysAll_shape {fp : FpEnv} {l : Nat} (hl : l < 63) {d : Dpf}
    (h : Dpf.create fp (pirParams l) = ok d) (env : Env) (seeds : Nat → U128 × U128) {ms : List Nat}
    (hms : ∀ m ∈ ms, m / 128 < 2 ^ l) {keys : List (DpfKey × DpfKey)}
    (hk : mapRes (fun (q, i) => DenseClient.keysFor d env q (seeds i))
      (ms.map fun m : Nat => (m : Int)).zipIdx = ok keys) :
    keys.length = ms.length ∧ ∀ k ∈ keys, PirKey k.1 ∧ PirKey k.2 := by
  obtain ⟨e1, e2⟩ := mapRes_eq_ok.mp hk
  simp only [List.length_zipIdx, List.length_map] at e1
  refine ⟨e1, ?_⟩
  intro k hk'
  obtain ⟨i, hi, rfl⟩ := List.mem_iff_getElem.mp hk'
  have e3 := e2 i (by simpa using (by omega : i < ms.length)) hi
  simp only [List.getElem_zipIdx, List.getElem_map] at e3
  exact keysFor_shape hl h env (hms _ (List.getElem_mem _)) _ e3

theorem denseMessage {fp : FpEnv} {l : Nat} (hl : l < 63) {c : DenseClient}
    (h : Dpf.create fp (pirParams l) = ok c.dpf) (env : Env) {seeds : Nat → U128 × U128} {random : Nat → BitVec 8}
    {ms : List Nat} (hms : ∀ m ∈ ms, m / 128 < 2 ^ l) {r0 r1 : PlainRequest} {seed : Bytes} {state : ClientState}
    (hr : c.createPlainRequests env (ms.map fun m : Nat => (m : Int)) seeds random =
      ok (r0, ⟨some r1, seed⟩, state)) :
    HelperMessage ms.length ⟨some r1, seed⟩ := by
  unfold DenseClient.createPlainRequests at hr
  obtain ⟨_, _, hr⟩ := bind_eq_ok.mp hr
  obtain ⟨keys, hk, hr⟩ := bind_eq_ok.mp hr
  obtain ⟨e1, e2⟩ := keysAll_shape hl h env seeds hms hk
  simp only [ok.injEq, Prod.mk.injEq, HelperRequest.mk.injEq] at hr
  obtain ⟨_, ⟨e3, e4⟩, _⟩ := hr
  refine ⟨by rw [← e4]; simp [Prng.generateSeed, Prng.seedSize], r1, rfl, ?_⟩
  split at e3
  · cases e3
  · cases e3
    refine ⟨by simpa using e1, ?_⟩
    intro k hk'
    obtain ⟨p, hp, rfl⟩ := List.mem_map.mp hk'
    exact (e2 p hp).2

end Verif
