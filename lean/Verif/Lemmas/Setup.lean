import Verif.Lemmas.KeyGen
import Verif.Lemmas.Betas
/-! Facts about created DPFs in the terms of the specification. -/
namespace Verif
open Res Spec

theorem Spec.Created.wf {fp : FpEnv} {params : List DpfParameters} {d : Dpf}
    (h : Created fp params d) : d.WF := by
  obtain ⟨d0, Ts, h1, rfl⟩ := h
  exact (createIncremental_wf h1).registerAll Ts

theorem Spec.Created.params {fp : FpEnv} {params : List DpfParameters} {d : Dpf}
    (h : Created fp params d) : d.pv.parameters = params.map withDefaultSecurity := by
  obtain ⟨d0, Ts, h1, rfl⟩ := h
  rw [(d0.registerAll_pv Ts).1]
  obtain ⟨hpv, _, _⟩ := createIncremental_spec h1
  exact (create_spec hpv).2.1

theorem Spec.Created.n_eq {fp : FpEnv} {params : List DpfParameters} {d : Dpf}
    (h : Created fp params d) : d.n = params.length := by
  simp [Dpf.n, h.params]

theorem Spec.Created.logAt_eq {fp : FpEnv} {params : List DpfParameters} {d : Dpf}
    (h : Created fp params d) (i : Nat) : d.logAt i = logSize params i := by
  simp only [Dpf.logAt, logSize, h.params, List.getElem?_map]
  cases params[i]? with
  | none => rfl
  | some p => simp [withDefaultSecurity_log]

theorem Spec.Created.last_eq {fp : FpEnv} {params : List DpfParameters} {d : Dpf}
    (h : Created fp params d) : d.logAt (d.n - 1) = lastLogSize params := by
  rw [h.logAt_eq, h.n_eq]; rfl

theorem Spec.Created.validType {fp : FpEnv} {params : List DpfParameters} {d : Dpf}
    (h : Created fp params d) {i : Nat} {p : DpfParameters} (hp : d.pv.parameters[i]? = some p) :
    ValidType p.vt := by
  have hps := h.params
  obtain ⟨d0, Ts, h1, rfl⟩ := h
  obtain ⟨hpv, _, _⟩ := createIncremental_spec h1
  have hv := (create_spec hpv).1
  rw [hps, List.getElem?_map, Option.map_eq_some_iff] at hp
  obtain ⟨q, hq, rfl⟩ := hp
  obtain ⟨t, h2, h3⟩ := hv.types q (List.mem_of_getElem? hq)
  rw [DpfParameters.vt, withDefaultSecurity_vt, h2]; exact h3

theorem Spec.Created.registryOk {fp : FpEnv} {params : List DpfParameters} {d : Dpf}
    (h : Created fp params d) : d.RegistryOk := by
  obtain ⟨d0, Ts, h1, rfl⟩ := h
  exact (createIncremental_registryOk h1).registerAll Ts

theorem Spec.Setup.toCreated {fp : FpEnv} {params : List DpfParameters} {T : Nat → Ty} {d : Dpf}
    (s : Setup fp params T d) : Created fp params d := by
  obtain ⟨d0, Ts, h1, h2, _⟩ := s.created
  exact ⟨d0, Ts, h1, h2⟩

theorem Spec.Setup.wf {fp : FpEnv} {params : List DpfParameters} {T : Nat → Ty} {d : Dpf}
    (s : Setup fp params T d) : d.WF := s.toCreated.wf

theorem Dpf.elems_of_created {fp : FpEnv} {params : List DpfParameters} {d : Dpf}
    (hc : Created fp params d) {h : Nat} {p : DpfParameters} {T : Ty}
    (hp : params[h]? = some p) (ht : p.valueType = some T.helper.toValueType) :
    2 ^ (d.logAt h - d.treeAt h) ≤ T.helper.elementsPerBlock := by
  obtain ⟨d0, Ts, h1, rfl⟩ := hc
  have := createIncremental_elems h1 hp ht
  unfold Dpf.logAt Dpf.treeAt at this ⊢
  rw [(d0.registerAll_pv Ts).1]
  exact this

theorem Spec.Created.typedAt {fp : FpEnv} {params : List DpfParameters} {T : Nat → Ty} {d : Dpf}
    (hc : Created fp params d)
    (types : ∀ h p, params[h]? = some p → p.valueType = some (T h).helper.toValueType)
    (bytes : ∀ h k, d.blocksNeeded[h]? = some k → (T h).bytesRead ≤ 16 * k)
    {h : Nat} (hh : h < d.n) : d.TypedAt h (T h) := by
  rw [hc.n_eq] at hh
  have hp := List.getElem?_eq_getElem hh
  have ht := types h _ hp
  refine ⟨?_, ?_, Dpf.elems_of_created hc hp ht⟩
  · intro q hq
    rw [hc.params, List.getElem?_map, hp] at hq
    simp only [Option.map_some, Option.some.injEq] at hq
    rw [← hq, DpfParameters.vt, withDefaultSecurity_vt, ht]; rfl
  · have hl : h < d.blocksNeeded.length := by rw [hc.wf.len_blocks, hc.n_eq]; exact hh
    refine bytes h _ ?_
    rw [Dpf.blocksAt, getD_eq_getElem _ _ _ hl, List.getElem?_eq_getElem hl]

theorem Spec.Setup.typedAt {fp : FpEnv} {params : List DpfParameters} {T : Nat → Ty} {d : Dpf}
    (s : Setup fp params T d) {h : Nat} (hh : h < d.n) : d.TypedAt h (T h) :=
  s.toCreated.typedAt s.types s.bytes hh

theorem Spec.SetupTypes.toCreated {fp : FpEnv} {params : List DpfParameters} {T : Nat → Ty} {d : Dpf}
    (s : SetupTypes fp params T d) : Created fp params d := by
  obtain ⟨d0, Ts, h1, h2, _⟩ := s.created
  exact ⟨d0, Ts, h1, h2⟩

theorem Spec.Setup.toTypes {fp : FpEnv} {params : List DpfParameters} {T : Nat → Ty} {d : Dpf}
    (s : Setup fp params T d) : SetupTypes fp params T d := ⟨s.created, s.types⟩

theorem Spec.SetupTypes.registered {fp : FpEnv} {params : List DpfParameters} {T : Nat → Ty} {d : Dpf}
    (s : SetupTypes fp params T d) {h : Nat} (hh : h < d.n) : d.Registered (T h) := by
  have hc := s.toCreated
  rw [hc.n_eq] at hh
  obtain ⟨d0, Ts, h1, h2, h3⟩ := s.created
  refine hc.registryOk.of_mem ?_
  rw [h2, Dpf.registerAll_keys]
  rcases h3 h hh with hm | ⟨w, hw⟩
  · exact Or.inr ⟨_, hm, rfl⟩
  · left
    obtain ⟨_, _, hr⟩ := createIncremental_spec h1
    rw [hr, hw]
    cases w <;> simp [Ty.helper, uintHelper, Width.bits]

theorem Spec.Setup.registered {fp : FpEnv} {params : List DpfParameters} {T : Nat → Ty} {d : Dpf}
    (s : Setup fp params T d) {h : Nat} (hh : h < d.n) : d.Registered (T h) := s.toTypes.registered hh

theorem Spec.Setup.betasOk {fp : FpEnv} {params : List DpfParameters} {T : Nat → Ty} {d : Dpf}
    (s : Setup fp params T d) {beta : List Value} {b : (h : Nat) → (T h).den}
    (hb : BetasRepresent params T beta b) : Dpf.BetasOk d T beta b where
  typed _ hh := s.typedAt hh
  reg _ hh := s.registered hh
  len := by rw [hb.1, s.toCreated.n_eq]
  dec h v hv := (T h).fromValue_of_represents v (b h) (hb.2 h v hv)
  val h v hv := (T h).validateValue_of_represents v (b h) (hb.2 h v hv)

/-- The condition on reserved bytes holds for all types allowed by C26. -/
theorem Spec.Setup.of_flat {fp : FpEnv} {params : List DpfParameters} {T : Nat → Ty} {d0 : Dpf}
    {Ts : List Ty} (h0 : Dpf.createIncremental fp params = ok d0)
    (types : ∀ h p, params[h]? = some p → p.valueType = some (T h).helper.toValueType)
    (reg : ∀ h, h < params.length → T h ∈ Ts ∨ ∃ w, T h = .uint w)
    (flat : ∀ h, h < params.length → (T h).flat = true ∨ (T h).noMod = true) :
    Setup fp params T (d0.registerAll Ts) := by
  refine ⟨⟨d0, Ts, h0, rfl, reg⟩, types, ?_⟩
  intro h k hk
  rw [(d0.registerAll_pv Ts).2] at hk
  have hl : h < params.length := by
    rw [← createIncremental_blocks_length h0]
    exact (List.getElem?_eq_some_iff.mp hk).1
  have hp := List.getElem?_eq_getElem hl
  have := (createIncremental_typedAt h0 hp (types h _ hp) (flat h hl)).fits
  rwa [Dpf.blocksAt, List.getD, hk, Option.getD_some] at this

theorem almostEqual_self (q : Rat) : almostEqual (.val q) (.val q) = true := by
  simp only [almostEqual, Rat.sub_self, decide_eq_true_eq]
  decide +kernel

theorem Spec.Setup.parametersAreEqual_self {fp : FpEnv} {params : List DpfParameters} {T : Nat → Ty}
    {d : Dpf} (s : Setup fp params T d) {p : DpfParameters} (hp : p ∈ d.pv.parameters) :
    parametersAreEqual p p = ok true := by
  have hc := s.toCreated
  have hv : ValidParams params := by
    obtain ⟨d0, Ts, h1, _⟩ := s.created
    obtain ⟨hpv, _, _⟩ := createIncremental_spec h1
    exact (create_spec hpv).1
  obtain ⟨h, hh, rfl⟩ := List.getElem_of_mem hp
  have hvt := (s.typedAt (h := h) hh).vt _ (List.getElem?_eq_getElem hh)
  have hsec : ∃ q, d.pv.parameters[h].securityParameter = .val q := by
    have hmem : d.pv.parameters[h] ∈ params.map withDefaultSecurity := by rw [← hc.params]; simp
    obtain ⟨p, hp, e⟩ := List.mem_map.mp hmem
    rw [← e]
    obtain ⟨q, hq, _⟩ := hv.security p hp
    unfold withDefaultSecurity
    split
    · exact ⟨_, rfl⟩
    · exact ⟨q, hq⟩
  obtain ⟨q, hq⟩ := hsec
  unfold parametersAreEqual
  rw [if_neg (by simp), hq, almostEqual_self, hvt]
  simp only [Bool.true_or, Bool.not_true]
  exact Ty.valueTypesAreEqual_self _

/-- A context with the DPF's own parameters and a valid key passes validation, if its levels are in
range. -/
theorem Spec.Setup.validateEvaluationContext_ok {fp : FpEnv} {params : List DpfParameters}
    {T : Nat → Ty} {d : Dpf} (s : Setup fp params T d) {ctx : EvaluationContext} {key : DpfKey}
    (hp : ctx.parameters = d.pv.parameters) (hk : ctx.key = some key) (hko : d.KeyOk key)
    (hprev : ctx.previousHierarchyLevel < (d.n : Int) - 1)
    (hpe : ctx.partialEvaluations = [] ∨
      ctx.partialEvaluationsLevel ≤ ctx.previousHierarchyLevel) :
    d.pv.validateEvaluationContext ctx = ok () := by
  unfold ProtoValidator.validateEvaluationContext
  rw [failIf_false (by rw [hp]; simp), bind_ok]
  have hm : ∃ us, mapRes (fun (pq : DpfParameters × DpfParameters) =>
      parametersAreEqual pq.1 pq.2 >>= fun eq => failIf (eq = false) .invalidArgument)
      (d.pv.parameters.zip ctx.parameters) = ok us := by
    rw [mapRes_unit_eq_ok]
    rintro ⟨a, b⟩ hab
    rw [hp] at hab
    obtain ⟨i, hi, e⟩ := List.getElem_of_mem hab
    simp only [List.getElem_zip, Prod.mk.injEq] at e
    obtain ⟨rfl, rfl⟩ := e
    dsimp only
    rw [s.parametersAreEqual_self (by simp), bind_ok, failIf_false (by decide)]
  obtain ⟨us, hus⟩ := hm
  rw [hus, bind_ok, failIf_false (by simp [hk]), bind_ok]
  have : ctx.keyD = key := by simp [EvaluationContext.keyD, hk]
  rw [this, (s.wf.validateDpfKey_iff key).mpr hko, bind_ok, failIf_false (by
    rw [hp]; unfold Dpf.n at hprev; omega), bind_ok, failIf_false (by
    rintro ⟨h1, h2⟩
    rcases hpe with h | h
    · exact h1 h
    · omega)]

end Verif
