import Verif.Spec.PirWork
import Verif.Spec.ServerSafety
import Verif.Lemmas.Work
import Verif.Lemmas.PirFaults
import Verif.Lemmas.ServerSafety
import Verif.Lemmas.Hiding
/-! # Calls of the cipher and of the allocator in PIR and gates -/
namespace Verif
open Res Spec Faulty

theorem Costs.map {α β : Type} {f : α → Faulty β} {g : α → Res β} {c : Nat} (h : ∀ a, Costs (f a) (g a) c) :
    ∀ l : List α, Costs (Faulty.map f l) (mapRes g l) (l.length * c)
  | [] => (Costs.lift (ok [])).cast (by simp)
  | a :: l => by
    rw [mapRes_cons]
    exact Costs.cast (.bind (h a) fun _ _ => .bind (Costs.map h l) fun _ _ => .lift _)
      (by rw [List.length_cons, Nat.succ_mul]; omega)

theorem Costs.skip {α β : Type} {m : Faulty α} {a : α} {n n' : Nat} (h : Costs m (ok a) n) {f : α → Faulty β} {x : Res β}
    (hf : Costs (f a) x n') : Costs (m >>= f) x (n + n') :=
  Costs.bind (x := ok a) (g := fun _ => x) h fun b hb => by cases hb; exact hf

/-! ### The DPF of PIR -/

theorem pirDpf_blocks {fp : FpEnv} {c : CeilLog2} {n : Int} {d : Dpf} (h : Dpf.create fp (pirParameters c n) = ok d) :
    d.blocksAt 0 = 1 := by
  obtain ⟨_, h1, _⟩ := createIncremental_spec (show Dpf.createIncremental fp [pirParameters c n] = ok d from h)
  have e : d.blocksNeeded = [1] := (ok.inj (show ok [1] = ok d.blocksNeeded from h1)).symm
  unfold Dpf.blocksAt
  rw [e]; rfl

theorem pirDpf_wf {fp : FpEnv} {c : CeilLog2} {n : Int} {d : Dpf} (h : Dpf.create fp (pirParameters c n) = ok d) :
    d.WF := createIncremental_wf (show Dpf.createIncremental fp [pirParameters c n] = ok d from h)

theorem pirDpf_tree {fp : FpEnv} {c : CeilLog2} {n : Int} {d : Dpf} (h : Dpf.create fp (pirParameters c n) = ok d) :
    d.treeAt 0 = (c n).toNat := by
  have hs := pirSetup h
  have hd := hs.isDepth
  obtain ⟨_, h1, h2⟩ := hd 0 (by simp)
  have e : perBlock pirTy = 1 := by decide
  have el : logSize [pirParameters c n] 0 = (c n).toNat := rfl
  have e2 : (d.registerValueType pirTy.helper).treeAt 0 = d.treeAt 0 := rfl
  rw [e2, e, el] at h1
  rw [e2] at h2
  have := hs.wf.tree_le 0
  rw [e2, hs.toCreated.logAt_eq, el] at this
  by_cases h3 : d.treeAt 0 < (c n).toNat
  · have : 2 ^ 1 ≤ 2 ^ ((c n).toNat - d.treeAt 0) := Nat.pow_le_pow_right (by decide) (by omega)
    omega
  · omega

/-! ### Servers -/

theorem innerProductHwy_costs {env : SimdEnv} {vectors : Bool} (hv : vectors = true ↔ Vectorised env)
    (values : List Bytes) (selections : List (List U128)) (m : Nat) :
    Costs (innerProductHwyF env values selections m) (innerProductHwy env values selections m)
      (if vectors then selections.length else 0) := by
  unfold innerProductHwyF innerProductHwy
  have hv' : ¬ (env.scalar = true ∨ env.lanes < 16 ∨ env.lanes % 16 ≠ 0) ↔ vectors = true := by
    rw [hv]; unfold Vectorised
    cases env.scalar <;> simp <;> omega
  refine .ite (fun hn => ?_) fun hp => ?_
  · have : vectors = false := by
      cases vectors with
      | false => rfl
      | true => exact absurd hn (hv'.mpr rfl)
    rw [this]
    exact .lift _
  · rw [if_pos (hv'.mp hp)]
    refine (Costs.skip (a := List.replicate selections.length (List.replicate m 0)) (n := selections.length * 1) (n' := 0)
      ?_ (.liftThen fun _ _ => .lift _)).cast (by omega)
    rw [← mapRes_constant]
    exact Costs.map (g := fun _ => ok (List.replicate m 0)) (c := 1) (fun _ => .callThen (n := 0) (.lift _)) _

theorem DenseDb.innerProductWith_costs {simd : SimdEnv} {vectors : Bool} (hv : vectors = true ↔ Vectorised simd)
    (db : DenseDb) (selections : List (List U128)) :
    Costs (innerProductWithF simd db selections) (innerProductWith simd db selections)
      (if vectors then selections.length else 0) := by
  unfold innerProductWithF innerProductWith
  refine .liftThen fun values _ => ?_
  cases selections with
  | nil => exact (Costs.lift _).cast (by simp)
  | cons first rest =>
    unfold innerProductF innerProduct
    exact .liftThen fun _ _ => .liftThen fun _ _ => innerProductHwy_costs hv _ _ _

theorem CuckooDb.innerProductWith_costs {simd : SimdEnv} {vectors : Bool} (hv : vectors = true ↔ Vectorised simd)
    (db : CuckooDb) (selections : List (List U128)) :
    Costs (innerProductWithF simd db selections) (innerProductWith simd db selections)
      (if vectors then 2 * selections.length else 0) := by
  unfold innerProductWithF innerProductWith
  exact Costs.cast (.bind (DenseDb.innerProductWith_costs hv _ _) fun _ _ =>
    .bind (n' := 0) (DenseDb.innerProductWith_costs hv _ _) fun _ _ => .liftThen fun _ _ => .lift _)
    (by cases vectors <;> simp; omega)

theorem selection_costs {dpf : Dpf} (wf : dpf.WF) (env : Env) (key : DpfKey) :
    Costs (DenseServer.selectionF dpf env key) (DenseServer.selection dpf env key)
      (domainCalls (dpf.treeAt 0) (dpf.blocksAt 0)) := by
  unfold DenseServer.selectionF DenseServer.selection
  refine .liftThen fun ctx _ => ?_
  intro a ha more
  dsimp only
  unfold Dpf.evaluateNextF
  unfold Dpf.evaluateNext at ha
  rw [if_pos rfl] at ha ⊢
  have h := wf.evaluateUntil_costs env pirTy.helper 0 ctx a _ (Prod.ext ha rfl) more
  rw [show (0 : Int).toNat = 0 from rfl] at h
  rw [h]
  rfl

section Servers
variable {dpf : Dpf} (wf : dpf.WF) {l : Nat} (ht : dpf.treeAt 0 = l) (hb : dpf.blocksAt 0 = 1) {simd : SimdEnv}
  {vectors : Bool} (hv : vectors = true ↔ Vectorised simd) (env : Env)
include wf ht hb

theorem selections_costs (keys : List DpfKey) :
    Costs (Faulty.map (DenseServer.selectionF dpf env) keys) (mapRes (DenseServer.selection dpf env) keys)
      (keys.length * domainCalls l 1) := by
  refine Costs.map (fun k => ?_) keys
  rw [← ht, ← hb]
  exact selection_costs wf env k

include hv

theorem densePlain_costs (db : DenseDb) (role : Role) (r : PlainRequest) :
    Costs (DenseServer.handlePlainRequestF env simd ⟨dpf, db, role⟩ (some (.plain r)))
      (DenseServer.handlePlainRequest env simd ⟨dpf, db, role⟩ (some (.plain r)))
      (answerCalls vectors 1 l r.dpfKeys.length) := by
  unfold DenseServer.handlePlainRequestF DenseServer.handlePlainRequest
  refine Costs.cast (.liftThen fun _ _ => .bind (selections_costs wf ht hb env _) fun sel hsel =>
    .bind (n' := 0) ((DenseDb.innerProductWith_costs hv db sel).cast (n' := if vectors then r.dpfKeys.length else 0)
      (by rw [mapRes_length hsel])) fun _ _ => .lift _) (by unfold answerCalls; simp)

theorem cuckooPlain_costs (params : PublicParams) (db : CuckooDb) (f : Int) (role : Role) (r : PlainRequest) :
    Costs (CuckooServer.handlePlainRequestF env simd ⟨params, dpf, db, f, role⟩ (some (.plain r)))
      (CuckooServer.handlePlainRequest env simd ⟨params, dpf, db, f, role⟩ (some (.plain r)))
      (answerCalls vectors 2 l r.dpfKeys.length) := by
  unfold CuckooServer.handlePlainRequestF CuckooServer.handlePlainRequest
  refine Costs.cast (.liftThen fun _ _ => .liftThen fun _ _ => .bind (selections_costs wf ht hb env _) fun sel hsel =>
    .bind (n' := 0) ((CuckooDb.innerProductWith_costs hv db sel).cast (n' := if vectors then 2 * r.dpfKeys.length else 0)
      (by rw [mapRes_length hsel])) fun _ _ => .lift _) (by unfold answerCalls; simp)

theorem simplePlain_costs (params : PublicParams) (db : SimpleDb) (f : Int) (role : Role) (r : PlainRequest) :
    Costs (SimpleServer.handlePlainRequestF env simd ⟨params, dpf, db, f, role⟩ (some (.plain r)))
      (SimpleServer.handlePlainRequest env simd ⟨params, dpf, db, f, role⟩ (some (.plain r)))
      (answerCalls vectors 1 l r.dpfKeys.length) := by
  unfold SimpleServer.handlePlainRequestF SimpleServer.handlePlainRequest
  refine Costs.cast (.liftThen fun _ _ => .liftThen fun _ _ => .bind (selections_costs wf ht hb env _) fun sel hsel =>
    .bind (n' := 0) ((DenseDb.innerProductWith_costs hv db.dense sel).cast (n' := if vectors then r.dpfKeys.length else 0)
      (by rw [mapRes_length hsel])) fun _ _ => .lift _) (by unfold answerCalls; simp)

end Servers

theorem Prng.create_costs (seed : Bytes) : Costs (Prng.createF seed) (Prng.create seed) 1 := by
  unfold Prng.createF Prng.create Prng.createWithNonce
  exact .liftThen fun _ _ => .liftThen fun _ _ => .callThen (n := 0) (.lift _)

/-- The three roles, given the calls for the keys. -/
theorem role_calls (codec : HelperCodec) (aes : AesBlock) {hpF : PirRequest → Faulty PirResponse}
    {hp : PirRequest → Res PirResponse} {answer : Nat → Nat}
    (h : ∀ r : PlainRequest, Costs (hpF (some (.plain r))) (hp (some (.plain r))) (answer r.dpfKeys.length))
    (hno : ∀ req resp, hp req = ok resp → ∃ r, req = some (.plain r) ∧ r.dpfKeys ≠ [])
    (role : Role) (request : PirRequest) (response : PirResponse)
    (hr : PirServer.handleRequest codec aes hp role request = ok response) :
    ∃ n, CallsInRole codec role request answer n ∧
      MakesCalls (PirServer.handleRequestF codec aes hpF role request) n response := by
  cases role with
  | plain =>
    obtain ⟨r, rfl, _⟩ := hno _ _ hr
    exact ⟨_, ⟨r, rfl, rfl⟩, h r response hr⟩
  | leader sender =>
    change PirServer.handleLeaderRequest hp sender request = ok response at hr
    change ∃ n, _ ∧ MakesCalls (PirServer.handleLeaderRequestF hpF sender request) n response
    obtain ⟨p, c, rfl⟩ : ∃ p c, request = some (.leader p c) := by
      cases request with
      | none => exact nomatch hr
      | some request => cases request with
        | leader p c => exact ⟨p, c, rfl⟩
        | notSet => exact nomatch hr
        | plain _ => exact nomatch hr
        | encrypted _ => exact nomatch hr
    cases p with
    | none => exact nomatch hr
    | some r =>
      cases c with
      | none => exact nomatch hr
      | some c =>
        refine ⟨_, ⟨r, c, rfl, rfl⟩, ?_⟩
        intro more
        unfold PirServer.handleLeaderRequest at hr
        unfold PirServer.handleLeaderRequestF
        dsimp only [PirRequest.dpf, Option.getD_some] at hr ⊢
        cases hsent : (sender (some (.encrypted c))).1 with
        | false =>
          rw [hsent] at hr
          cases hs2 : (sender (some (.encrypted c))).2 with
          | ok x => rw [hs2] at hr; exact nomatch hr
          | err x => rw [hs2] at hr; exact nomatch hr
          | ub => rw [hs2] at hr; exact nomatch hr
          | crash => rw [hs2] at hr; exact nomatch hr
        | true =>
          rw [hsent] at hr
          cases hl : hp (some (.plain r)) with
          | ok x =>
            rw [hl] at hr
            dsimp only
            rw [h r x hl more]
            dsimp only
            refine Prod.ext ?_ rfl
            dsimp only at hr ⊢
            exact hr
          | err x =>
            rw [hl] at hr
            cases hs2 : (sender (some (.encrypted c))).2 with
            | ok x => rw [hs2] at hr; exact nomatch hr
            | err x => rw [hs2] at hr; exact nomatch hr
            | ub => rw [hs2] at hr; exact nomatch hr
            | crash => rw [hs2] at hr; exact nomatch hr
          | ub => rw [hl] at hr; exact nomatch hr
          | crash => rw [hl] at hr; exact nomatch hr
  | helper decrypter info =>
    change PirServer.handleHelperRequest codec aes hp decrypter info request = ok response at hr
    change ∃ n, _ ∧ MakesCalls (PirServer.handleHelperRequestF codec aes hpF decrypter info request) n response
    obtain ⟨c, rfl⟩ : ∃ c, request = some (.encrypted c) := by
      cases request with
      | none => exact nomatch hr
      | some request => cases request with
        | encrypted c => exact ⟨c, rfl⟩
        | notSet => exact nomatch hr
        | plain _ => exact nomatch hr
        | leader _ _ => exact nomatch hr
    unfold PirServer.handleHelperRequest at hr
    unfold PirServer.handleHelperRequestF
    dsimp only [PirRequest.dpf, Option.getD_some] at hr ⊢
    obtain ⟨b, hb, hr⟩ := bind_eq_ok.mp hr
    cases hm : codec.parse b with
    | none => rw [hm] at hr; exact nomatch hr
    | some m =>
      rw [hm] at hr
      dsimp only at hr
      obtain ⟨x, hx, _⟩ := bind_eq_ok.mp hr
      obtain ⟨r, e, hne⟩ := hno _ _ hx
      have hp' : m.plainRequest = some (m.plainRequest.getD PlainRequest.default) := by
        cases hm' : m.plainRequest with
        | some r => rfl
        | none =>
          rw [hm'] at e
          cases e
          exact absurd rfl hne
      refine ⟨_, ⟨c, b, m, _, rfl, hb, hm, hp', rfl⟩, ?_⟩
      rw [hb]
      refine Costs.liftThen (x := ok b) (n := answer _ + 1) (g := fun _ => (do
        let response ← hp (some (.plain (m.plainRequest.getD PlainRequest.default)))
        let prng ← Prng.create m.oneTimePadSeed
        let masked ← PirServer.maskAll aes prng response.masked
        ok (if masked = [] then response else some masked) : Res PirResponse)) ?_ response (by rw [bind_ok]; exact hr)
      intro b' hb'
      cases hb'
      rw [hm]
      dsimp only
      exact .bind (n' := 1) (h _) fun _ _ => .bind (n' := 0) (Prng.create_costs _) fun _ _ =>
        .liftThen fun _ _ => .lift _

/-! ### Clients -/

theorem keysFor_costs {fp : FpEnv} {c : CeilLog2} {n : Int} {d : Dpf} (h : Dpf.create fp (pirParameters c n) = ok d)
    (env : Env) (q : Int) (seeds : U128 × U128) :
    Costs (DenseClient.keysForF d env q seeds) (DenseClient.keysFor d env q seeds) (2 * (c n).toNat + 1) := by
  have hs := pirSetup h
  unfold DenseClient.keysForF DenseClient.keysFor
  refine .liftThen fun _ _ => (hs.wf.generateKeys_costs _ _ _ _ _).cast ?_
  rw [hs.toCreated.n_eq]
  show keyGenCalls (d.treeAt 0) 1 d.blocksAt = _
  rw [pirDpf_tree h]
  unfold keyGenCalls
  simp [pirDpf_blocks h, batches]

theorem denseRequests_costs {fp : FpEnv} {cl : CeilLog2} {n : Int} {c : DenseClient}
    (h : Dpf.create fp (pirParameters cl n) = ok c.dpf) (env : Env) (queries : List Int) (seeds : Nat → U128 × U128)
    (random : Nat → BitVec 8) :
    Costs (c.createPlainRequestsF env queries seeds random) (c.createPlainRequests env queries seeds random)
      (requestCalls queries.length (cl n).toNat) := by
  unfold DenseClient.createPlainRequestsF DenseClient.createPlainRequests
  refine Costs.cast (.liftThen fun _ _ => .bind (n' := 0) (Costs.map (c := 2 * (cl n).toNat + 1) (fun p => ?_) _) fun _ _ =>
    .lift _) (by unfold requestCalls; simp)
  exact keysFor_costs h env _ _

theorem createRequest_costs (codec : HelperCodec) (encrypter : CryptFn) (info : Bytes)
    {m : Faulty (PlainRequest × HelperRequest × ClientState)} {x : Res (PlainRequest × HelperRequest × ClientState)}
    {n : Nat} (h : Costs m x n) :
    Costs (PirClient.createRequestF codec encrypter info m) (PirClient.createRequest codec encrypter info x) n := by
  unfold PirClient.createRequestF PirClient.createRequest
  exact .bind (n' := 0) h fun _ _ => .liftThen fun _ _ => .lift _

theorem denseResponse_costs (aes : AesBlock) (response : PirResponse) (state : ClientState) :
    Costs (DenseClient.handleResponseF aes response state) (DenseClient.handleResponse aes response state) 1 := by
  unfold DenseClient.handleResponseF DenseClient.handleResponse
  cases response with
  | none => exact fun _ h => nomatch h
  | some masked =>
    cases state with
    | dense seed =>
      exact .liftThen fun _ _ => .liftThen fun _ _ => .bind (n' := 0) (Prng.create_costs _) fun _ _ => .lift _
    | _ => exact fun _ h => nomatch h

end Verif
