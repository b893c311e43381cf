import Verif.Lemmas.PirFaultsRun
import Verif.Props.Faults
import Verif.Props.SparsePir
/-!
# C91 for creation and gates; C92: PIR on machines on which calls fail
-/
namespace Verif
open Res Spec

/-! ## C91: creation and keys of gates -/

/-- C91: creating DPFs, comparison functions and gates. -/
theorem C91_create (fp : FpEnv) (fs : Faults) :
    (∀ params : List DpfParameters,
      Reported fs (Dpf.createIncrementalF fp params fs).2 (Dpf.createIncremental fp params)
        (Dpf.createIncrementalF fp params fs).1) ∧
    (∀ p : DpfParameters, Reported fs (Dpf.createF fp p fs).2 (Dpf.create fp p) (Dpf.createF fp p fs).1) ∧
    (∀ p : DpfParameters, Reported fs (Dcf.createF fp p fs).2 (Dcf.create fp p) (Dcf.createF fp p fs).1) ∧
    (∀ params : MicParameters,
      Reported fs (Mic.createF fp params fs).2 (Mic.create fp params) (Mic.createF fp params fs).1) :=
  ⟨fun p => Dpf.createIncremental_follows fp p fs, fun p => Dpf.create_follows fp p fs,
    fun p => Dcf.create_follows fp p fs, fun p => Mic.create_follows fp p fs⟩

/-- C91: creation makes six calls, and fails if any of them does. -/
theorem C91_create_calls (fp : FpEnv) (params : List DpfParameters) (d : Dpf)
    (h : Dpf.createIncremental fp params = ok d) (fs : Faults) :
    (Dpf.createIncrementalF fp params fs).1 = (if true ∈ fs.take 6 then err .internal else ok d) := by
  unfold Dpf.createIncremental at h
  obtain ⟨pv, h1, h⟩ := bind_eq_ok.mp h
  obtain ⟨bl, h2, h⟩ := bind_eq_ok.mp h
  have key : Dpf.createIncrementalF fp params fs = Faulty.bind (Aes128FixedKeyHash.createF kPrgKeyLeft) (fun _ =>
      Faulty.bind (Aes128FixedKeyHash.createF kPrgKeyRight) fun _ =>
      Faulty.bind (Aes128FixedKeyHash.createF kPrgKeyValue) fun _ => Faulty.lift (ok d)) fs := by
    show Faulty.bind _ _ fs = _
    unfold Faulty.bind
    rw [h1]
    show Faulty.bind _ _ fs = _
    unfold Faulty.bind
    rw [h2]
    cases h
    rfl
  rw [key]
  match fs with
  | [] => rfl
  | true :: _ => rfl
  | [false] => rfl
  | false :: true :: _ => rfl
  | [false, false] => rfl
  | false :: false :: true :: _ => rfl
  | [false, false, false] => rfl
  | false :: false :: false :: true :: _ => rfl
  | [false, false, false, false] => rfl
  | false :: false :: false :: false :: true :: _ => rfl
  | [false, false, false, false, false] => rfl
  | false :: false :: false :: false :: false :: true :: _ => rfl
  | false :: false :: false :: false :: false :: false :: _ => rfl

/-- C91: `GenerateKeys<T>` of comparison functions and `Gen` of gates. Whatever happens, the comparison function is
afterwards the one with the type registered, and the gate is as before or as after a successful call. -/
theorem C91_gen (env : Env) (fs : Faults) :
    (∀ (c : Dcf) (S : Ty) (alpha : U128) (beta : S.den) (seed0 seed1 : U128),
      ReportedOn fs (c.generateKeysForF env S.helper alpha beta seed0 seed1 fs).2
        (c.generateKeysFor env S.helper alpha beta seed0 seed1)
        (c.generateKeysForF env S.helper alpha beta seed0 seed1 fs).1 ∧
      (c.generateKeysForF env S.helper alpha beta seed0 seed1 fs).1.2 = c.register S.helper) ∧
    ∀ (g : Mic) (rIn : U128) (rOut : List U128) (seed0 seed1 : U128) (rand : Nat → U128),
      ReportedOn fs (g.genF env rIn rOut seed0 seed1 rand fs).2 (g.gen env rIn rOut seed0 seed1 rand)
        (g.genF env rIn rOut seed0 seed1 rand fs).1 ∧
      ((g.genF env rIn rOut seed0 seed1 rand fs).1.2 = g ∨
        (g.genF env rIn rOut seed0 seed1 rand fs).1.2 = { g with dcf := g.dcf.register (uintHelper 128) }) := by
  refine ⟨fun c S alpha beta seed0 seed1 => ?_, fun g rIn rOut seed0 seed1 rand => ?_⟩
  · have h := Dcf.generateKeysFor_follows c env S.helper alpha beta seed0 seed1
    exact ⟨h.reportedOn fs, (h.object fs).elim id id⟩
  · have h := Mic.gen_follows g env rIn rOut seed0 seed1 rand
    refine ⟨h.reportedOn fs, ?_⟩
    rcases h.object fs with h | h
    · rw [h]
      exact Mic.gen_gate g env rIn rOut seed0 seed1 rand
    · exact h

/-! ## C92: servers and clients -/

/-- C92: creating dense servers and clients. -/
theorem C92_dense_create (fp : FpEnv) (ceilLog2 : CeilLog2) (config : PirConfig) (db : Option DenseDb) (fs : Faults) :
    Reported fs (DenseServer.createPlainF fp ceilLog2 config db fs).2 (DenseServer.createPlain fp ceilLog2 config db)
      (DenseServer.createPlainF fp ceilLog2 config db fs).1 ∧
    (∀ sender, Reported fs (DenseServer.createLeaderF fp ceilLog2 config db sender fs).2
      (DenseServer.createLeader fp ceilLog2 config db sender)
      (DenseServer.createLeaderF fp ceilLog2 config db sender fs).1) ∧
    (∀ decrypter, Reported fs (DenseServer.createHelperF fp ceilLog2 config db decrypter fs).2
      (DenseServer.createHelper fp ceilLog2 config db decrypter)
      (DenseServer.createHelperF fp ceilLog2 config db decrypter fs).1) ∧
    ∀ encrypter info, Reported fs (DenseClient.createF fp ceilLog2 config encrypter info fs).2
      (DenseClient.create fp ceilLog2 config encrypter info)
      (DenseClient.createF fp ceilLog2 config encrypter info fs).1 :=
  ⟨DenseServer.createPlain_follows _ _ _ _ fs, fun _ => DenseServer.createLeader_follows _ _ _ _ _ fs,
    fun _ => DenseServer.createHelper_follows _ _ _ _ _ fs, fun _ _ => DenseClient.create_follows _ _ _ _ _ fs⟩

/-- C92: creating servers and clients with cuckoo hashing. -/
theorem C92_cuckoo_create (fp : FpEnv) (ceilLog2 : CeilLog2) (sha : Sha256) (params : CuckooParams)
    (db : Option CuckooDb) (fs : Faults) :
    Reported fs (CuckooServer.createPlainF fp ceilLog2 sha params db fs).2
      (CuckooServer.createPlain fp ceilLog2 sha params db) (CuckooServer.createPlainF fp ceilLog2 sha params db fs).1 ∧
    (∀ sender, Reported fs (CuckooServer.createLeaderF fp ceilLog2 sha params db sender fs).2
      (CuckooServer.createLeader fp ceilLog2 sha params db sender)
      (CuckooServer.createLeaderF fp ceilLog2 sha params db sender fs).1) ∧
    (∀ decrypter, Reported fs (CuckooServer.createHelperF fp ceilLog2 sha params db decrypter fs).2
      (CuckooServer.createHelper fp ceilLog2 sha params db decrypter)
      (CuckooServer.createHelperF fp ceilLog2 sha params db decrypter fs).1) ∧
    ∀ pub encrypter info, Reported fs (CuckooClient.createF fp ceilLog2 sha pub encrypter info fs).2
      (CuckooClient.create fp ceilLog2 sha pub encrypter info)
      (CuckooClient.createF fp ceilLog2 sha pub encrypter info fs).1 :=
  ⟨CuckooServer.createPlain_follows _ _ _ _ _ fs, fun _ => CuckooServer.createLeader_follows _ _ _ _ _ _ fs,
    fun _ => CuckooServer.createHelper_follows _ _ _ _ _ _ fs, fun _ _ _ => CuckooClient.create_follows _ _ _ _ _ _ fs⟩

/-- C92: creating servers and clients with simple hashing. -/
theorem C92_simple_create (fp : FpEnv) (ceilLog2 : CeilLog2) (sha : Sha256) (params : SimpleParams)
    (db : Option SimpleDb) (fs : Faults) :
    Reported fs (SimpleServer.createPlainF fp ceilLog2 sha params db fs).2
      (SimpleServer.createPlain fp ceilLog2 sha params db) (SimpleServer.createPlainF fp ceilLog2 sha params db fs).1 ∧
    (∀ sender, Reported fs (SimpleServer.createLeaderF fp ceilLog2 sha params db sender fs).2
      (SimpleServer.createLeader fp ceilLog2 sha params db sender)
      (SimpleServer.createLeaderF fp ceilLog2 sha params db sender fs).1) ∧
    (∀ decrypter, Reported fs (SimpleServer.createHelperF fp ceilLog2 sha params db decrypter fs).2
      (SimpleServer.createHelper fp ceilLog2 sha params db decrypter)
      (SimpleServer.createHelperF fp ceilLog2 sha params db decrypter fs).1) ∧
    ∀ pub encrypter info, Reported fs (SimpleClient.createF fp ceilLog2 sha pub encrypter info fs).2
      (SimpleClient.create fp ceilLog2 sha pub encrypter info)
      (SimpleClient.createF fp ceilLog2 sha pub encrypter info fs).1 :=
  ⟨SimpleServer.createPlain_follows _ _ _ _ _ fs, fun _ => SimpleServer.createLeader_follows _ _ _ _ _ _ fs,
    fun _ => SimpleServer.createHelper_follows _ _ _ _ _ _ fs, fun _ _ _ => SimpleClient.create_follows _ _ _ _ _ _ fs⟩

/-- C92: `InnerProduct`. -/
theorem C92_innerProduct (simd : SimdEnv) (values : List Bytes) (selections : List (List U128)) (maxValueSize : Int)
    (fs : Faults) :
    Reported fs (innerProductF simd values selections maxValueSize fs).2 (innerProduct simd values selections maxValueSize)
      (innerProductF simd values selections maxValueSize fs).1 :=
  innerProduct_follows simd values selections maxValueSize fs

/-- C92: requests to plain servers and helpers of each kind. -/
theorem C92_plain_and_helper (codec : HelperCodec) (aes : AesBlock) (env : Env) (simd : SimdEnv) (request : PirRequest)
    (fs : Faults) :
    (∀ s : DenseServer, (∀ sender, s.role ≠ .leader sender) →
      Reported fs (s.handleRequestF codec aes env simd request fs).2 (s.handleRequest codec aes env simd request)
        (s.handleRequestF codec aes env simd request fs).1) ∧
    (∀ s : CuckooServer, (∀ sender, s.role ≠ .leader sender) →
      Reported fs (s.handleRequestF codec aes env simd request fs).2 (s.handleRequest codec aes env simd request)
        (s.handleRequestF codec aes env simd request fs).1) ∧
    ∀ s : SimpleServer, (∀ sender, s.role ≠ .leader sender) →
      Reported fs (s.handleRequestF codec aes env simd request fs).2 (s.handleRequest codec aes env simd request)
        (s.handleRequestF codec aes env simd request fs).1 := by
  refine ⟨fun s h => ?_, fun s h => ?_, fun s h => ?_⟩
  · cases hr : s.role with
    | leader sender => exact absurd hr (h sender)
    | helper decrypter info => exact DenseServer.handleRequest_helper hr request fs
    | plain =>
      unfold DenseServer.handleRequestF DenseServer.handleRequest
      rw [hr]
      exact DenseServer.handlePlainRequest_follows env simd s request fs
  · cases hr : s.role with
    | leader sender => exact absurd hr (h sender)
    | helper decrypter info => exact CuckooServer.handleRequest_helper hr request fs
    | plain =>
      unfold CuckooServer.handleRequestF CuckooServer.handleRequest
      rw [hr]
      exact CuckooServer.handlePlainRequest_follows env simd s request fs
  · cases hr : s.role with
    | leader sender => exact absurd hr (h sender)
    | helper decrypter info => exact SimpleServer.handleRequest_helper hr request fs
    | plain =>
      unfold SimpleServer.handleRequestF SimpleServer.handleRequest
      rw [hr]
      exact SimpleServer.handlePlainRequest_follows env simd s request fs

/-- C92: requests to leaders of each kind. If a call fails and the helper's answer is not a response, that is returned. -/
theorem C92_leader (codec : HelperCodec) (aes : AesBlock) (env : Env) (simd : SimdEnv) (sender : Sender)
    (request : PirRequest) (fs : Faults) :
    (∀ s : DenseServer, s.role = .leader sender →
      ReportedBy (sentFor sender request) fs (s.handleRequestF codec aes env simd request fs).2
        (s.handleRequest codec aes env simd request) (s.handleRequestF codec aes env simd request fs).1) ∧
    (∀ s : CuckooServer, s.role = .leader sender →
      ReportedBy (sentFor sender request) fs (s.handleRequestF codec aes env simd request fs).2
        (s.handleRequest codec aes env simd request) (s.handleRequestF codec aes env simd request fs).1) ∧
    ∀ s : SimpleServer, s.role = .leader sender →
      ReportedBy (sentFor sender request) fs (s.handleRequestF codec aes env simd request fs).2
        (s.handleRequest codec aes env simd request) (s.handleRequestF codec aes env simd request fs).1 := by
  refine ⟨fun s h => ?_, fun s h => ?_, fun s h => ?_⟩
  · unfold DenseServer.handleRequestF DenseServer.handleRequest
    rw [h]
    exact PirServer.handleLeaderRequest_follows (DenseServer.handlePlainRequest_follows env simd s) sender request fs
  · unfold CuckooServer.handleRequestF CuckooServer.handleRequest
    rw [h]
    exact PirServer.handleLeaderRequest_follows (CuckooServer.handlePlainRequest_follows env simd s) sender request fs
  · unfold SimpleServer.handleRequestF SimpleServer.handleRequest
    rw [h]
    exact PirServer.handleLeaderRequest_follows (SimpleServer.handlePlainRequest_follows env simd s) sender request fs

/-- C92: clients of each kind make requests and handle responses. -/
theorem C92_clients (codec : HelperCodec) (buckets : BucketCodec) (aes : AesBlock) (env : Env)
    (seeds : Nat → U128 × U128) (random : Nat → BitVec 8) (response : PirResponse) (state : ClientState) (fs : Faults) :
    (∀ (c : DenseClient) (queries : List Int),
      Reported fs (c.createRequestF codec env queries seeds random fs).2 (c.createRequest codec env queries seeds random)
        (c.createRequestF codec env queries seeds random fs).1) ∧
    (∀ (c : CuckooClient) (queries : List Bytes),
      Reported fs (c.createRequestF codec env queries seeds random fs).2 (c.createRequest codec env queries seeds random)
        (c.createRequestF codec env queries seeds random fs).1) ∧
    (∀ (c : SimpleClient) (queries : List Bytes),
      Reported fs (c.createRequestF codec env queries seeds random fs).2 (c.createRequest codec env queries seeds random)
        (c.createRequestF codec env queries seeds random fs).1) ∧
    Reported fs (DenseClient.handleResponseF aes response state fs).2 (DenseClient.handleResponse aes response state)
      (DenseClient.handleResponseF aes response state fs).1 ∧
    (∀ c : CuckooClient,
      Reported fs (c.handleResponseF aes response state fs).2 (c.handleResponse aes response state)
        (c.handleResponseF aes response state fs).1) ∧
    Reported fs (SimpleClient.handleResponseF aes buckets response state fs).2
      (SimpleClient.handleResponse aes buckets response state)
      (SimpleClient.handleResponseF aes buckets response state fs).1 :=
  ⟨fun _ _ => PirClient.createRequest_follows _ _ _ (DenseClient.createPlainRequests_follows _ _ _ _ _) fs,
    fun _ _ => PirClient.createRequest_follows _ _ _ (CuckooClient.createPlainRequests_follows _ _ _ _ _) fs,
    fun _ _ => PirClient.createRequest_follows _ _ _ (SimpleClient.createPlainRequests_follows _ _ _ _ _) fs,
    DenseClient.handleResponse_follows _ _ _ fs, fun _ => CuckooClient.handleResponse_follows _ _ _ _ fs,
    SimpleClient.handleResponse_follows _ _ _ _ fs⟩

/-! ## C92: whole runs -/

/-- C92 for dense databases: if the client gets `answers` on machines without failures, then it gets them or an error
INTERNAL or RESOURCE_EXHAUSTED is reported, whichever calls fail on the three machines. -/
theorem C92_dense_run (S : PirSetting) (db : DenseDb) (n : Nat) (queries : List Int) (answers : List Bytes)
    (h : DenseRun S db n queries answers) (seeds : Nat → U128 × U128) (random : Nat → BitVec 8) (f : PirFailures) :
    RightOrReported f answers (denseRunF S db n queries seeds random f) := by
  obtain ⟨helper, leader, client, h1, h2, h3, h⟩ := h
  obtain ⟨request, state, response, h4, h5, h6⟩ := h seeds random
  exact denseRun_safe h1 h2 h3 h4 h5 h6 f

/-- The client gets the records asked for, for the databases of C36. -/
theorem C92_dense_records (S : PirSetting) (records : List Bytes) (db : DenseDb) (hdb : BuiltFrom records db)
    (hne : ∃ r ∈ records, r ≠ []) (queries : List Nat) (hq : queries ≠ []) (hlt : ∀ q ∈ queries, q < records.length)
    (hS : S.Works DenseServer.contextInfo records.length queries.length) :
    DenseRun S db records.length (queries.map fun q : Nat => (q : Int)) (answer records queries) := by
  obtain ⟨_, helper, _, _, h1, _⟩ := C36_end_to_end_partial S.fp S.env S.aes S.codec S.ceilLog2 S.simd0 S.simd1
    hS.simd0Ok hS.simd1Ok records db hdb hne hS.exact hS.manageable S.encrypter S.decrypter hS.decrypts
    fun _ => (true, .err .internal)
  obtain ⟨leader, helper', client, h2, h1', h3, h⟩ := C36_end_to_end_partial S.fp S.env S.aes S.codec S.ceilLog2 S.simd0
    S.simd1 hS.simd0Ok hS.simd1Ok records db hdb hne hS.exact hS.manageable S.encrypter S.decrypter hS.decrypts
    fun request => (true, helper.handleRequest S.codec S.aes S.env S.simd1 request)
  have : helper' = helper := by rw [h1] at h1'; exact (ok.inj h1').symm
  subst this
  exact ⟨helper', leader, client, h1, h2, h3, fun seeds random => h (fun _ => rfl) queries hq hlt hS.parses seeds random⟩

/-- C92 with cuckoo hashing: if the client gets `answers` on machines without failures (C46), then it gets them or an
error is reported, whichever calls fail. -/
theorem C92_cuckoo_run (S : PirSetting) (params : CuckooParams) (db : CuckooDb) (queries : List Bytes)
    (answers : List (Option Bytes)) (h : CuckooRun S params db queries answers) (seeds : Nat → U128 × U128)
    (random : Nat → BitVec 8) (f : PirFailures) :
    RightOrReported f answers (cuckooRunF S params db queries seeds random f) := cuckooRun_safe h seeds random f

/-- C92 with simple hashing: if the client gets `answers` on machines without failures (C47), then it gets them or an
error is reported, whichever calls fail. -/
theorem C92_simple_run (S : PirSetting) (codec : BucketCodec) (params : SimpleParams) (db : SimpleDb)
    (queries : List Bytes) (answers : List (Option Bytes)) (h : SimpleRun S codec params db queries answers)
    (seeds : Nat → U128 × U128) (random : Nat → BitVec 8) (f : PirFailures) :
    RightOrReported f answers (simpleRunF S codec params db queries seeds random f) := simpleRun_safe h seeds random f

/-! ## Examples -/

/-- C91 on the example: the third call fails, setting up the cipher for the right children. -/
example : (Dpf.createIncrementalF exFp exParams8 [false, false, true]).1.isOk = false ∧
    (Dpf.createIncrementalF exFp exParams8 []).1.isOk = true := by
  have h := Res.eq_ok_getD (r := Dpf.createIncremental exFp exParams8) (by decide +kernel) exDpf
  rw [C91_create_calls _ _ _ h, C91_create_calls _ _ _ h]
  exact ⟨rfl, rfl⟩

/-- The database of the example for C36. -/
def exDenseDb : DenseDb := (exRecords.foldl DenseBuilder.insert DenseBuilder.new).build.1.getD ⟨0, [], 0, []⟩

/-- No call fails. -/
def noFailures : PirFailures := ⟨[], [], [], [], [], [], []⟩

theorem exSetting_works3 : exSetting.Works DenseServer.contextInfo 3 2 :=
  ⟨fun _ hm => HelperMessage.parse hm (by decide) (by decide), exSimd_ok, exSimd_ok, fun m => ⟨m.map (~~~ ·), rfl, by
    show ok ((m.map (~~~ ·)).map (~~~ ·)) = ok m
    simp [Function.comp_def]⟩, ⟨2, by decide, by decide, by decide⟩,
    Or.inl (by decide)⟩

/-- C92 on the example: three records, two of them asked for, with any failures. -/
theorem exDenseRun (f : PirFailures) : RightOrReported f [[4, 5, 6] ++ List.replicate 16 0, List.replicate 19 1]
    (denseRunF exSetting exDenseDb 3 [2, 0] (fun i => (BitVec.ofNat 128 i, 77)) (fun _ => 5) f) := by
  have h := C92_dense_run _ _ _ _ _ (C92_dense_records exSetting exRecords exDenseDb
    (Res.eq_ok_getD (by decide +kernel) _) ⟨[4, 5, 6], by simp [exRecords], by simp⟩ [2, 0] (by simp) (by decide)
    exSetting_works3) (fun i => (BitVec.ofNat 128 i, 77)) (fun _ => 5) f
  rwa [show answer exRecords [2, 0] = [[4, 5, 6] ++ List.replicate 16 0, List.replicate 19 1] by decide +kernel] at h

/-- Without failures the client gets the records; if the helper cannot set up the cipher of its random numbers, after it
has computed its answer, the client gets an error. -/
example : denseRunF exSetting exDenseDb 3 [2, 0] (fun i => (BitVec.ofNat 128 i, 77)) (fun _ => 5) noFailures =
      ok [[4, 5, 6] ++ List.replicate 16 0, List.replicate 19 1] := by
  rcases exDenseRun noFailures with h | ⟨h, _⟩
  · exact h
  · simp [PirFailures.Some, noFailures] at h

example : denseRunF exSetting exDenseDb 3 [2, 0] (fun i => (BitVec.ofNat 128 i, 77)) (fun _ => 5)
      { noFailures with helper := List.replicate 20 false ++ [true] } = err .internal := by
  have h : (match denseRunF exSetting exDenseDb 3 [2, 0] (fun i => (BitVec.ofNat 128 i, 77)) (fun _ => 5)
      { noFailures with helper := List.replicate 20 false ++ [true] } with
    | .err .internal => true
    | _ => false) = true := by decide +kernel
  split at h
  · assumption
  · simp at h

/-- C92 on the example for C46: cuckoo hashing, with any failures. -/
example (f : PirFailures) (seeds : Nat → U128 × U128) (random : Nat → BitVec 8) :
    RightOrReported f [some [20, 21], none, some [10, 0]]
      (cuckooRunF exSetting (cuckooParams [9] 3 7) exCuckooDb [[2, 2], [5], [1]] seeds random f) :=
  C92_cuckoo_run _ _ _ _ _ (C46_end_to_end_partial exSetting (fun i => i % 3) [9] 3 7 exPairs exCuckooDb
    (fun i => Nat.mod_lt i (by decide)) (by decide) exCuckooDb_ok _ _ exCuckooDb_holds (by decide +kernel)
    ⟨[30], by decide, by decide⟩ [[2, 2], [5], [1]] (by decide) (exSetting_works _ _ (by decide)) (by decide +kernel)
    (by decide +kernel) (by decide +kernel)) seeds random f

/-- C92 on the example for C47: simple hashing, with any failures. -/
example (f : PirFailures) (seeds : Nat → U128 × U128) (random : Nat → BitVec 8) :
    RightOrReported f [some [20, 21], none, none, none, some [10]]
      (simpleRunF exSetting wireCodec (simpleParams [9] 7) exSimpleDb [[2, 2], [2, 2, 6], [1, 0], [], [1]] seeds random
        f) :=
  C92_simple_run _ _ _ _ _ _ (C47_end_to_end_partial exSetting [9] 7 exPairs exSimpleDb
    (Res.eq_ok_getD (by decide +kernel) _) (by decide) _ (by decide) (exSetting_works _ _ (by decide))) seeds random f

end Verif
