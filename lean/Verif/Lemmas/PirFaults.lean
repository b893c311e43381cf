import Verif.Model.PirFaults
import Verif.Lemmas.FaultsOn
/-! # Failing calls of the environment: creation, gates' keys, and PIR -/
namespace Verif
open Res Spec Faulty

theorem Follows.map {α β : Type} {f : α → Faulty β} {g : α → Res β} (h : ∀ a, Follows (f a) (g a)) :
    ∀ l : List α, Follows (Faulty.map f l) (mapRes g l)
  | [] => .lift (ok [])
  | a :: l => by
    rw [mapRes_cons]
    exact .bind (h a) fun _ _ => .bind (Follows.map h l) fun _ _ => .lift _

/-- Code whose result does not depend on that of a part. -/
theorem Follows.skip {α β : Type} {m : Faulty α} {a : α} (h : Follows m (ok a)) {f : α → Faulty β} {x : Res β}
    (hf : Follows (f a) x) : Follows (m >>= f) x :=
  Follows.bind (x := ok a) (g := fun _ => x) h fun b hb => by cases hb; exact hf

theorem Follows.of_eq {α : Type} {m : Faulty α} {x y : Res α} (h : Follows m x) (e : x = y) : Follows m y := e ▸ h

/-! ### Creation -/

theorem Aes128FixedKeyHash.create_follows (key : U128) : Follows (createF key) (ok key) := by
  unfold createF
  exact .callThen internalCode (.callThen internalCode (.lift _))

theorem Dpf.createIncremental_follows (fp : FpEnv) (params : List DpfParameters) :
    Follows (Dpf.createIncrementalF fp params) (Dpf.createIncremental fp params) := by
  unfold Dpf.createIncrementalF Dpf.createIncremental
  exact .liftThen fun _ _ => .liftThen fun _ _ => .skip (Aes128FixedKeyHash.create_follows _)
    (.skip (Aes128FixedKeyHash.create_follows _) (.skip (Aes128FixedKeyHash.create_follows _) (.lift _)))

theorem Dpf.create_follows (fp : FpEnv) (params : DpfParameters) :
    Follows (Dpf.createF fp params) (Dpf.create fp params) := Dpf.createIncremental_follows fp [params]

theorem Dcf.create_follows (fp : FpEnv) (p : DpfParameters) : Follows (Dcf.createF fp p) (Dcf.create fp p) := by
  unfold Dcf.createF Dcf.create
  exact .liftThen fun _ _ => .liftThen fun _ _ => .bind (Dpf.createIncremental_follows fp _) fun _ _ => .lift _

theorem Mic.create_follows (fp : FpEnv) (params : MicParameters) : Follows (Mic.createF fp params) (Mic.create fp params) := by
  unfold Mic.createF Mic.create
  exact .liftThen fun _ _ => .liftThen fun _ _ => .liftThen fun _ _ => .bind (Dcf.create_follows fp _) fun _ _ => .lift _

/-! ### Keys of gates -/

theorem Dcf.generateKeysFor_follows {α : Type} (c : Dcf) (env : Env) (H : Helper α) (alpha : U128) (beta : α)
    (seed0 seed1 : U128) :
    FollowsOn (fun c' => c' = c.register H) (c.generateKeysForF env H alpha beta seed0 seed1)
      (c.generateKeysFor env H alpha beta seed0 seed1) := by
  unfold Dcf.generateKeysForF Dcf.generateKeysFor
  dsimp only
  have h := FollowsOn.keep (P := fun c' => c' = c.register H) (c := c.register H) (c0 := c.register H)
    (g := fun keys => (ok keys, c.register H))
    (Dcf.generateKeys_follows (c.register H) env alpha (H.toValue beta) seed0 seed1) rfl (.inl rfl)
    (f := fun keys => endF (ok keys) (c.register H)) fun a _ => .done _ _
  have e : ∀ x : Res (DcfKey × DcfKey), Dpf.keep x (c.register H) (fun keys => (ok keys, c.register H)) =
      (x, c.register H) := by intro x; cases x <;> rfl
  rw [e] at h
  exact h

theorem FollowsOn.then_ {κ κ' α β : Type} {P : κ → Prop} {m : FaultyOn κ α} {x : Res α × κ} (h : FollowsOn P m x)
    (f : α → Res β) (g : κ → κ') {Q : κ' → Prop} (hq : ∀ c, P c → Q (g c)) (hx : Q (g x.2)) :
    FollowsOn Q (fun fs => (((m fs).1.1 >>= f, g (m fs).1.2), (m fs).2)) (x.1 >>= f, g x.2) := by
  intro fs
  obtain ⟨made, e, h⟩ := h fs
  refine ⟨made, e, ?_⟩
  dsimp only
  rcases h with ⟨h1, h2, h3⟩ | ⟨h1, h2, h3⟩
  · refine .inl ⟨h1, by rw [h2], ?_⟩
    rcases h3 with h3 | ⟨h3, h4⟩
    · exact .inl (by rw [h3])
    · refine .inr ⟨?_, hq _ h4⟩
      rcases h3 with h3 | h3 <;> rw [h3]
      · exact .inl rfl
      · exact .inr rfl
  · refine .inr ⟨h1, ?_, hq _ h3⟩
    rcases h2 with h2 | h2 <;> rw [h2]
    · exact .inl rfl
    · exact .inr rfl

theorem Mic.gen_follows (g : Mic) (env : Env) (rIn : U128) (rOut : List U128) (seed0 seed1 : U128)
    (rand : Nat → U128) :
    FollowsOn (fun g' => g' = g ∨ g' = { g with dcf := g.dcf.register (uintHelper 128) })
      (g.genF env rIn rOut seed0 seed1 rand) (g.gen env rIn rOut seed0 seed1 rand) := by
  have e : g.gen env rIn rOut seed0 seed1 rand =
      Dpf.keep (shl128 1 g.params.logGroupSize) g fun N => Dpf.keep (g.checkGen N rIn rOut) g fun _ =>
        (fun r : Res (DcfKey × DcfKey) × Dcf => (r.1 >>= fun (k0, k1) => (do
          let zs ← mapRes (fun i => do
            let iv ← rd g.params.intervals i
            let ro ← rd rOut i
            let z := correctionTerm N rIn ro iv
            let z0 := rand i % N
            let z1 := (z - z0) % N
            ok (blockMessage z0, blockMessage z1)) (List.range g.params.intervals.length)
          ok (⟨k0, zs.map (·.1)⟩, ⟨k1, zs.map (·.2)⟩) : Res (MicKey × MicKey)), { g with dcf := r.2 }))
        (g.dcf.generateKeysFor env (uintHelper 128) ((N - 1 + rIn) % N) 1 seed0 seed1) := by
    unfold Mic.gen
    cases shl128 1 g.params.logGroupSize with
    | ok N =>
      rw [bind_ok]
      dsimp only [Dpf.keep]
      cases g.checkGen N rIn rOut <;> rfl
    | err c => rfl
    | ub => rfl
    | crash => rfl
  rw [e]
  unfold Mic.genF
  refine .keep (.lift _) (.inl rfl) (.inl rfl) fun N _ => .keep (.lift _) (.inl rfl) (.inl rfl) fun _ _ => ?_
  have h := Dcf.generateKeysFor_follows g.dcf env (uintHelper 128) ((N - 1 + rIn) % N) 1 seed0 seed1
  exact h.then_ _ (fun c => { g with dcf := c })
    (Q := fun g' => g' = g ∨ g' = { g with dcf := g.dcf.register (uintHelper 128) })
    (fun c hc => Or.inr (by rw [hc])) (Or.inr rfl)

theorem Mic.gen_gate (g : Mic) (env : Env) (rIn : U128) (rOut : List U128) (seed0 seed1 : U128) (rand : Nat → U128) :
    (g.gen env rIn rOut seed0 seed1 rand).2 = g ∨
    (g.gen env rIn rOut seed0 seed1 rand).2 = { g with dcf := g.dcf.register (uintHelper 128) } := by
  unfold Mic.gen
  split
  · exact .inr rfl
  · exact .inl rfl
  · exact .inl rfl
  · exact .inl rfl

/-! ### Inner products -/

theorem mapRes_constant {α β : Type} (b : β) : (l : List α) → mapRes (fun _ => ok b) l = ok (List.replicate l.length b)
  | [] => rfl
  | a :: l => by rw [mapRes_cons, bind_ok, mapRes_constant b l]; rfl

theorem innerProductHwy_follows (env : SimdEnv) (values : List Bytes) (selections : List (List U128)) (m : Nat) :
    Follows (innerProductHwyF env values selections m) (innerProductHwy env values selections m) := by
  unfold innerProductHwyF innerProductHwy
  refine .ite (fun _ => .lift _) fun _ => ?_
  refine .skip (a := List.replicate selections.length (List.replicate m 0)) ?_ (.liftThen fun _ _ => .lift _)
  rw [← mapRes_constant]
  exact Follows.map (g := fun _ => ok (List.replicate m 0)) (fun _ => .callThen memoryCode (.lift _)) _

theorem innerProduct_follows (env : SimdEnv) (values : List Bytes) (selections : List (List U128)) (m : Int) :
    Follows (innerProductF env values selections m) (innerProduct env values selections m) := by
  cases selections with
  | nil => exact .lift _
  | cons first rest =>
    unfold innerProductF innerProduct
    exact .liftThen fun _ _ => .liftThen fun _ _ => innerProductHwy_follows _ _ _ _

theorem DenseDb.innerProductWith_follows (simd : SimdEnv) (db : DenseDb) (selections : List (List U128)) :
    Follows (innerProductWithF simd db selections) (innerProductWith simd db selections) := by
  unfold innerProductWithF innerProductWith
  exact .liftThen fun _ _ => innerProduct_follows _ _ _ _

theorem CuckooDb.innerProductWith_follows (simd : SimdEnv) (db : CuckooDb) (selections : List (List U128)) :
    Follows (innerProductWithF simd db selections) (innerProductWith simd db selections) := by
  unfold innerProductWithF innerProductWith
  exact .bind (DenseDb.innerProductWith_follows _ _ _) fun _ _ => .bind (DenseDb.innerProductWith_follows _ _ _)
    fun _ _ => .liftThen fun _ _ => .lift _

theorem SimpleDb.innerProductWith_follows (simd : SimdEnv) (db : SimpleDb) (selections : List (List U128)) :
    Follows (innerProductWithF simd db selections) (innerProductWith simd db selections) :=
  DenseDb.innerProductWith_follows _ _ _

/-! ### Servers -/

theorem Prng.create_follows (seed : Bytes) : Follows (Prng.createF seed) (Prng.create seed) := by
  unfold Prng.createF Prng.create Prng.createWithNonce
  exact .liftThen fun _ _ => .liftThen fun _ _ => .callThen internalCode (.lift _)

theorem DenseServer.selection_follows (dpf : Dpf) (env : Env) (key : DpfKey) :
    Follows (selectionF dpf env key) (selection dpf env key) := by
  unfold selectionF selection
  refine .liftThen fun ctx _ => ?_
  intro fs
  unfold Dpf.evaluateNextF Dpf.evaluateNext
  rw [if_pos rfl, if_pos rfl]
  exact (Dpf.evaluateUntil_follows env pirTy.helper 0 [] ctx).reported fs

theorem DenseServer.handlePlainRequest_follows (env : Env) (simd : SimdEnv) (s : DenseServer) (request : PirRequest) :
    Follows (handlePlainRequestF env simd s request) (handlePlainRequest env simd s request) := by
  rcases request with _ | (_ | r | _ | _) <;> try exact .lift _
  unfold handlePlainRequestF handlePlainRequest
  exact .liftThen fun _ _ => .bind (.map (DenseServer.selection_follows _ _) _) fun _ _ =>
    .bind (DenseDb.innerProductWith_follows _ _ _) fun _ _ => .lift _

theorem CuckooServer.handlePlainRequest_follows (env : Env) (simd : SimdEnv) (s : CuckooServer) (request : PirRequest) :
    Follows (handlePlainRequestF env simd s request) (handlePlainRequest env simd s request) := by
  rcases request with _ | (_ | r | _ | _) <;> try exact .lift _
  unfold handlePlainRequestF handlePlainRequest
  exact .liftThen fun _ _ => .liftThen fun _ _ => .bind (.map (DenseServer.selection_follows _ _) _) fun _ _ =>
    .bind (CuckooDb.innerProductWith_follows _ _ _) fun _ _ => .lift _

theorem SimpleServer.handlePlainRequest_follows (env : Env) (simd : SimdEnv) (s : SimpleServer) (request : PirRequest) :
    Follows (handlePlainRequestF env simd s request) (handlePlainRequest env simd s request) := by
  rcases request with _ | (_ | r | _ | _) <;> try exact .lift _
  unfold handlePlainRequestF handlePlainRequest
  exact .liftThen fun _ _ => .liftThen fun _ _ => .bind (.map (DenseServer.selection_follows _ _) _) fun _ _ =>
    .bind (SimpleDb.innerProductWith_follows _ _ _) fun _ _ => .lift _

theorem PirServer.handleHelperRequest_follows (codec : HelperCodec) (aes : AesBlock)
    {hpF : PirRequest → Faulty PirResponse} {hp : PirRequest → Res PirResponse} (h : ∀ r, Follows (hpF r) (hp r))
    (decrypter : CryptFn) (info : Bytes) (request : PirRequest) :
    Follows (handleHelperRequestF codec aes hpF decrypter info request)
      (handleHelperRequest codec aes hp decrypter info request) := by
  unfold handleHelperRequestF handleHelperRequest
  cases request.dpf <;> try exact .lift _
  refine .liftThen fun decrypted _ => ?_
  cases codec.parse decrypted with
  | none => exact .lift _
  | some inner =>
    exact .bind (h _) fun _ _ => .bind (Prng.create_follows _) fun _ _ => .liftThen fun _ _ => .lift _

/-- `HandleLeaderRequest` has the result without failures if no call fails. Otherwise it returns the failure, or what the
sender returned if that was not a response. -/
theorem PirServer.handleLeaderRequest_follows {hpF : PirRequest → Faulty PirResponse}
    {hp : PirRequest → Res PirResponse} (h : ∀ r, Follows (hpF r) (hp r)) (sender : Sender) (request : PirRequest)
    (fs : Faults) :
    ReportedBy (sentFor sender request) fs (handleLeaderRequestF hpF sender request fs).2
      (handleLeaderRequest hp sender request) (handleLeaderRequestF hpF sender request fs).1 := by
  have nothing : ∀ x : Res PirResponse, ReportedBy (sentFor sender request) fs (lift x fs).2 x (lift x fs).1 :=
    fun x => ⟨[], rfl, .inl ⟨by simp, rfl⟩⟩
  unfold handleLeaderRequestF handleLeaderRequest sentFor
  unfold sentFor at nothing
  cases hr : request.dpf with
  | notSet => rw [hr] at nothing; exact nothing _
  | plain _ => rw [hr] at nothing; exact nothing _
  | encrypted _ => rw [hr] at nothing; exact nothing _
  | leader p e =>
    rw [hr] at nothing
    cases p with
    | none => exact nothing _
    | some plain =>
      cases e with
      | none => exact nothing _
      | some e =>
        dsimp only at nothing ⊢
        clear nothing
        obtain ⟨ran, sent⟩ := sender (some (.encrypted e))
        cases ran with
        | false => exact ⟨[], rfl, .inl ⟨by simp, by cases sent <;> rfl⟩⟩
        | true =>
          dsimp only
          obtain ⟨made, hm, hx⟩ := h (some (.plain plain)) fs
          refine ⟨made, hm, ?_⟩
          rcases hx with ⟨hx, e⟩ | ⟨hx, e⟩
          · refine .inl ⟨hx, ?_⟩
            rw [e]
            cases hp (some (.plain plain)) <;> cases sent <;> rfl
          · refine .inr ⟨hx, ?_⟩
            rcases e with e | e <;> rw [e] <;> cases sent
            all_goals first
              | exact .inl rfl
              | exact .inr (.inl rfl)
              | exact .inr (.inr ⟨rfl, rfl⟩)

/-! ### Creation of servers and clients -/

theorem DenseServer.createPlain_follows (fp : FpEnv) (ceilLog2 : CeilLog2) (config : PirConfig) (db : Option DenseDb) :
    Follows (createPlainF fp ceilLog2 config db) (createPlain fp ceilLog2 config db) := by
  cases config <;> try exact .lift _
  cases db with
  | none => exact .lift _
  | some db =>
    unfold createPlainF createPlain
    exact .liftThen fun _ _ => .liftThen fun _ _ => .bind (Dpf.create_follows _ _) fun _ _ => .lift _

theorem DenseServer.createLeader_follows (fp : FpEnv) (ceilLog2 : CeilLog2) (config : PirConfig) (db : Option DenseDb)
    (sender : Option Sender) :
    Follows (createLeaderF fp ceilLog2 config db sender) (createLeader fp ceilLog2 config db sender) := by
  unfold createLeaderF createLeader
  exact .bind (createPlain_follows _ _ _ _) fun _ _ => .liftThen fun _ _ => .lift _

theorem DenseServer.createHelper_follows (fp : FpEnv) (ceilLog2 : CeilLog2) (config : PirConfig) (db : Option DenseDb)
    (decrypter : Option CryptFn) :
    Follows (createHelperF fp ceilLog2 config db decrypter) (createHelper fp ceilLog2 config db decrypter) := by
  unfold createHelperF createHelper
  exact .bind (createPlain_follows _ _ _ _) fun _ _ => .liftThen fun _ _ => .lift _

theorem CuckooServer.createPlain_follows (fp : FpEnv) (ceilLog2 : CeilLog2) (sha : Sha256) (params : CuckooParams)
    (db : Option CuckooDb) :
    Follows (createPlainF fp ceilLog2 sha params db) (createPlain fp ceilLog2 sha params db) := by
  unfold createPlainF createPlain
  refine .liftThen fun _ _ => .liftThen fun _ _ => .liftThen fun _ _ => ?_
  cases db with
  | none => exact .lift _
  | some db =>
    exact .liftThen fun _ _ => .bind (Dpf.create_follows _ _) fun _ _ => .liftThen fun _ _ => .lift _

theorem CuckooServer.createLeader_follows (fp : FpEnv) (ceilLog2 : CeilLog2) (sha : Sha256) (params : CuckooParams)
    (db : Option CuckooDb) (sender : Option Sender) :
    Follows (createLeaderF fp ceilLog2 sha params db sender) (createLeader fp ceilLog2 sha params db sender) := by
  unfold createLeaderF createLeader
  exact .bind (createPlain_follows _ _ _ _ _) fun _ _ => .liftThen fun _ _ => .lift _

theorem CuckooServer.createHelper_follows (fp : FpEnv) (ceilLog2 : CeilLog2) (sha : Sha256) (params : CuckooParams)
    (db : Option CuckooDb) (decrypter : Option CryptFn) :
    Follows (createHelperF fp ceilLog2 sha params db decrypter) (createHelper fp ceilLog2 sha params db decrypter) := by
  unfold createHelperF createHelper
  exact .bind (createPlain_follows _ _ _ _ _) fun _ _ => .liftThen fun _ _ => .lift _

theorem SimpleServer.createPlain_follows (fp : FpEnv) (ceilLog2 : CeilLog2) (sha : Sha256) (params : SimpleParams)
    (db : Option SimpleDb) :
    Follows (createPlainF fp ceilLog2 sha params db) (createPlain fp ceilLog2 sha params db) := by
  unfold createPlainF createPlain
  refine .liftThen fun _ _ => .liftThen fun _ _ => ?_
  cases db with
  | none => exact .lift _
  | some db =>
    exact .liftThen fun _ _ => .bind (Dpf.create_follows _ _) fun _ _ => .liftThen fun _ _ => .lift _

theorem SimpleServer.createLeader_follows (fp : FpEnv) (ceilLog2 : CeilLog2) (sha : Sha256) (params : SimpleParams)
    (db : Option SimpleDb) (sender : Option Sender) :
    Follows (createLeaderF fp ceilLog2 sha params db sender) (createLeader fp ceilLog2 sha params db sender) := by
  unfold createLeaderF createLeader
  exact .bind (createPlain_follows _ _ _ _ _) fun _ _ => .liftThen fun _ _ => .lift _

theorem SimpleServer.createHelper_follows (fp : FpEnv) (ceilLog2 : CeilLog2) (sha : Sha256) (params : SimpleParams)
    (db : Option SimpleDb) (decrypter : Option CryptFn) :
    Follows (createHelperF fp ceilLog2 sha params db decrypter) (createHelper fp ceilLog2 sha params db decrypter) := by
  unfold createHelperF createHelper
  exact .bind (createPlain_follows _ _ _ _ _) fun _ _ => .liftThen fun _ _ => .lift _

theorem DenseClient.create_follows (fp : FpEnv) (ceilLog2 : CeilLog2) (config : PirConfig)
    (encrypter : Option CryptFn) (info : Bytes) :
    Follows (createF fp ceilLog2 config encrypter info) (create fp ceilLog2 config encrypter info) := by
  cases config <;> try exact .lift _
  unfold createF create
  refine .liftThen fun _ _ => ?_
  cases encrypter with
  | none => exact .lift _
  | some _ => exact .bind (Dpf.create_follows _ _) fun _ _ => .lift _

theorem CuckooClient.create_follows (fp : FpEnv) (ceilLog2 : CeilLog2) (sha : Sha256) (params : PublicParams)
    (encrypter : Option CryptFn) (info : Bytes) :
    Follows (createF fp ceilLog2 sha params encrypter info) (create fp ceilLog2 sha params encrypter info) := by
  cases encrypter with
  | none => exact .lift _
  | some _ =>
    cases params <;> try exact .lift _
    unfold createF create
    exact .liftThen fun _ _ => .liftThen fun _ _ => .liftThen fun _ _ => .liftThen fun _ _ => .liftThen fun _ _ =>
      .bind (DenseClient.create_follows _ _ _ _ _) fun _ _ => .lift _

theorem SimpleClient.create_follows (fp : FpEnv) (ceilLog2 : CeilLog2) (sha : Sha256) (params : PublicParams)
    (encrypter : Option CryptFn) (info : Bytes) :
    Follows (createF fp ceilLog2 sha params encrypter info) (create fp ceilLog2 sha params encrypter info) := by
  cases encrypter with
  | none => exact .lift _
  | some _ =>
    cases params <;> try exact .lift _
    unfold createF create
    exact .liftThen fun _ _ => .liftThen fun _ _ => .liftThen fun _ _ => .liftThen fun _ _ => .liftThen fun _ _ =>
      .bind (DenseClient.create_follows _ _ _ _ _) fun _ _ => .lift _

/-! ### Clients -/

theorem DenseClient.createPlainRequests_follows (c : DenseClient) (env : Env) (queries : List Int)
    (seeds : Nat → U128 × U128) (random : Nat → BitVec 8) :
    Follows (c.createPlainRequestsF env queries seeds random) (c.createPlainRequests env queries seeds random) := by
  unfold createPlainRequestsF createPlainRequests
  refine .liftThen fun _ _ => .bind (.map (fun qi => ?_) _) fun _ _ => .lift _
  unfold keysForF keysFor
  exact .liftThen fun _ _ => Dpf.generateKeysIncremental_follows _ _ _ _ _

theorem PirClient.createRequest_follows (codec : HelperCodec) (encrypter : CryptFn) (info : Bytes)
    {m : Faulty (PlainRequest × HelperRequest × ClientState)} {x : Res (PlainRequest × HelperRequest × ClientState)}
    (h : Follows m x) :
    Follows (createRequestF codec encrypter info m) (createRequest codec encrypter info x) := by
  unfold createRequestF createRequest
  exact .bind h fun _ _ => .liftThen fun _ _ => .lift _

theorem CuckooClient.createPlainRequests_follows (c : CuckooClient) (env : Env) (queries : List Bytes)
    (seeds : Nat → U128 × U128) (random : Nat → BitVec 8) :
    Follows (c.createPlainRequestsF env queries seeds random) (c.createPlainRequests env queries seeds random) := by
  unfold createPlainRequestsF createPlainRequests
  exact .liftThen fun _ _ => .bind (DenseClient.createPlainRequests_follows _ _ _ _ _) fun _ _ => .lift _

theorem SimpleClient.createPlainRequests_follows (c : SimpleClient) (env : Env) (queries : List Bytes)
    (seeds : Nat → U128 × U128) (random : Nat → BitVec 8) :
    Follows (c.createPlainRequestsF env queries seeds random) (c.createPlainRequests env queries seeds random) := by
  unfold createPlainRequestsF createPlainRequests
  exact .liftThen fun _ _ => .bind (DenseClient.createPlainRequests_follows _ _ _ _ _) fun _ _ => .lift _

theorem DenseClient.handleResponse_follows (aes : AesBlock) (response : PirResponse) (state : ClientState) :
    Follows (handleResponseF aes response state) (handleResponse aes response state) := by
  cases response with
  | none => exact .lift _
  | some masked =>
    cases state <;> try exact .lift _
    unfold handleResponseF handleResponse
    exact .liftThen fun _ _ => .liftThen fun _ _ => .bind (Prng.create_follows _) fun _ _ => .lift _

theorem CuckooClient.handleResponse_follows (aes : AesBlock) (c : CuckooClient) (response : PirResponse)
    (state : ClientState) : Follows (handleResponseF aes c response state) (handleResponse aes c response state) := by
  cases response with
  | none => exact .lift _
  | some masked =>
    cases state <;> try exact .lift _
    unfold handleResponseF handleResponse
    exact .liftThen fun _ _ => .bind (DenseClient.handleResponse_follows _ _ _) fun _ _ =>
      .ite (fun _ => .lift _) fun _ => .lift _

theorem SimpleClient.handleResponse_follows (aes : AesBlock) (codec : BucketCodec) (response : PirResponse)
    (state : ClientState) :
    Follows (handleResponseF aes codec response state) (handleResponse aes codec response state) := by
  cases response with
  | none => exact .lift _
  | some masked =>
    cases state <;> try exact .lift _
    unfold handleResponseF handleResponse
    exact .liftThen fun _ _ => .bind (DenseClient.handleResponse_follows _ _ _) fun _ _ => .lift _

end Verif
