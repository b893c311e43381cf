import Verif.Spec.PirFaults
import Verif.Lemmas.PirFaults
/-! # Runs of the PIR protocols with failing calls -/
namespace Verif
open Res Spec Faulty

/-- The result is INTERNAL or RESOURCE_EXHAUSTED. -/
def FaultErr {α : Type} (r : Res α) : Prop := r = err .internal ∨ r = err .resourceExhausted

theorem FaultErr.bind {α β : Type} {r : Res α} (h : FaultErr r) (g : α → Res β) : FaultErr (r >>= g) := by
  rcases h with rfl | rfl
  · exact .inl rfl
  · exact .inr rfl

theorem Spec.RightOrReported.bind {α β : Type} {f : PirFailures} {a : α} {r : Res α} (h : RightOrReported f a r) {g : α → Res β} {b : β}
    (hg : RightOrReported f b (g a)) : RightOrReported f b (r >>= g) := by
  rcases h with rfl | ⟨hf, h⟩
  · rw [bind_ok]; exact hg
  · exact .inr ⟨hf, FaultErr.bind h g⟩

theorem Follows.cases {α : Type} {m : Faulty α} {x : Res α} (h : Follows m x) (fs : Faults) :
    (m fs).1 = x ∨ (true ∈ fs ∧ FaultErr (m fs).1) := by
  obtain ⟨made, e, h⟩ := h fs
  rcases h with ⟨_, h⟩ | ⟨h1, h2⟩
  · exact .inl h
  · exact .inr ⟨e ▸ List.mem_append_left _ h1, h2⟩

theorem Follows.safe {α : Type} {m : Faulty α} {a : α} (h : Follows m (ok a)) {f : PirFailures} {fs : Faults}
    (hf : true ∈ fs → f.Some) : RightOrReported f a (m fs).1 := by
  rcases h.cases fs with h | ⟨h1, h2⟩
  · exact .inl h
  · exact .inr ⟨hf h1, h2⟩

theorem PirServer.leader_safe {f : PirFailures} {hpF : PirRequest → Faulty PirResponse}
    {hp : PirRequest → Res PirResponse} (h : ∀ r, Follows (hpF r) (hp r)) {sender sender' : Sender}
    (hran : ∀ r, (sender r).1 = true) (hran' : ∀ r, (sender' r).1 = true)
    (hs : ∀ r, (sender' r).2 = (sender r).2 ∨ (f.Some ∧ FaultErr (sender' r).2)) {request : PirRequest}
    {response : PirResponse} (hok : handleLeaderRequest hp sender request = ok response) {fs : Faults}
    (hf : true ∈ fs → f.Some) : RightOrReported f response (handleLeaderRequestF hpF sender' request fs).1 := by
  unfold handleLeaderRequest at hok
  unfold handleLeaderRequestF
  cases hr : request.dpf with
  | notSet => rw [hr] at hok; exact nomatch hok
  | plain _ => rw [hr] at hok; exact nomatch hok
  | encrypted _ => rw [hr] at hok; exact nomatch hok
  | leader p e =>
    rw [hr] at hok
    cases p with
    | none => exact nomatch hok
    | some plain =>
      cases e with
      | none => exact nomatch hok
      | some e =>
        dsimp only at hok ⊢
        have h1 := hran (some (.encrypted e))
        have h2 := hran' (some (.encrypted e))
        have h3 := hs (some (.encrypted e))
        revert h1 h2 h3 hok
        obtain ⟨ran, sent⟩ := sender (some (.encrypted e))
        obtain ⟨ran', sent'⟩ := sender' (some (.encrypted e))
        dsimp only
        rintro hok rfl rfl h3
        dsimp only
        rcases (h (some (.plain plain))).cases fs with hx | ⟨hx, hx'⟩
        · rw [hx]
          cases hl : hp (some (.plain plain)) with
          | ub => rw [hl] at hok; exact nomatch hok
          | crash => rw [hl] at hok; exact nomatch hok
          | err c => rw [hl] at hok; cases sent <;> exact nomatch hok
          | ok l =>
            rw [hl] at hok
            rcases h3 with rfl | ⟨h3, h4⟩
            · exact .inl hok
            · exact .inr ⟨h3, FaultErr.bind h4 _⟩
        · refine .inr ⟨hf hx, ?_⟩
          have hsent : ∃ r, sent = ok r := by
            cases sent with
            | ok r => exact ⟨r, rfl⟩
            | err c => cases hl : hp (some (.plain plain)) <;> rw [hl] at hok <;> exact nomatch hok
            | ub => cases hl : hp (some (.plain plain)) <;> rw [hl] at hok <;> exact nomatch hok
            | crash => cases hl : hp (some (.plain plain)) <;> rw [hl] at hok <;> exact nomatch hok
          obtain ⟨r, rfl⟩ := hsent
          rcases h3 with rfl | ⟨_, h4⟩
          · rcases hx' with hx' | hx' <;> rw [hx']
            · exact .inl rfl
            · exact .inr rfl
          · rcases hx' with hx' | hx' <;> rw [hx'] <;> exact FaultErr.bind h4 _

/-! ### Dense databases -/

theorem DenseServer.handleRequest_helper {codec : HelperCodec} {aes : AesBlock} {env : Env} {simd : SimdEnv}
    {s : DenseServer} {decrypter : CryptFn} {info : Bytes} (h : s.role = .helper decrypter info) (r : PirRequest) :
    Follows (s.handleRequestF codec aes env simd r) (s.handleRequest codec aes env simd r) := by
  unfold handleRequestF handleRequest
  rw [h]
  exact PirServer.handleHelperRequest_follows codec aes (DenseServer.handlePlainRequest_follows env simd s) _ _ r

theorem DenseServer.createLeader_role {fp : FpEnv} {ceilLog2 : CeilLog2} {config : PirConfig} {db : Option DenseDb}
    {sender : Sender} {s : DenseServer} (h : createLeader fp ceilLog2 config db (some sender) = ok s) :
    s.role = .leader sender ∧
    ∀ sender', createLeader fp ceilLog2 config db (some sender') = ok { s with role := .leader sender' } := by
  unfold createLeader at h ⊢
  obtain ⟨p, hp, h⟩ := bind_eq_ok.mp h
  obtain ⟨r, hr, h⟩ := bind_eq_ok.mp h
  cases hr
  cases h
  refine ⟨rfl, fun sender' => ?_⟩
  rw [hp]; rfl

theorem DenseServer.createHelper_role {fp : FpEnv} {ceilLog2 : CeilLog2} {config : PirConfig} {db : Option DenseDb}
    {decrypter : CryptFn} {s : DenseServer} (h : createHelper fp ceilLog2 config db (some decrypter) = ok s) :
    s.role = .helper decrypter contextInfo := by
  unfold createHelper at h
  obtain ⟨p, hp, h⟩ := bind_eq_ok.mp h
  obtain ⟨r, hr, h⟩ := bind_eq_ok.mp h
  cases hr
  cases h
  rfl

theorem CuckooServer.handleRequest_helper {codec : HelperCodec} {aes : AesBlock} {env : Env} {simd : SimdEnv}
    {s : CuckooServer} {decrypter : CryptFn} {info : Bytes} (h : s.role = .helper decrypter info) (r : PirRequest) :
    Follows (s.handleRequestF codec aes env simd r) (s.handleRequest codec aes env simd r) := by
  unfold handleRequestF handleRequest
  rw [h]
  exact PirServer.handleHelperRequest_follows codec aes (CuckooServer.handlePlainRequest_follows env simd s) _ _ r

theorem CuckooServer.createLeader_role {fp : FpEnv} {ceilLog2 : CeilLog2} {sha : Sha256} {params : CuckooParams}
    {db : Option CuckooDb} {sender : Sender} {s : CuckooServer}
    (h : createLeader fp ceilLog2 sha params db (some sender) = ok s) :
    s.role = .leader sender ∧
    ∀ sender', createLeader fp ceilLog2 sha params db (some sender') = ok { s with role := .leader sender' } := by
  unfold createLeader at h ⊢
  obtain ⟨p, hp, h⟩ := bind_eq_ok.mp h
  obtain ⟨r, hr, h⟩ := bind_eq_ok.mp h
  cases hr
  cases h
  refine ⟨rfl, fun sender' => ?_⟩
  rw [hp]; rfl

theorem CuckooServer.createHelper_role {fp : FpEnv} {ceilLog2 : CeilLog2} {sha : Sha256} {params : CuckooParams}
    {db : Option CuckooDb} {decrypter : CryptFn} {s : CuckooServer}
    (h : createHelper fp ceilLog2 sha params db (some decrypter) = ok s) :
    s.role = .helper decrypter contextInfo := by
  unfold createHelper at h
  obtain ⟨p, hp, h⟩ := bind_eq_ok.mp h
  obtain ⟨r, hr, h⟩ := bind_eq_ok.mp h
  cases hr
  cases h
  rfl

theorem SimpleServer.handleRequest_helper {codec : HelperCodec} {aes : AesBlock} {env : Env} {simd : SimdEnv}
    {s : SimpleServer} {decrypter : CryptFn} {info : Bytes} (h : s.role = .helper decrypter info) (r : PirRequest) :
    Follows (s.handleRequestF codec aes env simd r) (s.handleRequest codec aes env simd r) := by
  unfold handleRequestF handleRequest
  rw [h]
  exact PirServer.handleHelperRequest_follows codec aes (SimpleServer.handlePlainRequest_follows env simd s) _ _ r

theorem SimpleServer.createLeader_role {fp : FpEnv} {ceilLog2 : CeilLog2} {sha : Sha256} {params : SimpleParams}
    {db : Option SimpleDb} {sender : Sender} {s : SimpleServer}
    (h : createLeader fp ceilLog2 sha params db (some sender) = ok s) :
    s.role = .leader sender ∧
    ∀ sender', createLeader fp ceilLog2 sha params db (some sender') = ok { s with role := .leader sender' } := by
  unfold createLeader at h ⊢
  obtain ⟨p, hp, h⟩ := bind_eq_ok.mp h
  obtain ⟨r, hr, h⟩ := bind_eq_ok.mp h
  cases hr
  cases h
  refine ⟨rfl, fun sender' => ?_⟩
  rw [hp]; rfl

theorem SimpleServer.createHelper_role {fp : FpEnv} {ceilLog2 : CeilLog2} {sha : Sha256} {params : SimpleParams}
    {db : Option SimpleDb} {decrypter : CryptFn} {s : SimpleServer}
    (h : createHelper fp ceilLog2 sha params db (some decrypter) = ok s) :
    s.role = .helper decrypter contextInfo := by
  unfold createHelper at h
  obtain ⟨p, hp, h⟩ := bind_eq_ok.mp h
  obtain ⟨r, hr, h⟩ := bind_eq_ok.mp h
  cases hr
  cases h
  rfl

theorem denseRun_safe {S : PirSetting} {db : DenseDb} {n : Nat} {queries : List Int} {seeds : Nat → U128 × U128}
    {random : Nat → BitVec 8} {helper leader : DenseServer} {client : DenseClient}
    (h1 : DenseServer.createHelper S.fp S.ceilLog2 (.dense n) (some db) (some S.decrypter) = ok helper)
    (h2 : DenseServer.createLeader S.fp S.ceilLog2 (.dense n) (some db)
      (some fun request => (true, helper.handleRequest S.codec S.aes S.env S.simd1 request)) = ok leader)
    (h3 : DenseClient.create S.fp S.ceilLog2 (.dense n) (some S.encrypter) DenseServer.contextInfo = ok client)
    {request : PirRequest} {state : ClientState} {response : PirResponse} {answers : List Bytes}
    (h4 : client.createRequest S.codec S.env queries seeds random = ok (request, state))
    (h5 : leader.handleRequest S.codec S.aes S.env S.simd0 request = ok response)
    (h6 : DenseClient.handleResponse S.aes response state = ok answers) (f : PirFailures) :
    RightOrReported f answers (denseRunF S db n queries seeds random f) := by
  unfold denseRunF
  refine ((DenseServer.createHelper_follows _ _ _ _ _).of_eq h1 |>.safe fun h => .inl h).bind ?_
  obtain ⟨hr, hl⟩ := DenseServer.createLeader_role h2
  refine ((DenseServer.createLeader_follows _ _ _ _ _).of_eq (hl _) |>.safe fun h => .inr (.inl h)).bind ?_
  refine ((DenseClient.create_follows _ _ _ _ _).of_eq h3 |>.safe fun h => .inr (.inr (.inl h))).bind ?_
  refine ((PirClient.createRequest_follows _ _ _ (DenseClient.createPlainRequests_follows _ _ _ _ _)).of_eq h4
    |>.safe fun h => .inr (.inr (.inr (.inl h)))).bind ?_
  refine Spec.RightOrReported.bind (a := response) ?_ ((DenseClient.handleResponse_follows _ _ _).of_eq h6 |>.safe fun h =>
    .inr (.inr (.inr (.inr (.inr (.inr h))))))
  unfold DenseServer.handleRequest PirServer.handleRequest at h5
  rw [hr] at h5
  unfold DenseServer.handleRequestF PirServer.handleRequestF
  refine PirServer.leader_safe (hp := leader.handlePlainRequest S.env S.simd0)
    (fun r => DenseServer.handlePlainRequest_follows S.env S.simd0 { leader with role := _ } r)
    (fun _ => rfl) (fun _ => rfl) (fun r => ?_) h5 fun h => .inr (.inr (.inr (.inr (.inr (.inl h)))))
  rcases (DenseServer.handleRequest_helper (DenseServer.createHelper_role h1) r).cases f.helper with h | ⟨h, h'⟩
  · exact .inl h
  · exact .inr ⟨.inr (.inr (.inr (.inr (.inl h)))), h'⟩

theorem cuckooRun_safe {S : PirSetting} {params : CuckooParams} {db : CuckooDb} {queries : List Bytes}
    {answers : List (Option Bytes)} (h : CuckooRun S params db queries answers) (seeds : Nat → U128 × U128)
    (random : Nat → BitVec 8) (f : PirFailures) : RightOrReported f answers (cuckooRunF S params db queries seeds random f) := by
  obtain ⟨helper, leader, client, h1, h2, h3, h⟩ := h
  obtain ⟨request, state, response, h4, h5, h6⟩ := h seeds random
  unfold cuckooRunF
  refine ((CuckooServer.createHelper_follows _ _ _ _ _ _).of_eq h1 |>.safe fun h => .inl h).bind ?_
  obtain ⟨hr, hl⟩ := CuckooServer.createLeader_role h2
  refine ((CuckooServer.createLeader_follows _ _ _ _ _ _).of_eq (hl _) |>.safe fun h => .inr (.inl h)).bind ?_
  refine ((CuckooClient.create_follows _ _ _ _ _ _).of_eq h3 |>.safe fun h => .inr (.inr (.inl h))).bind ?_
  refine ((PirClient.createRequest_follows _ _ _ (CuckooClient.createPlainRequests_follows _ _ _ _ _)).of_eq h4
    |>.safe fun h => .inr (.inr (.inr (.inl h)))).bind ?_
  refine Spec.RightOrReported.bind (a := response) ?_ ((CuckooClient.handleResponse_follows _ _ _ _).of_eq h6 |>.safe fun h =>
    .inr (.inr (.inr (.inr (.inr (.inr h))))))
  unfold CuckooServer.handleRequest PirServer.handleRequest at h5
  rw [hr] at h5
  unfold CuckooServer.handleRequestF PirServer.handleRequestF
  refine PirServer.leader_safe (hp := leader.handlePlainRequest S.env S.simd0)
    (fun r => CuckooServer.handlePlainRequest_follows S.env S.simd0 { leader with role := _ } r)
    (fun _ => rfl) (fun _ => rfl) (fun r => ?_) h5 fun h => .inr (.inr (.inr (.inr (.inr (.inl h)))))
  rcases (CuckooServer.handleRequest_helper (CuckooServer.createHelper_role h1) r).cases f.helper with h | ⟨h, h'⟩
  · exact .inl h
  · exact .inr ⟨.inr (.inr (.inr (.inr (.inl h)))), h'⟩

theorem simpleRun_safe {S : PirSetting} {codec : BucketCodec} {params : SimpleParams} {db : SimpleDb}
    {queries : List Bytes} {answers : List (Option Bytes)} (h : SimpleRun S codec params db queries answers)
    (seeds : Nat → U128 × U128) (random : Nat → BitVec 8) (f : PirFailures) :
    RightOrReported f answers (simpleRunF S codec params db queries seeds random f) := by
  obtain ⟨helper, leader, client, h1, h2, h3, h⟩ := h
  obtain ⟨request, state, response, h4, h5, h6⟩ := h seeds random
  unfold simpleRunF
  refine ((SimpleServer.createHelper_follows _ _ _ _ _ _).of_eq h1 |>.safe fun h => .inl h).bind ?_
  obtain ⟨hr, hl⟩ := SimpleServer.createLeader_role h2
  refine ((SimpleServer.createLeader_follows _ _ _ _ _ _).of_eq (hl _) |>.safe fun h => .inr (.inl h)).bind ?_
  refine ((SimpleClient.create_follows _ _ _ _ _ _).of_eq h3 |>.safe fun h => .inr (.inr (.inl h))).bind ?_
  refine ((PirClient.createRequest_follows _ _ _ (SimpleClient.createPlainRequests_follows _ _ _ _ _)).of_eq h4
    |>.safe fun h => .inr (.inr (.inr (.inl h)))).bind ?_
  refine Spec.RightOrReported.bind (a := response) ?_ ((SimpleClient.handleResponse_follows _ _ _ _).of_eq h6 |>.safe fun h =>
    .inr (.inr (.inr (.inr (.inr (.inr h))))))
  unfold SimpleServer.handleRequest PirServer.handleRequest at h5
  rw [hr] at h5
  unfold SimpleServer.handleRequestF PirServer.handleRequestF
  refine PirServer.leader_safe (hp := leader.handlePlainRequest S.env S.simd0)
    (fun r => SimpleServer.handlePlainRequest_follows S.env S.simd0 { leader with role := _ } r)
    (fun _ => rfl) (fun _ => rfl) (fun r => ?_) h5 fun h => .inr (.inr (.inr (.inr (.inr (.inl h)))))
  rcases (SimpleServer.handleRequest_helper (SimpleServer.createHelper_role h1) r).cases f.helper with h | ⟨h, h'⟩
  · exact .inl h
  · exact .inr ⟨.inr (.inr (.inr (.inr (.inl h)))), h'⟩

end Verif
