import Verif.Wire.StoreTyped

/-!
# Lemmas for C96: asking by text is asking

Each question of one contract to another, asked and answered as text, has the answer that `Chain/Model.lean` gives it.
-/

namespace Amp.Wire

open Amp.Router (ChainName Lowering CCId Message)
open Amp.Chain (Msg Params Block World Store Pending Act answer)

variable {G : Texture} {P : Params}

theorem ask_isVerified {w : World} {a : Addr} {ms : List Message} (h : ∀ m ∈ ms, MessageTyped G.L m) :
    ask G P w a (askIsVerified ms) (asStatuses G.L) = Chain.askVerifier P w a ms := by
  rw [ask_eq (fits_isVerified ms)]
  unfold Chain.askVerifier
  cases w a with
  | none => rfl
  | some s =>
    dsimp only
    rw [answers_isVerified h]
    cases s with
    | verifier s =>
      refine reply_read fun l hl => ⟨fits_statuses l, asStatuses_json (statuses_typed (H := P.H) (s := s) (ms := ms) ?_ h)⟩
      cases hx : VV.isVerified P.H s ms with
      | error e => rw [hx] at hl; cases hl
      | ok r => rw [hx] at hl; simp only [answer, Option.some.injEq] at hl; rw [hl]
    | _ => rfl

theorem ask_activeWorkers (hT : G.T.Faithful) {w : World} (hw : WorldTyped G.L w) {a : Addr} {sv : Str} {c : ChainName}
    (h : c.Valid G.L) :
    ask G P w a (askActiveWorkers sv c) (asVec (asWorker G.T)) = Chain.askWorkers w a sv c := by
  rw [ask_eq (fits_activeWorkers sv c)]
  unfold Chain.askWorkers
  cases hs : w a with
  | none => rfl
  | some s =>
    dsimp only
    rw [answers_activeWorkers h]
    cases s with
    | registry s =>
      refine reply_read fun l hl => ?_
      have ht : ∀ x ∈ l, BondingTyped x.bonding := by
        cases hx : Registry.getActiveWorkers s sv c with
        | error e => rw [hx] at hl; cases hl
        | ok r =>
          rw [hx] at hl; simp only [answer, Option.some.injEq] at hl
          rw [← hl]; exact workers_typed (hw _ _ hs) hx
      exact ⟨fits_workers l, asWorkers_json hT ht⟩
    | _ => rfl

theorem ask_getMessages {w : World} (hw : WorldTyped G.L w) {a : Addr} {ids : List CCId} (h : ∀ i ∈ ids, CCIdTyped G.L i) :
    orStd (ask G P w a (askGetMessages ids) (asVec (asMessage G.L))) = Chain.askGateway w a ids := by
  rw [ask_eq (fits_getMessages ids)]
  unfold Chain.askGateway
  cases hs : w a with
  | none => rfl
  | some s =>
    dsimp only
    rw [answers_getMessages h]
    cases s with
    | gateway s =>
      dsimp only
      rw [reply_read fun l hl => ?_]
      · cases Gateway.getMessages s ids <;> rfl
      · have ht : ∀ m ∈ l, MessageTyped G.L m := by
          cases hx : Gateway.getMessages s ids with
          | error e => rw [hx] at hl; cases hl
          | ok r =>
            rw [hx] at hl; simp only [answer, Option.some.injEq] at hl
            rw [← hl]; exact messages_typed (hw _ _ hs) hx
        exact ⟨fits_messages l (by omega), asMessages_json ht⟩
    | _ => rfl

theorem ask_publicKey (hT : G.T.Faithful) {w : World} (hw : WorldTyped G.L w) {a worker : Addr} {kt : Multisig.KeyType} :
    orStd (ask G P w a (askPublicKey G.T worker kt) asPublicKey) = Chain.askKey w a kt worker := by
  rw [ask_eq (fits_askKey worker kt)]
  unfold Chain.askKey
  cases hs : w a with
  | none => rfl
  | some s =>
    dsimp only
    rw [answers_publicKey hT]
    cases s with
    | multisig s =>
      dsimp only
      rw [reply_read fun k hk => ?_]
      · cases Multisig.getPublicKey s worker kt <;> rfl
      · have ht : KeyFits k := by
          cases hx : Multisig.getPublicKey s worker kt with
          | error e => rw [hx] at hk; cases hk
          | ok r =>
            rw [hx] at hk; simp only [answer, Option.some.injEq] at hk
            rw [← hk]; exact key_fits (hw _ _ hs) hx
        exact ⟨fits_publicKey k (by omega), asPublicKey_json ht⟩
    | _ => rfl

theorem ask_isSetVerified {w : World} {a : Addr} {o : Std.Operators} (h : OperatorsFit o) :
    orStd (ask G P w a (askIsSetVerified o) asBool) = Chain.askSet P w a o := by
  rw [ask_eq (fits_isSetVerified o)]
  unfold Chain.askSet
  cases w a with
  | none => rfl
  | some s =>
    dsimp only
    rw [answers_isSetVerified h]
    cases s with
    | verifier s =>
      dsimp only
      rw [reply_read (read := asBool) (json := Json.bool) fun b _ => ⟨by simp only [Json.Fits], rfl⟩]
      cases VV.isWorkerSetVerified P.H s o <;> rfl
    | _ => rfl

theorem ask_getMultisig (hT : G.T.Faithful) {w : World} (hw : WorldTyped G.L w) {a : Addr} {id : Nat} (h : id ≤ u64Max) :
    ask G P w a (askGetMultisig id) (asSession G.T) = match w a with
      | some (.multisig s) => Multisig.getMultisig s id
      | _ => none := by
  rw [ask_eq (fits_getMultisig id)]
  cases hs : w a with
  | none => rfl
  | some s =>
    dsimp only
    rw [answers_getMultisig h]
    cases s with
    | multisig s =>
      refine reply_read fun m hm => ?_
      have ht := session_typed (hw _ _ hs) hm
      exact ⟨fits_session ht, asSession_json hT ht⟩
    | _ => rfl

/-! ### Calls depend on what they ask only -/

theorem gateway_exec_congr {s : Gateway.State} {sender : Addr} {f g : List Message → Option (List (CCId × Bool))}
    {m : Gateway.Msg} (h : ∀ ms, m = .verifyMessages ms ∨ m = .routeMessages ms → f ms = g ms) :
    Gateway.exec s ⟨sender, f, m⟩ = Gateway.exec s ⟨sender, g, m⟩ := by
  cases m with
  | verifyMessages ms =>
    unfold Gateway.exec Gateway.verifyMessages Gateway.partitionByVerified
    dsimp only
    rw [h ms (Or.inl rfl)]
  | routeMessages ms =>
    unfold Gateway.exec Gateway.routeIncoming Gateway.partitionByVerified
    dsimp only
    rw [h ms (Or.inr rfl)]

/-- two surroundings that agree on what a call of the prover asks -/
structure SameEnv (X : Encoding.Ext) (s : Prover.State) (m : Prover.Msg) (e f : Prover.Env) : Prop where
  height : e.height = f.height
  workers : e.activeWorkers = f.activeWorkers
  keys : e.publicKey = f.publicKey
  messages : ∀ ids, m = .constructProof ids → e.gateway ids = f.gateway ids
  verified : ∀ ws o, s.next = some ws → Prover.makeOperators X s.config.encoder ws = .ok o → e.verified o = f.verified o

theorem handle_congr {X : Encoding.Ext} {s : Prover.State} {m : Prover.Msg} {e f : Prover.Env} (h : SameEnv X s m e f) :
    Prover.handle X s e m = Prover.handle X s f m := by
  have hm : Prover.makeWorkerSet s.config e = Prover.makeWorkerSet s.config f := by
    unfold Prover.makeWorkerSet
    rw [h.workers, h.keys, h.height]
  have hn : Prover.nextWorkerSet s e = Prover.nextWorkerSet s f := by
    unfold Prover.nextWorkerSet
    rw [hm]
  cases m with
  | constructProof ids =>
    show Prover.constructProof X s e ids = Prover.constructProof X s f ids
    unfold Prover.constructProof Prover.getMessages Prover.newBatch
    rw [h.messages ids rfl, hn]
  | updateWorkerSet =>
    show Prover.updateWorkerSet X s e = Prover.updateWorkerSet X s f
    unfold Prover.updateWorkerSet
    rw [hm, hn]
  | confirmWorkerSet =>
    show Prover.confirmWorkerSet X s e = Prover.confirmWorkerSet X s f
    unfold Prover.confirmWorkerSet
    cases hx : s.next with
    | none => rfl
    | some ws =>
      dsimp only
      cases ho : Prover.makeOperators X s.config.encoder ws with
      | error e => rfl
      | ok o =>
        dsimp only
        rw [h.verified ws o hx ho]

theorem sameEnv (hT : G.T.Faithful) (hX : ∀ b, IsBytes (P.X.keccak b)) {w : World} (hw : WorldTyped G.L w) {b : Block}
    {s : Prover.State} {sv : Str} {kt : Multisig.KeyType} (hs : StoreTyped G.L (.prover s sv kt)) {m : Prover.Msg}
    (ht : Typed G.L (.prover m)) :
    SameEnv P.X s m (proverEnvText G P w b s.config sv kt) (Chain.proverEnv P w b s.config sv kt) where
  height := rfl
  workers := by
    show orStd _ = _
    rw [ask_activeWorkers hT hw hs.1]
    unfold Chain.proverEnv
    cases Chain.askWorkers w s.config.serviceRegistry sv s.config.chainName <;> rfl
  keys := by
    funext a
    exact ask_publicKey hT hw
  messages := by
    intro ids hm
    subst hm
    exact ask_getMessages hw ht
  verified := fun ws o hn ho => ask_isSetVerified (operators_fit hX (hs.2 ws hn) ho)

theorem handle_text (hT : G.T.Faithful) (hX : ∀ b, IsBytes (P.X.keccak b)) {w : World} (hw : WorldTyped G.L w) {b : Block}
    {s : Prover.State} {sv : Str} {kt : Multisig.KeyType} (hs : StoreTyped G.L (.prover s sv kt)) {m : Prover.Msg}
    (ht : Typed G.L (.prover m)) :
    Prover.handle P.X s (proverEnvText G P w b s.config sv kt) m =
      Prover.handle P.X s (Chain.proverEnv P w b s.config sv kt) m := handle_congr (sameEnv hT hX hw hs ht)

/-- a call that asks by text does what the call of `Chain/Model.lean` does -/
theorem call_text (hT : G.T.Faithful) (hX : ∀ b, IsBytes (P.X.keccak b)) {w : World} (hw : WorldTyped G.L w) {b : Block}
    {p : Pending} (hp : Typed G.L p.msg) (reply : Option (Option Nat)) :
    callText G P b w p reply = Chain.call P b w p reply := by
  cases hs : w p.target with
  | none => unfold callText; rw [hs]
  | some s =>
    cases s with
    | verifier s =>
      unfold callText Chain.call
      rw [hs]
      dsimp only
      rw [ask_activeWorkers hT hw (hw _ _ hs)]
      cases p.msg <;> rfl
    | gateway s =>
      unfold callText Chain.call
      rw [hs]
      dsimp only
      cases hm : p.msg.toGateway with
      | none => rfl
      | some m =>
        have hg : Typed G.L (.gateway m) := by
          cases hmm : p.msg <;> rw [hmm] at hm hp <;> simp only [Msg.toGateway, Option.some.injEq, reduceCtorEq] at hm
          · rw [← hm]; exact hp
          · rw [← hm]; exact hp
        dsimp only
        rw [gateway_exec_congr (g := Chain.askVerifier P w s.config.verifier) (fun ms hms => by
          rcases hms with rfl | rfl
          · exact ask_isVerified hg
          · exact ask_isVerified hg)]
        rfl
    | prover s sv kt =>
      unfold callText Chain.call
      rw [hs]
      dsimp only
      cases hm : p.msg with
      | prover m =>
        rw [hm] at hp
        dsimp only
        have : Prover.exec P.X s ⟨m, proverEnvText G P w b s.config sv kt, reply⟩ =
            Prover.exec P.X s ⟨m, Chain.proverEnv P w b s.config sv kt, reply⟩ := by
          unfold Prover.exec
          dsimp only
          rw [handle_text hT hX hw (hw _ _ hs) hp]
        rw [this]
        rfl
      | _ => rfl
    | _ => unfold callText; rw [hs]

theorem getProof_congr {X : Encoding.Ext} {s : Prover.State} {f g : Nat → Option Multisig.Multisig} {sid : Nat}
    (h : f sid = g sid) : Prover.getProof X s f sid = Prover.getProof X s g sid := by
  unfold Prover.getProof
  rw [h]

theorem getProof_none {X : Encoding.Ext} {s : Prover.State} {f : Nat → Option Multisig.Multisig} {sid : Nat}
    (h : f sid = none) : answer (Prover.getProof X s f sid) = none := by
  unfold Prover.getProof
  rw [h]
  split
  · rfl
  split
  · rfl
  split <;> rfl

/-- `GetProof`, with the multisig contract asked by text -/
theorem proof_text (hT : G.T.Faithful) {w : World} (hw : WorldTyped G.L w) {a : Addr} {sid : Nat} (h : sid ≤ u64Max) :
    answer (askProofText G P w a sid) = answer (Chain.askProof P w a sid) := by
  unfold askProofText Chain.askProof
  cases hs : w a with
  | none => rfl
  | some s =>
    cases s with
    | prover s sv kt =>
      dsimp only
      have hq := ask_getMultisig (P := P) hT hw (a := s.config.multisig) h
      cases hm : w s.config.multisig with
      | none =>
        rw [hm] at hq
        exact getProof_none hq
      | some t =>
        rw [hm] at hq
        cases t with
        | multisig t =>
          dsimp only at hq ⊢
          rw [getProof_congr (g := Multisig.getMultisig t) hq]
        | _ => exact getProof_none hq
    | _ => rfl

end Amp.Wire
