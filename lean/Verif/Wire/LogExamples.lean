import Verif.Wire.LogProps
import Verif.Wire.HashExamples

/-!
# Concrete cases for C107, and what the events do not tell
-/

namespace Amp.Wire

open Amp.Router (ChainName CCId Message)
open Amp.Chain (Msg Tx Entry exP exSetup exTxs exTxs0 exTxs1 exTx eth sui svc exNexus exMsg1 exMsg2 exMsg3)

/-! ### The history of `Chain/Example.lean` -/

/-- what the observer knows -/
def exSeen : Chain.Seen := watchRouter exTexture.T 14 15 (eventStream exTexture.T (textLog exTexture exHashP exSetup exTextTxs))

def exKnown : Known := watchMultisig exTexture.finite exTexture.T 18 (eventStream exTexture.T (textLog exTexture exHashP exSetup exTextTxs))

/-- to read the events of one contract it is enough to know them -/
theorem news_of {β E : Type} {a : Addr} {l : List Entry} {read : Str → List (Str × Str) → Option β} {evs : Chain.Act → Option (List E)}
    {pub : E → RawEvent} (hp : ∀ x es, evs x = some es → actEvents exTexture.T a x = es.map pub) {known : List (List E)}
    (hk : (Chain.actsAt a l).map evs = known.map some) :
    (eventStream exTexture.T l).filterMap (fun e => (noticed exTexture.T a e).bind (fun x => read x.1 x.2)) =
      known.flatten.filterMap (fun ev => (noticed exTexture.T a (pub ev)).bind (fun x => read x.1 x.2)) := by
  rw [stream_read ex_sound.faithful a read (fun x => (actEvents exTexture.T a x).filterMap
    (fun e => (noticed exTexture.T a e).bind (fun x => read x.1 x.2))) l (fun _ _ _ => rfl)]
  generalize Chain.actsAt a l = acts at hk
  induction known generalizing acts with
  | nil => cases acts with
    | nil => rfl
    | cons x t => simp at hk
  | cons es rest ih => cases acts with
    | nil => simp at hk
    | cons x t =>
      simp only [List.map_cons, List.cons.injEq] at hk
      rw [List.flatMap_cons, ih t hk.2, hp x es hk.1, List.flatten_cons, List.filterMap_append, List.filterMap_map]
      rfl

def routerSaid : Chain.Act → Option (List Router.Event)
  | .router _ r => some r.events
  | _ => none

def multisigSaid : Chain.Act → Option (List Multisig.Event)
  | .multisig _ r => some r.events
  | _ => none

/-- the events of the router -/
theorem exSeen_news : exSeen = Chain.Seen.all 15 [.chainRegistered eth 13, .chainRegistered sui 17, .messageRouted exMsg1,
    .messageRouted exMsg2, .messageRouted exMsg3] := by
  have h : (Chain.actsAt 14 (Chain.log exHashP exSetup exPlainTxs)).map routerSaid =
      [[.chainRegistered eth 13], [.chainRegistered sui 17], [.messageRouted exMsg1, .messageRouted exMsg2],
        [.messageRouted exMsg3]].map some := by decide +kernel
  unfold exSeen watchRouter routerNews
  rw [exText_log poly_bytes, news_of (pub := fun ev => publish exTexture.T (routerKind ev) 14 (routerAttributes exTexture.T ev)) ?_ h]
  · refine congrArg _ ?_
    decide +kernel
  · intro x es hx
    cases x <;> simp only [routerSaid, Option.some.injEq, reduceCtorEq] at hx
    subst hx
    rfl

def exSetId : Str := "c8d06cee3503e61ed36d3d807671c32a00000000000000000000000000000000".toList

def exDigest : Encoding.Bytes := [233, 130, 162, 114, 135, 61, 219, 157, 122, 195, 64, 35, 251, 181, 188, 73] ++ List.replicate 16 0

def exNews : List Notice := [.allowed 19, .key 5 (.ecdsa (List.replicate 33 5)), .key 6 (.ecdsa (List.replicate 33 6)),
  .key 7 (.ecdsa (List.replicate 33 7)), .started 1 exSetId ([5, 6, 7].map (fun a => (a, .ecdsa (List.replicate 33 a)))) exDigest,
  .submitted 1 5 (List.replicate 64 5), .submitted 1 7 (List.replicate 64 7), .completed 1 10]

/-- the events of the multisig contract -/
theorem exKnown_news : exKnown = exNews.foldl Known.hear .nothing := by
  have h : (Chain.actsAt 18 (Chain.log exHashP exSetup exPlainTxs)).map multisigSaid =
      [[.callerAuthorized 19], [.publicKeyRegistered 5 (.ecdsa (List.replicate 33 5))],
        [.publicKeyRegistered 6 (.ecdsa (List.replicate 33 6))], [.publicKeyRegistered 7 (.ecdsa (List.replicate 33 7))], [],
        [.signingStarted 1 exSetId ([5, 6, 7].map (fun a => (a, .ecdsa (List.replicate 33 a)))) exDigest sui],
        [.signatureSubmitted 1 5 (.ecdsa (List.replicate 64 5))],
        [.signatureSubmitted 1 7 (.ecdsa (List.replicate 64 7)), .signingCompleted 1 10]].map some := by decide +kernel
  unfold exKnown watchMultisig multisigNews
  rw [exText_log poly_bytes, news_of (pub := publishMultisig exTexture.T 18) ?_ h]
  · refine congrArg (List.foldl Known.hear .nothing) ?_
    decide +kernel
  · intro x es hx
    cases x <;> simp only [multisigSaid, Option.some.injEq, reduceCtorEq] at hx
    subst hx
    rfl

/-- of the router: two gateways, two messages for the one, one for nexus -/
example : exSeen.gateways eth = some 13 ∧ exSeen.gateways sui = some 17 ∧ exSeen.gateways "fantom".toList = none ∧
    exSeen.outbox 17 exMsg1.ccId = some exMsg1 ∧ exSeen.outbox 17 exMsg3.ccId = some exMsg3 ∧
    exSeen.outbox 17 exMsg2.ccId = none ∧ exSeen.outbox 15 exMsg2.ccId = some exMsg2 := by
  rw [exSeen_news]; decide +kernel

/-- of the multisig contract: three keys, one caller, one session with two signatures -/
example : exKnown.keys (5, .ecdsa) = some (List.replicate 33 5) ∧ exKnown.keys (5, .ed25519) = none ∧
    exKnown.callers 19 = some () ∧ exKnown.callers 9 = none ∧
    (exKnown.sessions 1).map (·.state) = some (.completed 10) ∧ exKnown.sessions 2 = none ∧
    exKnown.signatures 1 = [(5, .ecdsa (List.replicate 64 5)), (7, .ecdsa (List.replicate 64 7))] := by
  rw [exKnown_news]; decide +kernel

theorem exHash_leaf : Chain.Leaf exSetup 14 15 := ⟨fun _ h => (by cases h), fun _ h => (by cases h)⟩

theorem exHash_closed : Chain.Closed exSetup 14 (textLog exTexture exHashP exSetup exTextTxs) := by
  intro e he _ n g hm
  have key : (textLog exTexture exHashP exSetup exTextTxs).all (fun e => Chain.exRegisters e.p.msg) = true := by
    rw [exText_log poly_bytes]; decide +kernel
  have h := List.all_eq_true.mp key e he
  have hg : g = 13 ∨ g = 17 := by
    rcases hm with hm | hm <;> rw [hm] at h <;> exact of_decide_eq_true h
  rcases hg with rfl | rfl
  · exact ⟨fun _ h => (by cases h), fun _ h => (by cases h; rfl)⟩
  · exact ⟨fun _ h => (by cases h), fun _ h => (by cases h; rfl)⟩

/-- C107_gateway applies -/
example (ids : List CCId) : Chain.askGateway (textWorldAfter exTexture exHashP exSetup exTextTxs) 17 ids =
    match Ampd.readAll ((watchRouter exTexture.T 14 (⟨1, 1, 15⟩ : Router.Config).nexusGateway
        (eventStream exTexture.T (textLog exTexture exHashP exSetup exTextTxs))).outbox 17) ids with
    | some ms => .ok ms
    | none => .error .std :=
  C107_gateway ex_sound exHashed.bytes exSetup_typed exTextTxs exText_range 14 ⟨1, 1, 15⟩ rfl exHash_leaf exHash_closed 17 _ rfl rfl
    ids

theorem exKnown_session : exKnown.sessions 1 = some ⟨1, (exKnown.sessions 1).elim [] (·.workerSetId),
    (exKnown.sessions 1).elim [] (·.msg), .completed 10⟩ := by
  rw [exKnown_news]; decide +kernel

/-- a question to a multisig contract -/
def onMultisig (f : Multisig.State → Bool) : Option Chain.Store → Bool
  | some (.multisig s) => f s
  | _ => false

theorem exKnown_there : onMultisig (fun s => (Multisig.getWorkerSet s ((exKnown.sessions 1).elim [] (·.workerSetId))).isSome)
    (textWorldAfter exTexture exHashP exSetup exTextTxs 18) = true := by
  rw [exKnown_news, exText_world poly_bytes]; decide +kernel

theorem on_multisig {f : Multisig.State → Bool} {o : Option Chain.Store} {s : Multisig.State} (h : onMultisig f o = true)
    (hs : o = some (.multisig s)) : f s = true := by
  subst hs
  exact h

theorem exKnown_set (s : Multisig.State) (hs : textWorldAfter exTexture exHashP exSetup exTextTxs 18 = some (.multisig s)) :
    (Multisig.getWorkerSet s ((exKnown.sessions 1).elim [] (·.workerSetId))).isSome = true :=
  on_multisig exKnown_there hs

theorem exHash_one {e : Entry} {r : Multisig.RawWorkerSet} {ws : Multisig.WorkerSet}
    (he : e ∈ textLog exTexture exHashP exSetup exTextTxs) (ht : e.p.target = 18)
    (hm : e.p.msg = .multisig (.registerWorkerSet r)) (hd : r.decode = .ok ws) :
    ws = ⟨[5, 6, 7].map (fun a => (a, ⟨a, 1, .ecdsa (List.replicate 33 a)⟩)), 2, 3⟩ := by
  have : ws ∈ Chain.setsAt 18 (textLog exTexture exHashP exSetup exTextTxs) := by
    refine List.mem_filterMap.mpr ⟨e, he, ?_⟩
    rw [if_pos ht, hm]
    simp only
    rw [hd]
  rw [exHash_sets] at this
  exact List.mem_singleton.mp this

/-- C107_multisig applies, and its second case is impossible -/
example (s : Multisig.State) (hs : textWorldAfter exTexture exHashP exSetup exTextTxs 18 = some (.multisig s)) :
    ∃ ms, Multisig.getMultisig s 1 = some ms ∧ ms.state = .completed 10 := by
  have h := C107_multisig ex_sound exHashed exSetup_typed exTextTxs exText_range 18 ⟨1, 11, 5⟩ rfl s hs exKnown rfl
  have hk := exKnown_session
  have hsome := exKnown_set s hs
  generalize exKnown = kn at h hk hsome
  rcases h with h | ⟨ws, ws', ⟨e, he, ht, r, hm, hd⟩, ⟨e', he', ht', r', hm', hd'⟩, hne, _⟩
  · have h1 := h 1
    rw [hk] at h1
    simp only at h1
    cases hg : Multisig.getWorkerSet s ((kn.sessions 1).elim [] (·.workerSetId)) with
    | none => rw [hg] at hsome; cases hsome
    | some ws => rw [hg] at h1; exact ⟨_, h1, rfl⟩
  · exfalso
    exact hne ((exHash_one he ht hm hd).trans (exHash_one he' ht' hm' hd').symm)

/-! ### What the events do not tell -/

/-- the example up to the registration of chains, and one more message -/
def exThenTxs (m : Msg) : List Tx := exTxs0 ++ [exTx 1 4 14 m]

def exThen (m : Msg) : List TextTx := (exThenTxs m).map (written exTexture)

theorem exThen_frozen : textWorldAfter exTexture exP exSetup (exThen (.router (.freezeChain sui .bidirectional))) =
      Chain.worldAfter exP exSetup (exThenTxs (.router (.freezeChain sui .bidirectional))) ∧
    textLog exTexture exP exSetup (exThen (.router (.freezeChain sui .bidirectional))) =
      Chain.log exP exSetup (exThenTxs (.router (.freezeChain sui .bidirectional))) :=
  exWritten exP_bytes (by decide +kernel) (by decide +kernel) (by decide +kernel)

theorem exThen_unfrozen : textWorldAfter exTexture exP exSetup (exThen (.router (.unfreezeChain sui .bidirectional))) =
      Chain.worldAfter exP exSetup (exThenTxs (.router (.unfreezeChain sui .bidirectional))) ∧
    textLog exTexture exP exSetup (exThen (.router (.unfreezeChain sui .bidirectional))) =
      Chain.log exP exSetup (exThenTxs (.router (.unfreezeChain sui .bidirectional))) :=
  exWritten exP_bytes (by decide +kernel) (by decide +kernel) (by decide +kernel)

/-- C107, the full statement is false of the code: whether a chain is frozen cannot be told from all the events of the chain.
`FreezeChain` and `UnfreezeChain` emit the same event. -/
theorem C107_frozen_counterexample :
    eventStream exTexts (textLog exTexture exP exSetup (exThen (.router (.freezeChain sui .bidirectional)))) =
      eventStream exTexts (textLog exTexture exP exSetup (exThen (.router (.unfreezeChain sui .bidirectional)))) ∧
    (match textWorldAfter exTexture exP exSetup (exThen (.router (.freezeChain sui .bidirectional))) 14 with
      | some (.router s) => (Router.getChainInfo s sui).map (·.frozen)
      | _ => none) = some (Router.Direction.bits .bidirectional) ∧
    (match textWorldAfter exTexture exP exSetup (exThen (.router (.unfreezeChain sui .bidirectional))) 14 with
      | some (.router s) => (Router.getChainInfo s sui).map (·.frozen)
      | _ => none) = some 0 := by
  rw [exThen_frozen.1, exThen_frozen.2, exThen_unfrozen.1, exThen_unfrozen.2]
  exact ⟨by decide +kernel, by decide +kernel, by decide +kernel⟩

/-- two workers vote -/
def exVotesTxs (v : Std.Vote) : List Tx :=
  exTxs0 ++ [exTx 9 4 13 (.gateway (.verifyMessages [exMsg1])), exTx 5 5 12 (.verifier (.vote 1 [v])),
    exTx 6 6 12 (.verifier (.vote 1 [v]))]

def exVotes (v : Std.Vote) : List TextTx := (exVotesTxs v).map (written exTexture)

theorem exVotes_succeeded : textWorldAfter exTexture exP exSetup (exVotes .succeededOnChain) =
      Chain.worldAfter exP exSetup (exVotesTxs .succeededOnChain) ∧
    textLog exTexture exP exSetup (exVotes .succeededOnChain) = Chain.log exP exSetup (exVotesTxs .succeededOnChain) :=
  exWritten exP_bytes (by decide +kernel) (by decide +kernel) (by decide +kernel)

theorem exVotes_notFound : textWorldAfter exTexture exP exSetup (exVotes .notFound) =
      Chain.worldAfter exP exSetup (exVotesTxs .notFound) ∧
    textLog exTexture exP exSetup (exVotes .notFound) = Chain.log exP exSetup (exVotesTxs .notFound) :=
  exWritten exP_bytes (by decide +kernel) (by decide +kernel) (by decide +kernel)

/-- C107, the full statement is false of the code: whether a message is verified cannot be told from all the events of the chain
as long as the poll has not been ended.  `voted` does not tell the votes, and no query does. -/
theorem C107_votes_counterexample :
    eventStream exTexts (textLog exTexture exP exSetup (exVotes .succeededOnChain)) =
      eventStream exTexts (textLog exTexture exP exSetup (exVotes .notFound)) ∧
    (match textWorldAfter exTexture exP exSetup (exVotes .succeededOnChain) 12 with
      | some (.verifier s) => (VV.isVerified exP.H s [exMsg1]).toOption
      | _ => none) = some [(exMsg1.ccId, true)] ∧
    (match textWorldAfter exTexture exP exSetup (exVotes .notFound) 12 with
      | some (.verifier s) => (VV.isVerified exP.H s [exMsg1]).toOption
      | _ => none) = some [(exMsg1.ccId, false)] := by
  rw [exVotes_succeeded.1, exVotes_succeeded.2, exVotes_notFound.1, exVotes_notFound.2]
  exact ⟨by decide +kernel, by decide +kernel, by decide +kernel⟩

/-- the router delivers a message; somebody hands in the same message, verified -/
def exDelivered : List Gateway.Call := [⟨14, fun _ => none, .routeMessages [exMsg1]⟩]
def exHandedIn : List Gateway.Call := [⟨9, fun ms => some (ms.map (fun m => (m.ccId, true))), .routeMessages [exMsg1]⟩]

/-- Why the observer of `C107_gateway` reads the events of the router: those of the gateway are the same for a message it keeps
for its chain and for a message it passes on. -/
theorem C107_gateway_counterexample :
    (outs Gateway.exec (Gateway.init ⟨12, 14⟩) exDelivered).map (·.2.events) = [[.messageRouted exMsg1]] ∧
    (outs Gateway.exec (Gateway.init ⟨12, 14⟩) exHandedIn).map (·.2.events) = [[.messageRouted exMsg1]] ∧
    Gateway.getMessages (Gateway.stateAfter ⟨12, 14⟩ exDelivered) [exMsg1.ccId] = .ok [exMsg1] ∧
    Gateway.getMessages (Gateway.stateAfter ⟨12, 14⟩ exHandedIn) [exMsg1.ccId] = .error .loadOutgoingMessage := by
  decide +kernel

end Amp.Wire
