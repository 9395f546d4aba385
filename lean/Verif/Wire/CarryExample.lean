import Verif.Wire.CarryProps
import Verif.Wire.EndToEndExample

/-!
# A concrete case for C114

The history of `EndToEndExample`, up to the transaction that routes the message.
-/

namespace Amp.Wire

open Amp.Chain (exP exTx svc eth sui)
open Amp.Ampd.Evm (RawLog exLib)

/-- the contracts, and the first `n` transactions -/
def e2eUpTo (n : Nat) : List TextStep :=
  e2eOrders.map (fun x => .found x.1 x.2.conf.party 1 (writeOrder exTexture x.2)) ++
    (e2eTxs.take n).map (fun tx => .tx (written exTexture tx))

def e2ePlainTo (n : Nat) : List Chain.Step := e2eOrders.map (fun x => .found x.1 (x.2.kind 1)) ++ (e2eTxs.take n).map .tx

theorem upTo_split (n : Nat) : e2eSteps = e2eUpTo n ++ (e2eTxs.drop n).map (fun tx => .tx (written exTexture tx)) := by
  unfold e2eSteps e2eUpTo
  rw [List.append_assoc, ← List.map_append, List.take_append_drop]

theorem upTo_succ {n : Nat} {tx : Chain.Tx} (h : e2eTxs[n]? = some tx) : e2eUpTo (n + 1) = e2eUpTo n ++ [.tx (written exTexture tx)] := by
  unfold e2eUpTo
  rw [List.append_assoc, List.take_add_one, h, List.map_append]
  rfl

theorem upTo_range (n : Nat) : ∀ s ∈ e2eUpTo n, StepInRange s := by
  intro s hs
  refine e2e_range s ?_
  rw [upTo_split n]
  exact List.mem_append_left _ hs

theorem upTo_apart (n : Nat) : TextApart exTexture (e2eUpTo n) := by
  have := e2e_apart
  rw [upTo_split n] at this
  exact textApart_prefix this

theorem upTo_setup (n : Nat) : textSetup exTexture (e2eUpTo n) = e2eSetup := by
  rw [← e2e_setup, upTo_split n]
  unfold textSetup
  rw [List.filterMap_append]
  have h2 : ((e2eTxs.drop n).map (fun tx => TextStep.tx (written exTexture tx))).filterMap (founding exTexture) = [] := by
    rw [List.filterMap_map]
    exact List.filterMap_eq_nil_iff.mpr (fun x _ => rfl)
  rw [h2, List.append_nil]

theorem upTo_plain (n : Nat) : steps exTexture (e2eUpTo n) = e2ePlainTo n := by
  unfold steps
  rw [upTo_setup]
  unfold e2eUpTo e2ePlainTo
  rw [List.filterMap_append, List.filterMap_map, List.filterMap_map]
  refine congrArg₂ (· ++ ·) ?_ ?_
  · refine filterMap_all (fun x hx => ?_)
    show (readOrder exTexture _ _).map _ = _
    rw [e2e_orders x hx]
    rfl
  · refine filterMap_all (fun tx htx => ?_)
    show some (Chain.Step.tx (meaning exTexture e2eSetup (written exTexture tx))) = _
    rw [e2e_meaning (List.mem_of_mem_take htx)]

theorem upTo_world (n : Nat) : textDeployedWorld exTexture exP (e2eUpTo n) = Chain.deployedWorld exP (e2ePlainTo n) := by
  rw [(C105_text (P := exP) ex_sound exP_bytes (e2eUpTo n) (upTo_range n)).1, upTo_plain]

theorem upTo_log (n : Nat) : textDeployedLog exTexture exP (e2eUpTo n) = Chain.deployedLog exP (e2ePlainTo n) := by
  rw [(C105_text (P := exP) ex_sound exP_bytes (e2eUpTo n) (upTo_range n)).2.1, upTo_plain]

/-- the calls of these transactions -/
def upToCalls (n : Nat) : List Chain.Entry := Chain.log exP e2eSetup (Chain.succeeded exP (e2ePlainTo n))

theorem upTo_calls (n : Nat) :
    upToCalls n = Chain.log exP (textSetup exTexture (e2eUpTo n)) (Chain.succeeded exP (steps exTexture (e2eUpTo n))) := by
  rw [upTo_plain, upTo_setup]; rfl

/-! ### The poll -/

def e2eConf : VV.TxConfirmation := ⟨e2eHash, 1, Prover.exAddress, sui, e2eUser, List.replicate 32 7⟩
def e2ePoll : VV.PollMeta := ⟨1, eth, e2eGateway, 1, 14, [5]⟩

/-- the call with number 11 opens the poll -/
def upToOpens (l : List Chain.Entry) : Bool :=
  match l.drop 11 with
  | e :: _ => match e.act with
    | .verifier c r => decide (e.p.target = 12 ∧ Chain.exView (c, r) = (13, .verifyMessages [e2eMsg], some [5], some e2eStarted)) &&
      (match VV.msgStatus exP.H (VV.stateAfter exP.H e2eVerifier (Chain.verifierCalls 12 (l.take 11))) e2eMsg with
        | .ok .notVerified => true
        | _ => false)
    | _ => false
  | [] => false

theorem upTo_opened_of {l : List Chain.Entry} (h : upToOpens l = true) :
    ∃ ws, ws.map Registry.Worker.address = [5] ∧ Chain.PollOpened exP l 12 e2eVerifier e2eMsg ws [e2eConf] e2ePoll e2eConf := by
  unfold upToOpens at h
  split at h
  · rename_i e l₂ hd
    split at h
    · rename_i c r hact
      simp only [Bool.and_eq_true, decide_eq_true_eq] at h
      obtain ⟨⟨h1, h2⟩, h3⟩ := h
      have hm : c.msg = .verifyMessages [e2eMsg] := congrArg (fun x => x.2.1) h2
      have hw : c.workers.map (fun l => l.map (fun x => x.address)) = some [5] := congrArg (fun x => x.2.2.1) h2
      have hev : r.event = some e2eStarted := congrArg (fun x => x.2.2.2) h2
      cases hws : c.workers with
      | none => rw [hws] at hw; cases hw
      | some ws =>
        rw [hws] at hw
        refine ⟨ws, Option.some.inj hw, l.take 11, e, l₂, c, r, [e2eMsg], ?_, h1, hact, hm, List.mem_cons_self .., ?_, Or.inl ?_, hws,
          hev, ?_⟩
        · rw [← hd, List.take_append_drop]
        · intro m' hm' _
          simpa using hm'
        · split at h3
          · assumption
          · cases h3
        · show VV.confirmationOf e2eMsg = .ok e2eConf
          unfold VV.confirmationOf
          rw [show VV.parseMessageId e2eMsg.ccId.id = some (e2eHash, 1) by decide +kernel]
          rfl
    · cases h
  · cases h

theorem upTo_opened10 : ∃ ws, ws.map Registry.Worker.address = [5] ∧
    Chain.PollOpened exP (upToCalls 10) 12 e2eVerifier e2eMsg ws [e2eConf] e2ePoll e2eConf :=
  upTo_opened_of (by decide +kernel)

theorem upTo_opened11 : ∃ ws, ws.map Registry.Worker.address = [5] ∧
    Chain.PollOpened exP (upToCalls 11) 12 e2eVerifier e2eMsg ws [e2eConf] e2ePoll e2eConf :=
  upTo_opened_of (by decide +kernel)

/-! ### The vote of the worker -/

def e2eVote : Chain.Tx := exTx 5 5 12 (.verifier (.vote 1 [.succeededOnChain]))

theorem e2e_voteText : (written exTexture e2eVote).msgs = [(12, [], (jsonMsg (.vote 1 [.succeededOnChain])).render)] := by
  show [(12, [], write exTexture (.verifier (.vote 1 [.succeededOnChain])))] = _
  refine congrArg (fun t => [((12 : Addr), ([] : List Registry.Coin), t)]) ?_
  exact congrArg Json.render (rfl : jsonOf exTexture.T exTexture.u (.verifier (.vote 1 [.succeededOnChain])) =
    jsonMsg (.vote 1 [.succeededOnChain]))

/-- `C114_accepted` applies: the ballot of the worker is taken -/
theorem e2e_taken : ∃ x, execText exTexture exP (textDeployedWorld exTexture exP (e2eUpTo 10)) (written exTexture e2eVote) = .ok x := by
  obtain ⟨ws, hws, ho⟩ := upTo_opened10
  refine (C114_accepted (P := exP) ex_sound exP_bytes (e2eUpTo 10) (written exTexture e2eVote) ?_ ?_ _ (upTo_calls 10) 12 e2eVerifier
    (by rw [upTo_setup]; rfl) e2eMsg ws [e2eConf] e2ePoll e2eConf ho ?_ [] [.succeededOnChain] rfl e2e_voteText
    (by decide) (by decide)).resolve_right ?_
  · rw [← upTo_succ (n := 10) (tx := e2eVote) rfl]; exact upTo_range 11
  · rw [← upTo_succ (n := 10) (tx := e2eVote) rfl]; exact upTo_apart 11
  · have : (5 : Addr) ∈ ws.map Registry.Worker.address := by rw [hws]; simp
    obtain ⟨w, hw, e⟩ := List.mem_map.mp this
    exact ⟨w, hw, e⟩
  · rintro ⟨e, he, hs, ht, -⟩
    have key : (textDeployedLog exTexture exP (e2eUpTo 10)).all (fun e => decide (¬ (e.p.sender = 5 ∧ e.p.target = 12))) = true := by
      rw [upTo_log]; decide +kernel
    exact of_decide_eq_true (List.all_eq_true.mp key e he) ⟨hs, ht⟩

theorem e2e_bounded : Ampd.Evm.Bounded e2eEnv.node := by
  constructor <;> intro x hx <;> (simp [e2eEnv] at hx; try (subst hx; decide))

theorem e2e_wrote : Ampd.Evm.WroteCall exLib.keccak exTexture.L (List.replicate 20 17) e2eReceipt
    ⟨List.replicate 32 170, 1, e2eMsg.destinationAddress, sui, List.replicate 20 34, e2eMsg.payloadHash⟩ :=
  ⟨rfl, _, List.mem_cons_self .., rfl, rfl, rfl, sui, [1], by decide +kernel, rfl, rfl, rfl, by decide +kernel⟩

theorem e2e_node : Ampd.Evm.Honest e2eEnv.node := by
  intro h r hr
  simp only [e2eEnv, Option.some.injEq] at hr
  split at hr
  · rename_i hh
    simp only [Option.some.injEq] at hr
    subst hr
    refine ⟨hh.symm, ?_⟩
    unfold Ampd.Evm.DistinctLogs e2eReceipt
    simp
  · cases hr

theorem e2e_confirms : (e2eSource 12).Confirms exTexture 12 [e2eConf] e2ePoll e2eMsg 5 (.vote 1 [.succeededOnChain]) := by
  obtain ⟨e, h1, h2, -⟩ := C94_evm_handlers (finite := exTexture.finite) exTexture.L ex_sound.faithful
    (Ampd.Evm.decodeLog exLib) ⟨5, 12, .other eth⟩ e2eEnv 12 e2eStarted e2e_fits
  refine ⟨e, h1, e2eEnv, e2eHash, 1, List.replicate 32 170, List.replicate 20 17, List.replicate 20 34, sui, e2eReceipt, 80, rfl,
    e2e_bounded, e2e_node, fun l x => Iff.rfl, by decide +kernel, by decide +kernel, by decide +kernel, by decide +kernel,
    by decide +kernel, ?_, rfl, ⟨100, rfl, by decide⟩, e2e_wrote, ?_⟩
  · simp only [e2eEnv, if_pos]
  · rw [h2]; decide +kernel

theorem e2e_only : OnlyDaemon exTexture (e2eUpTo 11) (e2eSource 12) 12 [e2eConf] e2ePoll e2eMsg 5 := by
  intro t ht hs x hx hV _
  have ht : TextStep.tx t ∈ e2eSteps := by rw [upTo_split 11]; exact List.mem_append_left _ ht
  rcases List.mem_append.mp ht with ht | ht
  · obtain ⟨y, -, hy⟩ := List.mem_map.mp ht
    cases hy
  · obtain ⟨tx, htx, hy⟩ := List.mem_map.mp ht
    cases hy
    obtain ⟨m', hm', rfl⟩ := List.mem_map.mp hx
    have h : ∀ tx ∈ e2eTxs, tx.sender = 5 → ∀ m ∈ tx.msgs, m.1 = 12 → m.2.2 = .verifier (.vote 1 [.succeededOnChain]) := by
      decide +kernel
    refine ⟨_, e2e_confirms, ?_⟩
    show write exTexture m'.2.2 = _
    rw [h tx htx hs m' hm' hV]
    exact congrArg Json.render (rfl : jsonOf exTexture.T exTexture.u (.verifier (.vote 1 [.succeededOnChain])) =
      jsonMsg (.vote 1 [.succeededOnChain]))

theorem upTo_order : TextInOrder (e2eUpTo 11) := by
  unfold TextInOrder e2eUpTo
  rw [List.filterMap_append, List.filterMap_map, List.filterMap_map]
  have h1 : e2eOrders.filterMap (TextStep.height? ∘ fun x => .found x.1 x.2.conf.party 1 (writeOrder exTexture x.2)) = [] :=
    List.filterMap_eq_nil_iff.mpr (fun x _ => rfl)
  have h2 : (e2eTxs.take 11).filterMap (TextStep.height? ∘ fun tx => .tx (written exTexture tx)) =
      (e2eTxs.take 11).map (fun tx => tx.block.height) :=
    filterMap_all (fun x _ => rfl)
  rw [h1, h2, List.nil_append]
  decide +kernel

theorem e2e_sends : ∀ a ∈ [(5 : Addr)], ∃ msg, (e2eSource 12).Confirms exTexture 12 [e2eConf] e2ePoll e2eMsg a msg ∧
    TextTaken exTexture exP (e2eUpTo 11) a 12 (jsonMsg msg).render e2ePoll.expiresAt := by
  intro a ha
  obtain rfl : a = 5 := by simpa using ha
  refine ⟨_, e2e_confirms, e2eUpTo 10, written exTexture e2eVote, [], [], upTo_succ (n := 10) rfl, rfl, ?_, by decide, e2e_taken⟩
  rw [e2e_voteText]
  exact List.mem_cons_self ..

theorem e2e_voters {ws : List Registry.Worker} (hws : ws.map Registry.Worker.address = [5]) :
    (∀ a ∈ [(5 : Addr)], ∃ w ∈ ws, w.address = a) ∧
      ws.length * e2eVerifier.threshold.num ≤ [(5 : Addr)].length * e2eVerifier.threshold.den := by
  have hlen : ws.length = 1 := by simpa using congrArg List.length hws
  refine ⟨fun a ha => ?_, by rw [hlen]; decide⟩
  rw [← hws] at ha
  obtain ⟨w, hw, e⟩ := List.mem_map.mp ha
  exact ⟨w, hw, e⟩

theorem e2e_daemons : ∀ a ∈ [(5 : Addr)], OnlyDaemon exTexture (e2eUpTo 11) (e2eSource 12) 12 [e2eConf] e2ePoll e2eMsg a := by
  intro a ha
  obtain rfl : a = 5 := by simpa using ha
  exact e2e_only

/-- `C114_verified` applies -/
example : Chain.askVerifier exP (textDeployedWorld exTexture exP (e2eUpTo 11)) 12 [e2eMsg] = some [(e2eMsg.ccId, true)] := by
  obtain ⟨ws, hws, ho⟩ := upTo_opened11
  exact C114_verified (P := exP) ex_sound exP_bytes (e2eUpTo 11) (upTo_range 11) (upTo_apart 11) upTo_order _ (upTo_calls 11) 12
    e2eVerifier (by rw [upTo_setup]; rfl) e2eMsg ws [e2eConf] e2ePoll e2eConf ho (e2eSource 12) [5] (by decide) (e2e_voters hws).1
    (e2e_voters hws).2 e2e_sends e2e_daemons

/-! ### The message is delivered -/

def e2eRoute : Chain.Tx := exTx 9 7 13 (.route [e2eMsg])

theorem e2e_eth : ∃ ep, Chain.chainInfo (textDeployedWorld exTexture exP (e2eUpTo 11)) 14 eth = some ep ∧ ep.gateway = 13 ∧
    ep.frozenIn .incoming = false := by
  rw [upTo_world]
  have key : (match Chain.chainInfo (Chain.deployedWorld exP (e2ePlainTo 11)) 14 eth with
      | some ep => decide (ep.gateway = 13 ∧ ep.frozenIn .incoming = false)
      | none => false) = true := by decide +kernel
  split at key
  · rename_i ep h
    exact ⟨ep, h, of_decide_eq_true key⟩
  · cases key

theorem e2e_sui : Chain.Open (textSetup exTexture (e2eUpTo 11)) (textDeployedWorld exTexture exP (e2eUpTo 11)) 14 ⟨1, 1, 15⟩ sui := by
  rw [upTo_world, upTo_setup]
  have key : (match Chain.chainInfo (Chain.deployedWorld exP (e2ePlainTo 11)) 14 sui with
      | some ep => decide (ep.gateway = 17 ∧ ep.frozenIn .outgoing = false)
      | none => false) = true := by decide +kernel
  split at key
  · rename_i ep h
    obtain ⟨k1, k2⟩ := of_decide_eq_true key
    exact Or.inl ⟨ep, ⟨16, 14⟩, h, k2, by rw [k1]; rfl, rfl⟩
  · cases key

/-- the chain of destination is registered after the transaction -/
theorem e2e_sui_after : Chain.chainInfo (textDeployedWorld exTexture exP (e2eUpTo 11 ++ [.tx (written exTexture e2eRoute)])) 14 sui ≠
    none := by
  rw [← upTo_succ (n := 11) (tx := e2eRoute) rfl, upTo_world]
  have key : (Chain.chainInfo (Chain.deployedWorld exP (e2ePlainTo 12)) 14 sui).isSome = true := by decide +kernel
  intro h
  rw [h] at key
  cases key

/-- `C114_delivered` applies: the gateway of `sui` answers with the message -/
example : (∃ x, execText exTexture exP (textDeployedWorld exTexture exP (e2eUpTo 11)) (written exTexture e2eRoute) = .ok x) ∧
    ∃ a reply, query exTexture exP (textDeployedWorld exTexture exP (e2eUpTo 11 ++ [.tx (written exTexture e2eRoute)])) a
        ((UserQuestion.contract (.getMessages [e2eMsg.ccId])).json exTexture.T).render = some reply ∧
      (UserQuestion.contract (.getMessages [e2eMsg.ccId])).readText exTexture reply = some (.contract (.messages [e2eMsg])) := by
  obtain ⟨ws, hws, ho⟩ := upTo_opened11
  obtain ⟨ep, h1, h2, h3⟩ := e2e_eth
  obtain ⟨x1, x2⟩ := C114_delivered (P := exP) ex_sound exP_octets exP_four (e2eUpTo 11) (written exTexture e2eRoute)
    (by rw [← upTo_succ (n := 11) (tx := e2eRoute) rfl]; exact upTo_range 12) (by rw [← upTo_succ (n := 11) (tx := e2eRoute) rfl]; exact upTo_apart 12) upTo_order _
    (upTo_calls 11) 14 ⟨1, 1, 15⟩ (by rw [upTo_setup]; rfl) 13 ⟨12, 14⟩ (by rw [upTo_setup]; rfl) rfl e2eVerifier
    (by rw [upTo_setup]; rfl) e2eMsg ws [e2eConf] e2ePoll e2eConf ho (e2eSource 12) [5] (by decide) (e2e_voters hws).1
    (e2e_voters hws).2 e2e_sends e2e_daemons ep h1 h2 h3 e2e_sui [] (write exTexture (.route [e2eMsg])) rfl (.route [e2eMsg])
    (by decide +kernel) rfl (by decide)
  refine ⟨x1, ?_⟩
  rcases x2 with ⟨ep', reply, -, y2, y3⟩ | ⟨y, -⟩
  · exact ⟨_, reply, y2, y3⟩
  · exact absurd y e2e_sui_after

end Amp.Wire
