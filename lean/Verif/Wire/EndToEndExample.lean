import Verif.Wire.EndToEndProps
import Verif.Wire.UsersExamples

/-!
# A concrete case for C113

One worker, a message from `eth` to `sui`; hashes and addresses of `eth` are written as on that chain.
-/

namespace Amp.Wire

open Amp.Chain (exP exTx svc eth sui exRegisters)
open Amp.Ampd.Evm (RawLog exLib)

/-- the gateway, a user and a transaction of `eth`, as texts -/
def e2eGateway : Str := "0x1111111111111111111111111111111111111111".toList
def e2eUser : Str := "0x2222222222222222222222222222222222222222".toList
def e2eHash : Str := "0xaaaaaaaaaaaaaaaaaaaaaaaaaaaaaaaaaaaaaaaaaaaaaaaaaaaaaaaaaaaaaaaa".toList

/-- from `eth` to `sui` -/
def e2eMsg : Router.Message := ⟨⟨eth, e2eHash ++ ":1".toList⟩, e2eUser, sui, Prover.exAddress, List.replicate 32 7⟩

def e2eVerifier : VV.Config := ⟨10, svc, e2eGateway, ⟨2, 3⟩, 10, 1, eth, 11⟩

def e2eOrders : List (Addr × Order) := [(10, .registry 1), (11, .rewards ⟨1, "axl".toList⟩ ⟨100, 1000, ⟨1, 2⟩⟩),
  (12, .verifier e2eVerifier), (13, .gateway ⟨12, 14⟩), (14, .router ⟨1, 1, 15⟩),
  (15, .nexus ⟨2, 14⟩), (16, .verifier ⟨10, svc, "0x2".toList, ⟨2, 3⟩, 10, 1, sui, 11⟩), (17, .gateway ⟨16, 14⟩),
  (18, .multisig ⟨1, 11, 5⟩), (19, .prover 1 ⟨17, 18, 10, 16, 10, ⟨2, 3⟩, sui, 1, .bcs⟩ svc .ecdsa)]

/-- the worker joins, the message is verified, routed, and signed for `sui` -/
def e2eTxs : List Chain.Tx := [
  exTx 1 1 10 (.registry (.registerService svc ⟨10, "axl".toList, 1⟩)),
  exTx 5 1 10 (.registry (.bondWorker svc)) [("axl".toList, 10)],
  exTx 5 1 10 (.registry (.declareChainSupport svc [eth, sui])),
  exTx 1 2 10 (.registry (.authorizeWorkers [5] svc)),
  exTx 1 2 14 (.router (.registerChain eth 13)),
  exTx 1 2 14 (.router (.registerChain sui 17)),
  exTx 1 2 18 (.multisig (.authorizeCaller 19)),
  exTx 5 2 18 (.multisig (.registerPublicKey .ecdsa (List.replicate 33 5))),
  exTx 9 3 19 (.prover .updateWorkerSet),
  exTx 9 4 13 (.gateway (.verifyMessages [e2eMsg])),
  exTx 5 5 12 (.verifier (.vote 1 [.succeededOnChain])),
  exTx 9 7 13 (.route [e2eMsg]),
  exTx 9 9 19 (.prover (.constructProof [e2eMsg.ccId])),
  exTx 5 10 18 (.multisig (.submitSignature 1 (List.replicate 64 5)))]

/-- all of it as texts -/
def e2eSteps : List TextStep :=
  e2eOrders.map (fun x => .found x.1 x.2.conf.party 1 (writeOrder exTexture x.2)) ++ e2eTxs.map (fun tx => .tx (written exTexture tx))

def e2ePlain : List Chain.Step := e2eOrders.map (fun x => .found x.1 (x.2.kind 1)) ++ e2eTxs.map .tx

theorem e2e_range : ∀ s ∈ e2eSteps, StepInRange s := by
  intro s hs
  rcases List.mem_append.mp hs with hs | hs
  · obtain ⟨x, -, rfl⟩ := List.mem_map.mp hs
    show (1 : Nat) ≤ u64Max
    decide
  · obtain ⟨tx, htx, rfl⟩ := List.mem_map.mp hs
    have h : ∀ t ∈ e2eTxs, t.block.height ≤ u64Max ∧ t.block.time ≤ u64Max ∧ ∀ m ∈ t.msgs, ∀ c ∈ m.2.1, c.2 ≤ u128Max := by
      decide +kernel
    obtain ⟨h1, h2, h3⟩ := h tx htx
    refine ⟨h1, h2, ?_⟩
    intro m hm
    obtain ⟨m', hm', rfl⟩ := List.mem_map.mp hm
    exact h3 m' hm'

theorem e2e_orders : ∀ x ∈ e2eOrders, readOrder exTexture x.2.conf.party (writeOrder exTexture x.2) = some x.2 := by
  decide +kernel

theorem e2e_founding : e2eSteps.filterMap (founding exTexture) = e2eOrders.map (fun x => .found x.1 (x.2.kind 1)) := by
  unfold e2eSteps
  rw [List.filterMap_append, List.filterMap_map, List.filterMap_map]
  have h1 : e2eOrders.filterMap (founding exTexture ∘ fun x => .found x.1 x.2.conf.party 1 (writeOrder exTexture x.2)) =
      e2eOrders.map (fun x => .found x.1 (x.2.kind 1)) := by
    refine filterMap_all (fun x hx => ?_)
    show (readOrder exTexture _ _).map _ = _
    rw [e2e_orders x hx]
    rfl
  have h2 : e2eTxs.filterMap (founding exTexture ∘ fun tx => .tx (written exTexture tx)) = [] :=
    List.filterMap_eq_nil_iff.mpr (fun x _ => rfl)
  rw [h1, h2, List.append_nil]

def e2eSetup : Chain.Setup := fun a => (e2eOrders.map (fun x => (x.1, x.2.kind 1))).lookup a

theorem e2e_setup : textSetup exTexture e2eSteps = e2eSetup := by
  funext a
  unfold textSetup e2eSetup
  rw [e2e_founding]
  generalize e2eOrders = l
  induction l with
  | nil => rfl
  | cons x t ih =>
    simp only [List.map_cons, Chain.setupOf, List.lookup_cons]
    by_cases hab : a = x.1
    · simp [hab]
    · have : (a == x.1) = false := by simpa using hab
      rw [if_neg hab, this]
      exact ih

theorem e2e_read : ∀ tx ∈ e2eTxs, ∀ m ∈ tx.msgs,
    (partyAt e2eSetup m.1).bind (fun k => readFor exTexture k (write exTexture m.2.2)) = some m.2.2 := by
  decide +kernel

theorem e2e_meaning {tx : Chain.Tx} (h : tx ∈ e2eTxs) : meaning exTexture e2eSetup (written exTexture tx) = tx := by
  have key : tx.msgs.map ((fun m => (m.1, m.2.1, meant exTexture e2eSetup m.1 m.2.2)) ∘
      (fun m => (m.1, m.2.1, write exTexture m.2.2))) = tx.msgs := by
    refine (List.map_congr_left (fun m hm => ?_)).trans (List.map_id _)
    have := e2e_read tx h m hm
    show (m.1, m.2.1, meant exTexture e2eSetup m.1 (write exTexture m.2.2)) = m
    have e : meant exTexture e2eSetup m.1 (write exTexture m.2.2) = m.2.2 := by
      unfold partyAt at this
      unfold meant
      cases hs : e2eSetup m.1 with
      | none => rw [hs] at this; cases this
      | some k =>
        rw [hs] at this
        have this : readFor exTexture (party k.init) (write exTexture m.2.2) = some m.2.2 := this
        simp only [this]
    rw [e]
  unfold meaning written
  rw [List.map_map, key]

theorem e2e_plain : steps exTexture e2eSteps = e2ePlain := by
  unfold steps
  rw [e2e_setup]
  unfold e2eSteps e2ePlain
  rw [List.filterMap_append, List.filterMap_map, List.filterMap_map]
  refine congrArg₂ (· ++ ·) ?_ ?_
  · refine filterMap_all (fun x hx => ?_)
    show (readOrder exTexture _ _).map _ = _
    rw [e2e_orders x hx]
    rfl
  · refine filterMap_all (fun tx htx => ?_)
    show some (Chain.Step.tx (meaning exTexture e2eSetup (written exTexture tx))) = _
    rw [e2e_meaning htx]

theorem e2e_apart : TextApart exTexture e2eSteps := by
  intro t ht a ha
  have hm : a ∈ e2eOrders.map Prod.fst := by
    rw [e2e_setup] at ha
    by_contra h
    refine ha (List.lookup_eq_none_iff.mpr (fun p hp => ?_))
    obtain ⟨x, hx, rfl⟩ := List.mem_map.mp hp
    have : a ≠ x.1 := by rintro rfl; exact h (List.mem_map_of_mem hx)
    simpa using this
  rcases List.mem_append.mp ht with ht | ht
  · obtain ⟨x, -, hx⟩ := List.mem_map.mp ht
    cases hx
  · obtain ⟨tx, htx, hx⟩ := List.mem_map.mp ht
    cases hx
    have h : ∀ tx ∈ e2eTxs, ∀ a ∈ e2eOrders.map Prod.fst, tx.sender ≠ a ∧ tx.accepts a = false := by decide +kernel
    exact h tx htx a hm

theorem e2e_log : textDeployedLog exTexture exP e2eSteps = Chain.deployedLog exP e2ePlain := by
  rw [(C105_text (P := exP) ex_sound exP_bytes e2eSteps e2e_range).2.1, e2e_plain]

theorem e2e_world : textDeployedWorld exTexture exP e2eSteps = Chain.deployedWorld exP e2ePlain := by
  rw [(C105_text (P := exP) ex_sound exP_bytes e2eSteps e2e_range).1, e2e_plain]

/-- the transactions that succeeded, and their calls -/
def e2eDone : List Chain.Tx := Chain.succeeded exP e2ePlain
def e2eCalls : List Chain.Entry := Chain.log exP e2eSetup e2eDone

theorem e2e_calls : e2eCalls = Chain.log exP (textSetup exTexture e2eSteps) (Chain.succeeded exP (steps exTexture e2eSteps)) := by
  rw [e2e_plain, e2e_setup]; rfl

example : e2eCalls.map (fun e => (e.p.sender, e.p.target)) =
    [(1, 10), (5, 10), (5, 10), (1, 10), (1, 14), (1, 14), (1, 18), (5, 18), (9, 19), (19, 18),
      (9, 13), (13, 12), (5, 12), (9, 13), (13, 14), (14, 17), (9, 19), (19, 18), (5, 18), (18, 11)] := by
  decide +kernel

/-! ### The source chain -/

/-- the receipt of the transaction: a contract call, at index 1 -/
def e2eReceipt : Ampd.Evm.Receipt RawLog where
  txHash := List.replicate 32 170
  blockNumber := some 80
  logs := [⟨List.replicate 20 17,
    { topics := [exLib.topic Ampd.Evm.contractCallText, List.replicate 12 0 ++ List.replicate 20 34, List.replicate 32 7]
      data := match Encoding.Abi.ethabiEncode [.elem (.bytes (utf8Bytes sui)), .elem (.bytes (utf8Bytes Prover.exAddress)),
          .elem (.bytes [1])] with
        | .ok b => b
        | .error _ => [] }, some (List.replicate 32 170), some 1⟩]

/-- the node knows this receipt only -/
def e2eEnv : Ampd.Evm.Env RawLog where
  latestBlock := 5
  node := { finalizedBlock := none, blockNumber := some 100,
            receipt := fun h => some (if h = List.replicate 32 170 then some e2eReceipt else none) }
  accepted := true
  order := id

def e2eSource (V : Addr) : TextSource :=
  if V = 12 then .evm exLib (.other eth) (fun _ E => E = e2eEnv) (fun r => r = e2eReceipt) else .sui (fun _ _ => False) (fun _ => False)

/-- the poll that the verifier opened -/
def e2eStarted : VV.Event := .messagesPollStarted [⟨e2eHash, 1, Prover.exAddress, sui, e2eUser, List.replicate 32 7⟩]
  ⟨1, eth, e2eGateway, 1, 14, [5]⟩

theorem e2e12 : (Chain.verifierLog 12 e2eCalls).map Chain.exView =
    [(13, .verifyMessages [e2eMsg], some [5], some e2eStarted),
     (5, .vote 1 [.succeededOnChain], some [5], some (.voted 1 5))] := by
  decide +kernel

theorem e2e16 : (Chain.verifierLog 16 e2eCalls).map Chain.exView = [] := by decide +kernel

theorem e2e_event : publishVerifier exTexture.T 12 e2eStarted ∈ eventStream exTexture.T (textDeployedLog exTexture exP e2eSteps) := by
  rw [eventStream_blind (C105_history (P := exP) ex_sound exP_bytes e2eSteps e2e_range e2e_apart).2.1, ← e2e_calls]
  have h : (13, .verifyMessages [e2eMsg], some [5], some e2eStarted) ∈ (Chain.verifierLog 12 e2eCalls).map Chain.exView := by
    rw [e2e12]; exact List.mem_cons_self ..
  obtain ⟨x, hx, e⟩ := List.mem_map.mp h
  obtain ⟨en, hen, ht, hact⟩ := Chain.mem_verifierLog.mp hx
  have hev : x.2.event = some e2eStarted := congrArg (fun y => y.2.2.2) e
  refine List.mem_flatMap.mpr ⟨en, hen, ?_⟩
  rw [ht, hact]
  show _ ∈ x.2.event.toList.map _
  rw [hev]
  exact List.mem_cons_self ..

theorem e2e_fits : EventFits e2eStarted := by
  refine ⟨⟨by decide, by decide, by decide⟩, ?_⟩
  intro c hc
  simp only [List.mem_singleton] at hc
  subst hc
  exact ⟨by decide, by unfold IsBytes; decide, by decide⟩

/-- worker 5 sends no other vote than the text of its daemon -/
theorem e2e_honest : TextHonest exTexture exP e2eSteps (e2eSource 12) e2eVerifier 12 5 := by
  refine ⟨?_, ?_⟩
  · intro t ht hs m hm hV _
    rcases List.mem_append.mp ht with ht | ht
    · obtain ⟨x, -, hx⟩ := List.mem_map.mp ht
      cases hx
    · obtain ⟨tx, htx, hx⟩ := List.mem_map.mp ht
      cases hx
      obtain ⟨m', hm', rfl⟩ := List.mem_map.mp hm
      have h : ∀ tx ∈ e2eTxs, tx.sender = 5 → ∀ m ∈ tx.msgs, m.1 = 12 → m.2.2 = .verifier (.vote 1 [.succeededOnChain]) := by
        decide +kernel
      have hmsg := h tx htx hs m' hm' hV
      refine ⟨_, e2e_event, .vote 1 [.succeededOnChain], ?_, ?_⟩
      · obtain ⟨e, h1, h2, -⟩ := C94_evm_handlers (finite := exTexture.finite) exTexture.L ex_sound.faithful
          (Ampd.Evm.decodeLog exLib) ⟨5, 12, .other eth⟩ e2eEnv 12 e2eStarted e2e_fits
        refine ⟨e, h1, e2eEnv, rfl, ?_, Or.inl ?_⟩
        · constructor <;> intro x hx <;> (simp [e2eEnv] at hx; try (subst hx; decide))
        · rw [h2]; decide +kernel
      · show write exTexture m'.2.2 = _
        rw [hmsg]
        exact congrArg Json.render (rfl : jsonOf exTexture.T exTexture.u (.verifier (.vote 1 [.succeededOnChain])) =
          jsonMsg (.vote 1 [.succeededOnChain]))
  · intro E h r b hE hr _ _
    have hE : E = e2eEnv := hE
    subst hE
    simp only [e2eEnv, Option.some.injEq] at hr
    split at hr
    · simpa using hr.symm
    · simp at hr

theorem e2e_gateways {g : Addr} {gc : Gateway.Config} (h : textSetup exTexture e2eSteps g = some (.gateway gc)) :
    gc = ⟨12, 14⟩ ∨ gc = ⟨16, 14⟩ := by
  rw [e2e_setup] at h
  have hm : (g, Chain.Kind.gateway gc) ∈ e2eOrders.map (fun x => (x.1, x.2.kind 1)) := by
    unfold e2eSetup at h
    generalize e2eOrders.map (fun x => (x.1, x.2.kind 1)) = l at h ⊢
    induction l with
    | nil => cases h
    | cons x t ih =>
      rw [List.lookup_cons] at h
      split at h
      · rename_i hb
        have h1 : g = x.1 := by simpa using hb
        have h2 : x.2 = .gateway gc := by simpa using h
        exact List.mem_cons.mpr (Or.inl (by rw [h1, ← h2]))
      · exact List.mem_cons_of_mem _ (ih h)
  obtain ⟨x, hx, e⟩ := List.mem_map.mp hm
  have e2 : x.2.kind 1 = .gateway gc := congrArg Prod.snd e
  unfold e2eOrders at hx
  simp only [List.mem_cons, List.not_mem_nil, or_false] at hx
  rcases hx with rfl | rfl | rfl | rfl | rfl | rfl | rfl | rfl | rfl | rfl <;> cases e2
  · exact Or.inl rfl
  · exact Or.inr rfl

theorem e2e_watched : AllTextWatched exTexture exP e2eSteps e2eCalls 14 e2eSource := by
  intro n g gc vc _ hg hv l₁ e l₂ hl ht c r pm hact hpm ws hws voters hnd hsub hq
  have hi := Chain.inv exP e2eSetup e2eDone
  have hmem : (c, r) ∈ Chain.verifierLog gc.verifier e2eCalls :=
    Chain.mem_verifierLog.mpr ⟨e, by rw [hl]; simp, ht, hact⟩
  rcases e2e_gateways hg with rfl | rfl
  · rw [e2e_setup] at hv hws
    have hvc : vc = e2eVerifier := (Chain.Kind.verifier.inj (Option.some.inj hv)).symm
    subst hvc
    obtain ⟨c', r', g1, _, _, g2⟩ := hi.verifier_call hl (cfg := e2eVerifier) (by unfold VV.Config.Valid; decide) (by rw [ht]; exact hv)
    rw [hact] at g1
    simp only [Chain.Act.verifier.injEq] at g1
    obtain ⟨rfl, rfl⟩ := g1
    have hall : ((Chain.verifierLog 12 e2eCalls).map Chain.exView).all (fun x => x.2.2.1 = some [5]) = true := by rw [e2e12]; rfl
    have h1 := of_decide_eq_true (List.all_eq_true.mp hall _ (List.mem_map_of_mem hmem))
    have h2 : c.workers.map (fun l => l.map (fun x => x.address)) = some [5] := h1
    rw [g2, hws] at h2
    have hws' : ws.map (·.address) = [5] := Option.some.inj h2
    have hlen : ws.length = 1 := by simpa using congrArg List.length hws'
    rw [hlen] at hq
    match voters, hsub, hq with
    | [], _, hq => exact absurd hq (by decide)
    | a :: t, hsub, _ =>
      obtain ⟨w, hw, rfl⟩ := hsub a (List.mem_cons_self ..)
      have : w.address ∈ ws.map (·.address) := List.mem_map_of_mem hw
      rw [hws'] at this
      have h5 : w.address = 5 := by simpa using this
      refine ⟨w.address, List.mem_cons_self .., ?_⟩
      rw [h5]
      exact e2e_honest
  · have he' : Chain.exView (c, r) ∈ (Chain.verifierLog 16 e2eCalls).map Chain.exView := List.mem_map_of_mem hmem
    rw [e2e16] at he'
    cases he'

theorem e2e_bytes : ∀ V, (e2eSource V).Bytes := by
  intro V
  unfold e2eSource
  split
  · intro r hr
    have hr : r = e2eReceipt := hr
    subst hr
    unfold Ampd.Evm.Words
    decide +kernel
  · trivial

theorem e2e_registered : ∀ e ∈ textDeployedLog exTexture exP e2eSteps, e.p.target = 14 → ∀ n g,
    e.p.msg = .router (.registerChain n g) ∨ e.p.msg = .router (.upgradeGateway n g) →
    ∃ gc vc, textSetup exTexture e2eSteps g = some (.gateway gc) ∧ textSetup exTexture e2eSteps gc.verifier = some (.verifier vc) := by
  intro e he _ n g hm
  rw [e2e_setup]
  have key : (textDeployedLog exTexture exP e2eSteps).all (fun e => exRegisters e.p.msg) = true := by
    rw [e2e_log]; decide +kernel
  have h := List.all_eq_true.mp key e he
  have hg : g = 13 ∨ g = 17 := by
    rcases hm with hm | hm <;> rw [hm] at h <;> exact of_decide_eq_true h
  rcases hg with rfl | rfl
  · exact ⟨_, _, rfl, rfl⟩
  · exact ⟨_, _, rfl, rfl⟩

theorem e2e_message : Chain.askGateway (textDeployedWorld exTexture exP e2eSteps) 17 [e2eMsg.ccId] = .ok [e2eMsg] := by
  rw [e2e_world]; decide +kernel

theorem e2e_no_nexus : ¬ Chain.InjectedByNexus e2eCalls 15 ⟨2, 14⟩ e2eMsg := by
  rintro ⟨e, he, ht, -⟩
  have key : e2eCalls.all (fun e => decide (e.p.target ≠ 15)) = true := by decide +kernel
  exact of_decide_eq_true (List.all_eq_true.mp key e he) ht

/-- a message of the chain is in the log of the receipt -/
theorem e2e_shown {m : Router.Message} (hc : m.ccId = e2eMsg.ccId) (h : OnSource exTexture exP e2eSteps e2eCalls 14 e2eSource m) :
    ∃ gateway src dest, Ampd.Evm.ShowsCall exLib exTexture.L gateway e2eReceipt
      ⟨List.replicate 32 170, 1, m.destinationAddress, dest, src, m.payloadHash⟩ ∧ gateway = List.replicate 20 17 := by
  obtain ⟨g, gc, vc, -, h2, h3, h4, h5⟩ := h
  rcases e2e_gateways h2 with rfl | rfl
  · rw [e2e_setup] at h3
    have hvc : vc = e2eVerifier := (Chain.Kind.verifier.inj (Option.some.inj h3)).symm
    subst hvc
    obtain ⟨tx, i, hh, gateway, src, dest, r, k1, k2, k3, -, -, k6, k7⟩ := h5
    have k6 : r = e2eReceipt := k6
    subst k6
    rw [hc] at k1
    have e1 : some (tx, i) = some (e2eHash, 1) := by rw [← k1]; decide +kernel
    simp only [Option.some.injEq, Prod.mk.injEq] at e1
    obtain ⟨rfl, rfl⟩ := e1
    have e2 : some hh = some (List.replicate 32 170) := by rw [← k2]; decide +kernel
    have e3 : some gateway = some (List.replicate 20 17) := by rw [← k3]; decide +kernel
    simp only [Option.some.injEq] at e2 e3
    subst e2 e3
    exact ⟨_, src, dest, k7, rfl⟩
  · rw [e2e_setup] at h3
    have hvc : vc = ⟨10, svc, "0x2".toList, ⟨2, 3⟩, 10, 1, sui, 11⟩ := (Chain.Kind.verifier.inj (Option.some.inj h3)).symm
    subst hvc
    rw [hc] at h4
    exact absurd h4 (by decide)

/-- `C113_delivered` applies: the message that the gateway of `sui` offers is in the bytes of a log of `eth` -/
example : ∃ gateway src dest, Ampd.Evm.ShowsCall exLib exTexture.L gateway e2eReceipt
    ⟨List.replicate 32 170, 1, e2eMsg.destinationAddress, dest, src, e2eMsg.payloadHash⟩ ∧ gateway = List.replicate 20 17 :=
  e2e_shown rfl (((C113_delivered ex_sound exP_bytes e2eSteps e2e_range e2e_apart e2eCalls e2e_calls 14 ⟨1, 1, 15⟩ ⟨2, 14⟩
    (by rw [e2e_setup]; rfl) (by rw [e2e_setup]; rfl) e2e_registered e2eSource e2e_bytes e2e_watched 17 ⟨16, 14⟩
    (by rw [e2e_setup]; rfl) rfl _ _ e2e_message).2).resolve_left e2e_no_nexus)

/-! ### The text of a proof -/

theorem e2e_proof : ∃ text p d, query exTexture exP (textDeployedWorld exTexture exP e2eSteps) 19
      ((UserQuestion.proof 1).json exTexture.T).render = some text ∧
    (UserQuestion.proof 1).readText exTexture text = some (.proof 1 p) ∧ p.status = .completed d ∧
    p.messageIds = [e2eMsg.ccId] := by
  have key : (match query exTexture exP (textDeployedWorld exTexture exP e2eSteps) 19
        ((UserQuestion.proof 1).json exTexture.T).render with
      | some text => match (UserQuestion.proof 1).readText exTexture text with
        | some (.proof n p) => match p.status with
          | .completed _ => decide (n = 1 ∧ p.messageIds = [e2eMsg.ccId])
          | .pending => false
        | _ => false
      | none => false) = true := by
    rw [e2e_world]; decide +kernel
  split at key
  · rename_i text h1
    split at key
    · rename_i n p h2
      split at key
      · rename_i d h3
        have h := of_decide_eq_true key
        rw [h.1] at h2
        exact ⟨text, p, d, h1, h2, h3, h.2⟩
      · simp at key
    · simp at key
  · simp at key

/-- the worker set of the prover -/
def e2eSet : Multisig.WorkerSet := ((Chain.currentSet (Chain.worldAfter exP e2eSetup e2eDone) 19).getD ⟨[], 0, 0⟩)

theorem e2e_distinct : Chain.SetsDistinctAt exP e2eCalls 18 :=
  Chain.setsDistinctAt_of (sets := [e2eSet]) (by decide +kernel) (by decide +kernel)

theorem e2e_batches : Chain.BatchIdsApart exP e2eSetup e2eCalls 19 Chain.exProver svc .ecdsa :=
  Chain.batchIdsApart_of (n := 2) (d := 3) (by decide +kernel) [(some e2eSet, []),
    (none, [e2eMsg]), (some { e2eSet with createdAt := 9 }, [e2eMsg])] (by decide +kernel) (by decide +kernel)

/-- `C113_proof_partial` applies: the text of the proof carries what was signed for one message, which is in the bytes of a log -/
example : ∃ text p d cur digest signers, ∃ m : Router.Message,
    query exTexture exP (textDeployedWorld exTexture exP e2eSteps) 19 ((UserQuestion.proof 1).json exTexture.T).render = some text ∧
    (UserQuestion.proof 1).readText exTexture text = some (.proof 1 p) ∧ m.ccId = e2eMsg.ccId ∧
    Prover.QuorumSigned exP.C cur digest signers ∧ Prover.executeDataOf exP.X .bcs p.data cur.threshold signers = .ok d ∧
    (Chain.InjectedByNexus e2eCalls 15 ⟨2, 14⟩ m ∨
      ∃ gateway src dest, Ampd.Evm.ShowsCall exLib exTexture.L gateway e2eReceipt
        ⟨List.replicate 32 170, 1, m.destinationAddress, dest, src, m.payloadHash⟩ ∧ gateway = List.replicate 20 17) := by
  obtain ⟨text, p, d, h1, h2, h3, h4⟩ := e2e_proof
  obtain ⟨_, _, _, _, cur, digest, signers, _, _, msgs, _, _, _, _, _, x6, _, x8, x9, x10⟩ :=
    C113_proof_partial ex_sound exP_octets exP_four e2eSteps e2e_range e2e_apart e2eCalls e2e_calls 14 ⟨1, 1, 15⟩ ⟨2, 14⟩
      (by rw [e2e_setup]; rfl) (by rw [e2e_setup]; rfl) e2e_registered e2eSource e2e_bytes e2e_watched 19
      Chain.exProver svc .ecdsa (by rw [e2e_setup]; rfl) _ (by rw [e2e_setup]; rfl) _ (by rw [e2e_setup]; rfl) rfl e2e_distinct
      (by rw [e2e_setup]; exact e2e_batches) 1 (by decide) text 1 p d h1 h2 h3
  rw [h4] at x6
  cases msgs with
  | nil => exact absurd (congrArg List.length x6) (by decide)
  | cons m t =>
    have hm : m.ccId = e2eMsg.ccId := (List.head_eq_of_cons_eq x6).symm
    exact ⟨text, p, d, cur, digest, signers, m, h1, h2, hm, x8, x9,
      (x10 m (List.mem_cons_self ..)).imp_right (fun h => e2e_shown hm h)⟩

end Amp.Wire
