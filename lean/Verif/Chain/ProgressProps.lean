import Verif.Chain.Props
import Verif.VV.ProgressProps

/-!
# C80: verified messages can be delivered

The contracts of the chain together never get stuck: whoever asks the gateway of the source chain to route
verified messages has them delivered in the same transaction, unless a chain is frozen.
-/

namespace Amp.Chain

open Amp.Router (ChainName CCId Message)

/-- what the router at `R` says about a chain (`GetChainInfo`) -/
def chainInfo (w : World) (R : Addr) (n : ChainName) : Option Router.ChainEndpoint :=
  match w R with
  | some (.router s) => Router.getChainInfo s n
  | _ => none

/-- The router at `R` can send to chain `n`: it is registered with a gateway of this repository that takes
messages from `R`, and not frozen for outgoing messages; or it is not registered and the nexus gateway takes
messages from `R`. -/
def Open (setup : Setup) (w : World) (R : Addr) (rc : Router.Config) (n : ChainName) : Prop :=
  (∃ ep gc, chainInfo w R n = some ep ∧ ep.frozenIn .outgoing = false ∧
    setup ep.gateway = some (.gateway gc) ∧ gc.router = R) ∨
  (chainInfo w R n = none ∧ ∃ nc, setup rc.nexusGateway = some (.nexus nc) ∧ nc.router = R)

/-- `m` has arrived: the gateway of its destination chain answers with it, or, if that chain is not registered, it
was handed to the nexus module. -/
def Arrived (P : Params) (setup : Setup) (txs : List Tx) (R : Addr) (rc : Router.Config) (m : Message) : Prop :=
  (∃ ep, chainInfo (worldAfter P setup txs) R m.destinationChain = some ep ∧
    askGateway (worldAfter P setup txs) ep.gateway [m.ccId] = .ok [m]) ∨
  (chainInfo (worldAfter P setup txs) R m.destinationChain = none ∧
    ∃ nc, setup rc.nexusGateway = some (.nexus nc) ∧
      m.ccId ∈ Nexus.forwardedIds (Nexus.history nc (nexusCalls rc.nexusGateway (log P setup txs))))

/-! ### The verifier's answer -/

theorem reported_of_verified {H : VV.Hashes} {s : VV.State} {ms : List Message} {ans : List (CCId × Bool)}
    (hnd : (ms.map (·.ccId)).Nodup) (h : VV.isVerified H s ms = .ok ans) {m : Message} (hm : m ∈ ms)
    (hr : VV.msgStatus H s m = .ok .verified) : Gateway.ReportedVerified ans m.ccId = true := by
  unfold VV.isVerified at h
  have hids : ∀ {t : List Message} {bs}, mapE (VV.isVerified1 H s) t = .ok bs →
      bs.map Prod.fst = t.map (·.ccId) := by
    intro t
    induction t with
    | nil => intro bs h; simp only [mapE, Except.ok.injEq] at h; subst h; rfl
    | cons y t ih =>
      intro bs h
      obtain ⟨c, cs, h3, h4, rfl⟩ := mapE_cons_ok.mp h
      unfold VV.isVerified1 at h3
      split at h3
      · simp at h3
      · simp only [Except.ok.injEq] at h3
        subst h3
        rw [List.map_cons, List.map_cons, ih h4]
  have hmem : (m.ccId, true) ∈ ans := by
    obtain ⟨i, hi⟩ := List.mem_iff_getElem?.mp hm
    obtain ⟨b, h1, h2⟩ := mapE_getElem? h hi
    simp only [VV.isVerified1, hr, Except.ok.injEq] at h1
    rw [← h1] at h2
    exact List.mem_of_getElem? (by simpa using h2)
  have hnd' : (ans.map Prod.fst).Nodup := by rw [hids h]; exact hnd
  unfold Gateway.ReportedVerified
  have hall : ∀ e ∈ ans.filter (fun e => e.1 = m.ccId), e = (m.ccId, true) := by
    intro e he
    obtain ⟨h1, h2⟩ := List.mem_filter.mp he
    exact List.inj_on_of_nodup_map hnd' h1 hmem (by simpa using h2)
  cases hl : (ans.filter (fun e => e.1 = m.ccId)).getLast? with
  | none =>
    rw [List.getLast?_eq_none_iff] at hl
    have : (m.ccId, true) ∈ ans.filter (fun e => e.1 = m.ccId) := List.mem_filter.mpr ⟨hmem, by simp⟩
    rw [hl] at this
    simp at this
  | some e => simp [hall e (List.mem_of_getLast? hl)]

/-! ### Delivering the router's messages -/

/-- the messages of the dispatches to `a` -/
def msgsTo (a : Addr) (ds : List Router.Dispatch) : List Message :=
  (ds.filter (fun d => d.contract = a)).flatMap Router.Dispatch.msgs

theorem msgsTo_cons_self {a : Addr} {d : Router.Dispatch} {ds : List Router.Dispatch} (h : d.contract = a) :
    msgsTo a (d :: ds) = d.msgs ++ msgsTo a ds := by
  simp [msgsTo, h]

theorem msgsTo_cons_ne {a : Addr} {d : Router.Dispatch} {ds : List Router.Dispatch} (h : d.contract ≠ a) :
    msgsTo a (d :: ds) = msgsTo a ds := by
  simp [msgsTo, h]

theorem msgsTo_sublist (a : Addr) (ds : List Router.Dispatch) :
    (msgsTo a ds).Sublist (ds.flatMap Router.Dispatch.msgs) := by
  induction ds with
  | nil => exact List.Sublist.slnil
  | cons d t ih =>
    rw [List.flatMap_cons]
    by_cases h : d.contract = a
    · rw [msgsTo_cons_self h]
      exact List.Sublist.append (List.Sublist.refl _) ih
    · rw [msgsTo_cons_ne h]
      exact ih.trans (List.sublist_append_right _ _)

/-- a contract that takes messages from `R` -/
def Takes (w : World) (R a : Addr) : Prop :=
  (∃ s, w a = some (.gateway s) ∧ s.config.router = R) ∨ (∃ s, w a = some (.nexus s) ∧ s.config.router = R)

theorem hasDuplicates_false {l : List CCId} (h : l.Nodup) : Gateway.hasDuplicates l = false := by
  cases hd : Gateway.hasDuplicates l with
  | false => rfl
  | true => exact absurd h ((Gateway.hasDuplicates_iff l).mp hd)

theorem deliver_gateway (P : Params) (b : Block) {w : World} {R a : Addr} {s : Gateway.State}
    (hw : w a = some (.gateway s)) (hR : s.config.router = R) {ms : List Message}
    (hnd : (ms.map (·.ccId)).Nodup) :
    ∃ es, deliver P b w ⟨R, a, [], .route ms⟩ =
      .ok (w.set a (.gateway { s with outgoing := Gateway.saveAll s.outgoing ms }), es, []) := by
  have hx : Gateway.exec s ⟨R, askVerifier P w s.config.verifier, .routeMessages ms⟩ =
      .ok ({ s with outgoing := Gateway.saveAll s.outgoing ms }, { events := ms.map .messageRouted }) := by
    simp only [Gateway.exec, Gateway.routeOutgoing, hR, hasDuplicates_false hnd, if_true]
    simp
  refine ⟨[⟨⟨R, a, [], .route ms⟩, .gateway ⟨R, askVerifier P w s.config.verifier, .routeMessages ms⟩
    { events := ms.map .messageRouted }⟩], ?_⟩
  unfold deliver
  simp only [hw]
  unfold call
  simp only [hw, Msg.toGateway, hx]
  rfl

/-- the nexus gateway after taking a batch -/
def nexusTook (s : Nexus.State) (ms : List Message) : Nexus.State :=
  { s with routed := Nexus.markAll s.routed (ms.filter (fun m => (s.routed m.ccId).isNone)) }

theorem deliver_nexus (P : Params) (b : Block) {w : World} {R a : Addr} {s : Nexus.State}
    (hw : w a = some (.nexus s)) (hR : s.config.router = R) (ms : List Message) :
    ∃ es, deliver P b w ⟨R, a, [], .route ms⟩ =
      .ok (w.set a (.nexus (nexusTook s ms)), es, []) := by
  have hx : Nexus.exec s ⟨R, .routeMessages ms⟩ =
      .ok (nexusTook s ms,
        { toModule := (ms.filter (fun m => (s.routed m.ccId).isNone)).map Nexus.toNexus,
          forwarded := ms.filter (fun m => (s.routed m.ccId).isNone) }) := by
    simp only [Nexus.exec, Nexus.routeToNexus, hR, ne_eq, not_true_eq_false, if_false]
    rfl
  refine ⟨[⟨⟨R, a, [], .route ms⟩, .nexus ⟨R, .routeMessages ms⟩
    { toModule := (ms.filter (fun m => (s.routed m.ccId).isNone)).map Nexus.toNexus,
      forwarded := ms.filter (fun m => (s.routed m.ccId).isNone) }⟩], ?_⟩
  unfold deliver
  simp only [hw]
  unfold call
  simp only [hw, Msg.toNexus, hx]
  rfl

theorem saveAll_append (kv : KV CCId Message) (xs ys : List Message) :
    Gateway.saveAll kv (xs ++ ys) = Gateway.saveAll (Gateway.saveAll kv xs) ys := by
  simp [Gateway.saveAll]

theorem run_dispatches (P : Params) (b : Block) (accepts : Addr → Bool) (R : Addr) :
    ∀ (ds : List Router.Dispatch) (w : World) (n : Nat), ds.length ≤ n →
      (∀ d ∈ ds, (d.msgs.map (·.ccId)).Nodup ∧ Takes w R d.contract) →
      ∃ w' es, run P b accepts n w (ds.map (fun d => ⟨R, d.contract, [], .route d.msgs⟩)) = .ok (w', es) ∧
        ∀ a, (∀ s, w a = some (.gateway s) →
              w' a = some (.gateway { s with outgoing := Gateway.saveAll s.outgoing (msgsTo a ds) })) ∧
          (∀ s, w a = some (.nexus s) → ∃ s', w' a = some (.nexus s') ∧
              (∀ id, (s.routed id).isSome → (s'.routed id).isSome) ∧
              ∀ m ∈ msgsTo a ds, (s'.routed m.ccId).isSome) ∧
          (∀ s, w a = some (.router s) → w' a = some (.router s)) := by
  intro ds
  induction ds with
  | nil =>
    intro w n _ _
    refine ⟨w, [], by simp [run], fun a => ⟨?_, ?_, fun _ h => h⟩⟩
    · intro s h; simpa [msgsTo, Gateway.saveAll] using h
    · intro s h; exact ⟨s, h, fun _ h => h, by simp [msgsTo]⟩
  | cons d t ih =>
    intro w n hn hd
    obtain ⟨k, rfl⟩ : ∃ k, n = k + 1 := ⟨n - 1, by simp only [List.length_cons] at hn; omega⟩
    simp only [List.length_cons, Nat.add_le_add_iff_right] at hn
    obtain ⟨hnd, htk⟩ := hd d (List.mem_cons_self ..)
    rw [List.map_cons, run]
    rcases htk with ⟨s, hw, hR⟩ | ⟨s, hw, hR⟩
    · obtain ⟨es, hdel⟩ := deliver_gateway P b hw hR hnd
      rw [if_neg (by simp [hw]), hdel]
      simp only [List.nil_append]
      obtain ⟨w', es', hrun, hpost⟩ := ih (w.set d.contract
        (.gateway { s with outgoing := Gateway.saveAll s.outgoing d.msgs })) k hn (by
          intro x hx
          obtain ⟨h1, h2⟩ := hd x (List.mem_cons_of_mem _ hx)
          refine ⟨h1, ?_⟩
          by_cases he : x.contract = d.contract
          · exact Or.inl ⟨{ s with outgoing := Gateway.saveAll s.outgoing d.msgs },
              by rw [he]; exact KV.set_self _ _ _, hR⟩
          · unfold Takes
            rw [KV.set_ne _ _ he]
            exact h2)
      rw [hrun]
      refine ⟨w', es ++ es', rfl, ?_⟩
      intro a
      obtain ⟨p1, p2, p3⟩ := hpost a
      by_cases he : a = d.contract
      · subst he
        rw [msgsTo_cons_self rfl]
        refine ⟨?_, ?_, ?_⟩
        · intro s0 h0
          rw [hw] at h0
          cases h0
          rw [p1 _ (KV.set_self _ _ _), saveAll_append]
        · intro s0 h0; rw [hw] at h0; cases h0
        · intro s0 h0; rw [hw] at h0; cases h0
      · rw [KV.set_ne _ _ he] at p1 p2 p3
        rw [msgsTo_cons_ne (Ne.symm he)]
        exact ⟨p1, p2, p3⟩
    · obtain ⟨es, hdel⟩ := deliver_nexus P b hw hR d.msgs
      rw [if_neg (by simp [hw]), hdel]
      simp only [List.nil_append]
      obtain ⟨w', es', hrun, hpost⟩ := ih (w.set d.contract (.nexus (nexusTook s d.msgs))) k hn (by
          intro x hx
          obtain ⟨h1, h2⟩ := hd x (List.mem_cons_of_mem _ hx)
          refine ⟨h1, ?_⟩
          by_cases he : x.contract = d.contract
          · exact Or.inr ⟨nexusTook s d.msgs, by rw [he]; exact KV.set_self _ _ _, hR⟩
          · unfold Takes
            rw [KV.set_ne _ _ he]
            exact h2)
      rw [hrun]
      refine ⟨w', es ++ es', rfl, ?_⟩
      intro a
      obtain ⟨p1, p2, p3⟩ := hpost a
      by_cases he : a = d.contract
      · subst he
        rw [msgsTo_cons_self rfl]
        refine ⟨?_, ?_, ?_⟩
        · intro s0 h0; rw [hw] at h0; cases h0
        · intro s0 h0
          rw [hw] at h0
          cases h0
          obtain ⟨s', q1, q2, q3⟩ := p2 _ (KV.set_self _ _ _)
          refine ⟨s', q1, ?_, ?_⟩
          · intro id hid
            exact q2 id ((Nexus.markAll_eq _ _ _).mpr (Or.inl hid))
          · intro m hm
            rcases List.mem_append.mp hm with hm | hm
            · apply q2
              unfold nexusTook
              rw [Nexus.markAll_eq]
              cases hs : s.routed m.ccId with
              | some u => exact Or.inl rfl
              | none =>
                exact Or.inr (List.mem_map_of_mem (f := fun m : Message => m.ccId)
                  (List.mem_filter.mpr ⟨hm, by simp [hs]⟩))
            · exact q3 m hm
        · intro s0 h0; rw [hw] at h0; cases h0
      · rw [KV.set_ne _ _ he] at p1 p2 p3
        rw [msgsTo_cons_ne (Ne.symm he)]
        exact ⟨p1, p2, p3⟩

theorem groupRuns_length {α κ : Type} [DecidableEq κ] (key : α → κ) (l : List α) :
    (Router.groupRuns key l).length ≤ l.length := by
  induction l with
  | nil => simp [Router.groupRuns]
  | cons a t ih =>
    unfold Router.groupRuns
    split
    · simp
    · rename_i k g rest h
      rw [h] at ih
      split <;> simp only [List.length_cons] at ih ⊢ <;> omega

theorem dispatches_flatten {s : Router.State} {sender : Addr} :
    ∀ {gs : List (ChainName × List Message)} {ds : List Router.Dispatch},
      mapE (Router.dispatchGroup s sender) gs = .ok ds →
      ds.flatMap Router.Dispatch.msgs = gs.flatMap Prod.snd := by
  intro gs
  induction gs with
  | nil => intro ds h; simp only [mapE, Except.ok.injEq] at h; subst h; rfl
  | cons g t ih =>
    intro ds h
    obtain ⟨d, ds', h1, h2, rfl⟩ := mapE_cons_ok.mp h
    rw [List.flatMap_cons, List.flatMap_cons, ih h2]
    congr 1
    unfold Router.dispatchGroup at h1
    split at h1
    · split at h1
      · simp at h1
      · simp only [Except.ok.injEq] at h1; rw [← h1]
    · split at h1
      · simp only [Except.ok.injEq] at h1; rw [← h1]
      · simp at h1

theorem log_snoc {P : Params} {setup : Setup} {txs : List Tx} {tx : Tx} {w' : World} {es : List Entry}
    (h : exec P (worldAfter P setup txs) tx = .ok (w', es)) :
    worldAfter P setup (txs ++ [tx]) = w' ∧ log P setup (txs ++ [tx]) = log P setup txs ++ es := by
  refine ⟨runCalls_snoc h, ?_⟩
  unfold log
  rw [outs_snoc h, List.flatMap_append]
  simp

theorem KV.set_same {w : World} {a : Addr} {x : Store} (h : w a = some x) : w.set a x = w := by
  funext b
  by_cases hb : b = a
  · subst hb; rw [KV.set_self, h]
  · rw [KV.set_ne _ _ hb]

theorem saveAll_mem {ms : List Message} (hnd : (ms.map (·.ccId)).Nodup) {m : Message} (hm : m ∈ ms)
    (kv : KV CCId Message) : Gateway.saveAll kv ms m.ccId = some m := by
  rw [Gateway.saveAll_eq]
  have hall : ∀ x ∈ ms.filter (fun x => x.ccId = m.ccId), x = m := by
    intro x hx
    obtain ⟨h1, h2⟩ := List.mem_filter.mp hx
    exact List.inj_on_of_nodup_map hnd h1 hm (by simpa using h2)
  cases hl : (ms.filter (fun x => x.ccId = m.ccId)).getLast? with
  | none =>
    rw [List.getLast?_eq_none_iff] at hl
    have : m ∈ ms.filter (fun x => x.ccId = m.ccId) := List.mem_filter.mpr ⟨hm, by simp⟩
    rw [hl] at this
    simp at this
  | some x => simp [hall x (List.mem_of_getLast? hl)]

/-- what the gateway sends when it is asked, from outside, to route -/
theorem deliver_route {P : Params} {b : Block} {w : World} {p : Pending} {s : Gateway.State}
    (hw : w p.target = some (.gateway s)) (hs : p.sender ≠ s.config.router) {ms : List Message}
    (hm : p.msg.toGateway = some (.routeMessages ms)) (hnd : (ms.map (·.ccId)).Nodup)
    {ans : List (CCId × Bool)} (ha : askVerifier P w s.config.verifier ms = some ans) :
    ∃ es, deliver P b w p = .ok (w, es,
      if ms.filter (fun m => Gateway.ReportedVerified ans m.ccId) = [] then []
      else [⟨p.target, s.config.router, [],
        .route (ms.filter (fun m => Gateway.ReportedVerified ans m.ccId))⟩]) := by
  have hfun : (fun m : Message => Gateway.isVerifiedIn (Gateway.collectMap ans) m) =
      fun m => Gateway.ReportedVerified ans m.ccId := funext (Gateway.isVerifiedIn_eq ans)
  have hx : ∃ r, Gateway.exec s ⟨p.sender, askVerifier P w s.config.verifier, .routeMessages ms⟩ = .ok (s, r) ∧
      r.out = if ms.filter (fun m => Gateway.ReportedVerified ans m.ccId) = [] then []
        else [.route s.config.router (ms.filter (fun m => Gateway.ReportedVerified ans m.ccId))] := by
    simp only [Gateway.exec, if_neg hs, Gateway.routeIncoming, hasDuplicates_false hnd,
      Gateway.partitionByVerified, ha, Bool.false_eq_true, if_false, List.partition_eq_filter_filter]
    refine ⟨_, rfl, ?_⟩
    simp only
    rw [← hfun]
  obtain ⟨r, hx, hr⟩ := hx
  refine ⟨[⟨p, .gateway ⟨p.sender, askVerifier P w s.config.verifier, .routeMessages ms⟩ r⟩], ?_⟩
  unfold deliver
  simp only [hw]
  unfold call
  simp only [hw, hm, hx]
  rw [KV.set_same hw]
  simp only [Entry.sent, Act.outs, hr, Except.ok.injEq, Prod.mk.injEq, true_and]
  split <;> rfl

/-- what the router sends -/
theorem deliver_router {P : Params} {b : Block} {w : World} {g R : Addr} {s : Router.State}
    (hw : w R = some (.router s)) {v : List Message} {r : Router.Resp}
    (hx : Router.exec s ⟨g, .routeMessages v⟩ = .ok (s, r)) :
    ∃ es, deliver P b w ⟨g, R, [], .route v⟩ =
      .ok (w, es, r.dispatched.map (fun d => ⟨R, d.contract, [], .route d.msgs⟩)) := by
  refine ⟨[⟨⟨g, R, [], .route v⟩, .router ⟨g, .routeMessages v⟩ r⟩], ?_⟩
  unfold deliver
  simp only [hw]
  unfold call
  simp only [hw, Msg.toRouter, hx]
  rw [KV.set_same hw]
  simp only [Entry.sent, Act.outs, List.map_map]
  rfl

/-- C80: Whoever asks the gateway `g` of chain `n`, in a transaction of its own with gas for every message, to
route a batch with distinct ids, has all messages of the batch delivered that the gateway's verifier reports as
verified - provided the chain `n` is not frozen, these messages are from `n`, and their destinations are open.
Messages of the batch that are not verified do no harm. -/
theorem C80_route_delivers (P : Params) (setup : Setup) (txs : List Tx) (R : Addr) (rc : Router.Config)
    (hR : setup R = some (.router rc)) (g : Addr) (gc : Gateway.Config) (vc : VV.Config)
    (hg : setup g = some (.gateway gc)) (hgR : gc.router = R) (hv : setup gc.verifier = some (.verifier vc))
    (n : ChainName) (ep : Router.ChainEndpoint) (hn : chainInfo (worldAfter P setup txs) R n = some ep)
    (hep : ep.gateway = g) (hfr : ep.frozenIn .incoming = false)
    (ms : List Message) (hnd : (ms.map (·.ccId)).Nodup)
    (hask : (askVerifier P (worldAfter P setup txs) gc.verifier ms).isSome)
    (hms : ∀ m ∈ ms, askVerifier P (worldAfter P setup txs) gc.verifier [m] = some [(m.ccId, true)] →
      m.ccId.chain = n ∧ Open setup (worldAfter P setup txs) R rc m.destinationChain)
    (tx : Tx) (htx : ∃ funds msg, tx.msgs = [(g, funds, msg)] ∧ msg.toGateway = some (.routeMessages ms))
    (hs : setup tx.sender = none) (hgas : ms.length + 2 ≤ tx.gas) :
    (∃ x, exec P (worldAfter P setup txs) tx = .ok x) ∧
    ∀ m ∈ ms, askVerifier P (worldAfter P setup txs) gc.verifier [m] = some [(m.ccId, true)] →
      Arrived P setup (txs ++ [tx]) R rc m := by
  have hi := inv P setup txs
  obtain ⟨funds, msg, htm, hmsg⟩ := htx
  obtain ⟨ans, hans⟩ := Option.isSome_iff_exists.mp hask
  have wR := hi.router_state hR
  have wg := hi.gateway_state hg
  have wv := hi.verifier_state hv
  have cR := Router.config_reachable rc (routerCalls R (log P setup txs))
  have cg := Gateway.config_reachable gc (gatewayCalls g (log P setup txs))
  have hone := fun m => askVerifier_one (P := P) (m := m) hi hv
  have hiff := fun ms => Router.C19_routed_iff rc (routerCalls R (log P setup txs)) g ms
  have hchain : ∀ k, chainInfo (worldAfter P setup txs) R k =
      Router.getChainInfo (Router.stateAfter rc (routerCalls R (log P setup txs))) k := by
    intro k; unfold chainInfo; rw [wR]
  -- the sender is not a contract, so it is not the router
  have hsend : worldAfter P setup txs tx.sender = none := by
    rw [hi.world]; simp [worldOf, hs]
  have hsR : tx.sender ≠ R := by
    intro he; rw [he, hR] at hs; simp at hs
  have hgN : ∀ nc, setup rc.nexusGateway = some (.nexus nc) → g ≠ rc.nexusGateway := by
    intro nc hnc he; rw [he, hnc] at hg; simp at hg
  -- the verifier reports exactly the verified messages
  have hrep : ∀ m ∈ ms, (Gateway.ReportedVerified ans m.ccId = true ↔
      askVerifier P (worldAfter P setup txs) gc.verifier [m] = some [(m.ccId, true)]) := by
    intro m hm
    rw [hone]
    have hq : VV.isVerified P.H (VV.stateAfter P.H vc (verifierCalls gc.verifier (log P setup txs))) ms =
        .ok ans := by
      unfold askVerifier at hans
      rw [wv] at hans
      simp only at hans
      cases hq : VV.isVerified P.H (VV.stateAfter P.H vc (verifierCalls gc.verifier (log P setup txs))) ms with
      | error x => rw [hq] at hans; simp [answer] at hans
      | ok y => rw [hq] at hans; simp only [answer, Option.some.injEq] at hans; rw [hans]
    exact ⟨isVerified_of_reported hnd hq hm, reported_of_verified hnd hq hm⟩
  obtain ⟨es1, hd1⟩ := deliver_route (P := P) (b := tx.block) (p := ⟨tx.sender, g, funds, msg⟩) wg
    (by rw [cg, hgR]; exact hsR) hmsg hnd (by rw [cg]; exact hans)
  have hexec : exec P (worldAfter P setup txs) tx =
      run P tx.block tx.accepts tx.gas (worldAfter P setup txs) [⟨tx.sender, g, funds, msg⟩] := by
    unfold exec
    rw [if_neg (by simp [hsend]), htm]
    rfl
  obtain ⟨k, hk⟩ : ∃ k, tx.gas = k + 2 := ⟨tx.gas - 2, by omega⟩
  rw [hexec, hk, run, if_neg (by simp [wg]), hd1]
  simp only [List.append_nil]
  rw [cg, hgR]
  by_cases hv0 : ms.filter (fun m => Gateway.ReportedVerified ans m.ccId) = []
  · rw [if_pos hv0]
    refine ⟨⟨_, rfl⟩, ?_⟩
    intro m hm hver
    have : m ∈ ms.filter (fun m => Gateway.ReportedVerified ans m.ccId) :=
      List.mem_filter.mpr ⟨hm, (hrep m hm).mpr hver⟩
    rw [hv0] at this
    simp at this
  rw [if_neg hv0]
  generalize hvdef : ms.filter (fun m => Gateway.ReportedVerified ans m.ccId) = v at hv0 hd1
  have hvms : ∀ m ∈ v, m ∈ ms ∧ m.ccId.chain = n ∧
      Open setup (worldAfter P setup txs) R rc m.destinationChain := by
    intro m hm
    rw [← hvdef] at hm
    obtain ⟨h1, h2⟩ := List.mem_filter.mp hm
    exact ⟨h1, hms m h1 ((hrep m h1).mp h2)⟩
  have hvnd : (v.map (·.ccId)).Nodup := by
    rw [← hvdef]
    exact List.Nodup.sublist (List.Sublist.map _ List.filter_sublist) hnd
  have hvlen : v.length ≤ ms.length := by rw [← hvdef]; exact List.length_filter_le _ _
  -- the router accepts
  obtain ⟨s', r, hx⟩ := (hiff v).mpr ⟨Or.inr ⟨n, ep, by rw [← hchain]; exact hn, hep, hfr,
    fun m hm => (hvms m hm).2.1⟩, by
      intro m hm
      rcases (hvms m hm).2.2 with ⟨ep', gc', h1, h2, _⟩ | ⟨h1, nc, h2, _⟩
      · exact Or.inl ⟨ep', by rw [← hchain]; exact h1, h2⟩
      · exact Or.inr ⟨by rw [← hchain]; exact h1, hgN nc h2⟩⟩
  obtain ⟨rfl, _, hds, _⟩ := Router.routeMessages_ok (by simpa [Router.exec] using hx)
  obtain ⟨es2, hd2⟩ := deliver_router (P := P) (b := tx.block) wR hx
  rw [run, if_neg (by simp [wR]), hd2]
  simp only [List.append_nil]
  -- the dispatches are delivered
  have hflat : r.dispatched.flatMap Router.Dispatch.msgs = v := by
    rw [dispatches_flatten hds, Router.groupRuns_flatten]
  have hlen : r.dispatched.length ≤ k := by
    have h1 := mapE_length hds
    have h2 := groupRuns_length (fun m : Message => m.destinationChain) v
    omega
  have hto : ∀ d ∈ r.dispatched, (d.msgs.map (·.ccId)).Nodup ∧ Takes (worldAfter P setup txs) R d.contract ∧
      ∀ m ∈ d.msgs, (∃ ep', chainInfo (worldAfter P setup txs) R m.destinationChain = some ep' ∧
        d.contract = ep'.gateway ∧ ∃ gc', setup ep'.gateway = some (.gateway gc')) ∨
        (chainInfo (worldAfter P setup txs) R m.destinationChain = none ∧ d.contract = rc.nexusGateway ∧
          ∃ nc, setup rc.nexusGateway = some (.nexus nc)) := by
    intro d hd
    obtain ⟨gr, hgr, hdg⟩ := mapE_mem_right hds hd
    obtain ⟨hne, hkey⟩ := Router.groupRuns_key (fun m : Message => m.destinationChain) v gr hgr
    have hdm : d.msgs = gr.2 := by
      unfold Router.dispatchGroup at hdg
      split at hdg
      · split at hdg
        · simp at hdg
        · simp only [Except.ok.injEq] at hdg; rw [← hdg]
      · split at hdg
        · simp only [Except.ok.injEq] at hdg; rw [← hdg]
        · simp at hdg
    have hdv : ∀ m ∈ d.msgs, m ∈ v := by
      intro m hm
      rw [← hflat]
      exact List.mem_flatMap.mpr ⟨d, hd, hm⟩
    refine ⟨?_, ?_⟩
    · have : (d.msgs.map (·.ccId)).Sublist (v.map (·.ccId)) := by
        rw [← hflat]
        refine List.Sublist.map _ ?_
        obtain ⟨d1, d2, he⟩ := List.append_of_mem hd
        rw [he, List.flatMap_append, List.flatMap_cons]
        exact (List.sublist_append_left _ _).trans (List.sublist_append_right _ _)
      exact List.Nodup.sublist this hvnd
    · obtain ⟨m0, hm0⟩ := List.exists_mem_of_ne_nil _ hne
      have hk0 : ∀ m ∈ d.msgs, m.destinationChain = gr.1 := by rw [hdm]; exact hkey
      have ho := (hvms m0 (hdv m0 (by rw [hdm]; exact hm0))).2.2
      rw [hkey m0 hm0] at ho
      unfold Router.dispatchGroup at hdg
      rcases ho with ⟨ep', gc', h1, h2, h3, h4⟩ | ⟨h1, nc, h2, h3⟩
      · rw [hchain] at h1
        unfold Router.getChainInfo at h1
        rw [h1] at hdg
        simp only at hdg
        rw [if_neg (by rw [show ep'.outgoingFrozen = false from h2]; simp)] at hdg
        simp only [Except.ok.injEq] at hdg
        refine ⟨?_, ?_⟩
        · rw [← hdg]
          refine Or.inl ⟨_, hi.gateway_state h3, ?_⟩
          rw [Gateway.config_reachable, h4]
        · intro m hm
          refine Or.inl ⟨ep', ?_, by rw [← hdg], gc', h3⟩
          rw [hk0 m hm, hchain]
          exact h1
      · rw [hchain] at h1
        unfold Router.getChainInfo at h1
        rw [h1] at hdg
        simp only at hdg
        rw [cR, if_pos (hgN nc h2)] at hdg
        simp only [Except.ok.injEq] at hdg
        refine ⟨?_, ?_⟩
        · rw [← hdg]
          refine Or.inr ⟨_, hi.nexus_state h2, ?_⟩
          rw [(Nexus.routed_iff nc _ ⟨[], []⟩).1, h3]
        · intro m hm
          refine Or.inr ⟨?_, by rw [← hdg], nc, h2⟩
          rw [hk0 m hm, hchain]
          exact h1
  obtain ⟨w', es3, hrun, hpost⟩ := run_dispatches P tx.block tx.accepts R r.dispatched
    (worldAfter P setup txs) k hlen (fun d hd => ⟨(hto d hd).1, (hto d hd).2.1⟩)
  rw [hrun]
  refine ⟨⟨_, rfl⟩, ?_⟩
  intro m hm hver
  have hfull : exec P (worldAfter P setup txs) tx = .ok (w', es1 ++ (es2 ++ es3)) := by
    rw [hexec, hk, run, if_neg (by simp [wg]), hd1]
    simp only [List.append_nil]
    rw [cg, hgR, if_neg hv0, run, if_neg (by simp [wR]), hd2]
    simp only [List.append_nil]
    rw [hrun]
  obtain ⟨hw', hl'⟩ := log_snoc hfull
  have hmv : m ∈ v := by
    rw [← hvdef]
    exact List.mem_filter.mpr ⟨hm, (hrep m hm).mpr hver⟩
  rw [← hflat] at hmv
  obtain ⟨d, hd, hmd⟩ := List.mem_flatMap.mp hmv
  have hmto : m ∈ msgsTo d.contract r.dispatched :=
    List.mem_flatMap.mpr ⟨d, List.mem_filter.mpr ⟨hd, by simp⟩, hmd⟩
  have hchain' : ∀ k, chainInfo (worldAfter P setup (txs ++ [tx])) R k =
      chainInfo (worldAfter P setup txs) R k := by
    intro k
    unfold chainInfo
    rw [hw', wR, (hpost R).2.2 _ wR]
  unfold Arrived
  rcases (hto d hd).2.2 m hmd with ⟨ep', h1, h2, gc', h3⟩ | ⟨h1, h2, nc, h3⟩
  · refine Or.inl ⟨ep', by rw [hchain']; exact h1, ?_⟩
    unfold askGateway
    rw [hw', (hpost ep'.gateway).1 _ (hi.gateway_state h3), ← h2]
    simp only [Gateway.getMessages, mapE, Gateway.loadOutgoing]
    rw [saveAll_mem (List.Nodup.sublist (List.Sublist.map _ (by
      have := msgsTo_sublist d.contract r.dispatched
      rw [hflat] at this
      exact this)) hvnd) hmto]
  · refine Or.inr ⟨by rw [hchain']; exact h1, nc, h3, ?_⟩
    rw [← (Nexus.routed_iff nc _ m.ccId).2]
    have hns := (inv P setup (txs ++ [tx])).nexus_state h3
    obtain ⟨s', q1, _, q3⟩ := (hpost rc.nexusGateway).2.1 _ (hi.nexus_state h3)
    rw [hw', q1] at hns
    simp only [Option.some.injEq, Store.nexus.injEq] at hns
    rw [← hns]
    exact q3 m (h2 ▸ hmto)

/-! ### From the poll to the delivery -/

/-- the blocks of the transactions are in order -/
def InOrder (txs : List Tx) : Prop := (txs.map (·.block.height)).Pairwise (· ≤ ·)

theorem call_height {P : Params} {b : Block} {w : World} {p : Pending} {reply : Option (Option Nat)}
    {s' : Store} {c : VV.Call} {r : VV.Resp} (h : call P b w p reply = .ok (s', .verifier c r)) :
    c.height = b.height := by
  unfold call at h
  split at h
  · simp at h
  · split at h
    · simp only at h
      split at h
      · simp at h
      · simp only [Except.ok.injEq, Prod.mk.injEq, Act.verifier.injEq] at h
        rw [← h.2.1]
    · simp at h
  all_goals
    split at h
    · first
      | (simp only at h
         split at h <;> simp at h)
      | (split at h <;> simp at h)
    · simp at h

theorem deliver_height {P : Params} {b : Block} {w w' : World} {p : Pending} {es : List Entry}
    {out : List Pending} (h : deliver P b w p = .ok (w', es, out)) :
    ∀ e ∈ es, ∀ c r, e.act = .verifier c r → c.height = b.height := by
  intro e he c r hact
  unfold deliver at h
  split at h
  · split at h
    · split at h
      · simp at h
      · simp only at h
        split at h
        · split at h
          · simp at h
          · rename_i s1 a hc
            simp only [Except.ok.injEq, Prod.mk.injEq] at h
            obtain ⟨_, rfl, _⟩ := h
            simp only [List.mem_cons, List.not_mem_nil, or_false] at he
            rcases he with rfl | rfl
            · simp only at hact
              subst hact
              exact call_height hc
            · simp at hact
        · simp at h
    · simp at h
  · split at h
    · simp at h
    · rename_i s1 a hc
      simp only [Except.ok.injEq, Prod.mk.injEq] at h
      obtain ⟨_, rfl, _⟩ := h
      simp only [List.mem_cons, List.not_mem_nil, or_false] at he
      subst he
      simp only at hact
      subst hact
      exact call_height hc

theorem run_height {P : Params} {b : Block} {accepts : Addr → Bool} (n : Nat) :
    ∀ {w w' : World} {ps : List Pending} {es : List Entry}, run P b accepts n w ps = .ok (w', es) →
      ∀ e ∈ es, ∀ c r, e.act = .verifier c r → c.height = b.height := by
  induction n with
  | zero =>
    intro w w' ps es h
    cases ps with
    | nil => simp only [run, Except.ok.injEq, Prod.mk.injEq] at h; rw [← h.2]; simp
    | cons p t => simp [run] at h
  | succ n ih =>
    intro w w' ps es h
    cases ps with
    | nil => simp only [run, Except.ok.injEq, Prod.mk.injEq] at h; rw [← h.2]; simp
    | cons p t =>
      rw [run] at h
      split at h
      · exact ih h
      · cases hd : deliver P b w p with
        | error e => rw [hd] at h; simp at h
        | ok y =>
          obtain ⟨w1, es1, out⟩ := y
          rw [hd] at h
          simp only at h
          cases hr : run P b accepts n w1 (out ++ t) with
          | error e => rw [hr] at h; simp at h
          | ok z =>
            obtain ⟨w2, es2⟩ := z
            rw [hr] at h
            simp only [Except.ok.injEq, Prod.mk.injEq] at h
            obtain ⟨rfl, rfl⟩ := h
            intro e he
            rcases List.mem_append.mp he with he | he
            · exact deliver_height hd e he
            · exact ih hr e he

theorem verifierCalls_mem {a : Addr} {l : List Entry} {c : VV.Call} (h : c ∈ verifierCalls a l) :
    ∃ e ∈ l, ∃ r, e.act = .verifier c r := by
  obtain ⟨x, hx, hc⟩ := List.mem_filterMap.mp h
  obtain ⟨e, he, _, hact⟩ := mem_actsAt hx
  cases x with
  | verifier c' r =>
    simp only [Act.verifierCall?, Option.some.injEq] at hc
    subst hc
    exact ⟨e, he, r, hact⟩
  | _ => simp [Act.verifierCall?] at hc

theorem calls_inOrder (P : Params) (setup : Setup) (a : Addr) (txs : List Tx) (h : InOrder txs) :
    VV.InBlockOrder (verifierCalls a (log P setup txs)) ∧
      ∀ c ∈ verifierCalls a (log P setup txs), ∃ tx ∈ txs, c.height = tx.block.height := by
  induction txs using List.reverseRecOn with
  | nil => exact ⟨List.Pairwise.nil, by simp [log, outs, verifierCalls, actsAt]⟩
  | append_singleton t tx ih =>
    unfold InOrder at h
    rw [List.map_append, List.pairwise_append] at h
    obtain ⟨ih1, ih2⟩ := ih h.1
    cases hx : exec P (worldAfter P setup t) tx with
    | error e =>
      have hl : log P setup (t ++ [tx]) = log P setup t := by
        unfold log
        rw [outs_append]
        have : outs (exec P) (runCalls (exec P) (genesis setup) t) [tx] = [] := by
          unfold worldAfter at hx
          rw [outs_cons_error (exec P) hx]; rfl
        rw [this, List.append_nil]
      rw [hl]
      exact ⟨ih1, fun c hc => by
        obtain ⟨y, hy, he⟩ := ih2 c hc
        exact ⟨y, List.mem_append_left _ hy, he⟩⟩
    | ok y =>
      obtain ⟨w', es⟩ := y
      obtain ⟨_, hl⟩ := log_snoc hx
      have hes : ∀ c ∈ verifierCalls a es, c.height = tx.block.height := by
        intro c hc
        obtain ⟨e, he, r, hact⟩ := verifierCalls_mem hc
        unfold exec at hx
        split at hx
        · simp at hx
        · exact run_height _ hx e he c r hact
      have hsplit : verifierCalls a (log P setup (t ++ [tx])) =
          verifierCalls a (log P setup t) ++ verifierCalls a es := by
        rw [hl]
        simp [verifierCalls, actsAt_append]
      rw [hsplit]
      refine ⟨?_, ?_⟩
      · unfold VV.InBlockOrder at *
        rw [List.map_append, List.pairwise_append]
        refine ⟨ih1, ?_, ?_⟩
        · rw [List.pairwise_map]
          exact List.pairwise_of_forall_mem_list (fun x hx y hy => by rw [hes x hx, hes y hy])
        · intro x hx y hy
          obtain ⟨cx, hcx, rfl⟩ := List.mem_map.mp hx
          obtain ⟨cy, hcy, rfl⟩ := List.mem_map.mp hy
          obtain ⟨z, hz, he⟩ := ih2 cx hcx
          rw [hes cy hcy, he]
          exact h.2.2 _ (List.mem_map_of_mem (f := fun t : Tx => t.block.height) hz) _ (by simp)
      · intro c hc
        rcases List.mem_append.mp hc with hc | hc
        · obtain ⟨y, hy, he⟩ := ih2 c hc
          exact ⟨y, List.mem_append_left _ hy, he⟩
        · exact ⟨tx, by simp, hes c hc⟩

theorem verifier_exec {P : Params} {setup : Setup} {l l₁ l₂ : List Entry} {w : World} {e : Entry}
    (hi : Inv P setup l w) (hl : l = l₁ ++ e :: l₂) {cfg : VV.Config}
    (hk : setup e.p.target = some (.verifier cfg)) {c : VV.Call} {r : VV.Resp} (ha : e.act = .verifier c r) :
    ∃ s', VV.exec P.H (VV.stateAfter P.H cfg (verifierCalls e.p.target l₁)) c = .ok (s', r) := by
  obtain ⟨_, b, reply, s', hc⟩ := hi.genuine l₁ e l₂ hl
  have hw := (hi.prefix hl).verifier_state hk
  unfold call at hc
  rw [hw] at hc
  cases hm : e.p.msg with
  | verifier m =>
    rw [hm] at hc
    simp only at hc
    split at hc
    · simp at hc
    · rename_i s1 r1 hx
      simp only [Except.ok.injEq, Prod.mk.injEq] at hc
      rw [ha] at hc
      simp only [Act.verifier.injEq] at hc
      obtain ⟨_, rfl, rfl⟩ := hc
      exact ⟨s1, hx⟩
  | _ => rw [hm] at hc; simp at hc

/-- Somebody asked the verifier at `V` to verify `m`, which was not verified and not in a poll (and no other
message of the request has its hash), and a quorum of the workers active at that moment voted, before the poll
expired, that the event was seen. -/
def Confirmed (P : Params) (l : List Entry) (V : Addr) (vc : VV.Config) (m : Message) : Prop :=
  ∃ l₁ e l₂ c r ms ws confs pm cf, l = l₁ ++ e :: l₂ ∧ e.p.target = V ∧ e.act = .verifier c r ∧
    c.msg = .verifyMessages ms ∧ m ∈ ms ∧ (∀ m' ∈ ms, m'.hash P.H.msg = m.hash P.H.msg → m' = m) ∧
    (VV.msgStatus P.H (VV.stateAfter P.H vc (verifierCalls V l₁)) m = .ok .notVerified ∨
      VV.msgStatus P.H (VV.stateAfter P.H vc (verifierCalls V l₁)) m = .ok .failedToVerify) ∧
    c.workers = some ws ∧ r.event = some (.messagesPollStarted confs pm) ∧
    VV.confirmationOf m = .ok cf ∧
    ∀ i, confs[i]? = some cf →
      VV.QuorumOf vc.threshold (VV.history P.H vc (verifierCalls V l)) ws pm.pollId i pm.expiresAt

/-- C80, verification: in a history in block order, a confirmed message is reported as verified. -/
theorem C80_confirmed_verified (P : Params) (setup : Setup) (txs : List Tx) (ho : InOrder txs)
    (V : Addr) (vc : VV.Config) (hV : setup V = some (.verifier vc)) (hv : vc.Valid) (m : Message)
    (h : Confirmed P (log P setup txs) V vc m) :
    askVerifier P (worldAfter P setup txs) V [m] = some [(m.ccId, true)] := by
  obtain ⟨l₁, e, l₂, c, r, ms, ws, confs, pm, cf, hl, ht, ha, hm, hmem, hinj, hst, hws, hev, hcf, hq⟩ := h
  have hi := inv P setup txs
  subst ht
  obtain ⟨s', hx⟩ := verifier_exec hi hl hV ha
  have hsplit : verifierCalls e.p.target (log P setup txs) =
      verifierCalls e.p.target l₁ ++ c :: verifierCalls e.p.target l₂ := by
    rw [hl]
    rw [show l₁ ++ e :: l₂ = l₁ ++ ([e] ++ l₂) by simp]
    simp only [verifierCalls, actsAt_append, actsAt_self _ e rfl, ha, List.filterMap_append]
    rfl
  have hord := (calls_inOrder P setup e.p.target txs ho).1
  rw [hsplit] at hord
  unfold VV.InBlockOrder at hord
  rw [List.map_append, List.pairwise_append, List.map_cons, List.pairwise_cons] at hord
  rw [askVerifier_one hi hV, hsplit]
  rw [hsplit] at hq
  exact VV.C78_quorum_verifies P.H vc hv _ _ hm hx hmem hst hinj hws hev hcf hord.2.1.2 hq

/-- C80, end to end: in a history in block order, a message confirmed at the verifier of the gateway of its
source chain is delivered by anyone who asks that gateway to route it, unless a chain is frozen. -/
theorem C80_confirmed_delivered (P : Params) (setup : Setup) (txs : List Tx) (ho : InOrder txs)
    (R : Addr) (rc : Router.Config) (hR : setup R = some (.router rc))
    (g : Addr) (gc : Gateway.Config) (hg : setup g = some (.gateway gc)) (hgR : gc.router = R)
    (vc : VV.Config) (hV : setup gc.verifier = some (.verifier vc)) (hv : vc.Valid)
    (m : Message) (hconf : Confirmed P (log P setup txs) gc.verifier vc m)
    (ep : Router.ChainEndpoint) (hn : chainInfo (worldAfter P setup txs) R m.ccId.chain = some ep)
    (hep : ep.gateway = g) (hfr : ep.frozenIn .incoming = false)
    (hopen : Open setup (worldAfter P setup txs) R rc m.destinationChain)
    (tx : Tx) (htx : ∃ funds msg, tx.msgs = [(g, funds, msg)] ∧ msg.toGateway = some (.routeMessages [m]))
    (hs : setup tx.sender = none) (hgas : 3 ≤ tx.gas) :
    (∃ x, exec P (worldAfter P setup txs) tx = .ok x) ∧ Arrived P setup (txs ++ [tx]) R rc m := by
  have hver := C80_confirmed_verified P setup txs ho gc.verifier vc hV hv m hconf
  obtain ⟨h1, h2⟩ := C80_route_delivers P setup txs R rc hR g gc vc hg hgR hV m.ccId.chain ep hn hep hfr [m]
    (by simp) (by rw [hver]; rfl)
    (by
      intro m' hm' _
      simp only [List.mem_cons, List.not_mem_nil, or_false] at hm'
      subst hm'
      exact ⟨rfl, hopen⟩) tx htx hs (by simpa using hgas)
  exact ⟨h1, h2 m (List.mem_cons_self ..) hver⟩

end Amp.Chain
