import Verif.Chain.RelaySpec
import Verif.Chain.Lemmas
import Verif.Router.Lemmas

/-!
# The events of the router and the storage of the gateways agree
-/

namespace Amp.Chain

open Amp.Router (ChainName CCId Message)
open Amp.Gateway (saveAll)

variable {P : Params} {setup : Setup} {R : Addr} {nexus : Addr}

theorem deliver_shapes {b : Block} {w : World} {p : Pending} {w' : World} {es : List Entry} {out : List Pending}
    (h : deliver P b w p = .ok (w', es, out)) :
    (∃ s' a, call P b w p none = .ok (s', a) ∧ w' = w.set p.target s' ∧ es = [⟨p, a⟩] ∧ out = Entry.sent ⟨p, a⟩) ∨
    (∃ s sv kt s2 sv2 kt2 m m' a mc mr, ∃ q : Pending, w p.target = some (.prover s sv kt) ∧
      w q.target = some (.multisig m) ∧ (∃ x, p.msg = .prover x) ∧
      w' = (w.set p.target (.prover s2 sv2 kt2)).set q.target (.multisig m') ∧
      es = [⟨p, a⟩, ⟨q, .multisig mc mr⟩] ∧ out = Entry.sent ⟨q, .multisig mc mr⟩) := by
  unfold deliver at h
  cases hw : w p.target with
  | none =>
    rw [hw] at h
    simp [call, hw] at h
  | some st =>
    rw [hw] at h
    cases st with
    | prover s sv kt =>
      simp only at h
      cases hm : p.msg with
      | prover m =>
        rw [hm] at h
        simp only at h
        cases hh : Prover.handle P.X s (proverEnv P w b s.config sv kt) m with
        | error e => rw [hh] at h; simp at h
        | ok y =>
          obtain ⟨s1, o⟩ := y
          rw [hh] at h
          simp only at h
          split at h
          · rename_i ms mc mr hcm
            cases hcp : call P b w p (some mr.data) with
            | error e => rw [hcp] at h; simp at h
            | ok y =>
              obtain ⟨s', a⟩ := y
              rw [hcp] at h
              simp only [Except.ok.injEq, Prod.mk.injEq] at h
              obtain ⟨rfl, rfl, rfl⟩ := h
              have h1 : ∃ s2, s' = .prover s2 sv kt := by
                unfold call at hcp
                rw [hw, hm] at hcp
                simp only at hcp
                split at hcp
                · simp at hcp
                · simp only [Except.ok.injEq, Prod.mk.injEq] at hcp
                  exact ⟨_, hcp.1.symm⟩
              have h2 : ∃ m0 m', w s.config.multisig = some (.multisig m0) ∧ ms = .multisig m' := by
                unfold call at hcm
                simp only at hcm
                cases hq : w s.config.multisig with
                | none => rw [hq] at hcm; simp at hcm
                | some st =>
                  rw [hq] at hcm
                  cases st with
                  | multisig m0 =>
                    simp only at hcm
                    split at hcm
                    · simp at hcm
                    · simp only [Except.ok.injEq, Prod.mk.injEq] at hcm
                      exact ⟨m0, _, rfl, hcm.1.symm⟩
                  | verifier _ => simp at hcm
                  | gateway _ => simp [Msg.toGateway] at hcm
                  | router _ => simp [Msg.toRouter] at hcm
                  | nexus _ => simp [Msg.toNexus] at hcm
                  | registry _ => simp at hcm
                  | rewards _ => simp at hcm
                  | prover _ _ _ => simp at hcm
              obtain ⟨s2, rfl⟩ := h1
              obtain ⟨m0, m', hq, rfl⟩ := h2
              exact .inr ⟨s, sv, kt, s2, sv, kt, m0, m', a, mc, mr, _, rfl, hq, ⟨m, rfl⟩, rfl, rfl, rfl⟩
          · simp at h
      | _ => rw [hm] at h; simp at h
    | _ =>
      simp only at h
      split at h
      · simp at h
      · rename_i s' a hc
        simp only [Except.ok.injEq, Prod.mk.injEq] at h
        obtain ⟨rfl, rfl, rfl⟩ := h
        exact .inl ⟨_, _, hc, rfl, rfl, rfl⟩

/-! ### Messages on their way -/

/-- messages under way from the router, as the gateway at `g` will keep them -/
def arrive (g : Addr) (kv : KV CCId Message) : List Pending → KV CCId Message
  | [] => kv
  | p :: t =>
    match p.msg with
    | .route ms => arrive g (if p.target = g then saveAll kv ms else kv) t
    | _ => arrive g kv t

/-- a message of the router to a gateway -/
def FromRouter (setup : Setup) (R : Addr) (p : Pending) : Prop :=
  p.sender = R ∧ Leaf setup R p.target ∧ ∃ ms, p.msg = .route ms

/-- the kinds of a contract's storage -/
theorem kind_gateway {l : List Entry} {w : World} (hi : Inv P setup l w) {a : Addr} {s : Gateway.State}
    (h : w a = some (.gateway s)) : setup a = some (.gateway s.config) := by
  rw [hi.world] at h
  simp only [worldOf] at h
  cases hk : setup a with
  | none => rw [hk] at h; simp at h
  | some k =>
    rw [hk] at h
    cases k <;> simp only [Option.map_some, replay, Option.some.injEq] at h
    case gateway cfg =>
      simp only [Store.gateway.injEq] at h
      subst h
      have := Gateway.config_reachable cfg ((actsAt a l).filterMap Act.gatewayCall?)
      unfold Gateway.stateAfter at this
      rw [this]
    all_goals cases h

theorem kind_router {l : List Entry} {w : World} (hi : Inv P setup l w) {a : Addr} {s : Router.State}
    (h : w a = some (.router s)) : ∃ cfg, setup a = some (.router cfg) := by
  rw [hi.world] at h
  simp only [worldOf] at h
  cases hk : setup a with
  | none => rw [hk] at h; simp at h
  | some k =>
    rw [hk] at h
    cases k <;> simp only [Option.map_some, replay, Option.some.injEq] at h
    case router cfg => exact ⟨cfg, rfl⟩
    all_goals cases h

/-- what the log, the storage and the messages under way have to do with each other -/
structure RInv (P : Params) (setup : Setup) (R nexus : Addr) (l : List Entry) (w : World) (way : List Pending) : Prop where
  inv : Inv P setup l w
  front : ∀ p ∈ way, FromRouter setup R p
  outbox : ∀ g s, w g = some (.gateway s) → s.config.router = R →
    arrive g s.outgoing way = (Seen.all nexus (routerEvents R l)).outbox g
  table : ∀ s, w R = some (.router s) → s.config.nexusGateway = nexus ∧
    ∀ n, (Router.lookup s.chains n).map (·.gateway) = (Seen.all nexus (routerEvents R l)).gateways n
  leaves : ∀ s, w R = some (.router s) → ∀ n e, Router.lookup s.chains n = some e → Leaf setup R e.gateway

theorem routerEvents_append (R : Addr) (l l' : List Entry) :
    routerEvents R (l ++ l') = routerEvents R l ++ routerEvents R l' := by
  simp [routerEvents, actsAt]

theorem routerEvents_other (R : Addr) {l : List Entry} (h : ∀ e ∈ l, e.p.target ≠ R) : routerEvents R l = [] := by
  unfold routerEvents actsAt
  rw [List.filter_eq_nil_iff.mpr (fun e he => by simpa using h e he)]
  rfl

theorem all_append (es es' : List Router.Event) :
    Seen.all nexus (es ++ es') = es'.foldl (Seen.see nexus) (Seen.all nexus es) := by
  simp [Seen.all, List.foldl_append]

/-- a message from the router arrives -/
theorem deliver_to_front {b : Block} {l : List Entry} {w : World} {p : Pending} {f : List Pending} {w' : World}
    {es : List Entry} {out : List Pending} (hR : ∃ cfg, setup R = some (.router cfg))
    (hr : RInv P setup R nexus l w (p :: f)) (hi' : Inv P setup (l ++ es) w')
    (h : deliver P b w p = .ok (w', es, out)) : out = [] ∧ RInv P setup R nexus (l ++ es) w' f := by
  obtain ⟨hs, hleaf, ms, hm⟩ := hr.front p (List.mem_cons_self ..)
  have hne : p.target ≠ R := by
    intro e
    obtain ⟨cfg, hc⟩ := hR
    exact hleaf.1 cfg (e ▸ hc)
  have hf : ∀ q ∈ f, FromRouter setup R q := fun q hq => hr.front q (List.mem_cons_of_mem _ hq)
  rcases deliver_shapes h with ⟨s', a, hc, rfl, rfl, rfl⟩ | ⟨s, sv, kt, s2, sv2, kt2, m, m', a, mc, mr, q, _, _, ⟨x, hx⟩, _⟩
  · have hev : routerEvents R (l ++ [⟨p, a⟩]) = routerEvents R l := by
      rw [routerEvents_append, routerEvents_other R (l := [⟨p, a⟩]) (by simp [hne]), List.append_nil]
    have keep : ∀ g, g ≠ p.target → (w.set p.target s') g = w g := fun g hg => KV.set_ne _ _ hg
    unfold call at hc
    cases hw : w p.target with
    | none => rw [hw] at hc; simp at hc
    | some st =>
      rw [hw] at hc
      cases st with
      | gateway s =>
        simp only [hm, Msg.toGateway] at hc
        split at hc
        · simp at hc
        · rename_i s1 r hx
          simp only [Except.ok.injEq, Prod.mk.injEq] at hc
          obtain ⟨rfl, rfl⟩ := hc
          have hcfg : s.config.router = R := hleaf.2 _ (kind_gateway hr.inv hw)
          simp only [Gateway.exec, hs, hcfg, if_true] at hx
          unfold Gateway.routeOutgoing at hx
          split at hx
          · simp at hx
          simp only [Except.ok.injEq, Prod.mk.injEq] at hx
          obtain ⟨rfl, rfl⟩ := hx
          refine ⟨by simp [Entry.sent, Act.outs], hi', hf, ?_, ?_, ?_⟩
          · intro g t ht htr
            rw [hev]
            by_cases hg : g = p.target
            · subst hg
              rw [KV.set_self] at ht
              simp only [Option.some.injEq, Store.gateway.injEq] at ht
              subst ht
              rw [← hr.outbox p.target s hw hcfg]
              simp [arrive, hm]
            · rw [keep g hg] at ht
              rw [← hr.outbox g t ht htr]
              simp [arrive, hm, Ne.symm hg]
          · intro t ht
            rw [keep R (Ne.symm hne)] at ht
            rw [hev]
            exact hr.table t ht
          · intro t ht
            rw [keep R (Ne.symm hne)] at ht
            exact hr.leaves t ht
      | nexus s =>
        simp only [hm, Msg.toNexus, Nexus.exec] at hc
        split at hc
        · simp at hc
        · rename_i s1 r hx
          simp only [Except.ok.injEq, Prod.mk.injEq] at hc
          obtain ⟨rfl, rfl⟩ := hc
          unfold Nexus.routeToNexus at hx
          split at hx
          · simp at hx
          simp only [Except.ok.injEq, Prod.mk.injEq] at hx
          obtain ⟨rfl, rfl⟩ := hx
          refine ⟨by simp [Entry.sent, Act.outs], hi', hf, ?_, ?_, ?_⟩
          · intro g t ht htr
            rw [hev]
            by_cases hg : g = p.target
            · subst hg
              rw [KV.set_self] at ht
              simp at ht
            · rw [keep g hg] at ht
              rw [← hr.outbox g t ht htr]
              simp [arrive, hm, Ne.symm hg]
          · intro t ht
            rw [keep R (Ne.symm hne)] at ht
            rw [hev]
            exact hr.table t ht
          · intro t ht
            rw [keep R (Ne.symm hne)] at ht
            exact hr.leaves t ht
      | router s =>
        obtain ⟨cfg, hk⟩ := kind_router hr.inv hw
        exact absurd hk (hleaf.1 cfg)
      | verifier s => simp [hm] at hc
      | registry s => simp [hm] at hc
      | rewards s => simp [hm] at hc
      | multisig s => simp [hm] at hc
      | prover s sv kt => simp [hm] at hc
  · rw [hm] at hx
    simp at hx

/-- a message to something else than the router, not from the router -/
theorem deliver_to_other {b : Block} {l : List Entry} {w : World} {p : Pending} {w' : World}
    {es : List Entry} {out : List Pending} (hR : ∃ cfg, setup R = some (.router cfg))
    (hs : p.sender ≠ R) (ht : p.target ≠ R) (hr : RInv P setup R nexus l w []) (hi' : Inv P setup (l ++ es) w')
    (h : deliver P b w p = .ok (w', es, out)) :
    (∀ q ∈ out, q.sender ≠ R) ∧ RInv P setup R nexus (l ++ es) w' [] := by
  obtain ⟨rcfg, hRc⟩ := hR
  have hsent : ∀ e : Entry, e.p.target ≠ R → ∀ q ∈ e.sent, q.sender ≠ R := by
    intro e he q hq
    obtain ⟨o, _, rfl⟩ := List.mem_map.mp hq
    exact he
  rcases deliver_shapes h with ⟨s', a, hc, rfl, rfl, rfl⟩ |
    ⟨s, sv, kt, s2, sv2, kt2, m, m', a, mc, mr, q, hw1, hw2, _, rfl, rfl, rfl⟩
  · refine ⟨hsent _ ht, hi', by simp, ?_, ?_, ?_⟩
    all_goals
      have hev : routerEvents R (l ++ [⟨p, a⟩]) = routerEvents R l := by
        rw [routerEvents_append, routerEvents_other R (l := [⟨p, a⟩]) (by simp [ht]), List.append_nil]
    · intro g t hg htr
      by_cases hgp : g = p.target
      · subst hgp
        rw [KV.set_self] at hg
        simp only [Option.some.injEq] at hg
        subst hg
        unfold call at hc
        cases hw : w p.target with
        | none => rw [hw] at hc; simp at hc
        | some st =>
          rw [hw] at hc
          cases st with
          | gateway s =>
            simp only at hc
            split at hc
            · split at hc
              · simp at hc
              · rename_i mm _ s1 r hx
                simp only [Except.ok.injEq, Prod.mk.injEq, Store.gateway.injEq] at hc
                obtain ⟨rfl, rfl⟩ := hc
                have hcfg : s1.config = s.config := Gateway.exec_config hx
                have ho : s1.outgoing = s.outgoing := by
                  unfold Gateway.exec at hx
                  split at hx
                  · unfold Gateway.verifyMessages at hx
                    split at hx
                    · simp only [Except.ok.injEq, Prod.mk.injEq] at hx; rw [← hx.1]
                    split at hx
                    · simp at hx
                    split at hx
                    · simp at hx
                    split at hx <;> (simp only [Except.ok.injEq, Prod.mk.injEq] at hx; rw [← hx.1])
                  · split at hx
                    · rename_i hsr
                      exact absurd (hsr.trans (by rw [← hcfg, htr])) hs
                    · unfold Gateway.routeIncoming at hx
                      split at hx
                      · simp at hx
                      split at hx
                      · simp at hx
                      simp only [Except.ok.injEq, Prod.mk.injEq] at hx; rw [← hx.1]
                have := hr.outbox p.target s hw (hcfg ▸ htr)
                rw [hev, ← this]
                exact ho
            · simp at hc
          | router s => simp only at hc; (repeat' split at hc) <;> simp at hc
          | nexus s => simp only at hc; (repeat' split at hc) <;> simp at hc
          | verifier s => simp only at hc; (repeat' split at hc) <;> simp at hc
          | registry s => simp only at hc; (repeat' split at hc) <;> simp at hc
          | rewards s => simp only at hc; (repeat' split at hc) <;> simp at hc
          | multisig s => simp only at hc; (repeat' split at hc) <;> simp at hc
          | prover s sv kt => simp only at hc; (repeat' split at hc) <;> simp at hc
      · rw [KV.set_ne _ _ hgp] at hg
        rw [hev]
        exact hr.outbox g t hg htr
    · intro t htt
      rw [KV.set_ne _ _ (Ne.symm ht)] at htt
      rw [hev]
      exact hr.table t htt
    · intro t htt
      rw [KV.set_ne _ _ (Ne.symm ht)] at htt
      exact hr.leaves t htt
  · have hqR : q.target ≠ R := by
      intro e
      rw [e, hr.inv.router_state hRc] at hw2
      simp at hw2
    have hev : routerEvents R (l ++ [⟨p, a⟩, ⟨q, .multisig mc mr⟩]) = routerEvents R l := by
      rw [routerEvents_append, routerEvents_other R (l := [⟨p, a⟩, ⟨q, .multisig mc mr⟩]), List.append_nil]
      intro e he
      simp only [List.mem_cons, List.not_mem_nil, or_false] at he
      rcases he with rfl | rfl
      · exact ht
      · exact hqR
    have keep : ((w.set p.target (.prover s2 sv2 kt2)).set q.target (.multisig m')) R = w R := by
      rw [KV.set_ne _ _ (Ne.symm hqR), KV.set_ne _ _ (Ne.symm ht)]
    refine ⟨hsent _ hqR, hi', by simp, ?_, ?_, ?_⟩
    · intro g t hg htr
      rw [hev]
      by_cases h1 : g = q.target
      · subst h1; rw [KV.set_self] at hg; simp at hg
      rw [KV.set_ne _ _ h1] at hg
      by_cases h2 : g = p.target
      · subst h2; rw [KV.set_self] at hg; simp at hg
      rw [KV.set_ne _ _ h2] at hg
      exact hr.outbox g t hg htr
    · intro t htt
      rw [keep] at htt
      rw [hev]
      exact hr.table t htt
    · intro t htt
      rw [keep] at htt
      exact hr.leaves t htt

/-! ### The router is called -/

theorem arrive_append (g : Addr) (l l' : List Pending) (kv : KV CCId Message) :
    arrive g kv (l ++ l') = arrive g (arrive g kv l) l' := by
  induction l generalizing kv with
  | nil => rfl
  | cons p t ih =>
    simp only [List.cons_append, arrive]
    cases p.msg <;> simp only [ih]

/-- messages seen one after the other -/
theorem see_messages (ms : List Message) (k : Seen) :
    ((ms.map Router.Event.messageRouted).foldl (Seen.see nexus) k).gateways = k.gateways := by
  induction ms generalizing k with
  | nil => rfl
  | cons m t ih => rw [List.map_cons, List.foldl_cons, ih]; rfl

/-- messages to one chain -/
theorem see_group (d : ChainName) (g : Addr) (ms : List Message) (k : Seen) (hd : ∀ m ∈ ms, m.destinationChain = d) :
    ((ms.map Router.Event.messageRouted).foldl (Seen.see nexus) k).outbox g =
      if g = (k.gateways d).getD nexus then saveAll (k.outbox g) ms else k.outbox g := by
  induction ms generalizing k with
  | nil => simp [saveAll]
  | cons m t ih =>
    have h1 := hd m (List.mem_cons_self ..)
    rw [List.map_cons, List.foldl_cons, ih _ (fun x hx => hd x (List.mem_cons_of_mem _ hx))]
    simp only [Seen.see, h1]
    by_cases hg : g = (k.gateways d).getD nexus
    · rw [if_pos hg, if_pos hg, if_pos hg]
      rfl
    · rw [if_neg hg, if_neg hg, if_neg hg]

/-- the messages dispatched are those seen -/
theorem dispatch_seen {s : Router.State} {sender : Addr} (hnx : s.config.nexusGateway = nexus) (g : Addr) :
    ∀ (gs : List (ChainName × List Message)) (ds : List Router.Dispatch) (k : Seen) (kv : KV CCId Message),
      (∀ kg ∈ gs, ∀ m ∈ kg.2, m.destinationChain = kg.1) →
      (∀ n, (Router.lookup s.chains n).map (·.gateway) = k.gateways n) → kv = k.outbox g →
      mapE (Router.dispatchGroup s sender) gs = .ok ds →
      arrive g kv (ds.map (fun d => ⟨R, d.contract, [], .route d.msgs⟩)) =
        (((gs.flatMap Prod.snd).map Router.Event.messageRouted).foldl (Seen.see nexus) k).outbox g := by
  intro gs
  induction gs with
  | nil =>
    intro ds k kv _ _ hkv h
    simp only [mapE, Except.ok.injEq] at h
    subst h
    exact hkv
  | cons kg t ih =>
    intro ds k kv hkey htab hkv h
    obtain ⟨d, ds', h1, h2, rfl⟩ := mapE_cons_ok.mp h
    have hd : d = ⟨(k.gateways kg.1).getD nexus, kg.2⟩ := by
      have ht := htab kg.1
      unfold Router.dispatchGroup at h1
      split at h1
      · rename_i e he
        split at h1
        · simp at h1
        · simp only [Except.ok.injEq] at h1
          rw [he] at ht
          rw [← ht, ← h1]
          rfl
      · rename_i he
        split at h1
        · simp only [Except.ok.injEq] at h1
          rw [he] at ht
          rw [← ht, ← h1, hnx]
          rfl
        · simp at h1
    subst hd
    rw [List.flatMap_cons, List.map_append, List.foldl_append, List.map_cons]
    simp only [arrive]
    refine ih ds' _ _ (fun x hx => hkey x (List.mem_cons_of_mem _ hx)) ?_ ?_ h2
    · intro n
      rw [see_messages]
      exact htab n
    · rw [see_group kg.1 g kg.2 k (hkey kg (List.mem_cons_self ..)), hkv]
      by_cases hg : g = (k.gateways kg.1).getD nexus
      · rw [if_pos hg, if_pos hg.symm]
      · rw [if_neg hg, if_neg (Ne.symm hg)]

theorem table_store {chains : List (ChainName × Router.ChainEndpoint)} {k : KV ChainName Addr} (n : ChainName)
    (e : Router.ChainEndpoint) (h : ∀ n, (Router.lookup chains n).map (·.gateway) = k n) (m : ChainName) :
    (Router.lookup (Router.store chains n e) m).map (·.gateway) = (k.set n e.gateway) m := by
  by_cases hm : m = n
  · subst hm
    rw [Router.lookup_store_self, KV.set_self]
    rfl
  · rw [Router.lookup_store_ne hm, KV.set_ne _ _ hm]
    exact h m

theorem table_same {chains : List (ChainName × Router.ChainEndpoint)} {k : KV ChainName Addr} (n : ChainName)
    (e e' : Router.ChainEndpoint) (he : Router.lookup chains n = some e) (hg : e'.gateway = e.gateway)
    (h : ∀ n, (Router.lookup chains n).map (·.gateway) = k n) (m : ChainName) :
    (Router.lookup (Router.store chains n e') m).map (·.gateway) = k m := by
  by_cases hm : m = n
  · subst hm
    rw [Router.lookup_store_self, ← h m, he]
    simp [hg]
  · rw [Router.lookup_store_ne hm]
    exact h m

theorem leaves_store {chains : List (ChainName × Router.ChainEndpoint)} {n : ChainName} {e : Router.ChainEndpoint}
    (h : ∀ n e, Router.lookup chains n = some e → Leaf setup R e.gateway) (hl : Leaf setup R e.gateway)
    {m : ChainName} {e' : Router.ChainEndpoint} (hm : Router.lookup (Router.store chains n e) m = some e') :
    Leaf setup R e'.gateway := by
  by_cases hmn : m = n
  · subst hmn
    rw [Router.lookup_store_self] at hm
    simp only [Option.some.injEq] at hm
    exact hm ▸ hl
  · rw [Router.lookup_store_ne hmn] at hm
    exact h m e' hm

/-- a message to the router -/
theorem deliver_to_router {b : Block} {l : List Entry} {w : World} {p : Pending} {w' : World}
    {es : List Entry} {out : List Pending} {cfg : Router.Config} (hR : setup R = some (.router cfg))
    (hnx : Leaf setup R nexus) (hcl : Closed setup R (l ++ es)) (ht : p.target = R)
    (hr : RInv P setup R nexus l w []) (hi' : Inv P setup (l ++ es) w')
    (h : deliver P b w p = .ok (w', es, out)) : RInv P setup R nexus (l ++ es) w' out := by
  have hw : w R = some (.router (Router.stateAfter cfg (routerCalls R l))) := hr.inv.router_state hR
  generalize Router.stateAfter cfg (routerCalls R l) = s at hw
  rcases deliver_shapes h with ⟨s', a, hc, rfl, rfl, rfl⟩ | ⟨s, sv, kt, s2, sv2, kt2, m, m', a, mc, mr, q, hw1, _⟩
  swap
  · rw [ht, hw] at hw1; simp at hw1
  obtain ⟨hnex, htab⟩ := hr.table s hw
  have hlv := hr.leaves s hw
  have hself : w.set p.target s' R = some s' := by rw [ht]; exact KV.set_self _ _ _
  have hoth : ∀ g t, w.set p.target s' g = some (.gateway t) → (∀ x, s' ≠ .gateway x) → w g = some (.gateway t) := by
    intro g t hg hn
    by_cases hgR : g = p.target
    · subst hgR
      rw [KV.set_self] at hg
      exact absurd (Option.some.inj hg) (hn t)
    · rwa [KV.set_ne _ _ hgR] at hg
  have hclosed := hcl ⟨p, a⟩ (by simp) ht
  unfold call at hc
  rw [ht, hw] at hc
  simp only at hc
  cases hm : p.msg.toRouter with
  | none => rw [hm] at hc; simp at hc
  | some m =>
    rw [hm] at hc
    simp only at hc
    split at hc
    · simp at hc
    rename_i s1 r hx
    simp only [Except.ok.injEq, Prod.mk.injEq] at hc
    obtain ⟨rfl, rfl⟩ := hc
    have hevs : Seen.all nexus (routerEvents R (l ++ [⟨p, .router ⟨p.sender, m⟩ r⟩])) =
        r.events.foldl (Seen.see nexus) (Seen.all nexus (routerEvents R l)) := by
      rw [routerEvents_append, all_append]
      simp [routerEvents, actsAt, ht, Act.routerEvents]
    have hob : ∀ g t, w g = some (.gateway t) → t.config.router = R →
        t.outgoing = (Seen.all nexus (routerEvents R l)).outbox g := fun g t h1 h2 => hr.outbox g t h1 h2
    generalize hk : Seen.all nexus (routerEvents R l) = k at hevs htab hob
    have hcfg : s1.config = s.config := Router.exec_config hx
    unfold Router.exec at hx
    cases m with
    | registerChain n g =>
      have hpm : p.msg = .router (.registerChain n g) := by
        cases hp : p.msg <;> rw [hp] at hm <;> simp [Msg.toRouter] at hm
        rw [hm]
      have hlf := hclosed n g (.inl hpm)
      simp only at hx
      split at hx
      · simp at hx
      unfold Router.registerChain at hx
      split at hx
      · simp at hx
      · simp at hx
      split at hx
      · simp at hx
      simp only [Except.ok.injEq, Prod.mk.injEq] at hx
      obtain ⟨rfl, rfl⟩ := hx
      refine ⟨hi', by simp [Entry.sent, Act.outs], ?_, ?_, ?_⟩
      · intro a t h1 h2
        rw [hevs]
        exact hob a t (hoth a t h1 (by simp)) h2
      · intro t h1
        rw [hself] at h1
        simp only [Option.some.injEq, Store.router.injEq] at h1
        subst h1
        refine ⟨hnex, fun m => ?_⟩
        rw [hevs]
        exact table_store n _ htab m
      · intro t h1 m e he
        rw [hself] at h1
        simp only [Option.some.injEq, Store.router.injEq] at h1
        subst h1
        exact leaves_store hlv hlf he
    | upgradeGateway n g =>
      have hpm : p.msg = .router (.upgradeGateway n g) := by
        cases hp : p.msg <;> rw [hp] at hm <;> simp [Msg.toRouter] at hm
        rw [hm]
      have hlf := hclosed n g (.inr hpm)
      simp only at hx
      split at hx
      · simp at hx
      unfold Router.upgradeGateway at hx
      split at hx
      · simp at hx
      · simp at hx
      split at hx
      · simp at hx
      rename_i e0 he0
      simp only [Except.ok.injEq, Prod.mk.injEq] at hx
      obtain ⟨rfl, rfl⟩ := hx
      refine ⟨hi', by simp [Entry.sent, Act.outs], ?_, ?_, ?_⟩
      · intro a t h1 h2
        rw [hevs]
        exact hob a t (hoth a t h1 (by simp)) h2
      · intro t h1
        rw [hself] at h1
        simp only [Option.some.injEq, Store.router.injEq] at h1
        subst h1
        refine ⟨hnex, fun m => ?_⟩
        rw [hevs]
        exact table_store n { e0 with gateway := g } htab m
      · intro t h1 m e he
        rw [hself] at h1
        simp only [Option.some.injEq, Store.router.injEq] at h1
        subst h1
        exact leaves_store (e := { e0 with gateway := g }) hlv hlf he
    | freezeChain n d =>
      simp only at hx
      split at hx
      · simp at hx
      unfold Router.freezeChain at hx
      split at hx
      · simp at hx
      rename_i e0 he0
      simp only [Except.ok.injEq, Prod.mk.injEq] at hx
      obtain ⟨rfl, rfl⟩ := hx
      refine ⟨hi', by simp [Entry.sent, Act.outs], ?_, ?_, ?_⟩
      · intro a t h1 h2
        rw [hevs]
        exact hob a t (hoth a t h1 (by simp)) h2
      · intro t h1
        rw [hself] at h1
        simp only [Option.some.injEq, Store.router.injEq] at h1
        subst h1
        refine ⟨hnex, fun m => ?_⟩
        rw [hevs]
        exact table_same n e0 { e0 with frozen := e0.frozen ||| d.bits } he0 rfl htab m
      · intro t h1 m e he
        rw [hself] at h1
        simp only [Option.some.injEq, Store.router.injEq] at h1
        subst h1
        exact leaves_store (e := { e0 with frozen := e0.frozen ||| d.bits }) hlv (hlv n e0 he0) he
    | unfreezeChain n d =>
      simp only at hx
      split at hx
      · simp at hx
      unfold Router.unfreezeChain at hx
      split at hx
      · simp at hx
      rename_i e0 he0
      simp only [Except.ok.injEq, Prod.mk.injEq] at hx
      obtain ⟨rfl, rfl⟩ := hx
      refine ⟨hi', by simp [Entry.sent, Act.outs], ?_, ?_, ?_⟩
      · intro a t h1 h2
        rw [hevs]
        exact hob a t (hoth a t h1 (by simp)) h2
      · intro t h1
        rw [hself] at h1
        simp only [Option.some.injEq, Store.router.injEq] at h1
        subst h1
        refine ⟨hnex, fun m => ?_⟩
        rw [hevs]
        exact table_same n e0 { e0 with frozen := e0.frozen &&& ~~~ d.bits } he0 rfl htab m
      · intro t h1 m e he
        rw [hself] at h1
        simp only [Option.some.injEq, Store.router.injEq] at h1
        subst h1
        exact leaves_store (e := { e0 with frozen := e0.frozen &&& ~~~ d.bits }) hlv (hlv n e0 he0) he
    | routeMessages ms =>
      simp only at hx
      obtain ⟨rfl, _, hd, hev⟩ := Router.routeMessages_ok hx
      refine ⟨hi', ?_, ?_, ?_, ?_⟩
      · intro q hq
        obtain ⟨o, ho, rfl⟩ := List.mem_map.mp hq
        obtain ⟨d, hdm, rfl⟩ := List.mem_map.mp ho
        refine ⟨ht, ?_, _, rfl⟩
        obtain ⟨kg, _, hkg⟩ := mapE_mem_right hd hdm
        unfold Router.dispatchGroup at hkg
        split at hkg
        · rename_i e he
          split at hkg
          · simp at hkg
          · simp only [Except.ok.injEq] at hkg
            subst hkg
            exact hlv _ _ he
        · split at hkg
          · simp only [Except.ok.injEq] at hkg
            subst hkg
            simp only [hnex]
            exact hnx
          · simp at hkg
      · intro g t h1 h2
        rw [hevs, hev]
        have := dispatch_seen (R := R) (nexus := nexus) hnex g _ _ k t.outgoing
          (fun kg hkg m hm => (Router.groupRuns_key _ ms kg hkg).2 m hm) htab
          (hob g t (hoth g t h1 (by simp)) h2) hd
        rw [Router.groupRuns_flatten] at this
        rw [← this]
        simp [Entry.sent, Act.outs, ht, Function.comp_def]
      · intro t h1
        rw [hself] at h1
        simp only [Option.some.injEq, Store.router.injEq] at h1
        subst h1
        refine ⟨hnex, fun m => ?_⟩
        rw [hevs, hev, see_messages]
        exact htab m
      · intro t h1 m e he
        rw [hself] at h1
        simp only [Option.some.injEq, Store.router.injEq] at h1
        subst h1
        exact hlv m e he

/-- messages without a recipient are dropped -/
theorem RInv.drop {l : List Entry} {w : World} {p : Pending} {f : List Pending}
    (hr : RInv P setup R nexus l w (p :: f)) (h : (w p.target).isNone) : RInv P setup R nexus l w f := by
  refine ⟨hr.inv, fun q hq => hr.front q (List.mem_cons_of_mem _ hq), ?_, hr.table, hr.leaves⟩
  intro g s hg hs
  rw [← hr.outbox g s hg hs]
  obtain ⟨_, _, ms, hm⟩ := hr.front p (List.mem_cons_self ..)
  have hne : p.target ≠ g := by
    intro e
    rw [e, hg] at h
    simp at h
  simp [arrive, hm, hne]

theorem run_relay {b : Block} {accepts : Addr → Bool} {cfg : Router.Config} (hR : setup R = some (.router cfg))
    (hnx : Leaf setup R nexus) (n : Nat) :
    ∀ {l : List Entry} {w w' : World} {front back : List Pending} {es : List Entry},
      RInv P setup R nexus l w front → (∀ p ∈ back, p.sender ≠ R) → (∀ p ∈ front ++ back, Origin setup l p) →
      run P b accepts n w (front ++ back) = .ok (w', es) → Closed setup R (l ++ es) →
      RInv P setup R nexus (l ++ es) w' [] := by
  induction n with
  | zero =>
    intro l w w' front back es hr hb ho h hcl
    cases front with
    | nil =>
      cases back with
      | nil =>
        simp only [List.append_nil, run, Except.ok.injEq, Prod.mk.injEq] at h
        obtain ⟨rfl, rfl⟩ := h
        simpa using hr
      | cons p t => simp [run] at h
    | cons p t => simp [run] at h
  | succ n ih =>
    intro l w w' front back es hr hb ho h hcl
    cases front with
    | nil =>
      cases back with
      | nil =>
        simp only [List.append_nil, run, Except.ok.injEq, Prod.mk.injEq] at h
        obtain ⟨rfl, rfl⟩ := h
        simpa using hr
      | cons p t =>
        rw [List.nil_append, run] at h
        split at h
        · exact ih (front := []) (back := t) hr (fun q hq => hb q (List.mem_cons_of_mem _ hq))
            (fun q hq => ho q (List.mem_cons_of_mem _ hq)) h hcl
        · cases hd : deliver P b w p with
          | error e => rw [hd] at h; simp at h
          | ok y =>
            obtain ⟨w1, es1, out⟩ := y
            rw [hd] at h
            simp only at h
            cases hrn : run P b accepts n w1 (out ++ t) with
            | error e => rw [hrn] at h; simp at h
            | ok z =>
              obtain ⟨w2, es2⟩ := z
              rw [hrn] at h
              simp only [Except.ok.injEq, Prod.mk.injEq] at h
              obtain ⟨rfl, rfl⟩ := h
              obtain ⟨hi1, ho1⟩ := deliver_inv hr.inv (ho p (List.mem_cons_self ..)) hd
              have hbt : ∀ q ∈ t, q.sender ≠ R := fun q hq => hb q (List.mem_cons_of_mem _ hq)
              have hor : ∀ q ∈ out ++ t, Origin setup (l ++ es1) q := by
                intro q hq
                rcases List.mem_append.mp hq with hq | hq
                · exact ho1 q hq
                · exact (ho q (List.mem_cons_of_mem _ hq)).mono
              rw [← List.append_assoc] at hcl ⊢
              by_cases hpt : p.target = R
              · have hcl1 : Closed setup R (l ++ es1) := fun e he => hcl e (List.mem_append_left _ he)
                exact ih (front := out) (back := t) (deliver_to_router hR hnx hcl1 hpt hr hi1 hd) hbt hor hrn hcl
              · obtain ⟨h1, h2⟩ := deliver_to_other ⟨cfg, hR⟩ (hb p (List.mem_cons_self ..)) hpt hr hi1 hd
                refine ih (front := []) (back := out ++ t) h2 ?_ hor hrn hcl
                intro q hq
                rcases List.mem_append.mp hq with hq | hq
                · exact h1 q hq
                · exact hbt q hq
    | cons p f =>
      rw [List.cons_append, run] at h
      split at h
      · rename_i hn
        exact ih (hr.drop hn.1) hb (fun q hq => ho q (List.mem_cons_of_mem _ hq)) h hcl
      · cases hd : deliver P b w p with
        | error e => rw [hd] at h; simp at h
        | ok y =>
          obtain ⟨w1, es1, out⟩ := y
          rw [hd] at h
          simp only at h
          cases hrn : run P b accepts n w1 (out ++ (f ++ back)) with
          | error e => rw [hrn] at h; simp at h
          | ok z =>
            obtain ⟨w2, es2⟩ := z
            rw [hrn] at h
            simp only [Except.ok.injEq, Prod.mk.injEq] at h
            obtain ⟨rfl, rfl⟩ := h
            obtain ⟨hi1, ho1⟩ := deliver_inv hr.inv (ho p (List.mem_cons_self ..)) hd
            obtain ⟨rfl, h2⟩ := deliver_to_front ⟨cfg, hR⟩ hr hi1 hd
            rw [← List.append_assoc] at hcl ⊢
            exact ih h2 hb (fun q hq => (ho q (List.mem_cons_of_mem _ hq)).mono) hrn hcl

theorem RInv.genesis (P : Params) (setup : Setup) (R : Addr) {cfg : Router.Config} (hR : setup R = some (.router cfg)) :
    RInv P setup R cfg.nexusGateway [] (genesis setup) [] := by
  refine ⟨Inv.genesis P setup, by simp, ?_, ?_, ?_⟩
  · intro g s hg _
    simp only [Chain.genesis] at hg
    cases hk : setup g with
    | none => rw [hk] at hg; simp at hg
    | some k =>
      rw [hk] at hg
      cases k <;> simp only [Option.map_some, Kind.init, Option.some.injEq] at hg
      case gateway c =>
        simp only [Store.gateway.injEq] at hg
        subst hg
        rfl
      all_goals cases hg
  all_goals
    intro s hs
    simp only [Chain.genesis, hR, Option.map_some, Kind.init, Option.some.injEq, Store.router.injEq] at hs
    subst hs
  · exact ⟨rfl, fun n => rfl⟩
  · intro n e he
    simp [Router.init, Router.lookup] at he

/-- events and storage agree after every history -/
theorem relay_inv (P : Params) (setup : Setup) (R : Addr) {cfg : Router.Config} (hR : setup R = some (.router cfg))
    (hnx : Leaf setup R cfg.nexusGateway) (txs : List Tx) (hcl : Closed setup R (log P setup txs)) :
    RInv P setup R cfg.nexusGateway (log P setup txs) (worldAfter P setup txs) [] := by
  have key := outs_inv (exec P) (P := fun lg w => Inv P setup (lg.flatMap Prod.snd) w ∧
    (Closed setup R (lg.flatMap Prod.snd) → RInv P setup R cfg.nexusGateway (lg.flatMap Prod.snd) w []))
    (genesis setup) ⟨Inv.genesis P setup, fun _ => RInv.genesis P setup R hR⟩ ?_ txs
  · exact key.2 hcl
  intro lg w tx w' es ⟨hi, ih⟩ h
  rw [List.flatMap_append]
  simp only [List.flatMap_cons, List.flatMap_nil, List.append_nil]
  unfold exec at h
  split at h
  · simp at h
  · rename_i hs
    rw [hi.world] at hs
    simp only [worldOf, Option.isSome_map, Bool.not_eq_true, Option.isSome_eq_false_iff, Option.isNone_iff_eq_none] at hs
    have ho : ∀ p ∈ tx.msgs.map (fun m => (⟨tx.sender, m.1, m.2.1, m.2.2⟩ : Pending)),
        Origin setup (lg.flatMap Prod.snd) p := by
      intro p hp
      obtain ⟨m, _, rfl⟩ := List.mem_map.mp hp
      exact .inl hs
    refine ⟨run_inv _ hi ho h, fun hc => ?_⟩
    refine run_relay hR hnx tx.gas (front := []) (ih (fun e he => hc e (List.mem_append_left _ he))) ?_ ho h hc
    intro p hp e
    obtain ⟨m, _, rfl⟩ := List.mem_map.mp hp
    simp only at e
    rw [e, hR] at hs
    simp at hs

end Amp.Chain
