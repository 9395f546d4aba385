import Verif.Wire.StopSpec
import Verif.Wire.RotateProps

/-!
# C119: stopping a chain, in texts
-/

namespace Amp.Wire

open Amp.Chain (Params Entry)
open Amp.Router (ChainName Direction Way gatewayAfter frozenAfter history stateAfter getChainInfo)

variable {G : Texture} {P : Params}

/-! ### Helper lemmas -/

theorem handled_append (R : Addr) (l l' : List Entry) : handled R (l ++ l') = handled R l ++ handled R l' := List.filterMap_append

theorem handled_blind (R : Addr) (l : List Entry) : handled R (l.map Entry.blind) = handled R l := by
  unfold handled
  rw [List.filterMap_map]
  congr 1
  funext e
  obtain ⟨p, act⟩ := e
  show (if p.target = R then _ else none) = if p.target = R then _ else none
  cases act <;> rfl

theorem handled_log {l l' : List Entry} (h : l.map Entry.blind = l'.map Entry.blind) (R : Addr) : handled R l = handled R l' := by
  rw [← handled_blind R l, h, handled_blind]

theorem handled_acts (R : Addr) (l : List Entry) : handled R l = (Chain.actsAt R l).filterMap (fun a => match a with
    | .router c r => some (c, r)
    | _ => none) := by
  unfold handled Chain.actsAt
  rw [List.filterMap_map, List.filterMap_filter]
  congr 1
  funext e
  obtain ⟨p, act⟩ := e
  by_cases h : p.target = R
  · simp only [h, if_true, decide_true, Function.comp_apply]
    cases act <;> rfl
  · simp only [h, if_false, decide_false]
    rfl

/-- in a history of the chain these are the history of the router -/
theorem handled_history {setup : Chain.Setup} {txs : List Chain.Tx} {R : Addr} {rc : Router.Config} (hR : setup R = some (.router rc)) :
    handled R (Chain.log P setup txs) = history rc (Chain.routerCalls R (Chain.log P setup txs)) := by
  have hm := (Chain.inv P setup txs).acts R _ hR
  simp only [Chain.Matches] at hm
  rw [handled_acts]
  conv_lhs => rw [hm]
  rw [List.filterMap_map]
  exact List.filterMap_some

/-- one administrative message to the router, executed -/
theorem exec_admin {w : Chain.World} {R : Addr} {s : Router.State} (hw : w R = some (.router s)) {tx : Chain.Tx}
    (hs : w tx.sender = none) {funds : List Registry.Coin} {m : Router.Msg} (hm : tx.msgs = [(R, funds, .router m)]) (hg : 1 ≤ tx.gas)
    (hno : ∀ s' r, Router.exec s ⟨tx.sender, m⟩ = .ok (s', r) → r.dispatched = []) :
    (∀ s' r, Router.exec s ⟨tx.sender, m⟩ = .ok (s', r) →
      Chain.exec P w tx = .ok (KV.set w R (.router s'), [⟨⟨tx.sender, R, funds, .router m⟩, .router ⟨tx.sender, m⟩ r⟩])) ∧
    (∀ x, Chain.exec P w tx = .ok x → ∃ y, Router.exec s ⟨tx.sender, m⟩ = .ok y) := by
  obtain ⟨g, hg⟩ : ∃ k, tx.gas = k + 1 := ⟨tx.gas - 1, by omega⟩
  constructor
  · intro s' r hx
    have hd := hno s' r hx
    unfold Chain.exec
    rw [if_neg (by simp [hs]), hm, hg]
    simp only [List.map_cons, List.map_nil]
    rw [Chain.run, if_neg (by simp [hw])]
    unfold Chain.deliver
    simp only [hw]
    unfold Chain.call
    simp only [hw, Chain.Msg.toRouter, hx, Chain.Entry.sent, Chain.Act.outs, hd, List.map_nil, List.append_nil]
    cases g <;> simp [Chain.run]
  · intro x h
    cases hx : Router.exec s ⟨tx.sender, m⟩ with
    | ok y => exact ⟨y, rfl⟩
    | error e =>
      unfold Chain.exec at h
      rw [if_neg (by simp [hs]), hm, hg] at h
      simp only [List.map_cons, List.map_nil] at h
      rw [Chain.run, if_neg (by simp [hw])] at h
      unfold Chain.deliver at h
      simp only [hw] at h
      unfold Chain.call at h
      simp [hw, Chain.Msg.toRouter, hx] at h

/-- the text of a request to freeze or unfreeze -/
theorem admin_text (hG : Sound G) (hX : ∀ b, IsBytes (P.X.keccak b)) (ts : List TextStep) (t : TextTx)
    (hb : ∀ s ∈ ts ++ [.tx t], StepInRange s) (ha : TextApart G (ts ++ [.tx t])) {R : Addr} {rc : Router.Config}
    (hR : textSetup G ts R = some (.router rc)) {m : Router.Msg} {n : ChainName} {d : Direction}
    (hmsg : m = .freezeChain n d ∨ m = .unfreezeChain n d) (hn : n.Valid G.L) {funds : List Registry.Coin}
    (hm : t.msgs = [(R, funds, write G (.router m))]) (hg : 1 ≤ t.gas) :
    ((∃ x, execText G P (textDeployedWorld G P ts) t = .ok x) ↔
      t.sender = rc.admin ∧ (gatewayAfter n (handled R (textDeployedLog G P ts))).isSome = true) ∧
    ((∃ x, execText G P (textDeployedWorld G P ts) t = .ok x) → ∃ r,
      handled R (textDeployedLog G P (ts ++ [.tx t])) = handled R (textDeployedLog G P ts) ++ [(⟨t.sender, m⟩, r)]) := by
  have hbt : ∀ x ∈ ts, StepInRange x := fun x hx => hb x (List.mem_append_left _ hx)
  have hat := textApart_prefix ha
  have hin : InRange t := hb (.tx t) (by simp)
  obtain ⟨w1, w2, -, -, -⟩ := C105_history (P := P) hG hX ts hbt hat
  have hi := Chain.inv P (textSetup G ts) (Chain.succeeded P (steps G ts))
  have hs : textSetup G ts t.sender = none := by
    by_contra h
    refine (ha t (by simp) t.sender ?_).1 rfl
    cases hk : textSetup G ts t.sender with
    | none => exact absurd hk h
    | some k => rw [textSetup_mono ts _ hk]; simp
  have htyped : Typed G.L (.router m) := by rcases hmsg with rfl | rfl <;> exact hn
  have hunder : understood .router (.router m) = some (.router m) := by rcases hmsg with rfl | rfl <;> rfl
  have hmsgs : (meaning G (textSetup G ts) t).msgs = [(R, funds, .router m)] := by
    unfold meaning
    rw [hm]
    simp only [List.map_cons, List.map_nil]
    congr 3
    unfold meant
    rw [hR]
    simp only
    rw [C95_read hG (.router m) htyped]
    show (match understood .router (.router m) with | some m => m | none => _) = _
    rw [hunder]
  have hnone : Chain.worldAfter P (textSetup G ts) (Chain.succeeded P (steps G ts)) (meaning G (textSetup G ts) t).sender = none := by
    rw [hi.world]
    show (textSetup G ts t.sender).map _ = none
    rw [hs]
    rfl
  have hexec : ∀ cs, (∃ s' r, Router.exec (stateAfter rc cs) ⟨t.sender, m⟩ = .ok (s', r)) ↔
      t.sender = rc.admin ∧ (gatewayAfter n (history rc cs)).isSome = true := by
    intro cs
    rw [← Router.C18_gateway_history, Option.isSome_map]
    have hc := Router.config_reachable rc cs
    unfold getChainInfo
    rcases hmsg with rfl | rfl
    · simp only [Router.exec, hc, Router.freezeChain]
      by_cases h : rc.admin = t.sender
      · simp only [h, ne_eq, not_true_eq_false, if_false, true_and]
        cases Router.lookup (stateAfter rc cs).chains n <;> simp
      · simp [h, Ne.symm h]
    · simp only [Router.exec, hc, Router.unfreezeChain]
      by_cases h : rc.admin = t.sender
      · simp only [h, ne_eq, not_true_eq_false, if_false, true_and]
        cases Router.lookup (stateAfter rc cs).chains n <;> simp
      · simp [h, Ne.symm h]
  have hno : ∀ (s s' : Router.State) r, Router.exec s ⟨t.sender, m⟩ = .ok (s', r) → r.dispatched = [] := by
    intro s s' r h
    rcases hmsg with rfl | rfl
    · simp only [Router.exec, Router.freezeChain] at h
      split at h
      · cases h
      · split at h
        · cases h
        · simp only [Except.ok.injEq, Prod.mk.injEq] at h
          rw [← h.2]
    · simp only [Router.exec, Router.unfreezeChain] at h
      split at h
      · cases h
      · split at h
        · cases h
        · simp only [Except.ok.injEq, Prod.mk.injEq] at h
          rw [← h.2]
  obtain ⟨x1, x2⟩ := exec_admin (P := P) (hi.router_state hR) hnone hmsgs hg (hno _)
  have hsv : handled R (textDeployedLog G P ts) =
      history rc (Chain.routerCalls R (Chain.log P (textSetup G ts) (Chain.succeeded P (steps G ts)))) := by
    rw [handled_log w2, handled_history hR]
  constructor
  · rw [hsv, ← hexec]
    constructor
    · rintro ⟨x, hx⟩
      obtain ⟨⟨a, b⟩, hy⟩ := x2 x ((exec_after hG hX ts hbt hat t hin).mp hx)
      exact ⟨a, b, hy⟩
    · rintro ⟨a, b, hy⟩
      exact ⟨_, (exec_after hG hX ts hbt hat t hin).mpr (x1 a b hy)⟩
  · rintro ⟨x, hx⟩
    obtain ⟨⟨s', r⟩, hy⟩ := x2 x ((exec_after hG hX ts hbt hat t hin).mp hx)
    obtain ⟨-, -, -, v4⟩ := deployed_snoc hG hX ts t hb ha (x1 s' r hy)
    refine ⟨r, ?_⟩
    rw [handled_log v4, handled_append, handled_log w2]
    congr 1
    unfold handled
    simp only [List.filterMap_cons, List.filterMap_nil, if_true]
    rfl

/-! ### The property -/

/-- C119, freezing: the text of a request to freeze a chain is taken exactly if the admin sends it and the chain is registered.  From
then on the ways that it names are frozen; what was frozen before stays frozen, and nothing changes for other chains. -/
theorem C119_freeze (hG : Sound G) (hX : ∀ b, IsBytes (P.X.keccak b)) (ts : List TextStep) (t : TextTx)
    (hb : ∀ s ∈ ts ++ [.tx t], StepInRange s) (ha : TextApart G (ts ++ [.tx t])) (R : Addr) (rc : Router.Config)
    (hR : textSetup G ts R = some (.router rc)) (n : ChainName) (hn : n.Valid G.L) (d : Direction) (funds : List Registry.Coin)
    (hm : t.msgs = [(R, funds, write G (.router (.freezeChain n d)))]) (hg : 1 ≤ t.gas) :
    ((∃ x, execText G P (textDeployedWorld G P ts) t = .ok x) ↔
      t.sender = rc.admin ∧ (gatewayAfter n (handled R (textDeployedLog G P ts))).isSome = true) ∧
    ((∃ x, execText G P (textDeployedWorld G P ts) t = .ok x) → ∀ n' w,
      frozenAfter n' w (handled R (textDeployedLog G P (ts ++ [.tx t]))) =
        (frozenAfter n' w (handled R (textDeployedLog G P ts)) || (decide (n' = n) && d.covers w))) := by
  obtain ⟨h1, h2⟩ := admin_text (P := P) hG hX ts t hb ha hR (.inl rfl) hn hm hg
  refine ⟨h1, fun hx n' w => ?_⟩
  obtain ⟨r, hr⟩ := h2 hx
  rw [hr]
  unfold frozenAfter
  rw [List.foldl_append]
  generalize List.foldl (fun b (e : Router.Call × Router.Resp) => Router.frozenStep n' w b e.1) false _ = b
  simp only [List.foldl_cons, List.foldl_nil, Router.frozenStep]
  by_cases h : n = n'
  · subst h
    cases d.covers w <;> simp
  · simp [h, Ne.symm h]

/-- C119, unfreezing: the text of a request to unfreeze a chain is taken exactly if the admin sends it and the chain is registered.  From
then on the ways that it names are not frozen; everything else is as before. -/
theorem C119_unfreeze (hG : Sound G) (hX : ∀ b, IsBytes (P.X.keccak b)) (ts : List TextStep) (t : TextTx)
    (hb : ∀ s ∈ ts ++ [.tx t], StepInRange s) (ha : TextApart G (ts ++ [.tx t])) (R : Addr) (rc : Router.Config)
    (hR : textSetup G ts R = some (.router rc)) (n : ChainName) (hn : n.Valid G.L) (d : Direction) (funds : List Registry.Coin)
    (hm : t.msgs = [(R, funds, write G (.router (.unfreezeChain n d)))]) (hg : 1 ≤ t.gas) :
    ((∃ x, execText G P (textDeployedWorld G P ts) t = .ok x) ↔
      t.sender = rc.admin ∧ (gatewayAfter n (handled R (textDeployedLog G P ts))).isSome = true) ∧
    ((∃ x, execText G P (textDeployedWorld G P ts) t = .ok x) → ∀ n' w,
      frozenAfter n' w (handled R (textDeployedLog G P (ts ++ [.tx t]))) =
        (frozenAfter n' w (handled R (textDeployedLog G P ts)) && !(decide (n' = n) && d.covers w))) := by
  obtain ⟨h1, h2⟩ := admin_text (P := P) hG hX ts t hb ha hR (.inr rfl) hn hm hg
  refine ⟨h1, fun hx n' w => ?_⟩
  obtain ⟨r, hr⟩ := h2 hx
  rw [hr]
  unfold frozenAfter
  rw [List.foldl_append]
  generalize List.foldl (fun b (e : Router.Call × Router.Resp) => Router.frozenStep n' w b e.1) false _ = b
  simp only [List.foldl_cons, List.foldl_nil, Router.frozenStep]
  by_cases h : n = n'
  · subst h
    cases d.covers w <;> simp
  · simp [h, Ne.symm h]

/-- C119, stopped: whatever texts are sent to a chain, and to whatever contracts: when the router routes messages, the chain whose
gateway gave them is registered with that gateway and not frozen for what comes in, and all of them come from it - unless the nexus
gateway gave them; and each goes to a chain that is not frozen for what goes out, or to one that is not registered, if the nexus gateway
did not give it. -/
theorem C119_stopped (hG : Sound G) (hX : ∀ b, IsBytes (P.X.keccak b)) (ts : List TextStep) (hb : ∀ s ∈ ts, StepInRange s)
    (ha : TextApart G ts) (R : Addr) (rc : Router.Config) (hR : textSetup G ts R = some (.router rc))
    (l₁ l₂ : List (Router.Call × Router.Resp)) (c : Router.Call) (r : Router.Resp) (ms : List Router.Message)
    (hl : handled R (textDeployedLog G P ts) = l₁ ++ (c, r) :: l₂) (hm : c.msg = .routeMessages ms) :
    (c.sender = rc.nexusGateway ∨ ∃ n, gatewayAfter n l₁ = some c.sender ∧ frozenAfter n .incoming l₁ = false ∧
      ∀ m ∈ ms, m.ccId.chain = n) ∧
    ∀ m ∈ ms, ((gatewayAfter m.destinationChain l₁).isSome = true ∧ frozenAfter m.destinationChain .outgoing l₁ = false) ∨
      (gatewayAfter m.destinationChain l₁ = none ∧ c.sender ≠ rc.nexusGateway) := by
  obtain ⟨-, w2, -, -, -⟩ := C105_history (P := P) hG hX ts hb ha
  rw [handled_log w2, handled_history hR] at hl
  obtain ⟨cs₁, cs₂, s', -, h2, h3, -, -⟩ := outs_split Router.exec hl
  change history rc cs₁ = l₁ at h2
  obtain ⟨sender, msg⟩ := c
  simp only at hm ⊢
  subst hm
  obtain ⟨g1, g2⟩ := (Router.C19_routed_iff rc cs₁ sender ms).mp ⟨s', r, h3⟩
  subst h2
  refine ⟨?_, ?_⟩
  · rcases g1 with g1 | ⟨n, e, k1, k2, k3, k4⟩
    · exact .inl g1
    · refine .inr ⟨n, ?_, ?_, k4⟩
      · rw [← Router.C18_gateway_history, k1, Option.map_some, k2]
      · rw [← Router.C20_frozen_history rc cs₁ k1]
        exact k3
  · intro m hm
    rcases g2 m hm with ⟨e, k1, k2⟩ | ⟨k1, k2⟩
    · left
      refine ⟨by rw [← Router.C18_gateway_history, k1]; rfl, ?_⟩
      rw [← Router.C20_frozen_history rc cs₁ k1]
      exact k2
    · exact .inr ⟨by rw [← Router.C18_gateway_history, k1]; rfl, k2⟩

end Amp.Wire
