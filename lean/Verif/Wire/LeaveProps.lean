import Verif.Wire.LeaveSpec
import Verif.Wire.JoinTextProps

/-!
# C118: stake and membership follow the texts sent to the registry
-/

namespace Amp.Wire

open Amp.Chain (Params Entry)
open Amp.Router (ChainName)
open Amp.Registry (registered lastOwn deposits payouts declaredIn authAfter history stateAfter)

variable {G : Texture} {P : Params}

/-! ### Helper lemmas -/

theorem served_append (R : Addr) (l l' : List Entry) : served R (l ++ l') = served R l ++ served R l' := List.filterMap_append

theorem served_blind (R : Addr) (l : List Entry) : served R (l.map Entry.blind) = served R l := by
  unfold served
  rw [List.filterMap_map]
  congr 1
  funext e
  obtain ⟨p, act⟩ := e
  show (if p.target = R then _ else none) = if p.target = R then _ else none
  cases act <;> rfl

theorem served_log {l l' : List Entry} (h : l.map Entry.blind = l'.map Entry.blind) (R : Addr) : served R l = served R l' := by
  rw [← served_blind R l, h, served_blind]

theorem served_acts (R : Addr) (l : List Entry) : served R l = (Chain.actsAt R l).filterMap (fun a => match a with
    | .registry c r => some (c, r)
    | _ => none) := by
  unfold served Chain.actsAt
  rw [List.filterMap_map, List.filterMap_filter]
  congr 1
  funext e
  obtain ⟨p, act⟩ := e
  by_cases h : p.target = R
  · simp only [h, if_true, decide_true, Function.comp_apply]
    cases act <;> rfl
  · simp only [h, if_false, decide_false]
    rfl

/-- in a history of the chain these are the history of the registry -/
theorem served_history {setup : Chain.Setup} {txs : List Chain.Tx} {R gov : Addr} (hR : setup R = some (.registry gov)) :
    served R (Chain.log P setup txs) = history gov (Chain.registryCalls R (Chain.log P setup txs)) := by
  have hm := (Chain.inv P setup txs).acts R _ hR
  simp only [Chain.Matches] at hm
  rw [served_acts]
  conv_lhs => rw [hm]
  rw [List.filterMap_map]
  exact List.filterMap_some

/-- one message to the registry, executed -/
theorem exec_served {w : Chain.World} {R : Addr} {s : Registry.State} (hw : w R = some (.registry s)) {tx : Chain.Tx}
    (hs : w tx.sender = none) {funds : List Registry.Coin} {m : Registry.Msg}
    (hm : tx.msgs = [(R, funds, .registry m)]) (hg : 1 ≤ tx.gas) :
    (∀ s' r, Registry.exec s ⟨tx.sender, funds, tx.block.time, m⟩ = .ok (s', r) →
      Chain.exec P w tx = .ok (KV.set w R (.registry s'), [⟨⟨tx.sender, R, funds, .registry m⟩,
        .registry ⟨tx.sender, funds, tx.block.time, m⟩ r⟩])) ∧
    (∀ x, Chain.exec P w tx = .ok x → ∃ y, Registry.exec s ⟨tx.sender, funds, tx.block.time, m⟩ = .ok y) := by
  obtain ⟨g, hg⟩ : ∃ k, tx.gas = k + 1 := ⟨tx.gas - 1, by omega⟩
  constructor
  · intro s' r hx
    unfold Chain.exec
    rw [if_neg (by simp [hs]), hm, hg]
    simp only [List.map_cons, List.map_nil]
    rw [Chain.run, if_neg (by simp [hw])]
    unfold Chain.deliver
    simp only [hw]
    unfold Chain.call
    simp only [hw, hx, Chain.Entry.sent, Chain.Act.outs, List.map_nil, List.append_nil]
    cases g <;> simp [Chain.run]
  · intro x h
    cases hx : Registry.exec s ⟨tx.sender, funds, tx.block.time, m⟩ with
    | ok y => exact ⟨y, rfl⟩
    | error e =>
      unfold Chain.exec at h
      rw [if_neg (by simp [hs]), hm, hg] at h
      simp only [List.map_cons, List.map_nil] at h
      rw [Chain.run, if_neg (by simp [hw])] at h
      unfold Chain.deliver at h
      simp only [hw] at h
      unfold Chain.call at h
      simp [hw, hx] at h

/-- the text of one message to the registry -/
theorem registry_text (hG : Sound G) (hX : ∀ b, IsBytes (P.X.keccak b)) (ts : List TextStep) (t : TextTx)
    (hb : ∀ s ∈ ts ++ [.tx t], StepInRange s) (ha : TextApart G (ts ++ [.tx t])) {R gov : Addr}
    (hR : textSetup G ts R = some (.registry gov)) {m : Registry.Msg} (htyped : Typed G.L (.registry m)) {funds : List Registry.Coin}
    (hm : t.msgs = [(R, funds, write G (.registry m))]) (hg : 1 ≤ t.gas) :
    ∃ cs, served R (textDeployedLog G P ts) = history gov cs ∧ textDeployedWorld G P ts R = some (.registry (stateAfter gov cs)) ∧
      ((∃ x, execText G P (textDeployedWorld G P ts) t = .ok x) ↔
        ∃ s' r, Registry.exec (stateAfter gov cs) ⟨t.sender, funds, t.block.time, m⟩ = .ok (s', r)) ∧
      ∀ s' r, Registry.exec (stateAfter gov cs) ⟨t.sender, funds, t.block.time, m⟩ = .ok (s', r) →
        served R (textDeployedLog G P (ts ++ [.tx t])) =
          served R (textDeployedLog G P ts) ++ [(⟨t.sender, funds, t.block.time, m⟩, r)] := by
  have hbt : ∀ x ∈ ts, StepInRange x := fun x hx => hb x (List.mem_append_left _ hx)
  have hat := textApart_prefix ha
  have hin : InRange t := hb (.tx t) (by simp)
  obtain ⟨w1, w2, -, -, -⟩ := C105_history (P := P) hG hX ts hbt hat
  have hi := Chain.inv P (textSetup G ts) (Chain.succeeded P (steps G ts))
  have hs : textSetup G ts t.sender = none := by
    by_contra h
    refine (ha t (by simp) t.sender ?_).1 rfl
    cases hk : textSetup G ts t.sender with
    | none => exact absurd hk h
    | some k => rw [textSetup_mono ts _ hk]; simp
  have hmsgs : (meaning G (textSetup G ts) t).msgs = [(R, funds, .registry m)] := by
    unfold meaning
    rw [hm]
    simp only [List.map_cons, List.map_nil]
    congr 3
    unfold meant
    rw [hR]
    simp only
    rw [C95_read hG (.registry m) htyped]
    rfl
  have hnone : Chain.worldAfter P (textSetup G ts) (Chain.succeeded P (steps G ts)) (meaning G (textSetup G ts) t).sender = none := by
    rw [hi.world]
    show (textSetup G ts t.sender).map _ = none
    rw [hs]
    rfl
  obtain ⟨x1, x2⟩ := exec_served (P := P) (hi.registry_state hR) hnone hmsgs hg
  have hsv : served R (textDeployedLog G P ts) =
      history gov (Chain.registryCalls R (Chain.log P (textSetup G ts) (Chain.succeeded P (steps G ts)))) := by
    rw [served_log w2, served_history hR]
  refine ⟨_, hsv, by rw [w1]; exact hi.registry_state hR, ⟨?_, ?_⟩, ?_⟩
  · rintro ⟨x, hx⟩
    obtain ⟨⟨a, b⟩, hy⟩ := x2 x ((exec_after hG hX ts hbt hat t hin).mp hx)
    exact ⟨a, b, hy⟩
  · rintro ⟨a, b, hy⟩
    exact ⟨_, (exec_after hG hX ts hbt hat t hin).mpr (x1 a b hy)⟩
  · intro s' r hy
    obtain ⟨-, -, -, v4⟩ := deployed_snoc hG hX ts t hb ha (x1 s' r hy)
    rw [served_log v4, served_append, served_log w2]
    congr 1
    unfold served
    simp only [List.filterMap_cons, List.filterMap_nil, if_true]
    rfl

theorem lastOwn_own {l : List (Registry.Call × Registry.Resp)} {n : Str} {a : Addr} {u : Registry.Call} (h : lastOwn l n a = some u) :
    u.msg = .bondWorker n ∨ u.msg = .unbondWorker n ∨ u.msg = .claimStake n := by
  unfold lastOwn at h
  obtain ⟨e, he, rfl⟩ := Option.map_eq_some_iff.mp h
  have := (List.mem_filter.mp (List.mem_of_getLast? he)).2
  simp only [Registry.ownCall, Bool.and_eq_true, Bool.or_eq_true, decide_eq_true_eq] at this
  rcases this.2 with (h | h) | h
  · exact .inl h
  · exact .inr (.inl h)
  · exact .inr (.inr h)

/-! ### The property -/

/-- C118, unbonding: the text of a request to unbond is taken exactly if the last text by which the sender managed its stake in the
service was to bond. -/
theorem C118_unbond (hG : Sound G) (hX : ∀ b, IsBytes (P.X.keccak b)) (ts : List TextStep) (t : TextTx)
    (hb : ∀ s ∈ ts ++ [.tx t], StepInRange s) (ha : TextApart G (ts ++ [.tx t])) (R gov : Addr)
    (hR : textSetup G ts R = some (.registry gov)) (n : Str) (funds : List Registry.Coin)
    (hm : t.msgs = [(R, funds, write G (.registry (.unbondWorker n)))]) (hg : 1 ≤ t.gas) :
    ((∃ x, execText G P (textDeployedWorld G P ts) t = .ok x) ↔
      ∃ u, lastOwn (served R (textDeployedLog G P ts)) n t.sender = some u ∧ u.msg = .bondWorker n) ∧
    ((∃ x, execText G P (textDeployedWorld G P ts) t = .ok x) →
      served R (textDeployedLog G P (ts ++ [.tx t])) =
        served R (textDeployedLog G P ts) ++ [(⟨t.sender, funds, t.block.time, .unbondWorker n⟩, { sends := [] })]) := by
  obtain ⟨cs, h1, -, h3, h4⟩ := registry_text (P := P) hG hX ts t hb ha hR (m := .unbondWorker n) trivial hm hg
  have hiff := Registry.C36_unbond_iff gov cs ⟨t.sender, funds, t.block.time, .unbondWorker n⟩ n rfl
  have hph := Registry.phase_reachable gov cs n t.sender
  constructor
  · rw [h3, hiff, h1]
    simp only
    rw [hph]
    constructor
    · rintro ⟨k, hk⟩
      cases hu : lastOwn (history gov cs) n t.sender with
      | none => rw [hu] at hk; cases hk
      | some u =>
        rw [hu] at hk
        rcases lastOwn_own hu with h | h | h
        · exact ⟨u, rfl, h⟩
        · simp [Registry.phase, h] at hk
        · simp [Registry.phase, h] at hk
    · rintro ⟨u, hu, hmsg⟩
      rw [hu]
      exact ⟨Registry.stakeOf (stateAfter gov cs) n t.sender, by simp only [Registry.phase, hmsg]⟩
  · intro hx
    obtain ⟨s', r, hy⟩ := h3.mp hx
    have hr : r = { sends := [] } := by
      have hy' : Registry.unbondWorker _ _ n = .ok (s', r) := hy
      obtain ⟨_, _, _, _, h, _⟩ := Registry.unbond_ok hy'
      exact h
    rw [h4 s' r hy, hr]

/-- C118, claiming: the text of a request to claim the stake is taken exactly if the last text by which the sender managed its stake in
the service was to unbond, at least the unbonding period before.  Then the sender is sent, in one transfer in the denomination of the
service, everything it deposited with its bonds and was not paid before. -/
theorem C118_claim (hG : Sound G) (hX : ∀ b, IsBytes (P.X.keccak b)) (ts : List TextStep) (t : TextTx)
    (hb : ∀ s ∈ ts ++ [.tx t], StepInRange s) (ha : TextApart G (ts ++ [.tx t])) (R gov : Addr)
    (hR : textSetup G ts R = some (.registry gov)) (n : Str) (funds : List Registry.Coin)
    (hm : t.msgs = [(R, funds, write G (.registry (.claimStake n)))]) (hg : 1 ≤ t.gas) (l : List (Registry.Call × Registry.Resp))
    (hl : l = served R (textDeployedLog G P ts)) :
    ((∃ x, execText G P (textDeployedWorld G P ts) t = .ok x) ↔
      ∃ sv u, registered l n = some sv ∧ lastOwn l n t.sender = some u ∧ u.msg = .unbondWorker n ∧
        u.time + sv.unbondingDays * Registry.dayNanos ≤ t.block.time) ∧
    ((∃ x, execText G P (textDeployedWorld G P ts) t = .ok x) → ∃ sv, registered l n = some sv ∧
      served R (textDeployedLog G P (ts ++ [.tx t])) = l ++ [(⟨t.sender, funds, t.block.time, .claimStake n⟩,
        { sends := [(t.sender, (sv.denom, deposits l n sv.denom t.sender - payouts l n t.sender))] })]) := by
  have hin : InRange t := hb (.tx t) (by simp)
  obtain ⟨cs, h1, -, h3, h4⟩ := registry_text (P := P) hG hX ts t hb ha hR (m := .claimStake n) trivial hm hg
  rw [h1] at hl
  subst hl
  have key : ∀ s' r, Registry.exec (stateAfter gov cs) ⟨t.sender, funds, t.block.time, .claimStake n⟩ = .ok (s', r) →
      ∃ sv u, registered (history gov cs) n = some sv ∧ lastOwn (history gov cs) n t.sender = some u ∧ u.msg = .unbondWorker n ∧
        u.time + sv.unbondingDays * Registry.dayNanos ≤ t.block.time := by
    intro s' r hy
    obtain ⟨sv, _, e1, e2, e3, e4⟩ := Registry.claim_sends hy rfl
    have hh : history gov (cs ++ [⟨t.sender, funds, t.block.time, .claimStake n⟩]) =
        history gov cs ++ (⟨t.sender, funds, t.block.time, .claimStake n⟩, r) :: [] := by
      rw [Registry.history, outs_append, outs_cons_ok Registry.exec hy]
      rfl
    obtain ⟨n', sv', u, g1, g2, g3, g4, g5, -⟩ := Registry.C33_release gov _ hh (by rw [e4]; simp)
    simp only [Registry.Msg.claimStake.injEq] at g1
    subst g1
    exact ⟨sv', u, g2, g3, g4, g5⟩
  have back : ∀ sv u, registered (history gov cs) n = some sv → lastOwn (history gov cs) n t.sender = some u →
      u.msg = .unbondWorker n → u.time + sv.unbondingDays * Registry.dayNanos ≤ t.block.time →
      ∃ s', Registry.exec (stateAfter gov cs) ⟨t.sender, funds, t.block.time, .claimStake n⟩ = .ok (s', { sends := [(t.sender, (sv.denom,
        deposits (history gov cs) n sv.denom t.sender - payouts (history gov cs) n t.sender))] }) := fun sv u g1 g2 g3 g4 =>
    Registry.C33_claimable gov cs ⟨t.sender, funds, t.block.time, .claimStake n⟩ n sv u g1 rfl g2 g3 g4 hin.time
  constructor
  · rw [h3]
    constructor
    · rintro ⟨s', r, hy⟩
      exact key s' r hy
    · rintro ⟨sv, u, g1, g2, g3, g4⟩
      obtain ⟨s', hy⟩ := back sv u g1 g2 g3 g4
      exact ⟨s', _, hy⟩
  · intro hx
    obtain ⟨s', r, hy⟩ := h3.mp hx
    obtain ⟨sv, u, g1, g2, g3, g4⟩ := key s' r hy
    obtain ⟨s'', hy'⟩ := back sv u g1 g2 g3 g4
    exact ⟨sv, g1, by rw [h4 s'' _ hy', h1]⟩

/-- C118, membership: for a service that was registered, the registry answers the text of a question for the active workers of a chain
with a text that reads as a list, in ascending order of addresses.  The workers on it are exactly those who declared support for the
chain, whose last text about their stake was to bond, who have at least the minimum at stake, and about whom the last word of governance
was that they are authorised. -/
theorem C118_active (hG : Sound G) (hX : Octets P.X) (h4 : FourIds P.X) (ts : List TextStep) (hb : ∀ s ∈ ts, StepInRange s)
    (ha : TextApart G ts) (R gov : Addr) (hR : textSetup G ts R = some (.registry gov)) (n : Str) (ch : ChainName) (hch : ch.Valid G.L)
    (l : List (Registry.Call × Registry.Resp)) (hl : l = served R (textDeployedLog G P ts)) (sv : Registry.Service)
    (hsv : registered l n = some sv) :
    ∃ text ws, query G P (textDeployedWorld G P ts) R ((UserQuestion.contract (.activeWorkers n ch)).json G.T).render = some text ∧
      (UserQuestion.contract (.activeWorkers n ch)).readText G text = some (.contract (.workers ws)) ∧
      (ws.map (·.address)).Pairwise (· < ·) ∧
      ∀ a, (∃ w ∈ ws, w.address = a) ↔ declaredIn l n ch a ∧
        (∃ u, lastOwn l n a = some u ∧ u.msg = .bondWorker n) ∧ sv.minBond ≤ deposits l n sv.denom a - payouts l n a ∧
        authAfter l n a .notAuthorized = .authorized := by
  obtain ⟨w1, w2, -, -, -⟩ := C105_history (P := P) hG hX.keccak ts hb ha
  have hi := Chain.inv P (textSetup G ts) (Chain.succeeded P (steps G ts))
  have hst := hi.registry_state hR
  rw [served_log w2, served_history hR] at hl
  revert hst hl
  generalize Chain.registryCalls R (Chain.log P (textSetup G ts) (Chain.succeeded P (steps G ts))) = cs
  intro hl hst
  subst hl
  have hsv' : Registry.findService (stateAfter gov cs).services n = some sv := by rw [Registry.C35_services]; exact hsv
  obtain ⟨ws, g1, g2, g3, -⟩ := Registry.C34_active_workers gov cs n ch sv hsv'
  have hask : Chain.askWorkers (textDeployedWorld G P ts) R n ch = some ws := by
    unfold Chain.askWorkers
    rw [w1, hst]
    simp only [g1, Chain.answer]
  obtain ⟨text, q1, q2⟩ := asked_workers hG hX h4 ts hb R n ch hch ws hask
  refine ⟨text, ws, q1, q2, g2, ?_⟩
  intro a
  have hph := Registry.phase_reachable gov cs n a
  have hled := Registry.C32_worker_ledger gov cs n a sv hsv'
  constructor
  · rintro ⟨w, hw, rfl⟩
    obtain ⟨f1, f2, ⟨k, f3, f4⟩, f5⟩ := (g3 w).mp hw
    have hk : Registry.bondingOf (stateAfter gov cs) n w.address = .bonded k := by simp only [Registry.bondingOf, f1, f3]
    have hsk : Registry.stakeOf (stateAfter gov cs) n w.address = k := by
      simp only [Registry.stakeOf, f1, f3, Registry.BondingState.amount]
    refine ⟨f2, ?_, by omega, by rw [← Registry.C35_authorisation gov cs n _ w f1]; exact f5⟩
    rw [hph] at hk
    cases hu : lastOwn (history gov cs) n w.address with
    | none => rw [hu] at hk; cases hk
    | some u =>
      rw [hu] at hk
      rcases lastOwn_own hu with h | h | h
      · exact ⟨u, rfl, h⟩
      · simp [Registry.phase, h] at hk
      · simp [Registry.phase, h] at hk
  · rintro ⟨f1, ⟨u, hu, hmsg⟩, f3, f4⟩
    rw [hu] at hph
    simp only [Registry.phase, hmsg] at hph
    cases hw : Registry.findWorker (stateAfter gov cs) n a with
    | none => simp [Registry.bondingOf, hw] at hph
    | some w =>
      simp only [Registry.bondingOf, hw] at hph
      have haddr : w.address = a := ((Registry.inv_reachable gov cs).own n a w hw).1
      refine ⟨w, (g3 w).mpr ⟨by rw [haddr]; exact hw, by rw [haddr]; exact f1, ⟨_, hph, by omega⟩, ?_⟩, haddr⟩
      rw [Registry.C35_authorisation gov cs n a w hw]
      exact f4

end Amp.Wire
