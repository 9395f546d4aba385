import Verif.Wire.LogSpec
import Verif.Wire.EventLemmas
import Verif.Wire.MsgSpec
import Verif.Chain.RelayLemmas

/-! # Events are read back -/

namespace Amp.Wire

open Amp.Encoding (Bytes)
open Amp.Router (ChainName CCId Message Lowering)
open Amp.Multisig (PublicKey Signature Session KeyType)
open Amp.Ampd (readAll lastWith)
open Amp.Chain (Act Entry Params Setup)

variable {finite : Str → Bool} {T : Texts}

theorem text_inj (hT : T.Faithful) {a b : Addr} (h : T.text a = T.text b) : a = b := by
  have h1 := hT.parse_text a
  rw [h, hT.parse_text b] at h1
  exact (Option.some.inj h1).symm

theorem inClear_publish (k : Str) (a : Addr) (as : List (Str × Str)) :
    inClear (publish T k a as) = some (("_contract_address".toList, T.text a) :: as) := by
  have key := readAll_map (f := fun p : Str × Str => match base64ToUtf8 p.1, base64ToUtf8 p.2 with
      | some k, some v => some (k, v)
      | _, _ => none)
    (g := fun p : Str × Str => (encode64 (utf8Bytes p.1), encode64 (utf8Bytes p.2))) (h := id)
    (l := ("_contract_address".toList, T.text a) :: as)
    (fun p _ => by simp only [base64ToUtf8_encode, id])
  rw [List.map_id] at key
  exact key

/-- of this contract -/
theorem noticed_self (k : Str) (a : Addr) {as : List (Str × Str)}
    (h : lastWith "_contract_address".toList (("_contract_address".toList, T.text a) :: as) = some (T.text a)) :
    noticed T a (publish T k a as) = some (k, ("_contract_address".toList, T.text a) :: as) := by
  unfold noticed
  rw [inClear_publish]
  dsimp only
  rw [if_pos h]
  rfl

/-- of another contract -/
theorem noticed_other (hT : T.Faithful) (k : Str) {a b : Addr} (hab : a ≠ b) {as : List (Str × Str)}
    (h : lastWith "_contract_address".toList (("_contract_address".toList, T.text a) :: as) = some (T.text a)) :
    noticed T b (publish T k a as) = none := by
  unfold noticed
  rw [inClear_publish]
  dsimp only
  rw [if_neg]
  rw [h]
  intro e
  exact hab (text_inj hT (Option.some.inj e))

theorem verifier_address (a : Addr) (ev : VV.Event) :
    lastWith "_contract_address".toList (("_contract_address".toList, T.text a) :: verifierAttributes T ev) = some (T.text a) := by
  cases ev <;> rfl

theorem gateway_address (a : Addr) (ev : Gateway.Event) :
    lastWith "_contract_address".toList (("_contract_address".toList, T.text a) :: gatewayAttributes ev) = some (T.text a) := by
  cases ev <;> rfl

theorem router_address (a : Addr) (ev : Router.Event) :
    lastWith "_contract_address".toList (("_contract_address".toList, T.text a) :: routerAttributes T ev) = some (T.text a) := by
  cases ev <;> rfl

theorem multisig_address (a : Addr) (ev : Multisig.Event) :
    lastWith "_contract_address".toList (("_contract_address".toList, T.text a) :: multisigAttributes T ev) = some (T.text a) := by
  cases ev <;> rfl

theorem prover_address (a : Addr) (ev : Nat × Bytes) :
    lastWith "_contract_address".toList (("_contract_address".toList, T.text a) :: proverAttributes ev) = some (T.text a) := rfl

/-- the events of a contract are noticed by nobody who watches another one -/
theorem act_other (hT : T.Faithful) {a b : Addr} (hab : a ≠ b) (x : Act) : ∀ e ∈ actEvents T a x, noticed T b e = none := by
  intro e he
  cases x <;> simp only [actEvents, List.mem_map, List.not_mem_nil] at he
  · obtain ⟨ev, _, rfl⟩ := he
    exact noticed_other hT _ hab (verifier_address a ev)
  · obtain ⟨ev, _, rfl⟩ := he
    exact noticed_other hT _ hab (gateway_address a ev)
  · obtain ⟨ev, _, rfl⟩ := he
    exact noticed_other hT _ hab (router_address a ev)
  · obtain ⟨ev, _, rfl⟩ := he
    exact noticed_other hT _ hab (multisig_address a ev)
  · obtain ⟨ev, _, rfl⟩ := he
    exact noticed_other hT _ hab (prover_address a ev)

/-- Reading the events of one contract among those of a chain: if the events of each of its calls are read as `g` says, the
events of the chain are read as `g` says of its calls. -/
theorem stream_read {β : Type} (hT : T.Faithful) (a : Addr) (read : Str → List (Str × Str) → Option β) (g : Act → List β)
    (l : List Entry)
    (h : ∀ e ∈ l, e.p.target = a →
      (actEvents T a e.act).filterMap (fun e => (noticed T a e).bind (fun x => read x.1 x.2)) = g e.act) :
    (eventStream T l).filterMap (fun e => (noticed T a e).bind (fun x => read x.1 x.2)) = (Chain.actsAt a l).flatMap g := by
  induction l with
  | nil => rfl
  | cons e t ih =>
    have ih := ih (fun x hx => h x (List.mem_cons_of_mem _ hx))
    unfold eventStream at ih ⊢
    rw [List.flatMap_cons, List.filterMap_append, ih]
    unfold Chain.actsAt
    by_cases he : e.p.target = a
    · rw [List.filter_cons_of_pos (by simpa using he), List.map_cons, List.flatMap_cons, he,
        h e (List.mem_cons_self ..) he]
    · rw [List.filter_cons_of_neg (by simpa using he), List.filterMap_eq_nil_iff.mpr, List.nil_append]
      intro x hx
      rw [act_other hT he e.act x hx]
      rfl

theorem filterMap_all {α β : Type} {f : α → Option β} {g : α → β} {l : List α} (h : ∀ a ∈ l, f a = some (g a)) :
    l.filterMap f = l.map g := by
  induction l with
  | nil => rfl
  | cons a t ih =>
    rw [List.filterMap_cons_some (h a (List.mem_cons_self ..)), ih (fun x hx => h x (List.mem_cons_of_mem _ hx)), List.map_cons]

/-! ### The router -/

/-- the hash of a message in an event is bytes -/
def RouterEventFits : Router.Event → Prop
  | .messageRouted m => IsBytes m.payloadHash
  | _ => True

theorem messageOf_attributes (x : Str × Str) {m : Message} (h : IsBytes m.payloadHash) :
    messageOf (x :: messageAttributes m) = some m := by
  obtain ⟨⟨c, i⟩, s, d, a, hash⟩ := m
  have f1 : lastWith "id".toList (x :: messageAttributes ⟨⟨c, i⟩, s, d, a, hash⟩) = some i := rfl
  have f2 : lastWith "source_chain".toList (x :: messageAttributes ⟨⟨c, i⟩, s, d, a, hash⟩) = some c := rfl
  have f3 : lastWith "source_addresses".toList (x :: messageAttributes ⟨⟨c, i⟩, s, d, a, hash⟩) = some s := rfl
  have f4 : lastWith "destination_chain".toList (x :: messageAttributes ⟨⟨c, i⟩, s, d, a, hash⟩) = some d := rfl
  have f5 : lastWith "destination_addresses".toList (x :: messageAttributes ⟨⟨c, i⟩, s, d, a, hash⟩) = some a := rfl
  have f6 : lastWith "payload_hash".toList (x :: messageAttributes ⟨⟨c, i⟩, s, d, a, hash⟩) = some (encodeHex hash) := rfl
  simp only [messageOf, f1, f2, f3, f4, f5, f6, Option.bind_eq_bind, Option.bind_some, decodeHex_encodeHex h]

theorem read_registered (l : List (Str × Str)) : routerEventOf T "wasm-chain_registered".toList l =
    (lastWith "name".toList l).bind (fun n => ((lastWith "gateway".toList l).bind T.parse).bind
      (fun g => some (.chainRegistered n g))) := rfl

theorem read_upgraded (l : List (Str × Str)) : routerEventOf T "wasm-gateway_upgraded".toList l =
    (lastWith "chain".toList l).bind (fun n => ((lastWith "gateway_address".toList l).bind T.parse).bind
      (fun g => some (.gatewayUpgraded n g))) := rfl

theorem read_frozen (l : List (Str × Str)) : routerEventOf T "wasm-chain_frozen".toList l =
    (lastWith "name".toList l).map .chainFrozen := rfl

theorem read_routed (l : List (Str × Str)) : routerEventOf T "wasm-message_routed".toList l =
    (messageOf l).map .messageRouted := rfl

theorem router_event_read (hT : T.Faithful) (R : Addr) {ev : Router.Event} (h : RouterEventFits ev) :
    (noticed T R (publish T (routerKind ev) R (routerAttributes T ev))).bind (fun x => routerEventOf T x.1 x.2) = some ev := by
  rw [noticed_self _ _ (router_address R ev), Option.bind_some]
  cases ev with
  | chainRegistered n g =>
    have f1 : lastWith "name".toList (("_contract_address".toList, T.text R) :: routerAttributes T (.chainRegistered n g)) =
      some n := rfl
    have f2 : lastWith "gateway".toList (("_contract_address".toList, T.text R) :: routerAttributes T (.chainRegistered n g)) =
      some (T.text g) := rfl
    refine (read_registered _).trans ?_
    rw [f1, f2, Option.bind_some, Option.bind_some, hT.parse_text, Option.bind_some]
  | gatewayUpgraded n g =>
    have f1 : lastWith "chain".toList (("_contract_address".toList, T.text R) :: routerAttributes T (.gatewayUpgraded n g)) =
      some n := rfl
    have f2 : lastWith "gateway_address".toList
      (("_contract_address".toList, T.text R) :: routerAttributes T (.gatewayUpgraded n g)) = some (T.text g) := rfl
    refine (read_upgraded _).trans ?_
    rw [f1, f2, Option.bind_some, Option.bind_some, hT.parse_text, Option.bind_some]
  | chainFrozen n =>
    have f1 : lastWith "name".toList (("_contract_address".toList, T.text R) :: routerAttributes T (.chainFrozen n)) =
      some n := rfl
    refine (read_frozen _).trans ?_
    rw [f1, Option.map_some]
  | messageRouted m =>
    refine (read_routed _).trans ?_
    have := messageOf_attributes ("_contract_address".toList, T.text R) h
    exact congrArg (Option.map Router.Event.messageRouted) this

/-- the events of the router at `R` are read back -/
theorem router_news (hT : T.Faithful) (R : Addr) (l : List Entry)
    (h : ∀ e ∈ l, e.p.target = R → ∃ c r, e.act = .router c r ∧ ∀ ev ∈ r.events, RouterEventFits ev) :
    routerNews T R (eventStream T l) = Chain.routerEvents R l := by
  refine stream_read hT R (routerEventOf T) Act.routerEvents l (fun e he ht => ?_)
  obtain ⟨c, r, ha, hf⟩ := h e he ht
  rw [ha]
  simp only [actEvents, Act.routerEvents, List.filterMap_map]
  rw [filterMap_all (g := id), List.map_id]
  intro ev hev
  exact router_event_read hT R (hf ev hev)

/-- in a history of typed messages the events of the router are as they should be -/
theorem router_events_fit {P : Params} {setup : Setup} {w : Chain.World} {L : Lowering} {l : List Entry} {R : Addr}
    {cfg : Router.Config} (hi : Chain.Inv P setup l w) (hR : setup R = some (.router cfg))
    (ht : ∀ e ∈ l, Typed L e.p.msg) (e : Entry) (he : e ∈ l) (hta : e.p.target = R) :
    ∃ c r, e.act = .router c r ∧ ∀ ev ∈ r.events, RouterEventFits ev := by
  obtain ⟨l₁, l₂, hl⟩ := List.append_of_mem he
  have hR' : setup e.p.target = some (.router cfg) := by rw [hta]; exact hR
  obtain ⟨m, r, s', hm, ha, hx⟩ := hi.router_call hl hR'
  refine ⟨_, r, ha, ?_⟩
  have hty := ht e he
  unfold Router.exec at hx
  cases m with
  | routeMessages ms =>
    obtain ⟨-, -, -, hev⟩ := Router.routeMessages_ok hx
    rw [hev]
    intro ev hev
    obtain ⟨m, hmm, rfl⟩ := List.mem_map.mp hev
    cases hp : e.p.msg <;> rw [hp] at hm hty <;> simp only [Chain.Msg.toRouter, Option.some.injEq, reduceCtorEq] at hm
    · subst hm
      exact (hty m hmm).payloadHash.1
    · cases hm
      exact (hty m hmm).payloadHash.1
  | registerChain n g =>
    simp only [Router.registerChain] at hx
    (repeat' split at hx) <;> simp only [Except.ok.injEq, Prod.mk.injEq, reduceCtorEq] at hx
    rw [← hx.2]
    simp [RouterEventFits]
  | upgradeGateway n g =>
    simp only [Router.upgradeGateway] at hx
    (repeat' split at hx) <;> simp only [Except.ok.injEq, Prod.mk.injEq, reduceCtorEq] at hx
    rw [← hx.2]
    simp [RouterEventFits]
  | freezeChain n d =>
    simp only [Router.freezeChain] at hx
    (repeat' split at hx) <;> simp only [Except.ok.injEq, Prod.mk.injEq, reduceCtorEq] at hx
    rw [← hx.2]
    simp [RouterEventFits]
  | unfreezeChain n d =>
    simp only [Router.unfreezeChain] at hx
    (repeat' split at hx) <;> simp only [Except.ok.injEq, Prod.mk.injEq, reduceCtorEq] at hx
    rw [← hx.2]
    simp [RouterEventFits]

end Amp.Wire
