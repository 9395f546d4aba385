import Verif.Router.Spec

/-! Helper lemmas about the router model. -/

namespace Amp.Router

theorem lookup_store_self (l n e) : lookup (store l n e) n = some e := by
  induction l with
  | nil => simp [store, lookup]
  | cons x t ih =>
    obtain ⟨k, e'⟩ := x
    unfold store
    split
    · simp [lookup]
    · rename_i h; simp [lookup, h, ih]

theorem lookup_store_ne {l n e n'} (h : n' ≠ n) : lookup (store l n e) n' = lookup l n' := by
  induction l with
  | nil => simp [store, lookup, Ne.symm h]
  | cons x t ih =>
    obtain ⟨k, e'⟩ := x
    unfold store
    split
    · rename_i hk; subst hk; simp [lookup, Ne.symm h]
    · simp [lookup, ih]

theorem mem_of_lookup {l n e} (h : lookup l n = some e) : (n, e) ∈ l := by
  induction l with
  | nil => simp [lookup] at h
  | cons x t ih =>
    obtain ⟨k, e'⟩ := x
    unfold lookup at h
    split at h
    · simp_all
    · exact List.mem_cons_of_mem _ (ih h)

theorem lookup_of_mem {l : List (ChainName × ChainEndpoint)} (hn : (l.map Prod.fst).Nodup) {n e}
    (h : (n, e) ∈ l) : lookup l n = some e := by
  induction l with
  | nil => simp at h
  | cons x t ih =>
    obtain ⟨k, e'⟩ := x
    simp only [List.map_cons, List.nodup_cons] at hn
    unfold lookup
    rcases List.mem_cons.mp h with h | h
    · simp_all
    · have : k ≠ n := by
        rintro rfl
        exact hn.1 (List.mem_map.mpr ⟨_, h, rfl⟩)
      rw [if_neg this]
      exact ih hn.2 h

theorem store_keys {l n e} : (store l n e).map Prod.fst =
    if lookup l n = none then l.map Prod.fst ++ [n] else l.map Prod.fst := by
  induction l with
  | nil => simp [store, lookup]
  | cons x t ih =>
    obtain ⟨k, e'⟩ := x
    unfold store lookup
    by_cases hk : k = n
    · subst hk; simp
    · rw [if_neg hk, if_neg hk]
      simp only [List.map_cons, ih]
      split <;> simp

theorem lookup_none_iff {l : List (ChainName × ChainEndpoint)} {n} :
    lookup l n = none ↔ n ∉ l.map Prod.fst := by
  induction l with
  | nil => simp [lookup]
  | cons x t ih =>
    obtain ⟨k, e'⟩ := x
    unfold lookup
    by_cases hk : k = n
    · subst hk; simp
    · rw [if_neg hk, ih]; simp [Ne.symm hk]

theorem store_nodup {l : List (ChainName × ChainEndpoint)} (h : (l.map Prod.fst).Nodup) (n e) :
    ((store l n e).map Prod.fst).Nodup := by
  rw [store_keys]
  split
  · rename_i h1
    rw [lookup_none_iff] at h1
    rw [List.nodup_append]
    refine ⟨h, by simp, ?_⟩
    intro a ha b hb
    simp at hb
    subst hb
    rintro rfl
    exact h1 ha
  · exact h

theorem mem_store {l n e x} (h : x ∈ store l n e) : x = (n, e) ∨ x ∈ l := by
  induction l with
  | nil => left; simpa [store] using h
  | cons y t ih =>
    obtain ⟨k, e'⟩ := y
    unfold store at h
    split at h
    · rcases List.mem_cons.mp h with h | h
      · exact Or.inl h
      · exact Or.inr (by simp [h])
    · rcases List.mem_cons.mp h with h | h
      · exact Or.inr (by simp [h])
      · rcases ih h with h | h
        · exact Or.inl h
        · exact Or.inr (by simp [h])

/-- the registry invariant: distinct names, entries stored under their name, distinct gateways -/
structure RegInv (s : State) : Prop where
  keys : (s.chains.map Prod.fst).Nodup
  names : ∀ n e, lookup s.chains n = some e → e.name = n
  gateways : ∀ n e n' e', lookup s.chains n = some e → lookup s.chains n' = some e' →
    e.gateway = e'.gateway → n = n'

theorem filter_gateway_cases {s : State} (hi : RegInv s) (gw : Addr) :
    (s.chains.filter (fun e => e.2.gateway = gw) = [] ∧ ∀ n e, lookup s.chains n = some e →
      e.gateway ≠ gw) ∨
    (∃ n e, s.chains.filter (fun e => e.2.gateway = gw) = [(n, e)] ∧ lookup s.chains n = some e ∧
      e.gateway = gw) := by
  cases hf : s.chains.filter (fun e => e.2.gateway = gw) with
  | nil =>
    left
    refine ⟨rfl, ?_⟩
    intro n e hl hg
    have : (n, e) ∈ s.chains.filter (fun e => e.2.gateway = gw) :=
      List.mem_filter.mpr ⟨mem_of_lookup hl, by simpa using hg⟩
    rw [hf] at this
    simp at this
  | cons x t =>
    right
    obtain ⟨n, e⟩ := x
    have hx : (n, e) ∈ s.chains.filter (fun e => e.2.gateway = gw) := by rw [hf]; simp
    obtain ⟨h1, h2⟩ := List.mem_filter.mp hx
    have hl := lookup_of_mem hi.keys h1
    have hg : e.gateway = gw := by simpa using h2
    refine ⟨n, e, ?_, hl, hg⟩
    cases t with
    | nil => rfl
    | cons y t' =>
      exfalso
      obtain ⟨n', e'⟩ := y
      have hy : (n', e') ∈ s.chains.filter (fun e => e.2.gateway = gw) := by rw [hf]; simp
      obtain ⟨h1', h2'⟩ := List.mem_filter.mp hy
      have hl' := lookup_of_mem hi.keys h1'
      have hnn := hi.gateways n e n' e' hl hl' (by rw [hg]; exact (by simpa using h2' : e'.gateway = gw).symm)
      have hnd : ((s.chains.filter (fun e => e.2.gateway = gw)).map Prod.fst).Nodup :=
        List.Nodup.sublist (List.Sublist.map _ List.filter_sublist) hi.keys
      rw [hf] at hnd
      simp [hnn] at hnd

theorem load_none {s : State} (hi : RegInv s) {gw : Addr} :
    loadChainByGateway s gw = .ok none ↔ ∀ n e, lookup s.chains n = some e → e.gateway ≠ gw := by
  unfold loadChainByGateway
  rcases filter_gateway_cases hi gw with ⟨h1, h2⟩ | ⟨n, e, h1, h2, h3⟩
  · rw [h1]; simpa using h2
  · rw [h1]
    simp only [Except.ok.injEq, reduceCtorEq, false_iff]
    intro h
    exact h n e h2 h3

theorem load_some {s : State} (hi : RegInv s) {gw : Addr} {e : ChainEndpoint} :
    loadChainByGateway s gw = .ok (some e) ↔ lookup s.chains e.name = some e ∧ e.gateway = gw := by
  unfold loadChainByGateway
  rcases filter_gateway_cases hi gw with ⟨h1, h2⟩ | ⟨n, e0, h1, h2, h3⟩
  · rw [h1]
    simp only [Except.ok.injEq, reduceCtorEq, false_iff]
    rintro ⟨g1, g2⟩
    exact h2 _ _ g1 g2
  · rw [h1]
    simp only [Except.ok.injEq, Option.some.injEq]
    constructor
    · rintro rfl
      rw [hi.names _ _ h2]
      exact ⟨h2, h3⟩
    · rintro ⟨g1, g2⟩
      have := hi.gateways _ _ _ _ h2 g1 (by rw [h3, g2])
      rw [this, g1] at h2
      exact (Option.some.inj h2).symm

theorem load_total {s : State} (hi : RegInv s) (gw : Addr) : ∃ o, loadChainByGateway s gw = .ok o := by
  unfold loadChainByGateway
  rcases filter_gateway_cases hi gw with ⟨h1, _⟩ | ⟨n, e0, h1, _⟩
  · exact ⟨none, by rw [h1]⟩
  · exact ⟨some e0, by rw [h1]⟩

/-! ### successful calls -/

/-- what a successful call does to the registry -/
inductive RegStep (s s' : State) (c : Call) : Prop
  | same (h : s' = s) (ms) (hm : c.msg = .routeMessages ms)
  | registered (n gw) (hm : c.msg = .registerChain n gw) (hs : c.sender = s.config.governance)
      (hl : loadChainByGateway s gw = .ok none) (hn : lookup s.chains n = none)
      (h : s' = { s with chains := store s.chains n ⟨n, gw, Direction.bits .none⟩ })
  | upgraded (n gw e) (hm : c.msg = .upgradeGateway n gw) (hs : c.sender = s.config.governance)
      (hl : loadChainByGateway s gw = .ok none) (hn : lookup s.chains n = some e)
      (h : s' = { s with chains := store s.chains n { e with gateway := gw } })
  | froze (n d e) (hm : c.msg = .freezeChain n d) (hs : c.sender = s.config.admin)
      (hn : lookup s.chains n = some e)
      (h : s' = { s with chains := store s.chains n { e with frozen := e.frozen ||| d.bits } })
  | unfroze (n d e) (hm : c.msg = .unfreezeChain n d) (hs : c.sender = s.config.admin)
      (hn : lookup s.chains n = some e)
      (h : s' = { s with chains := store s.chains n { e with frozen := e.frozen &&& ~~~ d.bits } })

theorem routeMessages_ok {s s' : State} {sender : Addr} {ms : List Message} {r : Resp}
    (h : routeMessages s sender ms = .ok (s', r)) :
    s' = s ∧ validateMsgs s sender ms = .ok ms ∧
    mapE (dispatchGroup s sender) (groupRuns (·.destinationChain) ms) = .ok r.dispatched ∧
    r.events = ms.map .messageRouted := by
  unfold routeMessages at h
  split at h
  · simp at h
  rename_i ms' hv
  split at h
  · simp at h
  rename_i ds hd
  simp only [Except.ok.injEq, Prod.mk.injEq] at h
  obtain ⟨rfl, rfl⟩ := h
  have : ms' = ms := by
    unfold validateMsgs at hv
    split at hv
    · simpa using hv.symm
    · split at hv
      · simp at hv
      · simp at hv
      · split at hv
        · simp at hv
        · split at hv
          · simp at hv
          · simpa using hv.symm
  subst this
  exact ⟨rfl, hv, hd, rfl⟩

theorem exec_regStep {s s' : State} {c : Call} {r : Resp} (h : exec s c = .ok (s', r)) :
    RegStep s s' c := by
  unfold exec at h
  split at h
  · rename_i n gw hm
    split at h
    · simp at h
    rename_i hs
    unfold registerChain at h
    split at h
    · simp at h
    · simp at h
    · rename_i hl
      split at h
      · simp at h
      · rename_i hn
        simp only [Except.ok.injEq, Prod.mk.injEq] at h
        exact .registered n gw hm (not_not.mp hs).symm hl hn h.1.symm
  · rename_i n gw hm
    split at h
    · simp at h
    rename_i hs
    unfold upgradeGateway at h
    split at h
    · simp at h
    · simp at h
    · rename_i hl
      split at h
      · simp at h
      · rename_i e hn
        simp only [Except.ok.injEq, Prod.mk.injEq] at h
        exact .upgraded n gw e hm (not_not.mp hs).symm hl hn h.1.symm
  · rename_i n d hm
    split at h
    · simp at h
    rename_i hs
    unfold freezeChain at h
    split at h
    · simp at h
    · rename_i e hn
      simp only [Except.ok.injEq, Prod.mk.injEq] at h
      exact .froze n d e hm (not_not.mp hs).symm hn h.1.symm
  · rename_i n d hm
    split at h
    · simp at h
    rename_i hs
    unfold unfreezeChain at h
    split at h
    · simp at h
    · rename_i e hn
      simp only [Except.ok.injEq, Prod.mk.injEq] at h
      exact .unfroze n d e hm (not_not.mp hs).symm hn h.1.symm
  · rename_i ms hm
    exact .same (routeMessages_ok h).1 ms hm

theorem regInv_init (cfg : Config) : RegInv (init cfg) :=
  ⟨by simp [init], by intro n e h; simp [init, lookup] at h,
    by intro n e n' e' h; simp [init, lookup] at h⟩

theorem regInv_store {s : State} (hi : RegInv s) {n : ChainName} {e : ChainEndpoint}
    (hn : e.name = n) (hg : ∀ n' e', n' ≠ n → lookup s.chains n' = some e' → e'.gateway ≠ e.gateway) :
    RegInv { s with chains := store s.chains n e } := by
  refine ⟨store_nodup hi.keys n e, ?_, ?_⟩
  · intro n' e' h
    simp only at h
    by_cases hk : n' = n
    · subst hk
      rw [lookup_store_self] at h
      simp only [Option.some.injEq] at h
      subst h
      exact hn
    · rw [lookup_store_ne hk] at h
      exact hi.names _ _ h
  · intro n1 e1 n2 e2 h1 h2 heq
    simp only at h1 h2
    by_cases hk1 : n1 = n <;> by_cases hk2 : n2 = n
    · rw [hk1, hk2]
    · subst hk1
      rw [lookup_store_self] at h1
      rw [lookup_store_ne hk2] at h2
      simp only [Option.some.injEq] at h1
      subst h1
      exact absurd heq.symm (hg _ _ hk2 h2)
    · subst hk2
      rw [lookup_store_self] at h2
      rw [lookup_store_ne hk1] at h1
      simp only [Option.some.injEq] at h2
      subst h2
      exact absurd heq (hg _ _ hk1 h1)
    · rw [lookup_store_ne hk1] at h1
      rw [lookup_store_ne hk2] at h2
      exact hi.gateways _ _ _ _ h1 h2 heq

theorem regInv_step {s s' : State} {c : Call} {r : Resp} (hi : RegInv s)
    (h : exec s c = .ok (s', r)) : RegInv s' := by
  cases exec_regStep h with
  | same h => rw [h]; exact hi
  | registered n gw hm hs hl hn h =>
    subst h
    exact regInv_store hi rfl (fun n' e' _ h' => (load_none hi).mp hl n' e' h')
  | upgraded n gw e hm hs hl hn h =>
    subst h
    exact regInv_store hi (show e.name = n from hi.names _ _ hn) (fun n' e' _ h' => (load_none hi).mp hl n' e' h')
  | froze n d e hm hs hn h =>
    subst h
    exact regInv_store hi (show e.name = n from hi.names _ _ hn)
      (fun n' e' hk h' hg => hk (hi.gateways _ _ _ _ h' hn hg))
  | unfroze n d e hm hs hn h =>
    subst h
    exact regInv_store hi (show e.name = n from hi.names _ _ hn)
      (fun n' e' hk h' hg => hk (hi.gateways _ _ _ _ h' hn hg))

theorem regInv_reachable (cfg : Config) (cs : List Call) : RegInv (stateAfter cfg cs) :=
  runCalls_inv exec (fun _ _ _ _ hi hx => regInv_step hi hx) _ (regInv_init cfg) cs

theorem exec_config {s s' : State} {c : Call} {r : Resp} (h : exec s c = .ok (s', r)) :
    s'.config = s.config := by
  cases exec_regStep h with
  | same h => rw [h]
  | registered n gw hm hs hl hn h => rw [h]
  | upgraded n gw e hm hs hl hn h => rw [h]
  | froze n d e hm hs hn h => rw [h]
  | unfroze n d e hm hs hn h => rw [h]

theorem config_reachable (cfg : Config) (cs : List Call) : (stateAfter cfg cs).config = cfg :=
  runCalls_inv exec (P := fun s => s.config = cfg)
    (fun _ _ _ _ hi hx => by rw [exec_config hx, hi]) _ rfl cs

/-! ### flags -/

theorem contains_one (a : Flags) : Flags.contains a 1 = a.getLsbD 0 := by
  unfold Flags.contains
  revert a
  decide +kernel

theorem contains_two (a : Flags) : Flags.contains a 2 = a.getLsbD 1 := by
  unfold Flags.contains
  revert a
  decide +kernel

theorem frozenIn_or (e : ChainEndpoint) (d : Direction) (w : Way) :
    ChainEndpoint.frozenIn { e with frozen := e.frozen ||| d.bits } w =
      (e.frozenIn w || d.covers w) := by
  cases w <;> simp only [ChainEndpoint.frozenIn, ChainEndpoint.incomingFrozen,
    ChainEndpoint.outgoingFrozen, Direction.bits, contains_one, contains_two, BitVec.getLsbD_or] <;>
    cases d <;> simp [Direction.covers]

theorem frozenIn_diff (e : ChainEndpoint) (d : Direction) (w : Way) :
    ChainEndpoint.frozenIn { e with frozen := e.frozen &&& ~~~ d.bits } w =
      (e.frozenIn w && !d.covers w) := by
  cases w <;> simp only [ChainEndpoint.frozenIn, ChainEndpoint.incomingFrozen,
    ChainEndpoint.outgoingFrozen, Direction.bits, contains_one, contains_two, BitVec.getLsbD_and,
    BitVec.getLsbD_not] <;>
    cases d <;> simp [Direction.covers]

theorem frozenIn_new (n : ChainName) (gw : Addr) (w : Way) :
    ChainEndpoint.frozenIn ⟨n, gw, Direction.bits .none⟩ w = false := by
  cases w <;> (unfold ChainEndpoint.frozenIn; simp [ChainEndpoint.incomingFrozen, ChainEndpoint.outgoingFrozen, Direction.bits, Flags.contains])

/-! ### grouping -/

theorem groupRuns_flatten {α κ : Type} [DecidableEq κ] (key : α → κ) (l : List α) :
    (groupRuns key l).flatMap Prod.snd = l := by
  induction l with
  | nil => rfl
  | cons a t ih =>
    unfold groupRuns
    split
    · rename_i h
      rw [h] at ih
      simp at ih
      subst ih
      rfl
    · rename_i k g rest h
      rw [h] at ih
      split <;> simp_all

theorem groupRuns_key {α κ : Type} [DecidableEq κ] (key : α → κ) (l : List α) :
    ∀ kg ∈ groupRuns key l, kg.2 ≠ [] ∧ ∀ a ∈ kg.2, key a = kg.1 := by
  induction l with
  | nil => simp [groupRuns]
  | cons a t ih =>
    unfold groupRuns
    split
    · simp
    · rename_i k g rest h
      rw [h] at ih
      split
      · rename_i hk
        intro kg hkg
        rcases List.mem_cons.mp hkg with rfl | hkg
        · refine ⟨by simp, ?_⟩
          intro x hx
          rcases List.mem_cons.mp hx with rfl | hx
          · exact hk
          · exact (ih (k, g) (by simp)).2 x hx
        · exact ih kg (by simp [hkg])
      · intro kg hkg
        rcases List.mem_cons.mp hkg with rfl | hkg
        · simp
        · exact ih kg hkg

end Amp.Router
