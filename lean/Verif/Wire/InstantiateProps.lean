import Verif.Wire.InstantiateLemmas
import Verif.Wire.StoredProps

/-!
# C104: a contract that was instantiated has the configuration its message says, forever

For every text, accepted or not, that is sent to instantiate a contract of any kind, and for every history of transactions
with messages as text afterwards.
-/

namespace Amp.Wire

open Amp.Router (ChainName Lowering)
open Amp.Chain (Setup Store Kind Tx Entry)

variable {G : Texture} {P : Chain.Params} {setup : Setup}

/-- C104: a message that instantiates a contract is read as it was meant. -/
theorem C104_read (hG : Sound G) (o : Order) (ho : o.Typed G.L) : readOrder G o.conf.party (writeOrder G o) = some o := by
  rw [readOrder, writeOrder, fromStr_render G.finite (fits_order ho)]
  exact asOrder_json hG.faithful hG.empty ho

/-- C104: whatever text instantiates a contract, thresholds are majorities, chain names valid, required texts not empty and
numbers in the range of their types; and the contract is of the kind that was asked for. -/
theorem C104_typed (p : Party) (text : Str) (o : Order) (h : readOrder G p text = some o) :
    o.Typed G.L ∧ o.conf.party = p ∧ ∀ height, party (o.kind height).init = p := by
  obtain ⟨j, -, hj⟩ := Option.bind_eq_some_iff.mp h
  obtain ⟨h1, rfl⟩ := asOrder_typed hj
  exact ⟨h1, rfl, fun _ => by cases o <;> rfl⟩

/-- C104: the configuration that is saved then is loaded as it was in the message. -/
theorem C104_load (hG : Sound G) (p : Party) (text : Str) (o : Order) (h : readOrder G p text = some o) :
    loadConf G p (keptConf G o) = some o.conf := by
  obtain ⟨ht, rfl, -⟩ := C104_typed p text o h
  rw [loadConf, keptConf, fromStr_render G.finite (fits_conf ht.1)]
  exact asConf_json hG.faithful ht.1

/-- C104: contracts that were instantiated meet what other properties assume of configurations. -/
theorem C104_setup (hf : Founded G setup) : SetupTyped G.L setup ∧ SetupInRange setup ∧
    (∀ a c, setup a = some (.verifier c) → c.Valid) ∧
    (∀ a c sv kt, setup a = some (.prover c sv kt) → IsMajority c.signingThreshold) ∧
    ∀ a c p h, setup a = some (.rewards c p h) → 0 < p.duration := by
  have key : ∀ a k, setup a = some k → ∃ o h, o.Typed G.L ∧ h ≤ u64Max ∧ k = Order.kind h o := by
    intro a k hk
    obtain ⟨p, text, o, h, ho, hh, rfl⟩ := hf a k hk
    exact ⟨o, h, (C104_typed p text o ho).1, hh, rfl⟩
  have prov : ∀ a c sv kt, setup a = some (.prover c sv kt) → ∃ admin, (Conf.prover admin c sv kt).Typed G.L := by
    intro a c sv kt hk
    obtain ⟨o, h, ho, -, e⟩ := key a _ hk
    cases o <;> simp only [Order.kind, Kind.prover.injEq, reduceCtorEq] at e
    obtain ⟨rfl, rfl, rfl⟩ := e
    exact ⟨_, ho.1⟩
  have ver : ∀ a c, setup a = some (.verifier c) → (Conf.verifier c).Typed G.L := by
    intro a c hk
    obtain ⟨o, h, ho, -, e⟩ := key a _ hk
    cases o <;> simp only [Order.kind, Kind.verifier.injEq, reduceCtorEq] at e
    subst e
    exact ho.1
  have rew : ∀ a c p h, setup a = some (.rewards c p h) → ParamsInRange p ∧ h ≤ u64Max := by
    intro a c p h hk
    obtain ⟨o, h', ho, hh, e⟩ := key a _ hk
    cases o <;> simp only [Order.kind, Kind.rewards.injEq, reduceCtorEq] at e
    obtain ⟨rfl, rfl, rfl⟩ := e
    exact ⟨ho.2 _ _ rfl, hh⟩
  refine ⟨⟨fun a c sv kt hk => ?_, fun a c hk => (ver a c hk).2.2.2.2.2⟩, ⟨rew, fun a c sv kt hk => ?_⟩, ?_, ?_, ?_⟩
  · obtain ⟨_, h⟩ := prov a c sv kt hk
    exact h.2.2.1
  · obtain ⟨_, h⟩ := prov a c sv kt hk
    exact h.1
  · intro a c hk
    exact majority_ofPair (ver a c hk).2.2.1
  · intro a c sv kt hk
    obtain ⟨_, h⟩ := prov a c sv kt hk
    exact h.2.1
  · intro a c p h hk
    exact (rew a c p h hk).1.1.1

/-- C104: after every history, every contract is there, of the kind it was, and the text of its configuration is loaded as
what the message that instantiated it said. -/
theorem C104_forever (hG : Sound G) (hX : ∀ b, IsBytes (P.X.keccak b)) (hf : Founded G setup) (ts : List TextTx)
    (hb : ∀ t ∈ ts, InRange t) (a : Addr) (p : Party) (text : Str) (o : Order) (h : Nat) (ho : readOrder G p text = some o)
    (ha : setup a = some (o.kind h)) :
    ∃ s, textWorldAfter G P setup ts a = some s ∧ party s = p ∧
      loadConf G p (jsonConf G.T (confIn o.admin s)).render = some o.conf := by
  rw [(C95_history (P := P) hG hX (C104_setup hf).1 ts hb).1, (Chain.inv P setup _).world]
  refine ⟨Chain.replay P (o.kind h) _, by simp only [Chain.worldOf, ha, Option.map_some]; rfl, ?_, ?_⟩
  · rw [← (C104_typed p text o ho).2.2 h]
    cases o <;> rfl
  · rw [confIn_replay]
    exact C104_load hG p text o ho

/-- C104: with contracts that were instantiated, what every contract keeps after every history is in range and is loaded as it
was stored. -/
theorem C104_range (hG : Sound G) (hX : Octets P.X) (hf : Founded G setup) (ts : List TextTx) (hb : ∀ t ∈ ts, InRange t)
    (a : Addr) (s : Store) (ha : textWorldAfter G P setup ts a = some s) (k : Slot) :
    (∀ v, stored s k = some v → v.InRange G.L) ∧ (kept G s k).map (load G k) = (stored s k).map some :=
  ⟨fun v => C98_range hG hX (C104_setup hf).1 (C104_setup hf).2.1 ts hb a s ha k v,
    C98_load hG hX (C104_setup hf).1 (C104_setup hf).2.1 ts hb a s ha k⟩

/-- C104: with contracts that were instantiated, every history of transactions as text is the history of what they say, and so
is the next transaction: the properties of `Chain` hold of it. -/
theorem C104_history (hG : Sound G) (hX : ∀ b, IsBytes (P.X.keccak b)) (hf : Founded G setup) (ts : List TextTx)
    (hb : ∀ t ∈ ts, InRange t) :
    textWorldAfter G P setup ts = Chain.worldAfter P setup (ts.map (meaning G setup)) ∧
    textLog G P setup ts = Chain.log P setup (ts.map (meaning G setup)) ∧
    ∀ t, InRange t → execText G P (textWorldAfter G P setup ts) t =
      Chain.exec P (Chain.worldAfter P setup (ts.map (meaning G setup))) (meaning G setup t) :=
  ⟨(C95_history (P := P) hG hX (C104_setup hf).1 ts hb).1, (C95_history (P := P) hG hX (C104_setup hf).1 ts hb).2,
    fun t ht => next_same hG hX (C104_setup hf).1 ts hb t ht⟩

/-- C104: whoever ends an expired poll in progress succeeds (C83), with contracts that were instantiated and messages as text.
What C83 assumes of configurations and of parameters set by governance follows from their types. -/
theorem C104_end_poll (hG : Sound G) (hX : ∀ b, IsBytes (P.X.keccak b)) (hf : Founded G setup) (ts : List TextTx)
    (hb : ∀ t ∈ ts, InRange t) (V : Addr) (vc : VV.Config) (hV : setup V = some (.verifier vc)) (id : Nat) (sp : VV.StoredPoll)
    (s : VV.State) (hs : textWorldAfter G P setup ts V = some (.verifier s)) (hsp : s.polls id = some sp) (t : TextTx)
    (ht : InRange t) (rc : Rewards.Config) (rp : Rewards.Params) (h0 : Nat) (hR : setup vc.rewards = some (.rewards rc rp h0))
    (horder : Chain.InOrder ((ts ++ [t]).map (meaning G setup))) (hstart : ∀ t' ∈ ts ++ [t], h0 ≤ t'.block.height)
    (hcount : (textLog G P setup ts).length + (sp.poll.state.consensusParticipants.length + 1) ≤ u64Max)
    (funds : List Registry.Coin) (text : Str) (htx : t.msgs = [(V, funds, text)])
    (hread : readFor G .verifier text = some (.verifier (.endPoll id))) (hsender : setup t.sender = none)
    (hgas : sp.poll.state.consensusParticipants.length < t.gas) :
    (∃ x, execText G P (textWorldAfter G P setup ts) t = .ok x) ↔
      sp.poll.status = .inProgress ∧ sp.poll.expiresAt ≤ t.block.height := by
  obtain ⟨hst, -, hval, -, hdur⟩ := C104_setup hf
  have hh := C95_history (P := P) hG hX hst ts hb
  rw [next_same (P := P) hG hX hst ts hb t ht]
  have hm : (meaning G setup t).msgs = [(V, funds, .verifier (.endPoll id))] := by
    have e1 : meant G setup V text = .verifier (.endPoll id) := by
      unfold meant
      rw [hV]
      dsimp only
      rw [show party (Kind.verifier vc).init = .verifier from rfl, hread]
    simp only [meaning, htx, List.map_cons, List.map_nil, e1]
  have hw : Chain.worldAfter P setup (ts.map (meaning G setup)) V = some (.verifier s) := by rw [← hh.1]; exact hs
  rw [(Chain.inv P setup (ts.map (meaning G setup))).verifier_state hV] at hw
  simp only [Option.some.injEq, Store.verifier.injEq] at hw
  rw [List.map_append, Chain.InOrder, List.map_append, List.pairwise_append] at horder
  refine (Chain.C83_end_poll P setup _ V vc (hval V vc hV) hV id sp (by rw [hw]; exact hsp) (meaning G setup t) ⟨?_, ?_, ?_, ?_,
    ht.height, ?_⟩ funds hm hsender hgas).1
  · refine ⟨rc, rp, h0, hR, hdur _ _ _ _ hR, hstart t (by simp), ?_⟩
    intro tx htx
    obtain ⟨t', ht', rfl⟩ := List.mem_map.mp htx
    exact hstart t' (by simp [ht'])
  · exact horder.1
  · intro tx htx
    exact horder.2.2 _ (List.mem_map.mpr ⟨tx, htx, rfl⟩) _ (by simp)
  · intro e he htar q hq
    rw [← hh.2] at he
    have := C95_delivered hG hX hst ts hb e he
    rw [hq] at this
    exact this.1.1
  · rw [← hh.2]
    exact hcount

end Amp.Wire
