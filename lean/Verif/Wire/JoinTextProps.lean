import Verif.Wire.JoinTextSpec
import Verif.Wire.RotateProps

/-!
# C116: joining with the texts of the daemon's commands
-/

namespace Amp.Wire

open Amp.Chain (Params Entry Stands ServiceRegistered Authorised Unbonds ChangesKey Joined cmdPending)
open Amp.Ampd (Lib Tofnd DaemonCfg CmdTx multisigAddress workerKey)
open Amp.Multisig (WorkerSet)
open Amp.Prover (SetOf)
open Amp.Router (ChainName)

variable {G : Texture} {P : Params}

/-! ### Helper lemmas -/

theorem pendings_blind {l l' : List Entry} (h : l.map Entry.blind = l'.map Entry.blind) : l.map Entry.p = l'.map Entry.p := by
  have key := congrArg (List.map Entry.p) h
  simp only [List.map_map] at key
  exact key

theorem mem_pendings {l l' : List Entry} (h : l.map Entry.p = l'.map Entry.p) {e : Entry} (he : e ∈ l) : ∃ e' ∈ l', e'.p = e.p := by
  have : e.p ∈ l'.map Entry.p := by rw [← h]; exact List.mem_map_of_mem he
  exact List.mem_map.mp this

theorem stands_pendings {l l' : List Entry} (h : l.map Entry.p = l'.map Entry.p) {done undone : Chain.Pending → Prop}
    (hs : Stands l done undone) : Stands l' done undone := by
  obtain ⟨l₁, e, l₂, rfl, h1, h2⟩ := hs
  rw [List.map_append, List.map_cons] at h
  obtain ⟨m₁, m₂, rfl, k1, k2⟩ := List.map_eq_append_iff.mp h.symm
  obtain ⟨e', m₃, rfl, k3, k4⟩ := List.map_eq_cons_iff.mp k2
  refine ⟨m₁, e', m₃, rfl, by rw [k3]; exact h1, ?_⟩
  intro x hx
  obtain ⟨y, hy, hyx⟩ := mem_pendings k4 hx
  rw [← hyx]
  exact h2 y hy

theorem joined_pendings {l l' : List Entry} (h : l.map Entry.p = l'.map Entry.p) {R M : Addr} {n : Str} {ch : ChainName} {a : Addr}
    {key : Encoding.Bytes} (hj : Joined l R M n ch a key) : Joined l' R M n ch a key := by
  obtain ⟨⟨sv, denom, amount, ⟨e, he, h1, h2⟩, h3, h4⟩, ⟨e', he', h5, h6, h7⟩, h8, h9⟩ := hj
  obtain ⟨x, hx, hxe⟩ := mem_pendings h he
  obtain ⟨y, hy, hye⟩ := mem_pendings h he'
  exact ⟨⟨sv, denom, amount, ⟨x, hx, by rw [hxe]; exact h1, by rw [hxe]; exact h2⟩, h3, stands_pendings h h4⟩,
    ⟨y, hy, by rw [hye]; exact h5, by rw [hye]; exact h6, by rw [hye]; exact h7⟩, stands_pendings h h8, stands_pendings h h9⟩

/-- what a transaction with the text of a command means -/
theorem carries_text (hG : Sound G) {ts : List TextStep} {t : TextTx} (ha : TextApart G (ts ++ [.tx t])) {c : CmdTx}
    (hc : CarriesText G t c) {k : Chain.Kind} (hk : textSetup G ts c.contract = some k) (ht : Typed G.L (Chain.cmdMsg c.msg))
    (hu : understood (party k.init) (Chain.cmdMsg c.msg) = some (Chain.cmdMsg c.msg)) :
    Chain.Carries (textSetup G ts) (meaning G (textSetup G ts) t) c := by
  have hs : textSetup G ts t.sender = none := by
    by_contra h
    refine (ha t (by simp) t.sender ?_).1 rfl
    cases hk : textSetup G ts t.sender with
    | none => exact absurd hk h
    | some k => rw [textSetup_mono ts _ hk]; simp
  refine ⟨hc.sender, ?_, by rw [← hc.sender]; exact hs, hc.gas⟩
  unfold meaning
  rw [hc.msgs]
  simp only [List.map_cons, List.map_nil]
  congr 3
  unfold meant
  rw [hk]
  simp only
  rw [C95_read hG _ ht, hu]

/-- a transaction that the contracts take is taken as text -/
theorem taken_text (hG : Sound G) (hX : ∀ b, IsBytes (P.X.keccak b)) (ts : List TextStep) (t : TextTx)
    (hb : ∀ s ∈ ts ++ [.tx t], StepInRange s) (ha : TextApart G (ts ++ [.tx t])) {c : CmdTx}
    (h : ∃ w' es, Chain.exec P (Chain.worldAfter P (textSetup G ts) (Chain.succeeded P (steps G ts))) (meaning G (textSetup G ts) t) =
      .ok (w', es) ∧ ∃ e ∈ es, e.p = cmdPending c) :
    (∃ x, execText G P (textDeployedWorld G P ts) t = .ok x) ∧
      ∃ e ∈ textDeployedLog G P (ts ++ [.tx t]), e.p = cmdPending c := by
  have hbt : ∀ s ∈ ts, StepInRange s := fun s hs => hb s (List.mem_append_left _ hs)
  have hat := textApart_prefix ha
  have hin : InRange t := hb (.tx t) (by simp)
  obtain ⟨w', es, hx, e, he, hp⟩ := h
  obtain ⟨-, -, -, v2⟩ := deployed_snoc hG hX ts t hb ha hx
  simp only at v2
  obtain ⟨e', he', hpe⟩ := mem_pendings (pendings_blind v2).symm (List.mem_append_right _ he)
  exact ⟨⟨_, (exec_after hG hX ts hbt hat t hin).mpr hx⟩, e', he', by rw [hpe]; exact hp⟩

/-- the question for active workers, as text -/
theorem asked_workers (hG : Sound G) (hX : Octets P.X) (h4 : FourIds P.X) (ts : List TextStep) (hb : ∀ s ∈ ts, StepInRange s) (R : Addr)
    (n : Str) (ch : ChainName) (hch : ch.Valid G.L) (ws : List Registry.Worker)
    (h : Chain.askWorkers (textDeployedWorld G P ts) R n ch = some ws) :
    ∃ text, query G P (textDeployedWorld G P ts) R ((UserQuestion.contract (.activeWorkers n ch)).json G.T).render = some text ∧
      (UserQuestion.contract (.activeWorkers n ch)).readText G text = some (.contract (.workers ws)) := by
  have key := C111_answer_partial hG hX h4 ts hb R (.contract (.activeWorkers n ch)) hch (by intro n x; simp)
  have ht : (UserQuestion.contract (.activeWorkers n ch)).truth G.T P (textDeployedWorld G P ts) R = some (.contract (.workers ws)) := by
    unfold Chain.askWorkers at h
    unfold UserQuestion.truth
    split at h
    · rename_i s hs
      rw [hs]
      simp only [Option.bind_some, Question.truth, h, Option.map_some]
    · cases h
  rw [ht, Option.map_some] at key
  obtain ⟨text, h1, h2⟩ := Option.map_eq_some_iff.mp key
  exact ⟨text, h1, h2⟩

/-- the question for a key, as text -/
theorem asked_key (hG : Sound G) (hX : Octets P.X) (h4 : FourIds P.X) (ts : List TextStep) (hb : ∀ s ∈ ts, StepInRange s) (M : Addr)
    (kt : Multisig.KeyType) (a : Addr) (k : Multisig.PublicKey) (h : Chain.askKey (textDeployedWorld G P ts) M kt a = .ok k) :
    ∃ text, query G P (textDeployedWorld G P ts) M ((UserQuestion.contract (.publicKey a kt)).json G.T).render = some text ∧
      (UserQuestion.contract (.publicKey a kt)).readText G text = some (.contract (.key k)) := by
  have key := C111_answer_partial hG hX h4 ts hb M (.contract (.publicKey a kt)) trivial (by intro n x; simp)
  have ht : (UserQuestion.contract (.publicKey a kt)).truth G.T P (textDeployedWorld G P ts) M = some (.contract (.key k)) := by
    unfold Chain.askKey at h
    unfold UserQuestion.truth
    split at h
    · rename_i s hs
      rw [hs]
      split at h
      · rename_i k' hk
        simp only [Except.ok.injEq] at h
        subst h
        simp only [Option.bind_some, Question.truth, hk, Chain.answer, Option.map_some]
      · cases h
    · cases h
  rw [ht, Option.map_some] at key
  obtain ⟨text, h1, h2⟩ := Option.map_eq_some_iff.mp key
  exact ⟨text, h1, h2⟩

/-! ### The property -/

/-- C116, bonding: the text that the bond command sends is taken by the registry whenever the service exists, the coin has its
denomination and is not zero, and the sum with what the worker already has at stake fits. -/
theorem C116_bond (hG : Sound G) (hX : ∀ b, IsBytes (P.X.keccak b)) (ts : List TextStep) (t : TextTx)
    (hb : ∀ s ∈ ts ++ [.tx t], StepInRange s) (ha : TextApart G (ts ++ [.tx t])) (R gov : Addr)
    (hR : textSetup G ts R = some (.registry gov)) {A B : Type} (L : Lib) (cfg : DaemonCfg) (hcR : cfg.serviceRegistry = R)
    (T : Tofnd A B) (saved : Option Encoding.Bytes) (n denom : Str) (amount : Nat) (c : CmdTx)
    (h : Ampd.bondWorker L T saved cfg n amount denom = .ok c) (sv : Registry.Service)
    (hsv : ServiceRegistered (textDeployedLog G P ts) R n sv) (hd : sv.denom = denom) (hpos : 0 < amount)
    (hroom : ∀ s, textDeployedWorld G P ts R = some (.registry s) → Registry.stakeOf s n c.sender + amount ≤ u128Max)
    (hc : CarriesText G t c) :
    (∃ x, execText G P (textDeployedWorld G P ts) t = .ok x) ∧
      ∃ e ∈ textDeployedLog G P (ts ++ [.tx t]), e.p = cmdPending c := by
  have hbt : ∀ s ∈ ts, StepInRange s := fun s hs => hb s (List.mem_append_left _ hs)
  obtain ⟨w1, w2, -, -, -⟩ := C105_history (P := P) hG hX ts hbt (textApart_prefix ha)
  have hmsg : c.contract = R ∧ c.msg = .registry (.bondWorker n) := by
    unfold Ampd.bondWorker at h
    split at h
    · cases h
    · split at h
      · cases h
      · simp only [Except.ok.injEq] at h
        rw [← h]
        exact ⟨hcR, rfl⟩
  have hi := Chain.inv P (textSetup G ts) (Chain.succeeded P (steps G ts))
  obtain ⟨e, he, h1, h2⟩ := hsv
  obtain ⟨e', he', hpe⟩ := mem_pendings (pendings_blind w2) he
  refine taken_text hG hX ts t hb ha (Chain.C90_bond_accepted P _ _ R gov hR L cfg hcR T saved n denom amount c h sv
    ⟨e', he', by rw [hpe]; exact h1, by rw [hpe]; exact h2⟩ hd hpos ?_ _
    (carries_text hG ha hc (by rw [hmsg.1]; exact hR) (by rw [hmsg.2]; trivial) (by rw [hmsg.2]; rfl)))
  exact hroom _ (by rw [w1]; exact hi.registry_state hR)

/-- C116, declaring: the text that the declare command sends is taken once the registry knows the worker. -/
theorem C116_declare (hG : Sound G) (hX : ∀ b, IsBytes (P.X.keccak b)) (ts : List TextStep) (t : TextTx)
    (hb : ∀ s ∈ ts ++ [.tx t], StepInRange s) (ha : TextApart G (ts ++ [.tx t])) (R gov : Addr)
    (hR : textSetup G ts R = some (.registry gov)) {A B : Type} (L : Lib) (cfg : DaemonCfg) (hcR : cfg.serviceRegistry = R)
    (T : Tofnd A B) (saved : Option Encoding.Bytes) (n : Str) (chains : List ChainName) (hchains : ∀ x ∈ chains, ChainName.Valid G.L x)
    (c : CmdTx) (h : Ampd.declareChainSupport L T saved cfg n chains = .ok c)
    (hknown : ∃ e ∈ textDeployedLog G P ts, e.p.target = R ∧ ((e.p.sender = c.sender ∧ e.p.msg = .registry (.bondWorker n)) ∨
      ∃ ws, c.sender ∈ ws ∧ (e.p.msg = .registry (.authorizeWorkers ws n) ∨ e.p.msg = .registry (.unauthorizeWorkers ws n))))
    (hc : CarriesText G t c) :
    (∃ x, execText G P (textDeployedWorld G P ts) t = .ok x) ∧
      ∃ e ∈ textDeployedLog G P (ts ++ [.tx t]), e.p = cmdPending c := by
  have hbt : ∀ s ∈ ts, StepInRange s := fun s hs => hb s (List.mem_append_left _ hs)
  obtain ⟨-, w2, -, -, -⟩ := C105_history (P := P) hG hX ts hbt (textApart_prefix ha)
  have hmsg : c.contract = R ∧ c.msg = .registry (.declareChainSupport n chains) := by
    unfold Ampd.declareChainSupport at h
    split at h
    · cases h
    · simp only [Except.ok.injEq] at h
      rw [← h]
      exact ⟨hcR, rfl⟩
  obtain ⟨e, he, h1⟩ := hknown
  obtain ⟨e', he', hpe⟩ := mem_pendings (pendings_blind w2) he
  exact taken_text hG hX ts t hb ha (Chain.C90_declare_accepted P _ _ R gov hR L cfg hcR T saved n chains c h
    ⟨e', he', by rw [hpe]; exact h1⟩ _
    (carries_text hG ha hc (by rw [hmsg.1]; exact hR) (by rw [hmsg.2]; exact hchains) (by rw [hmsg.2]; rfl)))

/-- C116, registering: the text that the register command sends is always taken by the multisig contract. -/
theorem C116_register (hG : Sound G) (hX : ∀ b, IsBytes (P.X.keccak b)) (ts : List TextStep) (t : TextTx)
    (hb : ∀ s ∈ ts ++ [.tx t], StepInRange s) (ha : TextApart G (ts ++ [.tx t])) (M : Addr) (mc : Multisig.Config)
    (hM : textSetup G ts M = some (.multisig mc)) {A B : Type} (L : Lib) (cfg : DaemonCfg)
    (hcM : multisigAddress cfg.handlers = some M) (T : Tofnd A B) (saved : Option Encoding.Bytes)
    (hkey : ∀ k, workerKey T saved cfg = some k → IsBytes k) (c : CmdTx)
    (h : Ampd.registerPublicKey L T saved cfg = .ok c) (hc : CarriesText G t c) :
    (∃ x, execText G P (textDeployedWorld G P ts) t = .ok x) ∧
      ∃ e ∈ textDeployedLog G P (ts ++ [.tx t]), e.p = cmdPending c := by
  have hmsg : c.contract = M ∧ ∃ k, c.msg = .multisig (.registerPublicKey .ecdsa k) ∧ IsBytes k := by
    unfold Ampd.registerPublicKey at h
    split at h
    · cases h
    · rename_i k hk
      simp only [hcM] at h
      split at h
      · cases h
      · rename_i pk hpk
        simp only [Except.ok.injEq] at h
        rw [← h]
        exact ⟨rfl, _, rfl, by rw [(Multisig.key_ok.mp hpk).2.2]; exact hkey _ hk⟩
  obtain ⟨h1, k, h2, h3⟩ := hmsg
  exact taken_text hG hX ts t hb ha (Chain.C90_register_accepted P _ _ M mc hM L cfg hcM T saved c h _
    (carries_text hG ha hc (by rw [h1]; exact hM) (by rw [h2]; exact h3) (by rw [h2]; rfl)))

/-- C116, joined: once these texts were taken and governance authorised the worker, in any order and with anything else in between, and
the worker did not unbond, was not unauthorised and registered no other key, the registry answers the text of a question for the active
workers with a text that reads as a list with this worker, and the multisig contract answers the text of a question for its key with a
text that reads as exactly this key. -/
theorem C116_joined (hG : Sound G) (hX : Octets P.X) (h4 : FourIds P.X) (ts : List TextStep) (hb : ∀ s ∈ ts, StepInRange s)
    (ha : TextApart G ts) (R gov M : Addr) (mc : Multisig.Config) (hR : textSetup G ts R = some (.registry gov))
    (hM : textSetup G ts M = some (.multisig mc))
    {A B : Type} (L : Lib) (cfg : DaemonCfg) (hcR : cfg.serviceRegistry = R)
    (hcM : multisigAddress cfg.handlers = some M) (key : Encoding.Bytes)
    (T₁ T₂ T₃ : Tofnd A B) (saved₁ saved₂ saved₃ : Option Encoding.Bytes)
    (hk₁ : workerKey T₁ saved₁ cfg = some key) (hk₂ : workerKey T₂ saved₂ cfg = some key)
    (hk₃ : workerKey T₃ saved₃ cfg = some key)
    (n denom : Str) (amount : Nat) (chains : List ChainName) (c₁ c₂ c₃ : CmdTx)
    (h₁ : Ampd.bondWorker L T₁ saved₁ cfg n amount denom = .ok c₁)
    (h₂ : Ampd.declareChainSupport L T₂ saved₂ cfg n chains = .ok c₂)
    (h₃ : Ampd.registerPublicKey L T₃ saved₃ cfg = .ok c₃)
    (sv : Registry.Service) (hsv : ServiceRegistered (textDeployedLog G P ts) R n sv) (hmin : sv.minBond ≤ amount)
    (hbond : Stands (textDeployedLog G P ts) (· = cmdPending c₁) (Unbonds R n (L.account key)))
    (hdecl : ∃ e ∈ textDeployedLog G P ts, e.p = cmdPending c₂) (ch : ChainName) (hch : ch ∈ chains) (hv : ch.Valid G.L)
    (hauth : Authorised (textDeployedLog G P ts) R n (L.account key))
    (hkey : Stands (textDeployedLog G P ts) (· = cmdPending c₃) (ChangesKey M (L.account key))) :
    Joined (textDeployedLog G P ts) R M n ch (L.account key) key ∧
    (∃ reply ws x, query G P (textDeployedWorld G P ts) R ((UserQuestion.contract (.activeWorkers n ch)).json G.T).render = some reply ∧
      (UserQuestion.contract (.activeWorkers n ch)).readText G reply = some (.contract (.workers ws)) ∧
      x ∈ ws ∧ x.address = L.account key) ∧
    ∃ reply, query G P (textDeployedWorld G P ts) M ((UserQuestion.contract (.publicKey (L.account key) .ecdsa)).json G.T).render =
        some reply ∧
      (UserQuestion.contract (.publicKey (L.account key) .ecdsa)).readText G reply = some (.contract (.key (.ecdsa key))) := by
  obtain ⟨w1, w2, -, -, -⟩ := C105_history (P := P) hG hX.keccak ts hb ha
  have hp := pendings_blind w2
  obtain ⟨e, he, hs1, hs2⟩ := hsv
  obtain ⟨e', he', hpe⟩ := mem_pendings hp he
  obtain ⟨d, hd, hd1⟩ := hdecl
  obtain ⟨d', hd', hpd⟩ := mem_pendings hp hd
  obtain ⟨g1, ⟨ws, x, g2, g3, g4⟩, g5⟩ := Chain.C90_joined P (textSetup G ts) (Chain.succeeded P (steps G ts)) R gov M mc hR hM L cfg hcR
    hcM key T₁ T₂ T₃ saved₁ saved₂ saved₃ hk₁ hk₂ hk₃ n denom amount chains c₁ c₂ c₃ h₁ h₂ h₃ sv
    ⟨e', he', by rw [hpe]; exact hs1, by rw [hpe]; exact hs2⟩ hmin (stands_pendings hp hbond) ⟨d', hd', by rw [hpd]; exact hd1⟩ ch hch
    (stands_pendings hp hauth) (stands_pendings hp hkey)
  rw [← w1] at g2 g5
  obtain ⟨r1, k1, k2⟩ := asked_workers hG hX h4 ts hb R n ch hv ws g2
  exact ⟨joined_pendings hp.symm g1, ⟨r1, ws, x, k1, k2, g3, g4⟩, asked_key hG hX h4 ts hb M .ecdsa _ _ g5⟩

/-- C116, polls: a worker that joined is a participant, in the raw event, of every poll that is then opened for its chain: the event
that the verifier writes is one that names it. -/
theorem C116_polled (hG : Sound G) (hX : ∀ b, IsBytes (P.X.keccak b)) (ts : List TextStep) (hb : ∀ s ∈ ts, StepInRange s)
    (ha : TextApart G ts) (V : Addr) (vc : VV.Config) (hV : textSetup G ts V = some (.verifier vc)) (gov M : Addr) (mc : Multisig.Config)
    (hR : textSetup G ts vc.serviceRegistry = some (.registry gov)) (hM : textSetup G ts M = some (.multisig mc)) (a : Addr)
    (key : Encoding.Bytes) (l₁ l₂ : List Entry) (e : Entry) (hl : textDeployedLog G P ts = l₁ ++ e :: l₂)
    (hj : Joined l₁ vc.serviceRegistry M vc.serviceName vc.sourceChain a key) (ht : e.p.target = V) (c : VV.Call)
    (r : VV.Resp) (hact : e.act = .verifier c r) (pm : VV.PollMeta)
    (hev : (∃ confs, r.event = some (.messagesPollStarted confs pm)) ∨
      ∃ tx n o, r.event = some (.workerSetPollStarted tx n o pm)) : a ∈ pm.participants := by
  obtain ⟨-, w2, -, -, hv⟩ := C105_history (P := P) hG hX ts hb ha
  rw [hl, List.map_append, List.map_cons] at w2
  obtain ⟨m₁, m₂, hm, k1, k2⟩ := List.map_eq_append_iff.mp w2.symm
  obtain ⟨e', m₃, rfl, k3, k4⟩ := List.map_eq_cons_iff.mp k2
  obtain ⟨b1, c', b2, -⟩ := Chain.blind_verifier k3 hact
  exact Chain.C90_polled P (textSetup G ts) (Chain.succeeded P (steps G ts)) m₁ m₃ e' hm V vc hV (hv _ _ hV) gov hR M mc hM a key
    (joined_pendings (pendings_blind k1).symm hj) (by rw [b1]; exact ht) c' r b2 pm hev

/-- C116, the first set: it is a member, with weight one and its key, of the set that anybody installs with the text of a request to
update the worker set: the prover answers with a text that reads as a set with this worker. -/
theorem C116_member (hG : Sound G) (hX : Octets P.X) (h4 : FourIds P.X) (ts : List TextStep) (t : TextTx)
    (hb : ∀ s ∈ ts ++ [.tx t], StepInRange s) (ha : TextApart G (ts ++ [.tx t])) (Q : Addr) (pc : Prover.Config) (sv : Str)
    (hQ : textSetup G ts Q = some (.prover pc sv .ecdsa)) (gov : Addr) (mc : Multisig.Config)
    (hR : textSetup G ts pc.serviceRegistry = some (.registry gov))
    (hM : textSetup G ts pc.multisig = some (.multisig mc)) (funds : List Registry.Coin) (text : Str)
    (hmsgs : t.msgs = [(Q, funds, text)]) (hread : readFor G .prover text = some (.prover .updateWorkerSet)) (hgas : 1 ≤ t.gas)
    (hnone : Chain.currentSet (textDeployedWorld G P ts) Q = none) (a : Addr) (key : Encoding.Bytes)
    (hj : Joined (textDeployedLog G P ts) pc.serviceRegistry pc.multisig sv pc.chainName a key)
    (hall : ∀ ws, Chain.askWorkers (textDeployedWorld G P ts) pc.serviceRegistry sv pc.chainName = some ws →
      ws.length ≤ u256Max ∧ ∀ x ∈ ws, ∃ k, Chain.askKey (textDeployedWorld G P ts) pc.multisig .ecdsa x.address = .ok k) :
    ∃ ws reply, query G P (textDeployedWorld G P (ts ++ [.tx t])) Q (UserQuestion.currentSet.json G.T).render = some reply ∧
      UserQuestion.currentSet.readText G reply = some (.set ws) ∧ (a, ⟨a, 1, .ecdsa key⟩) ∈ ws.signers := by
  have hbt : ∀ s ∈ ts, StepInRange s := fun s hs => hb s (List.mem_append_left _ hs)
  have hat := textApart_prefix ha
  have hin : InRange t := hb (.tx t) (by simp)
  obtain ⟨w1, w2, -, -, -⟩ := C105_history (P := P) hG hX.keccak ts hbt hat
  obtain ⟨-, -, -, hmaj, -⟩ := C104_setup (C105_text (P := P) hG hX.keccak ts hbt).2.2.2
  rw [w1] at hnone hall
  obtain ⟨ws, h1, h2⟩ := Chain.C90_first_set P (textSetup G ts) (Chain.succeeded P (steps G ts)) Q pc sv hQ _ _
    (majority_ofPair (hmaj Q pc sv _ hQ)) gov mc hR hM (meaning G (textSetup G ts) t) (sends_text ha hQ hmsgs hread hgas) hin.height hnone
    a key (joined_pendings (pendings_blind w2) hj) hall
  obtain ⟨-, ⟨reply, q1, q2⟩, -⟩ := installs_text hG hX h4 ts t hb ha h1
  exact ⟨ws, reply, q1, q2, h2⟩

end Amp.Wire
