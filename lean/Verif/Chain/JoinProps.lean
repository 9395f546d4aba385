import Verif.Chain.JoinLemmas
import Verif.Chain.RotationProps

/-!
# C90: joining with the commands of the daemon
-/

namespace Amp.Chain

open Amp.Router (ChainName)
open Amp.Encoding (Bytes)
open Amp.Ampd (Tofnd Lib DaemonCfg CmdTx workerKey multisigAddress)

variable {P : Params} {setup : Setup}

/-! ### Specification -/

/-- what a command sends, as a message on the chain -/
def cmdMsg : Ampd.CmdMsg → Msg
  | .registry m => .registry m
  | .multisig m => .multisig m

/-- a transaction of a command, as a message to be delivered -/
def cmdPending (t : CmdTx) : Pending := ⟨t.sender, t.contract, t.funds, cmdMsg t.msg⟩

/-- the transaction on the chain consists of what the command sent -/
structure Carries (setup : Setup) (tx : Tx) (t : CmdTx) : Prop where
  sender : tx.sender = t.sender
  msgs : tx.msgs = [(t.contract, t.funds, cmdMsg t.msg)]
  outside : setup t.sender = none
  gas : 1 ≤ tx.gas

/-- governance registered service `n` at the registry -/
def ServiceRegistered (l : List Entry) (R : Addr) (n : Str) (sv : Registry.Service) : Prop :=
  ∃ e ∈ l, e.p.target = R ∧ e.p.msg = .registry (.registerService n sv)

/-- governance authorised `a` for service `n`, and has not withdrawn that since -/
def Authorised (l : List Entry) (R : Addr) (n : Str) (a : Addr) : Prop :=
  Stands l (fun p => p.target = R ∧ ∃ ws, p.msg = .registry (.authorizeWorkers ws n) ∧ a ∈ ws)
    (fun p => p.target = R ∧ ∃ ws, p.msg = .registry (.unauthorizeWorkers ws n) ∧ a ∈ ws)

/-- `a` unbonds from service `n` -/
def Unbonds (R : Addr) (n : Str) (a : Addr) (p : Pending) : Prop :=
  p.sender = a ∧ p.target = R ∧ p.msg = .registry (.unbondWorker n)

/-- `a` registers an ECDSA key -/
def ChangesKey (M a : Addr) (p : Pending) : Prop :=
  p.sender = a ∧ p.target = M ∧ ∃ k, p.msg = .multisig (.registerPublicKey .ecdsa k)

/-- Worker `a` has bonded at least the minimum for service `n` with a single payment and has not unbonded since, has
declared support for the chain, is authorised, and `key` is the last ECDSA key that it registered. -/
structure Joined (l : List Entry) (R M : Addr) (n : Str) (ch : ChainName) (a : Addr) (key : Bytes) : Prop where
  bonded : ∃ sv denom amount, ServiceRegistered l R n sv ∧ sv.minBond ≤ amount ∧
    Stands l (· = ⟨a, R, [(denom, amount)], .registry (.bondWorker n)⟩) (Unbonds R n a)
  declared : ∃ e ∈ l, e.p.sender = a ∧ e.p.target = R ∧
    ∃ chains, e.p.msg = .registry (.declareChainSupport n chains) ∧ ch ∈ chains
  authorised : Authorised l R n a
  registered : Stands l (fun p => p.sender = a ∧ p.target = M ∧ p.msg = .multisig (.registerPublicKey .ecdsa key))
    (ChangesKey M a)

/-! ### Lemmas -/

theorem service_registered {l : List Entry} {w : World} {R gov : Addr} (hi : Inv P setup l w)
    (hR : setup R = some (.registry gov)) {n : Str} {sv : Registry.Service} (h : ServiceRegistered l R n sv) :
    Registry.findService (Registry.stateAfter gov (registryCalls R l)).services n = some sv := by
  refine hi.registry_stands hR (done := fun p => p.target = R ∧ p.msg = .registry (.registerService n sv))
    (undone := fun _ => False) (I := fun s => Registry.findService s.services n = some sv)
    (fun p hp => hp.1) ?_ ?_ ?_
  · rintro s t snd funds m s' r _ hx ⟨_, hm⟩
    simp only [Msg.registry.injEq] at hm
    subst hm
    rcases (Registry.services_step hx).2 with ⟨n', sv', h1, _, h3, h4⟩ | ⟨h1, _⟩
    · simp only [Registry.Msg.registerService.injEq] at h1
      obtain ⟨rfl, rfl⟩ := h1
      rw [h4, Registry.findService_append, h3]
      simp
    · exact absurd rfl (h1 n sv)
  · intro s t snd funds m s' r _ hx _ h
    exact Registry.keep_service hx h
  · obtain ⟨e, he, h1, h2⟩ := h
    obtain ⟨l₁, l₂, hl⟩ := List.append_of_mem he
    exact ⟨l₁, e, l₂, hl, ⟨h1, h2⟩, fun _ _ h => h⟩

theorem exec_registry {txs : List Tx} {R gov : Addr} (hR : setup R = some (.registry gov)) {tx : Tx}
    {funds : List Registry.Coin} {m : Registry.Msg} (htx : tx.msgs = [(R, funds, .registry m)])
    (hs : setup tx.sender = none) (hgas : 1 ≤ tx.gas) {s' : Registry.State} {r : Registry.Resp}
    (hx : Registry.exec (Registry.stateAfter gov (registryCalls R (log P setup txs)))
      ⟨tx.sender, funds, tx.block.time, m⟩ = .ok (s', r)) :
    ∃ w' es, exec P (worldAfter P setup txs) tx = .ok (w', es) ∧
      ∃ e ∈ es, e.p = ⟨tx.sender, R, funds, .registry m⟩ := by
  have hi := inv P setup txs
  have wR := hi.registry_state hR
  have hsend : worldAfter P setup txs tx.sender = none := by rw [hi.world]; simp [worldOf, hs]
  obtain ⟨k, hk⟩ : ∃ k, tx.gas = k + 1 := ⟨tx.gas - 1, by omega⟩
  unfold exec
  rw [if_neg (by simp [hsend]), htx, hk]
  simp only [List.map_cons, List.map_nil]
  rw [run, if_neg (by simp [wR])]
  unfold deliver
  simp only [wR]
  unfold call
  simp only [wR, hx, Entry.sent, Act.outs, List.map_nil, List.append_nil]
  cases k <;> simp [run]

theorem exec_registerKey {txs : List Tx} {M : Addr} {mc : Multisig.Config} (hM : setup M = some (.multisig mc)) {tx : Tx}
    {funds : List Registry.Coin} {kt : Multisig.KeyType} {b : Bytes}
    (htx : tx.msgs = [(M, funds, .multisig (.registerPublicKey kt b))])
    (hs : setup tx.sender = none) (hgas : 1 ≤ tx.gas) {k : Multisig.PublicKey}
    (hx : Multisig.PublicKey.tryFrom kt b = .ok k) :
    ∃ w' es, exec P (worldAfter P setup txs) tx = .ok (w', es) ∧
      ∃ e ∈ es, e.p = ⟨tx.sender, M, funds, .multisig (.registerPublicKey kt b)⟩ := by
  have hi := inv P setup txs
  have wM := hi.multisig_state hM
  have hsend : worldAfter P setup txs tx.sender = none := by rw [hi.world]; simp [worldOf, hs]
  obtain ⟨n, hn⟩ : ∃ k, tx.gas = k + 1 := ⟨tx.gas - 1, by omega⟩
  unfold exec
  rw [if_neg (by simp [hsend]), htx, hn]
  simp only [List.map_cons, List.map_nil]
  rw [run, if_neg (by simp [wM])]
  unfold deliver
  simp only [wM]
  unfold call
  simp only [wM, Multisig.exec, Multisig.registerPubKey, hx, Entry.sent, Act.outs, List.map_nil, List.append_nil]
  cases n <;> simp [run]

theorem bond_done {s s' : Registry.State} {t amount : Nat} {a : Addr} {denom n : Str} {r : Registry.Resp}
    (hx : Registry.exec s ⟨a, [(denom, amount)], t, .bondWorker n⟩ = .ok (s', r)) :
    ∃ w m, Registry.findWorker s' n a = some w ∧ w.bonding = .bonded m ∧ amount ≤ m := by
  have hx' : Registry.bondWorker s ⟨a, [(denom, amount)], t, .bondWorker n⟩ n = .ok (s', r) := hx
  obtain ⟨sv, h1, _, rfl, _⟩ := Registry.bond_ok hx'
  refine ⟨_, _, Registry.findWorker_save_self .., rfl, ?_⟩
  have : Registry.firstOf sv.denom [(denom, amount)] = amount := by
    unfold Registry.bondWorker at hx'
    simp only [h1] at hx'
    by_cases hd : denom = sv.denom
    · simp [Registry.firstOf, hd]
    · simp [Registry.bondOf, hd] at hx'
  simp only [this]
  omega

theorem auth_done {s s' : Registry.State} {t : Nat} {a snd : Addr} {funds : List Registry.Coin} {n : Str} {ws : List Addr}
    {r : Registry.Resp} (hx : Registry.exec s ⟨snd, funds, t, .authorizeWorkers ws n⟩ = .ok (s', r)) (ha : a ∈ ws) :
    ∃ w, Registry.findWorker s' n a = some w ∧ w.auth = .authorized := by
  simp only [Registry.exec] at hx
  split at hx
  · simp at hx
  · obtain ⟨_, _, _, rfl⟩ := Registry.updateAuth_ok hx
    rw [(Registry.foldAuth n .authorized ws s).2.2.2 n a, if_pos ⟨rfl, ha⟩]
    exact ⟨_, rfl, rfl⟩

theorem declare_done {s s' : Registry.State} {t : Nat} {a : Addr} {funds : List Registry.Coin} {n : Str}
    {chains : List ChainName} {ch : ChainName} {r : Registry.Resp} (hi : Registry.Inv s)
    (hx : Registry.exec s ⟨a, funds, t, .declareChainSupport n chains⟩ = .ok (s', r)) (hc : ch ∈ chains) :
    a ∈ Registry.declared s' n ch := by
  simp only [Registry.exec] at hx
  obtain ⟨sv, w, _, _, _, rfl⟩ := Registry.declare_ok hx
  rw [Registry.mem_declared]
  exact ((Registry.foldDeclare n a chains s.perChain (fun k m hk => hi.chainSorted k.1 k.2 m hk)).2 n ch a).mpr
    (Or.inr ⟨rfl, hc, rfl⟩)

theorem key_done {C : Multisig.Crypto} {idOf : Multisig.WorkerSet → Str} {s s' : Multisig.State} {h : Nat} {a : Addr}
    {b : Bytes} {r : Multisig.Resp} (hx : Multisig.exec C idOf s ⟨a, h, .registerPublicKey .ecdsa b⟩ = .ok (s', r)) :
    s'.pubKeys (a, .ecdsa) = some b ∧ Multisig.keyLength .ecdsa b.length := by
  rcases Multisig.exec_ok hx with ⟨_, _, _, _, hm, _⟩ | ⟨_, _, hm, _⟩ | ⟨_, _, hm, _⟩ | ⟨kt, b', k, hm, hk, e1, _⟩ |
    ⟨_, hm, _⟩ | ⟨_, hm, _⟩ <;> simp only [reduceCtorEq, Multisig.Msg.registerPublicKey.injEq] at hm
  obtain ⟨rfl, rfl⟩ := hm
  rw [e1]
  exact ⟨by simp, (Multisig.key_ok.mp hk).1⟩

/-- a key stays unless the worker registers another one -/
theorem keep_key {C : Multisig.Crypto} {idOf : Multisig.WorkerSet → Str} {s s' : Multisig.State} {c : Multisig.Call}
    {a : Addr} {b : Bytes} {r : Multisig.Resp} (hx : Multisig.exec C idOf s c = .ok (s', r))
    (hu : c.sender = a → ∀ k, c.msg ≠ .registerPublicKey .ecdsa k) (hp : s.pubKeys (a, .ecdsa) = some b) :
    s'.pubKeys (a, .ecdsa) = some b := by
  rcases Multisig.exec_ok hx with ⟨_, _, _, _, hm, hy⟩ | ⟨_, _, hm, hy⟩ | ⟨_, _, hm, _, e1, _⟩ |
    ⟨kt, b', k, hm, hk, e1, _⟩ | ⟨_, hm, _, e1, _⟩ | ⟨_, hm, _, e1, _⟩
  · obtain ⟨_, _, _, _, ws, hw, e1, e2⟩ := Multisig.start_ok.mp hy
    rw [e1]; exact hp
  · obtain ⟨_, _, _, _, _, _, _, _, _, _, _, _, _, e1, _⟩ := Multisig.submit_ok.mp hy
    rw [e1]; exact hp
  · rw [e1]; exact hp
  · rw [e1]
    simp only
    rw [KV.set_ne]
    · exact hp
    · intro h
      simp only [Prod.mk.injEq] at h
      exact hu h.1.symm b' (by rw [hm, ← h.2])
  · rw [e1]; exact hp
  · rw [e1]; exact hp

/-- what `Joined` means for the contracts -/
theorem joined_listed {l : List Entry} {w : World} {R gov M : Addr} {mc : Multisig.Config} (hi : Inv P setup l w)
    (hR : setup R = some (.registry gov)) (hM : setup M = some (.multisig mc)) {n : Str} {ch : ChainName} {a : Addr}
    {key : Bytes} (h : Joined l R M n ch a key) :
    (∃ ws x, askWorkers w R n ch = some ws ∧ x ∈ ws ∧ x.address = a) ∧ askKey w M .ecdsa a = .ok (.ecdsa key) := by
  have wR := hi.registry_state hR
  have wM := hi.multisig_state hM
  obtain ⟨sv, denom, amount, hsv, hmin, hbond⟩ := h.bonded
  have hS := service_registered hi hR hsv
  -- bonded
  have hb := hi.registry_stands hR (I := fun s => ∃ w m, Registry.findWorker s n a = some w ∧
      w.bonding = .bonded m ∧ amount ≤ m) (fun p hp => by subst hp; rfl) (by
    rintro s t snd funds m s' r _ hx he
    simp only [Pending.mk.injEq, Msg.registry.injEq] at he
    obtain ⟨rfl, _, rfl, rfl⟩ := he
    exact bond_done hx) (by
    intro s t snd funds m s' r _ hx hu
    exact Registry.keep_bond hx (fun h => hu ⟨h.1, rfl, congrArg Msg.registry h.2⟩)) hbond
  -- authorised
  have ha := hi.registry_stands hR (I := fun s => ∃ w, Registry.findWorker s n a = some w ∧
      w.auth = .authorized) (fun p hp => hp.1) (by
    rintro s t snd funds m s' r _ hx ⟨_, ws, hm, hmem⟩
    simp only [Msg.registry.injEq] at hm
    subst hm
    exact auth_done hx hmem) (by
    intro s t snd funds m s' r _ hx hu
    exact Registry.keep_auth hx (fun ws hm h => hu ⟨rfl, ws, congrArg Msg.registry hm, h⟩)) h.authorised
  -- declared
  have hd := hi.registry_stands hR
    (done := fun p => p.sender = a ∧ p.target = R ∧ ∃ chains, p.msg = .registry (.declareChainSupport n chains) ∧
      ch ∈ chains)
    (undone := fun _ => False) (I := fun s => a ∈ Registry.declared s n ch) (fun p hp => hp.2.1) (by
    rintro s t snd funds m s' r hv hx ⟨rfl, _, chains, hm, hch⟩
    simp only [Msg.registry.injEq] at hm
    subst hm
    exact declare_done hv hx hch) (by
    intro s t snd funds m s' r hv hx _ h
    exact Registry.keep_declared hv hx h) (by
    obtain ⟨e, he, h⟩ := h.declared
    obtain ⟨l₁, l₂, hl⟩ := List.append_of_mem he
    exact ⟨l₁, e, l₂, hl, h, fun _ _ h => h⟩)
  -- the key
  have hK := hi.multisig_stands hM (I := fun s => s.pubKeys (a, .ecdsa) = some key ∧ Multisig.keyLength .ecdsa key.length)
    (fun p hp => hp.2.1) (by
    rintro s h snd funds m s' r hx ⟨rfl, _, hm⟩
    simp only [Msg.multisig.injEq] at hm
    subst hm
    exact key_done hx) (by
    intro s h snd funds m s' r hx hu hp
    exact ⟨keep_key hx (fun h k hm => hu ⟨h, rfl, k, congrArg Msg.multisig hm⟩) hp.1, hp.2⟩) h.registered
  obtain ⟨x, b, hx, hxb, hle⟩ := hb
  obtain ⟨x', hx', hxa⟩ := ha
  rw [hx] at hx'
  simp only [Option.some.injEq] at hx'
  subst hx'
  obtain ⟨ws, g1, _, g3, _⟩ := Registry.C34_active_workers gov (registryCalls R l) n ch sv hS
  have haddr : x.address = a := ((Registry.inv_reachable gov _).own n _ x hx).1
  refine ⟨⟨ws, x, ?_, (g3 x).mpr ⟨by rw [haddr]; exact hx, ?_, ⟨b, hxb, by omega⟩, hxa⟩, haddr⟩, ?_⟩
  · unfold askWorkers; rw [wR]; simp only [g1, answer]
  · rw [haddr, ← Registry.declared_reachable]; exact hd
  · unfold askKey
    rw [wM]
    have hpk := Multisig.key_ok.mpr ⟨hK.2, (rfl : (Multisig.PublicKey.ecdsa key).keyType = .ecdsa), rfl⟩
    simp only [Multisig.getPublicKey, hK.1, hpk]

/-! ### C90 -/

/-- C90: A worker has joined.  Whoever bonded at least the minimum of a registered service with the bond command, declared
support for a chain with the declare command and registered a key with the register command, and was authorised by
governance, in any order and with anything else in between, and has not unbonded, been unauthorised or registered another
key since, is listed among the active workers of the service for the chain and with that key. -/
theorem C90_joined (P : Params) (setup : Setup) (txs : List Tx) (R gov M : Addr) (mc : Multisig.Config)
    (hR : setup R = some (.registry gov)) (hM : setup M = some (.multisig mc))
    {A B : Type} (L : Lib) (cfg : DaemonCfg) (hcR : cfg.serviceRegistry = R)
    (hcM : multisigAddress cfg.handlers = some M) (key : Bytes)
    (T₁ T₂ T₃ : Tofnd A B) (saved₁ saved₂ saved₃ : Option Bytes)
    (hk₁ : workerKey T₁ saved₁ cfg = some key) (hk₂ : workerKey T₂ saved₂ cfg = some key)
    (hk₃ : workerKey T₃ saved₃ cfg = some key)
    (n denom : Str) (amount : Nat) (chains : List ChainName) (t₁ t₂ t₃ : CmdTx)
    (h₁ : Ampd.bondWorker L T₁ saved₁ cfg n amount denom = .ok t₁)
    (h₂ : Ampd.declareChainSupport L T₂ saved₂ cfg n chains = .ok t₂)
    (h₃ : Ampd.registerPublicKey L T₃ saved₃ cfg = .ok t₃)
    (sv : Registry.Service) (hsv : ServiceRegistered (log P setup txs) R n sv) (hmin : sv.minBond ≤ amount)
    (hbond : Stands (log P setup txs) (· = cmdPending t₁) (Unbonds R n (L.account key)))
    (hdecl : ∃ e ∈ log P setup txs, e.p = cmdPending t₂) (ch : ChainName) (hch : ch ∈ chains)
    (hauth : Authorised (log P setup txs) R n (L.account key))
    (hkey : Stands (log P setup txs) (· = cmdPending t₃) (ChangesKey M (L.account key))) :
    Joined (log P setup txs) R M n ch (L.account key) key ∧
    (∃ ws x, askWorkers (worldAfter P setup txs) R n ch = some ws ∧ x ∈ ws ∧ x.address = L.account key) ∧
    askKey (worldAfter P setup txs) M .ecdsa (L.account key) = .ok (.ecdsa key) := by
  have e₁ : t₁ = ⟨L.account key, R, [(denom, amount)], .registry (.bondWorker n)⟩ := by
    unfold Ampd.bondWorker at h₁
    split at h₁
    · simp at h₁
    · rw [hk₁] at h₁
      simp only [Except.ok.injEq] at h₁
      rw [← h₁, hcR]
  have e₂ : t₂ = ⟨L.account key, R, [], .registry (.declareChainSupport n chains)⟩ := by
    unfold Ampd.declareChainSupport at h₂
    rw [hk₂] at h₂
    simp only [Except.ok.injEq] at h₂
    rw [← h₂, hcR]
  have e₃ : t₃ = ⟨L.account key, M, [], .multisig (.registerPublicKey .ecdsa key)⟩ := by
    unfold Ampd.registerPublicKey at h₃
    rw [hk₃] at h₃
    simp only [hcM] at h₃
    split at h₃
    · simp at h₃
    · rename_i pk hpk
      simp only [Except.ok.injEq] at h₃
      rw [← h₃, (Multisig.key_ok.mp hpk).2.2]
  subst e₁ e₂ e₃
  have hj : Joined (log P setup txs) R M n ch (L.account key) key := by
    refine ⟨⟨sv, denom, amount, hsv, hmin, hbond⟩, ?_, hauth, ?_⟩
    · obtain ⟨e, he, h⟩ := hdecl
      exact ⟨e, he, by rw [h]; rfl, by rw [h]; rfl, chains, by rw [h]; rfl, hch⟩
    · obtain ⟨l₁, e, l₂, h1, h2, h3⟩ := hkey
      exact ⟨l₁, e, l₂, h1, ⟨by rw [h2]; rfl, by rw [h2]; rfl, by rw [h2]; rfl⟩, h3⟩
  exact ⟨hj, joined_listed (inv P setup txs) hR hM hj⟩

/-- C90: A worker that has joined takes part in every poll of the chain that is opened from then on. -/
theorem C90_polled (P : Params) (setup : Setup) (txs : List Tx) (l₁ l₂ : List Entry) (e : Entry)
    (hl : log P setup txs = l₁ ++ e :: l₂) (V : Addr) (vc : VV.Config) (hV : setup V = some (.verifier vc))
    (hv : vc.Valid) (gov : Addr) (hR : setup vc.serviceRegistry = some (.registry gov)) (M : Addr) (mc : Multisig.Config)
    (hM : setup M = some (.multisig mc)) (a : Addr) (key : Bytes)
    (hj : Joined l₁ vc.serviceRegistry M vc.serviceName vc.sourceChain a key) (ht : e.p.target = V) (c : VV.Call)
    (r : VV.Resp) (hact : e.act = .verifier c r) (pm : VV.PollMeta)
    (hev : (∃ confs, r.event = some (.messagesPollStarted confs pm)) ∨
      ∃ tx n o, r.event = some (.workerSetPollStarted tx n o pm)) : a ∈ pm.participants := by
  have hi := inv P setup txs
  obtain ⟨⟨ws, x, h1, h2, h3⟩, _⟩ := joined_listed (hi.prefix hl) hR hM hj
  obtain ⟨c', r', g1, _, _, g4⟩ := hi.verifier_call hl hv (by rw [ht]; exact hV)
  rw [hact] at g1
  simp only [Act.verifier.injEq] at g1
  obtain ⟨rfl, rfl⟩ := g1
  rw [h1] at g4
  obtain ⟨s', hx⟩ : ∃ s', VV.exec P.H (VV.stateAfter P.H vc (verifierCalls V l₁)) c = .ok (s', r) := by
    obtain ⟨_, b, reply, s', hc⟩ := hi.genuine l₁ e l₂ hl
    have hw := (hi.prefix hl).verifier_state (a := e.p.target) (by rw [ht]; exact hV)
    unfold call at hc
    rw [hw] at hc
    simp only at hc
    cases hm : e.p.msg with
    | verifier m =>
      rw [hm] at hc
      simp only at hc
      split at hc
      · simp at hc
      · rename_i s1 r1 hx
        simp only [Except.ok.injEq, Prod.mk.injEq] at hc
        rw [hact] at hc
        simp only [Act.verifier.injEq] at hc
        rw [hc.2.1, hc.2.2, ht] at hx
        exact ⟨s1, hx⟩
    | _ => rw [hm] at hc; simp at hc
  have hsnap : ∀ th snap, Std.Snapshot.new th (ws.map (fun w => (w.address, 1))) = .ok snap →
      a ∈ snap.participants.keys := by
    intro th snap hs
    obtain ⟨_, _, _, _, hp⟩ := Std.Snapshot.new_ok hs
    rw [hp]
    have hm : (a, 1) ∈ OMap.ofList (ws.map (fun w => (w.address, 1))) := by
      refine (Prover.mem_ofList ?_ _).mpr (List.mem_map.mpr ⟨x, h2, by rw [h3]⟩)
      intro p hp q hq hpq
      obtain ⟨_, _, rfl⟩ := List.mem_map.mp hp
      obtain ⟨_, _, rfl⟩ := List.mem_map.mp hq
      simp only at hpq
      rw [hpq]
    exact List.mem_map_of_mem (f := Prod.fst) hm
  unfold VV.exec at hx
  split at hx
  · obtain ⟨_, _, _, _, _, _, _, _, hr⟩ := VV.verifyMessages_ok hx
    rcases hr with ⟨_, _, hr⟩ | ⟨_, ws', snap, confs, k1, k2, _, hr, _⟩
    · rw [hr] at hev; simp at hev
    · rw [g4] at k1
      simp only [Option.some.injEq] at k1
      subst k1
      rw [hr] at hev
      rcases hev with ⟨_, h⟩ | ⟨_, _, _, h⟩
      · simp only [Option.some.injEq, VV.Event.messagesPollStarted.injEq] at h
        rw [← h.2]
        exact hsnap _ _ k2
      · simp at h
  · obtain ⟨sp, p, _, _, _, rfl⟩ := VV.vote_ok hx
    simp at hev
  · obtain ⟨sp, p, _, _, _, rfl⟩ := VV.endPoll_ok hx
    simp at hev
  · obtain ⟨_, ws', snap, tx, n, k1, k2, _, rfl, _⟩ := VV.verifyWorkerSet_ok hx
    rw [g4] at k1
    simp only [Option.some.injEq] at k1
    subst k1
    rcases hev with ⟨_, h⟩ | ⟨_, _, _, h⟩
    · simp at h
    · simp only [Option.some.injEq, VV.Event.workerSetPollStarted.injEq] at h
      rw [← h.2.2.2]
      exact hsnap _ _ k2

/-- C90: If there is no worker set yet, and a worker that has joined (and whoever else is active) has a key, the worker is
a member of the set that anyone can install, with weight one and its key. -/
theorem C90_first_set (P : Params) (setup : Setup) (txs : List Tx) (Q : Addr) (pc : Prover.Config) (sv : Str)
    (hQ : setup Q = some (.prover pc sv .ecdsa)) (n d : Nat)
    (hth : Std.MajorityThreshold.ofPair n d = .ok pc.signingThreshold) (gov : Addr) (mc : Multisig.Config)
    (hR : setup pc.serviceRegistry = some (.registry gov))
    (hM : setup pc.multisig = some (.multisig mc)) (tx : Tx) (hsend : Sends setup tx Q .updateWorkerSet)
    (hheight : tx.block.height ≤ u64Max) (hnone : currentSet (worldAfter P setup txs) Q = none) (a : Addr) (key : Bytes)
    (hj : Joined (log P setup txs) pc.serviceRegistry pc.multisig sv pc.chainName a key)
    (hall : ∀ ws, askWorkers (worldAfter P setup txs) pc.serviceRegistry sv pc.chainName = some ws →
      ws.length ≤ u256Max ∧ ∀ x ∈ ws, ∃ k, askKey (worldAfter P setup txs) pc.multisig .ecdsa x.address = .ok k) :
    ∃ ws, Installs P (worldAfter P setup txs) tx Q pc ws ∧ (a, ⟨a, 1, .ecdsa key⟩) ∈ ws.signers := by
  obtain ⟨⟨workers, x, h1, h2, h3⟩, h4⟩ := joined_listed (inv P setup txs) hR hM hj
  obtain ⟨ws, g1, g2⟩ := C86_first P setup txs Q pc sv .ecdsa hQ n d hth mc hM tx hsend hheight hnone workers h1
    (List.ne_nil_of_mem h2) (hall _ h1).1 (hall _ h1).2
  exact ⟨ws, g2, (g1.signers a _).mpr ⟨⟨x, h2, h3⟩, rfl, rfl, h4⟩⟩

/-- C90: The bond command is accepted whenever the service exists, the coin has its denomination and is not zero, and the
sum with what the worker already has at stake fits. -/
theorem C90_bond_accepted (P : Params) (setup : Setup) (txs : List Tx) (R gov : Addr)
    (hR : setup R = some (.registry gov)) {A B : Type} (L : Lib) (cfg : DaemonCfg) (hcR : cfg.serviceRegistry = R)
    (T : Tofnd A B) (saved : Option Bytes) (n denom : Str) (amount : Nat) (t : CmdTx)
    (h : Ampd.bondWorker L T saved cfg n amount denom = .ok t) (sv : Registry.Service)
    (hsv : ServiceRegistered (log P setup txs) R n sv) (hd : sv.denom = denom) (hpos : 0 < amount)
    (hroom : Registry.stakeOf (Registry.stateAfter gov (registryCalls R (log P setup txs))) n t.sender + amount ≤ u128Max)
    (tx : Tx) (htx : Carries setup tx t) :
    ∃ w' es, exec P (worldAfter P setup txs) tx = .ok (w', es) ∧ ∃ e ∈ es, e.p = cmdPending t := by
  have hi := inv P setup txs
  have hS := service_registered hi hR hsv
  obtain ⟨a, rfl⟩ : ∃ a, t = ⟨a, R, [(denom, amount)], .registry (.bondWorker n)⟩ := by
    unfold Ampd.bondWorker at h
    split at h
    · simp at h
    · split at h
      · simp at h
      · simp only [Except.ok.injEq] at h
        exact ⟨_, by rw [← h, hcR]⟩
  have hx : ∃ s' r, Registry.exec (Registry.stateAfter gov (registryCalls R (log P setup txs)))
      ⟨tx.sender, [(denom, amount)], tx.block.time, .bondWorker n⟩ = .ok (s', r) := by
    simp only at hroom
    rw [htx.sender]
    simp only [Registry.exec, Registry.bondWorker, hS, Registry.bondOf, hd, List.cons_ne_nil, if_false,
      List.find?_cons, decide_true]
    unfold Registry.stakeOf at hroom
    cases hf : Registry.findWorker (Registry.stateAfter gov (registryCalls R (log P setup txs))) n a with
    | none => exact ⟨_, _, rfl⟩
    | some w =>
      rw [hf] at hroom
      simp only at hroom ⊢
      cases hb : w.bonding with
      | unbonded => simp only [Registry.BondingState.addBond]; rw [if_neg (by omega)]; exact ⟨_, _, rfl⟩
      | _ =>
        rw [hb] at hroom
        simp only [Registry.BondingState.amount] at hroom
        simp only [Registry.BondingState.addBond]
        rw [if_neg (by omega), if_neg (by omega)]
        exact ⟨_, _, rfl⟩
  obtain ⟨s', r, hx⟩ := hx
  have := exec_registry hR htx.msgs (by rw [htx.sender]; exact htx.outside) htx.gas hx
  rw [htx.sender] at this
  exact this

/-- C90: The declare command is accepted once the worker has bonded for the service or governance has named it. -/
theorem C90_declare_accepted (P : Params) (setup : Setup) (txs : List Tx) (R gov : Addr)
    (hR : setup R = some (.registry gov)) {A B : Type} (L : Lib) (cfg : DaemonCfg) (hcR : cfg.serviceRegistry = R)
    (T : Tofnd A B) (saved : Option Bytes) (n : Str) (chains : List ChainName) (t : CmdTx)
    (h : Ampd.declareChainSupport L T saved cfg n chains = .ok t)
    (hknown : ∃ e ∈ log P setup txs, e.p.target = R ∧ ((e.p.sender = t.sender ∧ e.p.msg = .registry (.bondWorker n)) ∨
      ∃ ws, t.sender ∈ ws ∧ (e.p.msg = .registry (.authorizeWorkers ws n) ∨
        e.p.msg = .registry (.unauthorizeWorkers ws n))))
    (tx : Tx) (htx : Carries setup tx t) :
    ∃ w' es, exec P (worldAfter P setup txs) tx = .ok (w', es) ∧ ∃ e ∈ es, e.p = cmdPending t := by
  have hi := inv P setup txs
  obtain ⟨a, rfl⟩ : ∃ a, t = ⟨a, R, [], .registry (.declareChainSupport n chains)⟩ := by
    unfold Ampd.declareChainSupport at h
    split at h
    · simp at h
    · simp only [Except.ok.injEq] at h
      exact ⟨_, by rw [← h, hcR]⟩
  simp only at hknown
  have hI := hi.registry_stands hR (done := fun p => p.target = R ∧ ((p.sender = a ∧ p.msg = .registry (.bondWorker n)) ∨
      ∃ ws, a ∈ ws ∧ (p.msg = .registry (.authorizeWorkers ws n) ∨ p.msg = .registry (.unauthorizeWorkers ws n))))
    (undone := fun _ => False)
    (I := fun s => (∃ sv, Registry.findService s.services n = some sv) ∧ ∃ w, Registry.findWorker s n a = some w)
    (fun p hp => hp.1) (by
      rintro s t snd funds m s' r _ hx ⟨_, hm⟩
      rcases hm with ⟨hs, hm⟩ | ⟨ws, hmem, hm⟩
      · simp only [Msg.registry.injEq] at hs hm
        subst hs hm
        simp only [Registry.exec] at hx
        obtain ⟨sv, h1, _, rfl, _⟩ := Registry.bond_ok hx
        exact ⟨⟨sv, h1⟩, _, Registry.findWorker_save_self ..⟩
      · simp only [Msg.registry.injEq] at hm
        have : ∃ x, Registry.updateAuth s ws n x = .ok (s', r) := by
          rcases hm with rfl | rfl <;>
          · simp only [Registry.exec] at hx
            split at hx
            · simp at hx
            · exact ⟨_, hx⟩
        obtain ⟨x, hy⟩ := this
        obtain ⟨sv, h1, _, rfl⟩ := Registry.updateAuth_ok hy
        refine ⟨⟨sv, by rw [(Registry.foldAuth n x ws s).1]; exact h1⟩, ?_⟩
        rw [(Registry.foldAuth n x ws s).2.2.2 n a, if_pos ⟨rfl, hmem⟩]
        exact ⟨_, rfl⟩) (by
      rintro s t snd funds m s' r _ hx _ ⟨⟨sv, h1⟩, w, h2⟩
      exact ⟨⟨sv, Registry.keep_service hx h1⟩, Registry.keep_worker hx h2⟩) (by
      obtain ⟨e, he, hh⟩ := hknown
      obtain ⟨l₁, l₂, hl⟩ := List.append_of_mem he
      exact ⟨l₁, e, l₂, hl, hh, fun _ _ h => h⟩)
  obtain ⟨⟨sv, h1⟩, w, h2⟩ := hI
  have hx : ∃ s' r, Registry.exec (Registry.stateAfter gov (registryCalls R (log P setup txs)))
      ⟨tx.sender, [], tx.block.time, .declareChainSupport n chains⟩ = .ok (s', r) := by
    rw [htx.sender]
    simp only [Registry.exec, Registry.declareChains, h1, h2]
    exact ⟨_, _, rfl⟩
  obtain ⟨s', r, hx⟩ := hx
  have := exec_registry hR htx.msgs (by rw [htx.sender]; exact htx.outside) htx.gas hx
  rw [htx.sender] at this
  exact this

/-- C90: The register command is accepted. -/
theorem C90_register_accepted (P : Params) (setup : Setup) (txs : List Tx) (M : Addr) (mc : Multisig.Config)
    (hM : setup M = some (.multisig mc)) {A B : Type} (L : Lib) (cfg : DaemonCfg)
    (hcM : multisigAddress cfg.handlers = some M) (T : Tofnd A B) (saved : Option Bytes) (t : CmdTx)
    (h : Ampd.registerPublicKey L T saved cfg = .ok t) (tx : Tx) (htx : Carries setup tx t) :
    ∃ w' es, exec P (worldAfter P setup txs) tx = .ok (w', es) ∧ ∃ e ∈ es, e.p = cmdPending t := by
  unfold Ampd.registerPublicKey at h
  split at h
  · simp at h
  · rename_i k hk
    simp only [hcM] at h
    split at h
    · simp at h
    · rename_i pk hpk
      simp only [Except.ok.injEq] at h
      subst h
      have hpk' : Multisig.PublicKey.tryFrom .ecdsa pk.bytes = .ok pk := by
        rw [(Multisig.key_ok.mp hpk).2.2]; exact hpk
      have := exec_registerKey (P := P) (txs := txs) hM htx.msgs (by rw [htx.sender]; exact htx.outside) htx.gas hpk'
      rw [htx.sender] at this
      exact this

end Amp.Chain
