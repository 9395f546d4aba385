import Verif.Ampd.Commands
import Verif.Ampd.SigningProps

/-!
# C91: workers that registered their key with the command of the daemon, and the signing handler
-/

namespace Amp.Ampd.Signing

open Amp.Encoding (Bytes)
open Amp.Multisig (PublicKey Signature WorkerSet Crypto Call State Resp)

/-! ### Specification -/

variable {A B : Type}

/-- the key manager, with the mnemonics that it holds at some time -/
abbrev withMnemonics (T : Tofnd A B) (ms : List A) : Tofnd A B := { T with mnemonics := ms }

/-- The worker with this key manager and configuration registered `b` with the command of the daemon.  (A key in the state
file comes from an earlier start of the daemon or of a command.) -/
def Registers (L : Lib) (T : Tofnd A B) (cfg : DaemonCfg) (b : Bytes) : Prop :=
  ∃ ms saved t, (∀ k, saved = some k → ∃ ms', (withMnemonics T ms').keygen cfg.keyUid = some k) ∧
    registerPublicKey L (withMnemonics T ms) saved cfg = .ok t ∧ t.msg = .multisig (.registerPublicKey .ecdsa b)

/-- no key under the one id is a key under the other, whatever the mnemonics -/
def KeysApart (T : Tofnd A B) (u u' : Str) : Prop := ∀ m m', T.pub (T.derive m u) ≠ T.pub (T.derive m' u')

/-- what the signing handler can do with an event, over all mnemonics of its key manager and replies of the queue -/
def daemonCan (L : Lib) (T : Tofnd A B) (R : Reader) (H : Handler) (e : Event (Abci (Addr × Multisig.Event)))
    (o : Outcome) : Prop :=
  ∃ ms accepted, o = handle (readSigning R) H (signingEnv L (withMnemonics T ms) accepted) e

/-! ### Helper lemmas -/

theorem registers_key {L : Lib} {T : Tofnd A B} {cfg : DaemonCfg} {b : Bytes} (h : Registers L T cfg b) :
    ∃ m, T.pub (T.derive m cfg.keyUid) = b := by
  obtain ⟨ms, saved, t, h1, h2, h3⟩ := h
  have gen : ∀ {ms : List A} {k : Bytes}, (withMnemonics T ms).keygen cfg.keyUid = some k →
      ∃ m, T.pub (T.derive m cfg.keyUid) = k := by
    intro ms k hk
    unfold Tofnd.keygen at hk
    simp only [Option.map_eq_some_iff] at hk
    obtain ⟨m, _, hm⟩ := hk
    exact ⟨m, hm⟩
  unfold registerPublicKey at h2
  split at h2
  · simp at h2
  · rename_i k hk
    split at h2
    · simp at h2
    · split at h2
      · simp at h2
      · rename_i pk hpk
        simp only [Except.ok.injEq] at h2
        subst h2
        simp only [CmdMsg.multisig.injEq, Multisig.Msg.registerPublicKey.injEq, true_and] at h3
        rw [(Multisig.key_ok.mp hpk).2.2] at h3
        subst h3
        unfold workerKey at hk
        split at hk
        · rename_i k' 
          simp only [Option.some.injEq] at hk
          subst hk
          obtain ⟨ms', h⟩ := h1 _ rfl
          exact gen h
        · exact gen hk

theorem signFor_none {T : Tofnd A B} {u u' : Str} (hap : KeysApart T u u') (m : A) (ms : List A) (d : Bytes) :
    (withMnemonics T ms).signFor u' d (T.pub (T.derive m u)) = none := by
  unfold Tofnd.signFor
  rw [Option.map_eq_none_iff, List.find?_eq_none]
  intro m' _
  simp only [decide_eq_true_eq]
  exact fun h => hap m m' h.symm

/-! ### C91 -/

/-- C91: When a session is announced that lists the worker with the key that it registered with the command, and the key id
in the configuration is the text of the address of the multisig contract, the daemon submits a signature that is valid
under that key.  (The key manager still holds the mnemonic, and what it signs is valid.)

Missing: other key ids, for which this is false (`C91_never_signs`, `C91_counterexample`). -/
theorem C91_signs_partial (C : Crypto) (L : Lib) (T : Tofnd A B) (cfg : DaemonCfg) (R : Reader) (H : Handler) (ms : List A)
    (accepted : Bool) (b : Bytes) (hreg : Registers L T cfg b)
    (hheld : ∀ m, T.pub (T.derive m cfg.keyUid) = b → m ∈ ms)
    (hvalid : ∀ s d, ∃ sig, Signature.bytes sig = T.sign s d ∧ Multisig.Valid C d (.ecdsa (T.pub s)) sig)
    (hid : cfg.keyUid = L.text H.multisig) (id : Nat) (wid : Str) (keys : List (Addr × PublicKey)) (msg : Bytes)
    (chain : Str) (hb : IsBytes msg) (hl : msg.length = 32) (hpl : R.Plain msg)
    (hkeys : ∀ p ∈ keys, (R.key p.2).isSome) (hnd : (keys.map Prod.fst).Nodup) (hlisted : (H.worker, .ecdsa b) ∈ keys)
    (hR : R.key (.ecdsa b) = some b) :
    ∃ sig, Multisig.Valid C msg (.ecdsa b) sig ∧
      (handle (readSigning R) H (signingEnv L (withMnemonics T ms) accepted)
        (.abci (announced H.multisig (.signingStarted id wid keys msg chain)))).sent =
        [⟨H.worker, H.multisig, .submitSignature id sig.bytes⟩] := by
  obtain ⟨m, hpub⟩ := registers_key hreg
  have hm := hheld m hpub
  obtain ⟨m', hf⟩ : ∃ m', ms.find? (fun m => decide (T.pub (T.derive m (L.text H.multisig)) = b)) = some m' := by
    rw [← Option.isSome_iff_exists, List.find?_isSome]
    exact ⟨m, hm, by rw [← hid]; exact decide_eq_true hpub⟩
  have hb' : T.pub (T.derive m' (L.text H.multisig)) = b := by simpa using List.find?_some hf
  obtain ⟨sig, hs1, hs2⟩ := hvalid (T.derive m' (L.text H.multisig)) msg
  rw [hb'] at hs2
  refine ⟨sig, hs2, (C77_submits R H _ id wid keys msg chain hb hl hpl hkeys hnd (.ecdsa b) b sig.bytes hlisted hR ?_).1⟩
  unfold signingEnv Tofnd.signFor
  simp only [hf, Option.map_some, hs1]

/-- C91, negation: if the key id in the configuration is another one, such that keys under the two ids differ, the daemon
of a worker that registered its keys with the command never submits a signature. -/
theorem C91_never_signs (L : Lib) (T : Tofnd A B) (cfg : DaemonCfg) (R : Reader) (H : Handler)
    (hap : KeysApart T cfg.keyUid (L.text H.multisig)) (hR : ∀ b k, R.key (.ecdsa b) = some k → k = b) (x : Addr)
    (ev : Multisig.Event)
    (hkeys : ∀ id wid keys msg chain, ev = .signingStarted id wid keys msg chain → ∀ pk, (H.worker, pk) ∈ keys →
      ∃ b, pk = .ecdsa b ∧ Registers L T cfg b) (o : Outcome)
    (ho : daemonCan L T R H (.abci (announced x ev)) o) : o.sent = [] := by
  obtain ⟨ms, accepted, rfl⟩ := ho
  unfold handle tryFrom
  split
  · rfl
  · rfl
  · rename_i s hs
    simp only at hs
    split at hs
    · split at hs
      · simp at hs
      · rename_i s' hs'
        simp only [Decoded.ok.injEq] at hs
        subst hs
        obtain ⟨id, wid, keys, msg, chain, ks, rfl, hks, _, _, _, _, hp⟩ := readSigning_some hs'
        split
        · rfl
        · split
          · rfl
          · rename_i key hkey
            rw [hp] at hkey
            obtain ⟨pk, h1, h2⟩ := readKeys_mem hks (lastWith_mem hkey)
            obtain ⟨b, rfl, hreg⟩ := hkeys _ _ _ _ _ rfl pk h1
            rw [hR _ _ h2]
            obtain ⟨m, hm⟩ := registers_key hreg
            have : (signingEnv L (withMnemonics T ms) accepted).sign H.multisig s'.msg b = none := by
              rw [← hm]; exact signFor_none hap m ms _
            rw [this]
            rfl
    · simp at hs

/-- C91, negation: worse, such a daemon is stopped for good by the first session of its contract that lists the worker:
in no history of runs does the signing handler get past the block with the announcement. -/
theorem C91_stalls {X : Type} (W : World X (Abci (Addr × Multisig.Event))) (L : Lib) (T : Tofnd A B) (cfg : DaemonCfg)
    (R : Reader) (H : Handler) (hap : KeysApart T cfg.keyUid (L.text H.multisig))
    (hR : ∀ b k, R.key (.ecdsa b) = some k → k = b) (l : Label) (rs : List Run) (h : Sane W l [] rs)
    (hf : EachRun W (fun f r => Faithful W (daemonCan L T R H) f r l) [] rs) (n : Nat) (r : X) (id : Nat) (wid : Str)
    (keys : List (Addr × PublicKey)) (msg : Bytes) (chain : Str) (hr : r ∈ contents (W.chain n))
    (hd : W.decode r = some (announced H.multisig (.signingStarted id wid keys msg chain)))
    (hlisted : ∃ pk, (H.worker, pk) ∈ keys)
    (hkeys : ∀ pk, (H.worker, pk) ∈ keys → ∃ b, pk = .ecdsa b ∧ Registers L T cfg b) :
    n ∉ durableAcks W l [] rs ∧
      ∀ first ∈ (durableAcks W l [] rs).head?, first < n → ∀ c ∈ (fileAfterAll W rs).get? l, c < n := by
  refine C70_stall W _ l rs h hf n ⟨r, _, hr, hd, ?_⟩
  rintro o ⟨ms, accepted, rfl⟩ hs
  cases hrd : readSigning R (H.multisig, .signingStarted id wid keys msg chain) with
  | none =>
    have : tryFrom "wasm-signing_started".toList (readSigning R)
        (.abci (announced H.multisig (.signingStarted id wid keys msg chain))) = .malformed := by
      unfold tryFrom
      dsimp only
      rw [if_pos (by rfl)]
      simp only [announced, hrd]
    unfold handle at hs
    rw [this] at hs
    simp [Outcome.failed, Outcome.succeeded] at hs
  | some s =>
    have htry := tryFrom_ok (deser := readSigning R) (s := s)
      (a := announced H.multisig (.signingStarted id wid keys msg chain)) (ty := "wasm-signing_started".toList) rfl hrd
    unfold handle at hs
    rw [htry] at hs
    obtain ⟨id', wid', keys', msg', chain', ks, hev, hks, _, _, hc, _, hp⟩ := readSigning_some hrd
    simp only [Multisig.Event.signingStarted.injEq] at hev
    obtain ⟨rfl, rfl, rfl, rfl, rfl⟩ := hev
    simp only [hc, hp, ne_eq, not_true_eq_false, if_false] at hs
    cases hlw : lastWith H.worker ks with
    | none =>
      obtain ⟨pk, hpk⟩ := hlisted
      have hk := readAll_some hks
      have : readKey R (H.worker, pk) ∈ ks.map some := by rw [← hk]; exact List.mem_map_of_mem hpk
      obtain ⟨⟨a, k⟩, hmem, heq⟩ := List.mem_map.mp this
      unfold readKey at heq
      split at heq
      · simp at heq
      · simp only [Option.some.injEq, Prod.mk.injEq] at heq
        obtain ⟨rfl, _⟩ := heq
        exact lastWith_none hlw k hmem
    | some key =>
      obtain ⟨pk, h1, h2⟩ := readKeys_mem hks (lastWith_mem hlw)
      obtain ⟨b, rfl, hreg⟩ := hkeys pk h1
      obtain ⟨m, hm⟩ := registers_key hreg
      have : (signingEnv L (withMnemonics T ms) accepted).sign H.multisig s.msg key = none := by
        rw [hR _ _ h2, ← hm]; exact signFor_none hap m ms _
      simp [hlw, this, Outcome.failed, Outcome.succeeded] at hs

/-- C91, negation: if all members of the worker sets registered their keys like that, and submit what their daemons send,
no signing session is ever completed. -/
theorem C91_no_session_completes (C : Crypto) (idOf : WorkerSet → Str) (mcfg : Multisig.Config) (cs : List Call) (M : Addr)
    (L : Lib) (R : Reader) (hR : ∀ b k, R.key (.ecdsa b) = some k → k = b) (T : Addr → Tofnd A B)
    (cfg : Addr → DaemonCfg) (hap : ∀ a, KeysApart (T a) (cfg a).keyUid (L.text M))
    (hkeys : ∀ id wid keys msg chain, Announced (Multisig.trace C idOf mcfg cs) id wid keys msg chain →
      ∀ a pk, (a, pk) ∈ keys → ∃ b, pk = .ecdsa b ∧ Registers L (T a) (cfg a) b)
    (hsub : ∀ id a b, Multisig.Submitted (Multisig.trace C idOf mcfg cs) id a b → ∃ wid keys msg chain,
      Announced (Multisig.trace C idOf mcfg cs) id wid keys msg chain ∧ ∃ o,
      daemonCan L (T a) R ⟨a, M⟩ (.abci (announced M (.signingStarted id wid keys msg chain))) o ∧
      ⟨a, M, .submitSignature id b⟩ ∈ o.sent) (id : Nat) (m : Multisig.Multisig)
    (hm : Multisig.getMultisig (Multisig.stateAfter C idOf mcfg cs) id = some m) : m.state = .pending := by
  have hno : ∀ id a b, ¬ Multisig.Submitted (Multisig.trace C idOf mcfg cs) id a b := by
    intro id a b h
    obtain ⟨wid, keys, msg, chain, h1, o, h2, h3⟩ := hsub id a b h
    have := C91_never_signs L (T a) (cfg a) R ⟨a, M⟩ (hap a) hR M _ (by
      intro id' wid' keys' msg' chain' hev pk hpk
      simp only [Multisig.Event.signingStarted.injEq] at hev
      obtain ⟨rfl, rfl, rfl, rfl, rfl⟩ := hev
      exact hkeys _ _ _ _ _ h1 a pk hpk) o h2
    rw [this] at h3
    simp at h3
  have hp : ∀ id se, (Multisig.stateAfter C idOf mcfg cs).sessions id = some se → se.state = .pending := by
    have key := steps_inv (Multisig.exec C idOf) (P := fun log s => (∃ id a b, Multisig.Submitted log id a b) ∨
      ∀ id se, s.sessions id = some se → se.state = .pending) (Multisig.init mcfg)
      (Or.inr (by intro id se h; simp [Multisig.init] at h)) ?_ cs
    · rcases key with ⟨i, a, b, h⟩ | h
      · exact absurd h (hno i a b)
      · exact h
    · rintro log s c s' r hP hx
      rcases hP with ⟨i, a, b, st, hst, h⟩ | hP
      · exact Or.inl ⟨i, a, b, st, List.mem_append_left _ hst, h⟩
      rcases Multisig.exec_ok hx with ⟨wid, msg, chain, ok, _, h⟩ | ⟨i, b, hmsg, _⟩ | ⟨_, _, _, _, rfl, _⟩ |
        ⟨_, _, _, _, _, rfl, _⟩ | ⟨_, _, _, rfl, _⟩ | ⟨_, _, _, rfl, _⟩
      · obtain ⟨_, _, _, _, ws, _, rfl, _⟩ := Multisig.start_ok.mp h
        refine Or.inr ?_
        intro i se hse
        simp only at hse
        by_cases hi : i = s.counter + 1
        · subst hi
          rw [KV.set_self] at hse
          simp only [Option.some.injEq] at hse
          rw [← hse]
        · rw [KV.set_ne _ _ hi] at hse
          exact hP i se hse
      · exact Or.inl ⟨i, c.sender, b, _, List.mem_append_right _ (List.mem_singleton.mpr rfl), rfl, hmsg⟩
      all_goals exact Or.inr hP
  unfold Multisig.getMultisig at hm
  split at hm
  · simp at hm
  · rename_i se hse
    split at hm
    · simp at hm
    · simp only [Option.some.injEq] at hm
      subst hm
      exact hp id se hse

/-! ### A concrete case -/

/-- a toy key manager: mnemonics are numbers, and the key id shows from the second byte on -/
def cmdTofnd : Tofnd Nat (Nat × Str) where
  mnemonics := []
  derive m uid := (m, uid)
  pub k := k.1 :: List.replicate 32 (if k.2 = "axelar".toList then k.1 else k.1 + 1)
  sign k _ := List.replicate 64 k.1

def cmdLib : Lib where
  account k := k.headD 0 + 20
  denom _ := true
  text a := "axelar1".toList ++ showNat a

/-- the default key id (`ampd/src/tofnd/mod.rs:20-28`); the multisig contract is 18 -/
def cmdCfg : DaemonCfg := ⟨"axelar".toList, 11, [.multisig 18]⟩

/-- the address as key id -/
def cmdCfg' : DaemonCfg := { cmdCfg with keyUid := "axelar118".toList }

theorem cmdApart : KeysApart cmdTofnd cmdCfg.keyUid (cmdLib.text 18) := by
  intro m m' h
  have h1 : ("axelar1".toList ++ showNat 18 = "axelar".toList) = False := by decide +kernel
  simp only [cmdTofnd, cmdCfg, cmdLib, if_true, List.cons.injEq, h1, if_false] at h
  obtain ⟨rfl, h⟩ := h
  have := congrArg List.head? h
  simp [List.replicate] at this

theorem cmdRegisters (n : Nat) : Registers cmdLib cmdTofnd cmdCfg (n :: List.replicate 32 n) :=
  ⟨[n], none, ⟨n + 20, 18, [], .multisig (.registerPublicKey .ecdsa (n :: List.replicate 32 n))⟩, by simp, rfl, rfl⟩

theorem cmdRegisters' (n : Nat) : Registers cmdLib cmdTofnd cmdCfg' (n :: List.replicate 32 (n + 1)) :=
  ⟨[n], none, ⟨n + 20, 18, [], .multisig (.registerPublicKey .ecdsa (n :: List.replicate 32 (n + 1)))⟩, by simp, rfl, rfl⟩

/-- two workers register with the command, become a set, and are asked to sign -/
def cmdCalls : List Call := [
  ⟨21, 1, .registerPublicKey .ecdsa (List.replicate 33 1)⟩,
  ⟨22, 1, .registerPublicKey .ecdsa (List.replicate 33 2)⟩,
  ⟨9, 1, .registerWorkerSet ⟨[(21, ⟨21, 1, .ecdsa, List.replicate 33 1⟩), (22, ⟨22, 1, .ecdsa, List.replicate 33 2⟩)],
    2, 1⟩⟩,
  ⟨1, 1, .authorizeCaller 30⟩,
  ⟨30, 2, .startSigningSession "1".toList (List.replicate 32 7) "eth".toList true⟩]

def cmdKeys : List (Addr × PublicKey) := [(21, .ecdsa (List.replicate 33 1)), (22, .ecdsa (List.replicate 33 2))]

/-- takes strings and keys as they are -/
def cmdReader : Reader where
  attr := some
  key := fun
    | .ecdsa b => some b
    | .ed25519 b => some b

theorem cmdReader_key (b k : Bytes) (h : cmdReader.key (.ecdsa b) = some k) : k = b := by
  simp only [cmdReader, Option.some.injEq] at h
  exact h.symm

/-- C91 is false: a worker registers its key with the command and the default configuration, a session lists it, the key
manager still holds the mnemonic; the handler sends nothing and ends with an error. -/
theorem C91_counterexample :
    Registers cmdLib cmdTofnd cmdCfg (List.replicate 33 2) ∧
    Announced (Multisig.trace Multisig.exCrypto Multisig.exId Multisig.exCfg cmdCalls) 1 "1".toList cmdKeys
      (List.replicate 32 7) "eth".toList ∧ (22, .ecdsa (List.replicate 33 2)) ∈ cmdKeys ∧
    (handle (readSigning cmdReader) ⟨22, 18⟩ (signingEnv cmdLib (withMnemonics cmdTofnd [2]) true)
      (.abci (announced 18 (.signingStarted 1 "1".toList cmdKeys (List.replicate 32 7) "eth".toList)))) =
      .failed .sign := by
  refine ⟨cmdRegisters 2, ⟨_, List.mem_of_getElem? (i := 4) rfl, List.mem_singleton.mpr rfl⟩, by decide, ?_⟩
  rfl

/-- the hypotheses of `C91_signs_partial` hold -/
example : ∃ sig, Multisig.Valid Multisig.exCrypto (List.replicate 32 7) (.ecdsa (2 :: List.replicate 32 3)) sig ∧
    (handle (readSigning cmdReader) ⟨22, 18⟩ (signingEnv cmdLib (withMnemonics cmdTofnd [5, 2]) true)
      (.abci (announced 18 (.signingStarted 1 "1".toList [(22, .ecdsa (2 :: List.replicate 32 3))] (List.replicate 32 7)
        "eth".toList)))).sent = [⟨22, 18, .submitSignature 1 sig.bytes⟩] := by
  refine C91_signs_partial Multisig.exCrypto cmdLib cmdTofnd cmdCfg' cmdReader ⟨22, 18⟩ [5, 2] true _ (cmdRegisters' 2) ?_
    ?_ (by decide +kernel) 1 _ _ _ _ (by unfold IsBytes; decide) (by decide) rfl (by decide) (by decide) (by decide) rfl
  · intro m hm
    simp only [cmdTofnd, List.cons.injEq] at hm
    simp [hm.1]
  · intro s d
    refine ⟨.ecdsa (List.replicate 64 s.1), rfl, ?_⟩
    simp [Multisig.Valid, Multisig.exCrypto, cmdTofnd, List.replicate]

/-- the hypotheses of `C91_never_signs` and `C91_no_session_completes` hold -/
example : ∃ m, Multisig.getMultisig (Multisig.stateAfter Multisig.exCrypto Multisig.exId Multisig.exCfg cmdCalls) 1 =
    some m ∧ m.state = .pending := by
  obtain ⟨m, hm⟩ : ∃ m, Multisig.getMultisig (Multisig.stateAfter Multisig.exCrypto Multisig.exId Multisig.exCfg
    cmdCalls) 1 = some m := ⟨_, rfl⟩
  refine ⟨m, hm, C91_no_session_completes Multisig.exCrypto Multisig.exId Multisig.exCfg cmdCalls 18 cmdLib cmdReader
    cmdReader_key (fun _ => cmdTofnd) (fun _ => cmdCfg) (fun _ => cmdApart) ?_ ?_ 1 m hm⟩
  · rintro id wid keys msg chain ⟨st, hst, hev⟩ a pk hpk
    have key : (Multisig.trace Multisig.exCrypto Multisig.exId Multisig.exCfg cmdCalls).all (fun st =>
        st.resp.events.all (fun ev => match ev with
          | .signingStarted _ _ keys _ _ => decide (keys = cmdKeys)
          | _ => true)) = true := by decide +kernel
    have h := List.all_eq_true.mp (List.all_eq_true.mp key st hst) _ hev
    have h := of_decide_eq_true h
    subst h
    simp only [cmdKeys, List.mem_cons, Prod.mk.injEq, List.not_mem_nil, or_false] at hpk
    rcases hpk with ⟨_, rfl⟩ | ⟨_, rfl⟩
    · exact ⟨_, rfl, cmdRegisters 1⟩
    · exact ⟨_, rfl, cmdRegisters 2⟩
  · rintro id a b ⟨st, hst, _, h⟩
    have key : (Multisig.trace Multisig.exCrypto Multisig.exId Multisig.exCfg cmdCalls).all (fun st =>
        match st.call.msg with
          | .submitSignature .. => false
          | _ => true) = true := by decide +kernel
    have hk := List.all_eq_true.mp key st hst
    rw [h] at hk
    simp at hk

/-- block 6 contains the announcement -/
def cmdWorld : World (Abci (Addr × Multisig.Event)) (Abci (Addr × Multisig.Event)) where
  chain h := { beginBlock := none
               txs := some [[announced 18 (if h = 6 then
                 .signingStarted 1 "1".toList cmdKeys (List.replicate 32 7) "eth".toList else .signingCompleted 3 4)]]
               endBlock := none }
  decode := some

/-- the hypotheses of `C91_stalls` hold -/
example : 6 ∉ durableAcks cmdWorld 1 [] stallRuns ∧
    ∀ first ∈ (durableAcks cmdWorld 1 [] stallRuns).head?, first < 6 →
      ∀ c ∈ (fileAfterAll cmdWorld stallRuns).get? 1, c < 6 := by
  refine C91_stalls cmdWorld cmdLib cmdTofnd cmdCfg cmdReader ⟨22, 18⟩ cmdApart cmdReader_key 1 stallRuns ?_ ?_ 6
    (announced 18 (.signingStarted 1 "1".toList cmdKeys (List.replicate 32 7) "eth".toList)) 1 "1".toList cmdKeys
    (List.replicate 32 7) "eth".toList (List.mem_of_getElem? (i := 0) rfl) rfl
    ⟨.ecdsa (List.replicate 33 2), by decide⟩ ?_
  · refine ⟨⟨?_, ?_, trivial⟩, ⟨?_, ?_, trivial⟩, ?_⟩ <;> decide +kernel
  · refine ⟨faithful_of_zip (fun e => handle (readSigning cmdReader) ⟨22, 18⟩
        (signingEnv cmdLib (withMnemonics cmdTofnd [2]) true) e) (fun e => ⟨[2], true, rfl⟩) ?_,
      faithful_of_zip (fun e => handle (readSigning cmdReader) ⟨22, 18⟩
        (signingEnv cmdLib (withMnemonics cmdTofnd [2]) true) e) (fun e => ⟨[2], true, rfl⟩) ?_, trivial⟩
    · decide +kernel
    · decide +kernel
  · intro pk hpk
    simp only [cmdKeys, List.mem_cons, Prod.mk.injEq, List.not_mem_nil, or_false] at hpk
    rcases hpk with ⟨h, _⟩ | ⟨_, rfl⟩
    · simp at h
    · exact ⟨_, rfl, cmdRegisters 2⟩

example : durableAcks cmdWorld 1 [] stallRuns = [5] ∧ (fileAfterAll cmdWorld stallRuns).get? 1 = some 5 := by
  decide +kernel

end Amp.Ampd.Signing
