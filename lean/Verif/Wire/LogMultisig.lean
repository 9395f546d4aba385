import Verif.Wire.LogLemmas
import Verif.Wire.StoreTyped
import Verif.Multisig.Lemmas

/-! # The events of a multisig contract and its storage agree -/

namespace Amp.Wire

open Amp.Encoding (Bytes)
open Amp.Router (Lowering)
open Amp.Multisig (PublicKey Signature Session KeyType WorkerSet)
open Amp.Ampd (readAll lastWith)
open Amp.Chain (Act Entry)

variable {finite : Str → Bool} {T : Texts} {L : Lowering}

/-! ### Reading -/

/-- what an event tells -/
def noticeFor : Multisig.Event → Notice
  | .signingStarted id wid keys msg _ => .started id wid keys msg
  | .signatureSubmitted id a sig => .submitted id a (signatureBytes sig)
  | .signingCompleted id h => .completed id h
  | .publicKeyRegistered a k => .key a k
  | .callerAuthorized a => .allowed a
  | .callerUnauthorized a => .disallowed a

/-- numbers are in range, binary data are bytes -/
def NoticeFits : Multisig.Event → Prop
  | .signingStarted id _ keys msg _ => id ≤ u64Max ∧ (∀ p ∈ keys, KeyFits p.2) ∧ IsBytes msg
  | .signatureSubmitted id _ sig => id ≤ u64Max ∧ IsBytes (signatureBytes sig)
  | .signingCompleted id h => id ≤ u64Max ∧ h ≤ u64Max
  | .publicKeyRegistered _ k => KeyFits k
  | _ => True

theorem read_started (l : List (Str × Str)) : noticeOf finite T "wasm-signing_started".toList l =
    ((lastWith "session_id".toList l).bind parseU64).bind (fun i => (lastWith "worker_set_id".toList l).bind (fun w =>
      (((lastWith "pub_keys".toList l).bind (fromStr finite)).bind (keysOf T)).bind (fun ks =>
        ((lastWith "msg".toList l).bind decodeHex).bind (fun m => some (.started i w ks m))))) := rfl

theorem read_submitted (l : List (Str × Str)) : noticeOf finite T "wasm-signature_submitted".toList l =
    ((lastWith "session_id".toList l).bind parseU64).bind (fun i => ((lastWith "participant".toList l).bind T.parse).bind
      (fun a => ((lastWith "signature".toList l).bind decodeHex).bind (fun s => some (.submitted i a s)))) := rfl

theorem read_completed (l : List (Str × Str)) : noticeOf finite T "wasm-signing_completed".toList l =
    ((lastWith "session_id".toList l).bind parseU64).bind (fun i => ((lastWith "completed_at".toList l).bind parseU64).bind
      (fun h => some (.completed i h))) := rfl

theorem read_key (l : List (Str × Str)) : noticeOf finite T "wasm-public_key_registered".toList l =
    (((lastWith "worker".toList l).bind (fromStr finite)).bind (asAddr T)).bind (fun a =>
      (((lastWith "public_key".toList l).bind (fromStr finite)).bind Signing.asKey).bind (fun k => some (.key a k))) := rfl

theorem read_allowed (l : List (Str × Str)) : noticeOf finite T "wasm-caller_authorized".toList l =
    ((lastWith "contract_address".toList l).bind T.parse).map .allowed := rfl

theorem read_disallowed (l : List (Str × Str)) : noticeOf finite T "wasm-caller_unauthorized".toList l =
    ((lastWith "contract_address".toList l).bind T.parse).map .disallowed := rfl

theorem keysOf_json (hT : T.Faithful) {keys : List (Addr × PublicKey)} (hk : ∀ p ∈ keys, KeyFits p.2) :
    keysOf T (.obj (keys.map (fun p => (T.text p.1, jsonKey p.2)))) = some keys := by
  have := readAll_map (f := fun p : Str × Json => match T.parse p.1, Signing.asKey p.2 with
      | some a, some k => some (a, k)
      | _, _ => none) (g := fun p : Addr × PublicKey => (T.text p.1, jsonKey p.2)) (h := id) (l := keys)
    (fun p hp => by simp only [hT.parse_text, asKey_jsonKey (hk p hp), id])
  rw [List.map_id] at this
  exact this

theorem notice_read (hT : T.Faithful) (M : Addr) {ev : Multisig.Event} (h : NoticeFits ev) :
    (noticed T M (publishMultisig T M ev)).bind (fun x => noticeOf finite T x.1 x.2) = some (noticeFor ev) := by
  unfold publishMultisig
  rw [noticed_self _ _ (multisig_address M ev), Option.bind_some]
  cases ev with
  | signingStarted id wid keys msg chain =>
    obtain ⟨h1, h2, h3⟩ := h
    have f1 : lastWith "session_id".toList (("_contract_address".toList, T.text M) ::
      multisigAttributes T (.signingStarted id wid keys msg chain)) = some (showNat id) := rfl
    have f2 : lastWith "worker_set_id".toList (("_contract_address".toList, T.text M) ::
      multisigAttributes T (.signingStarted id wid keys msg chain)) = some wid := rfl
    have f3 : lastWith "pub_keys".toList (("_contract_address".toList, T.text M) ::
      multisigAttributes T (.signingStarted id wid keys msg chain)) =
      some (Json.obj (keys.map (fun p => (T.text p.1, jsonKey p.2)))).render := rfl
    have f4 : lastWith "msg".toList (("_contract_address".toList, T.text M) ::
      multisigAttributes T (.signingStarted id wid keys msg chain)) = some (encodeHex msg) := rfl
    have hf : (Json.obj (keys.map (fun p => (T.text p.1, jsonKey p.2)))).Fits 128 := by
      simp only [Json.Fits]
      exact ⟨by omega, fitsFields_map (fun p _ => fits_key p.2 127 (by omega))⟩
    refine (read_started _).trans ?_
    rw [f1, f2, f3, f4]
    simp only [Option.bind_some, parseU64_showNat h1, fromStr_render finite hf, keysOf_json hT h2, decodeHex_encodeHex h3]
    rfl
  | signatureSubmitted id a sig =>
    obtain ⟨h1, h2⟩ := h
    have f1 : lastWith "session_id".toList (("_contract_address".toList, T.text M) ::
      multisigAttributes T (.signatureSubmitted id a sig)) = some (showNat id) := rfl
    have f2 : lastWith "participant".toList (("_contract_address".toList, T.text M) ::
      multisigAttributes T (.signatureSubmitted id a sig)) = some (T.text a) := rfl
    have f3 : lastWith "signature".toList (("_contract_address".toList, T.text M) ::
      multisigAttributes T (.signatureSubmitted id a sig)) = some (encodeHex (signatureBytes sig)) := rfl
    refine (read_submitted _).trans ?_
    rw [f1, f2, f3]
    simp only [Option.bind_some, parseU64_showNat h1, hT.parse_text, decodeHex_encodeHex h2]
    rfl
  | signingCompleted id hh =>
    obtain ⟨h1, h2⟩ := h
    have f1 : lastWith "session_id".toList (("_contract_address".toList, T.text M) ::
      multisigAttributes T (.signingCompleted id hh)) = some (showNat id) := rfl
    have f2 : lastWith "completed_at".toList (("_contract_address".toList, T.text M) ::
      multisigAttributes T (.signingCompleted id hh)) = some (showNat hh) := rfl
    refine (read_completed _).trans ?_
    rw [f1, f2]
    simp only [Option.bind_some, parseU64_showNat h1, parseU64_showNat h2]
    rfl
  | publicKeyRegistered a k =>
    have f1 : lastWith "worker".toList (("_contract_address".toList, T.text M) ::
      multisigAttributes T (.publicKeyRegistered a k)) = some (Json.str (T.text a)).render := rfl
    have f2 : lastWith "public_key".toList (("_contract_address".toList, T.text M) ::
      multisigAttributes T (.publicKeyRegistered a k)) = some (jsonKey k).render := rfl
    refine (read_key _).trans ?_
    rw [f1, f2]
    simp only [Option.bind_some, fromStr_render finite (j := .str (T.text a)) (by simp [Json.Fits]),
      fromStr_render finite (fits_key k 128 (by omega)), asAddr, asStr_str, hT.parse_text, asKey_jsonKey h]
    rfl
  | callerAuthorized a =>
    have f1 : lastWith "contract_address".toList (("_contract_address".toList, T.text M) ::
      multisigAttributes T (.callerAuthorized a)) = some (T.text a) := rfl
    refine (read_allowed _).trans ?_
    rw [f1, Option.bind_some, hT.parse_text]
    rfl
  | callerUnauthorized a =>
    have f1 : lastWith "contract_address".toList (("_contract_address".toList, T.text M) ::
      multisigAttributes T (.callerUnauthorized a)) = some (T.text a) := rfl
    refine (read_disallowed _).trans ?_
    rw [f1, Option.bind_some, hT.parse_text]
    rfl

/-- the events of a call of a multisig contract -/
def signingEvents : Act → List Multisig.Event
  | .multisig _ r => r.events
  | _ => []

/-- the events of the multisig contract at `M` are read back -/
theorem multisig_news (hT : T.Faithful) (M : Addr) (l : List Entry)
    (h : ∀ e ∈ l, e.p.target = M → ∃ c r, e.act = .multisig c r ∧ ∀ ev ∈ r.events, NoticeFits ev) :
    multisigNews finite T M (eventStream T l) = (Chain.actsAt M l).flatMap (fun a => (signingEvents a).map noticeFor) := by
  refine stream_read hT M (noticeOf finite T) (fun a => (signingEvents a).map noticeFor) l (fun e he ht => ?_)
  obtain ⟨c, r, ha, hf⟩ := h e he ht
  rw [ha]
  simp only [actEvents, signingEvents, List.filterMap_map]
  rw [filterMap_all (g := noticeFor)]
  intro ev hev
  exact notice_read hT M (hf ev hev)

/-! ### Storage -/

theorem set_same {K V : Type} [DecidableEq K] {m : KV K V} {k : K} {v : V} (h : m k = some v) : m.set k v = m := by
  funext x
  by_cases hx : x = k
  · subst hx; rw [KV.set_self, h]
  · rw [KV.set_ne _ _ hx]

theorem find_pubKeys (l : OMap Addr Multisig.Signer) (a : Addr) :
    (l.map (fun e => (e.1, e.2.pubKey))).find? (fun p => p.1 = a) = (OMap.get? l a).map (fun sg => (a, sg.pubKey)) := by
  induction l with
  | nil => rfl
  | cons e t ih =>
    rw [List.map_cons, List.find?_cons]
    by_cases h : e.1 = a
    · subst h
      simp [OMap.get?]
    · have h' : a ≠ e.1 := fun x => h x.symm
      have : OMap.get? (e :: t) a = OMap.get? t a := by
        obtain ⟨k, v⟩ := e
        simp only [OMap.get?]
        rw [if_neg h']
      rw [this, ← ih]
      simp [h]

/-- the call is of its type -/
def CallTyped (L : Lowering) (c : Multisig.Call) : Prop := Typed L (.multisig c.msg) ∧ c.height ≤ u64Max

/-- what an observer knows after these calls -/
def heard (log : List (Multisig.Call × Multisig.Resp)) : Known :=
  (log.flatMap (fun x => x.2.events.map noticeFor)).foldl Known.hear .nothing

/-- no two different worker sets registered in these calls have the same id -/
def SetsApart (idOf : WorkerSet → Str) (log : List (Multisig.Call × Multisig.Resp)) : Prop :=
  ∀ x ∈ log, ∀ x' ∈ log, ∀ r r' ws ws', x.1.msg = .registerWorkerSet r → x'.1.msg = .registerWorkerSet r' →
    r.decode = .ok ws → r'.decode = .ok ws' → idOf ws = idOf ws' → ws = ws'

structure HInv (idOf : WorkerSet → Str) (log : List (Multisig.Call × Multisig.Resp)) (s : Multisig.State) : Prop where
  typed : MultisigTyped s
  counter : s.counter ≤ u64Max
  lengths : ∀ a kt b, s.pubKeys (a, kt) = some b → Multisig.keyLength kt b.length
  ids : ∀ id se, s.sessions id = some se → se.id = id ∧ id ≤ s.counter
  fits : ∀ x ∈ log, ∀ ev ∈ x.2.events, NoticeFits ev
  keys : (heard log).keys = s.pubKeys
  callers : (heard log).callers = s.authorized
  sessions : (heard log).sessions = s.sessions
  sets : ∀ wid ws, s.workerSets wid = some ws → idOf ws = wid ∧ ∃ x ∈ log, ∃ r, x.1.msg = .registerWorkerSet r ∧ r.decode = .ok ws
  rest : SetsApart idOf log →
    (∀ id se, s.sessions id = some se → ∃ ws, s.workerSets se.workerSetId = some ws ∧ (heard log).members id = ws.pubKeys) ∧
    (heard log).signatures = s.signatures

theorem heard_snoc (log : List (Multisig.Call × Multisig.Resp)) (c : Multisig.Call) (r : Multisig.Resp) :
    heard (log ++ [(c, r)]) = (r.events.map noticeFor).foldl Known.hear (heard log) := by
  simp [heard, List.flatMap_append, List.foldl_append]

theorem SetsApart.left {idOf : WorkerSet → Str} {log l : List (Multisig.Call × Multisig.Resp)}
    (h : SetsApart idOf (log ++ l)) : SetsApart idOf log :=
  fun x hx x' hx' => h x (List.mem_append_left _ hx) x' (List.mem_append_left _ hx')

theorem fits_snoc {log : List (Multisig.Call × Multisig.Resp)} {c : Multisig.Call} {r : Multisig.Resp}
    (h : ∀ x ∈ log, ∀ ev ∈ x.2.events, NoticeFits ev) (hr : ∀ ev ∈ r.events, NoticeFits ev) :
    ∀ x ∈ log ++ [(c, r)], ∀ ev ∈ x.2.events, NoticeFits ev := by
  intro x hx
  rcases List.mem_append.mp hx with hx | hx
  · exact h x hx
  · simp only [List.mem_singleton] at hx
    subst hx
    exact hr

theorem signature_bytes (sig : Signature) : signatureBytes sig = sig.bytes := by cases sig <;> rfl

theorem hinv_init (idOf : WorkerSet → Str) (cfg : Multisig.Config) : HInv idOf [] (Multisig.init cfg) := by
  refine ⟨⟨?_, ?_, ?_, ?_, ?_⟩, Nat.zero_le _, ?_, ?_, by simp, rfl, rfl, rfl, ?_, fun _ => ⟨?_, rfl⟩⟩
  · intro a k h; cases h
  · intro a k h; cases h
  · intro a k h; cases h
  · intro a k h; cases h
  · intro a k sig h; cases h
  · intro a kt k h; cases h
  · intro a k h; cases h
  · intro a k h; cases h
  · intro a k h; cases h

theorem sets_mono {idOf : WorkerSet → Str} {log : List (Multisig.Call × Multisig.Resp)} {s : Multisig.State}
    (h : ∀ wid ws, s.workerSets wid = some ws →
      idOf ws = wid ∧ ∃ x ∈ log, ∃ r, x.1.msg = .registerWorkerSet r ∧ r.decode = .ok ws) (y : Multisig.Call × Multisig.Resp) :
    ∀ wid ws, s.workerSets wid = some ws →
      idOf ws = wid ∧ ∃ x ∈ log ++ [y], ∃ r, x.1.msg = .registerWorkerSet r ∧ r.decode = .ok ws := by
  intro wid ws hw
  obtain ⟨h1, x, hx, h2⟩ := h wid ws hw
  exact ⟨h1, x, List.mem_append_left _ hx, h2⟩

theorem hinv_step {C : Multisig.Crypto} {idOf : WorkerSet → Str} {log : List (Multisig.Call × Multisig.Resp)}
    {s s' : Multisig.State} {c : Multisig.Call} {r : Multisig.Resp} (hi : HInv idOf log s) (ht : CallTyped L c)
    (hx : Multisig.exec C idOf s c = .ok (s', r)) : HInv idOf (log ++ [(c, r)]) s' := by
  have htyped := store_multisig hx ht.1 ht.2 hi.typed
  have hhs := heard_snoc log c r
  rcases Multisig.exec_ok hx with ⟨wid, msg, chain, ok, hm, h⟩ | ⟨i, b, hm, h⟩ | ⟨raw, ws, hm, hd, e1, e2⟩ |
    ⟨kt, b, k, hm, hk, e1, e2⟩ | ⟨a, hm, hg, e1, e2⟩ | ⟨a, hm, hg, e1, e2⟩
  · obtain ⟨_, _, _, hc, ws, hws, e1, e2⟩ := Multisig.start_ok.mp h
    subst e1 e2
    have hms : IsBytes msg := by
      have := ht.1
      rw [hm] at this
      exact this.1
    refine ⟨htyped, hc, hi.lengths, ?_, ?_, ?_, ?_, ?_, sets_mono hi.sets _, ?_⟩
    · intro id se hse
      have hse : (s.sessions.set (s.counter + 1) ⟨s.counter + 1, wid, msg, .pending⟩) id = some se := hse
      show se.id = id ∧ id ≤ s.counter + 1
      by_cases hid : id = s.counter + 1
      · subst hid
        rw [KV.set_self] at hse
        simp only [Option.some.injEq] at hse
        subst hse
        exact ⟨rfl, le_refl _⟩
      · rw [KV.set_ne _ _ hid] at hse
        obtain ⟨h1, h2⟩ := hi.ids id se hse
        exact ⟨h1, by omega⟩
    · refine fits_snoc hi.fits ?_
      intro ev hev
      simp only [List.mem_singleton] at hev
      subst hev
      refine ⟨hc, ?_, hms⟩
      intro p hp
      obtain ⟨e, he, rfl⟩ := List.mem_map.mp hp
      exact (hi.typed.signers _ _ hws e he).2
    · rw [hhs]; exact hi.keys
    · rw [hhs]; exact hi.callers
    · rw [hhs]
      show (heard log).sessions.set _ _ = s.sessions.set _ _
      rw [hi.sessions]
    · intro hap
      obtain ⟨h1, h2⟩ := hi.rest hap.left
      rw [hhs]
      refine ⟨?_, h2⟩
      intro id se hse
      have hse : (s.sessions.set (s.counter + 1) ⟨s.counter + 1, wid, msg, .pending⟩) id = some se := hse
      show ∃ ws', s.workerSets se.workerSetId = some ws' ∧
        (if id = s.counter + 1 then ws.pubKeys else (heard log).members id) = ws'.pubKeys
      by_cases hid : id = s.counter + 1
      · subst hid
        rw [KV.set_self] at hse
        simp only [Option.some.injEq] at hse
        subst hse
        exact ⟨ws, hws, if_pos rfl⟩
      · rw [KV.set_ne _ _ hid] at hse
        rw [if_neg hid]
        exact h1 id se hse
  · obtain ⟨se0, ws, sg, sig, w, k1, k2, k3, k4, k5, k6, k7, k8, e1, e2⟩ := Multisig.submit_ok.mp h
    subst e1 e2
    obtain ⟨hid0, hle⟩ := hi.ids i se0 k1
    have hi64 : i ≤ u64Max := le_trans hle hi.counter
    have hsb : IsBytes (signatureBytes sig) := by
      have := ht.1
      rw [hm] at this
      rw [signature_bytes, k5]
      exact this.2
    have hform : Signature.tryFrom sg.pubKey.keyType (signatureBytes sig) = .ok sig :=
      (Multisig.valid_iff.mpr ⟨k4, (signature_bytes sig).symm⟩).1
    have hcases : (Multisig.nextState se0 ws w c.height = se0.state) ∨
        (se0.state = .pending ∧ Multisig.nextState se0 ws w c.height = .completed c.height) := by
      unfold Multisig.nextState
      split
      · rename_i hcc; exact .inr ⟨hcc.1, rfl⟩
      · exact .inl rfl
    -- what the first event does
    have hsub : ∀ k : Known, (k.hear (.submitted i c.sender (signatureBytes sig))).sessions = k.sessions ∧
        (k.hear (.submitted i c.sender (signatureBytes sig))).keys = k.keys ∧
        (k.hear (.submitted i c.sender (signatureBytes sig))).callers = k.callers ∧
        (k.hear (.submitted i c.sender (signatureBytes sig))).members = k.members := by
      intro k
      simp only [Known.hear]
      split
      · exact ⟨rfl, rfl, rfl, rfl⟩
      · split <;> exact ⟨rfl, rfl, rfl, rfl⟩
    have hcomp : ∀ (k : Known) (h : Nat), (k.hear (.completed i h)).keys = k.keys ∧
        (k.hear (.completed i h)).callers = k.callers ∧ (k.hear (.completed i h)).members = k.members ∧
        (k.hear (.completed i h)).signatures = k.signatures := by
      intro k h
      simp only [Known.hear]
      split <;> exact ⟨rfl, rfl, rfl, rfl⟩
    -- all events together
    have hall : ∃ k', heard (log ++ [(c, Multisig.signingResponse i (Multisig.nextState se0 ws w c.height)
          (decide (se0.state ≠ Multisig.nextState se0 ws w c.height)) c.sender sig s.config.rewards)]) = k' ∧
        k'.keys = (heard log).keys ∧ k'.callers = (heard log).callers ∧ k'.members = (heard log).members ∧
        k'.signatures = ((heard log).hear (.submitted i c.sender (signatureBytes sig))).signatures ∧
        k'.sessions = s.sessions.set se0.id { se0 with state := Multisig.nextState se0 ws w c.height } := by
      refine ⟨_, rfl, ?_⟩
      rw [hhs]
      obtain ⟨g1, g2, g3, g4⟩ := hsub (heard log)
      rcases hcases with hsame | ⟨hpend, hdone⟩
      · have hev : (Multisig.signingResponse i (Multisig.nextState se0 ws w c.height)
          (decide (se0.state ≠ Multisig.nextState se0 ws w c.height)) c.sender sig s.config.rewards).events =
            [.signatureSubmitted i c.sender sig] := by
          unfold Multisig.signingResponse
          rw [hsame]
          cases se0.state <;> simp
        rw [hev]
        refine ⟨g2, g3, g4, rfl, ?_⟩
        show ((heard log).hear (.submitted i c.sender (signatureBytes sig))).sessions = _
        rw [g1, hi.sessions, hsame]
        show s.sessions = s.sessions.set se0.id se0
        rw [hid0]
        exact (set_same k1).symm
      · have hev : (Multisig.signingResponse i (Multisig.nextState se0 ws w c.height)
          (decide (se0.state ≠ Multisig.nextState se0 ws w c.height)) c.sender sig s.config.rewards).events =
            [.signatureSubmitted i c.sender sig, .signingCompleted i c.height] := by
          unfold Multisig.signingResponse
          rw [hdone, hpend]
          simp
        rw [hev]
        show (((heard log).hear (.submitted i c.sender (signatureBytes sig))).hear (.completed i c.height)).keys = _ ∧
          (((heard log).hear (.submitted i c.sender (signatureBytes sig))).hear (.completed i c.height)).callers = _ ∧
          (((heard log).hear (.submitted i c.sender (signatureBytes sig))).hear (.completed i c.height)).members = _ ∧
          (((heard log).hear (.submitted i c.sender (signatureBytes sig))).hear (.completed i c.height)).signatures = _ ∧
          (((heard log).hear (.submitted i c.sender (signatureBytes sig))).hear (.completed i c.height)).sessions = _
        obtain ⟨q1, q2, q3, q4⟩ := hcomp ((heard log).hear (.submitted i c.sender (signatureBytes sig))) c.height
        refine ⟨q1.trans g2, q2.trans g3, q3.trans g4, q4, ?_⟩
        rw [hdone]
        generalize (heard log).hear (.submitted i c.sender (signatureBytes sig)) = k at g1 ⊢
        have : k.sessions i = some se0 := by rw [g1, hi.sessions]; exact k1
        simp only [Known.hear, this]
        rw [g1, hi.sessions]
        show s.sessions.set i _ = s.sessions.set se0.id _
        rw [show s.sessions.set se0.id = s.sessions.set i from by rw [hid0]]
    obtain ⟨k', hk', a1, a2, a3, a4, a5⟩ := hall
    refine ⟨htyped, hi.counter, hi.lengths, ?_, ?_, ?_, ?_, ?_, sets_mono hi.sets _, ?_⟩
    · intro id se hse
      have hse : (s.sessions.set se0.id { se0 with state := Multisig.nextState se0 ws w c.height }) id = some se := hse
      by_cases hid : id = se0.id
      · subst hid
        rw [KV.set_self] at hse
        simp only [Option.some.injEq] at hse
        subst hse
        exact ⟨rfl, by rw [hid0]; exact hle⟩
      · rw [KV.set_ne _ _ hid] at hse
        exact hi.ids id se hse
    · refine fits_snoc hi.fits ?_
      intro ev hev
      unfold Multisig.signingResponse at hev
      rcases List.mem_cons.mp hev with rfl | hev
      · exact ⟨hi64, hsb⟩
      · split at hev
        · simp at hev
        · rename_i cc hcc
          split at hev
          · rename_i hch
            simp only [List.mem_singleton] at hev
            subst hev
            refine ⟨hi64, ?_⟩
            rcases hcases with hsame | ⟨_, hdone⟩
            · rw [hsame] at hch; simp at hch
            · rw [hdone] at hcc
              simp only [Multisig.SessionState.completed.injEq] at hcc
              rw [← hcc]
              exact ht.2
          · simp at hev
    · rw [hk', a1]; exact hi.keys
    · rw [hk', a2]; exact hi.callers
    · rw [hk', a5]
    · intro hap
      obtain ⟨h1, h2⟩ := hi.rest hap.left
      rw [hk']
      refine ⟨?_, ?_⟩
      · intro id se hse
        have hse : (s.sessions.set se0.id { se0 with state := Multisig.nextState se0 ws w c.height }) id = some se := hse
        rw [a3]
        by_cases hid : id = se0.id
        · subst hid
          rw [KV.set_self] at hse
          simp only [Option.some.injEq] at hse
          subst hse
          rw [hid0]
          exact h1 i se0 k1
        · rw [KV.set_ne _ _ hid] at hse
          exact h1 id se hse
      · rw [a4]
        obtain ⟨ws', hw', hmem⟩ := h1 i se0 k1
        rw [k2] at hw'
        simp only [Option.some.injEq] at hw'
        subst hw'
        have hf : ((heard log).members i).find? (fun p => p.1 = c.sender) = some (c.sender, sg.pubKey) := by
          rw [hmem]
          unfold WorkerSet.pubKeys
          rw [find_pubKeys, k3]
          rfl
        simp only [Known.hear, hf, hform]
        rw [h2]
        rfl
  · subst e1 e2
    have hh : heard (log ++ [(c, ({} : Multisig.Resp))]) = heard log := by rw [hhs]; rfl
    refine ⟨htyped, hi.counter, hi.lengths, hi.ids, fits_snoc hi.fits (by simp), by rw [hh]; exact hi.keys,
      by rw [hh]; exact hi.callers, by rw [hh]; exact hi.sessions, ?_, ?_⟩
    · intro wid ws' hw
      have hw : (s.workerSets.set (idOf ws) ws) wid = some ws' := hw
      by_cases hid : wid = idOf ws
      · subst hid
        rw [KV.set_self] at hw
        simp only [Option.some.injEq] at hw
        subst hw
        exact ⟨rfl, (c, ({} : Multisig.Resp)), by simp, raw, hm, hd⟩
      · rw [KV.set_ne _ _ hid] at hw
        exact sets_mono hi.sets _ wid ws' hw
    · intro hap
      obtain ⟨h1, h2⟩ := hi.rest hap.left
      rw [hh]
      refine ⟨?_, h2⟩
      intro id se hse
      obtain ⟨ws', hw', hmem⟩ := h1 id se hse
      show ∃ x, (s.workerSets.set (idOf ws) ws) se.workerSetId = some x ∧ _
      by_cases hid : se.workerSetId = idOf ws
      · obtain ⟨g1, x, hxl, r', g2, g3⟩ := hi.sets _ _ hw'
        have : ws' = ws := hap x (List.mem_append_left _ hxl) (c, ({} : Multisig.Resp)) (by simp) r' raw ws' ws g2 hm g3 hd (g1.trans hid)
        subst this
        exact ⟨ws', by rw [hid, KV.set_self], hmem⟩
      · exact ⟨ws', by rw [KV.set_ne _ _ hid]; exact hw', hmem⟩
  · subst e1 e2
    obtain ⟨hlen, hkt, hkb⟩ := Multisig.key_ok.mp hk
    have hb : IsBytes b := by
      have := ht.1
      rw [hm] at this
      exact this
    refine ⟨htyped, hi.counter, ?_, hi.ids, fits_snoc hi.fits ?_, ?_, by rw [hhs]; exact hi.callers,
      by rw [hhs]; exact hi.sessions, sets_mono hi.sets _, fun hap => ?_⟩
    · intro a kt' b' h
      have h : (s.pubKeys.set (c.sender, kt) b) (a, kt') = some b' := h
      by_cases hx : (a, kt') = (c.sender, kt)
      · rw [hx, KV.set_self] at h
        simp only [Option.some.injEq] at h
        simp only [Prod.mk.injEq] at hx
        rw [hx.2, ← h]
        exact hlen
      · rw [KV.set_ne _ _ hx] at h
        exact hi.lengths a kt' b' h
    · intro ev hev
      simp only [List.mem_singleton] at hev
      subst hev
      exact tryFrom_fits hk hb
    · rw [hhs]
      show (heard log).keys.set (c.sender, k.keyType) k.bytes = s.pubKeys.set (c.sender, kt) b
      rw [hi.keys, hkt, hkb]
    · rw [hhs]; exact hi.rest hap.left
  · subst e1 e2
    refine ⟨htyped, hi.counter, hi.lengths, hi.ids, fits_snoc hi.fits (by simp [NoticeFits]), by rw [hhs]; exact hi.keys, ?_,
      by rw [hhs]; exact hi.sessions, sets_mono hi.sets _, fun hap => ?_⟩
    · rw [hhs]
      show (heard log).callers.set a () = s.authorized.set a ()
      rw [hi.callers]
    · rw [hhs]; exact hi.rest hap.left
  · subst e1 e2
    refine ⟨htyped, hi.counter, hi.lengths, hi.ids, fits_snoc hi.fits (by simp [NoticeFits]), by rw [hhs]; exact hi.keys, ?_,
      by rw [hhs]; exact hi.sessions, sets_mono hi.sets _, fun hap => ?_⟩
    · rw [hhs]
      show (heard log).callers.erase a = s.authorized.erase a
      rw [hi.callers]
    · rw [hhs]; exact hi.rest hap.left

theorem hinv (C : Multisig.Crypto) (idOf : WorkerSet → Str) (cfg : Multisig.Config) (cs : List Multisig.Call)
    (ht : ∀ x ∈ outs (Multisig.exec C idOf) (Multisig.init cfg) cs, CallTyped L x.1) :
    HInv idOf (outs (Multisig.exec C idOf) (Multisig.init cfg) cs) (Multisig.stateAfter C idOf cfg cs) := by
  have key := outs_inv (Multisig.exec C idOf) (P := fun log s => (∀ x ∈ log, CallTyped L x.1) → HInv idOf log s)
    (Multisig.init cfg) (fun _ => hinv_init idOf cfg) ?_ cs
  · exact key ht
  intro log s c s' r ih hx hty
  exact hinv_step (ih (fun x hx => hty x (List.mem_append_left _ hx))) (hty (c, r) (by simp)) hx

end Amp.Wire
