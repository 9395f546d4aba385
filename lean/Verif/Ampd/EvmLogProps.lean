import Verif.Ampd.EvmLog
import Verif.Ampd.EvmProps

/-!
# C110: EVM logs are understood as the contracts meant them
-/

namespace Amp.Ampd.Evm

open Amp.Encoding (Bytes sliceAt ofBE At)
open Amp.Encoding.Abi (Token Elem ethabiEncode dynAt bytesAt uintAt headTail word pad32)
open Amp.Router (ChainName Lowering)
open Amp.Std (Vote)

/-! ### Specification -/

/-- the log that the EVM writes for `emit ContractCall(sender, destinationChain, destinationContractAddress,
payloadHash, payload)`: the hash of the signature and the two indexed values are topics, the rest is encoded as
arguments of a function are -/
def WrittenCall (keccak : Bytes → Bytes) (sender chain address hash payload : Bytes) (l : RawLog) : Prop :=
  sender.length = 20 ∧ hash.length = 32 ∧
  l.topics = [keccak (utf8Bytes "ContractCall(address,string,string,bytes32,bytes)".toList),
    List.replicate 12 0 ++ sender, hash] ∧
  ethabiEncode [.elem (.bytes chain), .elem (.bytes address), .elem (.bytes payload)] = .ok l.data

/-- the log that the EVM writes for `emit OperatorshipTransferred(newOperatorsData)` -/
def WrittenTransfer (keccak : Bytes → Bytes) (data : Bytes) (l : RawLog) : Prop :=
  l.topics = [keccak (utf8Bytes "OperatorshipTransferred(bytes)".toList)] ∧
  ethabiEncode [.elem (.bytes data)] = .ok l.data

/-- the first topics of the other events listed before this one are not that of `OperatorshipTransferred` -/
def TopicsApart (keccak : Bytes → Bytes) : Prop :=
  ∀ s ∈ ["ContractCall(address,string,string,bytes32,bytes)".toList,
      "ContractCallApproved(bytes32,string,string,address,bytes32,bytes32,uint256)".toList,
      "ContractCallApprovedWithMint(bytes32,string,string,address,bytes32,string,uint256,bytes32,uint256)".toList,
      "ContractCallWithToken(address,string,string,bytes32,bytes,string,uint256)".toList,
      "Executed(bytes32)".toList],
    keccak (utf8Bytes s) ≠ keccak (utf8Bytes "OperatorshipTransferred(bytes)".toList)

/-- The log says, to anyone who reads it as Solidity would (`abi.decode`): a contract call by `sender` to the bytes
`address` at the bytes `chain`, with the hash `hash` of the payload. -/
def SaysCall (keccak : Bytes → Bytes) (l : RawLog) (sender chain address hash : Bytes) : Prop :=
  ∃ w, l.topics = [keccak (utf8Bytes "ContractCall(address,string,string,bytes32,bytes)".toList), w, hash] ∧
    w.drop 12 = sender ∧ dynAt (bytesAt l.data) l.data 0 0 = some chain ∧
    dynAt (bytesAt l.data) l.data 0 32 = some address

/-- The log says that operatorship was transferred. -/
def SaysTransfer (keccak : Bytes → Bytes) (l : RawLog) (data : Bytes) : Prop :=
  l.topics = [keccak (utf8Bytes "OperatorshipTransferred(bytes)".toList)] ∧
    dynAt (bytesAt l.data) l.data 0 0 = some data

/-- topics are words (`H256` in the code) -/
def Words (l : RawLog) : Prop := ∀ t ∈ l.topics, t.length = 32

/-- The receipt has, at the log index of the message and in its transaction, a log of the gateway that says the contract
call that the message is about; names are read as UTF-8. -/
def ShowsCall (K : LogLib) (L : Lowering) (gateway : Bytes) (r : Receipt RawLog) (m : Message) : Prop :=
  r.txHash = m.txId ∧ ∃ l ∈ r.logs, l.index = some m.eventIndex ∧ l.txHash = some m.txId ∧ l.address = gateway ∧
    ∃ c a, SaysCall K.keccak l.content m.sourceAddress c a m.payloadHash ∧
      L.f (K.lossy c) = m.destinationChain ∧ K.lossy a = m.destinationAddress

/-- The receipt has, at the log index given, the log that the EVM writes when the gateway emits the contract call that
the message is about; the name of the chain may be spelled with other capitals. -/
def WroteCall (keccak : Bytes → Bytes) (L : Lowering) (gateway : Bytes) (r : Receipt RawLog) (m : Message) : Prop :=
  r.txHash = m.txId ∧ ∃ l ∈ r.logs, l.index = some m.eventIndex ∧ l.txHash = some m.txId ∧ l.address = gateway ∧
    ∃ chain payload, L.f chain = m.destinationChain ∧
      WrittenCall keccak m.sourceAddress (utf8Bytes chain) (utf8Bytes m.destinationAddress) m.payloadHash payload l.content

/-- The receipt has the log of a transfer of operatorship to the operators, weights and threshold given. -/
def ShowsTransfer (keccak : Bytes → Bytes) (gateway : Bytes) (r : Receipt RawLog) (w : WorkerSet) : Prop :=
  r.txHash = w.txId ∧ ∃ l ∈ r.logs, l.index = some w.eventIndex ∧ l.txHash = some w.txId ∧ l.address = gateway ∧
    ∃ data, SaysTransfer keccak l.content data ∧ Encoding.Abi.decodeOperatorship data =
      some (w.operators.map Prod.fst, w.operators.map Prod.snd, w.threshold)

/-- the replies of a node have logs whose topics are words -/
def WordLogs (n : Node RawLog) : Prop := ∀ h r, n.receipt h = some (some r) → ∀ l ∈ r.logs, Words l.content

/-! ### Helper lemmas -/

variable {K : LogLib}

theorem be_high (k j n : Nat) : Encoding.be (k + j) n = Encoding.be k (n / 256 ^ j) ++ Encoding.be j n := by
  induction j generalizing n with
  | zero => simp [Encoding.be]
  | succ j ih =>
    rw [← Nat.add_assoc, Encoding.be, Encoding.be, ih, List.append_assoc, Nat.div_div_eq_div_mul, pow_succ, Nat.mul_comm]

theorem be_zero (k : Nat) : Encoding.be k 0 = List.replicate k 0 := by
  induction k with
  | zero => rfl
  | succ k ih => rw [Encoding.be, Nat.zero_div, ih, List.replicate_succ']

theorem ofBE_zeros (k : Nat) (b : Bytes) : ofBE (List.replicate k 0 ++ b) = ofBE b := by
  induction k with
  | zero => rfl
  | succ k ih =>
    rw [List.replicate_succ, List.cons_append, ← ih]
    rfl

theorem asUsize_word {n : Nat} (h : n < 2 ^ 32) : asUsize (word n) = some n := by
  have e : word n = List.replicate 28 0 ++ Encoding.be 4 n := by
    unfold word
    rw [show 32 = 28 + 4 from rfl, be_high, Nat.div_eq_of_lt (by omega), be_zero]
  have ht : (word n).take 28 = List.replicate 28 0 := by rw [e]; exact List.take_left' (by simp)
  have hd : (word n).drop 28 = Encoding.be 4 n := by rw [e]; exact List.drop_left' (by simp)
  unfold asUsize
  rw [if_pos ht, hd, Encoding.ofBE_be (by omega)]

theorem asUsize_some {w : Bytes} {n : Nat} (h : asUsize w = some n) : ofBE w = n := by
  unfold asUsize at h
  split at h
  · rename_i ht
    rw [← List.take_append_drop 28 w, ht, ofBE_zeros]
    exact Option.some.inj h
  · simp at h

theorem readBytes_spec {data : Bytes} {pos : Nat} {x : Bytes} (h : readBytes data pos = some x) :
    dynAt (bytesAt data) data 0 pos = some x := by
  unfold readBytes at h
  unfold dynAt bytesAt uintAt
  split at h
  · simp at h
  · rename_i w hw
    split at h
    · simp at h
    · rename_i off ho
      split at h
      · simp at h
      · rename_i v hv
        split at h
        · simp at h
        · rename_i n hn
          rw [hw]
          simp only
          rw [asUsize_some ho, Nat.zero_add, hv]
          simp only
          rw [asUsize_some hn]
          exact h

theorem readBytes_written {b : Bytes} {pre post : List Encoding.Abi.Mediate} {x : Bytes}
    (hb : headTail (pre ++ .dyn (word x.length ++ pad32 x) :: post) = b) (hl : b.length < 2 ^ 32) :
    readBytes b (Encoding.Abi.hl pre) = some x := by
  have hat : At b 0 (headTail (pre ++ .dyn (word x.length ++ pad32 x) :: post)) := by rw [hb]; exact At.self b
  obtain ⟨h1, h2⟩ := Encoding.Abi.at_dyn hat
  rw [Nat.zero_add] at h1 h2
  generalize Encoding.Abi.hl (pre ++ .dyn (word x.length ++ pad32 x) :: post) + Encoding.Abi.tl pre = off at h1 h2
  have hle := h2.le
  have hx : x.length < 2 ^ 32 := by
    simp only [List.length_append, pad32] at hle
    omega
  have hoff : off < 2 ^ 32 := by
    rw [List.length_append, Encoding.Abi.word_length] at hle
    omega
  unfold readBytes
  have s1 := h1.slice
  rw [Encoding.Abi.word_length] at s1
  rw [s1]
  simp only
  rw [asUsize_word hoff]
  simp only
  have s2 := h2.left.slice
  rw [Encoding.Abi.word_length] at s2
  rw [s2]
  simp only
  rw [asUsize_word hx]
  simp only
  have s3 := h2.right
  rw [Encoding.Abi.word_length] at s3
  unfold pad32 at s3
  exact s3.left.slice

theorem slice_words {a b : Bytes} (ha : a.length = 32) (hb : b.length = 32) :
    sliceAt [a, b].flatten 0 32 = some a ∧ sliceAt [a, b].flatten 32 32 = some b := by
  have e : [a, b].flatten = a ++ b := by simp
  rw [e]
  constructor
  · have := (At.zero a b).slice
    rwa [ha] at this
  · have := (At.self (a ++ b)).right.slice
    rwa [ha, hb] at this

/-- what a decoded contract call says -/
theorem decodeCall_some {l : RawLog} {e : GatewayEvent} (h : decodeContractCall K l = some e) (hw : Words l) :
    ∃ w hash chain address payload, e = .contractCall (w.drop 12) (K.lossy chain) (K.lossy address) hash ∧
      l.topics = [K.topic contractCallText, w, hash] ∧ readBytes l.data 0 = some chain ∧
      readBytes l.data 32 = some address ∧ readBytes l.data 64 = some payload := by
  unfold decodeContractCall at h
  split at h
  · simp at h
  · rename_i t rest ht
    split at h
    · simp at h
    · rename_i hsig
      split at h
      · rename_i sender hash hs hh
        split at h
        · simp at h
        · rename_i hlen
          split at h
          · rename_i chain address payload h1 h2 h3
            simp only [Option.some.injEq] at h
            rw [not_not] at hlen hsig
            obtain ⟨a, b, rfl⟩ := List.length_eq_two.mp hlen
            obtain ⟨q1, q2⟩ := slice_words (hw a (by rw [ht]; simp)) (hw b (by rw [ht]; simp))
            rw [q2] at hh
            simp only [Option.some.injEq] at hh
            unfold readAddress at hs
            rw [q1] at hs
            simp only [Option.some.injEq] at hs
            subst hh hs hsig
            exact ⟨a, b, chain, address, payload, h.symm, ht, h1, h2, h3⟩
          · simp at h
      · simp at h

theorem decodeTransfer_some {l : RawLog} {e : GatewayEvent} (h : decodeOperatorship K l = some e) :
    ∃ data, e = .operatorshipTransferred data ∧ l.topics = [K.topic operatorshipText] ∧
      readBytes l.data 0 = some data := by
  unfold decodeOperatorship at h
  split at h
  · simp at h
  · rename_i t rest ht
    split at h
    · simp at h
    · rename_i hsig
      split at h
      · simp at h
      · rename_i hlen
        split at h
        · rename_i data hd
          simp only [Option.some.injEq] at h
          rw [not_not] at hlen hsig
          rw [List.length_eq_zero_iff.mp hlen, hsig] at ht
          exact ⟨data, h.symm, ht, hd⟩
        · simp at h

/-! ### C110 -/

/-- C110, calls: what the EVM writes for a contract call is read as that call. -/
theorem C110_call (K : LogLib) (sender hash payload : Bytes) (chain address : Str) (l : RawLog)
    (h : WrittenCall K.keccak sender (utf8Bytes chain) (utf8Bytes address) hash payload l) :
    decodeLog K l = some (.contractCall sender chain address hash) := by
  obtain ⟨hs, hh, ht, hd⟩ := h
  obtain ⟨he, hlen⟩ := Encoding.Abi.ethabi_ok.mp hd
  simp only [List.map_cons, List.map_nil, Token.mediate, Elem.mediate] at he
  have h1 := readBytes_written (pre := []) he hlen
  have h2 := readBytes_written (pre := [.dyn (word (utf8Bytes chain).length ++ pad32 (utf8Bytes chain))]) he hlen
  have h3 := readBytes_written (pre := [.dyn (word (utf8Bytes chain).length ++ pad32 (utf8Bytes chain)),
    .dyn (word (utf8Bytes address).length ++ pad32 (utf8Bytes address))]) he hlen
  obtain ⟨q1, q2⟩ := slice_words (a := List.replicate 12 0 ++ sender) (b := hash) (by simp [hs]) hh
  have key : decodeContractCall K l = some (.contractCall sender chain address hash) := by
    unfold decodeContractCall
    rw [ht]
    simp only
    rw [if_neg (by exact not_not.mpr rfl)]
    unfold readAddress
    rw [q1, q2]
    simp only
    rw [if_neg (by simp)]
    change readBytes l.data 0 = _ at h1
    change readBytes l.data 32 = _ at h2
    change readBytes l.data 64 = _ at h3
    rw [h1, h2, h3]
    simp only
    rw [K.lossy_utf8, K.lossy_utf8]
    congr 2
  unfold decodeLog
  rw [key]

/-- C110, transfers: what the EVM writes for a transfer of operatorship is read as that transfer. -/
theorem C110_transfer (K : LogLib) (ha : TopicsApart K.keccak) (data : Bytes) (l : RawLog)
    (h : WrittenTransfer K.keccak data l) : decodeLog K l = some (.operatorshipTransferred data) := by
  obtain ⟨ht, hd⟩ := h
  obtain ⟨he, hlen⟩ := Encoding.Abi.ethabi_ok.mp hd
  simp only [List.map_cons, List.map_nil, Token.mediate, Elem.mediate] at he
  have h1 := readBytes_written (pre := []) he hlen
  change readBytes l.data 0 = _ at h1
  have hcall : decodeContractCall K l = none := by
    unfold decodeContractCall
    rw [ht]
    simp only
    rw [if_pos]
    exact fun hc => ha _ List.mem_cons_self hc.symm
  have htr : decodeOperatorship K l = some (.operatorshipTransferred data) := by
    unfold decodeOperatorship
    rw [ht]
    simp only
    rw [if_neg (by exact not_not.mpr rfl), if_neg (by simp), h1]
  unfold decodeLog
  rw [hcall, ht]
  simp only
  rw [if_neg, htr]
  intro hm
  obtain ⟨s, hs, he⟩ := List.mem_map.mp hm
  exact ha s (List.mem_cons_of_mem _ hs) he

/-- C110, only that: a log that is read as a contract call says so, to anyone who reads it as a contract would; the
names are its bytes, with U+FFFD for what is not UTF-8. -/
theorem C110_says_call (K : LogLib) (l : RawLog) (hw : Words l) (sender hash : Bytes) (chain address : Str)
    (h : decodeLog K l = some (.contractCall sender chain address hash)) :
    ∃ c a, SaysCall K.keccak l sender c a hash ∧ chain = K.lossy c ∧ address = K.lossy a := by
  unfold decodeLog at h
  cases hc : decodeContractCall K l with
  | some e =>
    rw [hc] at h
    simp only [Option.some.injEq] at h
    subst h
    obtain ⟨w, hash', c, a, p, he, ht, h1, h2, _⟩ := decodeCall_some hc hw
    simp only [GatewayEvent.contractCall.injEq] at he
    obtain ⟨rfl, rfl, rfl, rfl⟩ := he
    exact ⟨c, a, ⟨w, ht, rfl, readBytes_spec h1, readBytes_spec h2⟩, rfl, rfl⟩
  | none =>
    rw [hc] at h
    simp only at h
    split at h
    · simp at h
    · split at h
      · simp at h
      · obtain ⟨data, he, _⟩ := decodeTransfer_some h
        simp at he

/-- C110, only that: a log that is read as a transfer of operatorship says so. -/
theorem C110_says_transfer (K : LogLib) (l : RawLog) (hw : Words l) (data : Bytes)
    (h : decodeLog K l = some (.operatorshipTransferred data)) : SaysTransfer K.keccak l data := by
  unfold decodeLog at h
  cases hc : decodeContractCall K l with
  | some e =>
    rw [hc] at h
    simp only [Option.some.injEq] at h
    subst h
    obtain ⟨w, hash', c, a, p, he, _⟩ := decodeCall_some hc hw
    simp at he
  | none =>
    rw [hc] at h
    simp only at h
    split at h
    · simp at h
    · split at h
      · simp at h
      · obtain ⟨d, he, ht, h1⟩ := decodeTransfer_some h
        simp only [GatewayEvent.operatorshipTransferred.injEq] at he
        subst he
        exact ⟨ht, readBytes_spec h1⟩

/-- what a receipt shows when its logs are decoded -/
theorem shows_of_emitted {L : Lowering} {gateway : Bytes} {r : Receipt RawLog} {m : Message}
    (hw : ∀ l ∈ r.logs, Words l.content) (h : Emitted L (decodeLog K) gateway r m) : ShowsCall K L gateway r m := by
  obtain ⟨h0, l, h1, h2, h3, h4, chain, h5, h6⟩ := h
  obtain ⟨c, a, hs, rfl, ha⟩ := C110_says_call K l.content (hw l h1) _ _ _ _ h6
  exact ⟨h0, l, h1, h2, h3, h4, c, a, hs, h5, ha.symm⟩

theorem emitted_of_wrote {L : Lowering} {gateway : Bytes} {r : Receipt RawLog} {m : Message}
    (h : WroteCall K.keccak L gateway r m) : Emitted L (decodeLog K) gateway r m := by
  obtain ⟨h0, l, h1, h2, h3, h4, chain, payload, h5, h6⟩ := h
  exact ⟨h0, l, h1, h2, h3, h4, chain, h5, C110_call K _ _ payload chain _ l.content h6⟩

/-- C110, votes: a vote that a message was emitted is cast only on account of a receipt, in a final block, with a log
that says so byte for byte. -/
theorem C110_voted {V : Type} (K : LogLib) (L : Lowering) (deser : V → Option (PollStarted (List Message)))
    (H : Handler) (E : Env RawLog) (e : Event (Abci V)) (hb : Bounded E.node) (hw : WordLogs E.node)
    (p : PollStarted (List Message)) (a : Abci V) (he : e = .abci a) (hp : deser a.attributes = some p) (t : ExecTx)
    (id : Nat) (votes : List Vote) (ht : t ∈ (handleMessages L (decodeLog K) deser H E e).sent)
    (hm : t.msg = .vote id votes) (i : Nat) (m : Message) (hi : p.content[i]? = some m)
    (hv : votes[i]? = some .succeededOnChain) :
    ∃ h r b, E.node.receipt h = some (some r) ∧ r.blockNumber = some b ∧
      Final H.chain E.node p.confirmationHeight b ∧ ShowsCall K L p.sourceGateway r m := by
  obtain ⟨h, r, b, h1, h2, h3, h4⟩ := C68_sound L (decodeLog K) deser H E e hb p a he hp t id votes ht hm i m hi hv
  exact ⟨h, r, b, h1, h2, h3, shows_of_emitted (hw h r h1) h4⟩

/-- C110, votes: a contract call that the gateway emitted, in a final block, is voted for. -/
theorem C110_votes {V : Type} (K : LogLib) (L : Lowering) (deser : V → Option (PollStarted (List Message)))
    (H : Handler) (E : Env RawLog) (e : Event (Abci V)) (hb : Bounded E.node) (hh : Honest E.node)
    (ho : Iterates E.order) (p : PollStarted (List Message)) (a : Abci V) (he : e = .abci a)
    (hp : deser a.attributes = some p) (t : ExecTx) (id : Nat) (votes : List Vote)
    (ht : t ∈ (handleMessages L (decodeLog K) deser H E e).sent) (hm : t.msg = .vote id votes) (i : Nat) (m : Message)
    (hi : p.content[i]? = some m) (r : Receipt RawLog) (b : Nat) (hr : E.node.receipt m.txId = some (some r))
    (hn : r.blockNumber = some b) (hf : Final H.chain E.node p.confirmationHeight b)
    (hc : WroteCall K.keccak L p.sourceGateway r m) : votes[i]? = some .succeededOnChain :=
  (C68_exact L (decodeLog K) deser H E e hb hh ho p a he hp t id votes ht hm i m hi).1
    ⟨r, b, hr, hn, hf, emitted_of_wrote hc⟩

/-- C110, worker sets: a vote that the operators of a gateway changed is cast only on account of such a log. -/
theorem C110_sets {V : Type} (K : LogLib) (deser : V → Option (PollStarted WorkerSet)) (H : Handler) (E : Env RawLog)
    (e : Event (Abci V)) (hb : Bounded E.node) (hw : WordLogs E.node) (p : PollStarted WorkerSet) (a : Abci V)
    (he : e = .abci a) (hp : deser a.attributes = some p) (hwf : p.content.Valid) (t : ExecTx) (id : Nat)
    (votes : List Vote) (ht : t ∈ (handleWorkerSet (decodeLog K) deser H E e).sent) (hm : t.msg = .vote id votes)
    (hv : .succeededOnChain ∈ votes) :
    ∃ r b, E.node.receipt p.content.txId = some (some r) ∧ r.blockNumber = some b ∧
      Final H.chain E.node p.confirmationHeight b ∧ ShowsTransfer K.keccak p.sourceGateway r p.content := by
  obtain ⟨r, b, h1, h2, h3, h0, l, hl, g1, g2, g3, data, g4, g5⟩ :=
    C68_worker_set_sound (decodeLog K) deser H E e hb p a he hp hwf t id votes ht hm hv
  exact ⟨r, b, h1, h2, h3, h0, l, hl, g1, g2, g3, data, C110_says_transfer K l.content (hw _ r h1 l hl) data g4, g5⟩

/-- C110, worker sets: if the gateway emitted, in a final block, the transfer of operatorship to the operators of the
poll, the worker votes for it. -/
theorem C110_sets_voted {V : Type} (K : LogLib) (hk : TopicsApart K.keccak) (deser : V → Option (PollStarted WorkerSet))
    (H : Handler) (E : Env RawLog) (e : Event (Abci V)) (hb : Bounded E.node) (p : PollStarted WorkerSet)
    (hc : Concerns "wasm-worker_set_poll_started".toList deser H E.latestBlock e p)
    (hans : Answers H.chain E.node p.confirmationHeight) (r : Receipt RawLog) (b : Nat)
    (hr : E.node.receipt p.content.txId = some (some r)) (hd : DistinctLogs r) (hbn : r.blockNumber = some b)
    (hf : Final H.chain E.node p.confirmationHeight b) (hx : r.txHash = p.content.txId) (l : Log RawLog) (data : Bytes)
    (hl : l ∈ r.logs) (hi : l.index = some p.content.eventIndex) (hlx : l.txHash = some p.content.txId)
    (ha : l.address = p.sourceGateway) (hw : WrittenTransfer K.keccak data l.content)
    (hdata : ethabiEncode [
      .array (p.content.operators.map (fun o => .address o.1)),
      .array (p.content.operators.map (fun o => .uint o.2)),
      .elem (.uint p.content.threshold)] = .ok data) :
    (handleWorkerSet (decodeLog K) deser H E e).sent =
      [⟨H.worker, H.votingVerifier, .vote p.pollId [.succeededOnChain]⟩] :=
  C68_worker_set_complete (decodeLog K) deser H E e hb p hc hans r b hr hd hbn hf hx l data hl hi hlx ha
    (C110_transfer K hk data l.content hw) hdata

/-- C110, byte for byte: if the names of a message have no U+FFFD, the log has exactly their UTF-8 (the name of the
chain perhaps with other capitals). -/
theorem C110_bytes_partial (K : LogLib) (L : Lowering) (gateway : Bytes) (r : Receipt RawLog) (m : Message)
    (h : ShowsCall K L gateway r m) (ha : Char.ofNat 0xFFFD ∉ m.destinationAddress)
    (hc : ∀ s, L.f s = m.destinationChain → Char.ofNat 0xFFFD ∉ s) :
    ∃ l ∈ r.logs, l.index = some m.eventIndex ∧ l.address = gateway ∧ ∃ chain, L.f chain = m.destinationChain ∧
      SaysCall K.keccak l.content m.sourceAddress (utf8Bytes chain) (utf8Bytes m.destinationAddress) m.payloadHash := by
  obtain ⟨_, l, h1, h2, _, h4, c, a, hs, h5, h6⟩ := h
  have exact : ∀ b : Bytes, Char.ofNat 0xFFFD ∉ K.lossy b → b = utf8Bytes (K.lossy b) := by
    intro b hb
    by_contra hne
    apply hb
    apply K.lossy_bad
    intro s hbs
    rw [hbs, K.lossy_utf8] at hne
    exact hne rfl
  have e1 := exact c (hc _ h5)
  have e2 := exact a (by rw [h6]; exact ha)
  rw [h6] at e2
  rw [e1, e2] at hs
  exact ⟨l, h1, h2, h4, K.lossy c, h5, hs⟩

end Amp.Ampd.Evm
