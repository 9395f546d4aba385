import Verif.Proto.TxLemmas
import Verif.Wire.MsgProps
import Verif.Ampd.QueueProps

/-!
# C99: what the daemon signs is what the chain executes
-/

namespace Amp.Proto

open Amp.Ampd (BroadcastCfg Replies Client broadcast broadcasts)

/-- C99: a node reads from the bytes that the daemon submits exactly the messages, in order, the sequence number, gas limit
and fee that the daemon meant, with the key of the account and nothing else; and the one signature is the one that was
given for the bytes that a node of the daemon's chain checks it against. -/
theorem C99_node_reads (a : Account) (sha : ByteList → ByteList) (signer : ByteList → Option ByteList) (t : Ampd.Tx AnyMsg)
    (b : ByteList) (hs : t.sequence ≤ u64Max) (hg : t.gas ≤ u64Max) (h : a.submit sha signer t = some b)
    (hb : b.length ≤ u64Max) :
    ∃ doc sig, nodeSignBytes a.chainId a.number b = some doc ∧ signer (sha doc) = some sig ∧
      nodeReads b = some {
        msgs := t.msgs
        memo := []
        timeoutHeight := 0
        signers := [⟨some a.key.any, 1, t.sequence⟩]
        fee := [⟨a.denom, t.fee⟩]
        gasLimit := t.gas
        payer := []
        granter := []
        signatures := [sig] } := by
  rw [Account.submit, Tx.signWith] at h
  cases hsig : signer (sha ((a.tx t).signBytes a.chainId a.number)) with
  | none => rw [hsig] at h; simp at h
  | some sig =>
    rw [hsig] at h
    simp only [Option.map_some, Option.some.injEq] at h
    subst h
    exact ⟨_, sig, nodeSignBytes_tx hb _ _, hsig, nodeReads_tx (t := a.tx t) ⟨hs, hg⟩ hb⟩

/-- C99: a signature of the daemon stands for one transaction: if any bytes at all are checked against the same sign bytes, on
whatever chain and for whatever account, then the chain and the account are the daemon's and the bytes are read as the same
transaction, up to the signatures. -/
theorem C99_one_signature (a : Account) (sha : ByteList → ByteList) (signer : ByteList → Option ByteList)
    (t : Ampd.Tx AnyMsg) (b : ByteList) (hn : a.number ≤ u64Max) (h : a.submit sha signer t = some b)
    (hb : b.length ≤ u64Max) (c : Str) (n : Nat) (b' doc : ByteList) (hn' : n ≤ u64Max) (hd : doc.length ≤ u64Max)
    (h1 : nodeSignBytes a.chainId a.number b = some doc) (h2 : nodeSignBytes c n b' = some doc) :
    c = a.chainId ∧ n = a.number ∧
      ∀ v', nodeReads b' = some v' → ∃ v, nodeReads b = some v ∧ v' = { v with signatures := v'.signatures } := by
  rw [Account.submit, Tx.signWith] at h
  cases hsig : signer (sha ((a.tx t).signBytes a.chainId a.number)) with
  | none => rw [hsig] at h; simp at h
  | some sig =>
    rw [hsig] at h
    simp only [Option.map_some, Option.some.injEq] at h
    subst h
    rw [nodeSignBytes_tx hb, Option.some.injEq] at h1
    rw [nodeSignBytes] at h2
    cases hf : fields b' with
    | none => rw [hf] at h2; simp at h2
    | some fs =>
      rw [hf] at h2
      dsimp only at h2
      cases hbody : getRaw 1 fs with
      | none => rw [hbody] at h2; simp at h2
      | some body =>
        cases hauth : getRaw 2 fs with
        | none => rw [hbody, hauth] at h2; simp at h2
        | some auth =>
          rw [hbody, hauth] at h2
          simp only [Option.some.injEq] at h2
          subst h1
          obtain ⟨e1, e2, e3, e4⟩ := doc_inj hn' hn (h2 ▸ hd) h2
          refine ⟨e3, e4, fun v' hv' => ?_⟩
          rw [nodeReads, hf] at hv'
          rw [nodeReads, fields_tx hb]
          simp only [hbody, hauth] at hv'
          simp only [getRaw_body, getRaw_auth, getMany_sigs]
          cases hm : getMany 3 fs with
          | none => rw [hm] at hv'; simp at hv'
          | some sigs =>
            rw [hm] at hv'
            dsimp only at hv'
            rw [e1, e2] at hv'
            dsimp only at hv' ⊢
            split at hv'
            · rename_i ms memo tm afs hx hy
              split at hv'
              · rename_i ss ffs hp hq
                cases hr : readFee ffs with
                | none => rw [hr] at hv'; simp at hv'
                | some f =>
                  rw [hr] at hv'
                  simp only [Option.map_some, Option.some.injEq] at hv'
                  subst hv'
                  exact ⟨_, rfl, rfl⟩
              · simp at hv'
            · simp at hv'

/-- C99: two transactions that are signed for are the same, for the same chain and account, unless what is signed differs. -/
theorem C99_sign_bytes (a a' : Account) (t t' : Ampd.Tx AnyMsg) (hn : a.number ≤ u64Max) (hn' : a'.number ≤ u64Max)
    (hs : t.sequence ≤ u64Max) (hs' : t'.sequence ≤ u64Max) (hg : t.gas ≤ u64Max) (hg' : t'.gas ≤ u64Max)
    (hl : ((a.tx t).signBytes a.chainId a.number).length ≤ u64Max)
    (e : (a.tx t).signBytes a.chainId a.number = (a'.tx t').signBytes a'.chainId a'.number) :
    a.chainId = a'.chainId ∧ a.number = a'.number ∧ a.key = a'.key ∧ t = t' := by
  obtain ⟨h1, h2, h3⟩ := signBytes_inj (t := a.tx t) (t' := a'.tx t') ⟨hs, hg⟩ ⟨hs', hg'⟩ hn hn' hl e
  simp only [Account.tx, FeeMsg.of, Tx.mk.injEq, FeeMsg.mk.injEq, List.cons.injEq, CoinMsg.mk.injEq, and_true] at h1
  refine ⟨h2, h3, h1.2.1, ?_⟩
  cases t; cases t'
  simp only at h1
  obtain ⟨rfl, -, rfl, ⟨⟨-, rfl⟩, rfl⟩⟩ := h1
  rfl

/-! ### Histories -/

theorem broadcasts_bounds {M : Type} (cfg : BroadcastCfg) (hadj : ∀ g, cfg.adjust g ≤ u64Max) :
    ∀ (calls : List (List M × Replies)) (c : Client M), c.sequence ≤ u64Max →
      c.sequence ≤ (broadcasts cfg c calls).sequence ∧ (broadcasts cfg c calls).sequence ≤ u64Max ∧
      ∃ new, (broadcasts cfg c calls).sent = c.sent ++ new ∧
        ∀ t ∈ new, c.sequence ≤ t.sequence ∧ t.sequence ≤ (broadcasts cfg c calls).sequence ∧ t.gas ≤ u64Max := by
  have one : ∀ (c : Client M) (msgs : List M) (r : Replies), c.sequence ≤ u64Max →
      c.sequence ≤ (broadcast cfg c msgs r).1.sequence ∧ (broadcast cfg c msgs r).1.sequence ≤ u64Max ∧
      ∃ new, (broadcast cfg c msgs r).1.sent = c.sent ++ new ∧
        ∀ t ∈ new, t.sequence = c.sequence ∧ t.gas ≤ u64Max := by
    intro c msgs r hc
    unfold broadcast Ampd.estimateFee
    cases r.gas with
    | none => exact ⟨Nat.le_refl _, hc, [], by simp, by simp⟩
    | some g =>
      dsimp only
      split
      · exact ⟨Nat.le_refl _, hc, [], by simp, by simp⟩
      · split
        · exact ⟨Nat.le_refl _, hc, _, rfl, by simp [hadj]⟩
        · split
          · exact ⟨Nat.le_refl _, hc, _, rfl, by simp [hadj]⟩
          · split
            · exact ⟨Nat.le_refl _, hc, _, rfl, by simp [hadj]⟩
            · exact ⟨Nat.le_succ _, by dsimp only at *; omega, _, rfl, by simp [hadj]⟩
  intro calls
  induction calls with
  | nil => intro c hc; exact ⟨Nat.le_refl _, hc, [], by simp [broadcasts], by simp⟩
  | cons call calls ih =>
    intro c hc
    obtain ⟨a1, a2, new1, a3, a4⟩ := one c call.1 call.2 hc
    obtain ⟨b1, b2, new2, b3, b4⟩ := ih _ a2
    have e : broadcasts cfg c (call :: calls) = broadcasts cfg (broadcast cfg c call.1 call.2).1 calls := rfl
    rw [e]
    refine ⟨by omega, b2, new1 ++ new2, by rw [b3, a3, List.append_assoc], fun t ht => ?_⟩
    rcases List.mem_append.mp ht with h | h
    · have := a4 t h
      exact ⟨by omega, by omega, this.2⟩
    · have := b4 t h
      exact ⟨by omega, this.2.1, this.2.2⟩

/-- C99: in every history of broadcasts, once a transaction is confirmed, whatever is signed later differs from everything
signed up to then: an old signature is never good for a new transaction, nor the other way round. -/
theorem C99_fresh (a : Account) (cfg : BroadcastCfg) (seq : Nat) (before : List (List AnyMsg × Replies))
    (msgs : List AnyMsg) (r : Replies) (later : List (List AnyMsg × Replies)) (hn : a.number ≤ u64Max) (hs : seq ≤ u64Max)
    (hadj : ∀ g, cfg.adjust g ≤ u64Max)
    (hok : (broadcast cfg (broadcasts cfg ⟨seq, []⟩ before) msgs r).2 = .ok ())
    (old new : List (Ampd.Tx AnyMsg)) (ho : (broadcasts cfg ⟨seq, []⟩ (before ++ [(msgs, r)])).sent = old)
    (hnew : (broadcasts cfg ⟨seq, []⟩ (before ++ (msgs, r) :: later)).sent = old ++ new)
    (t t' : Ampd.Tx AnyMsg) (ht : t ∈ old) (ht' : t' ∈ new)
    (hl : ((a.tx t).signBytes a.chainId a.number).length ≤ u64Max) :
    (a.tx t).signBytes a.chainId a.number ≠ (a.tx t').signBytes a.chainId a.number := by
  intro e
  have split1 : broadcasts cfg ⟨seq, []⟩ (before ++ [(msgs, r)]) =
      (broadcast cfg (broadcasts cfg ⟨seq, []⟩ before) msgs r).1 := by simp [broadcasts]
  have split2 : broadcasts cfg ⟨seq, []⟩ (before ++ (msgs, r) :: later) =
      broadcasts cfg (broadcast cfg (broadcasts cfg ⟨seq, []⟩ before) msgs r).1 later := by simp [broadcasts]
  obtain ⟨a1, a2, new1, a3, a4⟩ := broadcasts_bounds cfg hadj before ⟨seq, []⟩ hs
  obtain ⟨b1, b2, new2, b3, b4⟩ := broadcasts_bounds cfg hadj (before ++ [(msgs, r)]) ⟨seq, []⟩ hs
  rw [split1] at ho b2
  obtain ⟨c1, c2, new3, c3, c4⟩ := broadcasts_bounds cfg hadj later _ b2
  rw [← split2, hnew, ho] at c3
  have hnn : new = new3 := List.append_cancel_left c3
  subst hnn
  have h' := c4 t' ht'
  have hseq : (broadcast cfg (broadcasts cfg ⟨seq, []⟩ before) msgs r).1.sequence = (broadcasts cfg ⟨seq, []⟩ before).sequence + 1 ∧
      ∃ gas fee, (broadcast cfg (broadcasts cfg ⟨seq, []⟩ before) msgs r).1.sent = (broadcasts cfg ⟨seq, []⟩ before).sent ++
        [⟨msgs, gas, fee, (broadcasts cfg ⟨seq, []⟩ before).sequence⟩] := by
    rcases Ampd.broadcast_cases cfg (broadcasts cfg ⟨seq, []⟩ before) msgs r with h | ⟨gas, fee, h, h2⟩
    · exact absurd hok h.2
    · rcases h2 with h2 | h2
      · exact ⟨h2.2, gas, fee, h⟩
      · exact absurd hok h2.1
  obtain ⟨q1, gas, fee, q2⟩ := hseq
  have hold : t.sequence ≤ (broadcasts cfg ⟨seq, []⟩ before).sequence ∧ t.gas ≤ u64Max := by
    rw [split1, ho] at b3
    rw [ho, a3] at q2
    have hb := b4 t (by rw [b3] at ht; exact ht)
    rw [q2] at ht
    simp only [List.nil_append, List.mem_append, List.mem_singleton] at ht
    rcases ht with h | rfl
    · exact ⟨(a4 t h).2.1, hb.2.2⟩
    · exact ⟨Nat.le_refl _, hb.2.2⟩
  have := (C99_sign_bytes a a t t' hn hn (by omega) (by omega) hold.2 h'.2.2 hl e).2.2.2
  subst this
  omega

/-! ### Messages -/

/-- C99: from the bytes that the daemon submits, the chain hands to contracts exactly what handlers and commands meant: who
sends it, to whom, with which funds, and the text of the message; and what is read from the text is the message. -/
theorem C99_contracts_read {G : Wire.Texture} (hG : Wire.Sound G) (a : Account) (sha : ByteList → ByteList)
    (signer : ByteList → Option ByteList) (ps : List Chain.Pending) (gas fee sequence : Nat) (b : ByteList)
    (hs : sequence ≤ u64Max) (hg : gas ≤ u64Max) (hb : b.length ≤ u64Max)
    (h : a.submit sha signer ⟨ps.map (fun p => (executeOf G p).any), gas, fee, sequence⟩ = some b) :
    ∃ v, nodeReads b = some v ∧
      v.msgs.map (fun m => (readExecute m).bind (delivered G.T)) =
        ps.map (fun p => some ⟨p.sender, p.target, p.funds, Wire.write G p.msg⟩) ∧
      ∀ p ∈ ps, Wire.Typed G.L p.msg → ∀ q, Wire.readFor G q (Wire.write G p.msg) = Wire.understood q p.msg := by
  obtain ⟨doc, sig, -, -, hv⟩ := C99_node_reads a sha signer _ b hs hg h hb
  refine ⟨_, hv, ?_, fun p _ hp q => Wire.C95_read hG p.msg hp q⟩
  have hlen : ∀ p ∈ ps, (executeOf G p).any.value.length ≤ u64Max := by
    intro p hp
    rw [Account.submit, Tx.signWith] at h
    cases hsig : signer (sha ((a.tx ⟨ps.map (fun p => (executeOf G p).any), gas, fee, sequence⟩).signBytes a.chainId a.number)) with
    | none => rw [hsig] at h; simp at h
    | some sig =>
      rw [hsig] at h
      simp only [Option.map_some, Option.some.injEq] at h
      subst h
      have h1 := Nat.le_trans (length_body _) hb
      dsimp only at h1
      have h2 := length_many (tag := 1) (l := (ps.map (fun p => (executeOf G p).any)).map (fun m => write m.fields))
        (fun g hg => hg) (write (executeOf G p).any.fields) (by
          rw [List.map_map]; exact List.mem_map.mpr ⟨p, hp, rfl⟩)
      have h3 : (executeOf G p).any.value.length ≤ (write (executeOf G p).any.fields).length :=
        length_raw_part (tag := 2) (fun _ hf => List.mem_append_right _ hf)
      exact Nat.le_trans h3 (Nat.le_trans h2 h1)
  rw [List.map_map]
  refine List.map_congr_left (fun p hp => ?_)
  show (readExecute (executeOf G p).any).bind (delivered G.T) = _
  rw [readExecute_any (hlen p hp), Option.bind_some, delivered]
  simp only [executeOf, hG.faithful.parse_text, Wire.decodeUtf8_utf8Bytes, List.map_map, Function.comp_def, List.map_id']

/-! ### Simulation -/

/-- C99: what is simulated to find the gas has the same messages, key and sequence number as what is then signed, offers no
fee and no gas, and carries zeros instead of a signature. -/
theorem C99_simulated (a : Account) (msgs : List AnyMsg) (sequence : Nat) (hs : sequence ≤ u64Max) :
    ∃ b, a.simulated msgs sequence = some b ∧ (b.length ≤ u64Max →
      nodeReads b = some {
        msgs := msgs
        memo := []
        timeoutHeight := 0
        signers := [⟨some a.key.any, 1, sequence⟩]
        fee := [⟨[], 0⟩]
        gasLimit := 0
        payer := []
        granter := []
        signatures := [List.replicate 64 0] }) := by
  refine ⟨_, rfl, fun hb => ?_⟩
  exact nodeReads_tx (t := ⟨msgs, a.key, sequence, zeroFee⟩) ⟨hs, Nat.zero_le _⟩ hb

end Amp.Proto
