import Verif.Wire.SentTyped
import Verif.Wire.AskLemmas
import Verif.Wire.MsgTyped
import Verif.Wire.MsgReads
import Verif.Wire.TextChainSpec

/-!
# Lemmas for C95: the chain with messages as text does what the chain does
-/

namespace Amp.Wire

open Amp.Router (ChainName Lowering CCId Message)
open Amp.Chain (Msg Params Block World Store Setup Pending Entry Tx Act)

variable {G : Texture} {P : Params}

theorem readFor_write (hG : Sound G) {m : Msg} (h : Typed G.L m) (p : Party) :
    readFor G p (write G m) = understood p m :=
  readText_json G.finite hG.faithful hG.empty hG.unread h p

theorem readFor_typed {p : Party} {t : Str} {m : Msg} (h : readFor G p t = some m) :
    Typed G.L m ∧ understood p m = some m := by
  unfold readFor at h
  cases hf : fromStr G.finite t with
  | none => rw [hf] at h; cases h
  | some j =>
    rw [hf] at h
    exact ⟨readAs_typed h, understood_readAs h⟩

/-- the kind of contract at an address never changes -/
theorem call_party {b : Block} {w : World} {p : Pending} {reply : Option (Option Nat)} {st : Store} {a : Act}
    (h : Chain.call P b w p reply = .ok (st, a)) : (w p.target).map party = some (party st) := by
  unfold Chain.call at h
  split at h
  · simp at h
  all_goals
    rename_i hw
    split at h
    · try dsimp only at h
      split at h
      · simp at h
      · simp only [Except.ok.injEq, Prod.mk.injEq] at h
        rw [← h.1, hw]; rfl
    · simp at h

theorem call_not_understood {b : Block} {w : World} {p : Pending} {reply : Option (Option Nat)} {s : Store}
    (hs : w p.target = some s) (h : understood (party s) p.msg = none) : Chain.call P b w p reply = .error () := by
  unfold Chain.call
  rw [hs]
  cases s <;> cases hm : p.msg <;> rw [hm] at h <;> first
    | rfl
    | (simp [party, understood, routed] at h; done)
    | (rename_i x; cases x <;> simp [party, understood, routed] at h; done)

theorem deliver_not_understood {b : Block} {w : World} {p : Pending} {s : Store}
    (hs : w p.target = some s) (h : understood (party s) p.msg = none) : Chain.deliver P b w p = .error () := by
  unfold Chain.deliver
  rw [hs]
  cases s with
  | prover s sv kt =>
    cases hm : p.msg with
    | prover m => rw [hm] at h; simp [party, understood] at h
    | _ => rfl
  | _ => simp only [call_not_understood hs h]

theorem deliver_absent {b : Block} {w : World} {p : Pending} (hs : w p.target = none) :
    Chain.deliver P b w p = .error () := by
  have : Chain.call P b w p none = .error () := by unfold Chain.call; rw [hs]
  unfold Chain.deliver
  rw [hs]
  simp only [this]

theorem replyData_eq {d : Option Nat} (h : ∀ n, d = some n → n ≤ u64Max) : replyData G d = d := by
  cases d with
  | none => rfl
  | some n =>
    unfold replyData
    rw [Option.bind_some, fromStr_render G.finite (by trivial), Option.bind_some, asUint_jsonUint (h n rfl)]

/-- which contracts there are -/
def Parties (w : World) (σ : Addr → Option Party) : Prop := ∀ a, (w a).map party = σ a

theorem Parties.set {w : World} {σ : Addr → Option Party} (h : Parties w σ) {a : Addr} {s : Store}
    (hs : (w a).map party = some (party s)) : Parties (w.set a s) σ := by
  intro x
  by_cases hx : x = a
  · subst hx
    rw [KV.set_self, ← h x, hs]; rfl
  · rw [KV.set_ne _ _ hx]; exact h x

theorem WorldTyped.set {L : Lowering} {w : World} (h : WorldTyped L w) {a : Addr} {s : Store} (hs : StoreTyped L s) :
    WorldTyped L (w.set a s) := by
  intro x t hx
  by_cases hxa : x = a
  · subst hxa
    rw [KV.set_self] at hx
    simp only [Option.some.injEq] at hx
    rw [← hx]; exact hs
  · rw [KV.set_ne _ _ hxa] at hx; exact h x t hx

/-- a text is read as this message, or neither text nor message is understood -/
def Says (G : Texture) (σ : Addr → Option Party) (q : TextPending) (p : Pending) : Prop :=
  q.sender = p.sender ∧ q.target = p.target ∧ q.funds = p.funds ∧ CoinsFit p.funds ∧
    ∀ k, σ q.target = some k → readFor G k q.text = some p.msg ∨
      (readFor G k q.text = none ∧ understood k p.msg = none)

theorem says_sent (hG : Sound G) (σ : Addr → Option Party) (e : Entry) (h : ∀ o ∈ e.act.outs, Sendable G.L o.2) :
    List.Forall₂ (Says G σ) (sent G e) e.sent := by
  unfold sent Entry.sent
  revert h
  generalize e.act.outs = l
  intro h
  induction l with
  | nil => exact List.Forall₂.nil
  | cons o t ih =>
    refine List.Forall₂.cons ⟨rfl, rfl, rfl, fun c (hc : c ∈ []) => (List.not_mem_nil hc).elim, ?_⟩ (ih (fun x hx => h x (List.mem_cons_of_mem _ hx)))
    intro k _
    obtain ⟨ht, hc⟩ := h o (List.mem_cons_self ..)
    have hr : readFor G k (write G o.2) = understood k o.2 := readFor_write hG ht k
    rcases hc k with h0 | h1
    · exact Or.inr ⟨by rw [← h0]; exact hr, h0⟩
    · exact Or.inl (by rw [← h1]; exact hr)

/-- what was delivered, and what was sent in turn, is of its type -/
def EntryTyped (L : Lowering) (e : Entry) : Prop := Typed L e.p.msg ∧ ∀ o ∈ e.act.outs, Sendable L o.2

/-- two outcomes are the same, up to how the messages sent are represented -/
def SameOut (G : Texture) (σ : Addr → Option Party) :
    Except Unit (World × List Entry × List TextPending) → Except Unit (World × List Entry × List Pending) → Prop
  | .error (), .error () => True
  | .ok (w, es, qs), .ok (w', es', ps) => w = w' ∧ es = es' ∧ List.Forall₂ (Says G σ) qs ps ∧ Parties w σ ∧
      WorldTyped G.L w ∧ ∀ e ∈ es, EntryTyped G.L e
  | _, _ => False

theorem coinsFit_nil : CoinsFit [] := fun c (hc : c ∈ []) => (List.not_mem_nil hc).elim

theorem deliver_same (hG : Sound G) (hX : ∀ b, IsBytes (P.X.keccak b)) {σ : Addr → Option Party} {b : Block}
    (hb : b.height ≤ u64Max) (htm : b.time ≤ u64Max) {w : World} (hσ : Parties w σ) (hw : WorldTyped G.L w) {q : TextPending} {p : Pending}
    (h : Says G σ q p) : SameOut G σ (deliverText G P b w q) (Chain.deliver P b w p) := by
  obtain ⟨e1, e2, e3, hf, hk⟩ := h
  cases hs : w p.target with
  | none =>
    have : receive G w q = none := by unfold receive; rw [e2, hs]
    unfold deliverText
    rw [this, deliver_absent hs]
    trivial
  | some s =>
    have hkk := hk (party s) (by rw [← hσ, e2, hs]; rfl)
    rcases hkk with hr | ⟨hr, hn⟩
    swap
    · have : receive G w q = none := by
        unfold receive; rw [e2, hs]
        show (readFor G (party s) q.text).map _ = none
        rw [hr]; rfl
      unfold deliverText
      rw [this, deliver_not_understood hs hn]
      trivial
    have hp := (readFor_typed hr).1
    have hrec : receive G w q = some p := by
      unfold receive; rw [e2, hs]
      show (readFor G (party s) q.text).map _ = some p
      rw [hr, Option.map_some, e1, e3]
    have plain : (∀ s' sv kt, s ≠ .prover s' sv kt) →
        SameOut G σ (deliverText G P b w q) (Chain.deliver P b w p) := by
      intro hne
      have hd : Chain.deliver P b w p = match Chain.call P b w p none with
          | .error _ => .error ()
          | .ok (s', a) => .ok (w.set p.target s', [⟨p, a⟩], Entry.sent ⟨p, a⟩) := by
        unfold Chain.deliver
        rw [hs]
        cases s with
        | prover s' sv kt => exact absurd rfl (hne s' sv kt)
        | _ => rfl
      have hd' : deliverText G P b w q = match Chain.call P b w p none with
          | .error _ => .error ()
          | .ok (s', a) => .ok (w.set p.target s', [⟨p, a⟩], sent G ⟨p, a⟩) := by
        unfold deliverText
        rw [hrec]
        dsimp only
        rw [hs]
        cases s with
        | prover s' sv kt => exact absurd rfl (hne s' sv kt)
        | _ => dsimp only; rw [call_text hG.faithful hX hw hp]; rfl
      rw [hd, hd']
      cases hc : Chain.call P b w p none with
      | error e => trivial
      | ok y =>
        obtain ⟨st, a⟩ := y
        obtain ⟨t1, t2⟩ := call_typed hX hw hb htm hp hf hc
        refine ⟨rfl, rfl, says_sent hG σ ⟨p, a⟩ t2, hσ.set (call_party hc), hw.set t1, fun e he => ?_⟩
        rw [List.mem_singleton.mp he]
        exact ⟨hp, t2⟩
    cases s with
    | prover s sv kt =>
      cases hm : p.msg with
      | prover m =>
        cases hh : Prover.handle P.X s (Chain.proverEnv P w b s.config sv kt) m with
        | error e =>
          unfold deliverText Chain.deliver
          rw [hrec]
          dsimp only
          rw [hs, hm]
          dsimp only
          rw [handle_text hG.faithful hX hw (hw _ _ hs) (hm ▸ hp), hh]
          trivial
        | ok y =>
          obtain ⟨s1, out⟩ := y
          obtain ⟨⟨ht, _⟩, _⟩ := handle_typed hX hw hb (hw _ _ hs) hh
          have hread := fun k => readFor_write hG ht k
          unfold deliverText Chain.deliver
          rw [hrec]
          dsimp only
          rw [hs, hm]
          dsimp only
          rw [handle_text hG.faithful hX hw (hw _ _ hs) (hm ▸ hp), hh]
          dsimp only
          have refused : receive G w ⟨p.target, s.config.multisig, [], write G (.multisig out.toMultisig)⟩ = none →
              (∀ ms mc mr, Chain.call P b w ⟨p.target, s.config.multisig, [], .multisig out.toMultisig⟩ none ≠
                .ok (ms, .multisig mc mr)) →
              SameOut G σ
                (match receive G w ⟨p.target, s.config.multisig, [], write G (.multisig out.toMultisig)⟩ with
                | none => .error ()
                | some r =>
                  match callText G P b w r none with
                  | .ok (ms, .multisig mc mr) =>
                    match callText G P b w p (some (replyData G mr.data)) with
                    | .error _ => .error ()
                    | .ok (s', a) =>
                      .ok ((w.set p.target s').set r.target ms, [⟨p, a⟩, ⟨r, .multisig mc mr⟩],
                        sent G ⟨r, .multisig mc mr⟩)
                  | _ => .error ())
                (match Chain.call P b w ⟨p.target, s.config.multisig, [], .multisig out.toMultisig⟩ none with
                | .ok (ms, .multisig mc mr) =>
                  match Chain.call P b w p (some mr.data) with
                  | .error _ => .error ()
                  | .ok (s', a) =>
                    .ok ((w.set p.target s').set s.config.multisig ms,
                      [⟨p, a⟩, ⟨⟨p.target, s.config.multisig, [], .multisig out.toMultisig⟩, .multisig mc mr⟩],
                      Entry.sent ⟨⟨p.target, s.config.multisig, [], .multisig out.toMultisig⟩, .multisig mc mr⟩)
                | _ => .error ()) := by
            intro h1 h2
            rw [h1]
            dsimp only
            split
            · rename_i ms mc mr hc
              exact absurd hc (h2 ms mc mr)
            · trivial
          cases hq : w s.config.multisig with
          | none =>
            refine refused (by unfold receive; rw [hq]) (fun ms mc mr hc => ?_)
            unfold Chain.call at hc
            rw [hq] at hc
            simp at hc
          | some t =>
            have hrecv : receive G w ⟨p.target, s.config.multisig, [], write G (.multisig out.toMultisig)⟩ =
                (understood (party t) (.multisig out.toMultisig)).map
                  (fun m => ⟨p.target, s.config.multisig, [], m⟩) := by
              unfold receive; rw [hq]
              dsimp only
              rw [hread]
            cases t with
            | multisig t =>
              have hrecv : receive G w ⟨p.target, s.config.multisig, [], write G (.multisig out.toMultisig)⟩ =
                  some ⟨p.target, s.config.multisig, [], .multisig out.toMultisig⟩ := hrecv
              rw [hrecv]
              dsimp only
              rw [call_text hG.faithful hX hw ht]
              cases hc : Chain.call P b w ⟨p.target, s.config.multisig, [], .multisig out.toMultisig⟩ none with
              | error e => trivial
              | ok y =>
                obtain ⟨ms, act⟩ := y
                obtain ⟨m', s', mr, _, ea, es, hx⟩ := Chain.call_multisig_ok hq hc
                obtain ⟨t1, t2⟩ := call_typed hX hw hb htm ht coinsFit_nil hc
                subst ea
                dsimp only
                rw [replyData_eq (data_multisig hx), call_text hG.faithful hX hw hp]
                cases hc2 : Chain.call P b w p (some mr.data) with
                | error e => trivial
                | ok z =>
                  obtain ⟨st, a⟩ := z
                  obtain ⟨t3, t4⟩ := call_typed hX hw hb htm hp hf hc2
                  have hσ1 := hσ.set (call_party hc2)
                  refine ⟨rfl, rfl, says_sent hG σ _ t2, hσ1.set ?_, (hw.set t3).set t1, fun e he => ?_⟩
                  · rw [hσ1, ← hσ]
                    exact call_party hc
                  · simp only [List.mem_cons, List.not_mem_nil, or_false] at he
                    rcases he with rfl | rfl
                    · exact ⟨hp, t4⟩
                    · exact ⟨ht, t2⟩
            | _ =>
              refine refused hrecv (fun ms mc mr hc => ?_)
              rw [call_not_understood hq rfl] at hc
              cases hc
      | _ =>
        have := (readFor_typed hr).2
        rw [hm] at this
        simp [party, understood] at this
    | _ => exact plain (fun _ _ _ hne => by cases hne)

/-- two runs are the same -/
def SameRun (G : Texture) (σ : Addr → Option Party) :
    Except Unit (World × List Entry) → Except Unit (World × List Entry) → Prop
  | .error (), .error () => True
  | .ok (w, es), .ok (w', es') => w = w' ∧ es = es' ∧ Parties w σ ∧ WorldTyped G.L w ∧ ∀ e ∈ es, EntryTyped G.L e
  | _, _ => False

theorem run_same (hG : Sound G) (hX : ∀ b, IsBytes (P.X.keccak b)) {σ : Addr → Option Party} {b : Block}
    (hb : b.height ≤ u64Max) (htm : b.time ≤ u64Max) (accepts : Addr → Bool) (n : Nat) :
    ∀ {w : World} {qs : List TextPending} {ps : List Pending}, Parties w σ → WorldTyped G.L w →
      List.Forall₂ (Says G σ) qs ps → SameRun G σ (runText G P b accepts n w qs) (Chain.run P b accepts n w ps) := by
  induction n with
  | zero =>
    intro w qs ps hσ hw h
    cases h with
    | nil => exact ⟨rfl, rfl, hσ, hw, fun e he => by cases he⟩
    | cons _ _ => trivial
  | succ n ih =>
    intro w qs ps hσ hw h
    cases h with
    | nil => exact ⟨rfl, rfl, hσ, hw, fun e he => by cases he⟩
    | cons h1 h2 =>
      rename_i q p qs ps
      unfold runText Chain.run
      rw [h1.2.1]
      split
      · exact ih hσ hw h2
      · have hd := deliver_same hG hX hb htm hσ hw h1
        cases hq : deliverText G P b w q with
        | error e =>
          cases hp : Chain.deliver P b w p with
          | error e' => trivial
          | ok y => rw [hq, hp] at hd; exact hd.elim
        | ok x =>
          cases hp : Chain.deliver P b w p with
          | error e' => rw [hq, hp] at hd; exact hd.elim
          | ok y =>
            obtain ⟨w1, es, outs⟩ := x
            obtain ⟨w1', es', outs'⟩ := y
            rw [hq, hp] at hd
            obtain ⟨rfl, rfl, ho, hσ1, hw1, ht1⟩ := hd
            have hr := ih hσ1 hw1 (List.rel_append ho h2)
            dsimp only
            cases hq2 : runText G P b accepts n w1 (outs ++ qs) with
            | error e =>
              cases hp2 : Chain.run P b accepts n w1 (outs' ++ ps) with
              | error e' => trivial
              | ok y => rw [hq2, hp2] at hr; exact hr.elim
            | ok x =>
              cases hp2 : Chain.run P b accepts n w1 (outs' ++ ps) with
              | error e' => rw [hq2, hp2] at hr; exact hr.elim
              | ok y =>
                obtain ⟨w2, fs⟩ := x
                obtain ⟨w2', fs'⟩ := y
                rw [hq2, hp2] at hr
                obtain ⟨rfl, rfl, hσ2, hw2, ht2⟩ := hr
                exact ⟨rfl, rfl, hσ2, hw2, fun e he => (List.mem_append.mp he).elim (ht1 e) (ht2 e)⟩

/-- two transactions that differ in how messages are represented -/
def TxSays (G : Texture) (σ : Addr → Option Party) (t : TextTx) (tx : Tx) : Prop :=
  t.sender = tx.sender ∧ t.block = tx.block ∧ t.accepts = tx.accepts ∧ t.gas = tx.gas ∧
    List.Forall₂ (Says G σ) (t.msgs.map (fun m => ⟨t.sender, m.1, m.2.1, m.2.2⟩))
      (tx.msgs.map (fun m => ⟨tx.sender, m.1, m.2.1, m.2.2⟩))

theorem exec_same (hG : Sound G) (hX : ∀ b, IsBytes (P.X.keccak b)) {σ : Addr → Option Party} {w : World}
    (hσ : Parties w σ) (hw : WorldTyped G.L w) {t : TextTx} {tx : Tx} (hb : InRange t)
    (h : TxSays G σ t tx) : SameRun G σ (execText G P w t) (Chain.exec P w tx) := by
  obtain ⟨e1, e2, e3, e4, hm⟩ := h
  unfold execText Chain.exec
  rw [e1]
  split
  · trivial
  · rw [← e2, ← e3, ← e4]
    rw [e1] at hm
    exact run_same hG hX hb.height hb.time _ _ hσ hw hm

/-- histories of transactions that differ in how messages are represented -/
theorem history_same (hG : Sound G) (hX : ∀ b, IsBytes (P.X.keccak b)) {σ : Addr → Option Party}
    {ts : List TextTx} {txs : List Tx} (h : List.Forall₂ (TxSays G σ) ts txs) :
    ∀ {w : World}, Parties w σ → WorldTyped G.L w → (∀ t ∈ ts, InRange t) →
      runCalls (execText G P) w ts = runCalls (Chain.exec P) w txs ∧
      (outs (execText G P) w ts).flatMap Prod.snd = (outs (Chain.exec P) w txs).flatMap Prod.snd ∧
      ∀ e ∈ (outs (execText G P) w ts).flatMap Prod.snd, EntryTyped G.L e := by
  induction h with
  | nil => intro w _ _ _; exact ⟨rfl, rfl, fun e he => by cases he⟩
  | cons h1 h2 ih =>
    rename_i t tx ts txs
    intro w hσ hw hb
    have hb' : ∀ t ∈ ts, InRange t := fun x hx => hb x (List.mem_cons_of_mem _ hx)
    have hs := exec_same (P := P) hG hX hσ hw (hb t (List.mem_cons_self ..)) h1
    simp only [runCalls_cons, outs]
    cases hq : execText G P w t with
    | error e =>
      cases hp : Chain.exec P w tx with
      | error e' => exact ih hσ hw hb'
      | ok y => rw [hq, hp] at hs; exact hs.elim
    | ok x =>
      cases hp : Chain.exec P w tx with
      | error e' => rw [hq, hp] at hs; exact hs.elim
      | ok y =>
        obtain ⟨w1, es⟩ := x
        obtain ⟨w1', es'⟩ := y
        rw [hq, hp] at hs
        obtain ⟨rfl, rfl, hσ1, hw1, ht1⟩ := hs
        obtain ⟨i1, i2, i3⟩ := ih hσ1 hw1 hb'
        refine ⟨i1, ?_, ?_⟩
        · simp only [List.flatMap_cons, i2]
        · intro e he
          rw [List.flatMap_cons] at he
          exact (List.mem_append.mp he).elim (ht1 e) (i3 e)

/-- the storage after such a history is of its type -/
theorem history_typed (hG : Sound G) (hX : ∀ b, IsBytes (P.X.keccak b)) {σ : Addr → Option Party}
    {ts : List TextTx} {txs : List Tx} (h : List.Forall₂ (TxSays G σ) ts txs) :
    ∀ {w : World}, Parties w σ → WorldTyped G.L w → (∀ t ∈ ts, InRange t) →
      WorldTyped G.L (runCalls (execText G P) w ts) := by
  induction h with
  | nil => intro w _ hw _; exact hw
  | cons h1 h2 ih =>
    rename_i t tx ts txs
    intro w hσ hw hb
    have hb' : ∀ t ∈ ts, InRange t := fun x hx => hb x (List.mem_cons_of_mem _ hx)
    have hs := exec_same (P := P) hG hX hσ hw (hb t (List.mem_cons_self ..)) h1
    simp only [runCalls_cons]
    cases hq : execText G P w t with
    | error e => exact ih hσ hw hb'
    | ok x =>
      cases hp : Chain.exec P w tx with
      | error e' => rw [hq, hp] at hs; exact hs.elim
      | ok y =>
        obtain ⟨w1, es⟩ := x
        obtain ⟨w1', es'⟩ := y
        rw [hq, hp] at hs
        exact ih hs.2.2.1 hs.2.2.2.1 hb'

end Amp.Wire
