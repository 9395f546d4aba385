import Verif.Wire.MsgProps
import Verif.Wire.QuerySpec

/-!
# C96: questions between contracts survive being written and read

While it is called, a contract asks others: the gateway its verifier, the verifier the service registry, the prover gateway,
registry, multisig contract and verifier.  Question and answer are JSON texts.
-/

namespace Amp.Wire

open Amp.Router (ChainName Lowering CCId Message)
open Amp.Chain (Msg Params Block World Store Setup Pending Entry Tx Act answer)

variable {G : Texture} {P : Params} {setup : Setup}

theorem typed_after (hG : Sound G) (hX : ∀ b, IsBytes (P.X.keccak b)) (hs : SetupTyped G.L setup) {ts : List TextTx}
    (hb : ∀ t ∈ ts, InRange t) : WorldTyped G.L (textWorldAfter G P setup ts) :=
  history_typed hG hX (forall₂_map ts (fun t ht => says_meaning t (hb t ht))) (parties_genesis setup) (typed_genesis hs) hb

theorem ask_map {α β : Type} {w : World} {a : Addr} {q : Json} (read : Json → Option α) (f : α → β) :
    ask G P w a q (fun j => (read j).map f) = (ask G P w a q read).map f := by
  unfold ask
  split
  · rfl
  split
  · rfl
  · rename_i j _
    cases fromStr G.finite j.render <;> rfl

/-- C96: after every history, whatever one contract asks another, with question and answer as text: it learns exactly what the
contract asked has to say, and a contract of another kind gives no answer. -/
theorem C96_answer (hG : Sound G) (hX : ∀ b, IsBytes (P.X.keccak b)) (hs : SetupTyped G.L setup) (ts : List TextTx)
    (hb : ∀ t ∈ ts, InRange t) (a : Addr) (q : Question) (hq : q.Typed G.L) :
    ask G P (textWorldAfter G P setup ts) a (q.json G.T) (q.read G) =
      (textWorldAfter G P setup ts a).bind (q.truth P) := by
  have hw := typed_after (P := P) hG hX hs hb
  revert hw
  generalize textWorldAfter G P setup ts = w
  intro hw
  have std : ∀ {α : Type} {x : Option α} {y : Except Encoding.Err α}, orStd x = y → x = answer y := by
    intro α x y h
    rw [← h]
    cases x <;> rfl
  cases q with
  | isVerified ms =>
    refine (ask_map (asStatuses G.L) Reply.statuses).trans ?_
    rw [show Question.json G.T (.isVerified ms) = askIsVerified ms from rfl, ask_isVerified hq]
    unfold Chain.askVerifier
    cases w a with
    | none => rfl
    | some s => cases s <;> rfl
  | isSetVerified o =>
    refine (ask_map asBool Reply.verified).trans ?_
    rw [show Question.json G.T (.isSetVerified o) = askIsSetVerified o from rfl, std (ask_isSetVerified (P := P) hq)]
    unfold Chain.askSet
    cases w a with
    | none => rfl
    | some s =>
      cases s with
      | verifier s =>
        show (answer _).map _ = (answer (VV.isWorkerSetVerified P.H s o)).map _
        dsimp only
        cases VV.isWorkerSetVerified P.H s o <;> rfl
      | _ => rfl
  | getMessages ids =>
    refine (ask_map (asVec (asMessage G.L)) Reply.messages).trans ?_
    rw [show Question.json G.T (.getMessages ids) = askGetMessages ids from rfl, std (ask_getMessages (P := P) hw hq)]
    unfold Chain.askGateway
    cases w a with
    | none => rfl
    | some s =>
      cases s with
      | gateway s =>
        show (answer _).map _ = (answer (Gateway.getMessages s ids)).map _
        dsimp only
        cases Gateway.getMessages s ids <;> rfl
      | _ => rfl
  | activeWorkers sv c =>
    refine (ask_map (asVec (asWorker G.T)) Reply.workers).trans ?_
    rw [show Question.json G.T (.activeWorkers sv c) = askActiveWorkers sv c from rfl,
      ask_activeWorkers (P := P) hG.faithful hw hq]
    unfold Chain.askWorkers
    cases w a with
    | none => rfl
    | some s => cases s <;> rfl
  | publicKey x kt =>
    refine (ask_map asPublicKey Reply.key).trans ?_
    rw [show Question.json G.T (.publicKey x kt) = askPublicKey G.T x kt from rfl,
      std (ask_publicKey (P := P) hG.faithful hw)]
    unfold Chain.askKey
    cases w a with
    | none => rfl
    | some s =>
      cases s with
      | multisig s =>
        show (answer _).map _ = (answer (Multisig.getPublicKey s x kt)).map _
        dsimp only
        cases Multisig.getPublicKey s x kt <;> rfl
      | _ => rfl
  | getMultisig id =>
    refine (ask_map (asSession G.T) Reply.session).trans ?_
    rw [show Question.json G.T (.getMultisig id) = askGetMultisig id from rfl,
      ask_getMultisig (P := P) hG.faithful hw hq]
    cases w a with
    | none => rfl
    | some s => cases s <;> rfl

/-- C96: after every history, a call whose questions and answers are texts does what the call of `Chain/Model.lean`, which
hands values from contract to contract, does: it fails or succeeds the same, with the same effects. -/
theorem C96_call (hG : Sound G) (hX : ∀ b, IsBytes (P.X.keccak b)) (hs : SetupTyped G.L setup) (ts : List TextTx)
    (hb : ∀ t ∈ ts, InRange t) (b : Block) (q : TextPending) (p : Pending) (reply : Option (Option Nat))
    (h : receive G (textWorldAfter G P setup ts) q = some p) :
    callText G P b (textWorldAfter G P setup ts) p reply = Chain.call P b (textWorldAfter G P setup ts) p reply := by
  refine call_text hG.faithful hX (typed_after hG hX hs hb) ?_ reply
  unfold receive at h
  split at h
  · cases h
  · rename_i s _
    cases hr : readFor G (party s) q.text with
    | none => rw [hr] at h; cases h
    | some m =>
      rw [hr] at h
      simp only [Option.map_some, Option.some.injEq] at h
      rw [← h]
      exact (readFor_typed hr).1

/-- C96: after every history, the proof that the prover hands out is the one it hands out if it is told the state of the
session and the signatures as values. -/
theorem C96_proof (hG : Sound G) (hX : ∀ b, IsBytes (P.X.keccak b)) (hs : SetupTyped G.L setup) (ts : List TextTx)
    (hb : ∀ t ∈ ts, InRange t) (a : Addr) (sid : Nat) (h : sid ≤ u64Max) :
    answer (askProofText G P (textWorldAfter G P setup ts) a sid) =
      answer (Chain.askProof P (textWorldAfter G P setup ts) a sid) :=
  proof_text hG.faithful (typed_after hG hX hs hb) h

/-- C96: two questions with the same text are the same question. -/
theorem C96_distinct (hG : Sound G) (q r : Question) (hq : q.Typed G.L) (hr : r.Typed G.L)
    (h : (q.json G.T).render = (r.json G.T).render) : q = r := by
  have fits : ∀ x : Question, (x.json G.T).Fits 128 := by
    intro x
    cases x with
    | isVerified ms => exact fits_isVerified ms
    | isSetVerified o => exact fits_isSetVerified o
    | getMessages ids => exact fits_getMessages ids
    | activeWorkers sv c => exact fits_activeWorkers sv c
    | publicKey a kt => exact fits_askKey a kt
    | getMultisig id => exact fits_getMultisig id
  have hj : q.json G.T = r.json G.T := by
    have h1 := fromStr_render G.finite (fits q)
    rw [h, fromStr_render G.finite (fits r)] at h1
    exact (Option.some.inj h1).symm
  cases q <;> cases r <;>
    simp only [Question.json, askIsVerified, askIsSetVerified, askGetMessages, askActiveWorkers, askPublicKey,
      askGetMultisig, Json.obj.injEq, List.cons.injEq, Prod.mk.injEq, and_true, true_and] at hj <;>
    first
    | exact absurd hj.1 (by decide)
    | skip
  case isVerified.isVerified ms ns =>
    have h1 := asMessages_json hq
    rw [hj, asMessages_json hr] at h1
    rw [Option.some.inj h1]
  case isSetVerified.isSetVerified ms ns =>
    have h1 := asOperators_json hq
    rw [hj, asOperators_json hr] at h1
    rw [Option.some.inj h1]
  case getMessages.getMessages ms ns =>
    have h1 := asVec_map (fun i hi => asCCId_json (hq i hi))
    rw [hj, asVec_map (fun i hi => asCCId_json (hr i hi))] at h1
    rw [Option.some.inj h1]
  case activeWorkers.activeWorkers a b c d =>
    simp only [Json.str.injEq] at hj
    rw [hj.1, hj.2]
  case publicKey.publicKey a b c d =>
    have h1 := asAddr_str hG.faithful a
    rw [hj.1, asAddr_str hG.faithful c] at h1
    have h2 := asKeyType_json b
    rw [hj.2, asKeyType_json d] at h2
    rw [Option.some.inj h1, Option.some.inj h2]
  case getMultisig.getMultisig a b =>
    have h1 := asUint_jsonUint hq
    rw [hj, asUint_jsonUint hr] at h1
    rw [Option.some.inj h1]

end Amp.Wire
