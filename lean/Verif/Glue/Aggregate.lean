import Verif.Base.Prelude
import Verif.Router.Types

/-!
# The aggregate verifier (`contracts/aggregate-verifier/src`) and C64

Data travels as JSON text.  `parseJson` and `parseId` are the text parser and the deserialiser of
`CrossChainId`; both are arbitrary parameters.
-/

namespace Amp.Aggregate

open Amp.Router

/-- `cosmwasm_std::Binary` -/
abbrev Bin := List Nat

/-- a JSON value -/
inductive Json
  | null
  | bool (b : Bool)
  | num (n : Int)
  | str (s : Str)
  | arr (l : List Json)
  | obj (l : List (Str × Json))

/-- The serde formats involved, as parameters. -/
structure Format where
  parseJson : Bin → Option Json
  parseId : Json → Option CCId
  /-- base64 decoding, used when a JSON string is read as `Binary` -/
  base64 : Str → Option Bin

/-- serde: a `(CrossChainId, bool)` is an array of exactly two values -/
def parsePair (F : Format) : Json → Option (CCId × Bool)
  | .arr [i, .bool b] =>
    match F.parseId i with
    | none => none
    | some id => some (id, b)
  | _ => none

/-- collect a list of options -/
def allSome {α : Type} : List (Option α) → Option (List α)
  | [] => some []
  | none :: _ => none
  | some a :: t =>
    match allSome t with
    | none => none
    | some l => some (a :: l)

/-- serde: `Vec<(CrossChainId, bool)>` is read from an array only -/
def parsePairs (F : Format) : Json → Option (List (CCId × Bool))
  | .arr l => allSome (l.map (parsePair F))
  | _ => none

/-- serde: `Binary` is read from a base64 string only -/
def parseBinary (F : Format) : Json → Option Bin
  | .str s => F.base64 s
  | _ => none

/-- `error.rs` and `StdError` -/
inductive Err
  | invalidVerifierReply
  | std
  | verifierFailed
  deriving DecidableEq, Repr

/-- What `cw_utils::parse_reply_execute_data` makes of the verifier's reply: an unreadable reply, a reply
without data, or a reply with data. -/
inductive ReplyData
  | unreadable
  | noData
  | data (b : Bin)
  deriving DecidableEq, Repr

/-- `contract.rs:53-66` (`verify_messages`): the one sub-message, (contract, messages); its failure is
not handled (`reply_on_success`), so it fails the transaction. -/
def submessage (verifier : Addr) (ms : List Message) : Addr × List Message := (verifier, ms)

/-- `contract.rs:72-95` (`reply`): the data of the response -/
def reply (F : Format) : ReplyData → Except Err Bin
  | .data b =>
    match F.parseJson b with
    | none => .error .std
    | some j =>
      match parsePairs F j with
      | none => .error .std
      | some _ => .ok b
  | .noData => .error .invalidVerifierReply
  | .unreadable => .error .invalidVerifierReply

/-- A whole `VerifyMessages` call: `run` is the verifier contract being executed with the given
messages (`none`: it fails). -/
def verifyMessages (F : Format) (verifier : Addr)
    (run : Addr → List Message → Option ReplyData) (ms : List Message) : Except Err Bin :=
  match run (submessage verifier ms).1 (submessage verifier ms).2 with
  | none => .error .verifierFailed
  | some r => reply F r

/-- `contract.rs:97-108` (`query`): the verifier's raw answer is read as a `Binary`, which becomes the
raw answer of this query.  `ask` is the verifier's query entry point. -/
def query (F : Format) (verifier : Addr) (ask : Addr → List Message → Option Bin)
    (ms : List Message) : Except Err Bin :=
  match ask verifier ms with
  | none => .error .std
  | some raw =>
    match F.parseJson raw with
    | none => .error .std
    | some j =>
      match parseBinary F j with
      | none => .error .std
      | some b => .ok b

/-! ## Properties -/

/-- C64: a successful call returns, byte for byte, the data with which the configured verifier answered
the very same messages; and that data is a list of (id, verified) pairs. -/
theorem C64_relayed_unchanged_partial (F : Format) (verifier : Addr)
    (run : Addr → List Message → Option ReplyData) (ms : List Message) (b : Bin) :
    verifyMessages F verifier run ms = .ok b ↔
      run verifier ms = some (.data b) ∧
      ∃ j l, F.parseJson b = some j ∧ parsePairs F j = some l := by
  unfold verifyMessages submessage reply
  cases run verifier ms with
  | none => simp
  | some r =>
    cases r with
    | unreadable => simp
    | noData => simp
    | data d =>
      simp only [Option.some.injEq, ReplyData.data.injEq]
      constructor
      · intro h
        split at h
        · simp at h
        · rename_i j hj
          split at h
          · simp at h
          · rename_i l hl
            simp only [Except.ok.injEq] at h
            subst h
            exact ⟨rfl, j, l, hj, hl⟩
      · rintro ⟨rfl, j, l, hj, hl⟩
        simp [hj, hl]

/-- `contracts/voting-verifier/src/execute.rs:86-88`, `msg.rs:71-74`: the voting verifier answers
`VerifyMessages` with an object holding the list. -/
def votingVerifierAnswer (statuses : List Json) : Json :=
  .obj [("verification_statuses".toList, .arr statuses)]

/-- C64 is false with the verifier of this code base: the voting verifier wraps its list in an object,
which the aggregate verifier does not accept.  So every call relayed to a voting verifier fails, whatever
the messages are and however the formats are chosen. -/
theorem C64_voting_verifier_rejected (F : Format) (verifier : Addr)
    (run : Addr → List Message → Option ReplyData) (ms : List Message) (b : Bin)
    (statuses : List Json) (hrun : run verifier ms = some (.data b))
    (hb : F.parseJson b = some (votingVerifierAnswer statuses)) :
    verifyMessages F verifier run ms = .error .std := by
  simp [verifyMessages, submessage, hrun, reply, hb, votingVerifierAnswer, parsePairs]

/-- C64 is false for queries: whenever the verifier answers with a list (as its interface says), the
aggregate verifier's query fails, because it reads the answer as a base64 string. -/
theorem C64_query_never_relays (F : Format) (verifier : Addr)
    (ask : Addr → List Message → Option Bin) (ms : List Message) (raw : Bin) (j : Json)
    (l : List (CCId × Bool)) (hask : ask verifier ms = some raw) (hj : F.parseJson raw = some j)
    (hl : parsePairs F j = some l) : query F verifier ask ms = .error .std := by
  cases j with
  | arr a => simp [query, hask, hj, parseBinary]
  | null => simp [parsePairs] at hl
  | bool b => simp [parsePairs] at hl
  | num n => simp [parsePairs] at hl
  | str s => simp [parsePairs] at hl
  | obj o => simp [parsePairs] at hl

/-! ### non-vacuity -/

/-- a toy format: `[1]` is the text of a list with one pair, `[2]` of the same list in an object -/
def exF : Format where
  parseJson := fun b =>
    if b = [1] then some (.arr [.arr [.str "a".toList, .bool true]])
    else if b = [2] then some (votingVerifierAnswer [.arr [.str "a".toList, .bool true]])
    else none
  parseId := fun
    | .str s => some ⟨"eth".toList, s⟩
    | _ => none
  base64 := fun _ => none

example : verifyMessages exF 7 (fun _ _ => some (.data [1])) [] = .ok [1] := rfl
example : verifyMessages exF 7 (fun _ _ => some (.data [2])) [] = .error .std := rfl
example : query exF 7 (fun _ _ => some [1]) [] = .error .std ∧
    parsePairs exF (.arr [.arr [.str "a".toList, .bool true]]) =
      some [(⟨"eth".toList, "a".toList⟩, true)] := ⟨rfl, rfl⟩

end Amp.Aggregate
