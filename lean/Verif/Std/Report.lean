import Verif.Base.Prelude

/-!
# Errors as they are shown (`packages/report`)

Contracts answer a rejected call with the text of a `LoggableError` and the daemon logs its fields.  Both are
made from an error-stack `Report`, which is a forest of frames.
-/

namespace Amp.Report

/-- `loggable.rs:118-124` (`FrameType`): a frame as the code tells them apart.  Contexts and printable
attachments are taken as the text they print, locations and backtraces as text. -/
inductive Part where
  | context (msg : Str)
  | location (l : Str)
  | backtrace (lines : List Str)
  | printable (s : Str)
  | opaque
  deriving DecidableEq

/-- a frame of error-stack (external): what it holds and the frames below it -/
inductive Frame where
  | mk (part : Part) (sources : List Frame)

mutual
/-- the frames of a frame, outermost first (external: `Report::frames`, which goes depth first) -/
def Frame.walk : Frame → List Part
  | .mk p l => p :: walkAll l

/-- `Report::frames` (external) -/
def walkAll : List Frame → List Part
  | [] => []
  | f :: l => f.walk ++ walkAll l
end

/-- `loggable.rs:11-18` (`LoggableError`) -/
inductive LoggableError where
  | mk (msg : Str) (attachments : List Str) (location : Str) (cause : Option LoggableError)
      (backtrace : Option (List Str))

/-- one error while it is collected; `cause` is not known yet -/
structure Entry where
  msg : Str
  attachments : List Str
  location : Str
  backtrace : Option (List Str)
  deriving DecidableEq

/-- `LoggableError::default()` -/
def Entry.empty : Entry := ⟨[], [], [], none⟩

/-- `loggable.rs:52-78`: the inner loop; the error so far (attachments in the order they are pushed) and the
frames left -/
def collect : Entry → List Part → Entry × List Part
  | e, [] => (e, [])
  | e, .context c :: l => ({ e with msg := c }, l)
  | e, .location loc :: l => collect { e with location := loc } l
  | e, .printable p :: l => collect { e with attachments := e.attachments ++ [p] } l
  | e, .opaque :: l => collect { e with attachments := e.attachments ++ ["opaque attachment".toList] } l
  | e, .backtrace b :: l => collect { e with backtrace := some b } l

/-- `loggable.rs:48-84`: the outer loop.  Every round takes at least one frame, so the number of frames is
enough fuel (`errors_enough`). -/
def errorsOf : Nat → List Part → List Entry
  | _, [] => []
  | 0, _ :: _ => []
  | n + 1, p :: l =>
    let x := collect .empty (p :: l)
    { x.1 with attachments := x.1.attachments.reverse } :: errorsOf n x.2

/-- `loggable.rs:90-99` (`chain_causes`) -/
def chainCauses (l : List Entry) : Option LoggableError :=
  l.reverse.foldl (fun acc e => some (.mk e.msg e.attachments e.location acc e.backtrace)) none

/-- `loggable.rs:44-88` (`LoggableError::from`); `none` is the panic of `expect` -/
def LoggableError.ofReport (frames : List Frame) : Option LoggableError :=
  chainCauses (errorsOf (walkAll frames).length (walkAll frames))

/-- `loggable.rs:20-40` (`Display`); `debug` is how Rust prints a string with `{:?}` (external) -/
def LoggableError.text (debug : Str → Str) : LoggableError → Str
  | .mk msg att _ cause _ =>
    let m := if att = [] then msg
      else msg ++ " (".toList ++ List.intercalate ", ".toList (att.map debug) ++ ")".toList
    match cause with
    | none => m
    | some c => m ++ ": ".toList ++ c.text debug

/-! ## Reports as they come about -/

/-- How a report comes about: `report!(error)`, `attach_printable`, `attach` (a value that cannot be
printed), `change_context`, and `extend_one`. -/
inductive History where
  | start (msg loc : Str) (backtrace : Option (List Str))
  | attach (h : History) (note : Option Str)
  | change (h : History) (msg loc : Str)
  | join (h other : History)

/-- the frames of such a report (external: error-stack 0.4, `Report::from_frame`, `attach`, `change_context`,
`extend_one`).  A location, and a backtrace where there is one, is put right above each new context. -/
def History.frames : History → List Frame
  | .start c loc none => [.mk (.location loc) [.mk (.context c) []]]
  | .start c loc (some b) => [.mk (.backtrace b) [.mk (.location loc) [.mk (.context c) []]]]
  | .attach h (some p) => [.mk (.printable p) h.frames]
  | .attach h none => [.mk .opaque h.frames]
  | .change h c loc => [.mk (.location loc) [.mk (.context c) h.frames]]
  | .join h o => h.frames ++ o.frames

end Amp.Report
