import Verif.Ampd.BallotProps
import Verif.Ampd.Broadcaster
import Verif.Ampd.Commands
import Verif.Ampd.CommandsProps
import Verif.Ampd.Config
import Verif.Ampd.ConfigProps
import Verif.Ampd.DaemonProps
import Verif.Ampd.DecCoin
import Verif.Ampd.DecCoinProps
import Verif.Ampd.Events
import Verif.Ampd.EventsLemmas
import Verif.Ampd.EventsProps
import Verif.Ampd.EventsSpec
import Verif.Ampd.EvmLog
import Verif.Ampd.EvmLogExample
import Verif.Ampd.EvmLogProps
import Verif.Ampd.EvmProps
import Verif.Ampd.Handlers
import Verif.Ampd.HandlersSpec
import Verif.Ampd.Pipeline
import Verif.Ampd.PipelineExample
import Verif.Ampd.PipelineProps
import Verif.Ampd.ProgressProps
import Verif.Ampd.QueueProps
import Verif.Ampd.QueueSpec
import Verif.Ampd.Sequence
import Verif.Ampd.SequenceProps
import Verif.Ampd.SigningProps
import Verif.Ampd.StallProps
import Verif.Ampd.Startup
import Verif.Ampd.StartupLemmas
import Verif.Ampd.StartupProps
import Verif.Ampd.StartupSpec
import Verif.Ampd.SuiProps
import Verif.Ampd.Supervise
import Verif.Ampd.SuperviseProps
import Verif.Ampd.TrustProps
import Verif.Ampd.Wire
import Verif.Base.Hex
import Verif.Base.Prelude
import Verif.Base.Steps
import Verif.Base.Strings
import Verif.Chain.AskProps
import Verif.Chain.AskSetLemmas
import Verif.Chain.Bank
import Verif.Chain.BankInv
import Verif.Chain.BankLemmas
import Verif.Chain.BankProps
import Verif.Chain.BooksLemmas
import Verif.Chain.BooksProps
import Verif.Chain.Carried
import Verif.Chain.ContentExample
import Verif.Chain.ContentProps
import Verif.Chain.DaemonsExample
import Verif.Chain.DaemonsProps
import Verif.Chain.Deploy
import Verif.Chain.DeployLemmas
import Verif.Chain.DeployProps
import Verif.Chain.DeploySpec
import Verif.Chain.EventExample
import Verif.Chain.EventProps
import Verif.Chain.Example
import Verif.Chain.JoinExample
import Verif.Chain.JoinLemmas
import Verif.Chain.JoinProps
import Verif.Chain.Lemmas
import Verif.Chain.LogExample
import Verif.Chain.LogProps
import Verif.Chain.Model
import Verif.Chain.OriginLemmas
import Verif.Chain.PipelineExample
import Verif.Chain.PipelineProps
import Verif.Chain.ProgressExample
import Verif.Chain.ProgressProps
import Verif.Chain.ProofCompleted
import Verif.Chain.ProofExample
import Verif.Chain.ProofLemmas
import Verif.Chain.ProofProps
import Verif.Chain.Props
import Verif.Chain.ProverExample
import Verif.Chain.ProverLemmas
import Verif.Chain.ProverProps
import Verif.Chain.RecordLemmas
import Verif.Chain.RecordProps
import Verif.Chain.RelayLemmas
import Verif.Chain.RelaySpec
import Verif.Chain.RotationExample
import Verif.Chain.RotationProps
import Verif.Chain.SignLemmas
import Verif.Chain.SignedLemmas
import Verif.Chain.Spec
import Verif.Chain.Structure
import Verif.Chain.TrustExample
import Verif.Chain.TrustProps
import Verif.Chain.TrustSpec
import Verif.Encoding.Abi
import Verif.Encoding.AbiLemmas
import Verif.Encoding.AbiProps
import Verif.Encoding.AbiSpec
import Verif.Encoding.AbiTotal
import Verif.Encoding.AbiVectors
import Verif.Encoding.Bcs
import Verif.Encoding.BcsLemmas
import Verif.Encoding.BcsProps
import Verif.Encoding.BcsSpec
import Verif.Encoding.BcsTotal
import Verif.Encoding.BcsVectors
import Verif.Encoding.Bytes
import Verif.Encoding.ExecuteOctets
import Verif.Encoding.Octets
import Verif.Encoding.Sort
import Verif.Encoding.Types
import Verif.Gateway.Model
import Verif.Gateway.Props
import Verif.Gateway.Spec
import Verif.Glue.Aggregate
import Verif.Glue.Batching
import Verif.Multisig.Lemmas
import Verif.Multisig.Model
import Verif.Multisig.Props
import Verif.Multisig.Spec
import Verif.Nexus.Model
import Verif.Nexus.Props
import Verif.Nexus.Spec
import Verif.Proto.AccountProps
import Verif.Proto.Tx
import Verif.Proto.TxExamples
import Verif.Proto.TxLemmas
import Verif.Proto.TxProps
import Verif.Proto.TxSpec
import Verif.Proto.Wire
import Verif.Proto.WireLemmas
import Verif.Prover.BatchIds
import Verif.Prover.BatchProps
import Verif.Prover.Content
import Verif.Prover.Encodable
import Verif.Prover.EncodableExample
import Verif.Prover.Example
import Verif.Prover.Lemmas
import Verif.Prover.Model
import Verif.Prover.Optimize
import Verif.Prover.Progress
import Verif.Prover.SetLemmas
import Verif.Prover.SetProps
import Verif.Prover.Signed
import Verif.Prover.Spec
import Verif.Prover.System
import Verif.Prover.SystemExample
import Verif.Prover.SystemProps
import Verif.Registry.Lemmas
import Verif.Registry.Model
import Verif.Registry.Props
import Verif.Registry.Spec
import Verif.Registry.State
import Verif.Rewards.Accepts
import Verif.Rewards.Books
import Verif.Rewards.Lemmas
import Verif.Rewards.Model
import Verif.Rewards.Props
import Verif.Rewards.Spec
import Verif.Router.Lemmas
import Verif.Router.Model
import Verif.Router.Props
import Verif.Router.Spec
import Verif.Router.Types
import Verif.Std.Lemmas
import Verif.Std.Model
import Verif.Std.Operators
import Verif.Std.Props
import Verif.Std.Report
import Verif.Std.ReportProps
import Verif.Std.Spec
import Verif.Store.Model
import Verif.Store.Props
import Verif.VV.Lemmas
import Verif.VV.Model
import Verif.VV.ProgressProps
import Verif.VV.Props
import Verif.VV.RecordProps
import Verif.VV.Spec
import Verif.Wire.AgainExample
import Verif.Wire.AgainProps
import Verif.Wire.Api
import Verif.Wire.ApiExamples
import Verif.Wire.ApiProps
import Verif.Wire.ApiSpec
import Verif.Wire.AskLemmas
import Verif.Wire.AskedExample
import Verif.Wire.AskedProps
import Verif.Wire.Base64
import Verif.Wire.CarryExample
import Verif.Wire.CarryLemmas
import Verif.Wire.CarryProps
import Verif.Wire.CarrySpec
import Verif.Wire.DaemonMsgs
import Verif.Wire.DeployText
import Verif.Wire.DeployTextExamples
import Verif.Wire.DeployTextProps
import Verif.Wire.DeployTextSpec
import Verif.Wire.EndToEndExample
import Verif.Wire.EndToEndLemmas
import Verif.Wire.EndToEndProps
import Verif.Wire.EndToEndSpec
import Verif.Wire.EventLemmas
import Verif.Wire.Events
import Verif.Wire.Examples
import Verif.Wire.FitLemmas
import Verif.Wire.Format
import Verif.Wire.HashExamples
import Verif.Wire.HashProps
import Verif.Wire.HashSpec
import Verif.Wire.HashText
import Verif.Wire.Instantiate
import Verif.Wire.InstantiateExamples
import Verif.Wire.InstantiateLemmas
import Verif.Wire.InstantiateProps
import Verif.Wire.InstantiateSpec
import Verif.Wire.JoinTextExample
import Verif.Wire.JoinTextProps
import Verif.Wire.JoinTextSpec
import Verif.Wire.Json
import Verif.Wire.JsonLemmas
import Verif.Wire.LeaveExample
import Verif.Wire.LeaveProps
import Verif.Wire.LeaveSpec
import Verif.Wire.Log
import Verif.Wire.LogExamples
import Verif.Wire.LogLemmas
import Verif.Wire.LogMultisig
import Verif.Wire.LogProps
import Verif.Wire.LogSpec
import Verif.Wire.MsgExamples
import Verif.Wire.MsgLemmas
import Verif.Wire.MsgProps
import Verif.Wire.MsgReads
import Verif.Wire.MsgSpec
import Verif.Wire.MsgTyped
import Verif.Wire.Msgs
import Verif.Wire.PaidExample
import Verif.Wire.PaidProps
import Verif.Wire.PollLogExample
import Verif.Wire.PollLogLemmas
import Verif.Wire.PollLogProps
import Verif.Wire.PollLogSpec
import Verif.Wire.Props
import Verif.Wire.Queries
import Verif.Wire.QueryExamples
import Verif.Wire.QueryLemmas
import Verif.Wire.QueryProps
import Verif.Wire.QuerySpec
import Verif.Wire.ReadLemmas
import Verif.Wire.RequestExample
import Verif.Wire.RequestProps
import Verif.Wire.RotateExample
import Verif.Wire.RotateProps
import Verif.Wire.RotateSpec
import Verif.Wire.SentTyped
import Verif.Wire.SignedExample
import Verif.Wire.SignedLemmas
import Verif.Wire.SignedProps
import Verif.Wire.SignedSpec
import Verif.Wire.Spec
import Verif.Wire.StopExample
import Verif.Wire.StopProps
import Verif.Wire.StopSpec
import Verif.Wire.StoreTyped
import Verif.Wire.Stored
import Verif.Wire.StoredExamples
import Verif.Wire.StoredFits
import Verif.Wire.StoredFits2
import Verif.Wire.StoredProps
import Verif.Wire.StoredReads
import Verif.Wire.StoredRun
import Verif.Wire.StoredSpec
import Verif.Wire.SuiEvents
import Verif.Wire.SuiEventsExample
import Verif.Wire.SuiEventsProps
import Verif.Wire.SuiEventsSpec
import Verif.Wire.SuiNetExample
import Verif.Wire.TextChain
import Verif.Wire.TextChainLemmas
import Verif.Wire.TextChainSpec
import Verif.Wire.TextLemmas
import Verif.Wire.Users
import Verif.Wire.UsersExamples
import Verif.Wire.UsersLemmas
import Verif.Wire.UsersProps
import Verif.Wire.UsersSpec
