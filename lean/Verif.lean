import Verif.Base.Res
import Verif.Base.Rel
import Verif.Base.UMap
import Verif.MetaVote.Types
import Verif.MetaVote.Voter
import Verif.MetaVote.Internal
import Verif.MetaVote.Lib
import Verif.MetaVote.Withdraw
import Verif.MetaVote.Deposit
import Verif.MetaVote.EvmDelegate
import Verif.MetaVote.Step
import Verif.MetaVote.Views
import Verif.MetaVote.ViewLemmas
import Verif.Spec.MetaVote
import Verif.MetaVote.Lemmas
import Verif.MetaVote.Effects
import Verif.MetaVote.Inv
import Verif.MetaVote.Inv2
import Verif.MetaVote.Frame
import Verif.MetaVote.Reach
import Verif.MetaVote.Exact
import Verif.MetaVote.Trace
import Verif.MetaVote.VoteEffects
import Verif.MetaVote.Dist
import Verif.MetaVote.Cons
import Verif.MetaVote.Cons2
import Verif.Spec.Access
import Verif.MetaVote.Config
import Verif.MetaVote.Page
import Verif.MetaVote.Locked
import Verif.Spec.Positions
import Verif.MetaVote.Clear
import Verif.MetaVote.Loose
import Verif.MetaVote.Ledger
import Verif.MetaVote.Strand
import Verif.MetaVote.Guard
import Verif.MetaVote.Edit
import Verif.MetaVote.Unbond
import Verif.MetaVote.PosInv
import Verif.MetaVote.Mirror
import Verif.Props.Power
import Verif.Props.Votes
import Verif.Props.Funds
import Verif.Props.Transfers
import Verif.Props.Deposits
import Verif.Props.Positions
import Verif.Props.Mirror
import Verif.Props.MirrorOrder
import Verif.Props.Access
import Verif.Props.Delegation
import Verif.Props.Views
import Verif.Props.Migration
import Verif.Mpip.Types
import Verif.Mpip.Lib
import Verif.Mpip.Step
import Verif.Mpip.Views
import Verif.Spec.Mpip
import Verif.Mpip.Effects
import Verif.Mpip.VoteInv
import Verif.Mpip.Trace
import Verif.Mpip.Pending
import Verif.Mpip.Guard
import Verif.Mpip.PropInv
import Verif.Props.MpipVotes
import Verif.Props.MpipProposals
import Verif.Joint.Governance
import Verif.Props.Governance
import Verif.Kv.Model
import Verif.Spec.Kv
import Verif.Props.Kv
import Verif.Token.Model
import Verif.Token.Effects
import Verif.Props.Token
import Verif.Storage.Cells
import Verif.Storage.Keys
import Verif.Storage.Contract
import Verif.Storage.Trace
import Verif.Storage.Bare
import Verif.Storage.Frame
import Verif.Storage.Refine
import Verif.Storage.Simulate
import Verif.Storage.Loose
import Verif.Storage.Power
import Verif.Storage.Views
import Verif.Storage.Length
import Verif.Props.Storage
import Verif.Props.StorageVotes
import Verif.Props.StorageRefines
import Verif.Props.StorageFunds
import Verif.Props.StorageLists
import Verif.MetaVote.Near
import Verif.Props.Exit
import Verif.Props.Rounding
import Verif.Props.StorageExit
import Verif.Joint.Tokens
import Verif.Props.Solvency
import Verif.Spec.Accept
import Verif.MetaVote.Accept
import Verif.MetaVote.AcceptIff
import Verif.Props.Accepted
import Verif.Props.StorageAccepted
import Verif.Spec.MpipAccept
import Verif.Props.MpipAccepted
import Verif.Spec.SmallAccept
import Verif.Props.SmallAccepted
import Verif.MpipStorage.Contract
import Verif.MpipStorage.Store
import Verif.Props.MpipStorage
import Verif.Spec.MpipReplay
import Verif.Props.MpipReplay
import Verif.Spec.TokenLedger
import Verif.Props.TokenLedger
import Verif.Token.Events
import Verif.Spec.TokenEvents
import Verif.Props.TokenEvents
import Verif.Token.Bytes
import Verif.Props.TokenBytes
import Verif.Spec.Book
import Verif.MetaVote.Book
import Verif.Props.Book
import Verif.Props.Observe
import Verif.Props.StorageBook
import Verif.Spec.Logs
import Verif.MetaVote.Logs
import Verif.MetaVote.LogText
import Verif.Props.Logs
import Verif.Spec.MpipBook
import Verif.Props.MpipBook
import Verif.Props.LogLines
import Verif.Mpip.Deposits
import Verif.MetaVote.Deposits
import Verif.Spec.Near
import Verif.Props.Near
import Verif.Disk.Model
import Verif.Spec.Disk
import Verif.Disk.Refine
import Verif.Props.Disk
import Verif.MetaVote.Ranges
import Verif.Borsh.Codec
import Verif.Borsh.Types
import Verif.Spec.Borsh
import Verif.Props.Borsh
import Verif.Borsh.Handle
import Verif.Borsh.Typed
import Verif.Kv.Bytes
import Verif.Props.KvBytes
import Verif.MetaVote.LooseGuard
import Verif.Props.StorageLimits
import Verif.Borsh.Cells
import Verif.Borsh.Vec
import Verif.MetaVote.Bytes
import Verif.MetaVote.BytesRep
import Verif.MetaVote.BytesOps
import Verif.MetaVote.BytesVoter
import Verif.MetaVote.BytesLock
import Verif.MetaVote.BytesRest
import Verif.MetaVote.BytesDelegate
import Verif.MetaVote.BytesVote
import Verif.MetaVote.BytesStep
import Verif.MetaVote.BytesWorld
import Verif.MetaVote.BytesView
import Verif.MetaVote.BytesTrace
import Verif.Props.MetaVoteBytes
import Verif.MetaVote.LogRead
import Verif.Mpip.Bytes
import Verif.Mpip.BytesRep
import Verif.Mpip.BytesStep
import Verif.Mpip.BytesWorld
import Verif.Mpip.BytesView
import Verif.Props.MpipBytes
import Verif.Serde.Json
import Verif.Serde.Round
import Verif.Serde.Types
import Verif.Serde.MetaVoteApi
import Verif.Serde.MpipApi
import Verif.Serde.SmallApi
import Verif.Serde.Wire
import Verif.Serde.Run
import Verif.Serde.Views
import Verif.Serde.ViewsFit
import Verif.Serde.StoredFit
import Verif.Serde.MpipViews
import Verif.Serde.MpipFit
import Verif.Serde.SmallViews
import Verif.Props.Wire
import Verif.Props.WireTokens
import Verif.Props.Api
import Verif.Props.ApiViews
import Verif.Serde.Fits
import Verif.Serde.BytesApi
import Verif.Serde.MpipBytesApi
import Verif.Serde.Base64
import Verif.Serde.SmallBytesApi
import Verif.Spec.JsonText
import Verif.Serde.Grammar
import Verif.Spec.Interface
import Verif.Serde.Given
import Verif.Props.Interface
import Verif.Props.JsonText
import Verif.Props.EndToEnd
import Verif.Props.MpipEndToEnd
import Verif.Props.SmallEndToEnd
import Verif.Joint.Bytes
import Verif.Props.JointBytes
import Verif.Props.StorageFrame
import Verif.Storage.Own
import Verif.Storage.OwnStep
import Verif.Props.VoterVotes
import Verif.Props.VoterVotesBytes
import Verif.Props.Robbed
import Verif.Mpip.Ids
import Verif.Props.ValidIds
import Verif.Joint.TokenBytes
import Verif.Props.SolvencyBytes
import Verif.Props.Wealth
import Verif.Props.WealthBytes
import Verif.Props.WealthSt
import Verif.Props.WealthStBytes
import Verif.Props.Arrives
import Verif.Props.Credited
