import Verif.Model.Basic
import Verif.Model.Utf8
import Verif.Model.Constants
import Verif.Model.Extensions
import Verif.Model.Strings
import Verif.Model.MysqlGtid
import Verif.Model.MariaGtid
import Verif.Spec.GtidSet
import Verif.Lemmas.Intervals
import Verif.Lemmas.HMap
import Verif.Lemmas.GtidAdd
import Verif.Lemmas.Uuid
import Verif.Lemmas.Utf8
import Verif.Lemmas.SortStrings
import Verif.Props.MysqlGtid
import Verif.Spec.GtidText
import Verif.Lemmas.Strings
import Verif.Lemmas.GtidText
import Verif.Lemmas.MariaText
import Verif.Lemmas.GtidReturns
import Verif.Props.GtidText
import Verif.Model.Cells
import Verif.Model.EventParser
import Verif.Model.Events
import Verif.Model.Rows
import Verif.Model.TableMap
import Verif.Spec.Events
import Verif.Spec.TableMap
import Verif.Spec.Wire
import Verif.Lemmas.Bitmaps
import Verif.Lemmas.Events
import Verif.Lemmas.Format
import Verif.Lemmas.Parses
import Verif.Lemmas.TableMap
import Verif.Props.Events
import Verif.Props.TableMap
import Verif.Spec.Cells
import Verif.Spec.Rows
import Verif.Lemmas.Cells
import Verif.Lemmas.Decimal
import Verif.Lemmas.Rows
import Verif.Props.Rows
import Verif.Spec.Decoder
import Verif.Props.Decoder
import Verif.Spec.Safety
import Verif.Lemmas.Decoded
import Verif.Lemmas.Progress
import Verif.Lemmas.Safe
import Verif.Props.Safety
import Verif.Model.Channel
import Verif.Model.Client
import Verif.Model.Commands
import Verif.Model.Iterators
import Verif.Model.Options
import Verif.Model.Responses
import Verif.Model.Session
import Verif.Spec.Auth
import Verif.Spec.Packets
import Verif.Lemmas.Packets
import Verif.Props.Auth
import Verif.Props.Packets
import Verif.Spec.Stream
import Verif.Lemmas.Client
import Verif.Lemmas.Session
import Verif.Props.Client
import Verif.Props.Commit
import Verif.Spec.Log
import Verif.Props.Log
import Verif.Spec.Files
import Verif.Spec.Frames
import Verif.Lemmas.Channel
import Verif.Lemmas.Header
import Verif.Props.Channel
import Verif.Props.LiveStream
import Verif.Props.Reader
import Verif.Spec.SetUp
import Verif.Lemmas.ExampleServer
import Verif.Lemmas.Hoare
import Verif.Props.Connect
import Verif.Props.DumpRequest
import Verif.Props.Requests
import Verif.Props.ServerErrors
import Verif.Spec.Login
import Verif.Props.Login
import Verif.Props.Password
import Verif.Props.SetUpWorks
import Verif.Props.EndToEnd
import Verif.Spec.Written
import Verif.Spec.GtidGrammar
import Verif.Props.GtidGrammar
import Verif.Spec.Recorded
import Verif.Props.Recorded
import Verif.Props.Reported
import Verif.Spec.Crash
import Verif.Props.Crashes
import Verif.Spec.Accepted
import Verif.Lemmas.Exact
import Verif.Lemmas.ExactEvents
import Verif.Props.Accepted
import Verif.Spec.AcceptedRows
import Verif.Lemmas.ExactRowEvents
import Verif.Lemmas.ExactRows
import Verif.Props.AcceptedRows
import Verif.Spec.AcceptedPackets
import Verif.Lemmas.ExactPackets
import Verif.Props.AcceptedPackets
import Verif.Spec.Dialogue
import Verif.Lemmas.Dialogue
import Verif.Lemmas.DialogueRuns
import Verif.Props.Dialogue
import Verif.Spec.Endings
import Verif.Lemmas.Continues
import Verif.Lemmas.Endings
import Verif.Props.Endings
import Verif.Spec.Faults
import Verif.Lemmas.Faults
import Verif.Lemmas.FaultsEvents
import Verif.Lemmas.FaultsRows
import Verif.Props.Faults
import Verif.Spec.Errors
import Verif.Lemmas.ErrorsEvents
import Verif.Lemmas.ErrorsRows
import Verif.Props.Errors
import Verif.Spec.Iteration
import Verif.Props.Iteration
import Verif.Spec.Sessions
import Verif.Props.Sessions
import Verif.Spec.GtidRefusal
import Verif.Props.GtidRefusal
import Verif.Model.Network
import Verif.Spec.Plans
import Verif.Props.Plans
import Verif.Spec.GtidWhole
import Verif.Lemmas.GtidWhole
import Verif.Props.GtidWhole
import Verif.Spec.Outcomes
import Verif.Spec.Writes
import Verif.Lemmas.Writes
import Verif.Props.Opening
import Verif.Props.Writes
import Verif.Props.GtidEntries
import Verif.Props.LargeEvents
import Verif.Props.Reconnect
import Verif.Spec.Life
import Verif.Props.Life
import Verif.Props.Timeouts
import Verif.Props.Growing
import Verif.Lemmas.DumpRead
import Verif.Props.Deliveries
import Verif.Spec.Resume
import Verif.Lemmas.Resume
import Verif.Props.DeliveriesMaria
import Verif.Props.DeliveriesFile
import Verif.Spec.FileCalls
import Verif.Props.FileCalls
import Verif.Spec.MariaLists
import Verif.Props.MariaLists
import Verif.Model.GtidDisplay
import Verif.Props.GtidDisplay
import Verif.Props.RepoTests
import Verif.Spec.Compressed
import Verif.Props.Compressed
import Verif.Spec.CompressedMaria
import Verif.Props.CompressedMaria
import Verif.Props.Resume
import Verif.Props.CompressedMixed
import Verif.Spec.AnyValues
import Verif.Props.AnyValues
import Verif.Spec.AnyText
import Verif.Props.AnyText
import Verif.Spec.NewTables
import Verif.Props.NewTables
import Verif.Model.Memory
import Verif.Spec.Memory
import Verif.Lemmas.Frugal
import Verif.Lemmas.FrugalEvents
import Verif.Lemmas.Memory
import Verif.Props.Memory
import Verif.Spec.Stored
import Verif.Lemmas.Stored
import Verif.Props.Stored
import Verif.Spec.Copy
import Verif.Props.Copy
import Verif.Model.ReadMemory
import Verif.Props.ReadMemory
import Verif.Props.CopyMaria
import Verif.Spec.Tables
import Verif.Props.Tables
import Verif.Props.TablesSessions
import Verif.Props.TablesFile
import Verif.Spec.Images
import Verif.Props.Images
import Verif.Props.ImagesSessions
import Verif.Props.CatchUp
import Verif.Props.CatchUpFile
import Verif.Props.NewClient
import Verif.Spec.Refused
import Verif.Props.Refused
import Verif.Props.CatchUpTables
import Verif.Spec.RefusedFile
import Verif.Props.RefusedFile
import Verif.Spec.Profiles
import Verif.Props.Profiles
import Verif.Spec.MapOrder
import Verif.Props.MapOrder
import Verif.Props.CommitOrder
import Verif.Props.TablesApart
import Verif.Props.RefusedMaria
import Verif.Spec.Causality
import Verif.Props.Causality
import Verif.Spec.Sparse
import Verif.Props.Sparse
import Verif.Props.ConsumerMaria
import Verif.Props.SparseMaria
import Verif.Spec.Lagging
import Verif.Props.Lagging
import Verif.Props.LaggingMaria
import Verif.Spec.Keyed
import Verif.Props.Keyed
import Verif.Spec.LaggingFile
import Verif.Props.LaggingFile
import Verif.Spec.Restarts
import Verif.Props.Restarts
import Verif.Props.RestartsMaria
import Verif.Props.Snapshots
import Verif.Props.SnapshotsMaria
import Verif.Spec.RowSize
import Verif.Props.RowSize
import Verif.Props.SnapshotsFile
import Verif.Spec.EventSize
import Verif.Props.EventSize
import Verif.Spec.KeyedSome
import Verif.Props.KeyedSome
import Verif.Props.KeyedSomeFile
import Verif.Props.KeyedSomeFileOlder
import Verif.Props.KeyedSomeOlder
import Verif.Spec.MostSent
import Verif.Props.MostSent
