import Verif.Go.Basic
import Verif.Go.Time
import Verif.Go.Regex
import Verif.Model.Specs
import Verif.Model.Converter
import Verif.Model.Segment
import Verif.Model.Record
import Verif.Model.File
import Verif.Spec.Text
import Verif.Spec.Fits
import Verif.Lemmas.Digits
import Verif.Lemmas.Text
import Verif.Lemmas.Bytes
import Verif.Lemmas.Time
import Verif.Lemmas.Field
import Verif.Lemmas.ParseInt
import Verif.Lemmas.Utf8
import Verif.Props.Fields
import Verif.Spec.Layout
import Verif.Lemmas.Table
import Verif.Lemmas.RecordText
import Verif.Lemmas.NoPanic
import Verif.Props.Tables
import Verif.Spec.Records
import Verif.Lemmas.RoundTrip
import Verif.Lemmas.SegText
import Verif.Lemmas.RecordParse
import Verif.Lemmas.Check
import Verif.Lemmas.Safe
import Verif.Props.Samples
import Verif.Props.Records
import Verif.Lemmas.ParseInv
import Verif.Spec.Reread
import Verif.Lemmas.Reread
import Verif.Lemmas.RecordInv
import Verif.Props.Reread
import Verif.Spec.Store
import Verif.Lemmas.Store
import Verif.Lemmas.FileParse
import Verif.Props.Store
import Verif.Props.Parse
import Verif.Spec.Totals
import Verif.Lemmas.Totals
import Verif.Spec.Files
import Verif.Lemmas.Files
import Verif.Props.Totals
import Verif.Props.Files
import Verif.Lemmas.Validate
import Verif.Spec.WellFormed
import Verif.Lemmas.WellFormed
import Verif.Props.Validate
import Verif.Model.Concurrent
import Verif.Lemmas.Concurrent
import Verif.Spec.FileText
import Verif.Props.Concurrent
import Verif.Spec.GoodFile
import Verif.Lemmas.GoodFile
import Verif.Lemmas.PlainText
import Verif.Lemmas.FileRead
import Verif.Props.FileRead
import Verif.Model.Scanner
import Verif.Model.Reader
import Verif.Spec.Stream
import Verif.Lemmas.Scanner
import Verif.Lemmas.Stream
import Verif.Lemmas.Reader
import Verif.Props.Stream
import Verif.Lemmas.PackedText
import Verif.Lemmas.Convert
import Verif.Props.Reader
import Verif.Go.Layout
import Verif.Model.Dates
import Verif.Model.Json
import Verif.Lemmas.JsonOrder
import Verif.Spec.Json
import Verif.Spec.Dates
import Verif.Lemmas.Dates
import Verif.Lemmas.DateText
import Verif.Lemmas.Json
import Verif.Lemmas.JsonFile
import Verif.Props.Json
import Verif.Model.Server
import Verif.Spec.Server
import Verif.Lemmas.Server
import Verif.Props.Reading
import Verif.Props.Server
import Verif.Props.Command
import Verif.Spec.Rules
import Verif.Lemmas.Rules
import Verif.Props.Rules
import Verif.Props.Dates
import Verif.Props.MonthText
import Verif.Spec.Reuse
import Verif.Lemmas.Reuse
import Verif.Props.Reuse
import Verif.Spec.Schema
import Verif.Lemmas.Schema
import Verif.Props.Schema
import Verif.Model.JsonText
import Verif.Spec.JsonText
import Verif.Lemmas.JsonText
import Verif.Lemmas.JsonValue
import Verif.Lemmas.JsonWrite
import Verif.Props.JsonText
import Verif.Spec.Places
import Verif.Lemmas.Places
import Verif.Props.Places
import Verif.Model.Messages
import Verif.Spec.Messages
import Verif.Lemmas.Messages
import Verif.Lemmas.MessageParse
import Verif.Props.Messages
import Verif.Spec.Order
import Verif.Lemmas.Order
import Verif.Props.Order
import Verif.Spec.FirstFault
import Verif.Lemmas.FirstFault
import Verif.Props.FirstFault
import Verif.Model.Client
import Verif.Model.ClientCall
import Verif.Spec.Client
import Verif.Spec.ClientCall
import Verif.Lemmas.Client
import Verif.Lemmas.ClientFile
import Verif.Lemmas.ClientWrite
import Verif.Lemmas.ClientRound
import Verif.Props.Client
import Verif.Props.ClientTime
import Verif.Props.ClientExtra
import Verif.Props.ClientCall
import Verif.Spec.JsonDoc
import Verif.Spec.JsonExtra
import Verif.Lemmas.JsonDoc
import Verif.Lemmas.JsonExtra
import Verif.Lemmas.JsonExtraFormat
import Verif.Props.JsonDoc
import Verif.Props.JsonExtra
import Verif.Props.Exact
import Verif.Props.Trim
import Verif.Spec.Filled
import Verif.Lemmas.Filled
import Verif.Props.Filled
import Verif.Spec.Chain
import Verif.Lemmas.Chain
import Verif.Props.Chain
import Verif.Tests.Data
import Verif.Tests.Repo
import Verif.Tests.RepoFile
import Verif.Tests.RepoServer
import Verif.Tests.RepoMessages
import Verif.Spec.Again
import Verif.Lemmas.Again
import Verif.Props.Again
import Verif.Lemmas.Own
import Verif.Props.Own
import Verif.Spec.Generated
import Verif.Lemmas.Generated
import Verif.Props.Generated
import Verif.Model.Program
import Verif.Spec.Program
import Verif.Props.Program
import Verif.Model.Accessors
import Verif.Spec.Walk
import Verif.Props.Accessors
import Verif.Spec.Damage
import Verif.Lemmas.Damage
import Verif.Props.Damage
import Verif.Model.FileMessages
import Verif.Spec.FileMessages
import Verif.Lemmas.FileMessages
import Verif.Props.FileMessages
import Verif.Props.Sharper
import Verif.Spec.Cycle
import Verif.Props.Cycle
import Verif.Props.Leftover
import Verif.Props.Leading
import Verif.Spec.Touch
import Verif.Props.PackedParse
import Verif.Spec.Reserved
import Verif.Props.Reserved
import Verif.Spec.Accepts
import Verif.Props.Accepts
import Verif.Model.JsonState
import Verif.Spec.JsonState
import Verif.Props.JsonState
import Verif.Spec.JsonRecord
import Verif.Props.JsonRecord
import Verif.Model.Answers
import Verif.Spec.Answers
import Verif.Props.Answers
import Verif.Model.ClientServer
import Verif.Spec.ClientServer
import Verif.Props.ClientServer
import Verif.Model.ClientQuery
import Verif.Spec.ClientQuery
import Verif.Props.ClientQuery
import Verif.Model.Memory
import Verif.Spec.Memory
import Verif.Lemmas.Memory
import Verif.Props.Memory
import Verif.Spec.Agree
import Verif.Lemmas.Agree
import Verif.Props.Agree
import Verif.Model.Word
import Verif.Spec.Word
import Verif.Lemmas.Word
import Verif.Props.Word
import Verif.Model.ClientTable
import Verif.Model.ClientObjects
import Verif.Spec.ClientObjects
import Verif.Lemmas.ClientObjects
import Verif.Lemmas.ClientMembers
import Verif.Props.ClientObjects
import Verif.Model.Multipart
import Verif.Spec.Multipart
import Verif.Lemmas.Multipart
import Verif.Props.Multipart
import Verif.Model.Cache
import Verif.Spec.Cache
import Verif.Lemmas.Cache
import Verif.Props.Cache
import Verif.Model.ClientHeaders
import Verif.Spec.ClientHeaders
import Verif.Lemmas.ClientHeaders
import Verif.Props.ClientHeaders
import Verif.Spec.Standard
import Verif.Props.Standard
import Verif.Props.New
import Verif.Spec.ClientFits
import Verif.Lemmas.ClientFits
import Verif.Props.ClientFits
import Verif.Spec.JsonFits
import Verif.Lemmas.JsonFits
import Verif.Props.JsonFits
import Verif.Spec.TimeText
import Verif.Lemmas.TimeText
import Verif.Props.TimeText
import Verif.Model.ClientErrors
import Verif.Spec.ClientErrors
import Verif.Props.ClientErrors
import Verif.Model.Nullable
import Verif.Spec.Nullable
import Verif.Props.Nullable
import Verif.Model.ReaderState
import Verif.Spec.NextFile
import Verif.Props.ReaderState
import Verif.Spec.Refused
import Verif.Props.Refused
import Verif.Model.Checked
import Verif.Spec.Calm
import Verif.Lemmas.Checked
import Verif.Props.Checked
import Verif.Model.Work
import Verif.Spec.Work
import Verif.Lemmas.Work
import Verif.Props.Work
import Verif.Model.ScanWork
import Verif.Spec.ScanWork
import Verif.Lemmas.ScanWork
import Verif.Props.ScanWork
import Verif.Spec.Size
import Verif.Lemmas.Size
import Verif.Props.Size
import Verif.Spec.Assemble
import Verif.Props.Assemble
import Verif.Props.Cut
import Verif.Spec.ReadFault
import Verif.Props.ReadFault
import Verif.Spec.ReadFaultData
import Verif.Props.ReadFaultData
