import Verif.Model.Adapter
import Verif.Model.Attached
import Verif.Model.Buckets
import Verif.Model.Build
import Verif.Model.Building
import Verif.Model.Channel
import Verif.Model.Convert
import Verif.Model.Counter
import Verif.Model.Display
import Verif.Model.Driver
import Verif.Model.Fleet
import Verif.Model.Gauge
import Verif.Model.Histogram
import Verif.Model.Jemalloc
import Verif.Model.LabelFilter
import Verif.Model.Made
import Verif.Model.Meter
import Verif.Model.Mount
import Verif.Model.Observation
import Verif.Model.Others
import Verif.Model.Prelude
import Verif.Model.Processor
import Verif.Model.Settings
import Verif.Model.Shutdown
import Verif.Model.Snapshot
import Verif.Model.Switches
import Verif.Model.Transmitter
import Verif.Model.Tree
import Verif.Model.Util
import Verif.Model.World
import Verif.Proof.Activity
import Verif.Proof.Agree
import Verif.Proof.AgreeRun
import Verif.Proof.Append
import Verif.Proof.Arith
import Verif.Proof.Arranged
import Verif.Proof.Arrivals
import Verif.Proof.Batch
import Verif.Proof.Binary64
import Verif.Proof.Busy
import Verif.Proof.BusyDriver
import Verif.Proof.BusyRun
import Verif.Proof.Channel
import Verif.Proof.Counter
import Verif.Proof.Delivery
import Verif.Proof.Describe
import Verif.Proof.DescribeDriver
import Verif.Proof.Dispatch
import Verif.Proof.Driver
import Verif.Proof.DriverMetrics
import Verif.Proof.Ewma
import Verif.Proof.Exhibits
import Verif.Proof.Filtered
import Verif.Proof.Fleet
import Verif.Proof.Forward
import Verif.Proof.ForwardRun
import Verif.Proof.Gauge
import Verif.Proof.Happening
import Verif.Proof.Histogram
import Verif.Proof.History
import Verif.Proof.Latency
import Verif.Proof.Later
import Verif.Proof.LaterDriver
import Verif.Proof.LaterTree
import Verif.Proof.Layout
import Verif.Proof.LeafGroups
import Verif.Proof.LeafHistory
import Verif.Proof.Light
import Verif.Proof.LightRun
import Verif.Proof.LightTree
import Verif.Proof.Liveness
import Verif.Proof.Meter
import Verif.Proof.MeterHistory
import Verif.Proof.Mount
import Verif.Proof.Named
import Verif.Proof.Order
import Verif.Proof.Own
import Verif.Proof.Parts
import Verif.Proof.Played
import Verif.Proof.PlayedLife
import Verif.Proof.Post
import Verif.Proof.Processing
import Verif.Proof.Relabel
import Verif.Proof.Renamed
import Verif.Proof.RenamedDriver
import Verif.Proof.RenamedParts
import Verif.Proof.Reorder
import Verif.Proof.ReorderProcessor
import Verif.Proof.ReorderTree
import Verif.Proof.Reports
import Verif.Proof.Ring
import Verif.Proof.Routes
import Verif.Proof.RunRatio
import Verif.Proof.Safe
import Verif.Proof.SafeRun
import Verif.Proof.SafeTree
import Verif.Proof.Schema
import Verif.Proof.Snapshot
import Verif.Proof.Split
import Verif.Proof.Strict
import Verif.Proof.Switches
import Verif.Proof.Timeless
import Verif.Proof.Total
import Verif.Proof.TotalMeter
import Verif.Proof.Totals
import Verif.Proof.Tracking
import Verif.Proof.Undisturbed
import Verif.Proof.UndisturbedRun
import Verif.Proof.UndisturbedTree
import Verif.Proof.Values
import Verif.Proof.Warnings
import Verif.Proof.Within
import Verif.Proof.WithinTree
import Verif.Props.C01
import Verif.Props.C02
import Verif.Props.C03
import Verif.Props.C04
import Verif.Props.C05
import Verif.Props.C06
import Verif.Props.C07
import Verif.Props.C08
import Verif.Props.C09
import Verif.Props.C10
import Verif.Props.C100
import Verif.Props.C101
import Verif.Props.C102
import Verif.Props.C103
import Verif.Props.C104
import Verif.Props.C11
import Verif.Props.C12
import Verif.Props.C13
import Verif.Props.C14
import Verif.Props.C15
import Verif.Props.C16
import Verif.Props.C17
import Verif.Props.C18
import Verif.Props.C19
import Verif.Props.C20
import Verif.Props.C21
import Verif.Props.C22
import Verif.Props.C23
import Verif.Props.C24
import Verif.Props.C25
import Verif.Props.C26
import Verif.Props.C27
import Verif.Props.C28
import Verif.Props.C29
import Verif.Props.C30
import Verif.Props.C31
import Verif.Props.C32
import Verif.Props.C33
import Verif.Props.C34
import Verif.Props.C35
import Verif.Props.C36
import Verif.Props.C37
import Verif.Props.C38
import Verif.Props.C39
import Verif.Props.C40
import Verif.Props.C41
import Verif.Props.C42
import Verif.Props.C43
import Verif.Props.C44
import Verif.Props.C45
import Verif.Props.C46
import Verif.Props.C47
import Verif.Props.C48
import Verif.Props.C49
import Verif.Props.C50
import Verif.Props.C51
import Verif.Props.C52
import Verif.Props.C53
import Verif.Props.C54
import Verif.Props.C55
import Verif.Props.C56
import Verif.Props.C57
import Verif.Props.C58
import Verif.Props.C59
import Verif.Props.C60
import Verif.Props.C61
import Verif.Props.C62
import Verif.Props.C63
import Verif.Props.C64
import Verif.Props.C65
import Verif.Props.C66
import Verif.Props.C67
import Verif.Props.C68
import Verif.Props.C69
import Verif.Props.C70
import Verif.Props.C71
import Verif.Props.C72
import Verif.Props.C73
import Verif.Props.C74
import Verif.Props.C75
import Verif.Props.C76
import Verif.Props.C77
import Verif.Props.C78
import Verif.Props.C79
import Verif.Props.C80
import Verif.Props.C81
import Verif.Props.C82
import Verif.Props.C83
import Verif.Props.C84
import Verif.Props.C85
import Verif.Props.C86
import Verif.Props.C87
import Verif.Props.C88
import Verif.Props.C89
import Verif.Props.C90
import Verif.Props.C91
import Verif.Props.C92
import Verif.Props.C93
import Verif.Props.C94
import Verif.Props.C95
import Verif.Props.C96
import Verif.Props.C97
import Verif.Props.C98
import Verif.Props.C99
import Verif.Spec.Activity
import Verif.Spec.Arranged
import Verif.Spec.Average
import Verif.Spec.Batch
import Verif.Spec.Binary64
import Verif.Spec.Build
import Verif.Spec.Building
import Verif.Spec.Busy
import Verif.Spec.Channel
import Verif.Spec.Delivery
import Verif.Spec.Describe
import Verif.Spec.DescribeDriver
import Verif.Spec.Dispatch
import Verif.Spec.Distinct
import Verif.Spec.Driver
import Verif.Spec.DriverMetrics
import Verif.Spec.Exhibits
import Verif.Spec.Filtered
import Verif.Spec.Fleet
import Verif.Spec.Float
import Verif.Spec.Gauge
import Verif.Spec.Happening
import Verif.Spec.Histogram
import Verif.Spec.History
import Verif.Spec.Jemalloc
import Verif.Spec.Later
import Verif.Spec.Layout
import Verif.Spec.LeafHistory
import Verif.Spec.Light
import Verif.Spec.Meter
import Verif.Spec.Mount
import Verif.Spec.Numbers
import Verif.Spec.Observation
import Verif.Spec.Order
import Verif.Spec.Own
import Verif.Spec.Parts
import Verif.Spec.Processing
import Verif.Spec.Profile
import Verif.Spec.Relabel
import Verif.Spec.Renamed
import Verif.Spec.Reorder
import Verif.Spec.Rest
import Verif.Spec.Ring
import Verif.Spec.Routes
import Verif.Spec.RunRatio
import Verif.Spec.Safe
import Verif.Spec.SafeRun
import Verif.Spec.Schema
import Verif.Spec.Settings
import Verif.Spec.Snapshot
import Verif.Spec.Split
import Verif.Spec.Strict
import Verif.Spec.Switches
import Verif.Spec.Timeless
import Verif.Spec.Told
import Verif.Spec.Totals
import Verif.Spec.Tracking
import Verif.Spec.Undisturbed
import Verif.Spec.UndisturbedRun
import Verif.Spec.Values
import Verif.Spec.Warnings
import Verif.Spec.Within
import Verif.Tests.Basic
import Verif.Tests.Buckets
import Verif.Tests.Docs
import Verif.Tests.Instruments
import Verif.Tests.Meter
