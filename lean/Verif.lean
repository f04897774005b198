import Verif.Lemmas.Addr
import Verif.Lemmas.Again
import Verif.Lemmas.AgainV01
import Verif.Lemmas.AgainV04
import Verif.Lemmas.Assign
import Verif.Lemmas.Auto
import Verif.Lemmas.Body
import Verif.Lemmas.Bytes
import Verif.Lemmas.Decode
import Verif.Lemmas.Errors
import Verif.Lemmas.Errs
import Verif.Lemmas.ErrsV01
import Verif.Lemmas.ErrsV04
import Verif.Lemmas.Extra
import Verif.Lemmas.Follow
import Verif.Lemmas.Heap
import Verif.Lemmas.HeapCopy
import Verif.Lemmas.Keeps
import Verif.Lemmas.KeepsV01
import Verif.Lemmas.KeepsV04
import Verif.Lemmas.Laws
import Verif.Lemmas.Layout
import Verif.Lemmas.Leaf
import Verif.Lemmas.Libs
import Verif.Lemmas.Local
import Verif.Lemmas.Msg
import Verif.Lemmas.NetThreads
import Verif.Lemmas.Reads
import Verif.Lemmas.Refuse
import Verif.Lemmas.RefuseV01
import Verif.Lemmas.RefuseV04
import Verif.Lemmas.Reuse
import Verif.Lemmas.ReuseNet
import Verif.Lemmas.RoundTrip
import Verif.Lemmas.Sharing
import Verif.Lemmas.Size
import Verif.Lemmas.SizeMsg
import Verif.Lemmas.SizeV01
import Verif.Lemmas.SizeV04
import Verif.Lemmas.Slack
import Verif.Lemmas.Stable
import Verif.Lemmas.StableCut
import Verif.Lemmas.StableMsg
import Verif.Lemmas.StableMsg01
import Verif.Lemmas.StableMsg04
import Verif.Lemmas.StableTot
import Verif.Lemmas.StableV01
import Verif.Lemmas.StableV04
import Verif.Lemmas.Str
import Verif.Lemmas.Swallow
import Verif.Lemmas.SwallowGroup
import Verif.Lemmas.Text
import Verif.Lemmas.Threads
import Verif.Lemmas.ThreadsClasses
import Verif.Lemmas.ThreadsMsg
import Verif.Lemmas.ThreadsSize
import Verif.Lemmas.Trace
import Verif.Lemmas.Truth
import Verif.Lemmas.V01
import Verif.Lemmas.V01Facts
import Verif.Lemmas.V04
import Verif.Lemmas.V04Body
import Verif.Lemmas.V04Facts
import Verif.Lemmas.V04Msg
import Verif.Lemmas.V04Multi
import Verif.Lemmas.Variant
import Verif.Lemmas.Watch
import Verif.Lemmas.WatchAlone
import Verif.Lemmas.WatchMany
import Verif.Lemmas.WatchPack
import Verif.Lemmas.Weight
import Verif.Lemmas.WeightAll
import Verif.Lemmas.WeightMsg
import Verif.Lemmas.Window
import Verif.Model.AutoLen
import Verif.Model.Basic
import Verif.Model.Body
import Verif.Model.Compare
import Verif.Model.Ctor
import Verif.Model.Decode
import Verif.Model.DecodeNet
import Verif.Model.Dict
import Verif.Model.Equal
import Verif.Model.Extra
import Verif.Model.Heap
import Verif.Model.Libs
import Verif.Model.ListOps
import Verif.Model.Match01
import Verif.Model.Message
import Verif.Model.Meta
import Verif.Model.Misc
import Verif.Model.NetNew
import Verif.Model.NetThreads
import Verif.Model.Network
import Verif.Model.Py
import Verif.Model.Reuse
import Verif.Model.ReuseNet
import Verif.Model.Sharing
import Verif.Model.Struct
import Verif.Model.Text
import Verif.Model.Threads
import Verif.Model.ThreadsSize
import Verif.Model.V01
import Verif.Model.V04
import Verif.Model.Valid
import Verif.Model.Variant
import Verif.Model.Watch
import Verif.Model.WatchPack
import Verif.Props.AddrValues
import Verif.Props.Again
import Verif.Props.AgainStructures
import Verif.Props.Assign
import Verif.Props.Basic
import Verif.Props.Bodies
import Verif.Props.Compare
import Verif.Props.Ctor
import Verif.Props.Decode
import Verif.Props.Equal
import Verif.Props.Ethernet
import Verif.Props.Forward
import Verif.Props.Heap
import Verif.Props.History
import Verif.Props.Ip
import Verif.Props.Lists
import Verif.Props.Lldp
import Verif.Props.Local
import Verif.Props.Match
import Verif.Props.Messages
import Verif.Props.Meta
import Verif.Props.Misc
import Verif.Props.Multipart
import Verif.Props.Names
import Verif.Props.NetHistory
import Verif.Props.Network
import Verif.Props.OwnKind
import Verif.Props.OwnLength
import Verif.Props.Probe
import Verif.Props.Queue04
import Verif.Props.Refusal
import Verif.Props.Replies
import Verif.Props.Reuse
import Verif.Props.ReuseNet
import Verif.Props.Sharing
import Verif.Props.Size
import Verif.Props.Stable
import Verif.Props.Stream
import Verif.Props.Struct
import Verif.Props.Structures
import Verif.Props.Threads
import Verif.Props.Total
import Verif.Props.Uses
import Verif.Props.V01
import Verif.Props.V04
import Verif.Props.Valid
import Verif.Props.Watch
import Verif.Props.WatchPack
import Verif.Props.Weight
import Verif.Spec.Again
import Verif.Spec.Assign
import Verif.Spec.Contract
import Verif.Spec.Decode
import Verif.Spec.Errs
import Verif.Spec.Extra
import Verif.Spec.Fmt
import Verif.Spec.Heap
import Verif.Spec.History
import Verif.Spec.Laws
import Verif.Spec.Layout
import Verif.Spec.Local
import Verif.Spec.Msg
import Verif.Spec.Names
import Verif.Spec.NetHistory
import Verif.Spec.Refuse
import Verif.Spec.RoundTrip
import Verif.Spec.Sharing
import Verif.Spec.Size
import Verif.Spec.Stable
import Verif.Spec.Threads
import Verif.Spec.Truth
import Verif.Spec.Union
import Verif.Spec.Uses
import Verif.Spec.V01
import Verif.Spec.V04
import Verif.Spec.Watch
import Verif.Spec.WatchPack
import Verif.Spec.Weight
