import Verif.Model.Basic
import Verif.Model.Writer
import Verif.Model.Reader
import Verif.Model.Serializable
import Verif.Model.Path
import Verif.Model.Encap
import Verif.Model.CPF
import Verif.Model.Items
import Verif.Model.Messages
import Verif.Model.Connection
import Verif.Model.Session
import Verif.Spec.Streams
import Verif.Spec.Wire
import Verif.Lemmas.Bytes
import Verif.Lemmas.Streams
import Verif.Lemmas.Write
import Verif.Lemmas.Parse
import Verif.Lemmas.Covers
import Verif.Lemmas.Reply
import Verif.Lemmas.Payload
import Verif.Lemmas.Session
import Verif.Lemmas.Rpc
import Verif.Lemmas.Open
import Verif.Lemmas.Commands
import Verif.Lemmas.Props
import Verif.Lemmas.Uniform
import Verif.Spec.Calls
import Verif.Props.Streams
import Verif.Props.Wire
import Verif.Model.Host
import Verif.Model.Copy
import Verif.Spec.Packet
import Verif.Spec.Session
import Verif.Lemmas.Robust
import Verif.Spec.Parsed
import Verif.Props.Parsing
import Verif.Props.Robust
import Verif.Props.Open
import Verif.Props.Close
import Verif.Spec.Ops
import Verif.Lemmas.Ops
import Verif.Lemmas.Appends
import Verif.Lemmas.Effects
import Verif.Lemmas.Oblivious
import Verif.Props.Commands
import Verif.Lemmas.Requests
import Verif.Lemmas.Distinct
import Verif.Props.Effects
import Verif.Spec.Connections
import Verif.Props.Connections
import Verif.Lemmas.Sends
import Verif.Props.IO
import Verif.Model.Mem
import Verif.Model.Refs
import Verif.Spec.Memory
import Verif.Lemmas.Memory
import Verif.Lemmas.Refs
import Verif.Lemmas.Buffer
import Verif.Lemmas.Layout
import Verif.Lemmas.Within
import Verif.Props.Memory
import Verif.Props.Aliasing
import Verif.Model.Scanner
import Verif.Spec.Scanner
import Verif.Lemmas.Scanner
import Verif.Props.Scanner
import Verif.Model.Shared
import Verif.Spec.Transport
import Verif.Lemmas.Accepted
import Verif.Lemmas.Shared
import Verif.Props.Transport
import Verif.Model.TestSocket
import Verif.Spec.TestSocket
import Verif.Props.TestSocket
import Verif.Model.Sockets
import Verif.Spec.Sockets
import Verif.Props.Sockets
import Verif.Spec.Sized
import Verif.Lemmas.Sized
import Verif.Spec.Requests
import Verif.Props.Sized
import Verif.Props.Requests
import Verif.Spec.Device
import Verif.Lemmas.Device
import Verif.Lemmas.DeviceSteps
import Verif.Props.Device
import Verif.Props.StreamCalls
import Verif.Lemmas.Leaks
import Verif.Props.Leaks
import Verif.Model.Log
import Verif.Spec.Log
import Verif.Lemmas.Log
import Verif.Lemmas.LogOps
import Verif.Lemmas.LogExact
import Verif.Lemmas.LogOnly
import Verif.Lemmas.LogCommands
import Verif.Props.LogText
import Verif.Props.Log
import Verif.Model.Random
import Verif.Model.OneWay
import Verif.Props.Random
import Verif.Props.OneWay
import Verif.Props.Accessors
import Verif.Model.ScanLog
import Verif.Spec.ScanLog
import Verif.Lemmas.ScanLog
import Verif.Props.ScanLog
import Verif.Spec.LogOpen
import Verif.Props.LogOpen
import Verif.Tests.Wire
import Verif.Tests.Session
import Verif.Model.Wired
import Verif.Spec.Wired
import Verif.Lemmas.Wired
import Verif.Props.Wired
import Verif.Props.Route
import Verif.Spec.Random
import Verif.Props.Starting
import Verif.Spec.Strategy
import Verif.Lemmas.Strategy
import Verif.Props.Strategy
import Verif.Lemmas.Paired
import Verif.Props.Conforming
import Verif.Spec.Possible
import Verif.Lemmas.Possible
import Verif.Props.Possible
import Verif.Model.Headers
import Verif.Spec.Headers
import Verif.Lemmas.Headers
import Verif.Props.Headers
import Verif.Model.Waiting
import Verif.Spec.Waiting
import Verif.Lemmas.Waiting
import Verif.Props.Waiting
import Verif.Spec.Network
import Verif.Props.Network
import Verif.Spec.Contents
import Verif.Lemmas.Contents
import Verif.Props.Contents
import Verif.Props.Written
import Verif.Model.Sharing
import Verif.Spec.Sharing
import Verif.Lemmas.Sharing
import Verif.Props.Sharing
import Verif.Model.Uninit
import Verif.Lemmas.Uninit
import Verif.Props.Uninit
import Verif.Props.CloseAgain
import Verif.Model.Threads
import Verif.Spec.Threads
import Verif.Lemmas.Threads
import Verif.Lemmas.ThreadSteps
import Verif.Lemmas.ThreadRuns
import Verif.Lemmas.ThreadStages
import Verif.Lemmas.ThreadControl
import Verif.Props.Threads
import Verif.Props.ThreadControl
import Verif.Model.Rehearsed
import Verif.Spec.Rehearsed
import Verif.Lemmas.Rehearsed
import Verif.Props.Rehearsed
import Verif.Lemmas.Texts
import Verif.Model.Lines
import Verif.Spec.Lines
import Verif.Lemmas.Digits
import Verif.Lemmas.Lines
import Verif.Lemmas.LinesOnly
import Verif.Lemmas.LinesOps
import Verif.Lemmas.LinesScan
import Verif.Props.Lines
import Verif.Model.Ports
import Verif.Spec.Ports
import Verif.Lemmas.Ports
import Verif.Props.Ports
import Verif.Model.Races
import Verif.Spec.Races
import Verif.Lemmas.Races
import Verif.Lemmas.RaceFree
import Verif.Lemmas.RaceRuns
import Verif.Lemmas.RaceWitness
import Verif.Props.Races
import Verif.Model.Types
import Verif.Spec.Types
import Verif.Props.Types
import Verif.Spec.Held
import Verif.Lemmas.Held
import Verif.Props.Held
import Verif.Model.Lan
import Verif.Spec.Lan
import Verif.Props.Lan
import Verif.Model.Handed
import Verif.Props.Handed
import Verif.Model.Hub
import Verif.Spec.Hub
import Verif.Props.Hub
import Verif.Spec.Cyclic
import Verif.Props.Cyclic
import Verif.Model.Width
import Verif.Spec.Width
import Verif.Lemmas.Width
import Verif.Props.Width
import Verif.Model.Tight
import Verif.Lemmas.Tight
import Verif.Props.Tight
import Verif.Lemmas.TightHistory
import Verif.Props.TightHistory
import Verif.Model.TightScan
import Verif.Lemmas.TightScan
import Verif.Props.TightScan
import Verif.Spec.Backlog
import Verif.Lemmas.Backlog
import Verif.Props.Backlog
