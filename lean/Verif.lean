import Verif.Props.Scalars
import Verif.Props.Value
import Verif.Props.Registry
import Verif.Props.Writer
import Verif.Props.Text
import Verif.Props.Channel
import Verif.Props.Counter
import Verif.Props.Psha
import Verif.Props.Frame
import Verif.Props.OpenChannel
import Verif.Props.Pending
import Verif.Props.Renewal
import Verif.Props.TokenRace
import Verif.Props.Session
import Verif.Props.PublishQueue
import Verif.Props.Paging
import Verif.Props.Revise
import Verif.Props.Password
import Verif.Props.Subscription
import Verif.Props.SubTable
import Verif.Props.Locks
import Verif.Props.SubCrash
import Verif.Props.MonitoredItem
import Verif.Props.ItemLocks
import Verif.Props.DataChange
import Verif.Props.AddressSpace
import Verif.Props.SpaceQueries
import Verif.Props.EventFilter
import Verif.Props.Browse
import Verif.Props.Access
import Verif.Props.Range
import Verif.Props.Write
import Verif.Props.Batch
import Verif.Props.Endpoint
import Verif.Model.Certificate
import Verif.Model.Call
import Verif.Props.Certificate
import Verif.Props.Call
import Verif.Props.Sampling
import Verif.Model.NodeSet
import Verif.Props.NodeSet
import Verif.Model.Dial
import Verif.Props.Dial
import Verif.Model.PollGroup
import Verif.Props.PollGroup
import Verif.Model.ServerLife
import Verif.Props.ServerLife
import Verif.Model.Diagnostics
import Verif.Props.Diagnostics
import Verif.Model.Structs
import Verif.Model.Schema
import Verif.Model.Messages
import Verif.Props.Structs
import Verif.Props.Messages
import Verif.Model.MultiState
import Verif.Props.MultiState
import Verif.Model.Discovery
import Verif.Props.Discovery
import Verif.Model.SelfInfo
import Verif.Props.SelfInfo
import Verif.Model.History
import Verif.Props.History
import Verif.Model.Attributes
import Verif.Props.Attributes
import Verif.Model.Suites
import Verif.Props.Suites
import Verif.Model.SubCounters
import Verif.Props.SubCounters
import Verif.Model.Options
import Verif.Props.Options
import Verif.Model.Ending
import Verif.Props.Ending
import Verif.Model.CertList
import Verif.Props.CertList
import Verif.Model.Names
import Verif.Props.Names
import Verif.Model.ClientRecv
import Verif.Props.ClientRecv
import Verif.Model.Conversation
import Verif.Props.Conversation
import Verif.Model.PublishFlow
import Verif.Props.PublishFlow
import Verif.Model.Closing
import Verif.Props.Closing
import Verif.Model.Pool
import Verif.Props.Pool
import Verif.Model.Delivery
import Verif.Props.Delivery
import Verif.Model.Authority
import Verif.Props.Authority
import Verif.Model.Alarms
import Verif.Props.Alarms
import Verif.Model.Watch
import Verif.Props.Watch
import Verif.Model.PublishTimer
import Verif.Props.PublishTimer
import Verif.Model.SessionEnd
import Verif.Props.SessionEnd
import Verif.Props.WatchOrder
import Verif.Model.Answer
import Verif.Props.Answer
import Verif.Model.Secrecy
import Verif.Props.Secrecy
import Verif.Props.Agreement
import Verif.Model.Workers
import Verif.Props.Workers
import Verif.Model.Kept
import Verif.Props.Kept
import Verif.Model.Memory
import Verif.Lemmas.Memory
import Verif.Props.Memory
import Verif.Model.Picture
import Verif.Props.Picture
import Verif.Model.ItemBook
import Verif.Props.ItemBook
import Verif.Model.Disclosure
import Verif.Props.Disclosure
import Verif.Model.Deletion
import Verif.Props.Deletion
import Verif.Model.SubBook
import Verif.Props.SubBook
import Verif.Model.Namespaces
import Verif.Props.Namespaces
import Verif.Lemmas.SendOn
import Verif.Props.SendOn
import Verif.Props.Room
import Verif.Props.Alone
