import Verif.Props.Packet
import Verif.Props.Sack
import Verif.Props.Bits
import Verif.Props.Time
import Verif.Props.Congestion
import Verif.Props.Stream
import Verif.Props.Window
import Verif.Props.State
import Verif.Props.Safety
import Verif.Props.Lifecycle
import Verif.Props.Receive
import Verif.Props.Timeout
import Verif.Props.Control
import Verif.Props.Handshake
import Verif.Props.UtpStream
import Verif.Props.Order
import Verif.Props.Filter
import Verif.Props.Sending
import Verif.Props.Retransmit
import Verif.Props.EndToEnd
import Verif.Props.EndToEndWrap
import Verif.Drop
import Verif.StreamDrop
import Verif.Props.Drop
import Verif.Props.Liveness
import Verif.Props.Crash
import Verif.Props.Progress
import Verif.Props.Release
import Verif.Float
import Verif.Props.Float
import Verif.Props.Ledbat
import Verif.Props.Ack
import Verif.Props.Errors
import Verif.Props.Strangers
import Verif.Spec.Lossless
import Verif.Lemmas.Grows
import Verif.Lemmas.Lossless
import Verif.Props.Lossless
import Verif.Spec.Shutdown
import Verif.Lemmas.Shutdown
import Verif.Props.Shutdown
import Verif.Threads
import Verif.Spec.Threads
import Verif.Lemmas.Threads
import Verif.Lemmas.Misuse
import Verif.Props.Threads
import Verif.Listener
import Verif.Lemmas.Listener
import Verif.Props.Listener
import Verif.Props.StreamDrop
import Verif.Wakers
import Verif.Props.Wakers
import Verif.Spec.Cat
import Verif.Lemmas.Cat
import Verif.Lemmas.CatStart
import Verif.Props.Cat
import Verif.Spec.Lossy
import Verif.Lemmas.LossyBase
import Verif.Lemmas.LossySend
import Verif.Lemmas.LossyRead
import Verif.Lemmas.FuelLog
import Verif.Lemmas.Lossy
import Verif.Props.Lossy
import Verif.Props.Echo
import Verif.Props.Turn
import Verif.Spec.Advert
import Verif.Props.Advert
import Verif.Spec.Piggyback
import Verif.Props.Piggyback
import Verif.Props.Memory
import Verif.Spec.Source
import Verif.Lemmas.Source
import Verif.Props.Source
import Verif.Spec.Backoff
import Verif.Lemmas.Backoff
import Verif.Props.Backoff
import Verif.Spec.Stamp
import Verif.Lemmas.Stamp
import Verif.Lemmas.Timely
import Verif.Props.Stamp
import Verif.Props.EndOfStream
import Verif.Props.Download
import Verif.Props.Oblivious
import Verif.Props.Nesting
import Verif.Spec.Karn
import Verif.Props.Karn
import Verif.Spec.Resend
import Verif.Lemmas.Resend
import Verif.Props.Resend
import Verif.Spec.AckOrder
import Verif.Lemmas.AckOrder
import Verif.Props.AckOrder
import Verif.Props.AckFull
import Verif.Spec.Oversize
import Verif.Props.Oversize
import Verif.Spec.Storm
import Verif.Props.Storm
import Verif.Spec.Readable
import Verif.Props.Readable
import Verif.Spec.GivesUp
import Verif.Props.GivesUp
import Verif.Spec.Reported
import Verif.Props.Reported
import Verif.Spec.Size
import Verif.Props.Size
import Verif.Spec.Bogus
import Verif.Props.Bogus
import Verif.Spec.Halving
import Verif.Props.Halving
import Verif.Props.EmptyBuffer
import Verif.Spec.Jammed
import Verif.Props.Jammed
import Verif.Props.Crossing
import Verif.Cases.Arrivals
import Verif.Cases.Connections
import Verif.Text
import Verif.Spec.Text
import Verif.Props.Text
import Verif.Props.CloseCross
import Verif.Spec.StreamLossless
import Verif.Props.StreamLossless
import Verif.Cases.CrateTests
import Verif.Props.CloseLoss
import Verif.Props.OtherClock
import Verif.Props.OtherId
import Verif.Props.OtherStart
import Verif.Props.PeerStart
import Verif.Props.OtherHints
import Verif.Props.PeerTimes
import Verif.Props.SmallWindow
import Verif.Props.OtherExts
import Verif.Props.Unread
import Verif.Props.Looked
import Verif.Props.OtherLimit
import Verif.Props.SplitWrite
import Verif.Props.Dull
import Verif.Props.SplitRead
