import Verif.Model.Basic
import Verif.Model.Utf8
import Verif.Model.Buffer
import Verif.Model.Types
import Verif.Model.Fqdn
import Verif.Model.Header
import Verif.Model.RDataBasic
import Verif.Model.RDataMore
import Verif.Model.RDataBitmap
import Verif.Model.RDataSvcb
import Verif.Model.RDataDnssec
import Verif.Model.RecordData
import Verif.Model.Packet
import Verif.Model.RRSet
import Verif.Model.TimedSet
import Verif.Model.Dnssec
import Verif.Lemmas.Monad
import Verif.Spec.Wire
import Verif.Lemmas.Items
import Verif.Spec.Name
import Verif.Lemmas.Names
import Verif.Lemmas.Loops
import Verif.Spec.Numbers
import Verif.Spec.RData
import Verif.Lemmas.RDataParse
import Verif.Lemmas.RDataParse2
import Verif.Lemmas.BitmapParse
import Verif.Spec.Message
import Verif.Lemmas.PacketParse
import Verif.Spec.Utf8
import Verif.Lemmas.Utf8
import Verif.Lemmas.Bounded
import Verif.Lemmas.NameRead
import Verif.Props.Buffer
import Verif.Props.NameDecode
import Verif.Props.Header
import Verif.Spec.Compress
import Verif.Lemmas.NameWrite
import Verif.Props.NameWrite
import Verif.Props.NameText
import Verif.Lemmas.BitmapWrite
import Verif.Spec.Writable
import Verif.Lemmas.ItemsWrite
import Verif.Lemmas.RDataWrite
import Verif.Lemmas.SvcbRead
import Verif.Lemmas.ReadBack
import Verif.Lemmas.ByteSize
import Verif.Lemmas.PacketWrite
import Verif.Props.PacketWire
import Verif.Props.Placed
import Verif.Props.PlacedOwn
import Verif.Props.PacketSize
import Verif.Props.Sizes
import Verif.Props.Prefix
import Verif.Props.Counts
import Verif.Spec.Iana
import Verif.Props.Codes
import Verif.Spec.Strict
import Verif.Props.RData
import Verif.Props.Svcb
import Verif.Spec.Dnssec
import Verif.Lemmas.RRSet
import Verif.Props.RRSet
import Verif.Props.Dnssec
import Verif.Props.KeyTag
import Verif.Props.Cached
import Verif.Props.SetRead
import Verif.Lemmas.TimedSet
import Verif.Props.SetTime
import Verif.Props.Compression
import Verif.Spec.Reach
import Verif.Lemmas.Safe
import Verif.Lemmas.SafeRData
import Verif.Lemmas.Overflow
import Verif.Props.Robust
import Verif.Lemmas.Parsed
import Verif.Props.Stable
import Verif.Model.CompressedSize
import Verif.Props.CompressedSize
import Verif.Model.Accessors
import Verif.Props.Accessors
import Verif.Props.Wrapped
import Verif.Props.Write
import Verif.Spec.Canonical
import Verif.Props.Canonical
import Verif.Spec.Svcb
import Verif.Props.Misc
import Verif.Model.Constructors
import Verif.Spec.Base64
import Verif.Props.Constructors
import Verif.Props.Exchange
import Verif.Props.NewPacket
import Verif.Props.Update
import Verif.Spec.Transfer
import Verif.Props.Transfer
import Verif.Spec.Denial
import Verif.Props.Denial
import Verif.Spec.Period
import Verif.Props.Period
import Verif.Props.Build
import Verif.Props.Leftover
import Verif.Props.Unsafe
import Verif.Props.Limits
import Verif.Props.Hash
import Verif.Props.SipHash
import Verif.Props.Stream
import Verif.Spec.Patch
import Verif.Lemmas.Steady
import Verif.Props.Patch
import Verif.Spec.Edit
import Verif.Lemmas.PlacedEdit
import Verif.Props.Edit
import Verif.Props.Cut
import Verif.Model.Parts
import Verif.Props.Parts
import Verif.Model.Errors
import Verif.Spec.Errors
import Verif.Lemmas.Blames
import Verif.Props.Errors
import Verif.Props.Append
import Verif.Props.Repeat
import Verif.Spec.Size
import Verif.Lemmas.Size
import Verif.Props.Size
import Verif.Model.Order
import Verif.Props.Order
import Verif.Vectors
import Verif.Lemmas.Fails
import Verif.Props.Coincidence
import Verif.Props.Exactly
import Verif.Props.Truncated
import Verif.Props.Edns
import Verif.Props.Api
import Verif.Props.Address
import Verif.Props.Conform
import Verif.Props.DigestLen
import Verif.Props.Receive
import Verif.Props.Distinct
import Verif.Props.DistinctCompressed
import Verif.Props.NameAccept
import Verif.Props.Signed
import Verif.Props.Backward
import Verif.Props.Forward
import Verif.Props.Output
import Verif.Props.Checks
import Verif.Props.Time
import Verif.Props.Pointer
import Verif.Props.TimeWrite
import Verif.Props.Shortest
import Verif.Lemmas.TimedSize
import Verif.Lemmas.TimedWriteLower
import Verif.Spec.Equal
import Verif.Props.Equal
import Verif.Spec.Reply
import Verif.Props.Reply
import Verif.Props.Represented
import Verif.Props.Built
import Verif.Spec.Chain
import Verif.Props.Chain
import Verif.Spec.Interop
import Verif.Props.Interop
import Verif.Model.Reserved
import Verif.Props.Reserve
import Verif.Props.Readme
import Verif.Model.Caught
import Verif.Props.Caught
import Verif.Spec.Confuse
import Verif.Props.Confuse
import Verif.Spec.Tsig
import Verif.Props.Tsig
import Verif.Spec.Probe
import Verif.Props.Probe
import Verif.Spec.Match
import Verif.Props.Match
import Verif.Spec.Known
import Verif.Props.Known
import Verif.Spec.Flush
import Verif.Props.Flush
import Verif.Spec.Service
import Verif.Props.Service
import Verif.Model.Word
import Verif.Lemmas.Word
import Verif.Props.Word
import Verif.Model.Default
import Verif.Spec.Default
import Verif.Props.Default
import Verif.Spec.Alias
import Verif.Props.Alias
import Verif.Props.Rewrite
import Verif.Model.TimedPlain
import Verif.Lemmas.TimedPlain
import Verif.Spec.Labels
import Verif.Props.TimePlain
import Verif.Props.Applied
import Verif.Props.Shorten
