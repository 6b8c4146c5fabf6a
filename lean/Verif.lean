import Verif.Py.Base
import Verif.Py.UnicodeData
import Verif.Py.Str
import Verif.Py.Utf8
import Verif.Py.Float
import Verif.Py.DateTime
import Verif.Model.Reader
import Verif.Model.Socket
import Verif.Model.GnssTime
import Verif.Props.Checksum
import Verif.Lemmas.Dec
import Verif.Lemmas.Payload
import Verif.Props.Parsing
import Verif.Props.Errors
import Verif.Lemmas.Slots
import Verif.Lemmas.IntText
import Verif.Props.Layout
import Verif.Props.Lookup
import Verif.Props.Helpers
import Verif.Spec.Generate
import Verif.Lemmas.Gen
import Verif.Lemmas.GenLookup
import Verif.Lemmas.TextChars
import Verif.Props.Construct
import Verif.Props.Generate
import Verif.Props.Display
import Verif.Spec.Stream
import Verif.Lemmas.Reader
import Verif.Lemmas.ReaderMore
import Verif.Props.Reader
import Verif.Spec.Socket
import Verif.Spec.Speed
import Verif.Spec.Chunked
import Verif.Lemmas.Socket
import Verif.Props.Socket
import Verif.Props.Speed
import Verif.Lemmas.Chunked
import Verif.Props.Chunked
import Verif.Spec.GnssTime
import Verif.Lemmas.Float
import Verif.Lemmas.GnssTime
import Verif.Lemmas.GnssWeek
import Verif.Lemmas.GnssRoll
import Verif.Props.GnssTime
import Verif.Lemmas.DateText
import Verif.Props.DateTime
import Verif.Lemmas.FloatText
import Verif.Spec.Float
import Verif.Props.Values
import Verif.Lemmas.Degrees
import Verif.Props.Degrees
import Verif.Spec.Degrees
import Verif.Lemmas.Dms
import Verif.Lemmas.DmsText
import Verif.Props.Dms
import Verif.Model.Geo
import Verif.Spec.Geo
import Verif.Lemmas.Geo
import Verif.Lemmas.GeoGuess
import Verif.Lemmas.GeoNewton
import Verif.Props.Geo
import Verif.Props.Ecef

import Verif.Spec.Invariance
import Verif.Lemmas.EmitSim
import Verif.Props.Invariance
import Verif.Spec.RoundTrip
import Verif.Lemmas.ReadBack
import Verif.Lemmas.ExpandOf
import Verif.Props.RoundTrip
import Verif.Props.Archive
import Verif.Model.Repr
import Verif.Spec.Repr
import Verif.Props.Repr
import Verif.Model.Serial
import Verif.Spec.Serial
import Verif.Props.Serial
import Verif.Spec.Nmea0183
import Verif.Lemmas.Nmea0183
import Verif.Props.Standard
import Verif.Spec.Defaults
import Verif.Props.Defaults
import Verif.Model.GeoFloat
import Verif.Spec.GeoFloat
import Verif.Lemmas.Near
import Verif.Lemmas.GeoFloat
import Verif.Props.GeoFloat
import Verif.Props.GeoFloatMore
import Verif.Props.GeoFloatExists
import Verif.Props.GeoFloatSymm
import Verif.Lemmas.EcefFloat
import Verif.Lemmas.EcefFront
import Verif.Lemmas.EcefTail
import Verif.Props.EcefFloat
import Verif.Model.ReaderExc
import Verif.Spec.ReaderExc
import Verif.Props.ReaderExc
import Verif.Props.Planar
import Verif.Props.Vendor
import Verif.Props.SocketFail
import Verif.Spec.SocketAny
import Verif.Props.SocketAny
import Verif.Spec.Writing
import Verif.Lemmas.Writing
import Verif.Props.Writing
import Verif.Model.SocketIO
import Verif.Props.SocketIO
import Verif.Model.Threads
import Verif.Props.Threads
import Verif.Model.Growing
import Verif.Props.Growing
import Verif.Spec.Commands
import Verif.Props.Commands
import Verif.Props.Queries
import Verif.Model.GpxTracker
import Verif.Spec.GpxTracker
import Verif.Props.GpxTracker
import Verif.Model.Poller
import Verif.Spec.Poller
import Verif.Props.Poller
import Verif.Model.Decodes
import Verif.Spec.Decodes
import Verif.Props.Decodes
import Verif.Model.Datums
import Verif.Spec.Datum
import Verif.Lemmas.Datum
import Verif.Lemmas.DatumGuess
import Verif.Lemmas.DatumNewton
import Verif.Props.Datum
import Verif.Model.WebServer
import Verif.Spec.WebServer
import Verif.Lemmas.Json
import Verif.Props.WebServer
import Verif.Props.WebJson
import Verif.Props.WebMore
import Verif.Model.Reentrant
import Verif.Spec.Reentrant
import Verif.Props.Reentrant
import Verif.Props.ReprGenerated
import Verif.Props.ReprSnc
import Verif.Props.QuectelDemo
import Verif.Spec.Damage
import Verif.Props.Damage
import Verif.Props.Shadow
import Verif.Props.Escaping
import Verif.Props.Position
import Verif.Spec.Handover
import Verif.Props.Handover
import Verif.Model.Listing
import Verif.Spec.Listing
import Verif.Props.Listing
import Verif.Spec.Prompt
import Verif.Props.Prompt
import Verif.Model.HttpServer
import Verif.Spec.HttpServer
import Verif.Props.HttpServer
import Verif.Spec.Nmea0183More
import Verif.Props.StandardMore
import Verif.Props.WritingMore
import Verif.Spec.Order
import Verif.Props.Order
import Verif.Spec.OrderVendor
import Verif.Props.OrderVendor
import Verif.Model.Benchmark
import Verif.Props.Benchmark
import Verif.Model.ErrorText
import Verif.Spec.ErrorText
import Verif.Lemmas.ReceivedFirst
import Verif.Lemmas.ErrorText
import Verif.Lemmas.ErrorWhere
import Verif.Lemmas.ErrorReader
import Verif.Props.ErrorText
import Verif.Spec.MadeErrors
import Verif.Lemmas.MadeErrors
import Verif.Props.MadeErrors
import Verif.Model.AnyPayload
import Verif.Spec.AnyPayload
import Verif.Lemmas.AnyPayload
import Verif.Props.AnyPayload
import Verif.Props.AnyGroups
import Verif.Props.AnyBrackets
import Verif.Model.AnyPayloadKw
import Verif.Props.AnyKeywords
import Verif.Props.ShadowMethods
import Verif.Props.ClashText
import Verif.Spec.Xml
import Verif.Props.Track
import Verif.Props.Shown
