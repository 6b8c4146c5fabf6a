{"id": "C01", "title": "Checksum is the XOR of the content, rendered as upper-case hex", "statement": "calc_checksum(content) is the upper-case hexadecimal rendering (at least two digits) of the XOR of all characters of content; for content whose characters are all below 256 it is exactly two digits; it does not depend on the order of the characters, and two contents get the same checksum exactly when their XORs agree. generate_checksum(talker,msgID,payload) equals calc_checksum of the comma-joined sentence.", "quantifier": "every string (any length, any characters), every talker, msgID and payload list", "why_tests_cant": "infinitely many contents; a test samples a few sentences", "anchors": ["src/pynmeagps/nmeahelpers.py:calc_checksum", "src/pynmeagps/nmeahelpers.py:generate_checksum"]}
{"id": "C02", "title": "Any single-character corruption of the content is rejected", "statement": "If NMEAReader.parse with checksum validation accepts a sentence, then replacing any one character of its content (between $ and *) by a different character - neither of the two being $, *, CR or LF - makes parse raise NMEAParseError (for bytes: replacing one byte of an ASCII sentence by any other byte, the result is never accepted), under every msgmode, every validation setting containing VALCKSUM and every user-defined dictionary.", "quantifier": "every accepted sentence, every position, every replacement character, every mode/validate/userdefined", "why_tests_cant": "all (sentence, position, character) triples cannot be enumerated", "anchors": ["src/pynmeagps/nmeareader.py:NMEAReader.parse", "src/pynmeagps/nmeahelpers.py:calc_checksum", "src/pynmeagps/nmeahelpers.py:get_parts"]}
{"id": "C03", "title": "Checksum acceptance is exact and case-insensitive, and optional", "statement": "With VALCKSUM set, parse returns an NMEAMessage only if the upper-cased text after the first '*' equals the computed checksum of the text before it, and otherwise raises NMEAParseError for every well-framed sentence; without VALCKSUM the checksum text has no influence on whether the sentence is accepted.", "quantifier": "every byte string, every mode, every validate value, every userdefined dictionary", "why_tests_cant": "quantifies over all sentences and all flag values", "anchors": ["src/pynmeagps/nmeareader.py:NMEAReader.parse"]}
{"id": "C04", "title": "parse then serialize reproduces the sentence byte for byte", "statement": "If parse accepts a message given as bytes and the message is not the bracketed PSSNSNC type, serialize() of the result is '$' + (the input with leading/trailing $,CR,LF removed) + CRLF; in particular it equals the input for every canonically framed sentence. Hence parse-serialize-parse gives the same message.", "quantifier": "every accepted byte string, every mode/validate/userdefined", "why_tests_cant": "unbounded set of sentences and definitions", "anchors": ["src/pynmeagps/nmeareader.py:NMEAReader.parse", "src/pynmeagps/nmeamessage.py:NMEAMessage.serialize", "src/pynmeagps/nmeahelpers.py:get_parts"]}
{"id": "C05", "title": "A generated sentence is accepted by parse and carries the same payload", "statement": "A message constructed from keyword arguments with a known definition serializes to '$'+talker+msgID+','-joined fields+'*'+checksum+CRLF, and if no field contains a reserved character, parse of these bytes (same mode, definitions, with checksum validation) passes the checksum test and sees the same talker, message id, payload and checksum.", "quantifier": "every talker, message id, mode, definition (built-in or user-defined) and keyword values", "why_tests_cant": "all definitions times all values", "anchors": ["src/pynmeagps/nmeamessage.py:NMEAMessage.__init__", "src/pynmeagps/nmeamessage.py:NMEAMessage.serialize", "src/pynmeagps/nmeareader.py:NMEAReader.parse"]}
{"id": "C06", "title": "Typed values survive the wire", "statement": "For integer, character, string, direction, hex and status attributes, str2val(val2str(v)) = v for every value v of the natural type (every integer of at most 4300 digits - longer ones raise ValueError; every string); decimal attributes: every finite float v is recovered exactly from its text; unknown attribute types raise NMEATypeError in str2val, val2str and nomval.", "quantifier": "every value of every attribute type", "why_tests_cant": "infinitely many values", "anchors": ["src/pynmeagps/nmeamessage.py:NMEAMessage.str2val", "src/pynmeagps/nmeamessage.py:NMEAMessage.val2str", "src/pynmeagps/nmeamessage.py:NMEAMessage.nomval"]}
{"id": "C07", "title": "Latitude/longitude round trip loses at most the documented precision", "statement": "For every float degrees value of magnitude at most 180, dmm2ddd(ddd2dmm(x)) is a number within 1e-7 degrees of |x| in standard mode (5dp minutes) and within 1e-9 degrees in high-precision mode (7dp minutes).", "quantifier": "every representable double in [-180,180], both attribute kinds, both precision modes", "why_tests_cant": "about 2^63 doubles", "anchors": ["src/pynmeagps/nmeahelpers.py:ddd2dmm", "src/pynmeagps/nmeahelpers.py:dmm2ddd"]}
{"id": "C08", "title": "lat/lon sign agrees with N/S and E/W after parsing", "statement": "After parsing any sentence whose definition has the attribute lat followed by a latitude-direction field, msg.lat is minus the magnitude of the converted field if the direction is 'S' and the magnitude itself otherwise; same for lon and 'W'. (Seven standard types have a direction but no attribute called lat: there the hemisphere is not in the number.)", "quantifier": "every payload, every definition with lat/lon and direction fields", "why_tests_cant": "all payload strings", "anchors": ["src/pynmeagps/nmeamessage.py:NMEAMessage._set_attribute_single"]}
{"id": "C09", "title": "N/S and E/W are derived from the sign when generating", "statement": "When a message is generated from keywords and its definition has numeric lat (lon) before the direction field, the direction field is 'S' ('W') exactly when lat (lon) is negative, whatever NS/EW keyword was supplied, and the lat/lon field itself carries the magnitude.", "quantifier": "every numeric lat/lon, every supplied NS/EW", "why_tests_cant": "all values", "anchors": ["src/pynmeagps/nmeamessage.py:NMEAMessage._set_attribute_single"]}
{"id": "C10", "title": "Dates round trip inside the two-digit-year window", "statement": "date2utc(date2str(d,f),f) = d for every valid date with year 1969..2068 for formats DT and DM, and for every date with year 1000..9999 for DTL; outside the window DT/DM return a different date (never an error).", "quantifier": "every calendar date and format", "why_tests_cant": "3.6 million dates x formats; the windows' edges", "anchors": ["src/pynmeagps/nmeahelpers.py:date2str", "src/pynmeagps/nmeahelpers.py:date2utc"]}
{"id": "C11", "title": "Times round trip to a hundredth of a second", "statement": "time2utc(time2str(t)) equals t truncated to 10 ms for every time of day t; any string time2utc accepts denotes a valid time, every other string gives ''.", "quantifier": "every time of day (8.64e10 microsecond values); every string", "why_tests_cant": "too many values", "anchors": ["src/pynmeagps/nmeahelpers.py:time2str", "src/pynmeagps/nmeahelpers.py:time2utc"]}
{"id": "C12", "title": "get_parts is a lossless decomposition", "statement": "For every message that get_parts accepts, content = talker+msgid followed by ','+field for each payload field, stripped message = content+'*'+checksum, content contains no '*', no field contains ',', and the talker is 'P' or at most 2 characters; get_parts raises NMEAMessageError exactly when the stripped message has no '*' (or the bytes are not UTF-8).", "quantifier": "every str or bytes input", "why_tests_cant": "unbounded inputs", "anchors": ["src/pynmeagps/nmeahelpers.py:get_parts"]}
{"id": "C13", "title": "parse raises only the documented exceptions", "statement": "For every input, NMEAReader.parse returns an NMEAMessage or None or raises NMEAParseError or NMEATypeError. (FALSE of the code: IndexError escapes for proprietary-prefix sentences with an empty or too short first field. Proved: exact characterisation of when IndexError escapes, and the claim for everything else.)", "quantifier": "every byte string, mode, validate, userdefined", "why_tests_cant": "a fuzzing test cannot show absence of other exceptions", "anchors": ["src/pynmeagps/nmeareader.py:NMEAReader.parse", "src/pynmeagps/nmeamessage.py:NMEAMessage._get_dict", "src/pynmeagps/nmeamessage.py:NMEAMessage._do_attributes"]}
{"id": "C14", "title": "parse returns None exactly for badly formed messages when VALMSGID is off", "statement": "With VALMSGID off, parse returns None exactly when get_parts rejects the message; with VALMSGID on it never returns None.", "quantifier": "every input", "why_tests_cant": "all inputs", "anchors": ["src/pynmeagps/nmeareader.py:NMEAReader.parse"]}
{"id": "C15", "title": "Attributes correspond positionally to payload fields", "statement": "Parsing a sentence whose definition is a list of single attributes gives exactly the attributes of the definition for which a field is present, in definition order, the i-th one being str2val of the i-th field with the i-th type (up to the lat/lon sign rule).", "quantifier": "every definition of single attributes, every payload", "why_tests_cant": "all definitions and payloads", "anchors": ["src/pynmeagps/nmeamessage.py:NMEAMessage._do_attributes", "src/pynmeagps/nmeamessage.py:NMEAMessage._set_attribute_single"]}
{"id": "C16", "title": "Repeating groups are expanded with two-digit suffixes", "statement": "For every definition, parsing is equivalent to first flattening the definition into a list of (suffixed name, type) pairs - fixed groups repeated n times, named groups repeated as often as the earlier attribute says, indeterminate groups repeated (remaining fields div group size) times - and then reading that list positionally against the payload.", "quantifier": "every (nested) definition and payload", "why_tests_cant": "unbounded repeat counts and nesting", "anchors": ["src/pynmeagps/nmeamessage.py:NMEAMessage._set_attribute_group", "src/pynmeagps/nmeamessage.py:NMEAMessage._calc_num_repeats"]}
{"id": "C17", "title": "Short and long payloads are tolerated", "statement": "Parsing never fails merely because the payload is shorter than the definition without named groups: missing trailing attributes are simply absent; surplus fields are ignored for attributes but kept in payload; a parsed message never has more public attributes than payload fields (for definitions in which no attribute has the name of a property or method of NMEAMessage, as is the case for all built-in ones).", "quantifier": "every definition and payload length", "why_tests_cant": "all lengths", "anchors": ["src/pynmeagps/nmeamessage.py:NMEAMessage._set_attribute_single"]}
{"id": "C18", "title": "Unknown sentences become nominal field lists", "statement": "With VALMSGID off, a sentence with no payload definition is returned with exactly the attributes field_01.., one per payload field, holding the field text unchanged.", "quantifier": "every unknown message id and payload", "why_tests_cant": "all payloads of any length", "anchors": ["src/pynmeagps/nmeamessage.py:NMEAMessage._set_attribute_nominal", "src/pynmeagps/nmeamessage.py:NMEAMessage._get_dict"]}
{"id": "C19", "title": "VALMSGID rejects every unknown talker and message id", "statement": "With VALMSGID set, construction raises NMEAMessageError (parse: NMEAParseError) whenever the talker is not a recognised talker or the id is not recognised (standard, proprietary, prefix or user-defined) or has no definition in that mode; with VALMSGID off neither is ever a reason for rejection.", "quantifier": "every talker, id, mode, flags, userdefined", "why_tests_cant": "all combinations", "anchors": ["src/pynmeagps/nmeamessage.py:NMEAMessage.__init__", "src/pynmeagps/nmeamessage.py:NMEAMessage._get_dict"]}
{"id": "C20", "title": "Keyword order is irrelevant", "statement": "Constructing a message from the same keyword arguments in any order gives the same message (attributes, payload, checksum) or the same error.", "quantifier": "every definition, every permutation of every keyword set", "why_tests_cant": "factorially many orders", "anchors": ["src/pynmeagps/nmeamessage.py:NMEAMessage.__init__", "src/pynmeagps/nmeahelpers.py:groupsize"]}
{"id": "C21", "title": "A payload keyword makes every other keyword irrelevant", "statement": "If payload is supplied, no other payload-attribute keyword changes the constructed message. (FALSE of the code for keywords that collide with internal parameter names, and for the keyword mode with the seven proprietary types that have layout variants; proved for all others.)", "quantifier": "every payload and keyword set", "why_tests_cant": "all keyword sets", "anchors": ["src/pynmeagps/nmeamessage.py:NMEAMessage.__init__", "src/pynmeagps/nmeamessage.py:NMEAMessage._get_dict"]}
{"id": "C22", "title": "Messages are immutable after construction", "statement": "After construction every attribute assignment raises NMEAMessageError and leaves the message unchanged, over any sequence of assignments; whatever is assigned or deleted, the wire form, payload, checksum and header never change. FALSE for deletion of attributes (they are gone) and for editing the payload list, which the message shares with its creator and with users of the payload property: attributes and checksum stay, the wire form has the new fields with the old checksum, so it is rejected when read with checksum validation unless the XOR happens to be the same.", "quantifier": "every message, every sequence of attempted updates", "why_tests_cant": "unbounded histories", "anchors": ["src/pynmeagps/nmeamessage.py:NMEAMessage.__setattr__", "src/pynmeagps/nmeamessage.py:NMEAMessage.payload"]}
{"id": "C23", "title": "The reader returns exactly the sentences of the stream, in order", "statement": "Iterating NMEAReader over any stream made of acceptable sentences separated by arbitrary junk without '$' yields each sentence exactly once, in order, with raw equal to its bytes and parsed equal to NMEAReader.parse of these bytes, and then stops.", "quantifier": "every number of sentences, every junk content", "why_tests_cant": "unbounded streams", "anchors": ["src/pynmeagps/nmeareader.py:NMEAReader.read", "src/pynmeagps/nmeareader.py:NMEAReader.__next__"]}
{"id": "C24", "title": "Raw data are disjoint in-order slices of the stream", "statement": "For every byte stream and settings, the raw values returned by successive reads occur in the stream as disjoint slices in stream order; each begins with '$' and ends with LF; no byte is returned twice.", "quantifier": "every byte stream, every setting", "why_tests_cant": "all streams", "anchors": ["src/pynmeagps/nmeareader.py:NMEAReader.read"]}
{"id": "C25", "title": "Error policy changes only the reporting, not the data", "statement": "ERR_IGNORE and ERR_LOG never let a library error escape and return the same sequence of messages; ERR_LOG reports each error exactly once in stream order to the handler; ERR_RAISE raises these same errors, in the same order and position, and continuing to read after each yields the same messages.", "quantifier": "every byte stream", "why_tests_cant": "all streams and error positions", "anchors": ["src/pynmeagps/nmeareader.py:NMEAReader.read", "src/pynmeagps/nmeareader.py:NMEAReader._do_error"]}
{"id": "C26", "title": "Reading terminates and makes progress", "statement": "On every finite stream every read() returns, a read that returns data consumes at least the bytes returned, and iteration ends after at most as many steps as there are bytes.", "quantifier": "every finite stream", "why_tests_cant": "termination cannot be tested", "anchors": ["src/pynmeagps/nmeareader.py:NMEAReader.read"]}
{"id": "C27", "title": "nmeaonly reports exactly the unknown '$x' headers", "statement": "With nmeaonly the reader raises/reports NMEAParseError exactly when a '$' at sentence-search position is followed by a byte that is not the first letter of a known talker; all other non-NMEA bytes are skipped silently (contrary to the documentation); without nmeaonly nothing is reported.", "quantifier": "every byte stream", "why_tests_cant": "all streams", "anchors": ["src/pynmeagps/nmeareader.py:NMEAReader.read", "src/pynmeagps/nmeatypes_core.py:NMEA_HDR"]}
{"id": "C28", "title": "Iteration stops exactly at end of stream", "statement": "The iterator raises StopIteration exactly when the rest of the file holds nothing that would be returned or would raise (with policies 0 and 1 errors do not count), and the file is then exhausted; it never yields (None,None): every item comes with its raw bytes; a for loop that ends without exception has yielded every item.", "quantifier": "every stream", "why_tests_cant": "all streams", "anchors": ["src/pynmeagps/nmeareader.py:NMEAReader.__next__"]}
{"id": "C29", "title": "TCP segmentation does not matter", "statement": "For an unencoded socket, the sequence of values returned by any sequence of read(n)/readline() calls depends only on the concatenation of the received segments, not on where the segments were cut, and the same holds for the messages NMEAReader returns from it.", "quantifier": "every byte stream, every segmentation, every call sequence", "why_tests_cant": "exponentially many segmentations", "anchors": ["src/pynmeagps/socketwrapper.py:SocketWrapper.read", "src/pynmeagps/socketwrapper.py:SocketWrapper.readline", "src/pynmeagps/socketwrapper.py:SocketWrapper._recv"]}
{"id": "C30", "title": "SocketWrapper.read is an all-or-nothing FIFO", "statement": "read(n) returns exactly n bytes or b''; over any history of calls and receive failures the bytes returned followed by those still buffered or undelivered are exactly the bytes sent, in order: no loss, duplication or reordering.", "quantifier": "every history of calls, timeouts and segments", "why_tests_cant": "unbounded histories", "anchors": ["src/pynmeagps/socketwrapper.py:SocketWrapper.read"]}
{"id": "C31", "title": "SocketWrapper.readline returns up to and including the first CRLF", "statement": "readline returns the shortest prefix of the incoming data ending in CRLF; if the socket fails first it returns everything that had arrived (and that data is consumed).", "quantifier": "every stream and segmentation", "why_tests_cant": "all streams", "anchors": ["src/pynmeagps/socketwrapper.py:SocketWrapper.readline"]}
{"id": "C32", "title": "Reading a socket equals reading a file of the same bytes", "statement": "For data in which every LF is preceded by CR, NMEAReader over a socket delivering these bytes returns the same messages as over a file containing them. (FALSE in general: a bare LF ends a line in a file but not on a socket.)", "quantifier": "every such byte stream and segmentation", "why_tests_cant": "all streams", "anchors": ["src/pynmeagps/nmeareader.py:NMEAReader._read_line", "src/pynmeagps/socketwrapper.py:SocketWrapper.readline"]}
{"id": "C33", "title": "De-chunking inverts chunked transfer encoding", "statement": "For every list of non-empty chunks, the chunked encoding (with or without the terminating zero chunk) delivered in one segment is decoded to exactly the concatenation of the chunks with nothing left over.", "quantifier": "every list of chunks", "why_tests_cant": "unbounded data", "anchors": ["src/pynmeagps/socketwrapper.py:SocketWrapper.dechunk"]}
{"id": "C34", "title": "De-chunking is independent of segmentation", "statement": "A chunked stream cut into arbitrary segments decodes to the concatenation of its chunks. (FALSE of the code: a cut between the chunk data and the end of its trailing CRLF loses the rest of the segment; proved for all other cuts.)", "quantifier": "every chunk list, every segmentation", "why_tests_cant": "exponentially many segmentations", "anchors": ["src/pynmeagps/socketwrapper.py:SocketWrapper.dechunk", "src/pynmeagps/socketwrapper.py:SocketWrapper._recv"]}
{"id": "C35", "title": "Buffer never exposes undecoded transfer framing", "statement": "With chunked encoding the bytes handed to the reader are always the concatenation of complete (decompressed) chunks; partially received chunks are withheld until complete; a chunk whose decompression fails is passed on unmodified from the failing stage.", "quantifier": "every segment", "why_tests_cant": "all streams", "anchors": ["src/pynmeagps/socketwrapper.py:SocketWrapper.dechunk"]}
{"id": "C36", "title": "Leap-second lookup is a monotone step function of the table", "statement": "leapsecond(t,g) depends only on the latest table entry not after t; it is monotone in t from 1972 on, 0 before 1972, 0 at the GPS (or BeiDou) epoch, and takes the documented value on each interval between table entries.", "quantifier": "every datetime (microsecond resolution), every GNSS code", "why_tests_cant": "all instants, in particular the boundaries", "anchors": ["src/pynmeagps/nmeahelpers.py:leapsecond"]}
{"id": "C37", "title": "Week/time-of-week conversion round trips", "statement": "wnotow2utc(utc2wnotow(t)) = t for every whole-second t on or after the epoch. (FALSE of the code in the last leap-second-offset seconds of each week; proved exactly when t + leap seconds stays within the UTC week and no leap second lies in the offset window.)", "quantifier": "every instant, every GNSS", "why_tests_cant": "all instants", "anchors": ["src/pynmeagps/nmeahelpers.py:utc2wnotow", "src/pynmeagps/nmeahelpers.py:wnotow2utc"]}
{"id": "C38", "title": "Autoroll terminates and yields the latest date not after now", "statement": "wnotow2utc with autoroll always terminates (result or OverflowError); the result t satisfies t + rollover > now and, if rolled over at least once, t <= now.", "quantifier": "every wno, tow, GNSS and current time", "why_tests_cant": "all clock values", "anchors": ["src/pynmeagps/nmeahelpers.py:wnotow2utc"]}
{"id": "C39", "title": "Week number and time of week are in range", "statement": "utc2wnotow with modwno returns 0 <= wno < rollover of the GNSS; tow is between 0 and 604800000 plus the leap-second offset.", "quantifier": "every instant on or after the epoch", "why_tests_cant": "all instants", "anchors": ["src/pynmeagps/nmeahelpers.py:utc2wnotow"]}
{"id": "C40", "title": "groupsize is the largest group index", "statement": "groupsize(**kwargs) is the largest integer suffix after the first underscore among the keywords, 0 if there is none, independent of order; it raises ValueError iff some suffix is not an integer literal.", "quantifier": "every keyword set", "why_tests_cant": "all keyword sets", "anchors": ["src/pynmeagps/nmeahelpers.py:groupsize"]}
{"id": "C41", "title": "msgdesc is total and consistent with the message tables", "statement": "msgdesc returns the standard description if the id is standard, else the proprietary one, else 'Unknown msgID <id>', for every string.", "quantifier": "every string", "why_tests_cant": "all strings", "anchors": ["src/pynmeagps/nmeahelpers.py:msgdesc"]}
{"id": "C42", "title": "Distance, area and bearing formulas have their geometric invariants", "statement": "Over the reals: haversine is radius times the central angle, symmetric, between 0 and pi*radius, zero exactly for the same point of the sphere and satisfies the triangle inequality; bearing is in [0,360) and is the compass direction in which the second point is seen from the first; planar is the length of the step in the tangent plane, zero exactly for equal coordinates off the poles, exact along meridians (but not symmetric); area is the surface integral over the spherical rectangle, non-negative and independent of the order of the corners.", "quantifier": "all real coordinates", "why_tests_cant": "continuum of inputs", "anchors": ["src/pynmeagps/nmeahelpers.py:haversine", "src/pynmeagps/nmeahelpers.py:planar", "src/pynmeagps/nmeahelpers.py:area", "src/pynmeagps/nmeahelpers.py:bearing"]}
{"id": "C43", "title": "ECEF conversion is geometrically correct", "statement": "Over the reals: llh2ecef returns the point at the given height along the normal of the ellipsoid with the given latitude and longitude (the definition of geodetic coordinates), for every flattened ellipsoid; ecef2llh is total, exact on the equator and on the polar axis, exact in longitude, odd in z, and its latitude has the sign of z; ecef2llh(llh2ecef(lat, lon, height)) returns lat to 1e-9 degrees and height to 1e-8 m, for every latitude and every height from -100 km upwards. (Within 100 km of the centre it returns the nominal (0, 0, -1e7).)", "quantifier": "all real coordinates", "why_tests_cant": "continuum", "anchors": ["src/pynmeagps/nmeahelpers.py:llh2ecef", "src/pynmeagps/nmeahelpers.py:ecef2llh"]}
{"id": "C44", "title": "Degree formatting helpers", "statement": "deg2dmm/deg2dms print degrees, minutes (and seconds) within 1e-9 (2e-9) degrees of the argument and end in the hemisphere letter given by the sign and the attribute kind; dms2deg accepts exactly strings of 1-3 number+delimiter groups with optional NSEW, is right to 6e-8 degrees and negates exactly for S/W; dms2deg(deg2dms(x)) is x to 1e-7 degrees, unless the seconds are printed with an exponent, which is rejected.", "quantifier": "every float and string", "why_tests_cant": "all inputs", "anchors": ["src/pynmeagps/nmeahelpers.py:deg2dmm", "src/pynmeagps/nmeahelpers.py:deg2dms", "src/pynmeagps/nmeahelpers.py:dms2deg"]}
{"id": "C45", "title": "hex2str is the inverse of int(.,16)", "statement": "int(hex2str(z,p),16) = z for every integer z and padding p; the text has exactly p characters (more only if the unpadded text is longer), is an optional minus sign followed by upper-case hex digits (p < 10), and has no superfluous zeros when unpadded. From p = 10 on it is padded with spaces.", "quantifier": "every integer and padding", "why_tests_cant": "all integers", "anchors": ["src/pynmeagps/nmeahelpers.py:hex2str"]}
{"id": "C46", "title": "knots2spd scales by the named factor or raises", "statement": "knots2spd(k,u) multiplies by the factor of u.upper(), raising KeyError exactly for units outside the table; the result agrees with the definition of the knot (1852 m/h) and of the unit to one part in a million, for every float of normal size.", "quantifier": "every value and unit string", "why_tests_cant": "all strings", "anchors": ["src/pynmeagps/nmeahelpers.py:knots2spd"]}
{"id": "C47", "title": "Payload definition tables are well typed", "statement": "Every attribute of every built-in definition has a type that str2val supports - except the dummy FOO and the date of LR2 (type DTL), so that no LR2 sentence with a date field can ever be parsed; named repeat counts refer to an earlier integer attribute; no attribute uses a reserved name; names are unique.", "quantifier": "every built-in definition (635 definitions) and, for LR2, every payload", "why_tests_cant": "tests only exercise a few message types", "anchors": ["src/pynmeagps/nmeatypes_get.py:NMEA_PAYLOADS_GET", "src/pynmeagps/nmeatypes_get_prop.py:NMEA_PAYLOADS_GET_PROP", "src/pynmeagps/nmeatypes_set_prop.py:NMEA_PAYLOADS_SET_PROP"]}
{"id": "C48", "title": "Quectel variant selection picks the definition with the right number of fields", "statement": "For the Quectel command/response types with variants, whenever a variant with as many fields as the payload exists for the mode, the payload is read with exactly the attributes of that variant, in order (unless it is a generic OK or ERROR acknowledgement); PQTMSN and PSTMDRSENMSG responses are read with the layout their first field selects.", "quantifier": "every payload length and content, each mode", "why_tests_cant": "all payloads", "anchors": ["src/pynmeagps/nmeamessage.py:NMEAMessage._get_dict_qtmcfguart", "src/pynmeagps/nmeamessage.py:NMEAMessage._get_dict_qtmcfgmsgrate", "src/pynmeagps/nmeamessage.py:NMEAMessage._get_dict_qtmcfgsat", "src/pynmeagps/nmeamessage.py:NMEAMessage._get_dict_qtmcfggeofence", "src/pynmeagps/nmeamessage.py:NMEAMessage._get_dict_qtmcfgpps"]}
{"id": "C49", "title": "repr rebuilds the message", "statement": "Constructing NMEAMessage(talker,msgID,mode,payload=payload) as printed by repr gives a message with the same attributes, payload and wire form for every parsed sentence with a built-in id, a definition and a valid upper-case checksum; for PSSNSNC, which loses its square brackets when parsed, the checksum becomes that of the payload without brackets, everything else being the same. (FALSE for sentences without definition: the rebuilt message has no checksum; and for user-defined ids, whose definition repr does not show.)", "quantifier": "every such message", "why_tests_cant": "all messages", "anchors": ["src/pynmeagps/nmeamessage.py:NMEAMessage.__repr__"]}
{"id": "C50", "title": "Getters reflect the header", "statement": "For a parsed sentence: talker+msgID is the header field, msgmode the requested mode, checksum the received text, payload the received fields (for PSSNSNC without their square brackets), and identity is the header, extended by the sub-id for prefixed proprietary messages only. Getters cannot be hidden: no attribute of any message, received or generated, built-in or user-defined, bears the name of one. The methods that convert fields and values (str2val, val2str) can be hidden only by the last attribute: a user definition with such a name is refused as soon as something follows it.", "quantifier": "every accepted sentence, every constructed message", "why_tests_cant": "all sentences", "anchors": ["src/pynmeagps/nmeamessage.py:NMEAMessage.identity", "src/pynmeagps/nmeamessage.py:NMEAMessage.talker", "src/pynmeagps/nmeamessage.py:NMEAMessage.payload"]}
{"id": "C51", "title": "Definition lookup: which table is used", "statement": "The definition used depends only on mode, id source and key: standard ids use the GET/SET/POLL tables, proprietary ids the corresponding proprietary table, user-defined ids the user dictionary in all modes, and user-defined entries never override built-in ids. Consequence: definitions in the tables that no message can select are identified (all 60+ proprietary entries of NMEA_PAYLOADS_POLL for recognised ids, TNLGGKx, lower-case user ids).", "quantifier": "every message id, mode and userdefined dictionary", "why_tests_cant": "all ids", "anchors": ["src/pynmeagps/nmeamessage.py:NMEAMessage._get_dict", "src/pynmeagps/nmeamessage.py:NMEAMessage._get_dict_prop"]}
{"id": "C52", "title": "str shows every public attribute once in definition order", "statement": "str(msg) is '<NMEA(' + identity + [', NOMINAL' iff the id is unrecognised] + ', name=value' for each public attribute in the order set + ')>'. The value is written as None, True, False, the text itself, a plain decimal numeral, a numeral that reads back as the float, or an ISO date or time; only integers of more than 4300 digits have no text.", "quantifier": "every message", "why_tests_cant": "all messages", "anchors": ["src/pynmeagps/nmeamessage.py:NMEAMessage.__str__"]}
{"id": "C53", "title": "Every serialized sentence has a valid checksum", "statement": "serialize() of a generated message always ends in a correct checksum. (FALSE: a message without payload definition is serialized with the literal text '*None'; proved whenever a definition exists.)", "quantifier": "every constructor call", "why_tests_cant": "all ids", "anchors": ["src/pynmeagps/nmeamessage.py:NMEAMessage._do_attributes", "src/pynmeagps/nmeamessage.py:NMEAMessage.serialize"]}
{"id": "C54", "title": "ISO 6709 output sign handling", "statement": "llh2iso6709 writes exactly one sign before each of latitude and longitude magnitudes. (FALSE for altitude: a negative altitude gets two minus signs.)", "quantifier": "every latitude, longitude, altitude", "why_tests_cant": "all values", "anchors": ["src/pynmeagps/nmeahelpers.py:llh2iso6709"]}
{"id": "C55", "title": "Resynchronisation after corruption", "statement": "After any damaged data the reader resumes at the next '$' that follows a line end: a valid sentence that starts right after an LF (or after bytes containing no '$') is always returned, whatever preceded it up to that point - provided the preceding bytes, up to the LF, do not end in '$'.", "quantifier": "every garbage prefix, every following sentence", "why_tests_cant": "all garbage", "anchors": ["src/pynmeagps/nmeareader.py:NMEAReader.read"]}
{"id": "C56", "title": "Parsing is local: results do not depend on neighbouring sentences", "statement": "Reading the concatenation of two streams, the first ending at a sentence boundary, gives the messages of the first followed by the messages of the second.", "quantifier": "every pair of streams", "why_tests_cant": "all streams", "anchors": ["src/pynmeagps/nmeareader.py:NMEAReader.read"]}
{"id": "C57", "title": "Parsing ignores the clock; generation uses it only for unset dates and times", "statement": "NMEAReader.parse gives the same result at any time; a message constructed from keywords depends on the clock only through date or time attributes (other than the ones given as keywords), so that if each of them is given, the message is the same whenever it is made.", "quantifier": "every input, every two clocks", "why_tests_cant": "wall clock readings cannot be enumerated", "anchors": ["src/pynmeagps/nmeareader.py:NMEAReader.parse", "src/pynmeagps/nmeamessage.py:NMEAMessage.nomval"]}
{"id": "C58", "title": "Only the sentence body matters", "statement": "parse gives the same result for a str and for its UTF-8 bytes, and for any two inputs that differ only in leading and trailing '$', CR and LF characters; anything that is not text is treated as an invalid sentence with the same error, whatever it is.", "quantifier": "every input and every amount of framing characters", "why_tests_cant": "all inputs", "anchors": ["src/pynmeagps/nmeareader.py:NMEAReader.parse", "src/pynmeagps/nmeahelpers.py:get_parts"]}
{"id": "C59", "title": "User definitions do not interfere", "statement": "Adding, removing or changing user definitions of other message ids does not change the result of parse; user definitions never change how a built-in sentence type is parsed.", "quantifier": "every sentence and every pair of user dictionaries", "why_tests_cant": "all dictionaries", "anchors": ["src/pynmeagps/nmeamessage.py:NMEAMessage._get_dict", "src/pynmeagps/nmeamessage.py:NMEAMessage.__init__"]}
{"id": "C60", "title": "The talker does not change the interpretation", "statement": "Two sentences that differ only in a (non-proprietary) talker id parse to messages with the same id, payload and attributes, or fail with the same error, provided both pass the checks on checksum and talker that the flags ask for.", "quantifier": "every sentence and every pair of talkers", "why_tests_cant": "all sentences", "anchors": ["src/pynmeagps/nmeamessage.py:NMEAMessage._get_dict", "src/pynmeagps/nmeareader.py:NMEAReader.parse"]}
{"id": "C61", "title": "Validation flags only filter", "statement": "A sentence is accepted with given validation flags exactly if it is accepted without them and passes the checks the flags ask for, and then as the same message; so relaxing the flags never loses or changes a message.", "quantifier": "every sentence, all pairs of flag values", "why_tests_cant": "all sentences", "anchors": ["src/pynmeagps/nmeareader.py:NMEAReader.parse", "src/pynmeagps/nmeamessage.py:NMEAMessage.__init__"]}
{"id": "C62", "title": "Unused keywords are silently ignored", "statement": "Keywords that are neither attributes of the definition (with group suffixes), nor one of the keywords that select a variant, nor (through '_n' suffixes) determine a group size, have no influence on the constructed message.", "quantifier": "every sentence type and every pair of keyword sets", "why_tests_cant": "all keyword sets", "anchors": ["src/pynmeagps/nmeamessage.py:NMEAMessage._set_attribute_single", "src/pynmeagps/nmeahelpers.py:groupsize"]}
{"id": "C63", "title": "High precision mode affects only latitude and longitude text", "statement": "With hpnmeamode set or not, the same constructor call succeeds, giving equal attributes, the same number of fields and the same text in each field that is not of type LA or LN.", "quantifier": "every constructor call", "why_tests_cant": "all keyword sets", "anchors": ["src/pynmeagps/nmeamessage.py:NMEAMessage.val2str", "src/pynmeagps/nmeahelpers.py:ddd2dmm"]}
{"id": "C64", "title": "What is written can be read back: attributes survive a round trip", "statement": "A message constructed from keywords of the natural type of each attribute (text for text fields, int, float, date from 1969 to 2068, time, degrees up to 180) and serialized is accepted by parse, with the same talker, id, mode and payload, and each attribute comes back: text, integers, floats and dates exactly, times up to the microseconds the format drops, latitude and longitude within the rounding of the format (with the sign carried by the direction attribute), and unset values as the empty string. The layout chosen when reading is the one chosen when writing, also for the Quectel and STM types with several layouts. (Exceptions: LR2 with its long date and FOO; a received Quectel message whose fields look like an OK or ERROR acknowledgement; QTMSN whose first field is a number; PSSNSNC with brackets in its text.)", "quantifier": "every standard and proprietary sentence type, every natural set of keywords, both precision modes", "why_tests_cant": "all keyword values and group sizes", "anchors": ["src/pynmeagps/nmeamessage.py:NMEAMessage.val2str", "src/pynmeagps/nmeamessage.py:NMEAMessage.str2val", "src/pynmeagps/nmeareader.py:NMEAReader.parse"]}
{"id": "C65", "title": "Messages written to a file or socket are read back", "statement": "Serialized messages written one after the other to a file, or sent through a socket in any segmentation, are read back by NMEAReader in order, without loss, duplication or error: copying the messages read from any stream gives a stream with the same messages (except the bracketed PSSNSNC ones), and messages of any built-in type constructed from natural keywords come back (with the exceptions of C64) with the same talker, id, payload, checksum and attributes.", "quantifier": "every list of messages, every stream, every segmentation, every error policy", "why_tests_cant": "all lists of messages and all segmentations", "anchors": ["src/pynmeagps/nmeareader.py:NMEAReader.read", "src/pynmeagps/nmeamessage.py:NMEAMessage.serialize", "src/pynmeagps/socketwrapper.py:SocketWrapper.readline"]}
{"id": "C66", "title": "repr is a constructor call that rebuilds the message", "statement": "repr(msg) is the text of a call NMEAMessage(talker, id, mode, payload=[...]) whose string literals denote, whatever characters the payload contains, exactly the talker, id and payload of the message; the text is unambiguous, so messages with the same repr agree in all four; and evaluating it gives, for built-in message types, a message with the same talker, id, mode, payload, attributes and str, whose checksum is the computed one (a wrong checksum accepted without validation is not preserved). A message of a built-in type made from natural keyword values (see C64) is rebuilt with the same payload, checksum and serialized bytes, its attributes as reading it back would give them. Talkers and ids containing quotes are copied unescaped and break the text.", "quantifier": "every message, every payload over all code points, every notion of printable character", "why_tests_cant": "all strings and all messages", "anchors": ["src/pynmeagps/nmeamessage.py:NMEAMessage.__repr__", "src/pynmeagps/nmeamessage.py:NMEAMessage.__init__"]}
{"id": "C67", "title": "Serial ports: timeouts never corrupt data", "statement": "Reading from a serial port whose read() times out at arbitrary moments: timeouts between sentences lose nothing (each shows as one (None, None)); a timeout inside a sentence loses exactly that sentence - after its first one or two bytes silently, later with one NMEAStreamError - and everything after it is read normally; no sentence returned was put together from data before and after a timeout. The error policy only changes the reporting.", "quantifier": "every sequence of bytes and timeouts, every number of calls of read(), every setting", "why_tests_cant": "all interleavings of data and timeouts", "anchors": ["src/pynmeagps/nmeareader.py:NMEAReader.read", "src/pynmeagps/nmeareader.py:NMEAReader._read_bytes", "src/pynmeagps/nmeareader.py:NMEAReader._read_line"]}
{"id": "C68", "title": "Standard sentences are read as the standard lays them out", "statement": "For every standard sentence type of the library except LR2 and the test type FOO (73 types, among them GGA, RMC, GLL, GSA, GSV, GNS, GST, VTG, ZDA, in an independently written table of layouts; 67 more and 6 with coordinates under other names transcribed from the payload descriptions), parse() of a framed sentence whose fields are well-formed or empty returns a message whose attributes are the fields that are present, under the names and in the order of the layout, each with the value its text denotes: numbers exactly rounded, times and dates, characters as they are, coordinates in decimal degrees within 6e-11 and negative for S and W. Any number of fields may be present; the group of ALC is read as often as its count says. In BEC, TLL, ACA, LRI, SM3 and SM4 the hemisphere is not applied: each coordinate is the unsigned value of its own text.", "quantifier": "every sentence of a listed type, every talker, every well-formed text of every field, every number of fields", "why_tests_cant": "all field texts of all lengths", "anchors": ["src/pynmeagps/nmeatypes_get.py:NMEA_PAYLOADS_GET", "src/pynmeagps/nmeamessage.py:NMEAMessage._set_attribute_single", "src/pynmeagps/nmeamessage.py:NMEAMessage.str2val"]}
{"id": "C69", "title": "Attributes without a keyword have documented defaults", "statement": "In a message made from keyword arguments, every attribute for which there is no keyword (and which is not the direction of a coordinate already set) has the default of its type - empty text or coordinate, N, E, 0, 0.0, the current UTC time or date, and OK, W or R according to the mode - and its field is the standard form of that default. Every built-in sentence type except the test type FOO can be made in every mode in which it is defined with no keywords at all (or only with msgId), and then all attributes have their defaults.", "quantifier": "every sentence type, mode, keyword set and clock", "why_tests_cant": "all keyword sets, all definitions", "anchors": ["src/pynmeagps/nmeamessage.py:NMEAMessage.nomval", "src/pynmeagps/nmeamessage.py:NMEAMessage._set_attribute_single", "src/pynmeagps/nmeamessage.py:NMEAMessage.val2str"]}
{"id": "C70", "title": "Geodesy in floating point", "statement": "With double arithmetic and any C mathematical library accurate to one unit in the last place, for coordinates on the globe: haversine is the great-circle distance within 2.1e-7 of the radius, and within 1.1e-9 of it for points at least 50 m apart and from antipodal; it raises ValueError at most for points within 2.1e-7 radians of each other or of antipodal, and is 0 for equal coordinates; bearing is always in [0, 360) and is the compass direction within 2e-7 degrees for points at least 50 m apart and from antipodal; area is within 3e-14 of the squared radius of the exact area; planar within 2e-14 of the radius of the exact value; llh2ecef never fails and is within 3e-15 of 6400 km plus height of the exact point. Swapping the two points gives bit for bit the same result or exception from area for all arguments and every library, from haversine for all arguments and every library with an even cosine, and from planar for all points on one parallel.", "quantifier": "every pair of coordinates, every radius in a wide range, every library of the stated accuracy", "why_tests_cant": "all floats and all libm implementations", "anchors": ["src/pynmeagps/nmeahelpers.py:haversine", "src/pynmeagps/nmeahelpers.py:bearing", "src/pynmeagps/nmeahelpers.py:area", "src/pynmeagps/nmeahelpers.py:planar", "src/pynmeagps/nmeahelpers.py:llh2ecef"]}
{"id": "C71", "title": "ECEF back to geodetic coordinates in floating point", "statement": "With double arithmetic and any C mathematical library accurate to one unit in the last place: given the ECEF coordinates, each to within e (at most 1 mm), of any place from 100 km below to 100000 km above the WGS84 ellipsoid, ecef2llh does not fail and returns the geodetic latitude within 6e-10 degrees + e/10^4, the height within 1e-8 m + 3.1 e + 7e-15 (6400 km + |height|), and the longitude modulo 360 within 2e-13 + 180 e/(w - 2e) degrees, w the distance from the polar axis; and ecef2llh(llh2ecef(lat, lon, height)) returns latitude within 1e-9 degrees, height within 1e-8 m + 2e-14 (6400 km + |height|), and longitude within an arc of 3e-12 degrees along the parallel.", "quantifier": "every place in that shell, every perturbation of the coordinates, every library of the stated accuracy", "why_tests_cant": "all floats and all libm implementations", "anchors": ["src/pynmeagps/nmeahelpers.py:ecef2llh", "src/pynmeagps/nmeahelpers.py:llh2ecef"]}
{"id": "C72", "title": "Exceptions from the stream or from the error handler", "statement": "An exception raised by the stream's read() or readline() that is no library error leaves NMEAReader.read() unchanged - except EOFError, for which read() returns (None, None) - under every error policy; a library error raised by the stream is treated like a parsing error. The caller may go on reading: every line not interrupted by an exception is answered exactly once and in order, whatever is raised between or inside lines. Under ERR_LOG the handler is called exactly once for every library error, in order, also if it raises: its exception then leaves read() in place of the error, no data are lost, and which messages are delivered does not depend on it. With streams and handlers that do not raise this is the reader of the other properties.", "quantifier": "every stream object, every sequence of bytes and exceptions, every handler (any function of the errors it has seen), every number of calls, every setting", "why_tests_cant": "all interleavings of data and exceptions, all handlers", "anchors": ["src/pynmeagps/nmeareader.py:NMEAReader.read", "src/pynmeagps/nmeareader.py:NMEAReader._do_error", "src/pynmeagps/nmeareader.py:NMEAReader._read_bytes", "src/pynmeagps/nmeareader.py:NMEAReader._read_line"]}
{"id": "C73", "title": "The planar approximation is good for small separations", "statement": "For places at most 14 degrees apart in latitude and longitude (as numbers), the planar distance d differs from the great-circle distance by at most the fraction dlon + dlat^2 (radians) of d, hence by at most d^2/(radius cos lat1) + d^3/radius^2; on the Earth, up to 60 degrees of latitude, distances up to 50 m are right to the millimetre; floating-point rounding adds at most 2e-14 of the radius. (Not so across the 180 degree meridian: from 180 E to 180 W planar returns the length of the whole parallel.)", "quantifier": "all coordinates up to 14 degrees apart, all radii, all C libraries accurate to one unit in the last place", "why_tests_cant": "a continuum of coordinates", "anchors": ["src/pynmeagps/nmeahelpers.py:planar", "src/pynmeagps/nmeahelpers.py:haversine"]}
{"id": "C74", "title": "Proprietary sentences are read as described", "statement": "For the proprietary sentence types listed in a table of layouts separate from the code (195 layouts of Airoha, Ashtech/Trimble, Fugro, Furuno, Garmin, Kenwood, Locosys, Magellan, Quectel, Septentrio, ST, u-blox and other sentences, among them PUBX 00, 03 and 04, including groups repeated as often as a count field says, and 17 variants told apart by the number of fields or by the first field), parse() of a framed sentence whose fields are well-formed or empty, and whose count fields are present, returns a message whose attributes are the fields that are present, under the names and in the order of the layout, each with the value its text denotes. Of the bracketed lists of PSSN,SNC all connections are read, without the square brackets. The answers OK, and ERROR with a number, that a Quectel module gives to a command are accepted for every Quectel id (four excepted) as status and errcode. For PTNL GGK, PJK and BPQ, which the table does not contain, day and month of the date come out exchanged; of PGPPADV,120 only the first two satellites are read, the others are dropped without an error.", "quantifier": "every sentence of a listed type, every well-formed text of every field, every number of fields and of repetitions", "why_tests_cant": "all field texts of all lengths, all repetition counts", "anchors": ["src/pynmeagps/nmeatypes_get_prop.py:NMEA_PAYLOADS_GET_PROP", "src/pynmeagps/nmeamessage.py:NMEAMessage._get_dict", "src/pynmeagps/nmeamessage.py:NMEAMessage._set_attribute_group", "src/pynmeagps/nmeamessage.py:NMEAMessage._set_attribute_single", "src/pynmeagps/nmeamessage.py:NMEAMessage.str2val"]}
{"id": "C75", "title": "Sockets that fail or time out", "statement": "When recv on a socket fails or times out in the middle of a stream and the program goes on calling read(), the results are those a serial port would give which times out at the same places (provided every LF is preceded by CR): no sentence is put together from data before and after a failure, every sentence returned was received between two failures; failures between sentences lose no sentence, with every error policy; a failure inside a sentence loses exactly that sentence (one (None, None) or one NMEAStreamError), and everything after it is read as if the stream began there. A failure of the very first recv, made by the constructor of the wrapper, is absorbed.", "quantifier": "all byte contents, all segmentations, all places and numbers of failures, all numbers of calls", "why_tests_cant": "a schedule of failures of arbitrary length", "anchors": ["src/pynmeagps/socketwrapper.py:SocketWrapper._recv", "src/pynmeagps/socketwrapper.py:SocketWrapper.read", "src/pynmeagps/socketwrapper.py:SocketWrapper.readline", "src/pynmeagps/nmeareader.py:NMEAReader.read", "src/pynmeagps/nmeareader.py:NMEAReader._read_line"]}
{"id": "C76", "title": "Sentences are written as the standard says", "statement": "For each standard sentence type (except LR2, FOO and the six of C68 with coordinates under other names) and each proprietary one listed for C74, the constructor succeeds for every set of keywords whose values suit their fields; the message has exactly the fields of the layout, in that order (groups as often as the keywords or the counting field say), and each field is written the way the standard says: numbers with a minus sign and digits without leading zeros, times hhmmss with hundredths of a second, dates ddmmyy (mmddyy where the layout says so), both also if they are given as text, with or without delimiters, latitudes ddmm.mmmmm and longitudes dddmm.mmmmm (seven decimals in high precision mode) within half a unit of the last decimal, letters for hemispheres from the sign of the coordinate before. Omitted keywords are left at their defaults. Every field is well-formed for a reader following the standard, and serialize gives a sentence with these fields and the right checksum. Decimal numbers below 0.0001 and from 10**16 are written with an exponent (outside the standard), and no others.", "quantifier": "all sentence types of the independent tables, all talkers, keyword dictionaries, modes of precision, clocks", "why_tests_cant": "every float, date and combination of keywords", "anchors": ["src/pynmeagps/nmeamessage.py:NMEAMessage.__init__", "src/pynmeagps/nmeamessage.py:NMEAMessage._set_attribute_single", "src/pynmeagps/nmeamessage.py:NMEAMessage.val2str", "src/pynmeagps/nmeamessage.py:NMEAMessage.nomval", "src/pynmeagps/nmeahelpers.py:ddd2dmm", "src/pynmeagps/nmeahelpers.py:time2str", "src/pynmeagps/nmeahelpers.py:date2str", "src/pynmeagps/nmeatypes_get.py:NMEA_PAYLOADS_GET"]}
{"id": "C77", "title": "Reading and writing on one socket", "statement": "Over every interleaving of read(n), readline(), in_waiting(), write(data) on a SocketWrapper and read() of an NMEAReader on it: writes do not disturb what the other calls return; the peer gets, in order and nothing else, from each write as many of its bytes as the call returned (possibly fewer than were given: the rest is not sent, without an error; nothing if the call raised), and all of the data if every write returned their length. Up to in_waiting() bytes can be read without asking the socket, more cannot; in_waiting() is the number of bytes received less the number returned. A reader is opened on a socket exactly with one of the three modes; if the mode is refused, the first segment has already been taken from the socket and is lost.", "quantifier": "all sequences of calls, all contents and segmentations, all failures in both directions", "why_tests_cant": "arbitrary interleavings and histories", "anchors": ["src/pynmeagps/socketwrapper.py:SocketWrapper.write", "src/pynmeagps/socketwrapper.py:SocketWrapper.in_waiting", "src/pynmeagps/socketwrapper.py:SocketWrapper.read", "src/pynmeagps/socketwrapper.py:SocketWrapper.readline", "src/pynmeagps/nmeareader.py:NMEAReader.__init__", "src/pynmeagps/nmeareader.py:NMEAReader.datastream"]}
{"id": "C78", "title": "Threads sharing one reader", "statement": "Any number of threads call read() of one NMEAReader again and again. If each call is made under a lock, then for every schedule of their stream operations the results of the calls, in order and over all threads, are those of one thread calling as often, and so are the errors reported and the stream left behind: every sentence goes to exactly one thread; and a call that has got the lock ends after boundedly many operations of its thread, whatever the others do. Without a lock, for every schedule, each message returned is still the parse (with the validation asked for) of the raw data returned with it, the raw data of a thread consist in order of bytes its own operations got, and on a file every byte goes to exactly one operation; but sentences can be lost, and pieces that are not adjacent can be put together without the checksum noticing (two threads taking turns read GNGLL sentences as NLL sentences).", "quantifier": "all schedules of any number of threads, all streams, all settings", "why_tests_cant": "the interleavings of any number of threads over streams of any length", "anchors": ["src/pynmeagps/nmeareader.py:NMEAReader.read", "src/pynmeagps/nmeareader.py:NMEAReader._read_bytes", "src/pynmeagps/nmeareader.py:NMEAReader._read_line"]}
{"id": "C79", "title": "Reading a file that is still being written", "statement": "A file to which another program appends while it is read, and read() called again after (None, None): the results are those of a serial port that delivers the same bytes and times out wherever the reader reached the end of the file; every sentence returned stands in the file in one piece. If the writer appends whole sentences (any number at a time, at any moment), no error occurs and the sentences returned so far, followed by those to come, are all sentences of the file in order: none is lost, changed or returned twice, and after enough calls all have been returned. If the reader reaches the end of the file inside a sentence, that part is consumed - with (None, None) if it has at most two bytes, with NMEAStreamError otherwise - and the sentence is lost.", "quantifier": "all contents, all divisions into appended pieces, all moments of appending relative to the reader's operations, all numbers of calls", "why_tests_cant": "arbitrary interleavings of a writer and a reader", "anchors": ["src/pynmeagps/nmeareader.py:NMEAReader.read", "src/pynmeagps/nmeareader.py:NMEAReader._read_bytes", "src/pynmeagps/nmeareader.py:NMEAReader._read_line", "src/pynmeagps/nmeareader.py:NMEAReader.__next__"]}
{"id": "C80", "title": "Commands and queries are written as documented", "statement": "With msgmode SET or POLL and keywords that suit the command (105 commands, 59 queries of Airoha, Garmin, Inventek, Locosys, Quectel, ST, u-blox and others, and 21 variants of Quectel commands and queries selected by which keywords are given), the constructor succeeds, the message has exactly the fields of that command in their order, each written properly from its keyword or left at its default; a Quectel command begins with W and a query with R unless the keyword status says otherwise. If no keyword holds a reserved character, serialize() is a framed sentence with these fields and the right checksum.", "quantifier": "every command and query of the table, every set of suitable keywords, every combination of omitted ones", "why_tests_cant": "all values of all keywords, all subsets of keywords", "anchors": ["src/pynmeagps/nmeatypes_set_prop.py:NMEA_PAYLOADS_SET_PROP", "src/pynmeagps/nmeatypes_poll_prop.py:NMEA_PAYLOADS_POLL_PROP", "src/pynmeagps/nmeamessage.py:NMEAMessage._get_dict", "src/pynmeagps/nmeamessage.py:NMEAMessage._get_dict_prop", "src/pynmeagps/nmeamessage.py:NMEAMessage._set_attribute_single", "src/pynmeagps/nmeamessage.py:NMEAMessage.val2str"]}
{"id": "C81", "title": "Commands and queries are read as documented", "statement": "parse() with msgmode SET or POLL of a framed command or query of the same table, with well-formed or empty fields, returns a message whose attributes are the fields that are present, under the names and in the order of the layout, each with the value its text denotes; variants of one Quectel command are told apart by the number of their fields.", "quantifier": "every command and query of the table, every well-formed text of every field, every number of fields", "why_tests_cant": "all field texts of all lengths", "anchors": ["src/pynmeagps/nmeatypes_set_prop.py:NMEA_PAYLOADS_SET_PROP", "src/pynmeagps/nmeatypes_poll_prop.py:NMEA_PAYLOADS_POLL_PROP", "src/pynmeagps/nmeamessage.py:NMEAMessage._get_dict", "src/pynmeagps/nmeamessage.py:NMEAMessage._get_dict_prop", "src/pynmeagps/nmeareader.py:NMEAReader.parse"]}
{"id": "C82", "title": "Coded attributes and the decode tables fit together", "statement": "The attributes of received sentences are keys of the decode tables of the right type: SYSTEMID[msg.systemId] (GSA, GRS, GBS) is the name of the satellite system exactly if the field is its code in NMEA 0183, SIGNALID[(msg.systemId, msg.signalId)] is a signal of the system named, FIXTYPE_GGA[msg.quality] exists exactly for 0 to 6 and is NO FIX, RTK FIXED, RTK FLOAT, DR ONLY exactly for 0, 4, 5, 6, POSMODE[msg.posMode] (RMC, GLL, VTG) exists for every mode of the standard except M, P, S and is N/A, DR, RTK FLOAT, RTK FIXED exactly for N, E, F, R. Anything else raises KeyError: so do GNS mode indicators of several systems and three of the eight GPS signals; FMI_STATUS has integer keys (distinct bits) but the attribute status of FMI is text.", "quantifier": "every accepted sentence of these types, every text of the field", "why_tests_cant": "all field texts of all lengths", "anchors": ["src/pynmeagps/nmeatypes_decodes.py:FIXTYPE_GGA", "src/pynmeagps/nmeatypes_decodes.py:POSMODE", "src/pynmeagps/nmeatypes_decodes.py:SYSTEMID", "src/pynmeagps/nmeatypes_decodes.py:SIGNALID", "src/pynmeagps/nmeatypes_decodes.py:FMI_STATUS", "src/pynmeagps/nmeatypes_get.py:NMEA_PAYLOADS_GET"]}
{"id": "C83", "title": "Standard queries are written and understood as NMEA 0183 defines them", "statement": "For each listener GA, GB, GL, GN, GP, GQ and every listed talker, NMEAMessage(talker, listener + 'Q', POLL, msgId=s) is the sentence $ttllQ,s*hh CR LF with the right checksum, for every text s without reserved characters, and parse with msgmode POLL reads it back as the same talker and id with msgId == s. With VALMSGID, parse in GET or SET mode raises NMEAParseError for every query, and in SET mode nothing with a standard id is parsed or constructed.", "quantifier": "every talker, listener, sentence name, clock, flags and user definitions", "why_tests_cant": "all names of all lengths", "anchors": ["src/pynmeagps/nmeamessage.py:NMEAMessage.__init__", "src/pynmeagps/nmeamessage.py:NMEAMessage._get_dict", "src/pynmeagps/nmeatypes_poll.py:NMEA_PAYLOADS_POLL", "src/pynmeagps/nmeatypes_set.py:NMEA_PAYLOADS_SET", "src/pynmeagps/nmeareader.py:NMEAReader.parse"]}
{"id": "C84", "title": "The example gpxtracker writes the track of its log, or fails", "statement": "The program examples/gpxtracker.py finishes exactly if everything read from the log is a message and every GGA message has at least nine fields of which the first is a time; the file is then the header, one track point per GGA sentence in the order of the log (position with south and west negative, height, time of day with the date of the run, fix, dilution of precision: the values of the fields of the sentence), and the trailer, for every log of acceptable sentences with anything without a $ in between. A finished file is well-formed XML, whatever is in the log. At the first line that begins like a sentence and is none, or GGA sentence without a time (as receivers send until they know it), it ends with AttributeError, whatever follows in the log, and the file lacks the trailer.", "quantifier": "all logs, all clocks", "why_tests_cant": "logs of any length and content", "anchors": ["examples/gpxtracker.py:NMEATracker.reader", "examples/gpxtracker.py:NMEATracker.write_gpx_hdr", "examples/gpxtracker.py:NMEATracker.write_gpx_trkpnt", "examples/gpxtracker.py:NMEATracker.write_gpx_tlr", "src/pynmeagps/nmeareader.py:NMEAReader.read", "src/pynmeagps/nmeareader.py:NMEAReader.parse"]}
{"id": "C85", "title": "The example nmeapoller prints and sends everything in order until it stops", "statement": "In the program examples/nmeapoller.py, whatever the interleaving of its two threads with the main program: the messages read from the stream are, in order, those printed, the one about to be printed, those queued and the one about to be queued - none lost, none twice; the messages to send reach the device in the order in which they were queued, one write each, and a failed write loses that message only (but leaves the queue's unfinished count above zero for good); no thread waits at an empty queue or fails there. Until stop is set, five steps of the processing thread per queued message and five more print all of them; six steps of the I/O thread per message to send and six more, and two for each read that raises, send them all; while all reads raise nothing is sent. Once stop is set the processing thread ends within five steps of its own, the I/O thread within four per message to send and four more, if no more are queued (otherwise it may go on for ever); messages then left in the queue are never printed. The query it makes for each standard id serializes, and parses as a query for that id.", "quantifier": "all schedules, streams, reader configurations, write failures", "why_tests_cant": "unboundedly many interleavings and histories", "anchors": ["examples/nmeapoller.py:io_data", "examples/nmeapoller.py:process_data", "examples/nmeapoller.py:main", "src/pynmeagps/nmeareader.py:NMEAReader.read", "src/pynmeagps/nmeamessage.py:NMEAMessage.serialize"]}
{"id": "C86", "title": "ECEF conversion works with every ellipsoid fitted to the Earth", "statement": "With any semi-major axis between 6377 and 6379 km and any inverse flattening between 293 and 301 - every datum of examples/datums.py - over the real numbers: ecef2llh returns a result for every point of space; within 100 km of the centre it is (0, 0, -10000 km); elsewhere the longitude is exact and in (-180, 180], latitude and height are exact on the equator and on the polar axis, the latitude has the sign of z, and mirroring a point at the equatorial plane negates the latitude only. llh2ecef followed by ecef2llh with the same ellipsoid returns the latitude to within 1e-9 degrees, the height to within 10 nm and (off the poles) the longitude exactly, for all heights from -100 km upwards without limit.", "quantifier": "all points, all ellipsoids in the range", "why_tests_cant": "a continuum of points and ellipsoids", "anchors": ["src/pynmeagps/nmeahelpers.py:ecef2llh", "src/pynmeagps/nmeahelpers.py:llh2ecef", "examples/datums.py:DATUMS"]}
{"id": "C87", "title": "The example web server shows the newest values, each request gets JSON", "statement": "In the program examples/webserver/nmeaserver.py, whatever the interleaving of its reading thread with requests and the stop call: the messages it reads are consecutive reads of the stream; at every moment between messages each entry of the page is the value of the last RMC, GGA or GSA message that has it (its initial value before the first), and while a message is being stored each entry is that or the value without the message; every request for the data is answered, by a JSON object with the twelve entries - numbers that read back as the same numbers, dates and times as text, any text escaped so that it stands for itself - unless a value is nan or infinite, which are written as words that are not JSON. The thread ends only by the stop call (within ten steps of its own), by an exception of read() other than the library's four, or by the first accepted RMC or GGA sentence with fewer than nine fields or GSA sentence with fewer than seventeen; after that, and while the serial port reports nothing waiting, the page does not change, whatever the reader has buffered. With its settings only sentences with the right checksum get on the page.", "quantifier": "all schedules, streams, requests", "why_tests_cant": "unboundedly many interleavings and histories", "anchors": ["examples/webserver/nmeaserver.py:GNSSStreamer.set_data", "examples/webserver/nmeaserver.py:GNSSStreamer._read_thread", "examples/webserver/nmeaserver.py:GNSSStreamer.get_data", "src/pynmeagps/nmeareader.py:NMEAReader.read"]}
{"id": "C88", "title": "A reader shared by a program and its error handler", "statement": "With quitonerror=ERR_LOG, an error handler that calls read() of the same reader itself (in which it may be called again, to any depth), or reads bytes or lines from its stream, then returns or raises: everything that happens, to the program or to the handler, is what one program would get that made all these calls one after the other with errors raised, so that no sentence is lost or returned twice; every sentence goes to exactly one call, of the program or of the handler; the handler is called exactly once for each library error, in order; the raw data of the sentences and the bytes the handler took are disjoint slices of the data, in the order of time; the outcome is determined; and if the handler stops when it comes to the end of the data, every call ends on a stream that runs out.", "quantifier": "all streams, settings, handlers (arbitrary functions of all they have seen) and sequences of calls", "why_tests_cant": "unboundedly deep nesting of calls and arbitrary handlers", "anchors": ["src/pynmeagps/nmeareader.py:NMEAReader.read", "src/pynmeagps/nmeareader.py:NMEAReader._do_error", "src/pynmeagps/nmeareader.py:NMEAReader.datastream"]}
{"id": "C89", "title": "Sockets, whatever the bytes arriving", "statement": "Whatever bytes arrive on a socket (plain or chunked, in whatever segments, with bare CR, bare LF or binary data among them) and wherever the connection times out or fails: successive read() calls give exactly what a simple description says - a line goes up to the first CR LF, or up to a failure; (None, None) for a failure outside a line -, with ERR_IGNORE and ERR_LOG the same results without the library errors, and with ERR_LOG exactly these reported. A sentence returned was received between two failures; after any data ending in CR LF the next acceptable sentence is returned, whatever came before. A sentence ending in LF without CR is joined to the next line, and both are rejected as one when checksums are validated (unlike on a file or serial line). With chunked transfer and failures between segments, the bytes are still the decoded data.", "quantifier": "all byte streams, segmentations, failures, transfer encodings, reader settings", "why_tests_cant": "unboundedly many byte streams and failure patterns", "anchors": ["src/pynmeagps/socketwrapper.py:SocketWrapper.readline", "src/pynmeagps/socketwrapper.py:SocketWrapper.read", "src/pynmeagps/nmeareader.py:NMEAReader.read", "src/pynmeagps/nmeareader.py:NMEAReader._read_line"]}
{"id": "C90", "title": "The program quecteldemo.py", "statement": "In the program examples/quecteldemo.py, whatever the interleaving of its three threads, whatever the device sends and whenever the clock is read: the device gets, one write each and in this order, the first ones of a fixed list of 40 sentences (each whole unless write() raises), all of them in a bounded number of steps if Ctrl-C is not pressed before; the constructors never raise; the messages printed are the messages read, in order, with qtmonly those with QTM in their identity; no thread fails or waits for ever at a queue, and after Ctrl-C both threads end in a bounded number of steps. The configuration commands for UART, satellites and signals are made but never sent: their results are not assigned, and the query before them is sent again.", "quantifier": "all schedules of the three threads, all streams, all failures of write(), all clocks", "why_tests_cant": "unboundedly many interleavings and streams", "anchors": ["examples/quecteldemo.py:main", "examples/quecteldemo.py:io_data", "examples/quecteldemo.py:process_data", "examples/quecteldemo.py:send"]}
{"id": "C91", "title": "Which damage to a sentence the checksum detects", "statement": "If a sentence is accepted with checksum validation and its content is damaged in any way (the checksum text is not), parse accepts the result with VALCKSUM exactly if it accepts it without and the XOR of the characters is what it was; otherwise it raises NMEAParseError. For damage that keeps the length the XOR stays exactly if each bit changed in an even number of characters. So every change of at most eight consecutive bits across two neighbouring characters is detected, and every character lost or inserted unless it is NUL, and every * put into the content. Characters in another order are never detected: exchanging two digits of a latitude gives another accepted position.", "quantifier": "every accepted sentence, every damage to its content", "why_tests_cant": "all sentences, all patterns of damage", "anchors": ["src/pynmeagps/nmeahelpers.py:calc_checksum", "src/pynmeagps/nmeareader.py:NMEAReader.parse", "src/pynmeagps/nmeahelpers.py:get_parts"]}
{"id": "C92", "title": "Reserved characters in generated sentences: what happens", "statement": "serialize() does not escape anything, so C05's condition that fields contain no reserved characters is needed. A * in a field of a message made from keywords: the sentence, though its checksum is that of its text, is rejected by every parse that validates checksums. Commas (and no *): the sentence is valid, but has one more field for each comma; the fields received are those of the message exactly if there are none. A line end followed by a sentence, in any field of any message: whoever reads the serialized bytes gets that sentence as if it had been sent; if the field is the last one and the sentence is preceded by the right checksum and CR LF, the reader yields the message without the addition and then the sentence, with no error reported. The constructor accepts every such text (e.g. text of TXT).", "quantifier": "every message id, talker, definition, keyword values, injected sentence, reader settings", "why_tests_cant": "all texts of all lengths", "anchors": ["src/pynmeagps/nmeamessage.py:NMEAMessage.serialize", "src/pynmeagps/nmeamessage.py:NMEAMessage.val2str", "src/pynmeagps/nmeareader.py:NMEAReader.read", "src/pynmeagps/nmeareader.py:NMEAReader.parse"]}
{"id": "C93", "title": "A position sent in a sentence arrives within 2.3 cm", "statement": "A position given to the constructor as signed degrees (keywords lat and lon, float or int), serialized and parsed: the position read back is less than 2.3 cm (0.23 mm with hpnmeamode) from it, by haversine with the Earth's equatorial radius - in every hemisphere, at the poles and across the date line, for every standard and proprietary message type whose attributes lat and lon are latitude and longitude fields. Consequently haversine distances of positions sent in sentences are right to 4.6 cm (0.46 mm).", "quantifier": "every message type with lat and lon, all latitudes and longitudes, precision, other keywords, clocks and validations", "why_tests_cant": "all positions on Earth", "anchors": ["src/pynmeagps/nmeamessage.py:NMEAMessage", "src/pynmeagps/nmeareader.py:NMEAReader.parse", "src/pynmeagps/nmeahelpers.py:ddd2dmm", "src/pynmeagps/nmeahelpers.py:dmm2ddd", "src/pynmeagps/nmeahelpers.py:haversine"]}
{"id": "C94", "title": "Handing a stream from one reader to another", "statement": "An NMEAReader keeps nothing of the stream to itself: if several readers with different settings (or one whose settings change) call read() in any order on one file, each call begins exactly at the piece of data after the last one dealt with by the call before, passes over pieces by its own settings only, and if every line is acceptable to every reader, the sentences returned by all together with the lines left are all the lines, each once and in order. On every stream object that delivers its content in order, the raw data returned are disjoint slices in order, and exactly a beginning of the content is used up. For a reader on a socket this holds if the next reader is given reader.datastream; then the readers get what readers sharing a file with these bytes would. If the next reader is given the socket itself, everything received and not yet handed out is lost to it, and it gets exactly the rest: nothing at all, if all the data came in one segment.", "quantifier": "all byte sequences, sequences of reader settings, segmentations", "why_tests_cant": "all sequences of readers and all streams", "anchors": ["src/pynmeagps/nmeareader.py:NMEAReader.__init__", "src/pynmeagps/nmeareader.py:NMEAReader.read", "src/pynmeagps/nmeareader.py:NMEAReader.datastream", "src/pynmeagps/socketwrapper.py:SocketWrapper.__init__"]}
{"id": "C95", "title": "The programs nmeafile.py and nmeasocket.py", "statement": "examples/nmeafile.py prints, for every file, one line for each complete line of the file that is not rejected, in order: str of the message, or None for a line that is no sentence at all; at the end the number of these lines (so lines that are no sentences count as messages); rejected and cut-off lines leave no trace: the error handler given to the reader is never called, since quitonerror=False means ERR_IGNORE. examples/nmeasocket.py prints the same for whatever arrives on the socket, in whatever segments, up to the first failure or timeout that does not come inside a line; then it ends (without a word, and whatever is sent later); the errors of rejected and cut-off lines are logged, each once and in order. Both end with an exception exactly if some line is one of the proprietary sentences for which parse raises IndexError (C13); what comes after that line is not printed, nor is the number.", "quantifier": "all files, all socket contents, segmentations and failures", "why_tests_cant": "all contents of files and sockets", "anchors": ["examples/nmeafile.py:main", "examples/nmeafile.py:errhandler", "examples/nmeasocket.py:main", "src/pynmeagps/nmeareader.py:NMEAReader.__next__", "src/pynmeagps/nmeareader.py:NMEAReader._do_error"]}
{"id": "C96", "title": "A sentence on a socket is returned as soon as it has arrived", "statement": "When read() on a socket returns a sentence (ending in CR LF), the number of recv calls it has made is the least with which the sentence and everything before it is received: no recv is made after the one that brought its last byte, so read never blocks or times out waiting for data it does not need, whatever the encoding; bytes received beyond the sentence stay in the buffer. On a socket without chunked encoding: if the buffer and the next segments, the last of which has the last byte, hold a sentence after bytes without $, read returns it after receiving exactly these segments, whatever follows (data, a timeout or silence); a sentence already in the buffer is returned without asking the socket. When read returns (None, None), its last recv has failed and everything received has been read.", "quantifier": "all wrapper states, all future recv results, all encodings", "why_tests_cant": "the number of recv calls must be least for every segmentation, every content before the sentence and every future of the connection", "anchors": ["src/pynmeagps/nmeareader.py:NMEAReader.read", "src/pynmeagps/socketwrapper.py:SocketWrapper._recv", "src/pynmeagps/socketwrapper.py:SocketWrapper.read", "src/pynmeagps/socketwrapper.py:SocketWrapper.readline"]}
{"id": "C97", "title": "The web server of the examples shows four files and nothing else", "statement": "GET requests to examples/webserver/gpshttpserver.py: only /, /index.html, /scripts.js, /styles.css, /favicon.ico and /gps are known; every other path (../, queries, other files) gets 501 'Unknown Request', and no answer depends on any file but the four. A known page gets 200 and its file with every CR LF or CR written as LF (the file as it is if it has no CR), provided the file is there and UTF-8; otherwise the handler raises and there is no answer - which is what happens, always, for the favicon.ico that comes with the program. /gps gets 200, application/json and the JSON text, which is ASCII; with nmeaserver.py this holds at every moment of every run (C87).", "quantifier": "all request paths, all contents of the directory, all data and schedules", "why_tests_cant": "all paths and all file contents", "anchors": ["examples/webserver/gpshttpserver.py:GPSHTTPHandler.do_GET", "examples/webserver/nmeaserver.py:GPSReader.get_data"]}
{"id": "C98", "title": "Reading and writing keep the order", "statement": "If what one field of a sentence whose layout is known from the standard or from its manufacturer says is at most what a field of the same kind says in another such sentence (of the same or another type) - whole and decimal numbers of any size, times, dates, latitudes and longitudes with minutes below 60, south and west counting negatively - then the two attributes compare so in Python too (a <= b): float rounding never swaps two positions, times or values. If it is less, the attribute is strictly less, for coordinates provided they differ by more than 1.2e-10 degrees and except for decimal numbers, which may round to the same float. Conversely of two float latitudes or longitudes the one with the smaller magnitude is not written with more degrees and minutes.", "quantifier": "all pairs of standard sentences with well-formed fields, all fields of numeric kinds, all floats up to 90 or 180 degrees", "why_tests_cant": "all pairs of numbers and all roundings", "anchors": ["src/pynmeagps/nmeahelpers.py:dmm2ddd", "src/pynmeagps/nmeahelpers.py:ddd2dmm", "src/pynmeagps/nmeamessage.py:NMEAMessage.str2val"]}
{"id": "C99", "title": "The benchmark program of the examples works with twenty cycles or more, and with none", "statement": "examples/benchmark.py with cycles=n: all its thirty messages are valid. For 20 <= n <= 10**300 every message is parsed in every cycle (30 n in all), the progress bar never fails, and each bar printed has exactly twenty blocks, as many of them dark as twentieths are done, with the matching percentage; the result exists if the clock has advanced, otherwise ZeroDivisionError. For 1 <= n <= 19 the program ends with ZeroDivisionError before anything is parsed or printed. For n <= 0 nothing is parsed.", "quantifier": "all numbers of cycles, all iterations, all durations", "why_tests_cant": "the number of cycles has no bound, and the bar is computed in floats", "anchors": ["examples/benchmark.py:progbar", "examples/benchmark.py:benchmark", "examples/benchmark.py:NMEAMESSAGES"]}
{"id": "C100", "title": "Exceptions say what is wrong, where, and what would be right", "statement": "Whenever parse raises one of the library's exceptions, its text is true of the message: 'Message {talker}{id} invalid checksum {k} - should be {k2}.' exactly when the checksum is wrong, with k2 the right one (the same sentence with k2 is never refused for its checksum); 'Unknown talker', 'Unknown msgID' (two forms) and 'Badly formed message' exactly when that is so, with the talker, the id, the mode and the message; and 'Incorrect type for attribute {name} in msgID {id}.' names the first entry of the definition that cannot be filled from the fields: in a definition without groups the attribute of the first field whose text does not fit its type (not an integer, not a number, or a coordinate too large); within a group the text names the group. (A type that does not exist, in a user definition or for the date of LR2, gives 'Unknown attribute type {type}.'; user definitions must not use the names of the class's own properties.) The reader's log of a file is exactly the texts of its unacceptable lines, foreign headers and cut-off end, in the order of the file.", "quantifier": "all messages (bytes or text), modes, validation flags, user definitions, all files", "why_tests_cant": "messages and files have no bound; the name in the text is found only at run time by a loop over the definition", "anchors": ["src/pynmeagps/nmeahelpers.py:get_parts", "src/pynmeagps/nmeamessage.py:NMEAMessage.__init__", "src/pynmeagps/nmeamessage.py:_do_attributes", "src/pynmeagps/nmeamessage.py:_get_dict", "src/pynmeagps/nmeamessage.py:str2val", "src/pynmeagps/nmeareader.py:NMEAReader.parse", "src/pynmeagps/nmeareader.py:NMEAReader.read", "src/pynmeagps/nmeareader.py:_read_line", "src/pynmeagps/nmeareader.py:_do_error"]}
{"id": "C101", "title": "What the constructor says about its keywords", "statement": "Whenever the constructor, given keywords and no payload, raises one of the library's exceptions, its text is true of the arguments: 'Invalid msgmode {m} - must be 0, 1 or 2.', 'Unknown talker', 'Unknown msgID' (two forms) and 'P{id} message definitions must include payload or msgId keyword arguments.' exactly when that is so; 'Incorrect type for attribute {name} in msgID {id}.' names the first entry of the definition that cannot be written with the keywords: in a definition without groups the first keyword whose value has no text with its attribute's type (an integer of more than 4300 digits, or a coordinate that overflows); it names nothing exactly when the keyword that selects the layout cannot be used. Every value of ordinary size is accepted for every attribute, of whatever kind it is. A user who leaves out the keyword that is named gets a message, or an exception naming a later attribute. If a keyword has the name of a parameter inside the constructor (pindex, pdict, key, gindex, att), the text names the first entry of the definition (of a standard or user-defined sentence), whether there is a payload or not. An assignment to an attribute of a finished message is refused with a text that names it, and changes nothing.", "quantifier": "all talkers, message types, modes, validation flags, user definitions, keyword lists and values", "why_tests_cant": "keyword lists and values have no bound; the name in the text is found only at run time by a loop over the definition", "anchors": ["src/pynmeagps/nmeamessage.py:NMEAMessage.__init__", "src/pynmeagps/nmeamessage.py:_do_attributes", "src/pynmeagps/nmeamessage.py:_get_dict", "src/pynmeagps/nmeamessage.py:val2str", "src/pynmeagps/nmeamessage.py:NMEAMessage.__setattr__", "src/pynmeagps/nmeahelpers.py:ddd2dmm"]}
{"id": "C102", "title": "Payloads that are not lists of texts", "statement": "The constructor's payload may be a list, a tuple or one text, with items of any kind. A list of texts behaves as in all other properties. A tuple behaves as the list of the same items, except for the bracketed PSSNSNC sentences (in which every item of a complete group must be a text); one text behaves as the tuple of its characters (so payload=\"5,A\" is three fields). For every sentence with a definition but the bracketed ones, whatever the items (where the library looks at the first item to find the definition, it must be a text; where the id continues in the first item, anything else there raises NMEATypeError): the message is made exactly when the groups of its definition can be repeated (as often as they fit the items, or as often as an attribute read before says, if that is an int or a bool) and each item that falls on a field gives a value for that field's type - texts are converted as always; other objects are kept in text, direction, status and hexadecimal fields, converted by float() and int() in number fields, replaced by an empty text in date and time fields, and refused in latitude and longitude fields - and the attributes are those values; the checksum is that of the sentence with each item as str() writes it, and the payload is kept as given. Otherwise NMEATypeError is raised. A sentence without a definition has the items themselves as attributes field_01, field_02, ... and no checksum of its own (or is refused with NMEAMessageError if ids are validated). An int in an integer field and a float in a decimal field give the attributes and the checksum of their texts, also as the repeat counts of groups (in a proprietary sentence, the first item must be a text). But serialize() raises TypeError if any item is not a text, although the message was made with a valid checksum. Further keywords change nothing, unless one has the name of a parameter inside the constructor (pindex, pdict, key, gindex, att, or mode for types with variants), which raises NMEATypeError for every sentence with a definition, whatever the payload.", "quantifier": "all talkers, message ids, modes, validation flags, user definitions, checksums, further keywords and payloads (lists, tuples and texts of every length, items of every kind)", "why_tests_cant": "items, lengths and definitions have no bound", "anchors": ["src/pynmeagps/nmeamessage.py:NMEAMessage.__init__", "src/pynmeagps/nmeamessage.py:_do_attributes", "src/pynmeagps/nmeamessage.py:_set_attribute_single", "src/pynmeagps/nmeamessage.py:_get_dict", "src/pynmeagps/nmeamessage.py:str2val", "src/pynmeagps/nmeamessage.py:serialize", "src/pynmeagps/nmeahelpers.py:generate_checksum"]}
