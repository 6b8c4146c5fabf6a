"""Generates /verif/properties.jsonl (one JSON object per line)."""
import json
P = []
def p(id, title, statement, quantifier, why, anchors):
    P.append(dict(id=id, title=title, statement=statement, quantifier=quantifier,
                  why_tests_cant=why, anchors=anchors))
H="src/pynmeagps/nmeahelpers.py"; M="src/pynmeagps/nmeamessage.py"; R="src/pynmeagps/nmeareader.py"; S="src/pynmeagps/socketwrapper.py"; C="src/pynmeagps/nmeatypes_core.py"

p("C01","Checksum is the XOR of the content, rendered as upper-case hex",
  "calc_checksum(content) is the upper-case hexadecimal rendering (at least two digits) of the XOR of all characters of content; for content whose characters are all below 256 it is exactly two digits; it does not depend on the order of the characters, and two contents get the same checksum exactly when their XORs agree. generate_checksum(talker,msgID,payload) equals calc_checksum of the comma-joined sentence.",
  "every string (any length, any characters), every talker, msgID and payload list","infinitely many contents; a test samples a few sentences",[H+":calc_checksum",H+":generate_checksum"])
p("C02","Any single-character corruption of the content is rejected",
  "If NMEAReader.parse with checksum validation accepts a sentence, then replacing any one character of its content (between $ and *) by a different character - neither of the two being $, *, CR or LF - makes parse raise NMEAParseError (for bytes: replacing one byte of an ASCII sentence by any other byte, the result is never accepted), under every msgmode, every validation setting containing VALCKSUM and every user-defined dictionary.",
  "every accepted sentence, every position, every replacement character, every mode/validate/userdefined","all (sentence, position, character) triples cannot be enumerated",[R+":NMEAReader.parse",H+":calc_checksum",H+":get_parts"])
p("C03","Checksum acceptance is exact and case-insensitive, and optional",
  "With VALCKSUM set, parse returns an NMEAMessage only if the upper-cased text after the first '*' equals the computed checksum of the text before it, and otherwise raises NMEAParseError for every well-framed sentence; without VALCKSUM the checksum text has no influence on whether the sentence is accepted.",
  "every byte string, every mode, every validate value, every userdefined dictionary","quantifies over all sentences and all flag values",[R+":NMEAReader.parse"])
p("C04","parse then serialize reproduces the sentence byte for byte",
  "If parse accepts a message given as bytes and the message is not the bracketed PSSNSNC type, serialize() of the result is '$' + (the input with leading/trailing $,CR,LF removed) + CRLF; in particular it equals the input for every canonically framed sentence. Hence parse-serialize-parse gives the same message.",
  "every accepted byte string, every mode/validate/userdefined","unbounded set of sentences and definitions",[R+":NMEAReader.parse",M+":NMEAMessage.serialize",H+":get_parts"])
p("C05","A generated sentence is accepted by parse and carries the same payload",
  "A message constructed from keyword arguments with a known definition serializes to '$'+talker+msgID+','-joined fields+'*'+checksum+CRLF, and if no field contains a reserved character, parse of these bytes (same mode, definitions, with checksum validation) passes the checksum test and sees the same talker, message id, payload and checksum.",
  "every talker, message id, mode, definition (built-in or user-defined) and keyword values","all definitions times all values",[M+":NMEAMessage.__init__",M+":NMEAMessage.serialize",R+":NMEAReader.parse"])
p("C06","Typed values survive the wire",
  "For integer, character, string, direction, hex and status attributes, str2val(val2str(v)) = v for every value v of the natural type (every integer of at most 4300 digits - longer ones raise ValueError; every string); decimal attributes: every finite float v is recovered exactly from its text; unknown attribute types raise NMEATypeError in str2val, val2str and nomval.",
  "every value of every attribute type","infinitely many values",[M+":NMEAMessage.str2val",M+":NMEAMessage.val2str",M+":NMEAMessage.nomval"])
p("C07","Latitude/longitude round trip loses at most the documented precision",
  "For every float degrees value of magnitude at most 180, dmm2ddd(ddd2dmm(x)) is a number within 1e-7 degrees of |x| in standard mode (5dp minutes) and within 1e-9 degrees in high-precision mode (7dp minutes).",
  "every representable double in [-180,180], both attribute kinds, both precision modes","about 2^63 doubles",[H+":ddd2dmm",H+":dmm2ddd"])
p("C08","lat/lon sign agrees with N/S and E/W after parsing",
  "After parsing any sentence whose definition has the attribute lat followed by a latitude-direction field, msg.lat is minus the magnitude of the converted field if the direction is 'S' and the magnitude itself otherwise; same for lon and 'W'. (Seven standard types have a direction but no attribute called lat: there the hemisphere is not in the number.)",
  "every payload, every definition with lat/lon and direction fields","all payload strings",[M+":NMEAMessage._set_attribute_single"])
p("C09","N/S and E/W are derived from the sign when generating",
  "When a message is generated from keywords and its definition has numeric lat (lon) before the direction field, the direction field is 'S' ('W') exactly when lat (lon) is negative, whatever NS/EW keyword was supplied, and the lat/lon field itself carries the magnitude.",
  "every numeric lat/lon, every supplied NS/EW","all values",[M+":NMEAMessage._set_attribute_single"])
p("C10","Dates round trip inside the two-digit-year window",
  "date2utc(date2str(d,f),f) = d for every valid date with year 1969..2068 for formats DT and DM, and for every date with year 1000..9999 for DTL; outside the window DT/DM return a different date (never an error).",
  "every calendar date and format","3.6 million dates x formats; the windows' edges",[H+":date2str",H+":date2utc"])
p("C11","Times round trip to a hundredth of a second",
  "time2utc(time2str(t)) equals t truncated to 10 ms for every time of day t; any string time2utc accepts denotes a valid time, every other string gives ''.",
  "every time of day (8.64e10 microsecond values); every string","too many values",[H+":time2str",H+":time2utc"])
p("C12","get_parts is a lossless decomposition",
  "For every message that get_parts accepts, content = talker+msgid followed by ','+field for each payload field, stripped message = content+'*'+checksum, content contains no '*', no field contains ',', and the talker is 'P' or at most 2 characters; get_parts raises NMEAMessageError exactly when the stripped message has no '*' (or the bytes are not UTF-8).",
  "every str or bytes input","unbounded inputs",[H+":get_parts"])
p("C13","parse raises only the documented exceptions",
  "For every input, NMEAReader.parse returns an NMEAMessage or None or raises NMEAParseError or NMEATypeError. (FALSE of the code: IndexError escapes for proprietary-prefix sentences with an empty or too short first field. Proved: exact characterisation of when IndexError escapes, and the claim for everything else.)",
  "every byte string, mode, validate, userdefined","a fuzzing test cannot show absence of other exceptions",[R+":NMEAReader.parse",M+":NMEAMessage._get_dict",M+":NMEAMessage._do_attributes"])
p("C14","parse returns None exactly for badly formed messages when VALMSGID is off",
  "With VALMSGID off, parse returns None exactly when get_parts rejects the message; with VALMSGID on it never returns None.",
  "every input","all inputs",[R+":NMEAReader.parse"])
p("C15","Attributes correspond positionally to payload fields",
  "Parsing a sentence whose definition is a list of single attributes gives exactly the attributes of the definition for which a field is present, in definition order, the i-th one being str2val of the i-th field with the i-th type (up to the lat/lon sign rule).",
  "every definition of single attributes, every payload","all definitions and payloads",[M+":NMEAMessage._do_attributes",M+":NMEAMessage._set_attribute_single"])
p("C16","Repeating groups are expanded with two-digit suffixes",
  "For every definition, parsing is equivalent to first flattening the definition into a list of (suffixed name, type) pairs - fixed groups repeated n times, named groups repeated as often as the earlier attribute says, indeterminate groups repeated (remaining fields div group size) times - and then reading that list positionally against the payload.",
  "every (nested) definition and payload","unbounded repeat counts and nesting",[M+":NMEAMessage._set_attribute_group",M+":NMEAMessage._calc_num_repeats"])
p("C17","Short and long payloads are tolerated",
  "Parsing never fails merely because the payload is shorter than the definition without named groups: missing trailing attributes are simply absent; surplus fields are ignored for attributes but kept in payload; a parsed message never has more public attributes than payload fields (for definitions in which no attribute has the name of a property or method of NMEAMessage, as is the case for all built-in ones).",
  "every definition and payload length","all lengths",[M+":NMEAMessage._set_attribute_single"])
p("C18","Unknown sentences become nominal field lists",
  "With VALMSGID off, a sentence with no payload definition is returned with exactly the attributes field_01.., one per payload field, holding the field text unchanged.",
  "every unknown message id and payload","all payloads of any length",[M+":NMEAMessage._set_attribute_nominal",M+":NMEAMessage._get_dict"])
p("C19","VALMSGID rejects every unknown talker and message id",
  "With VALMSGID set, construction raises NMEAMessageError (parse: NMEAParseError) whenever the talker is not a recognised talker or the id is not recognised (standard, proprietary, prefix or user-defined) or has no definition in that mode; with VALMSGID off neither is ever a reason for rejection.",
  "every talker, id, mode, flags, userdefined","all combinations",[M+":NMEAMessage.__init__",M+":NMEAMessage._get_dict"])
p("C20","Keyword order is irrelevant",
  "Constructing a message from the same keyword arguments in any order gives the same message (attributes, payload, checksum) or the same error.",
  "every definition, every permutation of every keyword set","factorially many orders",[M+":NMEAMessage.__init__",H+":groupsize"])
p("C21","A payload keyword makes every other keyword irrelevant",
  "If payload is supplied, no other payload-attribute keyword changes the constructed message. (FALSE of the code for keywords that collide with internal parameter names, and for the keyword mode with the seven proprietary types that have layout variants; proved for all others.)",
  "every payload and keyword set","all keyword sets",[M+":NMEAMessage.__init__",M+":NMEAMessage._get_dict"])
p("C22","Messages are immutable after construction",
  "After construction every attribute assignment raises NMEAMessageError and leaves the message unchanged, over any sequence of assignments; whatever is assigned or deleted, the wire form, payload, checksum and header never change. FALSE for deletion of attributes (they are gone) and for editing the payload list, which the message shares with its creator and with users of the payload property: attributes and checksum stay, the wire form has the new fields with the old checksum, so it is rejected when read with checksum validation unless the XOR happens to be the same.",
  "every message, every sequence of attempted updates","unbounded histories",[M+":NMEAMessage.__setattr__",M+":NMEAMessage.payload"])
p("C23","The reader returns exactly the sentences of the stream, in order",
  "Iterating NMEAReader over any stream made of acceptable sentences separated by arbitrary junk without '$' yields each sentence exactly once, in order, with raw equal to its bytes and parsed equal to NMEAReader.parse of these bytes, and then stops.",
  "every number of sentences, every junk content","unbounded streams",[R+":NMEAReader.read",R+":NMEAReader.__next__"])
p("C24","Raw data are disjoint in-order slices of the stream",
  "For every byte stream and settings, the raw values returned by successive reads occur in the stream as disjoint slices in stream order; each begins with '$' and ends with LF; no byte is returned twice.",
  "every byte stream, every setting","all streams",[R+":NMEAReader.read"])
p("C25","Error policy changes only the reporting, not the data",
  "ERR_IGNORE and ERR_LOG never let a library error escape and return the same sequence of messages; ERR_LOG reports each error exactly once in stream order to the handler; ERR_RAISE raises these same errors, in the same order and position, and continuing to read after each yields the same messages.",
  "every byte stream","all streams and error positions",[R+":NMEAReader.read",R+":NMEAReader._do_error"])
p("C26","Reading terminates and makes progress",
  "On every finite stream every read() returns, a read that returns data consumes at least the bytes returned, and iteration ends after at most as many steps as there are bytes.",
  "every finite stream","termination cannot be tested",[R+":NMEAReader.read"])
p("C27","nmeaonly reports exactly the unknown '$x' headers",
  "With nmeaonly the reader raises/reports NMEAParseError exactly when a '$' at sentence-search position is followed by a byte that is not the first letter of a known talker; all other non-NMEA bytes are skipped silently (contrary to the documentation); without nmeaonly nothing is reported.",
  "every byte stream","all streams",[R+":NMEAReader.read",C+":NMEA_HDR"])
p("C28","Iteration stops exactly at end of stream",
  "The iterator raises StopIteration exactly when the rest of the file holds nothing that would be returned or would raise (with policies 0 and 1 errors do not count), and the file is then exhausted; it never yields (None,None): every item comes with its raw bytes; a for loop that ends without exception has yielded every item.",
  "every stream","all streams",[R+":NMEAReader.__next__"])
p("C29","TCP segmentation does not matter",
  "For an unencoded socket, the sequence of values returned by any sequence of read(n)/readline() calls depends only on the concatenation of the received segments, not on where the segments were cut, and the same holds for the messages NMEAReader returns from it.",
  "every byte stream, every segmentation, every call sequence","exponentially many segmentations",[S+":SocketWrapper.read",S+":SocketWrapper.readline",S+":SocketWrapper._recv"])
p("C30","SocketWrapper.read is an all-or-nothing FIFO",
  "read(n) returns exactly n bytes or b''; over any history of calls and receive failures the bytes returned followed by those still buffered or undelivered are exactly the bytes sent, in order: no loss, duplication or reordering.",
  "every history of calls, timeouts and segments","unbounded histories",[S+":SocketWrapper.read"])
p("C31","SocketWrapper.readline returns up to and including the first CRLF",
  "readline returns the shortest prefix of the incoming data ending in CRLF; if the socket fails first it returns everything that had arrived (and that data is consumed).",
  "every stream and segmentation","all streams",[S+":SocketWrapper.readline"])
p("C32","Reading a socket equals reading a file of the same bytes",
  "For data in which every LF is preceded by CR, NMEAReader over a socket delivering these bytes returns the same messages as over a file containing them. (FALSE in general: a bare LF ends a line in a file but not on a socket.)",
  "every such byte stream and segmentation","all streams",[R+":NMEAReader._read_line",S+":SocketWrapper.readline"])
p("C33","De-chunking inverts chunked transfer encoding",
  "For every list of non-empty chunks, the chunked encoding (with or without the terminating zero chunk) delivered in one segment is decoded to exactly the concatenation of the chunks with nothing left over.",
  "every list of chunks","unbounded data",[S+":SocketWrapper.dechunk"])
p("C34","De-chunking is independent of segmentation",
  "A chunked stream cut into arbitrary segments decodes to the concatenation of its chunks. (FALSE of the code: a cut between the chunk data and the end of its trailing CRLF loses the rest of the segment; proved for all other cuts.)",
  "every chunk list, every segmentation","exponentially many segmentations",[S+":SocketWrapper.dechunk",S+":SocketWrapper._recv"])
p("C35","Buffer never exposes undecoded transfer framing",
  "With chunked encoding the bytes handed to the reader are always the concatenation of complete (decompressed) chunks; partially received chunks are withheld until complete; a chunk whose decompression fails is passed on unmodified from the failing stage.",
  "every segment","all streams",[S+":SocketWrapper.dechunk"])
p("C36","Leap-second lookup is a monotone step function of the table",
  "leapsecond(t,g) depends only on the latest table entry not after t; it is monotone in t from 1972 on, 0 before 1972, 0 at the GPS (or BeiDou) epoch, and takes the documented value on each interval between table entries.",
  "every datetime (microsecond resolution), every GNSS code","all instants, in particular the boundaries",[H+":leapsecond"])
p("C37","Week/time-of-week conversion round trips",
  "wnotow2utc(utc2wnotow(t)) = t for every whole-second t on or after the epoch. (FALSE of the code in the last leap-second-offset seconds of each week; proved exactly when t + leap seconds stays within the UTC week and no leap second lies in the offset window.)",
  "every instant, every GNSS","all instants",[H+":utc2wnotow",H+":wnotow2utc"])
p("C38","Autoroll terminates and yields the latest date not after now",
  "wnotow2utc with autoroll always terminates (result or OverflowError); the result t satisfies t + rollover > now and, if rolled over at least once, t <= now.",
  "every wno, tow, GNSS and current time","all clock values",[H+":wnotow2utc"])
p("C39","Week number and time of week are in range",
  "utc2wnotow with modwno returns 0 <= wno < rollover of the GNSS; tow is between 0 and 604800000 plus the leap-second offset.",
  "every instant on or after the epoch","all instants",[H+":utc2wnotow"])
p("C40","groupsize is the largest group index",
  "groupsize(**kwargs) is the largest integer suffix after the first underscore among the keywords, 0 if there is none, independent of order; it raises ValueError iff some suffix is not an integer literal.",
  "every keyword set","all keyword sets",[H+":groupsize"])
p("C41","msgdesc is total and consistent with the message tables",
  "msgdesc returns the standard description if the id is standard, else the proprietary one, else 'Unknown msgID <id>', for every string.",
  "every string","all strings",[H+":msgdesc"])
p("C42","Distance, area and bearing formulas have their geometric invariants",
  "Over the reals: haversine is radius times the central angle, symmetric, between 0 and pi*radius, zero exactly for the same point of the sphere and satisfies the triangle inequality; bearing is in [0,360) and is the compass direction in which the second point is seen from the first; planar is the length of the step in the tangent plane, zero exactly for equal coordinates off the poles, exact along meridians (but not symmetric); area is the surface integral over the spherical rectangle, non-negative and independent of the order of the corners.",
  "all real coordinates","continuum of inputs",[H+":haversine",H+":planar",H+":area",H+":bearing"])
p("C43","ECEF conversion is geometrically correct",
  "Over the reals: llh2ecef returns the point at the given height along the normal of the ellipsoid with the given latitude and longitude (the definition of geodetic coordinates), for every flattened ellipsoid; ecef2llh is total, exact on the equator and on the polar axis, exact in longitude, odd in z, and its latitude has the sign of z; ecef2llh(llh2ecef(lat, lon, height)) returns lat to 1e-9 degrees and height to 1e-8 m, for every latitude and every height from -100 km upwards. (Within 100 km of the centre it returns the nominal (0, 0, -1e7).)",
  "all real coordinates","continuum",[H+":llh2ecef",H+":ecef2llh"])
p("C44","Degree formatting helpers",
  "deg2dmm/deg2dms print degrees, minutes (and seconds) within 1e-9 (2e-9) degrees of the argument and end in the hemisphere letter given by the sign and the attribute kind; dms2deg accepts exactly strings of 1-3 number+delimiter groups with optional NSEW, is right to 6e-8 degrees and negates exactly for S/W; dms2deg(deg2dms(x)) is x to 1e-7 degrees, unless the seconds are printed with an exponent, which is rejected.",
  "every float and string","all inputs",[H+":deg2dmm",H+":deg2dms",H+":dms2deg"])
p("C45","hex2str is the inverse of int(.,16)",
  "int(hex2str(z,p),16) = z for every integer z and padding p; the text has exactly p characters (more only if the unpadded text is longer), is an optional minus sign followed by upper-case hex digits (p < 10), and has no superfluous zeros when unpadded. From p = 10 on it is padded with spaces.",
  "every integer and padding","all integers",[H+":hex2str"])
p("C46","knots2spd scales by the named factor or raises",
  "knots2spd(k,u) multiplies by the factor of u.upper(), raising KeyError exactly for units outside the table; the result agrees with the definition of the knot (1852 m/h) and of the unit to one part in a million, for every float of normal size.",
  "every value and unit string","all strings",[H+":knots2spd"])
p("C47","Payload definition tables are well typed",
  "Every attribute of every built-in definition has a type that str2val supports - except the dummy FOO and the date of LR2 (type DTL), so that no LR2 sentence with a date field can ever be parsed; named repeat counts refer to an earlier integer attribute; no attribute uses a reserved name; names are unique.",
  "every built-in definition (635 definitions) and, for LR2, every payload","tests only exercise a few message types",["src/pynmeagps/nmeatypes_get.py:NMEA_PAYLOADS_GET","src/pynmeagps/nmeatypes_get_prop.py:NMEA_PAYLOADS_GET_PROP","src/pynmeagps/nmeatypes_set_prop.py:NMEA_PAYLOADS_SET_PROP"])
p("C48","Quectel variant selection picks the definition with the right number of fields",
  "For the Quectel command/response types with variants, whenever a variant with as many fields as the payload exists for the mode, the payload is read with exactly the attributes of that variant, in order (unless it is a generic OK or ERROR acknowledgement); PQTMSN and PSTMDRSENMSG responses are read with the layout their first field selects.",
  "every payload length and content, each mode","all payloads",[M+":NMEAMessage._get_dict_qtmcfguart",M+":NMEAMessage._get_dict_qtmcfgmsgrate",M+":NMEAMessage._get_dict_qtmcfgsat",M+":NMEAMessage._get_dict_qtmcfggeofence",M+":NMEAMessage._get_dict_qtmcfgpps"])
p("C49","repr rebuilds the message",
  "Constructing NMEAMessage(talker,msgID,mode,payload=payload) as printed by repr gives a message with the same attributes, payload and wire form for every parsed sentence with a built-in id, a definition and a valid upper-case checksum; for PSSNSNC, which loses its square brackets when parsed, the checksum becomes that of the payload without brackets, everything else being the same. (FALSE for sentences without definition: the rebuilt message has no checksum; and for user-defined ids, whose definition repr does not show.)",
  "every such message","all messages",[M+":NMEAMessage.__repr__"])
p("C50","Getters reflect the header",
  "For a parsed sentence: talker+msgID is the header field, msgmode the requested mode, checksum the received text, payload the received fields (for PSSNSNC without their square brackets), and identity is the header, extended by the sub-id for prefixed proprietary messages only. Getters cannot be hidden: no attribute of any message, received or generated, built-in or user-defined, bears the name of one. The methods that convert fields and values (str2val, val2str) can be hidden only by the last attribute: a user definition with such a name is refused as soon as something follows it.",
  "every accepted sentence, every constructed message","all sentences",[M+":NMEAMessage.identity",M+":NMEAMessage.talker",M+":NMEAMessage.payload"])
p("C51","Definition lookup: which table is used",
  "The definition used depends only on mode, id source and key: standard ids use the GET/SET/POLL tables, proprietary ids the corresponding proprietary table, user-defined ids the user dictionary in all modes, and user-defined entries never override built-in ids. Consequence: definitions in the tables that no message can select are identified (all 60+ proprietary entries of NMEA_PAYLOADS_POLL for recognised ids, TNLGGKx, lower-case user ids).",
  "every message id, mode and userdefined dictionary","all ids",[M+":NMEAMessage._get_dict",M+":NMEAMessage._get_dict_prop"])
p("C52","str shows every public attribute once in definition order",
  "str(msg) is '<NMEA(' + identity + [', NOMINAL' iff the id is unrecognised] + ', name=value' for each public attribute in the order set + ')>'. The value is written as None, True, False, the text itself, a plain decimal numeral, a numeral that reads back as the float, or an ISO date or time; only integers of more than 4300 digits have no text.",
  "every message","all messages",[M+":NMEAMessage.__str__"])
p("C53","Every serialized sentence has a valid checksum",
  "serialize() of a generated message always ends in a correct checksum. (FALSE: a message without payload definition is serialized with the literal text '*None'; proved whenever a definition exists.)",
  "every constructor call","all ids",[M+":NMEAMessage._do_attributes",M+":NMEAMessage.serialize"])
p("C54","ISO 6709 output sign handling",
  "llh2iso6709 writes exactly one sign before each of latitude and longitude magnitudes. (FALSE for altitude: a negative altitude gets two minus signs.)",
  "every latitude, longitude, altitude","all values",[H+":llh2iso6709"])
p("C55","Resynchronisation after corruption",
  "After any damaged data the reader resumes at the next '$' that follows a line end: a valid sentence that starts right after an LF (or after bytes containing no '$') is always returned, whatever preceded it up to that point - provided the preceding bytes, up to the LF, do not end in '$'.",
  "every garbage prefix, every following sentence","all garbage",[R+":NMEAReader.read"])
p("C56","Parsing is local: results do not depend on neighbouring sentences",
  "Reading the concatenation of two streams, the first ending at a sentence boundary, gives the messages of the first followed by the messages of the second.",
  "every pair of streams","all streams",[R+":NMEAReader.read"])
p("C57","Parsing ignores the clock; generation uses it only for unset dates and times",
  "NMEAReader.parse gives the same result at any time; a message constructed from keywords depends on the clock only through date or time attributes (other than the ones given as keywords), so that if each of them is given, the message is the same whenever it is made.",
  "every input, every two clocks","wall clock readings cannot be enumerated",[R+":NMEAReader.parse",M+":NMEAMessage.nomval"])
p("C58","Only the sentence body matters",
  "parse gives the same result for a str and for its UTF-8 bytes, and for any two inputs that differ only in leading and trailing '$', CR and LF characters; anything that is not text is treated as an invalid sentence with the same error, whatever it is.",
  "every input and every amount of framing characters","all inputs",[R+":NMEAReader.parse",H+":get_parts"])
p("C59","User definitions do not interfere",
  "Adding, removing or changing user definitions of other message ids does not change the result of parse; user definitions never change how a built-in sentence type is parsed.",
  "every sentence and every pair of user dictionaries","all dictionaries",[M+":NMEAMessage._get_dict",M+":NMEAMessage.__init__"])
p("C60","The talker does not change the interpretation",
  "Two sentences that differ only in a (non-proprietary) talker id parse to messages with the same id, payload and attributes, or fail with the same error, provided both pass the checks on checksum and talker that the flags ask for.",
  "every sentence and every pair of talkers","all sentences",[M+":NMEAMessage._get_dict",R+":NMEAReader.parse"])
p("C61","Validation flags only filter",
  "A sentence is accepted with given validation flags exactly if it is accepted without them and passes the checks the flags ask for, and then as the same message; so relaxing the flags never loses or changes a message.",
  "every sentence, all pairs of flag values","all sentences",[R+":NMEAReader.parse",M+":NMEAMessage.__init__"])
p("C62","Unused keywords are silently ignored",
  "Keywords that are neither attributes of the definition (with group suffixes), nor one of the keywords that select a variant, nor (through '_n' suffixes) determine a group size, have no influence on the constructed message.",
  "every sentence type and every pair of keyword sets","all keyword sets",[M+":NMEAMessage._set_attribute_single",H+":groupsize"])
p("C63","High precision mode affects only latitude and longitude text",
  "With hpnmeamode set or not, the same constructor call succeeds, giving equal attributes, the same number of fields and the same text in each field that is not of type LA or LN.",
  "every constructor call","all keyword sets",[M+":NMEAMessage.val2str",H+":ddd2dmm"])
p("C64","What is written can be read back: attributes survive a round trip",
  "A message constructed from keywords of the natural type of each attribute (text for text fields, int, float, date from 1969 to 2068, time, degrees up to 180) and serialized is accepted by parse, with the same talker, id, mode and payload, and each attribute comes back: text, integers, floats and dates exactly, times up to the microseconds the format drops, latitude and longitude within the rounding of the format (with the sign carried by the direction attribute), and unset values as the empty string. The layout chosen when reading is the one chosen when writing, also for the Quectel and STM types with several layouts. (Exceptions: LR2 with its long date and FOO; a received Quectel message whose fields look like an OK or ERROR acknowledgement; QTMSN whose first field is a number; PSSNSNC with brackets in its text.)",
  "every standard and proprietary sentence type, every natural set of keywords, both precision modes","all keyword values and group sizes",[M+":NMEAMessage.val2str",M+":NMEAMessage.str2val",R+":NMEAReader.parse"])
p("C65","Messages written to a file or socket are read back",
  "Serialized messages written one after the other to a file, or sent through a socket in any segmentation, are read back by NMEAReader in order, without loss, duplication or error: copying the messages read from any stream gives a stream with the same messages (except the bracketed PSSNSNC ones), and messages of any built-in type constructed from natural keywords come back (with the exceptions of C64) with the same talker, id, payload, checksum and attributes.",
  "every list of messages, every stream, every segmentation, every error policy","all lists of messages and all segmentations",[R+":NMEAReader.read",M+":NMEAMessage.serialize",S+":SocketWrapper.readline"])
p("C66","repr is a constructor call that rebuilds the message",
  "repr(msg) is the text of a call NMEAMessage(talker, id, mode, payload=[...]) whose string literals denote, whatever characters the payload contains, exactly the talker, id and payload of the message; the text is unambiguous, so messages with the same repr agree in all four; and evaluating it gives, for built-in message types, a message with the same talker, id, mode, payload, attributes and str, whose checksum is the computed one (a wrong checksum accepted without validation is not preserved). A message of a built-in type made from natural keyword values (see C64) is rebuilt with the same payload, checksum and serialized bytes, its attributes as reading it back would give them. Talkers and ids containing quotes are copied unescaped and break the text.",
  "every message, every payload over all code points, every notion of printable character","all strings and all messages",[M+":NMEAMessage.__repr__",M+":NMEAMessage.__init__"])
p("C67","Serial ports: timeouts never corrupt data",
  "Reading from a serial port whose read() times out at arbitrary moments: timeouts between sentences lose nothing (each shows as one (None, None)); a timeout inside a sentence loses exactly that sentence - after its first one or two bytes silently, later with one NMEAStreamError - and everything after it is read normally; no sentence returned was put together from data before and after a timeout. The error policy only changes the reporting.",
  "every sequence of bytes and timeouts, every number of calls of read(), every setting","all interleavings of data and timeouts",[R+":NMEAReader.read",R+":NMEAReader._read_bytes",R+":NMEAReader._read_line"])
p("C68","Standard sentences are read as the standard lays them out",
  "For every standard sentence type of the library except LR2 and the test type FOO (73 types, among them GGA, RMC, GLL, GSA, GSV, GNS, GST, VTG, ZDA, in an independently written table of layouts; 67 more and 6 with coordinates under other names transcribed from the payload descriptions), parse() of a framed sentence whose fields are well-formed or empty returns a message whose attributes are the fields that are present, under the names and in the order of the layout, each with the value its text denotes: numbers exactly rounded, times and dates, characters as they are, coordinates in decimal degrees within 6e-11 and negative for S and W. Any number of fields may be present; the group of ALC is read as often as its count says. In BEC, TLL, ACA, LRI, SM3 and SM4 the hemisphere is not applied: each coordinate is the unsigned value of its own text.",
  "every sentence of a listed type, every talker, every well-formed text of every field, every number of fields","all field texts of all lengths",["src/pynmeagps/nmeatypes_get.py:NMEA_PAYLOADS_GET",M+":NMEAMessage._set_attribute_single",M+":NMEAMessage.str2val"])
p("C69","Attributes without a keyword have documented defaults",
  "In a message made from keyword arguments, every attribute for which there is no keyword (and which is not the direction of a coordinate already set) has the default of its type - empty text or coordinate, N, E, 0, 0.0, the current UTC time or date, and OK, W or R according to the mode - and its field is the standard form of that default. Every built-in sentence type except the test type FOO can be made in every mode in which it is defined with no keywords at all (or only with msgId), and then all attributes have their defaults.",
  "every sentence type, mode, keyword set and clock","all keyword sets, all definitions",[M+":NMEAMessage.nomval",M+":NMEAMessage._set_attribute_single",M+":NMEAMessage.val2str"])
p("C70","Geodesy in floating point",
  "With double arithmetic and any C mathematical library accurate to one unit in the last place, for coordinates on the globe: haversine is the great-circle distance within 2.1e-7 of the radius, and within 1.1e-9 of it for points at least 50 m apart and from antipodal; it raises ValueError at most for points within 2.1e-7 radians of each other or of antipodal, and is 0 for equal coordinates; bearing is always in [0, 360) and is the compass direction within 2e-7 degrees for points at least 50 m apart and from antipodal; area is within 3e-14 of the squared radius of the exact area; planar within 2e-14 of the radius of the exact value; llh2ecef never fails and is within 3e-15 of 6400 km plus height of the exact point. Swapping the two points gives bit for bit the same result or exception from area for all arguments and every library, from haversine for all arguments and every library with an even cosine, and from planar for all points on one parallel.",
  "every pair of coordinates, every radius in a wide range, every library of the stated accuracy","all floats and all libm implementations",[H+":haversine",H+":bearing",H+":area",H+":planar",H+":llh2ecef"])
p("C71","ECEF back to geodetic coordinates in floating point",
  "With double arithmetic and any C mathematical library accurate to one unit in the last place: given the ECEF coordinates, each to within e (at most 1 mm), of any place from 100 km below to 100000 km above the WGS84 ellipsoid, ecef2llh does not fail and returns the geodetic latitude within 6e-10 degrees + e/10^4, the height within 1e-8 m + 3.1 e + 7e-15 (6400 km + |height|), and the longitude modulo 360 within 2e-13 + 180 e/(w - 2e) degrees, w the distance from the polar axis; and ecef2llh(llh2ecef(lat, lon, height)) returns latitude within 1e-9 degrees, height within 1e-8 m + 2e-14 (6400 km + |height|), and longitude within an arc of 3e-12 degrees along the parallel.",
  "every place in that shell, every perturbation of the coordinates, every library of the stated accuracy","all floats and all libm implementations",[H+":ecef2llh",H+":llh2ecef"])
p("C72","Exceptions from the stream or from the error handler",
  "An exception raised by the stream's read() or readline() that is no library error leaves NMEAReader.read() unchanged - except EOFError, for which read() returns (None, None) - under every error policy; a library error raised by the stream is treated like a parsing error. The caller may go on reading: every line not interrupted by an exception is answered exactly once and in order, whatever is raised between or inside lines. Under ERR_LOG the handler is called exactly once for every library error, in order, also if it raises: its exception then leaves read() in place of the error, no data are lost, and which messages are delivered does not depend on it. With streams and handlers that do not raise this is the reader of the other properties.",
  "every stream object, every sequence of bytes and exceptions, every handler (any function of the errors it has seen), every number of calls, every setting","all interleavings of data and exceptions, all handlers",[R+":NMEAReader.read",R+":NMEAReader._do_error",R+":NMEAReader._read_bytes",R+":NMEAReader._read_line"])
p("C73","The planar approximation is good for small separations",
  "For places at most 14 degrees apart in latitude and longitude (as numbers), the planar distance d differs from the great-circle distance by at most the fraction dlon + dlat^2 (radians) of d, hence by at most d^2/(radius cos lat1) + d^3/radius^2; on the Earth, up to 60 degrees of latitude, distances up to 50 m are right to the millimetre; floating-point rounding adds at most 2e-14 of the radius. (Not so across the 180 degree meridian: from 180 E to 180 W planar returns the length of the whole parallel.)",
  "all coordinates up to 14 degrees apart, all radii, all C libraries accurate to one unit in the last place","a continuum of coordinates",[H+":planar",H+":haversine"])
p("C74","Proprietary sentences are read as described",
  "For the proprietary sentence types listed in a table of layouts separate from the code (195 layouts of Airoha, Ashtech/Trimble, Fugro, Furuno, Garmin, Kenwood, Locosys, Magellan, Quectel, Septentrio, ST, u-blox and other sentences, among them PUBX 00, 03 and 04, including groups repeated as often as a count field says, and 17 variants told apart by the number of fields or by the first field), parse() of a framed sentence whose fields are well-formed or empty, and whose count fields are present, returns a message whose attributes are the fields that are present, under the names and in the order of the layout, each with the value its text denotes. Of the bracketed lists of PSSN,SNC all connections are read, without the square brackets. The answers OK, and ERROR with a number, that a Quectel module gives to a command are accepted for every Quectel id (four excepted) as status and errcode. For PTNL GGK, PJK and BPQ, which the table does not contain, day and month of the date come out exchanged; of PGPPADV,120 only the first two satellites are read, the others are dropped without an error.",
  "every sentence of a listed type, every well-formed text of every field, every number of fields and of repetitions","all field texts of all lengths, all repetition counts",["src/pynmeagps/nmeatypes_get_prop.py:NMEA_PAYLOADS_GET_PROP",M+":NMEAMessage._get_dict",M+":NMEAMessage._set_attribute_group",M+":NMEAMessage._set_attribute_single",M+":NMEAMessage.str2val"])
p("C75","Sockets that fail or time out",
  "When recv on a socket fails or times out in the middle of a stream and the program goes on calling read(), the results are those a serial port would give which times out at the same places (provided every LF is preceded by CR): no sentence is put together from data before and after a failure, every sentence returned was received between two failures; failures between sentences lose no sentence, with every error policy; a failure inside a sentence loses exactly that sentence (one (None, None) or one NMEAStreamError), and everything after it is read as if the stream began there. A failure of the very first recv, made by the constructor of the wrapper, is absorbed.",
  "all byte contents, all segmentations, all places and numbers of failures, all numbers of calls","a schedule of failures of arbitrary length",[S+":SocketWrapper._recv",S+":SocketWrapper.read",S+":SocketWrapper.readline",R+":NMEAReader.read",R+":NMEAReader._read_line"])
p("C76","Sentences are written as the standard says",
  "For each standard sentence type (except LR2, FOO and the six of C68 with coordinates under other names) and each proprietary one listed for C74, the constructor succeeds for every set of keywords whose values suit their fields; the message has exactly the fields of the layout, in that order (groups as often as the keywords or the counting field say), and each field is written the way the standard says: numbers with a minus sign and digits without leading zeros, times hhmmss with hundredths of a second, dates ddmmyy (mmddyy where the layout says so), both also if they are given as text, with or without delimiters, latitudes ddmm.mmmmm and longitudes dddmm.mmmmm (seven decimals in high precision mode) within half a unit of the last decimal, letters for hemispheres from the sign of the coordinate before. Omitted keywords are left at their defaults. Every field is well-formed for a reader following the standard, and serialize gives a sentence with these fields and the right checksum. Decimal numbers below 0.0001 and from 10**16 are written with an exponent (outside the standard), and no others.",
  "all sentence types of the independent tables, all talkers, keyword dictionaries, modes of precision, clocks","every float, date and combination of keywords",[M+":NMEAMessage.__init__",M+":NMEAMessage._set_attribute_single",M+":NMEAMessage.val2str",M+":NMEAMessage.nomval",H+":ddd2dmm",H+":time2str",H+":date2str","src/pynmeagps/nmeatypes_get.py:NMEA_PAYLOADS_GET"])
p("C77","Reading and writing on one socket",
  "Over every interleaving of read(n), readline(), in_waiting(), write(data) on a SocketWrapper and read() of an NMEAReader on it: writes do not disturb what the other calls return; the peer gets, in order and nothing else, from each write as many of its bytes as the call returned (possibly fewer than were given: the rest is not sent, without an error; nothing if the call raised), and all of the data if every write returned their length. Up to in_waiting() bytes can be read without asking the socket, more cannot; in_waiting() is the number of bytes received less the number returned. A reader is opened on a socket exactly with one of the three modes; if the mode is refused, the first segment has already been taken from the socket and is lost.",
  "all sequences of calls, all contents and segmentations, all failures in both directions","arbitrary interleavings and histories",[S+":SocketWrapper.write",S+":SocketWrapper.in_waiting",S+":SocketWrapper.read",S+":SocketWrapper.readline",R+":NMEAReader.__init__",R+":NMEAReader.datastream"])
p("C78","Threads sharing one reader",
  "Any number of threads call read() of one NMEAReader again and again. If each call is made under a lock, then for every schedule of their stream operations the results of the calls, in order and over all threads, are those of one thread calling as often, and so are the errors reported and the stream left behind: every sentence goes to exactly one thread; and a call that has got the lock ends after boundedly many operations of its thread, whatever the others do. Without a lock, for every schedule, each message returned is still the parse (with the validation asked for) of the raw data returned with it, the raw data of a thread consist in order of bytes its own operations got, and on a file every byte goes to exactly one operation; but sentences can be lost, and pieces that are not adjacent can be put together without the checksum noticing (two threads taking turns read GNGLL sentences as NLL sentences).",
  "all schedules of any number of threads, all streams, all settings","the interleavings of any number of threads over streams of any length",[R+":NMEAReader.read",R+":NMEAReader._read_bytes",R+":NMEAReader._read_line"])
p("C79","Reading a file that is still being written",
  "A file to which another program appends while it is read, and read() called again after (None, None): the results are those of a serial port that delivers the same bytes and times out wherever the reader reached the end of the file; every sentence returned stands in the file in one piece. If the writer appends whole sentences (any number at a time, at any moment), no error occurs and the sentences returned so far, followed by those to come, are all sentences of the file in order: none is lost, changed or returned twice, and after enough calls all have been returned. If the reader reaches the end of the file inside a sentence, that part is consumed - with (None, None) if it has at most two bytes, with NMEAStreamError otherwise - and the sentence is lost.",
  "all contents, all divisions into appended pieces, all moments of appending relative to the reader's operations, all numbers of calls","arbitrary interleavings of a writer and a reader",[R+":NMEAReader.read",R+":NMEAReader._read_bytes",R+":NMEAReader._read_line",R+":NMEAReader.__next__"])
p("C80","Commands and queries are written as documented",
  "With msgmode SET or POLL and keywords that suit the command (105 commands, 59 queries of Airoha, Garmin, Inventek, Locosys, Quectel, ST, u-blox and others, and 21 variants of Quectel commands and queries selected by which keywords are given), the constructor succeeds, the message has exactly the fields of that command in their order, each written properly from its keyword or left at its default; a Quectel command begins with W and a query with R unless the keyword status says otherwise. If no keyword holds a reserved character, serialize() is a framed sentence with these fields and the right checksum.",
  "every command and query of the table, every set of suitable keywords, every combination of omitted ones","all values of all keywords, all subsets of keywords",["src/pynmeagps/nmeatypes_set_prop.py:NMEA_PAYLOADS_SET_PROP","src/pynmeagps/nmeatypes_poll_prop.py:NMEA_PAYLOADS_POLL_PROP",M+":NMEAMessage._get_dict",M+":NMEAMessage._get_dict_prop",M+":NMEAMessage._set_attribute_single",M+":NMEAMessage.val2str"])
p("C81","Commands and queries are read as documented",
  "parse() with msgmode SET or POLL of a framed command or query of the same table, with well-formed or empty fields, returns a message whose attributes are the fields that are present, under the names and in the order of the layout, each with the value its text denotes; variants of one Quectel command are told apart by the number of their fields.",
  "every command and query of the table, every well-formed text of every field, every number of fields","all field texts of all lengths",["src/pynmeagps/nmeatypes_set_prop.py:NMEA_PAYLOADS_SET_PROP","src/pynmeagps/nmeatypes_poll_prop.py:NMEA_PAYLOADS_POLL_PROP",M+":NMEAMessage._get_dict",M+":NMEAMessage._get_dict_prop",R+":NMEAReader.parse"])
p("C82","Coded attributes and the decode tables fit together",
  "The attributes of received sentences are keys of the decode tables of the right type: SYSTEMID[msg.systemId] (GSA, GRS, GBS) is the name of the satellite system exactly if the field is its code in NMEA 0183, SIGNALID[(msg.systemId, msg.signalId)] is a signal of the system named, FIXTYPE_GGA[msg.quality] exists exactly for 0 to 6 and is NO FIX, RTK FIXED, RTK FLOAT, DR ONLY exactly for 0, 4, 5, 6, POSMODE[msg.posMode] (RMC, GLL, VTG) exists for every mode of the standard except M, P, S and is N/A, DR, RTK FLOAT, RTK FIXED exactly for N, E, F, R. Anything else raises KeyError: so do GNS mode indicators of several systems and three of the eight GPS signals; FMI_STATUS has integer keys (distinct bits) but the attribute status of FMI is text.",
  "every accepted sentence of these types, every text of the field","all field texts of all lengths",["src/pynmeagps/nmeatypes_decodes.py:FIXTYPE_GGA","src/pynmeagps/nmeatypes_decodes.py:POSMODE","src/pynmeagps/nmeatypes_decodes.py:SYSTEMID","src/pynmeagps/nmeatypes_decodes.py:SIGNALID","src/pynmeagps/nmeatypes_decodes.py:FMI_STATUS","src/pynmeagps/nmeatypes_get.py:NMEA_PAYLOADS_GET"])
p("C83","Standard queries are written and understood as NMEA 0183 defines them",
  "For each listener GA, GB, GL, GN, GP, GQ and every listed talker, NMEAMessage(talker, listener + 'Q', POLL, msgId=s) is the sentence $ttllQ,s*hh CR LF with the right checksum, for every text s without reserved characters, and parse with msgmode POLL reads it back as the same talker and id with msgId == s. With VALMSGID, parse in GET or SET mode raises NMEAParseError for every query, and in SET mode nothing with a standard id is parsed or constructed.",
  "every talker, listener, sentence name, clock, flags and user definitions","all names of all lengths",[M+":NMEAMessage.__init__",M+":NMEAMessage._get_dict","src/pynmeagps/nmeatypes_poll.py:NMEA_PAYLOADS_POLL","src/pynmeagps/nmeatypes_set.py:NMEA_PAYLOADS_SET",R+":NMEAReader.parse"])
p("C84","The example gpxtracker writes the track of its log, or fails",
  "The program examples/gpxtracker.py finishes exactly if everything read from the log is a message and every GGA message has at least nine fields of which the first is a time; the file is then the header, one track point per GGA sentence in the order of the log (position with south and west negative, height, time of day with the date of the run, fix, dilution of precision: the values of the fields of the sentence), and the trailer, for every log of acceptable sentences with anything without a $ in between. A finished file is well-formed XML, whatever is in the log. At the first line that begins like a sentence and is none, or GGA sentence without a time (as receivers send until they know it), it ends with AttributeError, whatever follows in the log, and the file lacks the trailer.",
  "all logs, all clocks","logs of any length and content",["examples/gpxtracker.py:NMEATracker.reader","examples/gpxtracker.py:NMEATracker.write_gpx_hdr","examples/gpxtracker.py:NMEATracker.write_gpx_trkpnt","examples/gpxtracker.py:NMEATracker.write_gpx_tlr",R+":NMEAReader.read",R+":NMEAReader.parse"])
p("C85","The example nmeapoller prints and sends everything in order until it stops",
  "In the program examples/nmeapoller.py, whatever the interleaving of its two threads with the main program: the messages read from the stream are, in order, those printed, the one about to be printed, those queued and the one about to be queued - none lost, none twice; the messages to send reach the device in the order in which they were queued, one write each, and a failed write loses that message only (but leaves the queue's unfinished count above zero for good); no thread waits at an empty queue or fails there. Until stop is set, five steps of the processing thread per queued message and five more print all of them; six steps of the I/O thread per message to send and six more, and two for each read that raises, send them all; while all reads raise nothing is sent. Once stop is set the processing thread ends within five steps of its own, the I/O thread within four per message to send and four more, if no more are queued (otherwise it may go on for ever); messages then left in the queue are never printed. The query it makes for each standard id serializes, and parses as a query for that id.",
  "all schedules, streams, reader configurations, write failures","unboundedly many interleavings and histories",["examples/nmeapoller.py:io_data","examples/nmeapoller.py:process_data","examples/nmeapoller.py:main",R+":NMEAReader.read",M+":NMEAMessage.serialize"])
p("C86","ECEF conversion works with every ellipsoid fitted to the Earth",
  "With any semi-major axis between 6377 and 6379 km and any inverse flattening between 293 and 301 - every datum of examples/datums.py - over the real numbers: ecef2llh returns a result for every point of space; within 100 km of the centre it is (0, 0, -10000 km); elsewhere the longitude is exact and in (-180, 180], latitude and height are exact on the equator and on the polar axis, the latitude has the sign of z, and mirroring a point at the equatorial plane negates the latitude only. llh2ecef followed by ecef2llh with the same ellipsoid returns the latitude to within 1e-9 degrees, the height to within 10 nm and (off the poles) the longitude exactly, for all heights from -100 km upwards without limit.",
  "all points, all ellipsoids in the range","a continuum of points and ellipsoids",[H+":ecef2llh",H+":llh2ecef","examples/datums.py:DATUMS"])
p("C87","The example web server shows the newest values, each request gets JSON",
  "In the program examples/webserver/nmeaserver.py, whatever the interleaving of its reading thread with requests and the stop call: the messages it reads are consecutive reads of the stream; at every moment between messages each entry of the page is the value of the last RMC, GGA or GSA message that has it (its initial value before the first), and while a message is being stored each entry is that or the value without the message; every request for the data is answered, by a JSON object with the twelve entries - numbers that read back as the same numbers, dates and times as text, any text escaped so that it stands for itself - unless a value is nan or infinite, which are written as words that are not JSON. The thread ends only by the stop call (within ten steps of its own), by an exception of read() other than the library's four, or by the first accepted RMC or GGA sentence with fewer than nine fields or GSA sentence with fewer than seventeen; after that, and while the serial port reports nothing waiting, the page does not change, whatever the reader has buffered. With its settings only sentences with the right checksum get on the page.",
  "all schedules, streams, requests","unboundedly many interleavings and histories",["examples/webserver/nmeaserver.py:GNSSStreamer.set_data","examples/webserver/nmeaserver.py:GNSSStreamer._read_thread","examples/webserver/nmeaserver.py:GNSSStreamer.get_data",R+":NMEAReader.read"])
p("C88","A reader shared by a program and its error handler",
  "With quitonerror=ERR_LOG, an error handler that calls read() of the same reader itself (in which it may be called again, to any depth), or reads bytes or lines from its stream, then returns or raises: everything that happens, to the program or to the handler, is what one program would get that made all these calls one after the other with errors raised, so that no sentence is lost or returned twice; every sentence goes to exactly one call, of the program or of the handler; the handler is called exactly once for each library error, in order; the raw data of the sentences and the bytes the handler took are disjoint slices of the data, in the order of time; the outcome is determined; and if the handler stops when it comes to the end of the data, every call ends on a stream that runs out.",
  "all streams, settings, handlers (arbitrary functions of all they have seen) and sequences of calls","unboundedly deep nesting of calls and arbitrary handlers",[R+":NMEAReader.read",R+":NMEAReader._do_error",R+":NMEAReader.datastream"])
p("C89","Sockets, whatever the bytes arriving",
  "Whatever bytes arrive on a socket (plain or chunked, in whatever segments, with bare CR, bare LF or binary data among them) and wherever the connection times out or fails: successive read() calls give exactly what a simple description says - a line goes up to the first CR LF, or up to a failure; (None, None) for a failure outside a line -, with ERR_IGNORE and ERR_LOG the same results without the library errors, and with ERR_LOG exactly these reported. A sentence returned was received between two failures; after any data ending in CR LF the next acceptable sentence is returned, whatever came before. A sentence ending in LF without CR is joined to the next line, and both are rejected as one when checksums are validated (unlike on a file or serial line). With chunked transfer and failures between segments, the bytes are still the decoded data.",
  "all byte streams, segmentations, failures, transfer encodings, reader settings","unboundedly many byte streams and failure patterns",[S+":SocketWrapper.readline",S+":SocketWrapper.read",R+":NMEAReader.read",R+":NMEAReader._read_line"])
p("C90","The program quecteldemo.py",
  "In the program examples/quecteldemo.py, whatever the interleaving of its three threads, whatever the device sends and whenever the clock is read: the device gets, one write each and in this order, the first ones of a fixed list of 40 sentences (each whole unless write() raises), all of them in a bounded number of steps if Ctrl-C is not pressed before; the constructors never raise; the messages printed are the messages read, in order, with qtmonly those with QTM in their identity; no thread fails or waits for ever at a queue, and after Ctrl-C both threads end in a bounded number of steps. The configuration commands for UART, satellites and signals are made but never sent: their results are not assigned, and the query before them is sent again.",
  "all schedules of the three threads, all streams, all failures of write(), all clocks","unboundedly many interleavings and streams",["examples/quecteldemo.py:main","examples/quecteldemo.py:io_data","examples/quecteldemo.py:process_data","examples/quecteldemo.py:send"])
p("C91","Which damage to a sentence the checksum detects",
  "If a sentence is accepted with checksum validation and its content is damaged in any way (the checksum text is not), parse accepts the result with VALCKSUM exactly if it accepts it without and the XOR of the characters is what it was; otherwise it raises NMEAParseError. For damage that keeps the length the XOR stays exactly if each bit changed in an even number of characters. So every change of at most eight consecutive bits across two neighbouring characters is detected, and every character lost or inserted unless it is NUL, and every * put into the content. Characters in another order are never detected: exchanging two digits of a latitude gives another accepted position.",
  "every accepted sentence, every damage to its content","all sentences, all patterns of damage",[H+":calc_checksum",R+":NMEAReader.parse",H+":get_parts"])
p("C92","Reserved characters in generated sentences: what happens",
  "serialize() does not escape anything, so C05's condition that fields contain no reserved characters is needed. A * in a field of a message made from keywords: the sentence, though its checksum is that of its text, is rejected by every parse that validates checksums. Commas (and no *): the sentence is valid, but has one more field for each comma; the fields received are those of the message exactly if there are none. A line end followed by a sentence, in any field of any message: whoever reads the serialized bytes gets that sentence as if it had been sent; if the field is the last one and the sentence is preceded by the right checksum and CR LF, the reader yields the message without the addition and then the sentence, with no error reported. The constructor accepts every such text (e.g. text of TXT).",
  "every message id, talker, definition, keyword values, injected sentence, reader settings","all texts of all lengths",[M+":NMEAMessage.serialize",M+":NMEAMessage.val2str",R+":NMEAReader.read",R+":NMEAReader.parse"])
p("C93",'A position sent in a sentence arrives within 2.3 cm',
  "A position given to the constructor as signed degrees (keywords lat and lon, float or int), serialized and parsed: the position read back is less than 2.3 cm (0.23 mm with hpnmeamode) from it, by haversine with the Earth's equatorial radius - in every hemisphere, at the poles and across the date line, for every standard and proprietary message type whose attributes lat and lon are latitude and longitude fields. Consequently haversine distances of positions sent in sentences are right to 4.6 cm (0.46 mm).",
  'every message type with lat and lon, all latitudes and longitudes, precision, other keywords, clocks and validations','all positions on Earth',[M+":NMEAMessage",R+":NMEAReader.parse",H+":ddd2dmm",H+":dmm2ddd",H+":haversine"])
p("C94",'Handing a stream from one reader to another',
  'An NMEAReader keeps nothing of the stream to itself: if several readers with different settings (or one whose settings change) call read() in any order on one file, each call begins exactly at the piece of data after the last one dealt with by the call before, passes over pieces by its own settings only, and if every line is acceptable to every reader, the sentences returned by all together with the lines left are all the lines, each once and in order. On every stream object that delivers its content in order, the raw data returned are disjoint slices in order, and exactly a beginning of the content is used up. For a reader on a socket this holds if the next reader is given reader.datastream; then the readers get what readers sharing a file with these bytes would. If the next reader is given the socket itself, everything received and not yet handed out is lost to it, and it gets exactly the rest: nothing at all, if all the data came in one segment.',
  'all byte sequences, sequences of reader settings, segmentations','all sequences of readers and all streams',[R+":NMEAReader.__init__",R+":NMEAReader.read",R+":NMEAReader.datastream",S+":SocketWrapper.__init__"])
p("C95",'The programs nmeafile.py and nmeasocket.py',
  'examples/nmeafile.py prints, for every file, one line for each complete line of the file that is not rejected, in order: str of the message, or None for a line that is no sentence at all; at the end the number of these lines (so lines that are no sentences count as messages); rejected and cut-off lines leave no trace: the error handler given to the reader is never called, since quitonerror=False means ERR_IGNORE. examples/nmeasocket.py prints the same for whatever arrives on the socket, in whatever segments, up to the first failure or timeout that does not come inside a line; then it ends (without a word, and whatever is sent later); the errors of rejected and cut-off lines are logged, each once and in order. Both end with an exception exactly if some line is one of the proprietary sentences for which parse raises IndexError (C13); what comes after that line is not printed, nor is the number.',
  'all files, all socket contents, segmentations and failures','all contents of files and sockets',["examples/nmeafile.py:main","examples/nmeafile.py:errhandler","examples/nmeasocket.py:main",R+":NMEAReader.__next__",R+":NMEAReader._do_error"])
p("C96",'A sentence on a socket is returned as soon as it has arrived',
  'When read() on a socket returns a sentence (ending in CR LF), the number of recv calls it has made is the least with which the sentence and everything before it is received: no recv is made after the one that brought its last byte, so read never blocks or times out waiting for data it does not need, whatever the encoding; bytes received beyond the sentence stay in the buffer. On a socket without chunked encoding: if the buffer and the next segments, the last of which has the last byte, hold a sentence after bytes without $, read returns it after receiving exactly these segments, whatever follows (data, a timeout or silence); a sentence already in the buffer is returned without asking the socket. When read returns (None, None), its last recv has failed and everything received has been read.',
  'all wrapper states, all future recv results, all encodings','the number of recv calls must be least for every segmentation, every content before the sentence and every future of the connection',[R+":NMEAReader.read",S+":SocketWrapper._recv",S+":SocketWrapper.read",S+":SocketWrapper.readline"])
p("C97",'The web server of the examples shows four files and nothing else',
  "GET requests to examples/webserver/gpshttpserver.py: only /, /index.html, /scripts.js, /styles.css, /favicon.ico and /gps are known; every other path (../, queries, other files) gets 501 'Unknown Request', and no answer depends on any file but the four. A known page gets 200 and its file with every CR LF or CR written as LF (the file as it is if it has no CR), provided the file is there and UTF-8; otherwise the handler raises and there is no answer - which is what happens, always, for the favicon.ico that comes with the program. /gps gets 200, application/json and the JSON text, which is ASCII; with nmeaserver.py this holds at every moment of every run (C87).",
  'all request paths, all contents of the directory, all data and schedules','all paths and all file contents',["examples/webserver/gpshttpserver.py:GPSHTTPHandler.do_GET","examples/webserver/nmeaserver.py:GPSReader.get_data"])
p("C98",'Reading and writing keep the order',
  'If what one field of a sentence whose layout is known from the standard or from its manufacturer says is at most what a field of the same kind says in another such sentence (of the same or another type) - whole and decimal numbers of any size, times, dates, latitudes and longitudes with minutes below 60, south and west counting negatively - then the two attributes compare so in Python too (a <= b): float rounding never swaps two positions, times or values. If it is less, the attribute is strictly less, for coordinates provided they differ by more than 1.2e-10 degrees and except for decimal numbers, which may round to the same float. Conversely of two float latitudes or longitudes the one with the smaller magnitude is not written with more degrees and minutes.',
  'all pairs of standard sentences with well-formed fields, all fields of numeric kinds, all floats up to 90 or 180 degrees','all pairs of numbers and all roundings',["src/pynmeagps/nmeahelpers.py:dmm2ddd","src/pynmeagps/nmeahelpers.py:ddd2dmm","src/pynmeagps/nmeamessage.py:NMEAMessage.str2val"])
p("C99",'The benchmark program of the examples works with twenty cycles or more, and with none',
  'examples/benchmark.py with cycles=n: all its thirty messages are valid. For 20 <= n <= 10**300 every message is parsed in every cycle (30 n in all), the progress bar never fails, and each bar printed has exactly twenty blocks, as many of them dark as twentieths are done, with the matching percentage; the result exists if the clock has advanced, otherwise ZeroDivisionError. For 1 <= n <= 19 the program ends with ZeroDivisionError before anything is parsed or printed. For n <= 0 nothing is parsed.',
  'all numbers of cycles, all iterations, all durations','the number of cycles has no bound, and the bar is computed in floats',["examples/benchmark.py:progbar","examples/benchmark.py:benchmark","examples/benchmark.py:NMEAMESSAGES"])
p("C100",'Exceptions say what is wrong, where, and what would be right',
  "Whenever parse raises one of the library's exceptions, its text is true of the message: 'Message {talker}{id} invalid checksum {k} - should be {k2}.' exactly when the checksum is wrong, with k2 the right one (the same sentence with k2 is never refused for its checksum); 'Unknown talker', 'Unknown msgID' (two forms) and 'Badly formed message' exactly when that is so, with the talker, the id, the mode and the message; and 'Incorrect type for attribute {name} in msgID {id}.' names the first entry of the definition that cannot be filled from the fields: in a definition without groups the attribute of the first field whose text does not fit its type (not an integer, not a number, or a coordinate too large); within a group the text names the group. (A type that does not exist, in a user definition or for the date of LR2, gives 'Unknown attribute type {type}.'; user definitions must not use the names of the class's own properties.) The reader's log of a file is exactly the texts of its unacceptable lines, foreign headers and cut-off end, in the order of the file.",
  'all messages (bytes or text), modes, validation flags, user definitions, all files','messages and files have no bound; the name in the text is found only at run time by a loop over the definition',[f"{H}:get_parts",f"{M}:NMEAMessage.__init__",f"{M}:_do_attributes",f"{M}:_get_dict",f"{M}:str2val",f"{R}:NMEAReader.parse",f"{R}:NMEAReader.read",f"{R}:_read_line",f"{R}:_do_error"])
p("C101",'What the constructor says about its keywords',
  "Whenever the constructor, given keywords and no payload, raises one of the library's exceptions, its text is true of the arguments: 'Invalid msgmode {m} - must be 0, 1 or 2.', 'Unknown talker', 'Unknown msgID' (two forms) and 'P{id} message definitions must include payload or msgId keyword arguments.' exactly when that is so; 'Incorrect type for attribute {name} in msgID {id}.' names the first entry of the definition that cannot be written with the keywords: in a definition without groups the first keyword whose value has no text with its attribute's type (an integer of more than 4300 digits, or a coordinate that overflows); it names nothing exactly when the keyword that selects the layout cannot be used. Every value of ordinary size is accepted for every attribute, of whatever kind it is. A user who leaves out the keyword that is named gets a message, or an exception naming a later attribute. If a keyword has the name of a parameter inside the constructor (pindex, pdict, key, gindex, att), the text names the first entry of the definition (of a standard or user-defined sentence), whether there is a payload or not. An assignment to an attribute of a finished message is refused with a text that names it, and changes nothing.",
  'all talkers, message types, modes, validation flags, user definitions, keyword lists and values','keyword lists and values have no bound; the name in the text is found only at run time by a loop over the definition',[f"{M}:NMEAMessage.__init__",f"{M}:_do_attributes",f"{M}:_get_dict",f"{M}:val2str",f"{M}:NMEAMessage.__setattr__",f"{H}:ddd2dmm"])
p("C102",'Payloads that are not lists of texts',
  'The constructor\'s payload may be a list, a tuple or one text, with items of any kind. A list of texts behaves as in all other properties. A tuple behaves as the list of the same items, except for the bracketed PSSNSNC sentences (in which every item of a complete group must be a text); one text behaves as the tuple of its characters (so payload="5,A" is three fields). For every sentence with a definition but the bracketed ones, whatever the items (where the library looks at the first item to find the definition, it must be a text; where the id continues in the first item, anything else there raises NMEATypeError): the message is made exactly when the groups of its definition can be repeated (as often as they fit the items, or as often as an attribute read before says, if that is an int or a bool) and each item that falls on a field gives a value for that field\'s type - texts are converted as always; other objects are kept in text, direction, status and hexadecimal fields, converted by float() and int() in number fields, replaced by an empty text in date and time fields, and refused in latitude and longitude fields - and the attributes are those values; the checksum is that of the sentence with each item as str() writes it, and the payload is kept as given. Otherwise NMEATypeError is raised. A sentence without a definition has the items themselves as attributes field_01, field_02, ... and no checksum of its own (or is refused with NMEAMessageError if ids are validated). An int in an integer field and a float in a decimal field give the attributes and the checksum of their texts, also as the repeat counts of groups (in a proprietary sentence, the first item must be a text). But serialize() raises TypeError if any item is not a text, although the message was made with a valid checksum. Further keywords change nothing, unless one has the name of a parameter inside the constructor (pindex, pdict, key, gindex, att, or mode for types with variants), which raises NMEATypeError for every sentence with a definition, whatever the payload.',
  'all talkers, message ids, modes, validation flags, user definitions, checksums, further keywords and payloads (lists, tuples and texts of every length, items of every kind)','items, lengths and definitions have no bound',[f"{M}:NMEAMessage.__init__",f"{M}:_do_attributes",f"{M}:_set_attribute_single",f"{M}:_get_dict",f"{M}:str2val",f"{M}:serialize",f"{H}:generate_checksum"])
if __name__=="__main__":
    with open("/verif/properties.jsonl","w") as f:
        for x in P: f.write(json.dumps(x,ensure_ascii=False)+"\n")
    print(len(P))
