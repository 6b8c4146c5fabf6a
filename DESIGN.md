# Formal model of pynmeagps 1.1.4 in Lean 4

## 1. Layers

| layer | modules | content |
|---|---|---|
| Python semantics | `Verif/Py/*` | str (code points), bytes, UTF-8, `int()`/`float()`/`repr`/`format`, IEEE binary64 with correct rounding, `strptime`/`strftime`, calendar, Unicode upper-casing tables |
| Model | `Verif/Model/*` | pynmeagps itself, function by function; each definition cites file and lines of /repo |
| Generated tables | `Verif/Model/Tables*.lean` | the payload dictionaries, generated from the text of /repo by `tools/gen_tables.py` (`ast` only, nothing imported) |
| Specification | `Verif/Spec/*` | small independent definitions used in the statements (framing, layout, generation, streams, chunked coding, great circles, ...) |
| Lemmas | `Verif/Lemmas/*` | helper proofs |
| Properties | `Verif/Props/*` | theorems `Cnn_*`, each group followed by `example`s showing that concrete cases meet the hypotheses, and by `*_counterexample` theorems where the English claim is false of the code |

Exceptions are values (`Except Err α`). Strings are `List Nat` (code points), bytes `List UInt8`,
integers `Int` (unbounded, with CPython's 4300-digit limit on text conversion), floats are a concrete
binary64 model (sign, exact rational magnitude, inf, nan; every operation is the exact result followed
by round-to-nearest-even; `repr` is the shortest text that reads back). The wall clock is a parameter
`now : Nat → DateTime` (an arbitrary sequence of readings), so every theorem holds whenever the code
runs. Reference platform: CPython 3.11 on Linux/glibc (matters for `%Y` padding and the Unicode
tables).

## 2. How to read a theorem

A statement mentions (a) model functions that stand for API functions (`parse`, `mkMsg` = the
constructor `NMEAMessage(...)`, `Msg.serialize`, `Msg.str`, `readAll` = iterating an `NMEAReader`,
`Sock.read`, `dmm2ddd`, ...) and (b) definitions from `Verif/Spec`, which do not use the model's
helpers. Helper definitions local to a statement stand directly above it. Theorem names begin with the
property id. Claims of `properties.jsonl` that are false of the code say so in the statement, and have
both the strongest true version as a theorem and a concrete `_counterexample` theorem.

## 3. Plan per property

| id | modelled code | how proved |
|---|---|---|
| C01 | `calc_checksum`, `generate_checksum` | XOR fold vs. an independent specification of hexadecimal text; permutation invariance by induction |
| C02, C03 | `get_parts`, `parse` | XOR cancels: one changed character changes the XOR; acceptance unfolded to the specification `HasContent` |
| C04, C12 | `get_parts`, `serialize`, UTF-8 | string algebra of split/strip/join, UTF-8 decode/encode inverse |
| C05, C53 | keyword path of the constructor | the attribute loop refines the relation `Emit` (spec of what is written); induction over definitions |
| C06 | `str2val`, `val2str`, `nomval` | per type; decimals by shortest-repr/correct-rounding argument |
| C07, C44, C54 | `ddd2dmm`, `dmm2ddd`, `deg2dms`, `deg2dmm`, `dms2deg`, `latlon2dm*`, `llh2iso6709` | binary64 error analysis of each operation; regular expression as explicit grammar |
| C08, C09 | attribute loop | invariant over the loop for all definitions, then the built-in tables |
| C10, C11 | `date2str`, `date2utc`, `time2str`, `time2utc` | `strptime` as the backtracking regex of CPython's `_strptime` |
| C13, C14, C19, C51, C61 | `parse`, constructor, definition lookup | case analysis with exceptions as values |
| C15–C18, C50, C52 | attribute loop, getters, `__str__` | refinement of the recursive routine to a flat positional specification (`Expand`, `readSlots`); texts of values by a separate relation (`Spec/Shown`) |
| C20, C21, C57–C63 | constructor, `parse` | congruence/simulation: two runs in lock-step |
| C22 | `__setattr__` | object histories as step function; induction over operations |
| C23–C28, C55, C56 | `NMEAReader.read`, iteration | well-founded recursion over any stream with a progress order; induction |
| C29–C32 | `SocketWrapper` | state machine driven by a script of `recv` outcomes; refinement to a byte queue |
| C33–C35 | `dechunk` | induction over chunk lists and over segmentations; zlib arbitrary |
| C36–C39 | `leapsecond`, `utc2wnotow`, `wnotow2utc` | microsecond arithmetic, binary64 for `total_seconds`, induction for autoroll |
| C40, C41, C45, C46 | `groupsize`, `msgdesc`, `hex2str`, `knots2spd` | direct |
| C42 | `haversine`, `planar`, `bearing`, `area` | over the reals: equality with the central angle of unit vectors (Mathlib) |
| C43 | `llh2ecef`, `ecef2llh` | over the reals: error bound of the closed-form iteration by contraction arguments |
| C47, C48 | tables, variant selection | `decide +kernel` over the complete finite tables, plus lemmas for every payload |
| C49, C66 | `__repr__` | grammar of Python string literals; escaping is inverted; unambiguity by induction; bracketed sentences by the characterisation of received messages (C16), whose converted texts do not change when brackets are removed twice |
| C64, C65 | constructor, serialize, parse, reader, socket | composition of C05, C06, C07, C10, C11, C16, C23, C29 |
| C67 | reader over a serial port with timeouts | the reader's step function over an arbitrary interleaving of data and timeouts; induction |
| C68 | tables, `parse` | `Spec/Nmea0183` is an independently written table of layouts, `Spec/Nmea0183More` the transcribed rest (`C68_complete`: together all but LR2 and FOO); every listed definition is shown to be that layout, then one proof for all layouts |
| C69 | `nomval`, keyword path | one proof for any definition; the built-in tables by `decide +kernel` |
| C70 | `haversine`, `bearing`, `planar`, `area`, `llh2ecef` in binary64 | forward error analysis (`Near x r ε`), libm a parameter with an accuracy assumption (`Spec/GeoFloat.Accurate`, shown satisfiable); symmetry in the two points is exact, from `y - x` being `x - y` or its negation |
| C71 | `ecef2llh` in binary64, alone and after `llh2ecef` | forward error analysis up to the first guess (only coarse closeness needed, `GuessNear`), the real Newton step from that guess (`Geodetic.newton_full`), forward error analysis of the float Newton step |
| C72 | exceptions from the stream object and from the error handler | `Model/ReaderExc`: the loop of `read` over streams whose methods may raise, handler = any function of its calls so far; events of passes are independent of the policy, outcomes are a fold over events; `C72_plain` embeds the other reader model |
| C73 | `planar` against the great circle | exact difference of squared planar distance and squared chord, Taylor bounds of cosine, Jordan's inequality for the arc; combined with C70 for floats |
| C74 | tables, definition lookup, `parse` | `Spec/Vendor` is a separate table of layouts of proprietary sentences (195, and 17 variants; the 57 of u-blox, Garmin, Trimble, Septentrio and similar were written from knowledge of the manufacturers' descriptions, the others transcribed from the library's payload descriptions); same proof as C68 (`Lemmas/Reading`), with counted groups; the attribute names are those the library documents |
| C75 | `SocketWrapper` over a script with failures, repeated `read()` | simulation between the socket stream and the serial-port stream with timeouts (C55) on lines in which every LF follows CR; the results of C55 transfer |
| C76 | constructor with keywords, `val2str`, `nomval`, group expansion, against the independent layouts of C68 and C74 (`Spec/Writing`) | induction over the definition along the layout (existence of a generation, then its shape); per kind of field an independent description of its text; shortest `repr` has an exponent exactly outside `[0.0001, 10**16)` |
| C77 | `SocketWrapper.write`, `in_waiting`, the constructor of `NMEAReader` (`Model/SocketIO`) | two-directional state machine with scripts for `recv` and `send`; induction over the actions |
| C78 | `NMEAReader.read` as a machine of single stream operations (`Model/Threads`) | schedules are lists of thread numbers; refinement of the machine to `readMsg`, induction over schedules; progress by well-founded induction on the stream |
| C79 | a growing file as the reader's stream (`Model/Growing`) | for each operation the port's input that gives the same answer is constructed, composed over steps, calls and sessions; whole sentences by induction over the calls |
| C80 | constructor with keywords in modes SET and POLL, definition lookup with keyword-selected variants | `Spec/Commands` is a separate table of commands and queries, transcribed from the library's payload descriptions (manuals are not available here), so it fixes what the library promises rather than what the manufacturers say; proof of C76 (`writing_core`) instantiated per mode; checks of the tables by kernel evaluation |
| C81 | `parse` in modes SET and POLL | `reading_mode` (`Lemmas/Reading`), the proof of C68/C74 for any mode, instantiated with `Spec/Commands` |
| C82 | `nmeatypes_decodes.py` (`Model/Decodes`), `parse` | position and type of each coded field by kernel evaluation of the tables, value by C16; lookups characterised by membership |
| C83 | constructor and `parse` in POLL and SET mode | C05 (generation) and C16 (layout) for the six one-field queries; C19 for the rejections |
| C84 | `examples/gpxtracker.py` (`Model/GpxTracker`) | the loop against a relation between items and points (`Spec/GpxTracker`), C23, C14, C16, C68 for what is read; well-formed XML by a separate grammar (`Spec/Xml`) |
| C85 | `examples/nmeapoller.py`: both threads, both queues, the event (`Model/Poller`) | transition system, a schedule is a list of actions; an invariant over all schedules, ranking functions for stopping and for progress (`Spec/Poller`) |
| C86 | `ecef2llh`, `llh2ecef` with the caller's ellipsoid; the ellipsoids of `examples/datums.py` (`Model/Datums`) | the error analysis of C43 redone for a range of ellipsoids (`Lemmas/Datum*`, `Spec/Datum`): how close the series gives the first guess, then one Newton step with explicit second-order bounds |
| C87 | `set_data`, `_read_thread`, `get_data` of `examples/webserver/nmeaserver.py`, `json.dumps` of texts and numbers (`Model/WebServer`) | an invariant over all schedules relating the dictionary to the messages read (`Spec/WebServer`: newest value per entry, JSON of RFC 8259); C16 for which attributes a sentence has; shape of `repr` of floats |
| C88 | `read` and `_do_error` with a handler that calls `read()` and uses the stream (`Model/Reentrant`: mutually inductive big-step relation over arbitrary handlers) | mutual induction: the nested calls flatten to a sequence of calls with errors raised (`Spec/Reentrant.Timeline`); then C06-style slices; determinism and termination by well-founded induction on the stream |
| C89 | `SocketWrapper` and `read` as in C31/C75, without the condition that LF follows CR | the wrapper is read like a stream of `Option UInt8` with CR LF lines (simulation, `step_sim`); the specification `Spec/SocketAny` splits any bytes into pieces (existence and uniqueness by strong induction); a joined pair of sentences cannot have a valid checksum text because it contains LF |
| C90 | `examples/quecteldemo.py`: the I/O thread of C85, the filtering processing thread, the statements of `main` with its variables (`Model/QuectelDemo`) | simulation by the program of C85 with fewer messages printed; the list of sentences is a literal in the specification, obtained from the constructors by evaluation at one clock and independence of the clock for definitions without dates; an invariant relates what is put on the queue, the variables and the remaining statements |
| C91 | `parse`, `get_parts`, `calc_checksum` as in C02/C03, any two messages with contents | an accepted sentence has the checksum of its content; two XORs agree iff every bit does, and bit `j` of an XOR is the parity of the characters with bit `j` (induction); a burst changes disjoint bits in two neighbours; C61 reduces acceptance with `VALCKSUM` to acceptance without |
| C92 | the constructor from keywords and `serialize` (C05, C53), `parse`, `read` of a file | the wire text of C53 framed; at the first `*` the rest is no checksum (C91); cutting the joined fields at commas is cutting each field (`join_cut`); the bytes of a text are the bytes of its parts, so that the reader resynchronises at the line end (C55) or reads two sentences and junk (C23) |
| C93 | the constructor, `serialize` and `parse` (C64), `haversine` over the reals (C42) | C64 gives the coordinates within 1e-7 (1e-9) degrees, signs included; the built-in tables are checked: wherever `lat` and `lon` are coordinates, directions follow; the angle on the sphere is at most the difference of the latitudes plus that of the longitudes (triangle inequality via the corner point) |
| C94 | `read` once per element of a list of settings on one stream (`Spec/Handover.lean`), file and socket | one pass takes exactly the first piece of `Pieces` whatever the settings; induction over the readers; sockets by simulation (C32) and by `content` of the wrapper made anew |
| C95 | `main` of both programs (`Model/Listing`): text printed, errors reported, exception; not Ctrl-C in nmeasocket.py | the loop over the events of the stream against `Listed` over the pieces (C23, C89), `str` never fails (C52), the exceptions of `parse` (C13, C14); listings exist and are unique |
| C96 | `recv`, `fill`, `read`, `readline` of the wrapper and `read` of the reader (`Model/Socket`, `Model/Reader`) against the number of `recv` calls (`Spec/Prompt`: `recvs`) | `Minimal`/`Drained` invariant through `fill`, `readlineFrom`, `step`, `readMsg`; `recv` commutes with dropping from the front of the buffer; conservation of content (C30); C89's stream for what is returned |
| C97 | `do_GET` (`Model/HttpServer`) with `open` in text mode (UTF-8, universal newlines); `guess_type` is a parameter; requests other than GET are not modelled | UTF-8 lemmas (C03) and byte-level `Newlines`; JSON text is ASCII; C87 for the data at any moment |
| C98 | the model of C68, C74 and C07 | exact values of fields (`Spec/Order`), `dmm2ddd` and `ddd2dmm` as compositions of monotone roundings; distance from the accuracy of C07 |
| C99 | `progbar`, the loop and the rates (`Model/Benchmark`), given the duration; the other lines printed and the command line are not modelled | messages by evaluation in the kernel (`parse` does not depend on the clock), bar by monotone rounding, loop by induction |
| C100 | `get_parts`, `__init__`, `_get_dict`, `_do_attributes`, `parse` and `read` once more, with the texts of the library's exceptions (`Model/ErrorText`); the texts of Python's own exceptions are not modelled | erasing the texts gives the functions of the other properties (induction); the entry by induction over the definition and the layout theorem (C16) for each initial part of it; the log by induction over the pieces of the file |
| C101 | as C100; `__setattr__` with its text (`Model/ErrorText`) | the entry by induction over the definition and the generation theorem (C05, `Emit`) for each initial part of it; the values that have no text by cases over types and values and the bounds of the coordinate conversion (C07) |
| C102 | the constructor once more, with any payload (`Model/AnyPayload`), and with further keywords (`Model/AnyPayloadKw`) | agreement with the model of the other properties on lists of texts by induction over the definition; reading item by item for static definitions (`ReadItems`) by induction over the definition and its repetitions; for definitions with repeating groups (`ExpandItems`) an invariant relates the state to the slots passed, as in C16; texts of numbers from C06 and C66 |

Nothing in the list is declared "not applicable".

## 4. Trusted base

* The Lean 4.33.0 kernel. `decide +kernel` is evaluated by the kernel; there is no `native_decide`,
  no `bv_decide`, no axiom of our own.
* Axioms: every theorem depends on a subset of `propext`, `Classical.choice`, `Quot.sound` (checked
  by `vcheck`).
* The reading of the Python source and of CPython's built-ins (nothing of the project was executed).
  The Python-semantics layer was compared with CPython's own built-ins on random inputs by
  `tools/validate.py` (float parsing and printing, formatting, rounding, strptime, str methods).
* `tools/gen_tables.py` and `tools/gen_decodes.py`, which turn the dictionary literals in /repo into Lean terms.

### Modelled

`nmeareader.py`: all of `parse`, `read`, `__next__`, `_read_bytes`, `_read_line`, `_do_error`, the
constructor's mode check. `nmeamessage.py`: everything (constructor, attribute loop, definition lookup
with all proprietary special cases, `str2val`, `val2str`, `nomval`, `__str__`, `__repr__`,
`__setattr__`, getters, `serialize`). `nmeahelpers.py`: all functions. `socketwrapper.py`: `_recv`,
`read`, `readline`, `dechunk`, `write`, `in_waiting`, constructor. `nmeatypes_*.py`: all tables used by the above.
Examples: the logic of `gpxtracker.py` (C84), `nmeapoller.py` (C85), `datums.py` (C86), `webserver/nmeaserver.py` (C87),
`quecteldemo.py` (C90), `nmeafile.py` and `nmeasocket.py` (C95), `webserver/gpshttpserver.py` (C97), `benchmark.py` (C99).

### Not modelled, or simplified

* `area`, `bearing`, `haversine`, `planar`, `llh2ecef`, `ecef2llh` are transcribed twice: over the real
  numbers (`Model/Geo`, C42, C43) and over binary64 (`Model/GeoFloat`, C70, C71) with libm's functions as
  parameters about which only an accuracy bound is assumed. All arguments are taken as floats.
* Texts of Python's own exceptions, of exceptions of the socket wrapper, and debug log texts. The texts of the library's
  exceptions raised by `parse`, the constructor, attribute assignment and `read` are modelled (`Model/ErrorText`, C100, C101).
* Python's limit on the depth of recursion, for an error handler that calls the reader itself (C88).
* `zlib`: three arbitrary partial functions.
* Arguments of the wrong Python type beyond the value kinds of `PyVal` (str, int, float, bool, bytes,
  date, time, None): e.g. `Decimal`, subclasses. Payloads that are not lists of texts are modelled separately (`Model/AnyPayload`, C102).
* Attribute names beginning with an underscore in user-defined dictionaries (they would overwrite
  private state of the object).
* `_version.py`; the examples `utilities.py` and `pynmeagps_usage.py` (straight-line calls and prints); the reading of the
  command line and the opening of files, ports and sockets in the other examples; HTML, CSS and JavaScript of the web page;
  keyword arguments of `SocketWrapper.write`.
* `hash`, `pickle`, `copy`, object identity; memory exhaustion. Threads: only calls of `read()` on a shared reader
  (C78), with the operations of the stream taken as atomic; not threads inside one `SocketWrapper` or message.

## 5. Findings (behaviour of the code that contradicts its documentation or the obvious expectation)

1. `IndexError` escapes `parse`/`read` for proprietary prefixes with a missing sub-id: `$PUBX*55` (C13).
2. A message without definition constructed from a payload is serialized with checksum `*None` (C53).
3. Type `DTL` is not supported by `str2val`: no LR2 sentence with a date can be parsed (C47).
4. Definitions are looked up under the upper-cased id, so user definitions with lower-case letters and
   the entry `TNLGGKx` are unreachable; 66 entries of the POLL table are unreachable (C51).
5. The sign/direction rule applies only to attributes named exactly `lat`/`lon` (C09).
6. Minutes can be printed as `60.00000`, seconds as `60.0`; tiny values are printed with an exponent
   which `dms2deg` then rejects (C07, C44).
7. A duplicated `$` before a sentence loses the sentence (C55); `nmeaonly` only reports `$x` headers (C27).
8. Bare LF ends a line in a file but not on a socket (C32); a socket failure inside a line consumes
   the partial line (C31).
9. `dechunk` loses data when a segment boundary falls between chunk data and its CRLF (C34); after a
   zero or malformed chunk header the rest of the segment is dropped.
10. `utc2wnotow`/`wnotow2utc` do not round trip in the last leap-second offset of each week (C37);
    the docstring example of `wnotow2utc` is a week off (C38); `leapsecond` is not monotone at
    1972-01-01 (C36).
11. `llh2iso6709` prints two minus signs for negative altitudes (C54).
12. Immutability does not cover `del msg.attr`, nor the list `msg.payload`, which is shared with the caller and can
    be edited; the checksum is then stale (C22).
13. An indeterminate group without members in a user definition raises `ZeroDivisionError` (C13).
14. `repr` loses the checksum, user definitions and high-precision flag; quotes in ids break it (C66).
15. Bracketed PSSNSNC sentences are not re-serialized acceptably (C04).
16. `hex2str` with padding of 10 or more pads with blanks (C45).
17. DTL dates before year 1000 are written with fewer than eight digits (C10).
18. A generated Quectel GET message whose first field is `ERROR` is read back as the NAK type (C48).
19. `haversine` uses the spherical law of cosines: over the reals it is defined everywhere (C42), but in
    floating point the argument of `acos` can leave [-1, 1] for (nearly) antipodal points, giving `ValueError`,
    e.g. haversine(-50.02, -72.91, 50.02, 107.09); and short distances lose precision (1 m is about 10 % off) (C70).
20. The keyword `mode` cannot be used for the seven sentence types with several layouts, and attributes
    named like parameters of private methods always clash (C21).
21. A serial timeout after one or two bytes silently loses the sentence (C67).
22. `planar` is not symmetric; `area` does not wrap at the date line (C42).
23. `ecef2llh` returns the nominal (0, 0, -1e7) within 100 km of the centre (C43).
24. Checksums are computed over code points and compared after `upper()`, under which the ligature 'ﬀ' is 'FF' (C03).
25. An attribute with an empty name in a user definition makes `__str__` raise IndexError (C52).
26. The conversion factors of `knots2spd` are off by 5e-7 (C46).
27. The direction is not applied to BEC, TLL, ACA, LRI, SM3, SM4 coordinates (C68).
28. `planar` does not wrap at the 180 degree meridian: it returns the length of the whole parallel (C73).
29. The dates of `PTNL,GGK`, `PTNL,PJK` and `PTNL,BPQ` are `mmddyy` in Trimble's description (and in the
    library's test data: `051910`), but are declared `DT` (`ddmmyy`): day and month are exchanged, or the date
    is empty (C74; `tests/test_stream.py:434-436` expects the empty and the exchanged dates).
30. Decimal attributes below 0.0001 or from 1e16 are written with an exponent (`1e-07`), which NMEA 0183 does
    not allow (C76).
31. `SocketWrapper.write` uses `send`: data may be written in part, without an error (C77). The constructor of
    `NMEAReader` takes data from the socket before it refuses an invalid mode (C77).
32. Two threads that call `read()` of one reader without a lock can get messages put together from bytes that are
    not adjacent, with a matching checksum: `GNGLL` is read as `NLL`, as the two `G` cancel (C78).
33. A sentence of which only a part was in the file when the reader reached its end is lost, after one or two
    bytes without any error (C79).
34. `PGPPADV,120` is declared with two satellites; the library's own test data have four: the others are dropped
    without an error (C74).
35. `FIXTYPE_GGA` calls quality 1 and 2 "2D" and "3D" (in the standard: without and with differential corrections) and
    has no entry for 7 and 8; `SIGNALID` lacks three GPS signals; `POSMODE` lacks M, P, S and cannot decode the several
    letters of GNS; the attribute `status` of FMI is text and no key of `FMI_STATUS` (C82).
36. `examples/gpxtracker.py` does not survive a GGA sentence without a time (which receivers send after a cold
    start) nor a malformed line: `AttributeError`, and the GPX file stays without its trailer; it calls quality 1 a
    3D and quality 2 a 2D fix, the opposite of `FIXTYPE_GGA` (C84).
37. In `examples/nmeapoller.py` a read that raises skips the sending of queued messages (nothing is sent while all reads
    raise), an exception in `write()` skips `task_done()`, so `join()` on the send queue would block for ever, and
    `stop` is not looked at while messages are sent (C85).
38. The semi-major axes of `examples/datums.py` are mirrored at WGS84's: each is 2·6378137 minus the ellipsoid's actual
    semi-major axis (Clarke 1880 is listed with 6378024.855 instead of 6378249.145, International with 6377886 instead of
    6378388, Airy with 6378710.604 instead of 6377563.396), so heights converted with them are wrong by up to 1.1 km. C86
    holds for the listed and for the actual values.
39. In `examples/webserver/nmeaserver.py` one RMC or GGA sentence with fewer than nine fields, or GSA sentence with fewer
    than seventeen, ends the reading thread for good (`AttributeError` is not among the exceptions caught): the page goes
    on answering with stale, partly updated data. It looks at the serial port's `in_waiting` but reads through a
    `BufferedReader`, so sentences already buffered are not processed until more bytes arrive; a field `nan` or `inf`
    makes the answer invalid JSON; and a request may see parts of two messages (C87).
40. In `examples/quecteldemo.py` six calls `NMEAMessage("P", "QTMCFG...", ...)` (CFGUART, CFGSAT, CFGSIGNAL) are not
    assigned to `msg`, so the message sent next is the previous one again (C90).
41. On a socket a sentence that ends in LF without CR is joined to the next line, and both are lost as one
    `NMEAParseError`; from a file or a serial line both are returned (C89).
42. Text given for an attribute is not escaped: `,`, `*`, `$`, CR and LF in a string value end up in the sentence as they
    are, and the receiver reads other fields, another checksum or a second sentence (C92).
43. A socket handed from one `SocketWrapper`/`NMEAReader` to another loses what the first has received but not yet
    returned (C94).
44. `examples/nmeafile.py` passes `quitonerror=False`, which is `ERR_IGNORE`: its error handler is never called and bad
    sentences are passed over in silence; messages that are `None` are printed and counted; an `IndexError` ends it.
    `examples/nmeasocket.py` ends at the first time-out between two sentences (C95).
45. `examples/webserver/gpshttpserver.py` reads `favicon.ico` in text mode: an icon that is not UTF-8 is never served, and
    one that is has its CR bytes changed (C97).
46. `examples/benchmark.py` fails with `ZeroDivisionError` for 1 to 19 cycles (C99).
47. `NMEATypeError` within a repeating group names the group (`group_sv`), not the attribute, nor which repetition; for an
    LR2 sentence it says `Unknown attribute type DTL.` (C100).
48. The constructor's check of keyword types is nearly vacuous: `numSV="many"`, `time=None` or `lat="north"` are accepted (written
    as they are, or as an empty field), and only integers of more than 4300 digits and overflowing coordinates are refused. If the
    keyword selecting a proprietary layout has the wrong type (`msgId=0`), the text reads `Incorrect type for attribute  in msgID
    UBX.`, naming nothing (C101).
49. The constructor accepts a payload with numbers, dates or None in it and computes a checksum, but `serialize()` then raises
    `TypeError`; date and time objects in the payload are silently replaced by empty attributes, and a payload given as one text is
    taken apart into characters (C102).

## 6. Testing the theorems against wrong programs

`seeded/LOG.jsonl` lists the mutations tried (one definition of the model edited in a scratch copy,
everything rebuilt, failing theorems recorded). A theorem whose claim was broken by an edit but which
still had a proof was tightened; the log says which.
