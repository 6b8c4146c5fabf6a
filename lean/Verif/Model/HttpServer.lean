import Verif.Model.WebServer
import Verif.Py.Utf8
/-!
# Model of the web server of the examples: /repo/examples/webserver/gpshttpserver.py

One `GET` request, as `http.server` of the standard library hands it to `do_GET`. Not modelled: the parsing of requests and
the writing of status line and headers by `http.server`; `guess_type` of the standard library is a parameter; `GPSDataStub`
(random numbers). Text files are read and written as UTF-8 (the default on Linux and macOS).
-/
namespace Nmea
open Py

/-- Universal newlines of `open(...)` in text mode: CR LF and CR become LF. -/
def uniNl : Str → Str
  | [] => []
  | 13 :: 10 :: r => 10 :: uniNl r
  | 13 :: r => 10 :: uniNl r
  | c :: r => c :: uniNl r

/-- What can be raised while a request is handled. -/
inductive PageErr where
  /-- `FileNotFoundError` -/
  | noFile
  /-- `UnicodeDecodeError` -/
  | notText
  /-- `UnicodeEncodeError` -/
  | notEncodable
  /-- by `get_data()` -/
  | data (e : Err)
  deriving DecidableEq, Repr

/-- What the client gets: status, content type and body; or nothing, the connection is closed (`http.server` prints the traceback). -/
inductive Reply where
  | answer (status : Nat) (mimetype : Str) (body : Bytes)
  | raised (e : PageErr)
  deriving DecidableEq, Repr

/-- `open(name).read()`: `files` is the working directory. -/
def readPage (files : Str → Option Bytes) (name : Str) : Except PageErr Str :=
  match files name with
  | none => .error .noFile
  | some b => match utf8Decode b with
    | none => .error .notText
    | some s => .ok (uniNl s)

/-- The paths (/repo/examples/webserver/gpshttpserver.py:30-33). -/
def HTML : Str := py!"/index.html"
@[inherit_doc HTML] def CSS : Str := py!"/styles.css"
@[inherit_doc HTML] def JS : Str := py!"/scripts.js"
@[inherit_doc HTML] def ICON : Str := py!"/favicon.ico"

/-- The end of `do_GET` (/repo/examples/webserver/gpshttpserver.py:104-107): `res.encode()` is evaluated
after the headers are sent; its failure is simplified to an exception without answer. -/
def sendPage (status : Nat) (mimetype res : Str) : Reply :=
  match utf8Encode res with
  | .ok b => .answer status mimetype b
  | .error _ => .raised .notEncodable

/-- `do_GET` (/repo/examples/webserver/gpshttpserver.py:84-107). -/
def doGet (files : Str → Option Bytes) (guess : Str → Str) (gps : Except Err Str) (path : Str) : Reply :=
  let path := if path = py!"/" then HTML else path
  if path ∈ [HTML, JS, CSS, ICON] then
    match readPage files (path.drop 1) with
    | .error e => .raised e
    | .ok res => sendPage 200 (guess path) res
  else if path = py!"/gps" then
    match gps with
    | .error e => .raised (.data e)
    | .ok res => sendPage 200 py!"application/json" res
  else sendPage 501 (guess path) py!"Unknown Request"

end Nmea
