import Verif.Model.HttpServer
/-!
# Specification: what a web server shows of files
-/
namespace Spec
open Py Nmea

/-- The second is the first with every line end (CR LF, or CR alone) written as LF. -/
inductive Newlines : Bytes → Bytes → Prop where
  | nil : Newlines [] []
  | crlf (a b) : Newlines a b → Newlines (13 :: 10 :: a) (10 :: b)
  | cr (a b) : a.head? ≠ some 10 → Newlines a b → Newlines (13 :: a) (10 :: b)
  | other (c a b) : c ≠ 13 → Newlines a b → Newlines (c :: a) (c :: b)

/-- Bytes that are the UTF-8 form of some text. -/
def IsUtf8 (b : Bytes) : Prop := ∃ s, utf8Encode s = .ok b

/-- The pages there are: the paths of requests and the files they show. -/
def pages : List (Str × Str) :=
  [(py!"/", py!"index.html"), (py!"/index.html", py!"index.html"), (py!"/scripts.js", py!"scripts.js"),
    (py!"/styles.css", py!"styles.css"), (py!"/favicon.ico", py!"favicon.ico")]

end Spec
