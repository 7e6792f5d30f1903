import Verif.Printer.Model

/-!
# Model of the transfers behind the requests (lib/curlrequester.cpp: the constructors; lib/ippprinter.cpp: who calls them)

libcurl is represented by the options that are set: the URL, whether certificates are checked, the headers and the size of what is posted.
Not modelled: the timeout, the buffer sizes, CURLOPT_VERBOSE; the status of certificates (CURLOPT_SSL_VERIFYSTATUS) is not checked by default either.
-/

namespace Verif.Printer

/-- The options of a transfer. -/
structure Transfer where
  /-- CURLOPT_URL -/
  url : Bytes
  /-- CURLOPT_SSL_VERIFYPEER, on by default -/
  verifyPeer : Bool
  /-- CURLOPT_SSL_VERIFYHOST, on by default -/
  verifyHost : Bool
  /-- CURLOPT_HTTPHEADER -/
  headers : List Bytes
  /-- CURLOPT_POSTFIELDSIZE, if set -/
  size : Option Nat
  deriving DecidableEq, Repr

/-- `CurlRequester`, curlrequester.cpp 9-29. `USER_AGENT` is empty unless defined otherwise (curlrequester.h 12-14). -/
def requester (addr : Bytes) (ignoreSslErrors : Bool) : Transfer :=
  { url := addr, verifyPeer := !ignoreSslErrors, verifyHost := !ignoreSslErrors, headers := [ascii "User-Agent: "], size := none }

/-- `CurlIppPosterBase`, curlrequester.cpp 159-173: the first three characters are replaced. -/
def posterBase (addr : Bytes) (ignoreSslErrors : Bool) : Transfer :=
  let r := requester (ascii "http" ++ addr.drop 3) ignoreSslErrors
  { r with headers := r.headers ++ [ascii "Expect:", ascii "Content-Type: application/ipp", ascii "Accept-Encoding: identity"] }

/-- `CurlIppPoster`, curlrequester.cpp 188-194 -/
def poster (addr data : Bytes) (ignoreSslErrors : Bool) : Transfer :=
  { posterBase addr ignoreSslErrors with size := some data.length }

/-- `CurlIppStreamer`, curlrequester.cpp 196-201 -/
def streamer (addr : Bytes) (ignoreSslErrors : Bool) : Transfer :=
  let r := posterBase addr ignoreSslErrors
  { r with headers := r.headers ++ [ascii "Transfer-Encoding: chunked"] }

/-- The transfer that an event starts: ippprinter.cpp 515 (requests) and 139 (the document). `ignoreSslErrors` is the member of the printer, ippprinter.h 104,
as given to the constructor (ippprinter.h 41: true unless said otherwise, which ippclient does not). -/
def transferOf (p : Printer) (ignoreSslErrors : Bool) : Event → Option Transfer
  | .post _ bytes => some (poster p.addr bytes ignoreSslErrors)
  | .openStream _ _ => some (streamer p.addr true)
  | _ => none

/-- The transfers of an action. -/
def transfers (p : Printer) (ignoreSslErrors : Bool) (es : List Event) : List Transfer := es.filterMap (transferOf p ignoreSslErrors)

end Verif.Printer
