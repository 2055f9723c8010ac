import Verif.Go.Basic
/-!
# `net/http`: what handlers write and what clients see
-/
namespace Migp.Http

/-- The headers the handlers of `/repo` set. `none` is "not set" (for `Content-Type`, `net/http` then guesses a
type from the body; that is not modelled). -/
structure Headers where
  contentType : Option GoString
  nosniff : Bool
deriving DecidableEq

/-- A `ResponseWriter`: the header map of the handler, the status and headers already sent, the body sent
so far. -/
structure Writer where
  header : Headers
  sent : Option (Nat × Headers)
  body : Bytes
deriving DecidableEq

/-- The writer a handler is called with. -/
def Writer.new : Writer := ⟨⟨none, false⟩, none, []⟩

/-- `w.Header().Set("Content-Type", v)`: has no effect on headers already sent. -/
def Writer.setContentType (w : Writer) (v : GoString) : Writer :=
  { w with header := { w.header with contentType := some v } }

/-- `w.WriteHeader(code)`: only the first call counts. -/
def Writer.writeHeader (w : Writer) (code : Nat) : Writer :=
  match w.sent with
  | none => { w with sent := some (code, w.header) }
  | some _ => w

/-- `w.Write(b)`: sends status 200 first if nothing has been sent. (Writes do not fail in the model: a failed
write means that the client is gone.) -/
def Writer.write (w : Writer) (b : Bytes) : Writer :=
  let w := w.writeHeader 200
  { w with body := w.body ++ b }

/-- `http.Error(w, text, code)`. -/
def Writer.error (w : Writer) (text : GoString) (code : Nat) : Writer :=
  let w := w.setContentType (ascii "text/plain; charset=utf-8")
  let w := { w with header := { w.header with nosniff := true } }
  (w.writeHeader code).write (text ++ [10])

/-- What the client receives when the handler has returned. -/
structure Reply where
  status : Nat
  headers : Headers
  body : Bytes
deriving DecidableEq

/-- The reply; status 200 if the handler sent nothing. -/
def Writer.reply (w : Writer) : Reply :=
  match w.sent with
  | none => ⟨200, w.header, w.body⟩
  | some (code, h) => ⟨code, h, w.body⟩

/-- `http.StatusText` for the codes used. -/
def statusText (code : Nat) : GoString :=
  if code = 400 then ascii "Bad Request"
  else if code = 500 then ascii "Internal Server Error"
  else []

/-! ## `ServeMux` -/

/-- `strings.Split(p, "/")`. -/
def splitSlash : Bytes → List Bytes
  | [] => [[]]
  | c :: cs =>
    if c.toNat = 47 then [] :: splitSlash cs
    else
      match splitSlash cs with
      | [] => [[c]]
      | x :: xs => (c :: x) :: xs

/-- The elements of a cleaned rooted path, last first. -/
def cleanElems : List Bytes → (acc : List Bytes) → List Bytes
  | [], acc => acc
  | x :: xs, acc =>
    if x = [] ∨ x = ascii "." then cleanElems xs acc
    else if x = ascii ".." then cleanElems xs acc.tail
    else cleanElems xs (x :: acc)

/-- `path.Clean` for a path that begins with a slash. -/
def pathClean (p : Bytes) : Bytes :=
  match (cleanElems (splitSlash p) []).reverse with
  | [] => [47]
  | xs => xs.flatMap (fun x => 47 :: x)

/-- `net/http.cleanPath`. -/
def cleanPath (p : GoString) : GoString :=
  let p := match p with
    | [] => [47]
    | c :: cs => if c.toNat = 47 then c :: cs else 47 :: c :: cs
  let np := pathClean p
  if p.getLast? = some 47 ∧ np ≠ [47] then np ++ [47] else np

/-- `ServeMux.Handler` for a mux with the pattern `/` and other patterns without a trailing slash, and a method
other than `CONNECT`: the pattern chosen, or the path redirected to (`.inr`). -/
def muxHandler (patterns : List GoString) (path : GoString) : GoString ⊕ GoString :=
  if cleanPath path ≠ path then .inr (cleanPath path)
  else if path ∈ patterns then .inl path
  else .inl [47]

end Migp.Http
